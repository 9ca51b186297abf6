import Verif.Props.Responder
import Verif.Props.Accepts
import Verif.Props.Config
import Verif.Spec.Reply
/-! C80: exactly which requests a responder answers, and with what. -/
namespace Spdm
open Spec

variable {c : Cfg} {cr : Crypto} {env : Env} {slots : List (Option FilledSlot)} {es : List RspEvent} {r : Responder}

/-! ### The specification determines the reply -/

theorem lowest_val_unique {n a b : Nat} (ha : Lowest n a) (hb : Lowest n b) : a = b := by
  obtain ⟨i, ⟨h1, h2⟩, rfl⟩ := ha
  obtain ⟨j, ⟨h3, h4⟩, rfl⟩ := hb
  rcases Nat.lt_trichotomy i j with h | rfl | h
  · rw [h4 i h] at h1; simp at h1
  · rfl
  · rw [h2 j h] at h3; simp at h3

theorem lowest_ne {n a : Nat} (h : Lowest n a) : n ≠ 0 := by
  rintro rfl
  obtain ⟨i, ⟨h1, _⟩, _⟩ := h
  simp at h1

theorem answers_unique {m : NegotiateAlgorithms} {a b : Algorithms} (ha : Answers m a) (hb : Answers m b) : a = b := by
  have h5 : a.algorithmResponses = b.algorithmResponses := by
    apply List.ext_getElem?
    intro i
    by_cases hi : i < m.numAlgorithmRequests.toNat
    · obtain ⟨q, p, g1, g2, g3, g4⟩ := ha.algs i hi
      obtain ⟨q', p', k1, k2, k3, k4⟩ := hb.algs i hi
      rw [g1, Option.some.injEq] at k1
      subst k1
      rw [g2, k2]
      have := lowest_val_unique g4 k4
      obtain ⟨pk, ps⟩ := p
      obtain ⟨pk', ps'⟩ := p'
      simp only at g3 k3 this
      rw [g3, k3, UInt16.toNat_inj.mp this]
    · by_cases h4 : i < 4
      · have l1 : a.algorithmResponses[i]? = some (a.algorithmResponses[i]'(by rw [ha.len]; exact h4)) := List.getElem?_eq_getElem _
        have l2 : b.algorithmResponses[i]? = some (b.algorithmResponses[i]'(by rw [hb.len]; exact h4)) := List.getElem?_eq_getElem _
        rw [l1, l2, ha.unused i _ l1 (by omega), hb.unused i _ l2 (by omega)]
      · rw [List.getElem?_eq_none (by rw [ha.len]; omega), List.getElem?_eq_none (by rw [hb.len]; omega)]
  obtain ⟨a1, a2, a3, a4, a5, a6⟩ := a
  obtain ⟨b1, b2, b3, b4, b5, b6⟩ := b
  have h1 := ha.spec.trans hb.spec.symm
  have h2 := lowest_val_unique ha.mhash hb.mhash
  have h3 := lowest_val_unique ha.asym hb.asym
  have h4 := lowest_val_unique ha.hash hb.hash
  have h6 := ha.num.trans hb.num.symm
  simp only [UInt32.toNat_inj] at h1 h2 h3 h4 h5 h6
  subst h1 h2 h3 h4 h5 h6
  rfl

theorem answers_nonempty {m : NegotiateAlgorithms} {a : Algorithms} (h : Answers m a) : NonEmptyOffer m where
  asym := lowest_ne h.asym
  hash := lowest_ne h.hash
  algs := by
    intro i q hq hi
    obtain ⟨q', p, g1, _, _, g4⟩ := h.algs i hi
    rw [hq, Option.some.injEq] at g1
    subst g1
    exact lowest_ne g4

theorem maskOf_unique {a b : UInt8} (ha : MaskOf slots a) (hb : MaskOf slots b) : a = b := by
  apply UInt8.toNat_inj.mp
  apply Nat.eq_of_testBit_eq
  intro i
  by_cases hi : i < 8
  · have := (ha i hi).trans (hb i hi).symm
    exact Bool.eq_iff_iff.mpr this
  · rw [Nat.testBit_lt_two_pow (Nat.lt_of_lt_of_le a.toNat_lt (Nat.pow_le_pow_right (by omega) (by omega))),
      Nat.testBit_lt_two_pow (Nat.lt_of_lt_of_le b.toNat_lt (Nat.pow_le_pow_right (by omega) (by omega)))]

theorem capabilitiesWord_unique {names : List String} {a b : Nat} (ha : CapabilitiesWord names a) (hb : CapabilitiesWord names b) : a = b := by
  apply Nat.eq_of_testBit_eq
  intro i
  exact Bool.eq_iff_iff.mpr ((ha.2 i).trans (hb.2 i).symm)

theorem Spec.Reply.code {prev : Option UInt8} {l : Log} {req out : Bytes} (h : Reply c cr env slots prev l req out) :
    (Spec.code req = some 0x84) ∨ (prev = some 0x84 ∧ Spec.code req = some 0xE1) ∨ (prev = some 0xE1 ∧ Spec.code req = some 0xE3) ∨
    (Spec.code req = some 0x81) ∨ (Spec.code req = some 0x82) ∨ (Spec.code req = some 0x83) := by
  cases h <;> simp [Spec.code]

/-- One request, one reply. -/
theorem Spec.Reply.unique (h0 : 0 < c.numSlots) (h8 : c.numSlots ≤ 8) {prev : Option UInt8} {l : Log} {req out out' : Bytes}
    (h : Reply c cr env slots prev l req out) (h' : Reply c cr env slots prev l req out') : out = out' := by
  generalize hr : req = req' at h'
  cases h with
  | version => cases h' <;> first | rfl | simp at hr
  | capabilities hm hw =>
    cases h' with
    | capabilities hm' hw' => rw [capabilitiesWord_unique hw hw']
    | _ => simp at hr
  | algorithms hm ha =>
    cases h' with
    | algorithms hm' ha' =>
      simp only [List.append_assoc, List.cons_append, List.nil_append, List.cons.injEq, true_and] at hr
      have := c78_one_meaning c _ h0 h8 (.negotiateAlgorithms _) (.negotiateAlgorithms _) (by rfl) _ _ _ _ hr hm hm'
      cases this
      rw [answers_unique ha ha']
    | _ => simp at hr
  | digests hp ht hmask hfit =>
    cases h' with
    | digests hp' ht' hmask' hfit' => rw [maskOf_unique hmask hmask']
    | _ => simp at hr
  | certificate hp hs hfit =>
    cases h' with
    | certificate hp' hs' hfit' =>
      simp only [List.append_assoc, List.cons_append, List.nil_append, List.cons.injEq, true_and] at hr
      obtain ⟨rfl, _⟩ := hr
      rw [hs, Option.some.injEq] at hs'
      rw [hs']
    | _ => simp at hr
  | challenge hp hn hs hfit hmask hds hss hd hd2 hsig hsl =>
    cases h' with
    | challenge hp' hn' hs' hfit' hmask' hds' hss' hd' hd2' hsig' hsl' =>
      have hi := hr
      simp only [List.append_assoc, List.cons_append, List.nil_append, List.cons.injEq, true_and] at hi
      obtain ⟨rfl, _⟩ := hi
      rw [hs, Option.some.injEq, Option.some.injEq] at hs'
      subst hs'
      have := maskOf_unique hmask hmask'
      subst this
      rw [hr, hsig', Option.some.injEq] at hsig
      rw [hsig]
    | _ => simp at hr

/-! ### The configured capabilities -/

theorem configured_word (hn : ∀ a ∈ c.capabilities, ∃ k, (a, k) ∈ capabilityBits) :
    ∃ w : UInt32, Responder.configToCapabilities c = .ok ⟨12, w⟩ ∧ CapabilitiesWord c.capabilities w.toNat := by
  obtain ⟨w, h1, h2⟩ := parseFlags_ok RspFlags.fromStr (fun a k => (a, k) ∈ capabilityBits) c.capabilities 0 (by
    intro a ha
    obtain ⟨k, hk⟩ := hn a ha
    exact ⟨k, hk, (flag_of_name hk).2.2, (flag_of_name hk).2.1, fun j hj => capabilityBits_functional hj hk⟩)
  exact ⟨w, by unfold Responder.configToCapabilities; rw [h1]; rfl, w.toNat_lt, fun k => by rw [h2 k]; simp⟩

/-! ### Accepted means replied -/

theorem step_reply (h0 : 0 < c.numSlots) (h8 : c.numSlots ≤ 8) (hl : slots.length = c.numSlots) (hn : ∀ a ∈ c.capabilities, ∃ k, (a, k) ∈ capabilityBits)
    {p : Option UInt8} {l : Log} {st st' : RspState} {req out tr' : Bytes} {sg : List (Nat × Bytes)} (hm : RMatch p l st)
    (step : Step c cr env slots st l.text req out tr' sg st') : Reply c cr env slots p l req out := by
  cases step with
  | @getVersion _ _ _ tail live hreq =>
    rw [hreq]
    exact Reply.version (tail := tail)
  | @getCapabilities _ _ tail m q hreq hm' hr =>
    obtain ⟨w, h1, h2⟩ := configured_word hn
    rw [h1] at hr
    cases hr
    cases hm
    rw [hreq]
    have := Reply.capabilities (c := c) (cr := cr) (env := env) (slots := slots) (l := l) (tail := tail) hm' h2
    simpa [Wire.header, Wire.capabilities, zeros] using this
  | @negotiate caps _ _ m a hreq hp hmw ha =>
    cases hm
    have h1 : AnyMsg.parse c ⟨0, 0, false⟩ .negotiateAlgorithms (req.drop 2) = .ok (.negotiateAlgorithms m) := by
      simp only [AnyMsg.parse, hp]; rfl
    obtain ⟨_, bs, rest, h2, h3⟩ := (c78_accepts_iff c _ h0 h8 _ _ _).mp h1
    have hq : req = [0x11, 0xE3] ++ bs ++ rest := by
      rw [List.append_assoc, ← h2, ← List.take_append_drop 2 req, hreq]
      simp [Wire.header]
    rw [hq]
    exact Reply.algorithms h3 ha
  | @getDigests n _ _ d h3 hreq hd =>
    cases hm with
    | idAuth hk hw =>
      have hq : req = [0x11, 0x81] ++ req.drop 2 := by
        conv => lhs; rw [← List.take_append_drop 2 req, hreq]
        rfl
      have hwh := words_hash hw
      rw [digests_layout hd, digestBytes_slots, ← hwh, hq]
      refine Reply.digests (mask := d.slotMask) hk (by intro h; have := congrArg List.length h; simp at this; omega) ?_ ?_
      · intro i hi
        rw [hd.mask i hi, List.getElem?_map]
        rcases slots[i]? with _ | _ | s <;> simp
      · intro s hs
        have hmem : some s.certChain ∈ chainsOf slots := by simp only [List.mem_map]; exact ⟨some s, hs, rfl⟩
        obtain ⟨f1, f2, f3⟩ := hd.fits _ hmem
        have hr := hd.ring ⟨_, hmem⟩
        unfold RingHash at hr
        rw [← hw.hash] at hr
        exact ⟨⟨f1, f2⟩, hd.prov ⟨_, hmem⟩, hr, by rw [hwh]; exact f3⟩
  | @getCertificate n _ _ tail chain m hreq hs hc =>
    cases hm with
    | idAuth hk hw =>
      have hlt : m.slot.toNat < slots.length := by omega
      have hsl : slots[m.slot.toNat]? = some slots[m.slot.toNat] := List.getElem?_eq_getElem hlt
      have hcb : chainBytes slots[m.slot.toNat] = chain ∧ chain.length ≤ c.maxCertChainSize ∧ chain.length ≤ 65535 := by
        rw [List.getElem?_map, hsl] at hc
        rcases hx : slots[m.slot.toNat] with _ | s
        · rw [hx] at hc
          simp only [Option.map_some, Option.map_none] at hc
          rcases hc with ⟨_, rfl⟩ | ⟨ch, hch, _⟩
          · exact ⟨rfl, by simp, by simp⟩
          · simp at hch
        · rw [hx] at hc
          simp only [Option.map_some] at hc
          rcases hc with ⟨hn, _⟩ | ⟨ch, hch, rfl, h65, hmx⟩
          · simp at hn
          · simp only [Option.some.injEq] at hch
            subst hch
            exact ⟨rfl, hmx, h65⟩
      have := Reply.certificate (c := c) (cr := cr) (env := env) (slots := slots) (l := l) (offset := m.offset) (length := m.length) (tail := tail) hk hsl
        (by unfold ChainFits; rw [hcb.1]; exact hcb.2)
      rw [hcb.1] at this
      have h16 : (UInt16.ofNat chain.length).toNat = chain.length := ofNat_toNat16 (by omega)
      rw [hreq]
      simp only [Wire.certificate, Wire.header, Wire.getCertificate, h16]
      simpa [Spec.le, zeros, List.range_succ] using this
  | @challenge n _ _ tail sig auth m slot mask ds ss hreq hnn hds hss hs hlt hch hmask ring hauth hsig hsl prov hdl hml =>
    cases hm with
    | challenge hk hw =>
      have hwh := words_hash hw
      have hq : req = [0x11, 0x83, m.slot, Wire.hashType m.measurementHashType] ++ m.nonce ++ tail := by
        rw [hreq]; simp [Wire.header, Wire.challenge]
      have ha := authMsg_part (c := c) hw (slot := m.slot) (mask := mask) (d := cr.hash n.algorithms.baseHashAlgoSelected (Wire.chain slot.certChain)) (nc := env.nonce) hds
      rw [← hauth, ← hwh] at ha
      have hr : l.hash = 1 ∨ l.hash = 2 ∨ l.hash = 4 := by rw [hw.hash]; exact ring
      rw [← hwh] at hml hdl hsig
      rw [hq, ha] at hsig hml ⊢
      refine Reply.challenge hk hnn hs ⟨hch.2, hch.1⟩ hmask ?_ ?_ ⟨prov, hr, hdl⟩ ⟨prov, hr, hml⟩ hsig ?_
      · rw [hw.hash, getDigestSize_sizeFor hds]
        obtain ⟨_, _, _, h⟩ := getDigestSize_ok.mp hds
        exact h
      · obtain ⟨i, h1, h2, h3⟩ := getSignatureSize_ok.mp hss
        exact ⟨i, _, by rw [hw.asym]; exact h1, h2, h3⟩
      · rw [hsl, hw.asym, getSignatureSize_sizeFor hss]

/-! ### Replied means accepted -/

theorem reply_dispatch (h0 : 0 < c.numSlots) (h8 : c.numSlots ≤ 8) (hl : slots.length = c.numSlots) (hn : ∀ a ∈ c.capabilities, ∃ k, (a, k) ∈ capabilityBits)
    {p : Option UInt8} {l : Log} {st : RspState} {req out : Bytes} (hm : RMatch p l st) (hrep : Reply c cr env slots p l req out) {h : HState} (hw : h.tr.WF)
    (ht : h.tr.get = l.text) (hb : out.length ≤ h.rsp.length) (hroom : ((l.add req).add out).text.length ≤ h.tr.buf.length) :
    ∃ n st' h', Responder.dispatch c cr env slots st req h = (.ok (n, st'), h') := by
  cases hrep with
  | @version _ _ tail =>
    have hv : ∃ n h', Responder.versionHandle ([0x10, 0x84, 0, 0] ++ tail) h = (.ok (n, .capabilities), h') := by
      have := versionHandle_run (body := [0, 0] ++ tail) (h := h) (GetVersion.reads.parse tail) (by simp) (by simpa using hb) (by
        simp [Log.add, Spec.code, Log.empty] at hroom
        simp; omega)
      simpa [Wire.header] using this
    obtain ⟨n, h', hv⟩ := hv
    have hp : MsgType.getVersion.parseHeader ([0x10, 0x84, 0, 0] ++ tail) = .ok true := by
      have := header_append (t := .getVersion) (bs := [0, 0] ++ tail) (by simp) .getVersion
      simpa [Wire.header] using this
    refine ⟨n, .capabilities, h', ?_⟩
    cases hm with
    | version => exact hv
    | capabilities => simp only [Responder.dispatch, Responder.capabilitiesHandle, Responder.resetOnGetVersion, hp]; exact hv
    | algorithms => simp only [Responder.dispatch, Responder.algorithmsHandle, Responder.resetOnGetVersion, hp]; exact hv
    | idAuth => simp only [Responder.dispatch, Responder.idAuthHandle, Responder.resetOnGetVersion, hp]; exact hv
    | challenge => simp only [Responder.dispatch, Responder.challengeHandle, Responder.resetOnGetVersion, hp]; exact hv
  | @capabilities _ m w tail hm' hw' =>
    cases hm with
    | idAuth hk => rcases hk with h | h <;> simp at h
    | challenge hk => rcases hk with h | h <;> simp at h
    | capabilities =>
    obtain ⟨w', h1, h2⟩ := configured_word hn
    have hww := capabilitiesWord_unique hw' h2
    subst hww
    have := capabilities_run (c := c) hm' (tail := tail) h1 (h := h) hw (by simpa [le_length] using hb) (by
      simp [Log.add, Spec.code, le_length, Wire.getCapabilities, zeros] at hroom
      rw [ht]; omega)
    obtain ⟨n, h', this⟩ := this
    exact ⟨n, _, h', by simpa [Wire.header, Responder.dispatch] using this⟩
  | @algorithms _ m a bs tail hd ha =>
    cases hm with
    | idAuth hk => rcases hk with h | h <;> simp at h
    | challenge hk => rcases hk with h | h <;> simp at h
    | @algorithms _ caps hq hp =>
    have h1 := (c78_accepts_iff c ⟨0, 0, false⟩ h0 h8 .negotiateAlgorithms (bs ++ tail) (.negotiateAlgorithms m)).mpr ⟨rfl, bs, tail, rfl, hd⟩
    have hparse : NegotiateAlgorithms.parseBody (bs ++ tail) = .ok m := by
      simp only [AnyMsg.parse] at h1
      obtain ⟨x, h2, h3⟩ := res_map_ok_inv h1
      cases h3
      exact h2
    have hlen : 3 ≤ ([0x11, 0xE3] ++ bs ++ tail).length := by
      obtain ⟨_, len, ea, eh, eA, eH, al, _, _, _, _, hbs⟩ := hd
      rw [hbs]; simp
    have hans : (Wire.algorithms a).length = 34 + 4 * m.numAlgorithmRequests.toNat := by
      have hlen := ha.len
      have h4 := hd.1.num
      have hf : ∀ l : List AlgorithmRequest, (l.flatMap Wire.alg).length = 4 * l.length := by
        intro l
        induction l with
        | nil => rfl
        | cons x xs ih => rw [List.flatMap_cons, List.length_append, ih]; simp [Wire.alg, le_length]; omega
      simp only [Wire.algorithms, List.length_append, hf, List.length_take, le_length, zeros, List.length_replicate, List.length_cons, List.length_nil]
      rw [ha.num, Nat.min_eq_left (by omega)]
    have := algorithms_run (caps := caps) hd.1 (answers_nonempty ha) hlen (by simp [Wire.header]) (by simpa using hparse) (h := h) hw (by
      simp only [List.length_append, hans] at hb
      simp at hb
      omega) (by
      simp [Log.add, Spec.code] at hroom
      rw [hans] at hroom
      rw [ht]
      simp
      omega)
    obtain ⟨n, h', a', _, this⟩ := this
    exact ⟨n, _, h', this⟩
  | @digests prev mask _ tail hp htl hmask hfit =>
    cases hm with
    | challenge hk => rcases hk with rfl | rfl <;> simp at hp
    | capabilities => simp at hp
    | algorithms => simp at hp
    | @idAuth _ _ n hk hwd =>
      have hwh := words_hash hwd
      obtain ⟨m, h', hd⟩ := getDigests_run (c := c) (cr := cr) (slots := slots) (ng := n) (req := [0x11, 0x81] ++ tail) hl h8
        (by have := List.length_pos_iff.mpr htl; simp; omega) rfl
        (fun ch hch => by
          simp only [List.mem_map] at hch
          obtain ⟨o, ho, hoc⟩ := hch
          cases o with
          | none => simp at hoc
          | some s =>
            simp only [Option.map_some, Option.some.injEq] at hoc
            subst hoc
            obtain ⟨⟨q1, q2⟩, q3, q4, q5⟩ := hfit s ho
            rw [hwh] at q5
            rw [hwd.hash] at q4
            exact ⟨q3, q4, q1, q2, q5⟩)
        (h := h) hw (by
          rw [digestBytes_slots, ← hwh]
          simp only [List.length_append, List.length_cons, List.length_nil] at hb
          omega)
        (by
          rw [digestBytes_slots, ← hwh, ht]
          simp [Log.add, Spec.code] at hroom
          simp
          omega)
      exact ⟨_, _, _, hd⟩
  | @certificate prev i _ offset length slot tail hp hs hfit =>
    cases hm with
    | challenge hk => rcases hk with rfl | rfl <;> simp at hp
    | capabilities => simp at hp
    | algorithms => simp at hp
    | @idAuth _ _ n hk hwd =>
      have hreq : [0x11, 0x82, i, 0] ++ le 2 offset.toNat ++ le 2 length.toNat ++ tail = Wire.header .getCertificate ++ Wire.getCertificate ⟨i, offset, length⟩ ++ tail := by
        simp [Wire.header, Wire.getCertificate, zeros]
      have hsv : servedChain (chainsOf slots) i.toNat = chainBytes slot := by
        unfold servedChain
        rw [List.getElem?_map, hs]
        cases slot <;> rfl
      obtain ⟨m, h', hd⟩ := getCertificate_run (c := c) (cr := cr) (slots := slots) (ng := n) (m := ⟨i, offset, length⟩) (tail := tail) hl
        (by have := (List.getElem?_eq_some_iff.mp hs).1; simp only; omega) (by rw [hsv]; exact hfit.1) (by rw [hsv]; exact hfit.2)
        (h := h) hw (by
          rw [hsv]
          simp only [List.length_append, List.length_cons, List.length_nil, le_length] at hb
          omega)
        (by
          rw [hsv, ht]
          simp [Log.add, Spec.code, le_length] at hroom
          omega)
      rw [hreq]
      exact ⟨_, _, _, hd⟩
  | @challenge prev i mask _ t nonce tail sig slot hp hnn hs hfit hmask hds hss hd hd2 hsig hsl =>
    cases hm with
    | idAuth hk => rcases hk with rfl | rfl <;> simp at hp
    | capabilities => simp at hp
    | algorithms => simp at hp
    | @challenge _ _ n hk hwd =>
      have hwh := words_hash hwd
      have hreq : [0x11, 0x83, i, Wire.hashType t] ++ nonce ++ tail = Wire.header .challenge ++ Wire.challenge ⟨i, t, nonce⟩ ++ tail := by
        simp [Wire.header, Wire.challenge]
      obtain ⟨hpr, hring, hdl⟩ := hd
      have hds' : BaseHashAlgo.getDigestSize c n.algorithms.baseHashAlgoSelected = .ok (sizeFor digestSizes l.hash) := by
        rw [getDigestSize_ok]
        rw [← hwd.hash]
        rcases hring with e | e | e
        · exact ⟨0, e, by rw [e]; decide, hds⟩
        · exact ⟨1, e, by rw [e]; decide, hds⟩
        · exact ⟨2, e, by rw [e]; decide, hds⟩
      have hss' : BaseAsymAlgo.getSignatureSize c n.algorithms.baseAsymAlgoSelected = .ok (sizeFor signatureSizes l.asym) := by
        obtain ⟨k, z, h1, h2, h3⟩ := hss
        have h4 : BaseAsymAlgo.getSignatureSize c n.algorithms.baseAsymAlgoSelected = .ok z := getSignatureSize_ok.mpr ⟨k, by rw [← hwd.asym]; exact h1, h2, h3⟩
        rw [h4, hwd.asym, getSignatureSize_sizeFor h4]
      have hh : Hashable c cr n.algorithms.baseHashAlgoSelected slot.certChain :=
        ⟨hpr, by unfold RingHash; rw [← hwd.hash]; exact hring, hfit.1, hfit.2, by rw [← hwh]; exact hdl⟩
      have hal : ∀ mask, (authPart l i mask (cr.hash (UInt32.ofNat l.hash) (Wire.chain slot.certChain)) env.nonce).length =
          10 + (cr.hash n.algorithms.baseHashAlgoSelected (Wire.chain slot.certChain)).length + env.nonce.length + sizeFor digestSizes l.hash := by
        intro mask
        rw [← authMsg_part hwd hds', authMsg_length, hwh]
      have hadd : ((l.add ([0x11, 0x83, i, Wire.hashType t] ++ nonce ++ tail)).add (authPart l i mask (cr.hash (UInt32.ofNat l.hash) (Wire.chain slot.certChain)) env.nonce ++ sig)).text =
          l.text ++ ([0x11, 0x83, i, Wire.hashType t] ++ nonce ++ tail) ++ authPart l i mask (cr.hash (UInt32.ofNat l.hash) (Wire.chain slot.certChain)) env.nonce := by
        rw [add_plain (l := l) (m := [0x11, 0x83, i, Wire.hashType t] ++ nonce ++ tail) (k := 0x83) rfl (by decide)]
        have hc2 : Spec.code (authPart l i mask (cr.hash (UInt32.ofNat l.hash) (Wire.chain slot.certChain)) env.nonce ++ sig) = some 0x03 := rfl
        have htk : (authPart l i mask (cr.hash (UInt32.ofNat l.hash) (Wire.chain slot.certChain)) env.nonce ++ sig).take
            ((authPart l i mask (cr.hash (UInt32.ofNat l.hash) (Wire.chain slot.certChain)) env.nonce ++ sig).length - sizeFor signatureSizes l.asym) =
            authPart l i mask (cr.hash (UInt32.ofNat l.hash) (Wire.chain slot.certChain)) env.nonce := by
          rw [List.length_append, hsl, Nat.add_sub_cancel, List.take_left]
        simp only [Log.add, hc2, htk]
      rw [hadd, List.length_append, List.length_append, hal] at hroom
      rw [List.length_append, hal, hsl] at hb
      obtain ⟨z, h', hrun⟩ := challenge_run' (c := c) (cr := cr) (env := env) (slots := slots) hl h8 (ng := n) (m := ⟨i, t, nonce⟩) (tail := tail) hnn hds' hss' hs hh (h := h) hw
        (by
          intro mask' hmask' msg hmsg
          have : mask' = mask := maskOf_unique (fun i _ => hmask' i) hmask
          subst this
          rw [ht, ← hreq, authMsg_part hwd hds', ← hwh] at hmsg
          subst hmsg
          rw [← hwh]
          exact ⟨hd2.2.2, sig, hsig, hsl⟩)
        (by omega)
        (by
          rw [ht]
          simp only [List.length_append, List.length_cons, List.length_nil, hnn] at hroom
          omega)
      rw [hreq]
      exact ⟨_, _, _, hrun⟩

/-! ### C80 -/

/-- C80. A responder in use answers a request exactly if the request is one of the `Reply` relation, the reply fits the buffer, and the transcript has room for both;
and the answer is the one of the relation. -/
theorem c80_answered_iff (h0 : 0 < c.numSlots) (h8 : c.numSlots ≤ 8) (hl : slots.length = c.numSlots) (hn : ∀ a ∈ c.capabilities, ∃ k, (a, k) ∈ capabilityBits)
    (run : RspRun c cr slots es r) (ha : alive es = true) (env : Env) (req buf out : Bytes) :
    (Responder.handleMsg c cr env req buf r).1 = .ok ⟨out, none⟩ ↔
      Reply c cr env slots (lastReq es) (conversation (rspMsgs es)) req out ∧ out.length ≤ buf.length ∧
        (((conversation (rspMsgs es)).add req).add out).text.length ≤ c.transcriptSize := by
  constructor
  · intro hok
    obtain ⟨st, st', sg, hlive, _, step, _, hlen⟩ := run_step hl h8 run ha hok
    refine ⟨step_reply h0 h8 hl hn hlive.mat step, hlen, ?_⟩
    rw [← (step_match hlive.mat step).1]
    have hk := run_kept hl h8 (.call (env := env) (req := req) (buf := buf) run)
    rw [← hk.cap]
    have := hk.wf
    unfold Transcript.WF at this
    unfold Transcript.get
    rw [List.length_take]
    omega
  · rintro ⟨hrep, hb, hroom⟩
    obtain ⟨st, hlive⟩ := run_live hl h8 run ha
    obtain ⟨n, st', h', hd⟩ := reply_dispatch h0 h8 hl hn hlive.mat hrep (h := ⟨buf, r.transcript, r.signed⟩) hlive.wf hlive.text hb (by simp only; rw [hlive.cap]; exact hroom)
    obtain ⟨out', r', sg, he, _, _, step⟩ := call_accepts hl h8 hlive.toRspKept hlive.state hd
    rw [hlive.text] at step
    rw [he, (step_reply h0 h8 hl hn hlive.mat step).unique h0 h8 hrep]

theorem demo_named : ∀ a ∈ demoCfg.capabilities, ∃ k, (a, k) ∈ capabilityBits := by
  intro a ha
  have : a = "CERT_CAP" ∨ a = "CHAL_CAP" := by simpa [demoCfg] using ha
  rcases this with rfl | rfl
  · exact ⟨1, by decide⟩
  · exact ⟨2, by decide⟩

/-- C80 at work: after the whole demo session a GET_VERSION with trailing bytes has a reply, hence it is answered;
GET_DIGESTS has none there. -/
example : (Responder.handleMsg demoCfg demoCrypto demoEnv [0x10, 0x84, 0, 0, 9, 9] (List.replicate 10 7) (demoResponder 6)).1 =
    .ok ⟨[0x10, 0x04, 0, 0, 0, 2, 0, 0x10, 0, 0x11], none⟩ :=
  (c80_answered_iff (by decide) (by decide) rfl demo_named (demo_run 6) (by decide +kernel) _ _ _ _).mpr ⟨Reply.version (tail := [9, 9]), by decide, by decide +kernel⟩
example (buf out : Bytes) : (Responder.handleMsg demoCfg demoCrypto demoEnv [0x11, 0x81, 0, 0] buf (demoResponder 6)).1 ≠ .ok ⟨out, none⟩ := by
  intro h
  have h1 := ((c80_answered_iff (by decide) (by decide) rfl demo_named (demo_run 6) (by decide +kernel) _ _ _ _).mp h).1
  have h2 : lastReq (demoEvents 6) = some 0x83 := by decide +kernel
  rw [h2] at h1
  generalize hr : ([0x11, 0x81, 0, 0] : Bytes) = req at h1
  cases h1 with
  | digests hp => simp at hp
  | _ => simp at hr

end Spdm
