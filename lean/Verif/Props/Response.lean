import Verif.Props.Accepts
import Verif.Props.Negotiation
import Verif.Props.Config
import Verif.Props.ReqAborts
import Verif.Lemmas.Handshake
import Verif.Spec.Response
/-! C81: exactly which responses a requester accepts. -/
namespace Spdm
open Spec

variable {c : Cfg} {cr : Crypto} {root : Bytes} {offer : NegotiateAlgorithms} {es : List ReqEvent} {r : Requester}

theorem denotes_split (h0 : 0 < c.numSlots) (h8 : c.numSlots ≤ 8) {x : Ctx} {t : MsgType} {rsp : Bytes} {m : AnyMsg} (hh : rsp.take 2 = Wire.header t)
    (hp : AnyMsg.parse c x t (rsp.drop 2) = .ok m) : ∃ bs tail, rsp = Wire.header t ++ bs ++ tail ∧ Denotes c x bs m := by
  obtain ⟨_, bs, tail, h1, h2⟩ := (c78_accepts_iff c x h0 h8 _ _ _).mp hp
  refine ⟨bs, tail, ?_, h2⟩
  rw [List.append_assoc, ← h1, ← hh, List.take_append_drop]

theorem denotes_parse (h0 : 0 < c.numSlots) (h8 : c.numSlots ≤ 8) {x : Ctx} {bs tail : Bytes} {m : AnyMsg} (h : Denotes c x bs m) :
    AnyMsg.parse c x m.ty (bs ++ tail) = .ok m := (c78_accepts_iff c x h0 h8 _ _ _).mpr ⟨rfl, bs, tail, rfl, h⟩

theorem isDerInteger_pos {bs : Bytes} {n : Nat} (h : IsDerInteger bs n) : n ≠ 0 := by
  obtain ⟨content, _, hv, ⟨b, hb, _⟩, hz⟩ := h
  have mono : ∀ (l : Bytes) (k : Nat), k ≤ l.foldl (fun n b => n * 256 + b.toNat) k := by
    intro l
    induction l with
    | nil => intro k; simp
    | cons x xs ih => intro k; rw [List.foldl_cons]; exact Nat.le_trans (by omega) (ih _)
  rw [← hv]
  cases content with
  | nil => simp at hb
  | cons x xs =>
    simp only [List.getElem?_cons_zero, Option.some.injEq] at hb hz
    subst hb
    unfold beVal
    rw [List.foldl_cons]
    by_cases hx : x = 0
    · obtain ⟨y, hy, h128⟩ := hz hx
      cases xs with
      | nil => simp at hy
      | cons z zs =>
        simp only [List.getElem?_cons_succ, List.getElem?_cons_zero, Option.some.injEq] at hy
        subst hy
        rw [List.foldl_cons]
        have := mono zs ((0 * 256 + x.toNat) * 256 + z.toNat)
        omega
    · have h1 : x.toNat ≠ 0 := by
        intro h; apply hx; apply UInt8.toNat_inj.mp; rw [h]; rfl
      have := mono xs (0 * 256 + x.toNat)
      omega

theorem selected_valid (ho : Requester.configToNegotiateAlgorithms c = .ok offer) {a : Algorithms} (ha : AlgorithmsWF a) (hs : SelectedFrom offer a) :
    Requester.ensureValidAlgorithmsSelected (some offer) a = .ok () := by
  obtain ⟨o1, o2, o3, o4⟩ := offer_wf ho
  refine (ensureValid_iff (by rw [o1, o2]; decide) ha).mpr ⟨hs.spec, hs.asym, hs.hash, hs.mhash, ?_⟩
  intro k p hp hk j q hq hj hkind
  obtain ⟨q', hq', hk', hof⟩ := hs.algs k p hp hk
  have huniq : ∀ x ∈ Requester.offeredRequests, ∀ y ∈ Requester.offeredRequests, x.kind = y.kind → x = y := by decide
  have : q = q' := by
    apply huniq
    · rw [← o1]; exact List.mem_of_getElem? hq
    · rw [← o1]; exact List.mem_of_mem_take hq'
    · rw [hkind, hk']
  rw [this]; exact hof

/-! ### Accepted means acceptable -/

/-- A CHALLENGE_AUTH that a requester accepted whose state holds the chain of the CERTIFICATE message `cert`. -/
theorem auth_acceptable (h0 : 0 < c.numSlots) (h8 : c.numSlots ≤ 8) {l : Log} {s : ReqChallenge} {st' : ReqState} {m0 m1 m2 m3 cert ctail rsp tr' : Bytes} {ct : Certificate}
    (hha : l.hash = s.algorithms.baseHashAlgoSelected.toNat) (has : l.asym = s.algorithms.baseAsymAlgoSelected.toNat)
    (h4 : cert = Wire.header .certificate ++ Wire.certificate ct ++ ctail) (hcw : CertificateWF c ct) (hs : s.certSlot = ct.slot) (hc : s.certChain = ct.certChain)
    (hz : s.certChainSize = ct.portionLength) (h : ReqRecv c cr root (.challenge s) l.text rsp tr' st') :
    Acceptable c cr root offer [m0, m1, m2, m3, cert] l rsp (decide (st' = .newSession)) := by
  cases h with
  | @challenge _ _ _ m chain ds ss h3 hh hds hss hp hslot hmask hsz hring hhash hlen hch hver prov hml =>
    obtain ⟨cw, hchain⟩ := CertificateChain.parse_inv hch
    have hhl : UInt32.ofNat l.hash = s.algorithms.baseHashAlgoSelected := ofNat_toNat32 hha
    have hal : UInt32.ofNat l.asym = s.algorithms.baseAsymAlgoSelected := ofNat_toNat32 has
    have hds' : sizeFor digestSizes l.hash = ds := by rw [hha]; exact getDigestSize_sizeFor hds
    have hss' : sizeFor signatureSizes l.asym = ss := by rw [has]; exact getSignatureSize_sizeFor hss
    have hpl : (Wire.chain chain).length = ct.portionLength.toNat := by
      rw [← hchain, List.length_take, hc, hz, hcw.len]
      have := hcw.portion
      omega
    have hr : l.hash = 1 ∨ l.hash = 2 ∨ l.hash = 4 := by rw [hha]; exact hring
    obtain ⟨bs, tail, h1, h2⟩ := denotes_split (x := ⟨sizeFor digestSizes l.hash, sizeFor signatureSizes l.asym, false⟩) h0 h8 hh (m := .challengeAuth m)
      (by simp only [AnyMsg.parse, hds', hss', hp]; rfl)
    obtain ⟨out, n, d1, d2, d3⟩ := hver.der
    have hmask' : m.slot.toNat < 8 ∧ m.slotMask.toNat.testBit m.slot.toNat = true := by
      apply hmask
      intro h15
      obtain ⟨_, _, _, _, hle, _⟩ := h2
      rw [h15] at hle
      simp at hle
      omega
    obtain ⟨_, _, _, hle⟩ := getDigestSize_ok.mp hds
    obtain ⟨_, _, _, hle2⟩ := getSignatureSize_ok.mp hss
    have hcl : m.certChainHash.length = ds := by
      obtain ⟨_, _, _, _, _, hq, _⟩ := h2
      rw [hq]; exact hds'
    rw [hchain, ← hhl] at hhash
    rw [← hss', ← hhl] at hml
    rw [← hss', ← hal, ← hhl] at d3
    have htr := hver.trust
    rw [← hal] at htr
    simp only [decide_true]
    rw [h1] at hml d3 ⊢
    exact Acceptable.auth (slot := m.slot) (rem := ct.remainderLength.toNat) (chain := chain) (m := m) (der := out.take n) (tail' := ctail)
      (by
        rw [h4, Wire.certificate, hpl, ← hz, ← hchain, hc, hslot, hs]
        simp [Wire.header, zeros])
      (by rw [hds']; exact cw) (by rw [hds']; exact hle) (by rw [hss']; exact hle2) (by rw [has]; exact hver.algo) h2 rfl hmask'
      ⟨prov, hr, by rw [← hhash, hcl]; exact hle⟩ hhash ⟨prov, hr, hml⟩ hver.leaf hver.anchor htr (binToDer_inv d1).2 d3

theorem recv_acceptable (h0 : 0 < c.numSlots) (h8 : c.numSlots ≤ 8) (ho : Requester.configToNegotiateAlgorithms c = .ok offer) {acc : List Bytes} {l : Log} {st st' : ReqState}
    {rsp tr' : Bytes} (hm : StMatch c acc l st) (h : ReqRecv c cr root st l.text rsp tr' st') : Acceptable c cr root offer acc l rsp (decide (st' = .newSession)) := by
  cases h with
  | @version _ _ v e h3 hh hp hv he =>
    obtain ⟨bs, tail, h1, h2⟩ := denotes_split (x := ⟨0, 0, false⟩) h0 h8 hh (m := .version v) (by simp only [AnyMsg.parse, hp]; rfl)
    cases hm with
    | version =>
      rw [h1]
      exact Acceptable.version h2 ⟨e, he.1, he.2.1⟩
  | @capabilities _ _ tail v ct cap m hr hm' =>
    cases hm with
    | capabilities =>
      rw [hr]
      exact Acceptable.capabilities (tail := tail) hm'
  | @algorithms _ _ v caps m a h3 hh hp ha hl hv =>
    obtain ⟨bs, tail, h1, h2⟩ := denotes_split (x := ⟨0, 0, false⟩) h0 h8 hh (m := .algorithms a) (by simp only [AnyMsg.parse, hp]; rfl)
    cases hm with
    | algorithms v0 v1 hq hp' ho' =>
      obtain ⟨o, g1, g2⟩ := algOf_selected (c := c) ⟨hh, hp, ha, m, ho' m rfl, hv⟩
      rw [ho, Res.ok.injEq] at g1
      subst g1
      have hb : l.both 1 = Requester.bothHave caps ReqFlags.certCap RspFlags.certCap := by
        rw [bothHave_cert, Log.both, hq, hp']
      have hd : decide ((if Requester.bothHave caps ReqFlags.certCap RspFlags.certCap then ReqState.idAuth v caps a none else .newSession) = .newSession) = ! l.both 1 := by
        rw [hb]; cases Requester.bothHave caps ReqFlags.certCap RspFlags.certCap <;> simp
      rw [hd, h1]
      exact Acceptable.algorithms h2 g2
  | @digests _ _ v caps a d size h3 hh hsz hp =>
    cases hm with
    | digests v0 v1 v2 hw hb =>
      have hz : sizeFor digestSizes l.hash = size := by rw [hw.hash]; exact getDigestSize_sizeFor hsz
      obtain ⟨bs, tail, h1, h2⟩ := denotes_split (x := ⟨sizeFor digestSizes l.hash, 0, false⟩) h0 h8 hh (m := .digests d) (by simp only [AnyMsg.parse, hz, hp]; rfl)
      rw [h1]
      refine Acceptable.digests ?_ h2
      obtain ⟨_, _, _, hle⟩ := getDigestSize_ok.mp hsz
      rw [hz]; exact hle
  | @certificate _ _ tail v caps a d m hr hm' =>
    cases hm with
    | certificate v0 v1 v2 hw hb v3 =>
      have hb2 : l.both 2 = Requester.bothHave caps ReqFlags.chalCap RspFlags.chalCap := by
        rw [bothHave_chal, Log.both, hw.req, hw.rsp]
      have hd : decide ((if Requester.bothHave caps ReqFlags.chalCap RspFlags.chalCap then
          ReqState.challenge ⟨v, caps, a, m.slot, m.certChain, m.portionLength, none⟩ else .newSession) = .newSession) = ! l.both 2 := by
        rw [hb2]; cases Requester.bothHave caps ReqFlags.chalCap RspFlags.chalCap <;> simp
      have hpl : (m.certChain.take m.portionLength.toNat).length = m.portionLength.toNat := by
        rw [List.length_take, hm'.len]; exact Nat.min_eq_left hm'.portion
      have he : Wire.header .certificate ++ Wire.certificate m ++ tail = [0x11, 0x02, m.slot, 0] ++ le 2 (m.certChain.take m.portionLength.toNat).length ++
          le 2 m.remainderLength.toNat ++ m.certChain.take m.portionLength.toNat ++ tail := by rw [hpl]; simp [Wire.header, Wire.certificate, zeros]
      rw [hd, hr, he]
      exact Acceptable.certificate (by rw [hpl]; exact hm'.portion) (by rw [hpl]; exact m.portionLength.toNat_lt) m.remainderLength.toNat_lt
  | @challenge _ _ s m chain ds ss h3 hh hds hss hp hslot hmask hsz hring hhash hlen hch hver prov hml =>
    cases hm with
    | @challenge _ m0 m1 m2 m3 m4 ctail _ ct v0 v1 v2 hw hb hb2 v3 h4 hcw hs hc hz =>
      exact auth_acceptable h0 h8 hw.hash hw.asym h4 hcw hs hc hz (ReqRecv.challenge h3 hh hds hss hp hslot hmask hsz hring hhash hlen hch hver prov hml)

theorem Spec.Acceptable.one_outcome {acc : List Bytes} {l : Log} {rsp rsp' : Bytes} {b b' : Bool} (h : Acceptable c cr root offer acc l rsp b)
    (h' : Acceptable c cr root offer acc l rsp' b') : b = b' := by
  cases h <;> cases h' <;> rfl

/-! ### Acceptable means accepted -/

/-- An acceptable CHALLENGE_AUTH is accepted by a requester whose state holds the chain of the CERTIFICATE message `cert`. -/
theorem auth_handle (h0 : 0 < c.numSlots) (h8 : c.numSlots ≤ 8) (henc : EncoderFits c) {l : Log} {s : ReqChallenge} {m0 m1 m2 m3 cert ctail rsp : Bytes} {ct : Certificate} {b : Bool}
    (hha : l.hash = s.algorithms.baseHashAlgoSelected.toNat) (has : l.asym = s.algorithms.baseAsymAlgoSelected.toNat)
    (h4 : cert = Wire.header .certificate ++ Wire.certificate ct ++ ctail) (hcw : CertificateWF c ct) (hs : s.certSlot = ct.slot) (hc : s.certChain = ct.certChain)
    (hz : s.certChainSize = ct.portionLength) (h : Acceptable c cr root offer [m0, m1, m2, m3, cert] l rsp b) (hroot : r.rootCert = root) (hw : r.transcript.WF)
    (ht : r.transcript.get = l.text) (hroom : (l.add rsp).text.length ≤ r.transcript.buf.length) :
    ∃ st' r1, Requester.handle c cr (.challenge s) rsp { r with state := none } = (.ok st', r1) := by
  cases h with
  | @auth _ _ _ _ _ _ bs tail tail' slot rem chain m der hcert hchain hds hss ha hd hslot hmask hh hash hm2 leaf anchor trust hder sig =>
    have hhl : UInt32.ofNat l.hash = s.algorithms.baseHashAlgoSelected := ofNat_toNat32 hha
    have hal : UInt32.ofNat l.asym = s.algorithms.baseAsymAlgoSelected := ofNat_toNat32 has
    -- the stored chain
    have hsc : s.certSlot = slot ∧ s.certChainSize.toNat ≤ s.certChain.length ∧ s.certChain.take s.certChainSize.toNat = Wire.chain chain := by
      have h5 := served_chain hcw ctail
      have h6 : carriedChain cert = Wire.chain chain := by
        unfold carriedChain
        have hlt : (Wire.chain chain).length < 2 ^ 16 := by
          have := hchain.size
          have h7 : (Wire.chain chain).length = 4 + (chain.rootHash ++ chain.intermediateCerts.flatten ++ chain.leafCert).length := by simp [Wire.chain, zeros, le_length]; omega
          omega
        have h8 : cert = ([0x11, 0x02, slot, 0] : Bytes) ++ Spec.le 2 (Wire.chain chain).length ++ (Spec.le 2 rem ++ Wire.chain chain ++ tail') := by
          rw [hcert]; simp
        rw [h8, field_at (i := 4) rfl (le_length _ _), leVal_two _ hlt]
        simp [Spec.le, List.range_succ]
      rw [h4] at h6
      rw [h5] at h6
      refine ⟨?_, ?_, ?_⟩
      · rw [h4] at hcert
        have := congrArg (fun x : Bytes => x[2]?) hcert
        simp [Wire.header, Wire.certificate] at this
        rw [hs]; exact this
      · rw [hz, hc, hcw.len]; exact hcw.portion
      · rw [hz, hc]; exact h6
    obtain ⟨hsl, hsz, hch⟩ := hsc
    obtain ⟨prov, hring, hdl⟩ := hh
    have hring' : RingHash s.algorithms.baseHashAlgoSelected := by unfold RingHash; rw [← hha]; exact hring
    have e3 : ChallengeAuth.parseBody c (bs ++ tail) (sizeFor digestSizes l.hash) (sizeFor signatureSizes l.asym) = .ok m := by
      have := denotes_parse h0 h8 (tail := tail) hd
      obtain ⟨x, g1, g2⟩ := res_map_ok_inv this
      cases g2; exact g1
    have hsiglen : m.signature.length = sizeFor signatureSizes l.asym ∧ sizeFor signatureSizes l.asym ≤ bs.length := by
      obtain ⟨_, _, _, _, _, _, _, _, _, hq, _, hbs⟩ := hd
      refine ⟨hq, ?_⟩
      rw [hbs, List.length_append, hq]; simp
    have expect : ∀ {t : MsgType} {bs' : Bytes}, ([0x11, 0x03] ++ bs ++ tail : Bytes) = Wire.header t ++ bs' → bs' ≠ [] →
        Responder.expect t ([0x11, 0x03] ++ bs ++ tail) = .ok () ∧ sliceFrom ([0x11, 0x03] ++ bs ++ tail) headerSize = .ok bs' := by
      intro t bs' hr hne
      have := List.length_pos_iff.mpr hne
      rw [hr]
      exact ⟨expect_ok (by rw [List.length_append, header_length]; omega) (List.take_left' (header_length _)), split_body _ _⟩
    obtain ⟨e1, e2⟩ := expect (t := .challengeAuth) (bs' := bs ++ tail) (by simp [Wire.header]) (by
      obtain ⟨_, _, _, _, _, _, _, _, _, _, _, hbs⟩ := hd
      rw [hbs]; simp)
    have e4 : BaseHashAlgo.getDigestSize c s.algorithms.baseHashAlgoSelected = .ok (sizeFor digestSizes l.hash) := by
      rw [getDigestSize_ok, ← hha]
      rcases hring with e | e | e
      · exact ⟨0, e, by rw [e]; decide, hds⟩
      · exact ⟨1, e, by rw [e]; decide, hds⟩
      · exact ⟨2, e, by rw [e]; decide, hds⟩
    have e5 : BaseAsymAlgo.getSignatureSize c s.algorithms.baseAsymAlgoSelected = .ok (sizeFor signatureSizes l.asym) := by
      rw [getSignatureSize_ok, ← has]
      rcases ha with e | e
      · exact ⟨4, e, by rw [e]; decide, hss⟩
      · exact ⟨7, e, by rw [e]; decide, hss⟩
    have e6 : Requester.checkSlot s.certSlot m = .ok () := by
      unfold Requester.checkSlot
      rw [if_neg (by rw [hsl, hslot]; simp)]
      split
      · have hb : Requester.slotBit m.slot = .ok (UInt8.ofNat (2 ^ m.slot.toNat)) := by unfold Requester.slotBit; rw [if_pos hmask.1]
        rw [hb, Res.ok_bind, if_neg]
        intro hz0
        have h2p : 2 ^ m.slot.toNat < 2 ^ 8 := Nat.pow_lt_pow_right (by omega) hmask.1
        have := (and_pow_ne m.slotMask.toNat m.slot.toNat).mpr hmask.2
        apply this
        have h9 := congrArg UInt8.toNat hz0
        rw [UInt8.toNat_and, UInt8.toNat_ofNat_of_lt' (by simpa [UInt8.size] using h2p)] at h9
        simpa using h9
      · rfl
    have hc3 : Spec.code ([0x11, 0x03] ++ bs ++ tail) = some 0x03 := rfl
    have hadd : (l.add ([0x11, 0x03] ++ bs ++ tail)).text = l.text ++ ([0x11, 0x03] ++ bs ++ tail).take (([0x11, 0x03] ++ bs ++ tail).length - sizeFor signatureSizes l.asym) := by
      simp only [Log.add, hc3]
    rw [hadd] at hroom
    generalize hrsp : ([0x11, 0x03] ++ bs ++ tail : Bytes) = rsp at *
    obtain ⟨t, e, g, _⟩ := Requester.extend_run (r := { r with state := none }) (bs := rsp.take (rsp.length - sizeFor signatureSizes l.asym)) (by exact hw) (by
      rw [List.length_append] at hroom
      simp only [ht]; exact hroom)
    simp only [ht] at g
    have e7 : Requester.verifyCertChainAndSignature c cr s (sizeFor digestSizes l.hash) (cr.hash s.algorithms.baseHashAlgoSelected
        (l.text ++ rsp.take (rsp.length - sizeFor signatureSizes l.asym))) m.signature r.rootCert = .ok () := by
      unfold Requester.verifyCertChainAndSignature
      rw [sliceTo_ok hsz, Res.ok_bind, hch, CertificateChain.parse_chain hchain, Res.ok_bind]
      have hwp : Crypto.spdmToWebpki s.algorithms.baseAsymAlgoSelected = .ok s.algorithms.baseAsymAlgoSelected := by
        rw [← hal]; rcases ha with e | e <;> rw [e] <;> rfl
      simp only [Crypto.newEndEntityCert, prov, leaf, or_true, Bool.true_eq_false, if_false, if_true, Res.ok_bind, Crypto.verifyChainOfTrust, hroot, anchor, hwp]
      rw [← hal]
      simp only [Requester.unixTime, trust, if_true, Res.ok_bind, Crypto.verifySignature, prov, Bool.true_eq_false, if_false]
      rw [hal, hwp]
      have hz1 : rawR m.signature ≠ 0 ∧ rawS m.signature ≠ 0 := by
        obtain ⟨x, y, hx, hy, _⟩ := hder
        exact ⟨isDerInteger_pos hx, isDerInteger_pos hy⟩
      obtain ⟨out, n, d1, d2, d3⟩ := c51_der_of_raw c (sig := m.signature) (by rw [hsiglen.1]; exact hss) henc.1 henc.2.1 henc.2.2.1 henc.2.2.2 hz1.1 hz1.2
      simp only [zeros] at d1
      rw [Res.ok_bind, d1]
      simp only [Res.ok_bind]
      rw [sliceTo_ok d2, Res.ok_bind, c51_der_canonical d3 hder, ← hal, ← hhl]
      simp [sig]
    refine ⟨.newSession, { r with transcript := t, state := none }, ?_⟩
    unfold Requester.handle
    simp only
    have hchal : Requester.challengeHandle c cr s rsp { r with state := none } = (.ok (), { r with transcript := t, state := none }) := by
      unfold Requester.challengeHandle
      rw [lift_run e1, lift_run e4, lift_run e5, lift_run e2, lift_run (x := ChallengeAuth.parseBody _ _ _ _) e3, lift_run e6, lift_run (sliceTo_ok hsz), hch,
        lift_run (digest_run prov hring' (by rw [← hhl]; exact hdl))]
      rw [if_neg (by rw [hash, hhl]; simp)]
      rw [lift_run (x := Responder.subChecked _ _) (a := rsp.length - sizeFor signatureSizes l.asym) (by
        unfold Responder.subChecked
        rw [if_pos (by rw [← hrsp]; simp; omega)])]
      rw [lift_run (sliceTo_ok (by omega)), M.run_bind_ok e]
      rw [M.run_bind_ok (m := M.get) rfl]
      simp only
      rw [g, lift_run (digest_run prov hring' (by rw [← hhl]; exact hm2.2.2))]
      rw [M.run_lift, e7]
    rw [M.run_bind_ok hchal]
    rfl

theorem acceptable_handle (h0 : 0 < c.numSlots) (h8 : c.numSlots ≤ 8) (henc : EncoderFits c) (ho : Requester.configToNegotiateAlgorithms c = .ok offer) {acc : List Bytes} {l : Log}
    {st : ReqState} {rsp : Bytes} {b : Bool} (hm : StMatch c acc l st) (hrd : Ready st) (h : Acceptable c cr root offer acc l rsp b) (hroot : r.rootCert = root)
    (hw : r.transcript.WF) (ht : r.transcript.get = l.text) (hroom : (l.add rsp).text.length ≤ r.transcript.buf.length) :
    ∃ st' r1, Requester.handle c cr st rsp { r with state := none } = (.ok st', r1) := by
  have plain : ∀ {k : UInt8}, code rsp = some k → k ∉ ([0x84, 0xE1, 0x03] : List UInt8) → ∃ t, Requester.extend rsp { r with state := none } = (.ok (), { r with transcript := t, state := none }) := by
    intro k hk hn
    have : (l.add rsp).text = l.text ++ rsp := by
      unfold Log.add
      rw [hk]
      simp only [List.mem_cons, List.not_mem_nil, or_false, not_or] at hn
      split <;> simp_all
    obtain ⟨t, e, _⟩ := Requester.extend_run (r := { r with state := none }) (bs := rsp) (by exact hw) (by
      rw [this, List.length_append] at hroom
      simp only [ht]; exact hroom)
    exact ⟨t, e⟩
  have expect : ∀ {t : MsgType} {bs : Bytes}, rsp = Wire.header t ++ bs → bs ≠ [] → Responder.expect t rsp = .ok () ∧ sliceFrom rsp headerSize = .ok bs := by
    intro t bs hr hne
    have := List.length_pos_iff.mpr hne
    subst hr
    exact ⟨expect_ok (by rw [List.length_append, header_length]; omega) (List.take_left' (header_length _)), split_body _ _⟩
  cases h with
  | @version _ v bs tail hd hv =>
    obtain ⟨t, e⟩ := plain (k := 0x04) rfl (by decide)
    cases hm with
    | done => exact absurd hrd (by simp [Ready])
    | version =>
      obtain ⟨e1, e2⟩ := expect (t := .version) (bs := bs ++ tail) (by simp [Wire.header]) (by rw [hd.2]; simp [zeros])
      have e3 : Version.parseBody (bs ++ tail) = .ok v := by
        have := denotes_parse h0 h8 (tail := tail) hd
        obtain ⟨x, g1, g2⟩ := res_map_ok_inv this
        cases g2; exact g1
      obtain ⟨o, f1, f2, f3⟩ := findMax_run v (by have := hd.1.len; have := hd.1.num; omega)
      cases o with
      | none =>
        obtain ⟨en, g1, g2⟩ := hv
        exact absurd g2 (f3 rfl en g1)
      | some en =>
        refine ⟨.capabilities en none none, { r with transcript := t, state := none }, ?_⟩
        unfold Requester.handle
        simp only
        rw [lift_run e1, lift_run e2, lift_run (x := Version.parseBody (bs ++ tail)) e3, lift_run f1]
        simp only
        rw [M.run_bind_ok e]
        rfl
  | @capabilities _ m0 tail m hm' =>
    obtain ⟨t, e⟩ := plain (k := 0x61) rfl (by decide)
    cases hm with
    | done => exact absurd hrd (by simp [Ready])
    | @capabilities _ _ ev ct cap v0 =>
      obtain ⟨r1, r2⟩ := hrd
      obtain ⟨ct, rfl⟩ := Option.isSome_iff_exists.mp r1
      obtain ⟨cap, rfl⟩ := Option.isSome_iff_exists.mp r2
      obtain ⟨e1, e2⟩ := expect (t := .capabilities) (bs := Wire.capabilities m ++ tail) (by simp [Wire.header]) (by simp [Wire.capabilities, zeros])
      refine ⟨.algorithms ev ⟨ct, cap, m.ctExponent, m.flags⟩ none, { r with transcript := t, state := none }, ?_⟩
      unfold Requester.handle
      simp only
      rw [lift_run e1, lift_run e2, lift_run (x := Capabilities.parseBody _) (a := m) ((Capabilities.reads hm').parse tail), M.run_bind_ok e]
      rfl
  | @algorithms _ m0 m1 bs tail a hd hs =>
    obtain ⟨t, e⟩ := plain (k := 0x63) rfl (by decide)
    cases hm with
    | done => exact absurd hrd (by simp [Ready])
    | @algorithms _ _ _ ev caps o v0 v1 hq hp' ho' =>
      obtain ⟨o, rfl⟩ := Option.isSome_iff_exists.mp hrd
      have := ho' o rfl
      rw [ho, Res.ok.injEq] at this
      subst this
      obtain ⟨e1, e2⟩ := expect (t := .algorithms) (bs := bs ++ tail) (by simp [Wire.header]) (by
        obtain ⟨_, _, _, _, _, hbs⟩ := hd
        rw [hbs]; simp)
      have e3 : Algorithms.parseBody (bs ++ tail) = .ok a := by
        have := denotes_parse h0 h8 (tail := tail) hd
        obtain ⟨x, g1, g2⟩ := res_map_ok_inv this
        cases g2; exact g1
      refine ⟨if Requester.bothHave caps ReqFlags.certCap RspFlags.certCap then .idAuth ev caps a none else .newSession, { r with transcript := t, state := none }, ?_⟩
      unfold Requester.handle
      simp only
      rw [lift_run e1, lift_run e2, lift_run (x := Algorithms.parseBody (bs ++ tail)) e3, lift_run (selected_valid ho hd.1 hs), M.run_bind_ok e]
      rfl
  | @digests _ m0 m1 m2 bs tail d hz hd =>
    obtain ⟨t, e⟩ := plain (k := 0x01) rfl (by decide)
    cases hm with
    | done => exact absurd hrd (by simp [Ready])
    | @digests _ _ _ _ ev caps a v0 v1 v2 hwd hb =>
      obtain ⟨e1, e2⟩ := expect (t := .digests) (bs := bs ++ tail) (by simp [Wire.header]) (by
        obtain ⟨_, _, _, hbs⟩ := hd
        rw [hbs]; simp [Wire.digests, zeros])
      have e3 : Digests.parseBody c (sizeFor digestSizes l.hash) (bs ++ tail) = .ok d := by
        have := denotes_parse h0 h8 (tail := tail) hd
        obtain ⟨x, g1, g2⟩ := res_map_ok_inv this
        cases g2; exact g1
      have e4 : BaseHashAlgo.getDigestSize c a.baseHashAlgoSelected = .ok (sizeFor digestSizes l.hash) := by
        obtain ⟨_, _, hwf, _⟩ := v2
        obtain ⟨j, hj, hp⟩ := hwf.hash
        rw [getDigestSize_ok]
        refine ⟨j, hp, ?_, hz⟩
        rw [hwd.hash, hp, sizeFor_pow]
        interval_cases j <;> rfl
      refine ⟨.idAuth ev caps a (some d), { r with transcript := t, state := none }, ?_⟩
      unfold Requester.handle
      simp only
      rw [lift_run e1, lift_run e4, lift_run e2, lift_run (x := Digests.parseBody _ _ (bs ++ tail)) e3, M.run_bind_ok e]
      rfl
  | @certificate _ m0 m1 m2 m3 tail portion slot remainder hp h16 hr =>
    obtain ⟨t, e⟩ := plain (k := 0x02) rfl (by decide)
    cases hm with
    | done => exact absurd hrd (by simp [Ready])
    | @certificate _ _ _ _ _ ev caps a d v0 v1 v2 hwd hb v3 =>
      have hp16 : (UInt16.ofNat portion.length).toNat = portion.length := ofNat_toNat16 (by omega)
      have hr16 : (UInt16.ofNat remainder).toNat = remainder := ofNat_toNat16 (by omega)
      have hcw : CertificateWF c ⟨slot, UInt16.ofNat portion.length, UInt16.ofNat remainder, portion ++ zeros (c.maxCertChainSize - portion.length)⟩ :=
        ⟨by simp [zeros]; omega, by rw [hp16]; exact hp, by rw [hp16]; simp⟩
      have hwire : Wire.certificate ⟨slot, UInt16.ofNat portion.length, UInt16.ofNat remainder, portion ++ zeros (c.maxCertChainSize - portion.length)⟩ =
          [slot, 0] ++ le 2 portion.length ++ le 2 remainder ++ portion := by
        simp only [Wire.certificate, hp16, hr16]
        rw [List.take_left' rfl]
        simp [zeros]
      obtain ⟨e1, e2⟩ := expect (t := .certificate) (bs := Wire.certificate ⟨slot, UInt16.ofNat portion.length, UInt16.ofNat remainder, portion ++ zeros (c.maxCertChainSize - portion.length)⟩ ++ tail)
        (by rw [hwire]; simp [Wire.header]) (by rw [hwire]; simp)
      refine ⟨if Requester.bothHave caps ReqFlags.chalCap RspFlags.chalCap then .challenge ⟨ev, caps, a, slot, portion ++ zeros (c.maxCertChainSize - portion.length), UInt16.ofNat portion.length, none⟩ else .newSession, { r with transcript := t, state := none }, ?_⟩
      unfold Requester.handle
      simp only
      rw [lift_run e1, lift_run e2, lift_run (x := Certificate.parseBody _ _) ((Certificate.reads hcw).parse tail), M.run_bind_ok e]
      rfl
  | @auth _ m0 m1 m2 m3 cert bs tail tail' slot rem chain m der hcert hchain hds hss ha hd hslot hmask hh hash hm2 leaf anchor trust hder sig =>
    cases hm with
    | done => exact absurd hrd (by simp [Ready])
    | @challenge _ _ _ _ _ _ ctail s ct v0 v1 v2 hwd hb hb2 v3 h4 hcw hs hc hz =>
      exact auth_handle (offer := offer) (m0 := m0) (m1 := m1) (m2 := m2) (m3 := m3) h0 h8 henc hwd.hash hwd.asym h4 hcw hs hc hz
        (Acceptable.auth hcert hchain hds hss ha hd hslot hmask hh hash hm2 leaf anchor trust hder sig) hroot hw ht hroom

/-! ### C81 -/

/-- **C81.** A requester that awaits a response accepts exactly the responses of the relation `Acceptable`, if the transcript has room for them; and it reports the handshake
complete exactly if the relation says so.  `offer` is what the requester offers. -/
theorem c81_accepted_iff (h0 : 0 < c.numSlots) (h8 : c.numSlots ≤ 8) (henc : EncoderFits c) (ho : Requester.configToNegotiateAlgorithms c = .ok offer)
    (run : ReqRun c cr root es r) (hf : failed es = false) (hp : pending es = true) (rsp : Bytes) (b : Bool) :
    (Requester.handleMsg c cr rsp r).1 = .ok b ↔
      Acceptable c cr root offer (accepted es) (conversation (reqMsgs es)) rsp b ∧ ((conversation (reqMsgs es)).add rsp).text.length ≤ c.transcriptSize := by
  constructor
  · intro hok
    obtain ⟨_, st, st', hl, rfl, hrecv, hl'⟩ := req_recv run hok
    refine ⟨recv_acceptable h0 h8 ho hl.mat hrecv, ?_⟩
    rw [← (recv_match hl.mat hrecv).1, Transcript.get_length hl'.wf, ← hl'.cap]
    exact hl'.wf
  · rintro ⟨hacc, hroom⟩
    obtain ⟨st, hl⟩ := req_live' run hf
    obtain ⟨st', hst, hrd⟩ := pending_ready run hf hp
    rw [hl.state, Option.some.injEq] at hst
    subst hst
    obtain ⟨st', r1, he⟩ := acceptable_handle h0 h8 henc ho hl.mat hrd hacc hl.root hl.wf hl.text (by rw [hl.cap]; exact hroom)
    have hok : (Requester.handleMsg c cr rsp r).1 = .ok (decide (st' = .newSession)) := by simp only [Requester.handleMsg, hl.state, he]
    obtain ⟨_, st1, st1', hl1, hd1, hrecv, _⟩ := req_recv run hok
    have h2 := recv_acceptable h0 h8 ho hl1.mat hrecv
    rw [hok, hd1, hacc.one_outcome h2]

/-- C81 for every configuration the build accepts; the offer is `builtOffer`. -/
theorem c81_built_accepted_iff {crypto : Bool} {i : SpdmConfig} {nonceSize : Nat} (hv : ValidConfig crypto i) (hb : Built crypto i nonceSize c)
    (run : ReqRun c cr root es r) (hf : failed es = false) (hp : pending es = true) (rsp : Bytes) (b : Bool) :
    (Requester.handleMsg c cr rsp r).1 = .ok b ↔
      Acceptable c cr root (builtOffer crypto i) (accepted es) (conversation (reqMsgs es)) rsp b ∧
        ((conversation (reqMsgs es)).add rsp).text.length ≤ i.transcriptBufSize := by
  rw [← hb.transcriptSize]
  refine c81_accepted_iff (by rw [hb.numSlots]; exact hv.slots.1) (by rw [hb.numSlots]; exact hv.slots.2) (by unfold EncoderFits; rw [hb.maxSignatureSize]; decide) ?_ run hf hp rsp b
  obtain ⟨asym, h1, h2⟩ := c54_algorithms crypto i nonceSize c hv hb
  have : asym = if i.asymmetricSigning = [] then 0 else 0x10 := by
    apply UInt32.toNat_inj.mp
    apply Nat.eq_of_testBit_eq
    intro k
    rw [Bool.eq_iff_iff, h2 k]
    split
    · rename_i h; simp [h]
    · rename_i h
      simp only [ne_eq, h, not_false_eq_true, and_true]
      rw [show (0x10 : UInt32).toNat = 2 ^ 4 from rfl, Nat.testBit_two_pow]
      simp [eq_comm]
  rw [h1, this]
  rfl

/-- The demo requester offers what its configuration says. -/
theorem demo_offer : Requester.configToNegotiateAlgorithms demoCfg = .ok (builtOffer true { cryptoToml with asymmetricSigning := ["ECDSA_ECC_NIST_P256"] }) := by decide +kernel

/-- C81 at work: the last response of the demo session is acceptable, and completes the handshake; so is the first with two more bytes. -/
example : Acceptable demoCfg demoCrypto [1, 2, 3] (builtOffer true { cryptoToml with asymmetricSigning := ["ECDSA_ECC_NIST_P256"] }) (accepted (demoReqEvents 11))
    (conversation (reqMsgs (demoReqEvents 11))) (demoReplies[5]?.getD []) true :=
  ((c81_accepted_iff (by decide) (by decide) (by unfold EncoderFits; decide) demo_offer (demoReq_run 11) (by decide +kernel) (by decide +kernel) _ _).mp (by decide +kernel)).1
example : (Requester.handleMsg demoCfg demoCrypto ([0x10, 0x04] ++ [0, 0, 0, 1, 0, 0x11] ++ [5, 6]) (demoRequester 1)).1 = .ok false := by
  have hv : VersionWF ⟨1, [⟨1, 1, 0, 0⟩, ⟨0, 0, 0, 0⟩]⟩ := ⟨rfl, by decide, by decide, by
    intro i e hi hn
    simp at hn
    rcases i with _ | _ | i
    · omega
    · simpa using hi.symm
    · simp at hi⟩
  refine (c81_accepted_iff (by decide) (by decide) (by unfold EncoderFits; decide) demo_offer (demoReq_run 1) (by decide +kernel) (by decide +kernel) _ _).mpr ⟨?_, by decide +kernel⟩
  have h : accepted (demoReqEvents 1) = [] := by decide +kernel
  rw [h]
  exact Acceptable.version (tail := [5, 6]) ⟨hv, rfl⟩ ⟨⟨1, 1, 0, 0⟩, by decide, by decide⟩

end Spdm
