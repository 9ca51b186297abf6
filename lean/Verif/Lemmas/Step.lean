import Verif.Lemmas.Machine
import Verif.Lemmas.Choose
import Verif.Lemmas.Chain
/-! One accepted request of the responder, as a relation between the bytes on the wire and the states, and the proof that the
model's handlers refine it. -/
namespace Spdm
open Spec

/-! ### Building blocks -/

/-- The handler left the buffers alone except for what `tr` and `rsp` say. -/
structure Kept (h h' : HState) : Prop where
  wf : h'.tr.WF
  cap : h'.tr.buf.length = h.tr.buf.length
  len : h'.rsp.length = h.rsp.length

theorem Kept.trans {h h' h'' : HState} (a : Kept h h') (b : Kept h' h'') : Kept h h'' :=
  ⟨b.wf, b.cap.trans a.cap, b.len.trans a.len⟩

theorem H.extend_inv {h h' : HState} {bs : Bytes} {u : Unit} (hw : h.tr.WF) (e : H.extend bs h = (.ok u, h')) :
    Kept h h' ∧ h'.tr.get = h.tr.get ++ bs ∧ h'.rsp = h.rsp ∧ h'.signed = h.signed ∧ h.tr.get.length + bs.length ≤ h.tr.buf.length := by
  unfold H.extend at e
  have hx : (Transcript.extend bs h.tr) = (.ok u, (Transcript.extend bs h.tr).2) := by
    have := congrArg Prod.fst e
    exact Prod.ext this rfl
  obtain ⟨h1, h2, h3, h4⟩ := Transcript.extend_ok_inv hw hx
  simp only [Prod.mk.injEq] at e
  obtain ⟨-, rfl⟩ := e
  exact ⟨⟨h2, h3, rfl⟩, h1, rfl, rfl, h4⟩

theorem H.extend_run {h : HState} {bs : Bytes} (hw : h.tr.WF) (hr : h.tr.get.length + bs.length ≤ h.tr.buf.length) :
    ∃ t, H.extend bs h = (.ok (), { h with tr := t }) ∧ t.get = h.tr.get ++ bs ∧ t.WF ∧ t.buf.length = h.tr.buf.length := by
  obtain ⟨t, h1, h2, h3, h4⟩ := Transcript.extend_room hw hr
  exact ⟨t, by simp only [H.extend, h1], h2, h3, h4⟩

theorem H.write_inv {t : MsgType} {body : W Nat} {layout : Bytes} (hw : Writes body id layout) {h h' : HState} {n : Nat}
    (e : H.write t body h = (.ok n, h')) :
    n = 2 + layout.length ∧ n ≤ h.rsp.length ∧ h' = { h with rsp := Wire.header t ++ layout ++ h.rsp.drop n } := by
  unfold H.write at e
  simp only [Prod.mk.injEq] at e
  obtain ⟨e1, rfl⟩ := e
  obtain ⟨h1, h2, h3⟩ := write_ok_inv hw (out := (t.write body h.rsp).2) (Prod.ext e1 rfl)
  exact ⟨h1, h2, by rw [h3]⟩

theorem H.write_run {t : MsgType} {body : W Nat} {layout : Bytes} (hw : Writes body id layout) {h : HState}
    (hr : 2 + layout.length ≤ h.rsp.length) :
    H.write t body h = (.ok (2 + layout.length), { h with rsp := Wire.header t ++ layout ++ h.rsp.drop (2 + layout.length) }) := by
  simp only [H.write, write_fits hw hr]

theorem H.rspTo_inv {h h' : HState} {n : Nat} {out : Bytes} (e : H.rspTo n h = (.ok out, h')) : h' = h ∧ n ≤ h.rsp.length ∧ out = h.rsp.take n := by
  unfold H.rspTo at e
  simp only [Prod.mk.injEq] at e
  obtain ⟨e1, rfl⟩ := e
  exact ⟨rfl, sliceTo_inv e1⟩

theorem M.lift_ok_inv {σ α : Type} {x : Res α} {s s' : σ} {a : α} (h : (M.lift x : M σ α) s = (.ok a, s')) : x = .ok a ∧ s' = s := by
  unfold M.lift at h
  simp only [Prod.mk.injEq] at h
  exact ⟨h.1, h.2.symm⟩

theorem msg_take {t : MsgType} {layout rest : Bytes} : (Wire.header t ++ layout ++ rest).take (2 + layout.length) = Wire.header t ++ layout := by
  apply List.take_left'
  simp [header_length]

/-- Serialising a chain into a buffer. -/
theorem writeChain_inv {ch : CertificateChain} {buf out : Bytes} {n : Nat} (h : Responder.writeChain ch buf = (.ok n, out)) :
    n = (Wire.chain ch).length ∧ n ≤ buf.length ∧ n ≤ 65535 ∧ out.length = buf.length ∧ out = Wire.chain ch ++ buf.drop n := by
  unfold Responder.writeChain at h
  by_cases hl : (Wire.chain ch).length ≤ 65535
  · have hw := CertificateChain.writes hl (Writer.new buf) (by simp [Writer.WF, Writer.new])
    by_cases hr : (Wire.chain ch).length ≤ buf.length
    · have := hw.1 (by simpa [Writer.room, Writer.new] using hr)
      rw [this] at h
      simp only [Writer.new, Writer.app, Prod.mk.injEq, Res.ok.injEq, id, Nat.zero_add, List.take_zero, List.nil_append] at h
      obtain ⟨rfl, rfl⟩ := h
      exact ⟨rfl, hr, hl, by simp; omega, rfl⟩
    · obtain ⟨e, n', _, _, h3⟩ := hw.2 (by simp [Writer.room, Writer.new]; omega)
      rw [h3] at h
      simp at h
  · have hwl : ¬ ch.wireLength ≤ 65535 := by
      have : (Wire.chain ch).length = ch.wireLength := by
        rw [CertificateChain.wireLength_eq, Wire.chain]; simp [zeros]; omega
      omega
    unfold CertificateChain.write at h
    simp only [if_pos (show ch.wireLength > 65535 by omega)] at h
    simp at h

theorem writeChain_run {ch : CertificateChain} {buf : Bytes} (hl : (Wire.chain ch).length ≤ 65535) (hr : (Wire.chain ch).length ≤ buf.length) :
    Responder.writeChain ch buf = (.ok (Wire.chain ch).length, Wire.chain ch ++ buf.drop (Wire.chain ch).length) := by
  have hw := CertificateChain.writes hl (Writer.new buf) (by simp [Writer.WF, Writer.new])
  have := hw.1 (by simpa [Writer.room, Writer.new] using hr)
  unfold Responder.writeChain
  rw [this]
  simp [Writer.new, Writer.app]

/-! ### The relation -/

/-- Certificate chains of the slots. -/
abbrev chainsOf (slots : List (Option FilledSlot)) : List (Option CertificateChain) := slots.map (fun s => s.map (·.certChain))

/-- Hash algorithms of the ring provider. -/
def RingHash (a : UInt32) : Prop := a.toNat = 1 ∨ a.toNat = 2 ∨ a.toNat = 4

/-- The DIGESTS a responder sends for its chains. -/
structure DigestsOf (c : Cfg) (cr : Crypto) (algo : UInt32) (chains : List (Option CertificateChain)) (d : Digests) : Prop where
  len : d.digests.length = c.numSlots
  mask : ∀ i, i < 8 → (d.slotMask.toNat.testBit i = true ↔ ∃ ch, chains[i]? = some (some ch))
  hash : ∀ i : Nat, d.digests[i]? = (chains[i]?).map (fun o : Option CertificateChain => o.map fun ch => cr.hash algo (Wire.chain ch))
  ring : (∃ ch, some ch ∈ chains) → RingHash algo
  fits : ∀ ch, some ch ∈ chains → (Wire.chain ch).length ≤ c.maxCertChainSize ∧ (Wire.chain ch).length ≤ 65535 ∧
    (cr.hash algo (Wire.chain ch)).length ≤ c.maxDigestSize
  prov : (∃ ch, some ch ∈ chains) → c.provider = true

/-- The first byte of a CHALLENGE_AUTH body as the code writes it: with mutual authentication the slot is lost (see C18). -/
def authByte (slot : UInt8) (mutAuth : Bool) : UInt8 := if mutAuth then 0 else slot

/-- A CHALLENGE_AUTH message up to the signature: no opaque data, `ds` zero bytes for the measurement summary hash. -/
def authMsg (slot mask : UInt8) (mutAuth : Bool) (digest nonce : Bytes) (ds : Nat) : Bytes :=
  Wire.header .challengeAuth ++ ([authByte slot mutAuth, mask] ++ digest ++ nonce ++ zeros ds ++ Spec.le 2 4 ++ zeros 4)

/-- Accepted requests.  `st tr` are state and transcript before, `out` the response, `tr'`, `st'` after, `sg` the signer calls. -/
inductive Step (c : Cfg) (cr : Crypto) (env : Env) (slots : List (Option FilledSlot)) :
    RspState → Bytes → Bytes → Bytes → Bytes → List (Nat × Bytes) → RspState → Prop
  | getVersion {st : RspState} {tr req tail : Bytes} (live : st ≠ .error) (hreq : req = Wire.header .getVersion ++ Wire.getVersion ++ tail) :
      Step c cr env slots st tr req (Wire.header .version ++ Wire.version ⟨2, supportedVersions⟩)
        (req ++ (Wire.header .version ++ Wire.version ⟨2, supportedVersions⟩)) [] .capabilities
  | getCapabilities {tr req tail : Bytes} {m : GetCapabilities} {r : Capabilities} (hreq : req = Wire.header .getCapabilities ++ Wire.getCapabilities m ++ tail)
      (hm : OnlyBits reqFlagBit m.flags.toNat) (hr : Responder.configToCapabilities c = .ok r) :
      Step c cr env slots .capabilities tr req (Wire.header .capabilities ++ Wire.capabilities r)
        (tr ++ req ++ (Wire.header .capabilities ++ Wire.capabilities r)) [] (.algorithms ⟨m.ctExponent, m.flags, r.ctExponent, r.flags⟩)
  | negotiate {caps : Caps} {tr req : Bytes} {m : NegotiateAlgorithms} {a : Algorithms} (hreq : req.take 2 = Wire.header .negotiateAlgorithms)
      (hp : NegotiateAlgorithms.parseBody (req.drop 2) = .ok m) (hm : NegotiateWF m) (ha : Answers m a) :
      Step c cr env slots (.algorithms caps) tr req (Wire.header .algorithms ++ Wire.algorithms a)
        (tr ++ req ++ (Wire.header .algorithms ++ Wire.algorithms a)) [] (.idAuth ⟨caps, a⟩)
  | getDigests {n : Negotiated} {tr req : Bytes} {d : Digests} (h3 : 3 ≤ req.length) (hreq : req.take 2 = Wire.header .getDigests)
      (hd : DigestsOf c cr n.algorithms.baseHashAlgoSelected (chainsOf slots) d) :
      Step c cr env slots (.idAuth n) tr req (Wire.header .digests ++ Wire.digests d)
        (tr ++ req ++ (Wire.header .digests ++ Wire.digests d)) [] (.idAuth n)
  | getCertificate {n : Negotiated} {tr req tail chain : Bytes} {m : GetCertificate} (hreq : req = Wire.header .getCertificate ++ Wire.getCertificate m ++ tail)
      (hs : m.slot.toNat < c.numSlots)
      (hc : (chainsOf slots)[m.slot.toNat]? = some none ∧ chain = [] ∨
        ∃ ch, (chainsOf slots)[m.slot.toNat]? = some (some ch) ∧ chain = Wire.chain ch ∧ chain.length ≤ 65535 ∧ chain.length ≤ c.maxCertChainSize) :
      Step c cr env slots (.idAuth n) tr req (Wire.header .certificate ++ Wire.certificate ⟨m.slot, UInt16.ofNat chain.length, 0, chain⟩)
        (tr ++ req ++ (Wire.header .certificate ++ Wire.certificate ⟨m.slot, UInt16.ofNat chain.length, 0, chain⟩)) [] (.challenge n)
  | challenge {n : Negotiated} {tr req tail sig auth : Bytes} {m : Challenge} {slot : FilledSlot} {mask : UInt8} {ds ss : Nat}
      (hreq : req = Wire.header .challenge ++ Wire.challenge m ++ tail) (hn : m.nonce.length = c.nonceSize)
      (hds : BaseHashAlgo.getDigestSize c n.algorithms.baseHashAlgoSelected = .ok ds)
      (hss : BaseAsymAlgo.getSignatureSize c n.algorithms.baseAsymAlgoSelected = .ok ss)
      (hs : slots[m.slot.toNat]? = some (some slot)) (hlt : m.slot.toNat < c.numSlots)
      (hch : (Wire.chain slot.certChain).length ≤ 65535 ∧ (Wire.chain slot.certChain).length ≤ c.maxCertChainSize)
      (hmask : ∀ i, i < 8 → (mask.toNat.testBit i = true ↔ ∃ s, slots[i]? = some (some s)))
      (ring : RingHash n.algorithms.baseHashAlgoSelected)
      (hauth : auth = authMsg m.slot mask (Responder.useMutualAuth n.caps) (cr.hash n.algorithms.baseHashAlgoSelected (Wire.chain slot.certChain)) env.nonce ds)
      (hsig : slot.sign env.seed (cr.hash n.algorithms.baseHashAlgoSelected (tr ++ req ++ auth)) = some sig)
      (hsl : sig.length = ss) (prov : c.provider = true)
      (hdl : (cr.hash n.algorithms.baseHashAlgoSelected (Wire.chain slot.certChain)).length ≤ c.maxDigestSize)
      (hml : (cr.hash n.algorithms.baseHashAlgoSelected (tr ++ req ++ auth)).length ≤ c.maxDigestSize) :
      Step c cr env slots (.challenge n) tr req (auth ++ sig) (tr ++ req ++ auth)
        [(m.slot.toNat, cr.hash n.algorithms.baseHashAlgoSelected (tr ++ req ++ auth))] (.challenge n)

/-! ### Refinement -/

/-- Outcome of an accepted request. -/
def Refines (c : Cfg) (cr : Crypto) (env : Env) (slots : List (Option FilledSlot)) (st : RspState) (req : Bytes) (h : HState) (n : Nat) (st' : RspState)
    (h' : HState) : Prop :=
  Kept h h' ∧ n ≤ h'.rsp.length ∧ 3 ≤ n ∧ ∃ sg, Step c cr env slots st h.tr.get req (h'.rsp.take n) h'.tr.get sg st' ∧ h'.signed = h.signed ++ sg

theorem parse_split {p : R α} {P : Bytes → α → Prop} (hp : Inverts p P) {t : MsgType} {req : Bytes} {a : α} (ht : req.take 2 = Wire.header t)
    (h : (p (Reader.new (req.drop 2))).1 = .ok a) : ∃ bs tail, req = Wire.header t ++ bs ++ tail ∧ P bs a := by
  obtain ⟨bs, tail, h1, h2⟩ := hp.parse h
  refine ⟨bs, tail, ?_, h2⟩
  rw [List.append_assoc, ← h1, ← ht, List.take_append_drop]

theorem default_wf : VersionWF Version.default where
  len := rfl
  num := by decide
  nib := by decide
  unused := by
    intro i e h hi
    have : i < 2 := by
      have := (List.getElem?_eq_some_iff.mp h).1
      simpa [Version.default] using this
    have : (2 : Nat) ≤ i := hi
    omega

/-- Write the response and log it. -/
theorem reply_inv {t : MsgType} {body : W Nat} {layout : Bytes} (hwr : Writes body id layout) (hne : 1 ≤ layout.length) {st st' : RspState} {h h' : HState} {n : Nat} (hw : h.tr.WF)
    (e : (do
      let size ← H.write t body
      let out ← H.rspTo size
      H.extend out
      pure (size, st) : H (Nat × RspState)) h = (.ok (n, st'), h')) :
    st' = st ∧ Kept h h' ∧ n ≤ h'.rsp.length ∧ 3 ≤ n ∧ h'.rsp.take n = Wire.header t ++ layout ∧ h'.tr.get = h.tr.get ++ (Wire.header t ++ layout) ∧
      h'.signed = h.signed := by
  obtain ⟨size, h3, e5, e'⟩ := M.bind_ok_inv e
  obtain ⟨n3, l3, rfl⟩ := H.write_inv hwr e5
  obtain ⟨out, h4, e6, e''⟩ := M.bind_ok_inv e'
  obtain ⟨rfl, _, rfl⟩ := H.rspTo_inv e6
  obtain ⟨_, h5, e7, e3⟩ := M.bind_ok_inv e''
  obtain ⟨k5, g5, r5, s5, _⟩ := H.extend_inv (by exact hw) e7
  simp only [M.run_pure, Prod.mk.injEq, Res.ok.injEq] at e3
  obtain ⟨⟨rfl, rfl⟩, rfl⟩ := e3
  have hl5 : h5.rsp.length = h.rsp.length := by
    rw [r5]; simp only [List.length_append, header_length, List.length_drop]; omega
  refine ⟨rfl, ⟨k5.wf, k5.cap, hl5⟩, by omega, by omega, ?_, ?_, s5⟩
  · rw [r5, n3]; exact msg_take
  · rw [g5]; simp only; congr 1; rw [n3]; exact msg_take

/-- Log the request, write the response and log it. -/
theorem logReply_inv {t : MsgType} {body : W Nat} {layout : Bytes} (hwr : Writes body id layout) (hne : 1 ≤ layout.length) {req : Bytes} {st st' : RspState} {h h' : HState} {n : Nat} (hw : h.tr.WF)
    (e : (do
      H.extend req
      let size ← H.write t body
      let out ← H.rspTo size
      H.extend out
      pure (size, st) : H (Nat × RspState)) h = (.ok (n, st'), h')) :
    st' = st ∧ Kept h h' ∧ n ≤ h'.rsp.length ∧ 3 ≤ n ∧ h'.rsp.take n = Wire.header t ++ layout ∧ h'.tr.get = h.tr.get ++ req ++ (Wire.header t ++ layout) ∧
      h'.signed = h.signed := by
  obtain ⟨_, h2, e4, e'⟩ := M.bind_ok_inv e
  obtain ⟨k2, g2, r2, s2, _⟩ := H.extend_inv hw e4
  obtain ⟨i1, i2, i3, i4, i5, i6, i7⟩ := reply_inv hwr hne k2.wf e'
  exact ⟨i1, k2.trans i2, i3, i4, i5, by rw [i6, g2], by rw [i7, s2]⟩

/-- Write the response, log the request and the response. -/
theorem replyLog_inv {t : MsgType} {body : W Nat} {layout : Bytes} (hwr : Writes body id layout) (hne : 1 ≤ layout.length) {req : Bytes} {st st' : RspState} {h h' : HState} {n : Nat} (hw : h.tr.WF)
    (e : (do
      let size ← H.write t body
      H.extend req
      let out ← H.rspTo size
      H.extend out
      pure (size, st) : H (Nat × RspState)) h = (.ok (n, st'), h')) :
    st' = st ∧ Kept h h' ∧ n ≤ h'.rsp.length ∧ 3 ≤ n ∧ h'.rsp.take n = Wire.header t ++ layout ∧ h'.tr.get = h.tr.get ++ req ++ (Wire.header t ++ layout) ∧
      h'.signed = h.signed := by
  obtain ⟨size, h3, e5, e'⟩ := M.bind_ok_inv e
  obtain ⟨n3, l3, rfl⟩ := H.write_inv hwr e5
  obtain ⟨_, h2, e4, e''⟩ := M.bind_ok_inv e'
  obtain ⟨k2, g2, r2, s2, _⟩ := H.extend_inv (by exact hw) e4
  obtain ⟨out, h4, e6, e3⟩ := M.bind_ok_inv e''
  obtain ⟨rfl, _, rfl⟩ := H.rspTo_inv e6
  obtain ⟨_, h5, e7, e8⟩ := M.bind_ok_inv e3
  obtain ⟨k5, g5, r5, s5, _⟩ := H.extend_inv k2.wf e7
  simp only [M.run_pure, Prod.mk.injEq, Res.ok.injEq] at e8
  obtain ⟨⟨rfl, rfl⟩, rfl⟩ := e8
  have hl5 : h5.rsp.length = h.rsp.length := by
    rw [r5, r2]; simp only [List.length_append, header_length, List.length_drop]; omega
  refine ⟨rfl, ⟨k5.wf, k5.cap.trans k2.cap, hl5⟩, by omega, by omega, ?_, ?_, s5.trans s2⟩
  · rw [r5, r2, n3]; exact msg_take
  · rw [g5, g2, r2]; congr 1; rw [n3]; exact msg_take

theorem handleGetVersion_refines {c : Cfg} {cr : Crypto} {env : Env} {slots : List (Option FilledSlot)} {st : RspState} (hst : st ≠ .error) {req : Bytes}
    (hr : req.take 2 = Wire.header .getVersion) {h h' : HState} {n : Nat} {st' : RspState}
    (e : Responder.handleGetVersion req h = (.ok (n, st'), h')) : Refines c cr env slots st req h n st' h' := by
  unfold Responder.handleGetVersion at e
  obtain ⟨body, x1, e1, f1⟩ := M.bind_ok_inv e
  obtain ⟨q1, rfl⟩ := M.lift_ok_inv e1
  obtain ⟨_, rfl⟩ := sliceFrom_inv q1
  obtain ⟨_, x2, e2, f2⟩ := M.bind_ok_inv f1
  obtain ⟨q2, rfl⟩ := M.lift_ok_inv e2
  obtain ⟨bs, tail, hreq, rfl⟩ := parse_split GetVersion.inverts hr q2
  obtain ⟨_, x3, e3, f3⟩ := M.bind_ok_inv f2
  have h1e : x3 = { x2 with tr := x2.tr.clear } := by
    unfold H.clear at e3; simp only [Prod.mk.injEq] at e3; exact e3.2.symm
  subst h1e
  obtain ⟨rfl, i2, i3, i4, i5, i6, i7⟩ := logReply_inv (Version.writes default_wf) (by simp [Wire.version]; omega) (Transcript.clear_wf _) f3
  refine ⟨⟨i2.wf, i2.cap, i2.len⟩, i3, i4, [], ?_, by rw [i7]; simp⟩
  rw [i5, i6]
  simp only [Transcript.clear_get, List.nil_append]
  exact Step.getVersion hst hreq

theorem versionHandle_refines {c : Cfg} {cr : Crypto} {env : Env} {slots : List (Option FilledSlot)} {st : RspState} (hst : st ≠ .error) {req : Bytes}
    {h h' : HState} {n : Nat} {st' : RspState}
    (e : Responder.versionHandle req h = (.ok (n, st'), h')) : Refines c cr env slots st req h n st' h' := by
  unfold Responder.versionHandle at e
  rcases hp : MsgType.getVersion.parseHeader req with (_ | _) | _ | _ <;> simp only [hp] at e
  · obtain ⟨_, _, _, f⟩ := M.bind_ok_inv e; simp [M.fail] at f
  · exact handleGetVersion_refines hst (parseHeader_true hp).2 e
  · simp [M.fail] at e
  · simp [M.die] at e

theorem resetOnGetVersion_inv {req : Bytes} {rest : H (Nat × RspState)} {h h' : HState} {r : Nat × RspState}
    (e : Responder.resetOnGetVersion req rest h = (.ok r, h')) :
    Responder.versionHandle req h = (.ok r, h') ∨ rest h = (.ok r, h') := by
  unfold Responder.resetOnGetVersion at e
  rcases hp : MsgType.getVersion.parseHeader req with (_ | _) | _ | _ <;> simp only [hp] at e
  · exact .inr e
  · exact .inl e
  · simp [M.fail] at e
  · simp [M.die] at e

theorem capabilitiesHandle_refines {c : Cfg} {cr : Crypto} {env : Env} {slots : List (Option FilledSlot)} {req : Bytes}
    {h h' : HState} {n : Nat} {st' : RspState} (hw : h.tr.WF)
    (e : Responder.capabilitiesHandle c req h = (.ok (n, st'), h')) : Refines c cr env slots .capabilities req h n st' h' := by
  unfold Responder.capabilitiesHandle at e
  rcases resetOnGetVersion_inv e with e | e
  · exact versionHandle_refines (by simp) e
  obtain ⟨_, x1, e1, f1⟩ := M.bind_ok_inv e
  obtain ⟨q1, rfl⟩ := M.lift_ok_inv e1
  obtain ⟨_, hr⟩ := expect_ok_inv q1
  obtain ⟨body, x2, e2, f2⟩ := M.bind_ok_inv f1
  obtain ⟨q2, rfl⟩ := M.lift_ok_inv e2
  obtain ⟨_, rfl⟩ := sliceFrom_inv q2
  obtain ⟨m, x3, e3, f3⟩ := M.bind_ok_inv f2
  obtain ⟨q3, rfl⟩ := M.lift_ok_inv e3
  obtain ⟨bs, tail, hreq, rfl, hm⟩ := parse_split GetCapabilities.inverts hr q3
  obtain ⟨_, x4, e4, f4⟩ := M.bind_ok_inv f3
  obtain ⟨k2, g2, r2, s2, _⟩ := H.extend_inv hw e4
  obtain ⟨rc, x5, e5, f5⟩ := M.bind_ok_inv f4
  obtain ⟨q5, rfl⟩ := M.lift_ok_inv e5
  obtain ⟨rfl, i2, i3, i4, i5, i6, i7⟩ := reply_inv (Capabilities.writes rc) (by simp [Wire.capabilities]) k2.wf f5
  refine ⟨k2.trans i2, i3, i4, [], ?_, by rw [i7, s2]; simp⟩
  rw [i5, i6, g2]
  exact Step.getCapabilities hreq hm q5

theorem algorithmsHandle_refines {c : Cfg} {cr : Crypto} {env : Env} {slots : List (Option FilledSlot)} {caps : Caps} {req : Bytes}
    {h h' : HState} {n : Nat} {st' : RspState} (hw : h.tr.WF)
    (e : Responder.algorithmsHandle caps req h = (.ok (n, st'), h')) : Refines c cr env slots (.algorithms caps) req h n st' h' := by
  unfold Responder.algorithmsHandle at e
  rcases resetOnGetVersion_inv e with e | e
  · exact versionHandle_refines (by simp) e
  obtain ⟨_, x1, e1, f1⟩ := M.bind_ok_inv e
  obtain ⟨q1, rfl⟩ := M.lift_ok_inv e1
  obtain ⟨_, hr⟩ := expect_ok_inv q1
  obtain ⟨body, x2, e2, f2⟩ := M.bind_ok_inv f1
  obtain ⟨q2, rfl⟩ := M.lift_ok_inv e2
  obtain ⟨_, rfl⟩ := sliceFrom_inv q2
  obtain ⟨m, x3, e3, f3⟩ := M.bind_ok_inv f2
  obtain ⟨q3, rfl⟩ := M.lift_ok_inv e3
  obtain ⟨_, _, _, hm, _⟩ := NegotiateAlgorithms.inverts.parse q3
  obtain ⟨_, x4, e4, f4⟩ := M.bind_ok_inv f3
  obtain ⟨k2, g2, r2, s2, _⟩ := H.extend_inv hw e4
  obtain ⟨a, x5, e5, f5⟩ := M.bind_ok_inv f4
  obtain ⟨q5, rfl⟩ := M.lift_ok_inv e5
  have ha := chooseAlgorithms_inv hm q5
  obtain ⟨rfl, i2, i3, i4, i5, i6, i7⟩ := reply_inv (Algorithms.writes ha.len (by rw [ha.num]; exact hm.num)) (by simp [Wire.algorithms]) k2.wf f5
  refine ⟨k2.trans i2, i3, i4, [], ?_, by rw [i7, s2]; simp⟩
  rw [i5, i6, g2]
  exact Step.negotiate hr q3 hm ha

/-! ### Slots -/

theorem or_bit {x : UInt8} {i : Nat} (hi : i < 8) (j : Nat) : (x ||| UInt8.ofNat (2 ^ i)).toNat.testBit j = (x.toNat.testBit j || decide (i = j)) := by
  have h : (UInt8.ofNat (2 ^ i)).toNat = 2 ^ i := by
    rw [UInt8.toNat_ofNat']; exact Nat.mod_eq_of_lt (Nat.pow_lt_pow_right (by omega) hi)
  rw [UInt8.toNat_or, h, Nat.testBit_or, Nat.testBit_two_pow]

theorem slotMaskLoop_run {α : Type} (slots : List (Option α)) (n i : Nat) (bits : UInt8) (hl : i + n ≤ slots.length) (h8 : i + n ≤ 8) :
    ∃ mask, Responder.slotMaskLoop slots n i bits = .ok mask ∧
      ∀ j, mask.toNat.testBit j = true ↔ bits.toNat.testBit j = true ∨ (i ≤ j ∧ j < i + n ∧ ∃ a, slots[j]? = some (some a)) := by
  induction n generalizing i bits with
  | zero => exact ⟨bits, rfl, fun j => ⟨.inl, fun h => h.elim id fun h => by omega⟩⟩
  | succ n ih =>
    have hi : i < slots.length := by omega
    have hget : slots[i]? = some slots[i] := List.getElem?_eq_getElem hi
    simp only [Responder.slotMaskLoop, index_ok hi, Res.ok_bind]
    cases hs : slots[i] with
    | none =>
      simp only [Option.isSome_none, Bool.false_eq_true, if_false]
      obtain ⟨mask, h1, h2⟩ := ih (i + 1) bits (by omega) (by omega)
      refine ⟨mask, h1, fun j => (h2 j).trans ?_⟩
      constructor
      · rintro (h | ⟨a, b, d⟩)
        · exact .inl h
        · exact .inr ⟨by omega, by omega, d⟩
      · rintro (h | ⟨a, b, d⟩)
        · exact .inl h
        · refine .inr ⟨?_, by omega, d⟩
          rcases Nat.lt_or_ge i j with h | h
          · exact h
          · have : j = i := by omega
            subst this
            rw [hget, hs] at d
            simp at d
    | some a =>
      simp only [Option.isSome_some, if_true]
      rw [if_pos (by omega)]
      obtain ⟨mask, h1, h2⟩ := ih (i + 1) (bits ||| UInt8.ofNat (2 ^ i)) (by omega) (by omega)
      refine ⟨mask, h1, fun j => (h2 j).trans ?_⟩
      rw [or_bit (by omega)]
      simp only [Bool.or_eq_true, decide_eq_true_eq]
      constructor
      · rintro ((h | rfl) | ⟨a, b, d⟩)
        · exact .inl h
        · exact .inr ⟨by omega, by omega, a, by rw [hget, hs]⟩
        · exact .inr ⟨by omega, by omega, d⟩
      · rintro (h | ⟨a, b, d⟩)
        · exact .inl (.inl h)
        · rcases Nat.lt_or_ge i j with h | h
          · exact .inr ⟨h, by omega, d⟩
          · exact .inl (.inr (by omega))

theorem createSlotMask_run {α : Type} {c : Cfg} {slots : List (Option α)} (hl : slots.length = c.numSlots) (h8 : c.numSlots ≤ 8) :
    ∃ mask, Responder.createSlotMask c slots = .ok mask ∧ ∀ i, mask.toNat.testBit i = true ↔ ∃ s, slots[i]? = some (some s) := by
  obtain ⟨mask, h1, h2⟩ := slotMaskLoop_run slots c.numSlots 0 0 (by omega) (by omega)
  refine ⟨mask, h1, fun i => (h2 i).trans ?_⟩
  simp only [UInt8.toNat_zero, Nat.zero_testBit, Bool.false_eq_true, false_or]
  constructor
  · exact fun h => h.2.2
  · rintro ⟨s, hs⟩
    have := (List.getElem?_eq_some_iff.mp hs).1
    exact ⟨by omega, by omega, s, hs⟩

theorem digest_inv {c : Cfg} {cr : Crypto} {algo : UInt32} {data d : Bytes} (h : cr.digest c algo data = .ok d) :
    RingHash algo ∧ d = cr.hash algo data ∧ d.length ≤ c.maxDigestSize ∧ c.provider = true := by
  unfold Crypto.digest at h
  split at h
  · simp at h
  rename_i hp
  split at h
  · rename_i ha
    split at h
    · simp only [Res.ok.injEq] at h
      subst h
      refine ⟨?_, rfl, by assumption, by simpa using hp⟩
      rcases ha with rfl | rfl | rfl <;> simp [RingHash, BaseHashAlgo.sha256, BaseHashAlgo.sha384, BaseHashAlgo.sha512]
    · simp at h
  · simp at h

theorem digest_run {c : Cfg} {cr : Crypto} {algo : UInt32} {data : Bytes} (hp : c.provider = true) (h : RingHash algo) (hl : (cr.hash algo data).length ≤ c.maxDigestSize) :
    cr.digest c algo data = .ok (cr.hash algo data) := by
  unfold Crypto.digest
  rw [if_neg (by simp [hp]), if_pos, if_pos hl]
  simp only [← UInt32.toNat_inj]
  exact h

theorem digest_panic {c : Cfg} {cr : Crypto} {algo : UInt32} {data : Bytes} (hp : c.provider = true) (h : ¬ RingHash algo) : cr.digest c algo data = .panic .unwrapNone := by
  unfold Crypto.digest
  rw [if_neg (by simp [hp]), if_neg]
  simp only [← UInt32.toNat_inj]
  exact h

theorem hashLoop_inv (c : Cfg) (cr : Crypto) (algo : UInt32) (chains : List (Option CertificateChain)) (n i : Nat) (buf : Bytes) (ds ds' : List (Option Bytes))
    (hb : buf.length = c.maxCertChainSize) (h : Responder.hashLoop c cr algo chains n i buf ds = .ok ds') :
    ds'.length = ds.length ∧ (∀ j, j < i → ds'[j]? = ds[j]?) ∧ (∀ j, i + n ≤ j → ds'[j]? = ds[j]?) ∧
    ∀ j, i ≤ j → j < i + n → (chains[j]? = some none ∧ ds'[j]? = ds[j]?) ∨
      (∃ ch, chains[j]? = some (some ch) ∧ ds'[j]? = some (some (cr.hash algo (Wire.chain ch))) ∧ c.provider = true ∧ RingHash algo ∧ (Wire.chain ch).length ≤ c.maxCertChainSize ∧
        (Wire.chain ch).length ≤ 65535 ∧ (cr.hash algo (Wire.chain ch)).length ≤ c.maxDigestSize) := by
  induction n generalizing i buf ds with
  | zero =>
    simp only [Responder.hashLoop, Res.ok.injEq] at h
    subst h
    exact ⟨rfl, fun _ _ => rfl, fun _ _ => rfl, fun j h1 h2 => by omega⟩
  | succ n ih =>
    unfold Responder.hashLoop at h
    obtain ⟨o, h1, h⟩ := res_bind_ok h
    have hget := index_inv h1
    cases o with
    | none =>
      simp only at h
      obtain ⟨i1, i2, i3, i4⟩ := ih (i + 1) buf ds hb h
      refine ⟨i1, fun j hj => i2 j (by omega), fun j hj => i3 j (by omega), fun j hj1 hj2 => ?_⟩
      rcases Nat.lt_or_ge i j with hij | hij
      · exact i4 j hij (by omega)
      · have : j = i := by omega
        subst this
        exact .inl ⟨hget, i2 j (by omega)⟩
    | some ch =>
      simp only at h
      cases hw : Responder.writeChain ch buf with
      | mk res out =>
        rw [hw] at h
        simp only at h
        obtain ⟨size, rfl, k1⟩ := res_bind_ok h
        obtain ⟨w1, w2, w3, w4, w5⟩ := writeChain_inv hw
        obtain ⟨data, h3, k2⟩ := res_bind_ok k1
        obtain ⟨_, rfl⟩ := sliceTo_inv h3
        have hdata : out.take size = Wire.chain ch := by rw [w5, w1]; exact List.take_left' rfl
        rw [hdata] at k2
        obtain ⟨d, h4, k3⟩ := res_bind_ok k2
        obtain ⟨hr, rfl, hdl, hpv⟩ := digest_inv h4
        obtain ⟨ds2, h5, k4⟩ := res_bind_ok k3
        obtain ⟨s1, rfl⟩ := setIndex_inv h5
        obtain ⟨i1, i2, i3, i4⟩ := ih (i + 1) out _ (by omega) k4
        refine ⟨by rw [i1]; simp, fun j hj => ?_, fun j hj => ?_, fun j hj1 hj2 => ?_⟩
        · rw [i2 j (by omega), List.getElem?_set_ne (by omega)]
        · rw [i3 j (by omega), List.getElem?_set_ne (by omega)]
        · rcases Nat.lt_or_ge i j with hij | hij
          · rcases i4 j hij (by omega) with ⟨a, b⟩ | a
            · exact .inl ⟨a, by rw [b, List.getElem?_set_ne (by omega)]⟩
            · exact .inr a
          · have : j = i := by omega
            subst this
            refine .inr ⟨ch, hget, ?_, hpv, hr, by omega, by omega, hdl⟩
            rw [i2 j (by omega), List.getElem?_set_self s1]

theorem hashCertChains_inv {c : Cfg} {cr : Crypto} {algo : UInt32} {chains : List (Option CertificateChain)} (hl : chains.length = c.numSlots) (h8 : c.numSlots ≤ 8) {ds : List (Option Bytes)}
    {mask : UInt8} (hm : Responder.createSlotMask c chains = .ok mask)
    (h : Responder.hashCertChains c cr algo chains = .ok ds) : DigestsOf c cr algo chains ⟨mask, ds⟩ := by
  obtain ⟨i1, i2, i3, i4⟩ := hashLoop_inv c cr algo chains _ _ _ _ _ (by simp) h
  simp only [List.length_replicate] at i1
  obtain ⟨mask', g1, g2⟩ := createSlotMask_run hl h8
  rw [hm] at g1
  simp only [Res.ok.injEq] at g1
  subst g1
  have hmem : ∀ ch, some ch ∈ chains → c.provider = true ∧ RingHash algo ∧ (Wire.chain ch).length ≤ c.maxCertChainSize ∧
        (Wire.chain ch).length ≤ 65535 ∧ (cr.hash algo (Wire.chain ch)).length ≤ c.maxDigestSize := by
    intro ch hch
    obtain ⟨j, hj⟩ := List.getElem?_of_mem hch
    have := (List.getElem?_eq_some_iff.mp hj).1
    rcases i4 j (by omega) (by omega) with ⟨a, _⟩ | ⟨ch', a, _, b⟩
    · rw [hj] at a; simp at a
    · rw [hj] at a; simp only [Option.some.injEq] at a; subst a; exact b
  refine ⟨i1, fun i _ => g2 i, ?_, fun ⟨ch, hch⟩ => (hmem ch hch).2.1, fun ch hch => (hmem ch hch).2.2, fun ⟨ch, hch⟩ => (hmem ch hch).1⟩
  intro j
  simp only
  rcases Nat.lt_or_ge j c.numSlots with hj | hj
  · rcases i4 j (by omega) (by omega) with ⟨a, b⟩ | ⟨ch', a, b, _⟩
    · rw [a, b]; simp [hj]
    · rw [a, b]; simp
  · rw [List.getElem?_eq_none (by omega), List.getElem?_eq_none (by omega)]; rfl

theorem handleGetDigests_refines {c : Cfg} {cr : Crypto} {env : Env} {slots : List (Option FilledSlot)} (hl : slots.length = c.numSlots) (h8 : c.numSlots ≤ 8)
    {ng : Negotiated} {req : Bytes} (h3 : 3 ≤ req.length) (hreq : req.take 2 = Wire.header .getDigests)
    {h h' : HState} {n : Nat} {st' : RspState} (hw : h.tr.WF)
    (e : Responder.handleGetDigests c cr ng (chainsOf slots) req h = (.ok (n, st'), h')) : Refines c cr env slots (.idAuth ng) req h n st' h' := by
  have hl' : (chainsOf slots).length = c.numSlots := by simpa using hl
  unfold Responder.handleGetDigests at e
  obtain ⟨mask, x1, e1, f1⟩ := M.bind_ok_inv e
  obtain ⟨q1, rfl⟩ := M.lift_ok_inv e1
  obtain ⟨ds, x2, e2, f2⟩ := M.bind_ok_inv f1
  obtain ⟨q2, rfl⟩ := M.lift_ok_inv e2
  have hd := hashCertChains_inv hl' h8 q1 q2
  have hmask : ∀ i, i < 8 → (mask.toNat.testBit i = true ↔ ∃ d, ds[i]? = some (some d)) := by
    intro i hi
    rw [hd.mask i hi, hd.hash i]
    constructor
    · rintro ⟨ch, hch⟩; rw [hch]; exact ⟨_, rfl⟩
    · rintro ⟨d, hd'⟩
      cases hx : (chainsOf slots)[i]? with
      | none => rw [hx] at hd'; simp at hd'
      | some o =>
        cases o with
        | none => rw [hx] at hd'; simp at hd'
        | some ch => exact ⟨ch, rfl⟩
  obtain ⟨rfl, i2, i3, i4, i5, i6, i7⟩ := replyLog_inv (Digests.writes_gen h8 hd.len hmask) (by simp [Wire.digests]) hw f2
  refine ⟨i2, i3, i4, [], ?_, by rw [i7]; simp⟩
  rw [i5, i6]
  exact Step.getDigests h3 hreq hd

theorem certPortion_inv {c : Cfg} {chains : List (Option CertificateChain)} {slot : UInt8} {buf : Bytes} {portion : UInt16}
    (h : Responder.certPortion c chains slot = .ok (buf, portion)) : ∃ chain rest, buf = chain ++ rest ∧ portion = UInt16.ofNat chain.length ∧ chain.length ≤ 65535 ∧
      (chains[slot.toNat]? = some none ∧ chain = [] ∨
        ∃ ch, chains[slot.toNat]? = some (some ch) ∧ chain = Wire.chain ch ∧ chain.length ≤ 65535 ∧ chain.length ≤ c.maxCertChainSize) := by
  unfold Responder.certPortion at h
  obtain ⟨o, h1, h⟩ := res_bind_ok h
  have hget := index_inv h1
  cases o with
  | none =>
    simp only [Res.ok.injEq, Prod.mk.injEq] at h
    obtain ⟨rfl, rfl⟩ := h
    exact ⟨[], _, rfl, rfl, by simp, .inl ⟨hget, rfl⟩⟩
  | some ch =>
    simp only at h
    cases hw : Responder.writeChain ch (List.replicate c.maxCertChainSize 0) with
    | mk res out =>
      rw [hw] at h
      simp only at h
      obtain ⟨size, rfl, k1⟩ := res_bind_ok h
      obtain ⟨w1, w2, w3, w4, w5⟩ := writeChain_inv hw
      simp only [Res.pure_eq, Res.ok.injEq, Prod.mk.injEq] at k1
      obtain ⟨rfl, rfl⟩ := k1
      simp only [List.length_replicate] at w2
      exact ⟨Wire.chain ch, _, w5, by rw [w1], by omega, .inr ⟨ch, hget, rfl, by omega, by omega⟩⟩

theorem handleGetCertificate_refines {c : Cfg} {cr : Crypto} {env : Env} {slots : List (Option FilledSlot)} 
    {ng : Negotiated} {req : Bytes} (hr : req.take 2 = Wire.header .getCertificate)
    {h h' : HState} {n : Nat} {st' : RspState} (hw : h.tr.WF)
    (e : Responder.handleGetCertificate c ng (chainsOf slots) req h = (.ok (n, st'), h')) : Refines c cr env slots (.idAuth ng) req h n st' h' := by
  unfold Responder.handleGetCertificate at e
  obtain ⟨body, x1, e1, f1⟩ := M.bind_ok_inv e
  obtain ⟨q1, rfl⟩ := M.lift_ok_inv e1
  obtain ⟨_, rfl⟩ := sliceFrom_inv q1
  obtain ⟨m, x2, e2, f2⟩ := M.bind_ok_inv f1
  obtain ⟨q2, rfl⟩ := M.lift_ok_inv e2
  obtain ⟨bs, tail, hreq, rfl⟩ := parse_split GetCertificate.inverts hr q2
  rw [M.ite_run] at f2
  split at f2
  · simp [M.fail] at f2
  rename_i hs
  obtain ⟨⟨buf, portion⟩, x3, e3, f3⟩ := M.bind_ok_inv f2
  obtain ⟨q3, rfl⟩ := M.lift_ok_inv e3
  obtain ⟨chain, rest, rfl, rfl, hcl, hc⟩ := certPortion_inv q3
  simp only at f3
  have hp : (UInt16.ofNat chain.length).toNat = chain.length := ofNat_toNat16 (by omega)
  obtain ⟨rfl, i2, i3, i4, i5, i6, i7⟩ := replyLog_inv (Certificate.writes (by simp only; rw [hp]; simp)) (by simp [Wire.certificate]) hw f3
  have hwire : Wire.certificate ⟨m.slot, UInt16.ofNat chain.length, 0, chain ++ rest⟩ = Wire.certificate ⟨m.slot, UInt16.ofNat chain.length, 0, chain⟩ := by
    simp only [Wire.certificate, hp]
    rw [List.take_left' rfl, List.take_of_length_le (Nat.le_refl _)]
  refine ⟨i2, i3, i4, [], ?_, by rw [i7]; simp⟩
  rw [i5, i6, hwire]
  exact Step.getCertificate hreq (by omega) hc

theorem idAuthHandle_refines {c : Cfg} {cr : Crypto} {env : Env} {slots : List (Option FilledSlot)} (hl : slots.length = c.numSlots) (h8 : c.numSlots ≤ 8)
    {ng : Negotiated} {req : Bytes} {h h' : HState} {n : Nat} {st' : RspState} (hw : h.tr.WF)
    (e : Responder.idAuthHandle c cr ng (chainsOf slots) req h = (.ok (n, st'), h')) : Refines c cr env slots (.idAuth ng) req h n st' h' := by
  unfold Responder.idAuthHandle at e
  rcases resetOnGetVersion_inv e with e | e
  · exact versionHandle_refines (by simp) e
  obtain ⟨b, x1, e1, f1⟩ := M.bind_ok_inv e
  obtain ⟨q1, rfl⟩ := M.lift_ok_inv e1
  cases b with
  | true =>
    simp only [if_true] at f1
    obtain ⟨h3, hr⟩ := parseHeader_true q1
    exact handleGetDigests_refines hl h8 h3 hr hw f1
  | false =>
    simp only [Bool.false_eq_true, if_false] at f1
    obtain ⟨_, x2, e2, f2⟩ := M.bind_ok_inv f1
    obtain ⟨q2, rfl⟩ := M.lift_ok_inv e2
    exact handleGetCertificate_refines (expect_ok_inv q2).2 hw f2

/-! ### Challenge -/

theorem dflt_opaque (c : Cfg) : OpaqueDataWF c (OpaqueData.dflt c) where
  len := by simp [OpaqueData.dflt]
  total := by simp [OpaqueData.dflt]
  used := by
    intro e he
    simp only [OpaqueData.dflt, List.mem_replicate] at he
    rw [he.2]
    exact ⟨rfl, by simp [OpaqueElement.dflt], by simp [OpaqueElement.dflt], by simp [OpaqueElement.dflt, zeros]⟩
  unused := by
    intro i e he _
    have := List.mem_of_getElem? he
    simp only [OpaqueData.dflt, List.mem_replicate] at this
    rw [this.2]; rfl

theorem dflt_opaque_wire (c : Cfg) : Wire.opaqueData (OpaqueData.dflt c) = zeros 4 := by
  simp [Wire.opaqueData, OpaqueData.dflt, zeros, List.replicate]

theorem slotByte_auth {m : ChallengeAuth} (h : m.slot.toNat < 8) : slotByte m = authByte m.slot m.useMutualAuth := by
  unfold slotByte authByte
  split
  · have : ∀ x : UInt8, x.toNat < 8 → x &&& ((1 : UInt8) <<< 7) = 0 := forall_u8 (by decide +kernel)
    exact this _ h
  · rfl

theorem chainDigest_inv {c : Cfg} {cr : Crypto} {algo : UInt32} {ch : CertificateChain} {d : Bytes} (h : Responder.chainDigest c cr algo ch = .ok d) :
    RingHash algo ∧ d = cr.hash algo (Wire.chain ch) ∧ d.length ≤ c.maxDigestSize ∧ (Wire.chain ch).length ≤ 65535 ∧ (Wire.chain ch).length ≤ c.maxCertChainSize := by
  unfold Responder.chainDigest at h
  cases hw : Responder.writeChain ch (List.replicate c.maxCertChainSize 0) with
  | mk res out =>
    rw [hw] at h
    simp only at h
    obtain ⟨size, rfl, k1⟩ := res_bind_ok h
    obtain ⟨w1, w2, w3, w4, w5⟩ := writeChain_inv hw
    obtain ⟨data, h3, k2⟩ := res_bind_ok k1
    obtain ⟨_, rfl⟩ := sliceTo_inv h3
    have hdata : out.take size = Wire.chain ch := by rw [w5, w1]; exact List.take_left' rfl
    rw [hdata] at k2
    obtain ⟨h1, h2, h3, _⟩ := digest_inv k2
    simp only [List.length_replicate] at w2
    exact ⟨h1, h2, h3, by omega, by omega⟩

theorem slotAt_inv {slots : List (Option FilledSlot)} {i : Nat} {s : FilledSlot} (h : Responder.slotAt slots i = .ok s) : slots[i]? = some (some s) := by
  unfold Responder.slotAt at h
  split at h
  · simp only [Res.ok.injEq] at h; subst h; assumption
  · simp at h

theorem authNew_inv {c : Cfg} {slot mask : UInt8} {mu : Bool} {d n ms : Bytes} {o : OpaqueData} {sg : Bytes} {a : ChallengeAuth}
    (h : ChallengeAuth.new c slot mask mu d n ms o sg = .ok a) : a = ⟨slot, mask, mu, d, n, ms, o, sg⟩ ∧ d.length ≤ c.maxDigestSize ∧ ms.length ≤ c.maxDigestSize ∧
      sg.length ≤ c.maxSignatureSize := by
  unfold ChallengeAuth.new at h
  split at h
  · simp only [Res.ok.injEq] at h; exact ⟨h.symm, by assumption⟩
  · simp at h

theorem mapErr_ok_inv {σ α : Type} {f : Err → Err} {m : M σ α} {s s' : σ} {a : α} (h : M.mapErr f m s = (.ok a, s')) : m s = (.ok a, s') := by
  unfold M.mapErr at h
  split at h
  · simp at h
  · exact h

/-- The layout of the placeholder CHALLENGE_AUTH. -/
theorem auth_layout {c : Cfg} {slot mask : UInt8} {mu : Bool} {d n : Bytes} {ds ss : Nat} (hs : slot.toNat < c.numSlots) (h8 : c.numSlots ≤ 8) :
    ∃ body, Writes ((⟨slot, mask, mu, d, n, List.replicate ds 0, OpaqueData.dflt c, List.replicate ss 0⟩ : ChallengeAuth).writeBody c) id (body ++ zeros ss) ∧
      Wire.header .challengeAuth ++ body = authMsg slot mask mu d n ds ∧ 1 ≤ body.length := by
  have hlen : (Wire.opaqueData (OpaqueData.dflt c)).length = 4 := by rw [dflt_opaque_wire]; simp [zeros]
  have := ChallengeAuth.writes_gen (c := c) (m := ⟨slot, mask, mu, d, n, List.replicate ds 0, OpaqueData.dflt c, List.replicate ss 0⟩) hs (dflt_opaque c) (by simp only; omega)
  refine ⟨[authByte slot mu, mask] ++ d ++ n ++ zeros ds ++ Spec.le 2 4 ++ zeros 4, this.congr ?_, rfl, by simp⟩
  rw [slotByte_auth (by simp only; omega)]
  simp only [hlen]
  rw [dflt_opaque_wire]
  rfl

theorem challengeHandle_refines {c : Cfg} {cr : Crypto} {env : Env} {slots : List (Option FilledSlot)} (hl : slots.length = c.numSlots) (h8 : c.numSlots ≤ 8)
    {ng : Negotiated} {req : Bytes} {h h' : HState} {n : Nat} {st' : RspState} (hw : h.tr.WF)
    (e : Responder.challengeHandle c cr env ng slots req h = (.ok (n, st'), h')) : Refines c cr env slots (.challenge ng) req h n st' h' := by
  unfold Responder.challengeHandle at e
  rcases resetOnGetVersion_inv e with e | e
  · exact versionHandle_refines (by simp) e
  obtain ⟨_, x1, e1, f1⟩ := M.bind_ok_inv e
  obtain ⟨q1, rfl⟩ := M.lift_ok_inv e1
  obtain ⟨h3, hr⟩ := expect_ok_inv q1
  obtain ⟨ds, x2, e2, f2⟩ := M.bind_ok_inv f1
  obtain ⟨hds, rfl⟩ := M.lift_ok_inv e2
  obtain ⟨ss, x3, e3, f3⟩ := M.bind_ok_inv f2
  obtain ⟨hss, rfl⟩ := M.lift_ok_inv e3
  obtain ⟨body, x4, e4, f4⟩ := M.bind_ok_inv f3
  obtain ⟨q4, rfl⟩ := M.lift_ok_inv e4
  obtain ⟨_, rfl⟩ := sliceFrom_inv q4
  obtain ⟨m, x5, e5, f5⟩ := M.bind_ok_inv f4
  obtain ⟨q5, rfl⟩ := M.lift_ok_inv e5
  obtain ⟨bs, tail, hreq, rfl, hn⟩ := parse_split (Challenge.inverts c) hr q5
  obtain ⟨slot, x6, e6, f6⟩ := M.bind_ok_inv f5
  obtain ⟨q6, rfl⟩ := M.lift_ok_inv e6
  have hslot := slotAt_inv q6
  have hlt : m.slot.toNat < c.numSlots := by have := (List.getElem?_eq_some_iff.mp hslot).1; omega
  obtain ⟨d, x7, e7, f7⟩ := M.bind_ok_inv f6
  obtain ⟨q7, rfl⟩ := M.lift_ok_inv e7
  obtain ⟨hring, rfl, hdl, hch⟩ := chainDigest_inv q7
  obtain ⟨_, x8, e8, f8⟩ := M.bind_ok_inv f7
  obtain ⟨k8, g8, r8, s8, _⟩ := H.extend_inv hw e8
  obtain ⟨mask, x9, e9, f9⟩ := M.bind_ok_inv f8
  obtain ⟨q9, rfl⟩ := M.lift_ok_inv e9
  obtain ⟨mask', hm1, hm2⟩ := createSlotMask_run hl h8
  rw [q9] at hm1
  simp only [Res.ok.injEq] at hm1
  subst hm1
  obtain ⟨a, x10, e10, f10⟩ := M.bind_ok_inv f9
  obtain ⟨q10, rfl⟩ := M.lift_ok_inv e10
  obtain ⟨rfl, _, _, _⟩ := authNew_inv q10
  obtain ⟨body, hwr, hauth, hbl⟩ := auth_layout (mask := mask) (mu := Responder.useMutualAuth ng.caps) (d := cr.hash ng.algorithms.baseHashAlgoSelected (Wire.chain slot.certChain))
    (n := env.nonce) (ds := ds) (ss := ss) hlt h8
  obtain ⟨size, x11, e11, f11⟩ := M.bind_ok_inv f10
  obtain ⟨n11, l11, rfl⟩ := H.write_inv hwr (mapErr_ok_inv e11)
  obtain ⟨ss0, x12, e12, f12⟩ := M.bind_ok_inv f11
  obtain ⟨q12, rfl⟩ := M.lift_ok_inv e12
  simp only [List.length_append, zeros, List.length_replicate] at n11
  have hss0 : ss0 = 2 + body.length := by
    unfold Responder.subChecked at q12
    split at q12
    · simp only [Res.ok.injEq] at q12; omega
    · simp at q12
  obtain ⟨out, x13, e13, f13⟩ := M.bind_ok_inv f12
  obtain ⟨rfl, l13, rfl⟩ := H.rspTo_inv e13
  have hout : (Wire.header .challengeAuth ++ (body ++ zeros ss) ++ x10.rsp.drop size).take ss0 = Wire.header .challengeAuth ++ body := by
    rw [hss0, ← List.append_assoc, List.append_assoc]
    exact msg_take
  simp only [hout] at f13
  obtain ⟨_, x14, e14, f14⟩ := M.bind_ok_inv f13
  obtain ⟨k14, g14, r14, s14, _⟩ := H.extend_inv (by exact k8.wf) e14
  obtain ⟨t, x15, e15, f15⟩ := M.bind_ok_inv f14
  have ht : t = x14.tr.get ∧ x15 = x14 := by
    unfold H.transcript at e15
    simp only [Prod.mk.injEq, Res.ok.injEq] at e15
    exact ⟨e15.1.symm, e15.2.symm⟩
  obtain ⟨rfl, rfl⟩ := ht
  obtain ⟨m1, x16, e16, f16⟩ := M.bind_ok_inv f15
  obtain ⟨q16, rfl⟩ := M.lift_ok_inv e16
  obtain ⟨_, rfl, hml, hprov⟩ := digest_inv q16
  obtain ⟨sig, x17, e17, f17⟩ := M.bind_ok_inv f16
  have htr : x16.tr.get = x7.tr.get ++ req ++ authMsg m.slot mask (Responder.useMutualAuth ng.caps)
      (cr.hash ng.algorithms.baseHashAlgoSelected (Wire.chain slot.certChain)) env.nonce ds := by
    rw [g14, ← hauth, g8]
  unfold Responder.signWith at e17
  simp only at e17
  split at e17
  swap
  · simp at e17
  rename_i sg hsg
  simp only [Prod.mk.injEq, Res.ok.injEq] at e17
  obtain ⟨rfl, rfl⟩ := e17
  obtain ⟨_, x18, e18, f18⟩ := M.bind_ok_inv f17
  simp only [M.run_pure, Prod.mk.injEq, Res.ok.injEq] at f18
  obtain ⟨⟨rfl, rfl⟩, rfl⟩ := f18
  unfold Responder.patchRsp at e18
  simp only at e18
  split at e18
  swap
  · simp at e18
  split at e18
  swap
  · simp at e18
  rename_i hb hsl
  simp only [Prod.mk.injEq, true_and] at e18
  subst e18
  have hsl' : sg.length = ss := by omega
  have hpre : x16.rsp.take ss0 = Wire.header .challengeAuth ++ body := by rw [r14]; exact hout
  have hlen16 : x16.rsp.length = x7.rsp.length := by
    rw [r14]
    simp only [List.length_append, header_length, zeros, List.length_replicate, List.length_drop]
    rw [r8] at *
    omega
  have hn0 : size = (Wire.header .challengeAuth ++ body ++ sg).length := by
    simp only [List.length_append, header_length]; omega
  refine ⟨⟨k14.wf, k14.cap.trans k8.cap, ?_⟩, ?_, by omega, [(m.slot.toNat, cr.hash ng.algorithms.baseHashAlgoSelected x16.tr.get)], ?_, ?_⟩
  · simp only [List.length_append, List.length_take, List.length_drop]; omega
  · simp only [List.length_append, List.length_take, List.length_drop]; omega
  · have hfin : (x16.rsp.take ss0 ++ sg ++ x16.rsp.drop size).take size = Wire.header .challengeAuth ++ body ++ sg := by
      rw [hpre, hn0]; exact List.take_left' rfl
    simp only [hfin, htr, hauth]
    rw [htr] at hsg hml
    exact Step.challenge hreq hn hds hss hslot hlt hch (fun i _ => hm2 i) hring rfl hsg hsl' hprov hdl hml
  · simp only [s14, s8]

theorem dispatch_refines {c : Cfg} {cr : Crypto} {env : Env} {slots : List (Option FilledSlot)} (hl : slots.length = c.numSlots) (h8 : c.numSlots ≤ 8)
    {st : RspState} {req : Bytes} {h h' : HState} {n : Nat} {st' : RspState} (hw : h.tr.WF)
    (e : Responder.dispatch c cr env slots st req h = (.ok (n, st'), h')) : Refines c cr env slots st req h n st' h' := by
  unfold Responder.dispatch at e
  cases st with
  | version => exact versionHandle_refines (by simp) e
  | capabilities => exact capabilitiesHandle_refines hw e
  | algorithms caps => exact algorithmsHandle_refines hw e
  | idAuth n => exact idAuthHandle_refines hl h8 hw e
  | challenge n => exact challengeHandle_refines hl h8 hw e
  | error => simp [M.die] at e

end Spdm
