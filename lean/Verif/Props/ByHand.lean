import Verif.Spec.ByHand
import Verif.Lemmas.Full
import Verif.Props.Shown
import Verif.Props.Response
import Verif.DemoSession
/-!
# C104: driving the public protocol states by hand
-/
namespace Spdm
open Spec

section
variable {c : Cfg}

/-! ### One call -/

theorem full_extend_ok {σ : Type} {s : σ} {t : Transcript} (hw : t.WF) {bs : Bytes} (hr : t.get.length + bs.length ≤ t.buf.length) :
    ∃ t', ReqFull.extend bs (s, t) = (.ok (), (s, t')) ∧ t'.get = t.get ++ bs ∧ t'.WF ∧ t'.buf.length = t.buf.length := by
  obtain ⟨t', h1, h2, h3, h4⟩ := Transcript.extend_room hw hr
  exact ⟨t', by simp only [ReqFull.extend, h1], h2, h3, h4⟩

theorem full_extend_full {σ : Type} {s : σ} {t : Transcript} (hw : t.WF) {bs : Bytes} (hr : t.buf.length < t.get.length + bs.length) :
    ReqFull.extend bs (s, t) = (.err .bufferFull, (s, t)) := by
  simp only [ReqFull.extend, Transcript.extend_full hw hr]

/-- A method that writes a message of known layout: it is returned and recorded, or nothing happens. -/
theorem hand_write {σ : Type} {ty : MsgType} {body : W Nat} {layout : Bytes} (hb : Writes body id layout) (s : σ) {t : Transcript} (hw : t.WF) (buf : Bytes) :
    ∃ x t', (do let out ← M.lift (Requester.writeTo ty body buf); ReqFull.extend out; pure out : ReqFull.S σ Bytes) (s, t) = (x, (s, t')) ∧ t'.WF ∧ t'.buf.length = t.buf.length ∧
      (2 + layout.length ≤ buf.length ∧ t.get.length + (2 + layout.length) ≤ t.buf.length ∧ x = .ok (Wire.header ty ++ layout) ∧ t'.get = t.get ++ (Wire.header ty ++ layout) ∨
        ¬ (2 + layout.length ≤ buf.length ∧ t.get.length + (2 + layout.length) ≤ t.buf.length) ∧ x.isErr = true ∧ t' = t) := by
  by_cases h1 : 2 + layout.length ≤ buf.length
  · have hl : (Wire.header ty ++ layout).length = 2 + layout.length := by rw [List.length_append, header_length]
    rw [writeTo_run hb h1]
    by_cases h2 : t.get.length + (2 + layout.length) ≤ t.buf.length
    · obtain ⟨t', e, g1, g2, g3⟩ := full_extend_ok (s := s) hw (bs := Wire.header ty ++ layout) (by rw [hl]; exact h2)
      refine ⟨_, t', ?_, g2, g3, .inl ⟨h1, h2, rfl, g1⟩⟩
      rw [M.run_bind_ok (a := Wire.header ty ++ layout) (s' := (s, t)) (by rw [M.run_lift]), M.run_bind_ok e]
      rfl
    · refine ⟨.err .bufferFull, t, ?_, hw, rfl, .inr ⟨fun h => h2 h.2, rfl, rfl⟩⟩
      rw [M.run_bind_ok (a := Wire.header ty ++ layout) (s' := (s, t)) (by rw [M.run_lift]), M.run_bind_err (full_extend_full hw (by rw [hl]; omega))]
  · obtain ⟨e, out, he, _, hx⟩ := write_full (t := ty) hb (buf := buf) (by omega)
    have hwt : Requester.writeTo ty body buf = .err e := by unfold Requester.writeTo; rw [hx]; rfl
    rw [hwt]
    exact ⟨.err e, t, rfl, hw, rfl, .inr ⟨fun h => h1 h.1, rfl, rfl⟩⟩

/-- **C104, GET_CERTIFICATE by hand.** For a slot the build has, the request for the whole chain of that slot is written and recorded, if there is room for its eight bytes in
the buffer and in the transcript, and otherwise nothing changes; for another slot the call aborts. -/
theorem c104_ask_certificate (c : Cfg) (s : ReqFull.IdAuth) (t : Transcript) (hw : t.WF) (slot : UInt8) (buf : Bytes) :
    (c.numSlots ≤ slot.toNat → ReqFull.IdAuth.writeGetCertificate c slot buf (s, t) = (.panic .assertion, (s, t))) ∧
      (slot.toNat < c.numSlots → ∃ x t', ReqFull.IdAuth.writeGetCertificate c slot buf (s, t) = (x, (s, t')) ∧ t'.WF ∧ t'.buf.length = t.buf.length ∧
        (8 ≤ buf.length ∧ t.get.length + 8 ≤ t.buf.length ∧ x = .ok ([0x11, 0x82, slot, 0, 0, 0] ++ le 2 (c.maxCertChainSize % 65536)) ∧
            t'.get = t.get ++ ([0x11, 0x82, slot, 0, 0, 0] ++ le 2 (c.maxCertChainSize % 65536)) ∨
          ¬ (8 ≤ buf.length ∧ t.get.length + 8 ≤ t.buf.length) ∧ x.isErr = true ∧ t' = t)) := by
  unfold ReqFull.IdAuth.writeGetCertificate
  refine ⟨fun h => by rw [if_pos (by omega)]; rfl, fun h => ?_⟩
  rw [if_neg (by omega)]
  obtain ⟨x, t', e, h1, h2, h3⟩ := hand_write (ty := .getCertificate) (GetCertificate.writes ⟨slot, 0, UInt16.ofNat c.maxCertChainSize⟩) s hw buf
  have hl : (Wire.getCertificate ⟨slot, 0, UInt16.ofNat c.maxCertChainSize⟩).length = 6 := by simp [Wire.getCertificate, zeros, le_length]
  have he : Wire.header .getCertificate ++ Wire.getCertificate ⟨slot, 0, UInt16.ofNat c.maxCertChainSize⟩ = [0x11, 0x82, slot, 0, 0, 0] ++ le 2 (c.maxCertChainSize % 65536) := by
    simp [Wire.header, Wire.getCertificate, zeros, Spec.le, List.range_succ, UInt16.toNat_ofNat']
  rw [hl, he] at h3
  exact ⟨x, t', e, h1, h2, h3⟩

/-- **C104, CERTIFICATE by hand.** A readable CERTIFICATE message becomes the certificate the state holds — also if there is no room for it in the transcript, in which case
the call reports a full buffer; it is recorded if there is room, and then the call succeeds.  Anything else is refused and changes nothing. -/
theorem c104_certificate (c : Cfg) (h0 : 0 < c.numSlots) (h8 : c.numSlots ≤ 8) (s : ReqFull.IdAuth) (t : Transcript) (hw : t.WF) (rsp : Bytes) :
    (∀ cert, Says c ⟨0, 0, false⟩ rsp (.certificate cert) →
      (t.get.length + rsp.length ≤ t.buf.length → ∃ t', ReqFull.IdAuth.handleCertificate c rsp (s, t) = (.ok (), ({ s with certChain := some cert }, t')) ∧ t'.get = t.get ++ rsp ∧
        t'.WF ∧ t'.buf.length = t.buf.length) ∧
      (t.buf.length < t.get.length + rsp.length → ReqFull.IdAuth.handleCertificate c rsp (s, t) = (.err .bufferFull, ({ s with certChain := some cert }, t)))) ∧
    ((¬ ∃ cert, Says c ⟨0, 0, false⟩ rsp (.certificate cert)) → ∃ x, x.isOk = false ∧ ReqFull.IdAuth.handleCertificate c rsp (s, t) = (x, (s, t))) := by
  unfold ReqFull.IdAuth.handleCertificate
  constructor
  · rintro cert ⟨bs, tail, rfl, hd⟩
    have hp : Certificate.parseBody c (bs ++ tail) = .ok cert := by
      have := denotes_parse h0 h8 (tail := tail) hd
      obtain ⟨x, g1, g2⟩ := res_map_ok_inv this
      cases g2; exact g1
    have hne : 1 ≤ (bs ++ tail).length := by rw [hd.2]; simp [Wire.certificate]
    have e1 : Responder.expect .certificate (Wire.header (AnyMsg.certificate cert).ty ++ bs ++ tail) = .ok () := by
      rw [List.append_assoc]
      exact expect_ok (by rw [List.length_append, header_length]; omega) (List.take_left' (header_length _))
    have e2 : sliceFrom (Wire.header (AnyMsg.certificate cert).ty ++ bs ++ tail) headerSize = .ok (bs ++ tail) := by
      rw [List.append_assoc]; exact split_body _ _
    rw [lift_run e1, lift_run e2, lift_run (x := Certificate.parseBody c (bs ++ tail)) hp]
    constructor
    · intro hr
      obtain ⟨t', e, g1, g2, g3⟩ := full_extend_ok (s := { s with certChain := some cert }) hw hr
      exact ⟨t', by rw [M.run_bind_ok (m := ReqFull.assign _) rfl]; exact e, g1, g2, g3⟩
    · intro hr
      rw [M.run_bind_ok (m := ReqFull.assign _) rfl]
      exact full_extend_full hw hr
  · intro hn
    rcases h1 : Responder.expect .certificate rsp with u | e | k
    · obtain ⟨h3, hh⟩ := expect_ok_inv h1
      have e2 : sliceFrom rsp headerSize = .ok (rsp.drop 2) := by unfold sliceFrom headerSize; rw [if_pos (by omega)]
      rw [lift_run (a := u) rfl, lift_run e2]
      rcases h4 : Certificate.parseBody c (rsp.drop 2) with m | e | k
      · exact absurd ⟨m, says_of_parse (x := ⟨0, 0, false⟩) h0 h8 hh (by simp [AnyMsg.parse, h4, Res.map])⟩ hn
      · exact ⟨.err e, rfl, rfl⟩
      · exact ⟨.panic k, rfl, rfl⟩
    · exact ⟨.err e, rfl, rfl⟩
    · exact ⟨.panic k, rfl, rfl⟩

/-- **C104, DIGESTS by hand.** What a successful call leaves: the digests of the message, which has the size of the negotiated hash, and the message in the transcript. -/
theorem c104_digests (c : Cfg) (h0 : 0 < c.numSlots) (h8 : c.numSlots ≤ 8) (s s' : ReqFull.IdAuth) (t t' : Transcript) (hw : t.WF) (rsp : Bytes) (u : Unit)
    (h : ReqFull.IdAuth.handleDigests c rsp (s, t) = (.ok u, (s', t'))) :
    ∃ d, Says c ⟨sizeFor digestSizes s.algorithms.baseHashAlgoSelected.toNat, 0, false⟩ rsp (.digests d) ∧ s' = { s with digests := some d } ∧ t'.get = t.get ++ rsp := by
  unfold ReqFull.IdAuth.handleDigests at h
  obtain ⟨u1, h1, h⟩ := M.lift_bind_inv h
  obtain ⟨h3, hh⟩ := expect_ok_inv h1
  obtain ⟨s1, _, h2, h⟩ := M.bind_ok_inv h
  cases h2
  obtain ⟨size, hz, h⟩ := M.lift_bind_inv h
  obtain ⟨body, hb, h⟩ := M.lift_bind_inv h
  obtain ⟨_, rfl⟩ := sliceFrom_inv hb
  obtain ⟨d, hd, h⟩ := M.lift_bind_inv h
  obtain ⟨_, p1, h4, h⟩ := M.bind_ok_inv h
  cases h4
  simp only [ReqFull.extend] at h
  rcases he : Transcript.extend rsp t with ⟨x, t1⟩
  rw [he] at h
  cases h
  refine ⟨d, ?_, rfl, (Transcript.extend_ok_inv hw he).1⟩
  rw [getDigestSize_sizeFor hz]
  exact says_of_parse h0 h8 hh (by simp only [headerSize] at hd; simp [AnyMsg.parse, hd, Res.map])

/-! ### Any sequence of calls -/

/-- What one call may do: its message is recorded exactly if it succeeded, and only `digests` and `cert_chain` change. -/
structure HandStep (p p' : ReqFull.IdAuth × Transcript) (x : Res Bytes) : Prop where
  wf : p'.2.WF
  cap : p'.2.buf.length = p.2.buf.length
  text : p'.2.get = p.2.get ++ (handMsgs [x]).flatten
  fields : ∃ d o, p'.1 = { p.1 with digests := d, certChain := o }

theorem handStep_refl {p : ReqFull.IdAuth × Transcript} (hw : p.2.WF) {x : Res Bytes} (hx : x.isOk = false) : HandStep p p x := by
  refine ⟨hw, rfl, ?_, p.1.digests, p.1.certChain, rfl⟩
  cases x with
  | ok a => cases hx
  | err e => simp [handMsgs]
  | panic k => simp [handMsgs]

theorem hand_step (x : HandCall) (s : ReqFull.IdAuth) (t : Transcript) (hw : t.WF) : HandStep (s, t) (x.run c (s, t)).2 (x.run c (s, t)).1 := by
  have wr : ∀ {m : ReqFull.S ReqFull.IdAuth Bytes} {layout : Bytes} {ty : MsgType} {buf : Bytes}, (∃ x t', m (s, t) = (x, (s, t')) ∧ t'.WF ∧ t'.buf.length = t.buf.length ∧
      (2 + layout.length ≤ buf.length ∧ t.get.length + (2 + layout.length) ≤ t.buf.length ∧ x = .ok (Wire.header ty ++ layout) ∧ t'.get = t.get ++ (Wire.header ty ++ layout) ∨
        ¬ (2 + layout.length ≤ buf.length ∧ t.get.length + (2 + layout.length) ≤ t.buf.length) ∧ x.isErr = true ∧ t' = t)) → HandStep (s, t) (m (s, t)).2 (m (s, t)).1 := by
    rintro m layout ty buf ⟨x, t', e, h1, h2, h3⟩
    rw [e]
    rcases h3 with ⟨-, -, rfl, h3⟩ | ⟨-, hx, rfl⟩
    · exact ⟨h1, h2, by simp [handMsgs, h3], _, _, rfl⟩
    · exact handStep_refl hw (by cases x <;> simp_all [Res.isOk, Res.isErr])
  have rd : ∀ {rsp : Bytes} {m : ReqFull.S ReqFull.IdAuth Unit}, (∃ s1 x, (∃ d o, s1 = { s with digests := d, certChain := o }) ∧ x.isOk = false ∧ m (s, t) = (x, (s1, t))) ∨
      (∃ s1, (∃ d o, s1 = { s with digests := d, certChain := o }) ∧ m (s, t) = ReqFull.extend rsp (s1, t)) →
      HandStep (s, t) ((do m; pure rsp : ReqFull.S ReqFull.IdAuth Bytes) (s, t)).2 ((do m; pure rsp : ReqFull.S ReqFull.IdAuth Bytes) (s, t)).1 := by
    rintro rsp m (⟨s1, x, ⟨d, o, rfl⟩, hx, e⟩ | ⟨s1, ⟨d, o, rfl⟩, e⟩)
    · rw [M.run_bind, e]
      cases x with
      | ok a => cases hx
      | err e => exact ⟨hw, rfl, by simp [handMsgs], d, o, rfl⟩
      | panic e => exact ⟨hw, rfl, by simp [handMsgs], d, o, rfl⟩
    · rw [M.run_bind, e]
      by_cases hr : t.get.length + rsp.length ≤ t.buf.length
      · obtain ⟨t', e, g1, g2, g3⟩ := full_extend_ok (s := { s with digests := d, certChain := o }) hw hr
        rw [e]
        exact ⟨g2, g3, by show t'.get = _; simp [handMsgs, g1, M.run_pure], d, o, rfl⟩
      · rw [full_extend_full hw (by omega)]
        exact ⟨hw, rfl, by simp [handMsgs], d, o, rfl⟩
  have same : ∃ d o, s = { s with digests := d, certChain := o } := ⟨_, _, rfl⟩
  cases x with
  | askDigests buf => exact wr (hand_write (ty := .getDigests) GetDigests.writes s hw buf)
  | askCertificate slot buf =>
    simp only [HandCall.run, ReqFull.IdAuth.writeGetCertificate]
    by_cases h : slot.toNat < c.numSlots
    · simp only [h, not_true, if_false]
      exact wr (hand_write (ty := .getCertificate) (GetCertificate.writes ⟨slot, 0, UInt16.ofNat c.maxCertChainSize⟩) s hw buf)
    · simp only [h, not_false_eq_true, if_true]
      exact handStep_refl hw rfl
  | digests rsp =>
    refine rd ?_
    unfold ReqFull.IdAuth.handleDigests
    rcases Responder.expect .digests rsp with u | e | k
    · rw [lift_run (a := u) rfl, M.run_bind_ok (m := ReqFull.self) rfl]
      rcases BaseHashAlgo.getDigestSize c s.algorithms.baseHashAlgoSelected with z | e | k
      · rw [lift_run (a := z) rfl]
        rcases sliceFrom rsp headerSize with b | e | k
        · rw [lift_run (a := b) rfl]
          rcases Digests.parseBody c z b with d | e | k
          · rw [lift_run (a := d) rfl]
            exact .inr ⟨{ s with digests := some d }, ⟨_, _, rfl⟩, rfl⟩
          · exact .inl ⟨s, .err e, same, rfl, rfl⟩
          · exact .inl ⟨s, .panic k, same, rfl, rfl⟩
        · exact .inl ⟨s, .err e, same, rfl, rfl⟩
        · exact .inl ⟨s, .panic k, same, rfl, rfl⟩
      · exact .inl ⟨s, .err e, same, rfl, rfl⟩
      · exact .inl ⟨s, .panic k, same, rfl, rfl⟩
    · exact .inl ⟨s, .err e, same, rfl, rfl⟩
    · exact .inl ⟨s, .panic k, same, rfl, rfl⟩
  | certificate rsp =>
    refine rd ?_
    unfold ReqFull.IdAuth.handleCertificate
    rcases Responder.expect .certificate rsp with u | e | k
    · rw [lift_run (a := u) rfl]
      rcases sliceFrom rsp headerSize with b | e | k
      · rw [lift_run (a := b) rfl]
        rcases Certificate.parseBody c b with d | e | k
        · rw [lift_run (a := d) rfl]
          exact .inr ⟨{ s with certChain := some d }, ⟨_, _, rfl⟩, rfl⟩
        · exact .inl ⟨s, .err e, same, rfl, rfl⟩
        · exact .inl ⟨s, .panic k, same, rfl, rfl⟩
      · exact .inl ⟨s, .err e, same, rfl, rfl⟩
      · exact .inl ⟨s, .panic k, same, rfl, rfl⟩
    · exact .inl ⟨s, .err e, same, rfl, rfl⟩
    · exact .inl ⟨s, .panic k, same, rfl, rfl⟩

/-- **C104, any order.** Whatever methods of the state are called in whatever order: the transcript is the one at the start followed by the messages of the calls that
succeeded, and version, capabilities and algorithms are those at the start. -/
theorem c104_transcript (c : Cfg) (calls : List HandCall) (s : ReqFull.IdAuth) (t : Transcript) (hw : t.WF) :
    (byHand c (s, t) calls).2.get = t.get ++ (handMsgs (handResults c (s, t) calls)).flatten ∧ (byHand c (s, t) calls).2.get.length ≤ t.buf.length ∧
      ∃ d o, (byHand c (s, t) calls).1 = { s with digests := d, certChain := o } := by
  suffices h : ∀ p : ReqFull.IdAuth × Transcript, p.2.WF → (byHand c p calls).2.get = p.2.get ++ (handMsgs (handResults c p calls)).flatten ∧ (byHand c p calls).2.WF ∧
      (byHand c p calls).2.buf.length = p.2.buf.length ∧ ∃ d o, (byHand c p calls).1 = { p.1 with digests := d, certChain := o } by
    obtain ⟨h1, h2, h3, h4⟩ := h (s, t) hw
    refine ⟨h1, ?_, h4⟩
    rw [Transcript.get_length h2, ← h3]
    exact h2
  induction calls with
  | nil => intro p hp; exact ⟨by simp [byHand, handResults, handMsgs], hp, rfl, _, _, rfl⟩
  | cons x xs ih =>
    intro p hp
    obtain ⟨g1, g2, g3, d, o, g4⟩ := hand_step (c := c) x p.1 p.2 hp
    obtain ⟨k1, k2, k3, d', o', k4⟩ := ih (x.run c p).2 g1
    refine ⟨?_, k2, k3.trans g2, d', o', ?_⟩
    · simp only [byHand, handResults]
      rw [k1, g3, List.append_assoc, ← List.flatten_append]
      congr 2
      exact (List.filterMap_append (l := [(x.run c p).1])).symm
    · show (byHand c (x.run c p).2 xs).1 = _
      rw [k4]
      have : (x.run c p).2.1 = { p.1 with digests := d, certChain := o } := g4
      rw [this]

theorem hand_keeps (x : HandCall) (s : ReqFull.IdAuth) (t : Transcript) (hw : t.WF) (hx : ∀ rsp, x ≠ .certificate rsp) : (x.run c (s, t)).2.1.certChain = s.certChain := by
  cases x with
  | askDigests buf =>
    obtain ⟨x, t', e, -⟩ := hand_write (ty := .getDigests) GetDigests.writes s hw buf
    simp only [HandCall.run, ReqFull.IdAuth.writeGetDigests, e]
  | askCertificate slot buf =>
    simp only [HandCall.run, ReqFull.IdAuth.writeGetCertificate]
    by_cases h : slot.toNat < c.numSlots
    · obtain ⟨x, t', e, -⟩ := hand_write (ty := .getCertificate) (GetCertificate.writes ⟨slot, 0, UInt16.ofNat c.maxCertChainSize⟩) s hw buf
      simp only [h, not_true, if_false, e]
    · simp only [h, not_false_eq_true, if_true]
      rfl
  | digests rsp =>
    simp only [HandCall.run, ReqFull.IdAuth.handleDigests, M.run_bind, M.run_lift]
    rcases Responder.expect .digests rsp with u | e | k
    · simp only [ReqFull.self]
      rcases BaseHashAlgo.getDigestSize c s.algorithms.baseHashAlgoSelected with z | e | k
      · dsimp only
        rcases sliceFrom rsp headerSize with b | e | k
        · dsimp only
          rcases Digests.parseBody c z b with d | e | k
          · simp only [ReqFull.assign, ReqFull.extend]
            rcases Transcript.extend rsp t with ⟨_ | _ | _, t'⟩ <;> rfl
          · rfl
          · rfl
        · rfl
        · rfl
      · rfl
      · rfl
    · rfl
    · rfl
  | certificate rsp => exact absurd rfl (hx rsp)

/-- **C104, the chain held.** After any calls in any order the state holds the certificate of the last message handed to `handle_certificate` that is a readable CERTIFICATE. -/
theorem c104_held (c : Cfg) (h0 : 0 < c.numSlots) (h8 : c.numSlots ≤ 8) (calls : List HandCall) (s : ReqFull.IdAuth) (t : Transcript) (hw : t.WF) :
    HoldsCert c s.certChain calls (byHand c (s, t) calls).1.certChain := by
  induction calls generalizing s t with
  | nil => exact rfl
  | cons x xs ih =>
    have hst := hand_step (c := c) x s t hw
    have hi : HoldsCert c (x.run c (s, t)).2.1.certChain xs (byHand c (x.run c (s, t)).2 xs).1.certChain := ih _ _ hst.wf
    have hk := hand_keeps (c := c) x s t hw
    cases x with
    | askDigests buf => rw [hk (by simp)] at hi; exact hi
    | askCertificate slot buf => rw [hk (by simp)] at hi; exact hi
    | digests rsp => rw [hk (by simp)] at hi; exact hi
    | certificate rsp =>
      obtain ⟨h1, h2⟩ := c104_certificate c h0 h8 s t hw rsp
      by_cases hc : ∃ cert, Says c ⟨0, 0, false⟩ rsp (.certificate cert)
      · obtain ⟨cert, hc⟩ := hc
        obtain ⟨g1, g2⟩ := h1 cert hc
        have : (HandCall.run c (.certificate rsp) (s, t)).2.1.certChain = some cert := by
          simp only [HandCall.run, M.run_bind]
          by_cases hr : t.get.length + rsp.length ≤ t.buf.length
          · obtain ⟨t', e, -⟩ := g1 hr
            rw [e]; rfl
          · rw [g2 (by omega)]
        rw [this] at hi
        exact .inl ⟨cert, hc, hi⟩
      · obtain ⟨x, hx, e⟩ := h2 hc
        have : (HandCall.run c (.certificate rsp) (s, t)).2.1.certChain = s.certChain := by
          simp only [HandCall.run, M.run_bind, e]
          cases x with
          | ok a => cases hx
          | err e => rfl
          | panic k => rfl
        rw [this] at hi
        exact .inr ⟨hc, hi⟩

/-! ### From state to state -/

/-- **C104, conversions.** A conversion aborts exactly if something is missing, and otherwise carries over what it has. -/
theorem c104_conversions :
    (∀ s : ReqFull.Capabilities, (ReqFull.Algorithms.from s).isPanic = true ↔ s.requesterCt = none ∨ s.requesterCap = none ∨ s.responderCt = none ∨ s.responderCap = none) ∧
    (∀ (v : VersionEntry) (a b : UInt8) (x y : UInt32), ReqFull.Algorithms.from ⟨v, some a, some x, some b, some y⟩ = .ok ⟨v, a, x, b, y, none, none⟩) ∧
    (∀ s : ReqFull.Algorithms, (ReqFull.IdAuth.from s).isPanic = true ↔ s.algorithms = none) ∧
    (∀ (v : VersionEntry) (a b : UInt8) (x y : UInt32) (o : Option NegotiateAlgorithms) (al : Algorithms),
      ReqFull.IdAuth.from ⟨v, a, x, b, y, o, some al⟩ = .ok ⟨v, a, x, b, y, al, none, none⟩) ∧
    (∀ s : ReqFull.IdAuth, (ReqFull.Challenge.from s).isPanic = true ↔ s.certChain = none) ∧
    (∀ (v : VersionEntry) (a b : UInt8) (x y : UInt32) (al : Algorithms) (d : Option Digests) (cert : Certificate),
      ReqFull.Challenge.from ⟨v, a, x, b, y, al, d, some cert⟩ = .ok ⟨v, a, x, b, y, al, cert.slot, cert.certChain, cert.portionLength, none⟩) := by
  refine ⟨?_, fun _ _ _ _ _ => rfl, ?_, fun _ _ _ _ _ _ _ => rfl, ?_, fun _ _ _ _ _ _ _ _ => rfl⟩
  · rintro ⟨v, _ | a, _ | x, _ | b, _ | y⟩ <;> simp [ReqFull.Algorithms.from, Requester.unwrap, Bind.bind, Res.bind, Res.isPanic, Pure.pure]
  · rintro ⟨v, a, x, b, y, o, _ | al⟩ <;> simp [ReqFull.IdAuth.from, Requester.unwrap, Bind.bind, Res.bind, Res.isPanic, Pure.pure]
  · rintro ⟨v, a, x, b, y, al, d, _ | cert⟩ <;> simp [ReqFull.Challenge.from, Requester.unwrap, Bind.bind, Res.bind, Res.isPanic, Pure.pure]

/-- **C104, the challenge.** The CHALLENGE written names the slot of the state and carries the nonce drawn, which the state keeps even if there is no room for the message. -/
theorem c104_challenge (s : ReqFull.Challenge) (t : Transcript) (hw : t.WF) (env : Env) (buf : Bytes) :
    ∃ x t', ReqFull.Challenge.writeMsg env buf (s, t) = (x, ({ s with nonce := some env.nonce }, t')) ∧ t'.WF ∧ t'.buf.length = t.buf.length ∧
      (4 + env.nonce.length ≤ buf.length ∧ t.get.length + (4 + env.nonce.length) ≤ t.buf.length ∧ x = .ok ([0x11, 0x83, s.certSlot, 0] ++ env.nonce) ∧
          t'.get = t.get ++ ([0x11, 0x83, s.certSlot, 0] ++ env.nonce) ∨
        ¬ (4 + env.nonce.length ≤ buf.length ∧ t.get.length + (4 + env.nonce.length) ≤ t.buf.length) ∧ x.isErr = true ∧ t' = t) := by
  obtain ⟨x, t', e, h1, h2, h3⟩ := hand_write (ty := .challenge) (Challenge.writes ⟨s.certSlot, .none, env.nonce⟩) { s with nonce := some env.nonce } hw buf
  have he : Wire.header .challenge ++ Wire.challenge ⟨s.certSlot, .none, env.nonce⟩ = ([0x11, 0x83, s.certSlot, 0] ++ env.nonce : Bytes) := rfl
  have hl : 2 + (Wire.challenge ⟨s.certSlot, .none, env.nonce⟩).length = 4 + env.nonce.length := by
    have := congrArg List.length he
    simp only [List.length_append, header_length, List.length_cons, List.length_nil] at this
    omega
  rw [hl, he] at h3
  exact ⟨x, t', e, h1, h2, h3⟩

/-- **C104, authentication by hand.** A challenge state made from an identity state that accepted the CERTIFICATE message `cert` of any slot accepts exactly the CHALLENGE_AUTH
messages of that slot: with the hash of that chain, the chain trusted, and the signature of its leaf over the bytes of the transcript, as in C81.  That a CHALLENGE was written
is not needed. -/
theorem c104_authenticates {cr : Crypto} (c : Cfg) (h0 : 0 < c.numSlots) (h8 : c.numSlots ≤ 8) (henc : EncoderFits c) (offer : NegotiateAlgorithms) (s s1 : ReqFull.IdAuth)
    (t t1 t2 : Transcript) (hw : t2.WF) (cert : Bytes) (u : Unit) (hcert : ReqFull.IdAuth.handleCertificate c cert (s, t) = (.ok u, (s1, t1))) (hwt : t.WF)
    (ch : ReqFull.Challenge) (hch : ReqFull.Challenge.from s1 = .ok ch) (nonce : Option Bytes) (rsp root : Bytes) (m0 m1 m2 m3 : Bytes) :
    (∃ t', ReqFull.Challenge.handleMsg c cr { ch with nonce := nonce } rsp root t2 = (.ok (), t')) ↔
      Acceptable c cr root offer [m0, m1, m2, m3, cert] (handLog s.algorithms t2.get) rsp true ∧ ((handLog s.algorithms t2.get).add rsp).text.length ≤ t2.buf.length := by
  -- the certificate
  obtain ⟨h1, h2⟩ := c104_certificate c h0 h8 s t hwt cert
  have hsay : ∃ ct, Says c ⟨0, 0, false⟩ cert (.certificate ct) := by
    refine Classical.byContradiction fun hn => ?_
    obtain ⟨x, hx, e⟩ := h2 hn
    rw [hcert] at e
    cases e; cases hx
  obtain ⟨ct, hct⟩ := hsay
  have hs1 : s1 = { s with certChain := some ct } := by
    obtain ⟨g1, g2⟩ := h1 ct hct
    by_cases hr : t.get.length + cert.length ≤ t.buf.length
    · obtain ⟨t', e, -⟩ := g1 hr
      rw [hcert] at e
      cases e; rfl
    · rw [g2 (by omega)] at hcert
      cases hcert
  subst hs1
  obtain ⟨bs, ctail, rfl, hcw, rfl⟩ := hct
  cases hch
  -- the simpler requester in the same state
  let s' : ReqChallenge := ⟨s.version, ⟨s.requesterCt, s.requesterCap, s.responderCt, s.responderCap⟩, s.algorithms, ct.slot, ct.certChain, ct.portionLength, nonce⟩
  let r : Requester := ⟨root, t2, some (.challenge s')⟩
  have hsim := req_handle c cr (.challenge ⟨s.version, s.requesterCt, s.requesterCap, s.responderCt, s.responderCap, s.algorithms, ct.slot, ct.certChain, ct.portionLength, nonce⟩) rsp root
    { r with state := none } rfl
  change Requester.handle c cr (.challenge s') rsp { r with state := none } = _ at hsim
  have hrun : ∀ x t', ReqFull.Challenge.handleMsg c cr ⟨s.version, s.requesterCt, s.requesterCap, s.responderCt, s.responderCap, s.algorithms, ct.slot, ct.certChain, ct.portionLength, nonce⟩
      rsp root t2 = (x, t') → Requester.handle c cr (.challenge s') rsp { r with state := none } =
        (Res.map (fun _ => ReqState.newSession) x, ⟨root, t', none⟩) := by
    intro x t' e
    rw [hsim]
    simp only [ReqFull.AllStates.handleMsg, M.run_bind, e, r]
    cases x <;> rfl
  constructor
  · rintro ⟨t', e⟩
    have hh := hrun _ _ e
    have hm : Requester.handleMsg c cr rsp r = (.ok true, ⟨root, t', some .newSession⟩) := by
      simp only [Requester.handleMsg, r] at hh ⊢
      rw [hh]
      rfl
    rcases recv_refines (st := .challenge s') rfl (show r.transcript.WF from hw) hm with ⟨st', g1, g2, g3, g4⟩ | ⟨g, -⟩
    · cases g2
      refine ⟨auth_acceptable (l := handLog s.algorithms t2.get) (s := s') h0 h8 rfl rfl rfl hcw rfl rfl rfl g4, ?_⟩
      have htext : t'.get = ((handLog s.algorithms t2.get).add rsp).text := by
        generalize hst : ReqState.newSession = stn at g4
        generalize htr : (⟨root, t', some stn⟩ : Requester).transcript.get = tr' at g4
        change t'.get = tr' at htr
        cases g4 with
        | @challenge _ _ _ m chain ds ss h3 hh' hds hss hp hslot hmask hsz hring hhash hlen hchh hver prov hml =>
          have hc3 : code rsp = some 0x03 := code_of_take hh'
          have hz := getSignatureSize_sizeFor hss
          change sizeFor signatureSizes s.algorithms.baseAsymAlgoSelected.toNat = _ at hz
          simp only [Log.add, hc3, handLog, hz]
          rfl
      rw [← htext, Transcript.get_length g3.wf, ← g3.cap]
      exact g3.wf
    · cases g
  · rintro ⟨hacc, hroom⟩
    obtain ⟨st', r1, e⟩ := auth_handle (r := r) h0 h8 henc (s := s') (ct := ct) (ctail := ctail) rfl rfl rfl hcw rfl rfl rfl hacc rfl hw rfl hroom
    rcases hx : ReqFull.Challenge.handleMsg c cr ⟨s.version, s.requesterCt, s.requesterCap, s.responderCt, s.responderCap, s.algorithms, ct.slot, ct.certChain, ct.portionLength, nonce⟩
      rsp root t2 with ⟨x, t'⟩
    have := hrun x t' hx
    rw [e] at this
    cases x with
    | ok a => exact ⟨t', rfl⟩
    | err e => cases this
    | panic k => cases this

end

/-! ### The responder's states -/

/-- **C104, responder.** Every state but the error state treats a message with the code of GET_VERSION, and one too short for a header, alike, whatever its fields. -/
theorem c104_restart (c : Cfg) (cr : Crypto) (env : Env) (slots : List (Option FilledSlot)) (st : RspFull.AllStates) (hst : st ≠ .error) (req : Bytes)
    (hreq : req[1]? = some 0x84 ∨ req.length ≤ 2) (h : HState) :
    RspFull.dispatch c cr env slots st req h = RspFull.dispatch c cr env slots .version req h := by
  have hf : MsgType.getVersion.parseHeader req ≠ .ok false := by
    intro e
    obtain ⟨h3, h1⟩ := parseHeader_false e
    rcases hreq with hr | hr
    · exact h1 (by rw [hr]; rfl)
    · omega
  have hr : ∀ rest : H (Nat × RspFull.AllStates), RspFull.resetOnGetVersion req rest h = RspFull.versionHandle req h := by
    intro rest
    unfold RspFull.resetOnGetVersion
    rcases hx : MsgType.getVersion.parseHeader req with (_ | _) | e | k
    · exact absurd hx hf
    · rfl
    · simp only [RspFull.versionHandle, hx]
    · simp only [RspFull.versionHandle, hx]
  cases st with
  | error => exact absurd rfl hst
  | version => rfl
  | capabilities s => exact hr _
  | algorithms s => exact hr _
  | idAuth s => exact hr _
  | challenge s => exact hr _

/-- **C104, responder.** The fields of a capabilities state do not matter: all four are overwritten before they are read. -/
theorem c104_rsp_capabilities (c : Cfg) (s s' : RspFull.Capabilities) (req : Bytes) : RspFull.Capabilities.handleMsg c s req = RspFull.Capabilities.handleMsg c s' req := rfl

/-- **C104, responder.** A conversion aborts exactly if something is missing, and otherwise carries over what it has. -/
theorem c104_rsp_conversions :
    (∀ s : RspFull.Capabilities, (RspFull.Algorithms.from s).isPanic = true ↔ s.requesterCt = none ∨ s.requesterCap = none ∨ s.responderCt = none ∨ s.responderCap = none) ∧
    (∀ (a b : UInt8) (x y : UInt32), RspFull.Algorithms.from ⟨some a, some x, some b, some y⟩ = .ok ⟨a, x, b, y, none⟩) ∧
    (∀ s : RspFull.Algorithms, (RspFull.IdAuth.from s).isPanic = true ↔ s.algorithms = none) ∧
    (∀ (a b : UInt8) (x y : UInt32) (al : Algorithms), RspFull.IdAuth.from ⟨a, x, b, y, some al⟩ = .ok ⟨a, x, b, y, al⟩) ∧
    (∀ (a b : UInt8) (x y : UInt32) (al : Algorithms), RspFull.Challenge.from ⟨a, x, b, y, al⟩ = ⟨a, x, b, y, al⟩) := by
  refine ⟨?_, fun _ _ _ _ => rfl, ?_, fun _ _ _ _ _ => rfl, fun _ _ _ _ _ => rfl⟩
  · rintro ⟨_ | a, _ | x, _ | b, _ | y⟩ <;> simp [RspFull.Algorithms.from, Requester.unwrap, Bind.bind, Res.bind, Res.isPanic, Pure.pure]
  · rintro ⟨a, x, b, y, _ | al⟩ <;> simp [RspFull.IdAuth.from, Requester.unwrap, Bind.bind, Res.bind, Res.isPanic, Pure.pure]

/-! ### Slot 1 by hand

The requester library only ever fetches slot 0.  Here a responder has its chain in slot 1, and the requester's states are driven by hand to authenticate it. -/

def handSlots : List (Option FilledSlot) := [none, some ⟨0x10, 1, demoSessionChain, fun _ m => some (demoSign m)⟩]

def handRequests : List Bytes := [demoGetVersion, demoGetCapabilities, demoNegotiate, demoGetDigests, [0x11, 0x82, 1, 0, 0, 0, 64, 0], [0x11, 0x83, 1, 0, 5, 6, 7, 8]]

/-- The responder's replies. -/
def handReplies : List Bytes := (behaviour demoCfg demoCrypto (Responder.new demoCfg handSlots) (handRequests.map demoCall)).filterMap fun e =>
  match e with | .call _ _ _ (.ok ⟨out, none⟩) => some out | _ => none

def handReply (i : Nat) : Bytes := handReplies.getD i []

/-- The requester up to ALGORITHMS, by the library. -/
def handStart : ReqFull.Requester := reqFullAfter demoCfg demoCrypto (.new demoCfg [1, 2, 3] [])
  ((handReplies.take 3).flatMap fun rsp => [.next demoReqEnv (zeros 200), .recv rsp])

def handIdAuth : Option (ReqFull.IdAuth × Transcript) := handStart.state.bind fun st => match st with | .idAuth s => some (s, handStart.transcript) | _ => none

def handCalls : List HandCall := [.askDigests (zeros 200), .digests (handReply 3), .askCertificate 1 (zeros 200), .certificate (handReply 4)]

/-- After the calls by hand: convert, challenge, receive. -/
def handFinish (write : Bool) (rsp : Bytes) (p : ReqFull.IdAuth × Transcript) : Option (Res Bytes × Res Unit) :=
  match ReqFull.Challenge.from p.1 with
  | .ok ch =>
    if write then
      match ReqFull.Challenge.writeMsg demoReqEnv (zeros 200) (ch, p.2) with
      | (x, (ch', t)) => some (x, (ReqFull.Challenge.handleMsg demoCfg demoCrypto ch' rsp [1, 2, 3] t).1)
    else some (.err .bufferFull, (ReqFull.Challenge.handleMsg demoCfg demoCrypto ch rsp [1, 2, 3] p.2).1)
  | _ => none

/-- The requests written by hand are those the responder answered, and slot 1 is authenticated. -/
example : handReplies.length = 6 ∧
    handIdAuth.map (fun p => handMsgs (handResults demoCfg p handCalls)) = some [demoGetDigests, handReply 3, [0x11, 0x82, 1, 0, 0, 0, 64, 0], handReply 4] ∧
    (handIdAuth.bind fun p => handFinish true (handReply 5) (byHand demoCfg p handCalls)) = some (.ok [0x11, 0x83, 1, 0, 5, 6, 7, 8], .ok ()) := by
  decide +kernel

/-- A CHALLENGE_AUTH over the transcript without any CHALLENGE. -/
def handUnasked (t : Bytes) : Bytes :=
  let auth := (handReply 5).take ((handReply 5).length - 64)
  auth ++ demoSign (demoHash (t ++ auth))

/-- Finding: the challenge state accepts a CHALLENGE_AUTH although no CHALLENGE was written: the nonce in the state is not looked at. -/
example : (handIdAuth.bind fun p => handFinish false (handUnasked (byHand demoCfg p handCalls).2.get) (byHand demoCfg p handCalls)) = some (.err .bufferFull, .ok ()) := by
  decide +kernel

/-- Finding: a CERTIFICATE refused for lack of room in the transcript is kept all the same, and the conversion to the challenge state succeeds with it. -/
example : (handIdAuth.map fun p =>
      let q := ReqFull.IdAuth.handleCertificate demoCfg (handReply 4) (p.1, ⟨zeros 10, 0⟩)
      (q.1, q.2.1.certChain.isSome, (ReqFull.Challenge.from q.2.1).isOk)) = some (.err .bufferFull, true, true) := by
  decide +kernel

/-- Asking for a slot the build does not have aborts. -/
example : (handIdAuth.map fun p => (ReqFull.IdAuth.writeGetCertificate demoCfg 2 (zeros 200) p).1) = some (.panic .assertion) := by decide +kernel

/-- A GET_VERSION to states that no session reaches. -/
example : (RspFull.dispatch demoCfg demoCrypto demoEnv demoSlots (.capabilities ⟨some 1, none, some 3, none⟩) demoGetVersion ⟨zeros 20, ⟨zeros 40, 7⟩, []⟩).1.isOk = true := by
  decide +kernel

end Spdm
