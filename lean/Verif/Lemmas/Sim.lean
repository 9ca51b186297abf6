import Verif.Lemmas.Step
/-! Facts about the responder that hold whatever the outcome of the call: the transcript stays a valid one of the same capacity,
stale bytes behind its cursor have no influence, and only a CHALLENGE makes it sign. -/
namespace Spdm
open Spec

/-! ### Stale transcript bytes do not matter -/

/-- Same visible transcript and same capacity. -/
structure TSim (t t0 : Transcript) : Prop where
  wf : t.WF
  wf0 : t0.WF
  off : t.offset = t0.offset
  get : t.get = t0.get
  cap : t.buf.length = t0.buf.length

structure HSim (h h0 : HState) : Prop where
  rsp : h.rsp = h0.rsp
  tr : TSim h.tr h0.tr

/-- The outcome depends only on the visible part of the state. -/
def Resp {α : Type} (m : H α) : Prop := ∀ h h0, HSim h h0 → (m h).1 = (m h0).1 ∧ HSim (m h).2 (m h0).2

theorem TSim.clear {t t0 : Transcript} (h : t.buf.length = t0.buf.length) : TSim t.clear t0.clear :=
  ⟨Transcript.clear_wf _, Transcript.clear_wf _, rfl, by simp, h⟩

theorem TSim.extend {t t0 : Transcript} (h : TSim t t0) (bs : Bytes) :
    (Transcript.extend bs t).1 = (Transcript.extend bs t0).1 ∧ TSim (Transcript.extend bs t).2 (Transcript.extend bs t0).2 := by
  have hget : t.get.length = t0.get.length := by rw [h.get]
  have hcap := h.cap
  by_cases hr : t.get.length + bs.length ≤ t.buf.length
  · obtain ⟨t1, a1, a2, a3, a4⟩ := Transcript.extend_room h.wf hr
    obtain ⟨t2, b1, b2, b3, b4⟩ := Transcript.extend_room h.wf0 (bs := bs) (by omega)
    rw [a1, b1]
    refine ⟨rfl, a3, b3, ?_, by rw [a2, b2, h.get], by simp only; omega⟩
    have := Transcript.get_length a3
    have := Transcript.get_length b3
    rw [a2, List.length_append] at *
    rw [b2, List.length_append] at *
    simp only
    omega
  · rw [Transcript.extend_full h.wf (by omega), Transcript.extend_full h.wf0 (by omega)]
    exact ⟨rfl, h⟩

namespace Resp
variable {α β : Type}

theorem pure (a : α) : Resp (Pure.pure a : H α) := fun _ _ h => ⟨rfl, h⟩
theorem lift (x : Res α) : Resp (M.lift x : H α) := fun _ _ h => ⟨rfl, h⟩
theorem fail (e : Err) : Resp (M.fail e : H α) := fun _ _ h => ⟨rfl, h⟩
theorem die (k : PanicKind) : Resp (M.die k : H α) := fun _ _ h => ⟨rfl, h⟩

theorem bind {m : H α} {f : α → H β} (hm : Resp m) (hf : ∀ a, Resp (f a)) : Resp (m >>= f) := by
  intro h h0 hs
  obtain ⟨h1, h2⟩ := hm h h0 hs
  rw [M.run_bind, M.run_bind]
  cases ha : m h with
  | mk r s =>
    cases hb : m h0 with
    | mk r0 s0 =>
      rw [ha, hb] at h1 h2
      simp only at h1 h2
      subst h1
      cases r with
      | ok a => exact hf a s s0 h2
      | err e => exact ⟨rfl, h2⟩
      | panic k => exact ⟨rfl, h2⟩

theorem ite {c : Prop} [Decidable c] {x y : H α} (hx : Resp x) (hy : Resp y) : Resp (if c then x else y) := by
  split <;> assumption

theorem write (t : MsgType) (body : W Nat) : Resp (H.write t body) := by
  intro h h0 hs
  simp only [H.write]
  rw [hs.rsp]
  exact ⟨rfl, rfl, hs.tr⟩

theorem extend (bs : Bytes) : Resp (H.extend bs) := by
  intro h h0 hs
  obtain ⟨h1, h2⟩ := hs.tr.extend bs
  exact ⟨h1, hs.rsp, h2⟩

theorem clear : Resp H.clear := fun h h0 hs => ⟨rfl, hs.rsp, TSim.clear hs.tr.cap⟩

theorem rspTo (n : Nat) : Resp (H.rspTo n) := by
  intro h h0 hs
  exact ⟨by simp only [H.rspTo]; rw [hs.rsp], hs⟩

theorem transcript : Resp H.transcript := by
  intro h h0 hs
  exact ⟨by simp only [H.transcript]; rw [hs.tr.get], hs⟩

theorem mapErr {m : H α} (f : Err → Err) (hm : Resp m) : Resp (M.mapErr f m) := by
  intro h h0 hs
  obtain ⟨h1, h2⟩ := hm h h0 hs
  unfold M.mapErr
  cases ha : m h with
  | mk r s =>
    cases hb : m h0 with
    | mk r0 s0 =>
      rw [ha, hb] at h1 h2
      simp only at h1 h2
      subst h1
      cases r with
      | ok a => exact ⟨rfl, h2⟩
      | err e => exact ⟨rfl, h2⟩
      | panic k => exact ⟨rfl, h2⟩

theorem signWith (n : Nat) (slot : FilledSlot) (seed : Nat) (msg : Bytes) : Resp (Responder.signWith n slot seed msg) := by
  intro h h0 hs
  unfold Responder.signWith
  simp only
  cases slot.sign seed msg with
  | none => exact ⟨rfl, hs.rsp, hs.tr⟩
  | some s => exact ⟨rfl, hs.rsp, hs.tr⟩

theorem patchRsp (i j : Nat) (bs : Bytes) : Resp (Responder.patchRsp i j bs) := by
  intro h h0 hs
  unfold Responder.patchRsp
  rw [hs.rsp]
  split
  · split
    · exact ⟨rfl, rfl, hs.tr⟩
    · exact ⟨rfl, hs⟩
  · exact ⟨rfl, hs⟩

end Resp

theorem handleGetVersion_resp (req : Bytes) : Resp (Responder.handleGetVersion req) := by
  unfold Responder.handleGetVersion
  exact (Resp.lift _).bind fun _ => (Resp.lift _).bind fun _ => Resp.clear.bind fun _ => (Resp.extend _).bind fun _ =>
    (Resp.write _ _).bind fun _ => (Resp.rspTo _).bind fun _ => (Resp.extend _).bind fun _ => Resp.pure _

theorem versionHandle_resp (req : Bytes) : Resp (Responder.versionHandle req) := by
  unfold Responder.versionHandle
  split
  · exact handleGetVersion_resp req
  · exact (Resp.lift _).bind fun _ => Resp.fail _
  · exact Resp.fail _
  · exact Resp.die _

theorem resetOnGetVersion_resp {req : Bytes} {rest : H (Nat × RspState)} (h : Resp rest) : Resp (Responder.resetOnGetVersion req rest) := by
  unfold Responder.resetOnGetVersion
  split
  · exact versionHandle_resp req
  · exact h
  · exact Resp.fail _
  · exact Resp.die _

theorem dispatch_resp (c : Cfg) (cr : Crypto) (env : Env) (slots : List (Option FilledSlot)) (st : RspState) (req : Bytes) :
    Resp (Responder.dispatch c cr env slots st req) := by
  unfold Responder.dispatch
  cases st with
  | version => exact versionHandle_resp req
  | capabilities =>
    exact resetOnGetVersion_resp ((Resp.lift _).bind fun _ => (Resp.lift _).bind fun _ => (Resp.lift _).bind fun _ => (Resp.extend _).bind fun _ =>
      (Resp.lift _).bind fun _ => (Resp.write _ _).bind fun _ => (Resp.rspTo _).bind fun _ => (Resp.extend _).bind fun _ => Resp.pure _)
  | algorithms caps =>
    exact resetOnGetVersion_resp ((Resp.lift _).bind fun _ => (Resp.lift _).bind fun _ => (Resp.lift _).bind fun _ => (Resp.extend _).bind fun _ =>
      (Resp.lift _).bind fun _ => (Resp.write _ _).bind fun _ => (Resp.rspTo _).bind fun _ => (Resp.extend _).bind fun _ => Resp.pure _)
  | idAuth n =>
    refine resetOnGetVersion_resp ((Resp.lift _).bind fun _ => Resp.ite ?_ ((Resp.lift _).bind fun _ => ?_))
    · exact (Resp.lift _).bind fun _ => (Resp.lift _).bind fun _ => (Resp.write _ _).bind fun _ => (Resp.extend _).bind fun _ => (Resp.rspTo _).bind fun _ =>
        (Resp.extend _).bind fun _ => Resp.pure _
    · exact (Resp.lift _).bind fun _ => (Resp.lift _).bind fun _ => Resp.ite (Resp.fail _) ((Resp.lift _).bind fun _ => (Resp.write _ _).bind fun _ =>
        (Resp.extend _).bind fun _ => (Resp.rspTo _).bind fun _ => (Resp.extend _).bind fun _ => Resp.pure _)
  | challenge n =>
    exact resetOnGetVersion_resp ((Resp.lift _).bind fun _ => (Resp.lift _).bind fun _ => (Resp.lift _).bind fun _ => (Resp.lift _).bind fun _ =>
      (Resp.lift _).bind fun _ => (Resp.lift _).bind fun _ => (Resp.lift _).bind fun _ => (Resp.extend _).bind fun _ => (Resp.lift _).bind fun _ =>
      (Resp.lift _).bind fun _ => (Resp.mapErr _ (Resp.write _ _)).bind fun _ => (Resp.lift _).bind fun _ => (Resp.rspTo _).bind fun _ =>
      (Resp.extend _).bind fun _ => Resp.transcript.bind fun _ => (Resp.lift _).bind fun _ => (Resp.signWith _ _ _ _).bind fun _ =>
      (Resp.patchRsp _ _ _).bind fun _ => Resp.pure _)
  | error => exact Resp.die _

theorem handle_resp (c : Cfg) (cr : Crypto) (env : Env) (slots : List (Option FilledSlot)) (st : RspState) (req : Bytes) :
    Resp (Responder.handle c cr env slots st req) := by
  intro h h0 hs
  obtain ⟨h1, h2⟩ := dispatch_resp c cr env slots st req h h0 hs
  unfold Responder.handle
  cases ha : Responder.dispatch c cr env slots st req h with
  | mk r s =>
    cases hb : Responder.dispatch c cr env slots st req h0 with
    | mk r0 s0 =>
      rw [ha, hb] at h1 h2
      simp only at h1 h2
      subst h1
      cases r with
      | ok a =>
        simp only
        rw [h2.rsp]
        cases sliceTo s0.rsp a.1 with
        | ok out => exact ⟨rfl, h2⟩
        | err e => exact ⟨rfl, h2⟩
        | panic k => exact ⟨rfl, h2⟩
      | err e =>
        simp only
        obtain ⟨g1, g2⟩ := Resp.write .error (Responder.errorToMsg e).writeBody s s0 h2
        cases hc : H.write .error (Responder.errorToMsg e).writeBody s with
        | mk q u =>
          cases hd : H.write .error (Responder.errorToMsg e).writeBody s0 with
          | mk q0 u0 =>
            rw [hc, hd] at g1 g2
            simp only at g1 g2
            subst g1
            cases q with
            | ok size =>
              simp only
              rw [g2.rsp]
              cases sliceTo u0.rsp size with
              | ok out => exact ⟨rfl, g2⟩
              | err e => exact ⟨rfl, g2⟩
              | panic k => exact ⟨rfl, g2⟩
            | err e => exact ⟨rfl, g2⟩
            | panic k => exact ⟨rfl, g2⟩
      | panic k => exact ⟨rfl, h2⟩

/-! ### Only a CHALLENGE signs -/

/-- The outcome may be anything, the transcript stays valid and nothing is signed. -/
def Quiet {α : Type} (m : H α) : Prop :=
  ∀ h, (m h).2.signed = h.signed ∧ (h.tr.WF → (m h).2.tr.WF) ∧ (m h).2.tr.buf.length = h.tr.buf.length

namespace Quiet
variable {α β : Type}

theorem pure (a : α) : Quiet (Pure.pure a : H α) := fun _ => ⟨rfl, id, rfl⟩
theorem lift (x : Res α) : Quiet (M.lift x : H α) := fun _ => ⟨rfl, id, rfl⟩
theorem fail (e : Err) : Quiet (M.fail e : H α) := fun _ => ⟨rfl, id, rfl⟩
theorem die (k : PanicKind) : Quiet (M.die k : H α) := fun _ => ⟨rfl, id, rfl⟩

theorem bind {m : H α} {f : α → H β} (hm : Quiet m) (hf : ∀ a, Quiet (f a)) : Quiet (m >>= f) := by
  intro h
  obtain ⟨h1, h2, h3⟩ := hm h
  rw [M.run_bind]
  cases ha : m h with
  | mk r s =>
    rw [ha] at h1 h2 h3
    simp only at h1 h2 h3
    cases r with
    | ok a =>
      obtain ⟨g1, g2, g3⟩ := hf a s
      exact ⟨g1.trans h1, fun w => g2 (h2 w), g3.trans h3⟩
    | err e => exact ⟨h1, h2, h3⟩
    | panic k => exact ⟨h1, h2, h3⟩

theorem ite {c : Prop} [Decidable c] {x y : H α} (hx : Quiet x) (hy : Quiet y) : Quiet (if c then x else y) := by
  split <;> assumption

theorem write (t : MsgType) (body : W Nat) : Quiet (H.write t body) := fun _ => ⟨rfl, id, rfl⟩

theorem extend (bs : Bytes) : Quiet (H.extend bs) := by
  intro h
  refine ⟨rfl, fun hw => (Transcript.extend_wf hw bs).1, ?_⟩
  simp only [H.extend, Transcript.extend]
  split
  · rfl
  · rename_i hl
    simp at hl ⊢
    omega

theorem clear : Quiet H.clear := fun _ => ⟨rfl, fun _ => Transcript.clear_wf _, rfl⟩
theorem rspTo (n : Nat) : Quiet (H.rspTo n) := fun _ => ⟨rfl, id, rfl⟩
theorem transcript : Quiet H.transcript := fun _ => ⟨rfl, id, rfl⟩

theorem mapErr {m : H α} (f : Err → Err) (hm : Quiet m) : Quiet (M.mapErr f m) := by
  intro h
  have := hm h
  unfold M.mapErr
  split
  · rename_i e; rw [e] at this; exact this
  · exact this

theorem patchRsp (i j : Nat) (bs : Bytes) : Quiet (Responder.patchRsp i j bs) := by
  intro h
  unfold Responder.patchRsp
  split
  · split <;> exact ⟨rfl, id, rfl⟩
  · exact ⟨rfl, id, rfl⟩

end Quiet

theorem versionHandle_quiet (req : Bytes) : Quiet (Responder.versionHandle req) := by
  unfold Responder.versionHandle
  split
  · unfold Responder.handleGetVersion
    exact (Quiet.lift _).bind fun _ => (Quiet.lift _).bind fun _ => Quiet.clear.bind fun _ => (Quiet.extend _).bind fun _ =>
      (Quiet.write _ _).bind fun _ => (Quiet.rspTo _).bind fun _ => (Quiet.extend _).bind fun _ => Quiet.pure _
  · exact (Quiet.lift _).bind fun _ => Quiet.fail _
  · exact Quiet.fail _
  · exact Quiet.die _

theorem resetOnGetVersion_quiet {req : Bytes} {rest : H (Nat × RspState)} (h : Quiet rest) : Quiet (Responder.resetOnGetVersion req rest) := by
  unfold Responder.resetOnGetVersion
  split
  · exact versionHandle_quiet req
  · exact h
  · exact Quiet.fail _
  · exact Quiet.die _

/-- Every state but `challenge` is quiet. -/
theorem dispatch_quiet (c : Cfg) (cr : Crypto) (env : Env) (slots : List (Option FilledSlot)) {st : RspState} (hst : ∀ n, st ≠ .challenge n) (req : Bytes) :
    Quiet (Responder.dispatch c cr env slots st req) := by
  unfold Responder.dispatch
  cases st with
  | version => exact versionHandle_quiet req
  | capabilities =>
    exact resetOnGetVersion_quiet ((Quiet.lift _).bind fun _ => (Quiet.lift _).bind fun _ => (Quiet.lift _).bind fun _ => (Quiet.extend _).bind fun _ =>
      (Quiet.lift _).bind fun _ => (Quiet.write _ _).bind fun _ => (Quiet.rspTo _).bind fun _ => (Quiet.extend _).bind fun _ => Quiet.pure _)
  | algorithms caps =>
    exact resetOnGetVersion_quiet ((Quiet.lift _).bind fun _ => (Quiet.lift _).bind fun _ => (Quiet.lift _).bind fun _ => (Quiet.extend _).bind fun _ =>
      (Quiet.lift _).bind fun _ => (Quiet.write _ _).bind fun _ => (Quiet.rspTo _).bind fun _ => (Quiet.extend _).bind fun _ => Quiet.pure _)
  | idAuth n =>
    refine resetOnGetVersion_quiet ((Quiet.lift _).bind fun _ => Quiet.ite ?_ ((Quiet.lift _).bind fun _ => ?_))
    · exact (Quiet.lift _).bind fun _ => (Quiet.lift _).bind fun _ => (Quiet.write _ _).bind fun _ => (Quiet.extend _).bind fun _ => (Quiet.rspTo _).bind fun _ =>
        (Quiet.extend _).bind fun _ => Quiet.pure _
    · exact (Quiet.lift _).bind fun _ => (Quiet.lift _).bind fun _ => Quiet.ite (Quiet.fail _) ((Quiet.lift _).bind fun _ => (Quiet.write _ _).bind fun _ =>
        (Quiet.extend _).bind fun _ => (Quiet.rspTo _).bind fun _ => (Quiet.extend _).bind fun _ => Quiet.pure _)
  | challenge n => exact absurd rfl (hst n)
  | error => exact Quiet.die _

/-- Whatever the outcome, the transcript stays a valid one of the same capacity. -/
def Keeps {α : Type} (m : H α) : Prop := ∀ h, (h.tr.WF → (m h).2.tr.WF) ∧ (m h).2.tr.buf.length = h.tr.buf.length

theorem Quiet.keeps {α : Type} {m : H α} (h : Quiet m) : Keeps m := fun s => (h s).2

theorem Keeps.bind {α β : Type} {m : H α} {f : α → H β} (hm : Keeps m) (hf : ∀ a, Keeps (f a)) : Keeps (m >>= f) := by
  intro h
  obtain ⟨h2, h3⟩ := hm h
  rw [M.run_bind]
  cases ha : m h with
  | mk r s =>
    rw [ha] at h2 h3
    simp only at h2 h3
    cases r with
    | ok a =>
      obtain ⟨g2, g3⟩ := hf a s
      exact ⟨fun w => g2 (h2 w), g3.trans h3⟩
    | err e => exact ⟨h2, h3⟩
    | panic k => exact ⟨h2, h3⟩

theorem signWith_keeps (n : Nat) (slot : FilledSlot) (seed : Nat) (msg : Bytes) : Keeps (Responder.signWith n slot seed msg) := by
  intro h
  unfold Responder.signWith
  simp only
  cases slot.sign seed msg <;> exact ⟨id, rfl⟩

theorem resetOnGetVersion_keeps {req : Bytes} {rest : H (Nat × RspState)} (h : Keeps rest) : Keeps (Responder.resetOnGetVersion req rest) := by
  unfold Responder.resetOnGetVersion
  split
  · exact (versionHandle_quiet req).keeps
  · exact h
  · exact (Quiet.fail _).keeps
  · exact (Quiet.die _).keeps

theorem dispatch_keeps (c : Cfg) (cr : Crypto) (env : Env) (slots : List (Option FilledSlot)) (st : RspState) (req : Bytes) :
    Keeps (Responder.dispatch c cr env slots st req) := by
  by_cases hst : ∀ n, st ≠ .challenge n
  · exact (dispatch_quiet c cr env slots hst req).keeps
  · obtain ⟨n, rfl⟩ : ∃ n, st = .challenge n := by
      by_contra hc; exact hst fun n hn => hc ⟨n, hn⟩
    have L : ∀ {α : Type} (x : Res α), Keeps (M.lift x : H α) := fun x => (Quiet.lift x).keeps
    exact resetOnGetVersion_keeps ((L _).bind fun _ => (L _).bind fun _ => (L _).bind fun _ => (L _).bind fun _ =>
      (L _).bind fun _ => (L _).bind fun _ => (L _).bind fun _ => (Quiet.extend _).keeps.bind fun _ => (L _).bind fun _ =>
      (L _).bind fun _ => (Quiet.mapErr _ (Quiet.write _ _)).keeps.bind fun _ => (L _).bind fun _ => (Quiet.rspTo _).keeps.bind fun _ =>
      (Quiet.extend _).keeps.bind fun _ => Quiet.transcript.keeps.bind fun _ => (L _).bind fun _ => (signWith_keeps _ _ _ _).bind fun _ =>
      (Quiet.patchRsp _ _ _).keeps.bind fun _ => (Quiet.pure _).keeps)

theorem bind_cases {α β : Type} (m : H α) (f : α → H β) (h : HState) :
    (∃ a h', m h = (.ok a, h') ∧ (m >>= f) h = f a h') ∨ ((m >>= f) h).2 = (m h).2 := by
  cases ha : m h with
  | mk r s =>
    cases r with
    | ok a => exact .inl ⟨a, s, rfl, M.run_bind_ok ha⟩
    | err e => right; rw [M.run_bind_err ha]
    | panic k => right; rw [M.run_bind_panic ha]

/-- The signer call a CHALLENGE leads to. -/
structure SignerCall (c : Cfg) (cr : Crypto) (env : Env) (slots : List (Option FilledSlot)) (n : Negotiated) (tr req : Bytes) (call : Nat × Bytes) : Prop where
  ex : ∃ m tail slot mask ds, req = Wire.header .challenge ++ Wire.challenge m ++ tail ∧ m.nonce.length = c.nonceSize ∧
    slots[m.slot.toNat]? = some (some slot) ∧ (∀ i, i < 8 → (mask.toNat.testBit i = true ↔ ∃ s, slots[i]? = some (some s))) ∧
    BaseHashAlgo.getDigestSize c n.algorithms.baseHashAlgoSelected = .ok ds ∧
    call = (m.slot.toNat, cr.hash n.algorithms.baseHashAlgoSelected (tr ++ req ++ authMsg m.slot mask (Responder.useMutualAuth n.caps)
      (cr.hash n.algorithms.baseHashAlgoSelected (Wire.chain slot.certChain)) env.nonce ds))

/-- Whatever the outcome of a CHALLENGE, at most the one signer call is made. -/
theorem challenge_signs {c : Cfg} {cr : Crypto} {env : Env} {slots : List (Option FilledSlot)} (hl : slots.length = c.numSlots) (h8 : c.numSlots ≤ 8)
    {ng : Negotiated} {req : Bytes} {h : HState} (hw : h.tr.WF) :
    (Responder.challengeHandle c cr env ng slots req h).2.signed = h.signed ∨
    ∃ call, (Responder.challengeHandle c cr env ng slots req h).2.signed = h.signed ++ [call] ∧ SignerCall c cr env slots ng h.tr.get req call := by
  unfold Responder.challengeHandle
  unfold Responder.resetOnGetVersion
  rcases hp : MsgType.getVersion.parseHeader req with (_ | _) | _ | _ <;> simp only
  swap
  · exact .inl (versionHandle_quiet req h).1
  swap
  · exact .inl rfl
  swap
  · exact .inl rfl
  rcases bind_cases _ _ h with ⟨_, x1, e1, f⟩ | f <;> rw [f]
  swap
  · exact .inl rfl
  obtain ⟨q1, rfl⟩ := M.lift_ok_inv e1
  obtain ⟨h3, hr⟩ := expect_ok_inv q1
  rcases bind_cases _ _ x1 with ⟨ds, x2, e2, f⟩ | f <;> rw [f]
  swap
  · exact .inl rfl
  obtain ⟨hds, rfl⟩ := M.lift_ok_inv e2
  rcases bind_cases _ _ x2 with ⟨ss, x3, e3, f⟩ | f <;> rw [f]
  swap
  · exact .inl rfl
  obtain ⟨hss, rfl⟩ := M.lift_ok_inv e3
  rcases bind_cases _ _ x3 with ⟨body, x4, e4, f⟩ | f <;> rw [f]
  swap
  · exact .inl rfl
  obtain ⟨q4, rfl⟩ := M.lift_ok_inv e4
  obtain ⟨_, rfl⟩ := sliceFrom_inv q4
  rcases bind_cases _ _ x4 with ⟨m, x5, e5, f⟩ | f <;> rw [f]
  swap
  · exact .inl rfl
  obtain ⟨q5, rfl⟩ := M.lift_ok_inv e5
  obtain ⟨bs, tail, hreq, rfl, hn⟩ := parse_split (Challenge.inverts c) hr q5
  rcases bind_cases _ _ x5 with ⟨slot, x6, e6, f⟩ | f <;> rw [f]
  swap
  · exact .inl rfl
  obtain ⟨q6, rfl⟩ := M.lift_ok_inv e6
  have hslot := slotAt_inv q6
  have hlt : m.slot.toNat < c.numSlots := by have := (List.getElem?_eq_some_iff.mp hslot).1; omega
  rcases bind_cases _ _ x6 with ⟨d, x7, e7, f⟩ | f <;> rw [f]
  swap
  · exact .inl rfl
  obtain ⟨q7, rfl⟩ := M.lift_ok_inv e7
  obtain ⟨hring, rfl, hdl, hch⟩ := chainDigest_inv q7
  rcases bind_cases _ _ x7 with ⟨_, x8, e8, f⟩ | f <;> rw [f]
  swap
  · exact .inl (Quiet.extend _ _).1
  obtain ⟨k8, g8, r8, s8, _⟩ := H.extend_inv hw e8
  rcases bind_cases _ _ x8 with ⟨mask, x9, e9, f⟩ | f <;> rw [f]
  swap
  · exact .inl s8
  obtain ⟨q9, rfl⟩ := M.lift_ok_inv e9
  obtain ⟨mask', hm1, hm2⟩ := createSlotMask_run hl h8
  rw [q9] at hm1
  simp only [Res.ok.injEq] at hm1
  subst hm1
  rcases bind_cases _ _ x9 with ⟨a, x10, e10, f⟩ | f <;> rw [f]
  swap
  · exact .inl s8
  obtain ⟨q10, rfl⟩ := M.lift_ok_inv e10
  obtain ⟨rfl, _, _, _⟩ := authNew_inv q10
  obtain ⟨body, hwr, hauth, hbl⟩ := auth_layout (mask := mask) (mu := Responder.useMutualAuth ng.caps) (d := cr.hash ng.algorithms.baseHashAlgoSelected (Wire.chain slot.certChain))
    (n := env.nonce) (ds := ds) (ss := ss) hlt h8
  rcases bind_cases _ _ x10 with ⟨size, x11, e11, f⟩ | f <;> rw [f]
  swap
  · exact .inl ((Quiet.mapErr _ (Quiet.write _ _) _).1.trans s8)
  obtain ⟨n11, l11, rfl⟩ := H.write_inv hwr (mapErr_ok_inv e11)
  rcases bind_cases _ _ _ with ⟨ss0, x12, e12, f⟩ | f <;> rw [f]
  swap
  · exact .inl s8
  obtain ⟨q12, rfl⟩ := M.lift_ok_inv e12
  simp only [List.length_append, zeros, List.length_replicate] at n11
  have hss0 : ss0 = 2 + body.length := by
    unfold Responder.subChecked at q12
    split at q12
    · simp only [Res.ok.injEq] at q12; omega
    · simp at q12
  rcases bind_cases _ _ _ with ⟨out, x13, e13, f⟩ | f <;> rw [f]
  swap
  · exact .inl s8
  obtain ⟨rfl, l13, rfl⟩ := H.rspTo_inv e13
  have hout : (Wire.header .challengeAuth ++ (body ++ zeros ss) ++ x10.rsp.drop size).take ss0 = Wire.header .challengeAuth ++ body := by
    rw [hss0, ← List.append_assoc, List.append_assoc]
    exact msg_take
  simp only [hout]
  rcases bind_cases _ _ _ with ⟨_, x14, e14, f⟩ | f <;> rw [f]
  swap
  · exact .inl ((Quiet.extend _ _).1.trans s8)
  obtain ⟨k14, g14, r14, s14, _⟩ := H.extend_inv (by exact k8.wf) e14
  rcases bind_cases _ _ _ with ⟨t, x15, e15, f⟩ | f <;> rw [f]
  swap
  · exact .inl (s14.trans s8)
  have ht : t = x14.tr.get ∧ x15 = x14 := by
    unfold H.transcript at e15
    simp only [Prod.mk.injEq, Res.ok.injEq] at e15
    exact ⟨e15.1.symm, e15.2.symm⟩
  obtain ⟨rfl, rfl⟩ := ht
  rcases bind_cases _ _ _ with ⟨m1, x16, e16, f⟩ | f <;> rw [f]
  swap
  · exact .inl (s14.trans s8)
  obtain ⟨q16, rfl⟩ := M.lift_ok_inv e16
  obtain ⟨_, rfl, _⟩ := digest_inv q16
  have htr : x16.tr.get = x7.tr.get ++ req ++ authMsg m.slot mask (Responder.useMutualAuth ng.caps)
      (cr.hash ng.algorithms.baseHashAlgoSelected (Wire.chain slot.certChain)) env.nonce ds := by
    rw [g14, ← hauth, g8]
  have hcall : SignerCall c cr env slots ng x7.tr.get req (m.slot.toNat, cr.hash ng.algorithms.baseHashAlgoSelected x16.tr.get) :=
    ⟨m, tail, slot, mask, ds, hreq, hn, hslot, fun i _ => hm2 i, hds, by rw [htr]⟩
  have hsg : (Responder.signWith m.slot.toNat slot env.seed (cr.hash ng.algorithms.baseHashAlgoSelected x16.tr.get) x16).2.signed =
      x7.signed ++ [(m.slot.toNat, cr.hash ng.algorithms.baseHashAlgoSelected x16.tr.get)] := by
    unfold Responder.signWith
    simp only
    cases slot.sign env.seed (cr.hash ng.algorithms.baseHashAlgoSelected x16.tr.get) <;> (simp only; rw [s14]; simp only; rw [s8])
  refine .inr ⟨_, ?_, hcall⟩
  rcases bind_cases _ _ _ with ⟨sig, x17, e17, f⟩ | f <;> rw [f]
  swap
  · exact hsg
  rw [e17] at hsg
  rw [← hsg]
  exact (((Quiet.patchRsp _ _ _).bind fun _ => Quiet.pure _) _).1

end Spdm
