import Verif.Spec.Full
import Verif.Spec.Any
namespace Spdm
open Spec

/-! ### Programs on the transcript against programs on the requester -/

/-- `n` does on a requester with this root certificate what `m` does on its transcript, and its result is `f` of `m`'s. -/
def SimT {α β : Type} (root : Bytes) (f : α → β) (m : M Transcript α) (n : M Requester β) : Prop :=
  ∀ r, r.rootCert = root → n r = (Res.map f (m r.transcript).1, { r with transcript := (m r.transcript).2 })

section
variable {root : Bytes}

theorem SimT.pure {α β : Type} (f : α → β) (a : α) {b : β} (h : b = f a) : SimT root f (Pure.pure a) (Pure.pure b) := by
  subst h; intro r _; rfl

theorem SimT.fail {α β : Type} (f : α → β) (e : Err) : SimT root f (M.fail e) (M.fail e) := fun _ _ => rfl
theorem SimT.die {α β : Type} (f : α → β) (k : PanicKind) : SimT root f (M.die k) (M.die k) := fun _ _ => rfl

theorem SimT.lift_bind {α β γ : Type} {f : β → γ} (x : Res α) {k : α → M Transcript β} {l : α → M Requester γ} (h : ∀ a, SimT root f (k a) (l a)) :
    SimT root f (M.lift x >>= k) (M.lift x >>= l) := by
  intro r hr
  cases x with
  | ok a => exact h a r hr
  | err e => rfl
  | panic e => rfl

theorem SimT.lift {f : Unit → Unit} (x : Res Unit) : SimT root f (M.lift x) (M.lift x) := by
  intro r _; cases x <;> rfl

theorem SimT.extend_bind {β γ : Type} {f : β → γ} (bs : Bytes) {k : Unit → M Transcript β} {l : Unit → M Requester γ} (h : SimT root f (k ()) (l ())) :
    SimT root f (Transcript.extend bs >>= k) (Requester.extend bs >>= l) := by
  intro r hr
  rw [M.run_bind, M.run_bind]
  unfold Requester.extend
  rcases he : Transcript.extend bs r.transcript with ⟨_ | _ | _, t⟩
  · exact h _ hr
  · rfl
  · rfl

theorem SimT.get_bind {β γ : Type} {f : β → γ} {k : Transcript → M Transcript β} {l : Requester → M Requester γ}
    (h : ∀ r, r.rootCert = root → SimT root f (k r.transcript) (l r)) : SimT root f (M.get >>= k) (M.get >>= l) := by
  intro r hr
  exact h r hr r hr

theorem SimT.then {α β β' : Type} {f : α → α} {g : β → β'} {m : M Transcript α} {n : M Requester α} {k : α → M Transcript β} {l : α → M Requester β'}
    (h : SimT root f m n) (hf : f = id) (hk : ∀ a, SimT root g (k a) (l a)) : SimT root g (m >>= k) (n >>= l) := by
  intro r hr
  rw [M.run_bind, M.run_bind, h r hr]
  subst hf
  rcases hm : m r.transcript with ⟨_ | _ | _, t⟩
  · exact hk _ _ hr
  · rfl
  · rfl

theorem SimT.ite {α β : Type} {f : α → β} {p : Prop} [Decidable p] {m m' : M Transcript α} {n n' : M Requester β}
    (h : SimT root f m n) (h' : SimT root f m' n') : SimT root f (if p then m else m') (if p then n else n') := by
  by_cases hp : p
  · rw [if_pos hp, if_pos hp]; exact h
  · rw [if_neg hp, if_neg hp]; exact h'

theorem SimT.ite_pure {α β : Type} {f : α → β} {p : Prop} [Decidable p] {m m' : M Transcript α} {x y : β}
    (h : SimT root f m (Pure.pure x)) (h' : SimT root f m' (Pure.pure y)) : SimT root f (if p then m else m') (Pure.pure (if p then x else y)) := by
  by_cases hp : p
  · rw [if_pos hp, if_pos hp]; exact h
  · rw [if_neg hp, if_neg hp]; exact h'

end

/-! ### Methods with `&mut self` on an owned state -/

theorem owned_lift {σ α : Type} (s : σ) (x : Res α) (k : α → ReqFull.S σ Unit) :
    ReqFull.owned s (M.lift x >>= k) = (M.lift x >>= fun a => ReqFull.owned s (k a)) := by
  funext t; cases x <;> rfl

theorem owned_assign {σ : Type} (s : σ) (f : σ → σ) (k : Unit → ReqFull.S σ Unit) :
    ReqFull.owned s (ReqFull.assign f >>= k) = ReqFull.owned (f s) (k ()) := rfl

theorem owned_self {σ : Type} (s : σ) (k : σ → ReqFull.S σ Unit) : ReqFull.owned s (ReqFull.self >>= k) = ReqFull.owned s (k s) := rfl

theorem owned_extend {σ : Type} (s : σ) (bs : Bytes) : ReqFull.owned s (ReqFull.extend bs) = (Transcript.extend bs >>= fun _ => pure s) := by
  funext t
  unfold ReqFull.owned ReqFull.extend
  rw [M.run_bind]
  rcases Transcript.extend bs t with ⟨_ | _ | _, t'⟩ <;> rfl

theorem T_assoc {α β γ : Type} (m : ReqFull.T α) (k : α → ReqFull.T β) (l : β → ReqFull.T γ) :
    ((m >>= k) >>= l) = (m >>= fun a => k a >>= l) := by
  funext t
  simp only [M.run_bind]
  rcases m t with ⟨_ | _ | _, t'⟩ <;> rfl

theorem T_pure {α β : Type} (a : α) (k : α → ReqFull.T β) : ((pure a : ReqFull.T α) >>= k) = k a := rfl

theorem T_lift {α β : Type} (a : α) (k : α → ReqFull.T β) : ((M.lift (.ok a) : ReqFull.T α) >>= k) = k a := rfl

/-! ### The requester's handlers -/

theorem req_handle (c : Cfg) (cr : Crypto) (st : ReqFull.AllStates) (rsp root : Bytes) :
    SimT root reqView (st.handleMsg c cr rsp root) (Requester.handle c cr (reqView st) rsp) := by
  cases st with
  | error => exact SimT.die _ _
  | version =>
    unfold Requester.handle reqView ReqFull.AllStates.handleMsg ReqFull.versionHandle
    simp only [T_assoc]
    refine SimT.lift_bind _ fun _ => SimT.lift_bind _ fun _ => SimT.lift_bind _ fun _ => SimT.lift_bind _ fun e => ?_
    cases e with
    | none => exact SimT.fail _ _
    | some e =>
      simp only [T_assoc]
      exact SimT.extend_bind _ (SimT.pure _ _ rfl)
  | capabilities s =>
    unfold Requester.handle reqView ReqFull.AllStates.handleMsg ReqFull.Capabilities.handleMsg
    simp only [T_assoc]
    refine SimT.lift_bind _ fun _ => SimT.lift_bind _ fun _ => SimT.lift_bind _ fun _ => SimT.extend_bind _ ?_
    intro r _
    rcases s with ⟨v, ct, cap, x, y⟩
    cases ct <;> cases cap <;> rfl
  | algorithms s =>
    unfold Requester.handle reqView ReqFull.AllStates.handleMsg ReqFull.Algorithms.handleMsg
    simp only [owned_lift, owned_assign, owned_self, owned_extend, T_assoc, T_pure]
    refine SimT.lift_bind _ fun _ => SimT.lift_bind _ fun _ => SimT.lift_bind _ fun a => SimT.lift_bind _ fun _ => SimT.extend_bind _ ?_
    exact SimT.ite_pure (SimT.pure _ _ rfl) (SimT.pure _ _ rfl)
  | idAuth s =>
    rcases s with ⟨v, a, b, c', d, al, dg, ch⟩
    cases dg with
    | none =>
      simp only [Requester.handle, reqView, ReqFull.AllStates.handleMsg, ReqFull.IdAuth.handleDigests, Option.isNone_none, if_true]
      simp only [owned_lift, owned_assign, owned_self, owned_extend, T_assoc, T_pure]
      exact SimT.lift_bind _ fun _ => SimT.lift_bind _ fun _ => SimT.lift_bind _ fun _ => SimT.lift_bind _ fun _ => SimT.extend_bind _ (SimT.pure _ _ rfl)
    | some dg =>
      simp only [Requester.handle, reqView, ReqFull.AllStates.handleMsg, ReqFull.IdAuth.handleCertificate, Option.isNone_some, Bool.false_eq_true, if_false]
      simp only [owned_lift, owned_assign, owned_extend, T_assoc, T_pure]
      refine SimT.lift_bind _ fun _ => SimT.lift_bind _ fun _ => SimT.lift_bind _ fun _ => SimT.extend_bind _ ?_
      exact SimT.ite_pure (SimT.pure _ _ rfl) (SimT.pure _ _ rfl)
  | challenge s =>
    refine SimT.then (f := id) ?_ rfl fun _ => SimT.pure _ _ rfl
    refine SimT.lift_bind _ fun _ => SimT.lift_bind _ fun _ => SimT.lift_bind _ fun _ => SimT.lift_bind _ fun _ => SimT.lift_bind _ fun _ =>
      SimT.lift_bind _ fun _ => SimT.lift_bind _ fun _ => SimT.lift_bind _ fun _ => SimT.ite (SimT.fail _ _) ?_
    refine SimT.lift_bind _ fun _ => SimT.lift_bind _ fun _ => SimT.extend_bind _ (SimT.get_bind fun r hr => SimT.lift_bind _ fun _ => ?_)
    rw [hr]
    exact SimT.lift _
  | newSession => exact SimT.die _ _

/-- What the requester does with a response: the simpler model does the same. -/
theorem req_recv_full (c : Cfg) (cr : Crypto) (rsp : Bytes) (r : ReqFull.Requester) :
    Requester.handleMsg c cr rsp ⟨r.rootCert, r.transcript, r.state.map reqView⟩ =
      ((ReqFull.Requester.handleMsg c cr rsp r).1, ⟨r.rootCert, (ReqFull.Requester.handleMsg c cr rsp r).2.transcript, (ReqFull.Requester.handleMsg c cr rsp r).2.state.map reqView⟩) := by
  obtain ⟨root, slots, t, st⟩ := r
  unfold ReqFull.Requester.handleMsg Requester.handleMsg
  cases st with
  | none => rfl
  | some st =>
    dsimp only [Option.map]
    rw [req_handle c cr st rsp root _ rfl]
    rcases he : st.handleMsg c cr rsp root t with ⟨a | e | k, t'⟩
    · cases a <;> rfl
    · rfl
    · rfl

/-! ### The requester's requests -/

theorem req_write (c : Cfg) (env : Env) (buf root : Bytes) (t : Transcript) (st : ReqFull.AllStates) :
    Requester.writeReq c env (reqView st) buf ⟨root, t, some (reqView st)⟩ =
      ((st.writeReq c env buf t).1, ⟨root, (st.writeReq c env buf t).2.2, some (reqView (st.writeReq c env buf t).2.1)⟩) := by
  cases st with
  | error => rfl
  | newSession => rfl
  | version =>
    simp only [Requester.writeReq, reqView, ReqFull.AllStates.writeReq, ReqFull.writeGetVersion, M.run_bind, M.run_lift]
    cases Requester.writeTo .getVersion GetVersion.writeBody buf with
    | err e => rfl
    | panic k => rfl
    | ok out =>
      simp only [Requester.clear, Requester.extend, ReqFull.clear]
      rcases Transcript.extend out t.clear with ⟨_ | _ | _, t'⟩ <;> rfl
  | capabilities s =>
    simp only [Requester.writeReq, reqView, ReqFull.AllStates.writeReq, ReqFull.AllStates.via, ReqFull.Capabilities.writeMsg, M.run_bind, M.run_lift]
    cases Requester.configToGetCapabilities c with
    | err e => rfl
    | panic k => rfl
    | ok msg =>
      dsimp only
      cases Requester.writeTo .getCapabilities msg.writeBody buf with
      | err e => rfl
      | panic k => rfl
      | ok out =>
        simp only [Requester.extend, ReqFull.extend]
        rcases Transcript.extend out t with ⟨_ | _ | _, t'⟩ <;> rfl
  | algorithms s =>
    simp only [Requester.writeReq, reqView, ReqFull.AllStates.writeReq, ReqFull.AllStates.via, ReqFull.Algorithms.writeMsg, M.run_bind, M.run_lift]
    cases Requester.configToNegotiateAlgorithms c with
    | err e => rfl
    | panic k => rfl
    | ok msg =>
      dsimp only
      cases Requester.writeTo .negotiateAlgorithms msg.writeBody buf with
      | err e => rfl
      | panic k => rfl
      | ok out =>
        simp only [Requester.extend, ReqFull.extend, Requester.setState, ReqFull.assign]
        rcases Transcript.extend out t with ⟨_ | _ | _, t'⟩ <;> rfl
  | idAuth s =>
    rcases s with ⟨v, a, b, c', d, al, dg, ch⟩
    cases dg with
    | none =>
      simp only [Requester.writeReq, reqView, ReqFull.AllStates.writeReq, ReqFull.AllStates.via, ReqFull.IdAuth.writeGetDigests, M.run_bind, M.run_lift, Option.isNone_none, if_true]
      cases Requester.writeTo .getDigests GetDigests.writeBody buf with
      | err e => rfl
      | panic k => rfl
      | ok out =>
        simp only [Requester.extend, ReqFull.extend]
        rcases Transcript.extend out t with ⟨_ | _ | _, t'⟩ <;> rfl
    | some dg =>
      simp only [Requester.writeReq, reqView, ReqFull.AllStates.writeReq, ReqFull.AllStates.via, ReqFull.IdAuth.writeGetCertificate, Option.isNone_some, Bool.false_eq_true, if_false]
      have h0 : (0 : UInt8).toNat = 0 := rfl
      rw [h0]
      by_cases hn : 0 < c.numSlots
      · simp only [hn, not_true, if_false, M.run_bind, M.run_lift]
        cases Requester.writeTo .getCertificate (GetCertificate.writeBody ⟨0, 0, UInt16.ofNat c.maxCertChainSize⟩) buf with
        | err e => rfl
        | panic k => rfl
        | ok out =>
          simp only [Requester.extend, ReqFull.extend]
          rcases Transcript.extend out t with ⟨_ | _ | _, t'⟩ <;> rfl
      · simp only [hn, not_false_eq_true, if_true]
        rfl
  | challenge s =>
    simp only [Requester.writeReq, reqView, ReqFull.AllStates.writeReq, ReqFull.AllStates.via, ReqFull.Challenge.writeMsg, M.run_bind, M.run_lift, Requester.setState, ReqFull.assign, ReqFull.self]
    cases Requester.writeTo .challenge (Challenge.writeBody ⟨s.certSlot, .none, env.nonce⟩) buf with
    | err e => rfl
    | panic k => rfl
    | ok out =>
      simp only [Requester.extend, ReqFull.extend]
      rcases Transcript.extend out t with ⟨_ | _ | _, t'⟩ <;> rfl

theorem req_next_full (c : Cfg) (env : Env) (buf : Bytes) (r : ReqFull.Requester) :
    Requester.nextRequest c env buf ⟨r.rootCert, r.transcript, r.state.map reqView⟩ =
      ((ReqFull.Requester.nextRequest c env buf r).1,
        ⟨r.rootCert, (ReqFull.Requester.nextRequest c env buf r).2.transcript, (ReqFull.Requester.nextRequest c env buf r).2.state.map reqView⟩) := by
  obtain ⟨root, slots, t, st⟩ := r
  unfold ReqFull.Requester.nextRequest Requester.nextRequest
  cases st with
  | none => rfl
  | some st =>
    have h := req_write c env buf root t st
    cases st <;> first | rfl | exact h

theorem req_keeps (c : Cfg) (cr : Crypto) (x : ReqCall) (r : ReqFull.Requester) : (x.runFull c cr r).2.rootCert = r.rootCert ∧ (x.runFull c cr r).2.slots = r.slots := by
  cases x with
  | next env buf =>
    obtain ⟨root, slots, t, st⟩ := r
    simp only [ReqCall.runFull, ReqFull.Requester.nextRequest]
    cases st with
    | none => exact ⟨rfl, rfl⟩
    | some st => cases st <;> exact ⟨rfl, rfl⟩
  | recv rsp =>
    obtain ⟨root, slots, t, st⟩ := r
    simp only [ReqCall.runFull, ReqFull.Requester.handleMsg]
    cases st with
    | none => exact ⟨rfl, rfl⟩
    | some st =>
      dsimp only
      rcases st.handleMsg c cr rsp root t with ⟨a | e | k, t'⟩ <;> exact ⟨rfl, rfl⟩

/-- One call, on both. -/
theorem req_call_full (c : Cfg) (cr : Crypto) (x : ReqCall) (r : ReqFull.Requester) :
    x.run c cr ⟨r.rootCert, r.transcript, r.state.map reqView⟩ =
      ((x.runFull c cr r).1, ⟨(x.runFull c cr r).2.rootCert, (x.runFull c cr r).2.transcript, (x.runFull c cr r).2.state.map reqView⟩) := by
  rw [(req_keeps c cr x r).1]
  cases x with
  | next env buf => simp only [ReqCall.run, ReqCall.runFull, req_next_full]
  | recv rsp => simp only [ReqCall.run, ReqCall.runFull, req_recv_full]

theorem req_calls_full (c : Cfg) (cr : Crypto) (calls : List ReqCall) (r : ReqFull.Requester) :
    reqBehaviour c cr ⟨r.rootCert, r.transcript, r.state.map reqView⟩ calls = reqFullBehaviour c cr r calls ∧
      reqAfter c cr ⟨r.rootCert, r.transcript, r.state.map reqView⟩ calls =
        ⟨r.rootCert, (reqFullAfter c cr r calls).transcript, (reqFullAfter c cr r calls).state.map reqView⟩ ∧
      (reqFullAfter c cr r calls).rootCert = r.rootCert ∧ (reqFullAfter c cr r calls).slots = r.slots := by
  induction calls generalizing r with
  | nil => exact ⟨rfl, rfl, rfl, rfl⟩
  | cons x xs ih =>
    have h := ih (x.runFull c cr r).2
    have hk := req_keeps c cr x r
    simp only [reqBehaviour, reqAfter, reqFullBehaviour, reqFullAfter, req_call_full]
    rw [hk.1, hk.2] at h
    rw [hk.1]
    exact ⟨by rw [h.1], h.2.1, h.2.2.1, h.2.2.2⟩

/-! ### The other fields of the requester's states -/

/-- If the program succeeds, the result has the property. -/
def Yields {σ α : Type} (m : M σ α) (P : α → Prop) : Prop := ∀ s a, (m s).1 = .ok a → P a

theorem Yields.pure {σ α : Type} {P : α → Prop} {a : α} (h : P a) : Yields (Pure.pure a : M σ α) P := by
  intro s b hb; cases hb; exact h

theorem Yields.fail {σ α : Type} {P : α → Prop} {e : Err} : Yields (M.fail e : M σ α) P := fun _ _ h => by cases h
theorem Yields.die {σ α : Type} {P : α → Prop} {e : PanicKind} : Yields (M.die e : M σ α) P := fun _ _ h => by cases h

theorem Yields.bind {σ α β : Type} {P : β → Prop} {m : M σ α} {k : α → M σ β} (h : ∀ a, Yields (k a) P) : Yields (m >>= k) P := by
  intro s b hb
  rw [M.run_bind] at hb
  rcases hm : m s with ⟨a | e | e, s'⟩ <;> rw [hm] at hb
  · exact h a s' b hb
  · cases hb
  · cases hb

theorem Yields.lift_bind {σ α β : Type} {P : β → Prop} {x : Res α} {k : α → M σ β} (h : ∀ a, x = .ok a → Yields (k a) P) : Yields (M.lift x >>= k) P := by
  intro s b hb
  cases x with
  | ok a => exact h a rfl s b hb
  | err e => cases hb
  | panic e => cases hb

theorem Yields.ite {σ α : Type} {P : α → Prop} {p : Prop} [Decidable p] {m m' : M σ α} (h : Yields m P) (h' : Yields m' P) : Yields (if p then m else m') P := by
  by_cases hp : p
  · rw [if_pos hp]; exact h
  · rw [if_neg hp]; exact h'

theorem req_handle_rest (c : Cfg) (cr : Crypto) (st : ReqFull.AllStates) (rsp root : Bytes) (hst : ReqRest st) : Yields (st.handleMsg c cr rsp root) ReqRest := by
  cases st with
  | error => exact Yields.die
  | newSession => exact Yields.die
  | version =>
    simp only [ReqFull.AllStates.handleMsg, ReqFull.versionHandle, T_assoc]
    refine Yields.bind fun _ => Yields.bind fun _ => Yields.bind fun _ => Yields.bind fun e => ?_
    cases e with
    | none => intro s a h; cases h
    | some e =>
      simp only [T_assoc]
      exact Yields.bind fun _ => Yields.pure ⟨rfl, rfl⟩
  | capabilities s =>
    simp only [ReqFull.AllStates.handleMsg, ReqFull.Capabilities.handleMsg, T_assoc]
    refine Yields.bind fun _ => Yields.bind fun _ => Yields.bind fun _ => Yields.bind fun _ => Yields.lift_bind fun s' hs => Yields.pure ?_
    rcases s with ⟨v, ct, cap, x, y⟩
    cases ct <;> cases cap <;> cases hs
    rfl
  | algorithms s =>
    refine Yields.bind fun _ => Yields.ite (Yields.lift_bind fun s' hs => Yields.pure ?_) (Yields.pure trivial)
    rename_i s0
    rcases s0 with ⟨v, a, b, d, e, n, al⟩
    cases al <;> cases hs
    rfl
  | idAuth s =>
    rcases s with ⟨v, a, b, c', d, al, dg, ch⟩
    cases dg with
    | none =>
      simp only [ReqFull.AllStates.handleMsg, ReqFull.IdAuth.handleDigests, Option.isNone_none, if_true]
      simp only [owned_lift, owned_assign, owned_self, owned_extend, T_assoc, T_pure]
      exact Yields.bind fun _ => Yields.bind fun _ => Yields.bind fun _ => Yields.bind fun _ => Yields.bind fun _ => Yields.pure hst
    | some dg =>
      simp only [ReqFull.AllStates.handleMsg, Option.isNone_some, Bool.false_eq_true, if_false]
      exact Yields.bind fun _ => Yields.ite (Yields.bind fun s' => Yields.pure trivial) (Yields.pure trivial)
  | challenge s => exact Yields.bind fun _ => Yields.pure trivial

theorem req_write_rest (c : Cfg) (env : Env) (buf : Bytes) (t : Transcript) (st : ReqFull.AllStates) (hst : ReqRest st) : ReqRest (st.writeReq c env buf t).2.1 := by
  cases st with
  | error => exact trivial
  | newSession => exact trivial
  | version => exact trivial
  | capabilities s =>
    simp only [ReqFull.AllStates.writeReq, ReqFull.AllStates.via, ReqFull.Capabilities.writeMsg, M.run_bind, M.run_lift]
    cases Requester.configToGetCapabilities c with
    | err e => exact hst
    | panic k => exact hst
    | ok msg =>
      dsimp only
      cases Requester.writeTo .getCapabilities msg.writeBody buf with
      | err e => exact hst
      | panic k => exact hst
      | ok out =>
        simp only [ReqFull.extend]
        rcases Transcript.extend out t with ⟨_ | _ | _, t'⟩ <;> exact hst
  | algorithms s =>
    simp only [ReqFull.AllStates.writeReq, ReqFull.AllStates.via, ReqFull.Algorithms.writeMsg, M.run_bind, M.run_lift]
    cases Requester.configToNegotiateAlgorithms c with
    | err e => exact hst
    | panic k => exact hst
    | ok msg =>
      dsimp only
      cases Requester.writeTo .negotiateAlgorithms msg.writeBody buf with
      | err e => exact hst
      | panic k => exact hst
      | ok out =>
        simp only [ReqFull.extend, ReqFull.assign]
        rcases Transcript.extend out t with ⟨_ | _ | _, t'⟩ <;> exact hst
  | idAuth s =>
    rcases s with ⟨v, a, b, c', d, al, dg, ch⟩
    cases dg with
    | none =>
      simp only [ReqFull.AllStates.writeReq, ReqFull.AllStates.via, ReqFull.IdAuth.writeGetDigests, M.run_bind, M.run_lift, Option.isNone_none, if_true]
      cases Requester.writeTo .getDigests GetDigests.writeBody buf with
      | err e => exact hst
      | panic k => exact hst
      | ok out =>
        simp only [ReqFull.extend]
        rcases Transcript.extend out t with ⟨_ | _ | _, t'⟩ <;> exact hst
    | some dg =>
      simp only [ReqFull.AllStates.writeReq, ReqFull.AllStates.via, ReqFull.IdAuth.writeGetCertificate, Option.isNone_some, Bool.false_eq_true, if_false]
      by_cases hn : (0 : UInt8).toNat < c.numSlots
      · simp only [hn, not_true, if_false, M.run_bind, M.run_lift]
        cases Requester.writeTo .getCertificate (GetCertificate.writeBody ⟨0, 0, UInt16.ofNat c.maxCertChainSize⟩) buf with
        | err e => exact hst
        | panic k => exact hst
        | ok out =>
          simp only [ReqFull.extend]
          rcases Transcript.extend out t with ⟨_ | _ | _, t'⟩ <;> exact hst
      · simp only [hn, not_false_eq_true, if_true]
        exact hst
  | challenge s =>
    simp only [ReqFull.AllStates.writeReq, ReqFull.AllStates.via]
    exact trivial

theorem req_call_rest (c : Cfg) (cr : Crypto) (x : ReqCall) (r : ReqFull.Requester) (h : ∀ st, r.state = some st → ReqRest st) :
    ∀ st, (x.runFull c cr r).2.state = some st → ReqRest st := by
  obtain ⟨root, slots, t, o⟩ := r
  intro st' hst'
  cases o with
  | none => cases x <;> cases hst'
  | some st =>
    have hr := h st rfl
    cases x with
    | next env buf =>
      have hw := req_write_rest c env buf t st hr
      simp only [ReqCall.runFull, ReqFull.Requester.nextRequest] at hst'
      cases st <;> first | (cases hst'; exact trivial) | (cases hst'; exact hw)
    | recv rsp =>
      have hw := req_handle_rest c cr st rsp root hr
      simp only [ReqCall.runFull, ReqFull.Requester.handleMsg] at hst'
      rcases he : st.handleMsg c cr rsp root t with ⟨a | e | k, t'⟩ <;> rw [he] at hst'
      · cases hst'
        exact hw t _ (by rw [he])
      · cases hst'; exact trivial
      · cases hst'

theorem req_calls_rest (c : Cfg) (cr : Crypto) (calls : List ReqCall) (r : ReqFull.Requester) (h : ∀ st, r.state = some st → ReqRest st) :
    ∀ st, (reqFullAfter c cr r calls).state = some st → ReqRest st := by
  induction calls generalizing r with
  | nil => exact h
  | cons x xs ih => exact ih _ (req_call_rest c cr x r h)

/-! ### The responder -/

/-- The programs do the same, the results differ by `f` only, and those of the first have the property. -/
def SimH {α β : Type} (f : α → β) (P : α → Prop) (m : H α) (n : H β) : Prop := ∀ h, n h = (Res.map f (m h).1, (m h).2) ∧ ∀ a, (m h).1 = .ok a → P a

theorem SimH.bind {α β γ : Type} {f : β → γ} {P : β → Prop} (x : H α) {k : α → H β} {l : α → H γ} (h : ∀ a, SimH f P (k a) (l a)) : SimH f P (x >>= k) (x >>= l) := by
  intro s
  rw [M.run_bind, M.run_bind]
  rcases x s with ⟨_ | _ | _, t⟩
  · exact h _ _
  · exact ⟨rfl, fun _ h => by cases h⟩
  · exact ⟨rfl, fun _ h => by cases h⟩

theorem SimH.pure {α β : Type} {f : α → β} {P : α → Prop} {a : α} {b : β} (hb : b = f a) (h : P a) : SimH f P (Pure.pure a) (Pure.pure b) := by
  subst hb
  exact fun _ => ⟨rfl, fun _ hx => by cases hx; exact h⟩

theorem SimH.fail {α β : Type} {f : α → β} {P : α → Prop} {e : Err} : SimH f P (M.fail e) (M.fail e) := fun _ => ⟨rfl, fun _ h => by cases h⟩
theorem SimH.die {α β : Type} {f : α → β} {P : α → Prop} {e : PanicKind} : SimH f P (M.die e) (M.die e) := fun _ => ⟨rfl, fun _ h => by cases h⟩

theorem SimH.ite {α β : Type} {f : α → β} {P : α → Prop} {p : Prop} [Decidable p] {m m' : H α} {n n' : H β} (h : SimH f P m n) (h' : SimH f P m' n') :
    SimH f P (if p then m else m') (if p then n else n') := by
  by_cases hp : p
  · rw [if_pos hp, if_pos hp]; exact h
  · rw [if_neg hp, if_neg hp]; exact h'

/-- A responder handler and the one of the simpler model. -/
abbrev SimR (m : H (Nat × RspFull.AllStates)) (n : H (Nat × RspState)) : Prop := SimH (fun p => (p.1, rspView p.2)) (fun p => RspRest p.2) m n

theorem rsp_version (req : Bytes) : SimR (RspFull.versionHandle req) (Responder.versionHandle req) := by
  unfold RspFull.versionHandle Responder.versionHandle
  rcases MsgType.getVersion.parseHeader req with b | e | k
  · cases b
    · exact SimH.bind _ fun _ => SimH.fail
    · exact SimH.bind _ fun _ => SimH.bind _ fun _ => SimH.bind _ fun _ => SimH.bind _ fun _ => SimH.bind _ fun _ => SimH.bind _ fun _ => SimH.bind _ fun _ => SimH.pure rfl rfl
  · exact SimH.fail
  · exact SimH.die

theorem rsp_reset (req : Bytes) {m : H (Nat × RspFull.AllStates)} {n : H (Nat × RspState)} (h : SimR m n) :
    SimR (RspFull.resetOnGetVersion req m) (Responder.resetOnGetVersion req n) := by
  unfold RspFull.resetOnGetVersion Responder.resetOnGetVersion
  rcases MsgType.getVersion.parseHeader req with b | e | k
  · cases b
    · exact h
    · exact rsp_version req
  · exact SimH.fail
  · exact SimH.die

theorem rsp_dispatch (c : Cfg) (cr : Crypto) (env : Env) (slots : List (Option FilledSlot)) (st : RspFull.AllStates) (req : Bytes) :
    SimR (RspFull.dispatch c cr env slots st req) (Responder.dispatch c cr env slots (rspView st) req) := by
  cases st with
  | error => exact SimH.die
  | version => exact rsp_version req
  | capabilities s =>
    refine rsp_reset req ?_
    exact SimH.bind _ fun _ => SimH.bind _ fun _ => SimH.bind _ fun _ => SimH.bind _ fun _ => SimH.bind _ fun _ => SimH.bind _ fun _ => SimH.bind _ fun _ => SimH.bind _ fun _ => SimH.pure rfl rfl
  | algorithms s =>
    refine rsp_reset req ?_
    exact SimH.bind _ fun _ => SimH.bind _ fun _ => SimH.bind _ fun _ => SimH.bind _ fun _ => SimH.bind _ fun _ => SimH.bind _ fun _ => SimH.bind _ fun _ => SimH.bind _ fun _ => SimH.pure rfl trivial
  | idAuth s =>
    refine rsp_reset req (SimH.bind _ fun b => SimH.ite ?_ (SimH.bind _ fun _ => ?_))
    · exact SimH.bind _ fun _ => SimH.bind _ fun _ => SimH.bind _ fun _ => SimH.bind _ fun _ => SimH.bind _ fun _ => SimH.bind _ fun _ => SimH.pure rfl trivial
    · refine SimH.bind _ fun _ => SimH.bind _ fun _ => SimH.ite SimH.fail (SimH.bind _ fun p => ?_)
      exact SimH.bind _ fun _ => SimH.bind _ fun _ => SimH.bind _ fun _ => SimH.bind _ fun _ => SimH.pure rfl trivial
  | challenge s =>
    refine rsp_reset req ?_
    refine SimH.bind _ fun _ => SimH.bind _ fun _ => SimH.bind _ fun _ => SimH.bind _ fun _ => SimH.bind _ fun _ => SimH.bind _ fun _ => SimH.bind _ fun _ => SimH.bind _ fun _ => SimH.bind _ fun _ => ?_
    refine SimH.bind _ fun _ => SimH.bind _ fun _ => SimH.bind _ fun _ => SimH.bind _ fun _ => SimH.bind _ fun _ => SimH.bind _ fun _ => SimH.bind _ fun _ => SimH.bind _ fun _ => SimH.bind _ fun _ => SimH.pure rfl trivial

theorem rsp_handle_full (c : Cfg) (cr : Crypto) (env : Env) (slots : List (Option FilledSlot)) (st : RspFull.AllStates) (req : Bytes) :
    SimH (fun p => (p.1, rspView p.2)) (fun p => RspRest p.2) (RspFull.handle c cr env slots st req) (Responder.handle c cr env slots (rspView st) req) := by
  intro h
  have hd := rsp_dispatch c cr env slots st req h
  unfold RspFull.handle Responder.handle
  rw [hd.1]
  have hp := hd.2
  rcases he : RspFull.dispatch c cr env slots st req h with ⟨⟨size, st'⟩ | e | k, h'⟩
  · rw [he] at hp
    dsimp only [Res.map]
    cases sliceTo h'.rsp size with
    | ok out => exact ⟨rfl, fun a ha => by cases ha; exact hp _ rfl⟩
    | err e => exact ⟨rfl, fun a ha => by cases ha⟩
    | panic k => exact ⟨rfl, fun a ha => by cases ha⟩
  · dsimp only [Res.map]
    rcases H.write .error (Responder.errorToMsg e).writeBody h' with ⟨size | e' | k, h''⟩
    · dsimp only
      cases sliceTo h''.rsp size with
      | ok out => exact ⟨rfl, fun a ha => by cases ha; exact trivial⟩
      | err e => exact ⟨rfl, fun a ha => by cases ha⟩
      | panic k => exact ⟨rfl, fun a ha => by cases ha⟩
    · exact ⟨rfl, fun a ha => by cases ha; exact trivial⟩
    · exact ⟨rfl, fun a ha => by cases ha⟩
  · exact ⟨rfl, fun a ha => by cases ha⟩

/-- The simpler model's responder. -/
def rspErase (r : RspFull.Responder) : Responder := ⟨r.slots, r.transcript, r.state.map rspView, r.signed⟩

theorem rsp_call_full (c : Cfg) (cr : Crypto) (x : RspCall) (r : RspFull.Responder) :
    x.run c cr (rspErase r) = ((x.runFull c cr r).1, rspErase (x.runFull c cr r).2) ∧ (∀ st, (x.runFull c cr r).2.state = some st → RspRest st) := by
  obtain ⟨slots, t, o, signed⟩ := r
  cases x with
  | reset => exact ⟨rfl, fun st hst => by cases hst; exact trivial⟩
  | call env req buf =>
    cases o with
    | none => exact ⟨rfl, fun st hst => by cases hst⟩
    | some st =>
      have hs := rsp_handle_full c cr env slots st req ⟨buf, t, signed⟩
      simp only [RspCall.run, RspCall.runFull, Responder.handleMsg, RspFull.Responder.handleMsg, rspErase, Option.map]
      rw [hs.1]
      have hp := hs.2
      rcases he : RspFull.handle c cr env slots st req ⟨buf, t, signed⟩ with ⟨⟨o, st'⟩ | e | k, h'⟩ <;> rw [he] at hp
      · exact ⟨rfl, fun st hst => by cases hst; exact hp _ rfl⟩
      · exact ⟨rfl, fun st hst => by cases hst⟩
      · exact ⟨rfl, fun st hst => by cases hst⟩

theorem rsp_calls_full (c : Cfg) (cr : Crypto) (calls : List RspCall) (r : RspFull.Responder) (h : ∀ st, r.state = some st → RspRest st) :
    behaviour c cr (rspErase r) calls = fullBehaviour c cr r calls ∧ after c cr (rspErase r) calls = rspErase (fullAfter c cr r calls) ∧
      (∀ st, (fullAfter c cr r calls).state = some st → RspRest st) := by
  induction calls generalizing r with
  | nil => exact ⟨rfl, rfl, h⟩
  | cons x xs ih =>
    have hc := rsp_call_full c cr x r
    have hh := ih (x.runFull c cr r).2 hc.2
    simp only [behaviour, after, fullBehaviour, fullAfter, hc.1]
    exact ⟨by rw [hh.1], hh.2.1, hh.2.2⟩

end Spdm
