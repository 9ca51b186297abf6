import Verif.Spec.Chance
import Verif.Props.Gaps
import Verif.Props.Isolation
/-!
# C109: trust, keys and random numbers matter only for the challenge
-/
namespace Spdm
open Spec

section
variable {c : Cfg} {cr cr' : Crypto} {root root' : Bytes} {slots slots' : List (Option FilledSlot)}

namespace Chance

/-- The states are the same but for the number drawn for a CHALLENGE. -/
inductive StSame : Option ReqState → Option ReqState → Prop
  | same (st : Option ReqState) : StSame st st
  | nonce (s : ReqChallenge) (n n' : Option Bytes) : StSame (some (.challenge { s with nonce := n })) (some (.challenge { s with nonce := n' }))

/-- The transcripts have the same size and length. -/
def TrSame (t t' : Transcript) : Prop := t.offset = t'.offset ∧ t.buf.length = t'.buf.length

structure Same (r r' : Requester) : Prop where
  st : StSame r.state r'.state
  tr : TrSame r.transcript r'.transcript

/-- The two programs end alike on requesters that are alike. -/
def Par {α : Type} (P : α → α → Prop) (p q : M Requester α) : Prop :=
  ∀ r r', Same r r' → Same (p r).2 (q r').2 ∧
    ((∃ a b, (p r).1 = .ok a ∧ (q r').1 = .ok b ∧ P a b) ∨ (∃ e, (p r).1 = .err e ∧ (q r').1 = .err e) ∨ (∃ k, (p r).1 = .panic k ∧ (q r').1 = .panic k))

theorem Par.pure {α : Type} {P : α → α → Prop} {a b : α} (h : P a b) : Par P (Pure.pure a) (Pure.pure b) := fun _ _ hs => ⟨hs, .inl ⟨a, b, rfl, rfl, h⟩⟩

theorem Par.lift {α : Type} (x : Res α) : Par (fun a b => a = b ∧ x = .ok a) (M.lift x) (M.lift x) := by
  intro r r' hs
  cases x with
  | ok a => exact ⟨hs, .inl ⟨a, a, rfl, rfl, rfl, rfl⟩⟩
  | err e => exact ⟨hs, .inr (.inl ⟨e, rfl, rfl⟩)⟩
  | panic k => exact ⟨hs, .inr (.inr ⟨k, rfl, rfl⟩)⟩

theorem Par.die {α : Type} {P : α → α → Prop} (k : PanicKind) : Par P (M.die k) (M.die k) := fun _ _ hs => ⟨hs, .inr (.inr ⟨k, rfl, rfl⟩)⟩
theorem Par.fail {α : Type} {P : α → α → Prop} (e : Err) : Par P (M.fail e) (M.fail e) := fun _ _ hs => ⟨hs, .inr (.inl ⟨e, rfl, rfl⟩)⟩

theorem Par.bind {α β : Type} {P : α → α → Prop} {Q : β → β → Prop} {p q : M Requester α} {f g : α → M Requester β}
    (h : Par P p q) (hf : ∀ a b, P a b → Par Q (f a) (g b)) : Par Q (p >>= f) (q >>= g) := by
  intro r r' hs
  obtain ⟨h1, h2⟩ := h r r' hs
  rcases h2 with ⟨a, b, ha, hb, hab⟩ | ⟨e, ha, hb⟩ | ⟨k, ha, hb⟩
  · rw [M.run_bind_ok (s' := (p r).2) (a := a) (by rw [← ha]), M.run_bind_ok (s' := (q r').2) (a := b) (by rw [← hb])]
    exact hf a b hab _ _ h1
  · rw [M.run_bind_err (s' := (p r).2) (e := e) (by rw [← ha]), M.run_bind_err (s' := (q r').2) (e := e) (by rw [← hb])]
    exact ⟨h1, .inr (.inl ⟨e, rfl, rfl⟩)⟩
  · rw [M.run_bind_panic (s' := (p r).2) (k := k) (by rw [← ha]), M.run_bind_panic (s' := (q r').2) (k := k) (by rw [← hb])]
    exact ⟨h1, .inr (.inr ⟨k, rfl, rfl⟩)⟩

theorem Par.clear : Par (fun _ _ => True) Requester.clear Requester.clear :=
  fun _ _ hs => ⟨⟨hs.st, rfl, hs.tr.2⟩, .inl ⟨(), (), rfl, rfl, trivial⟩⟩

theorem Par.setState {st st' : ReqState} (h : StSame (some st) (some st')) : Par (fun _ _ => True) (Requester.setState st) (Requester.setState st') :=
  fun _ _ hs => ⟨⟨h, hs.tr⟩, .inl ⟨(), (), rfl, rfl, trivial⟩⟩

theorem Par.extend {bs bs' : Bytes} (h : bs.length = bs'.length) : Par (fun _ _ => True) (Requester.extend bs) (Requester.extend bs') := by
  intro r r' hs
  obtain ⟨h1, h2⟩ := hs.tr
  unfold Requester.extend Transcript.extend
  dsimp only
  rw [← h1, ← h2, ← h]
  by_cases hr : r.transcript.offset + bs.length > r.transcript.buf.length
  · rw [if_pos hr, if_pos hr]
    exact ⟨⟨hs.st, h1, h2⟩, .inr (.inl ⟨_, rfl, rfl⟩)⟩
  · rw [if_neg hr, if_neg hr]
    refine ⟨⟨hs.st, rfl, ?_⟩, .inl ⟨(), (), rfl, rfl, trivial⟩⟩
    simp only [List.length_append, List.length_take, List.length_drop]
    omega

theorem challenge_write (slot : UInt8) {n n' : Bytes} (h : n.length = n'.length) (buf : Bytes) :
    (Requester.writeTo .challenge (Challenge.writeBody ⟨slot, .none, n⟩) buf = .ok ([0x11, 0x83, slot, 0] ++ n) ∧
      Requester.writeTo .challenge (Challenge.writeBody ⟨slot, .none, n'⟩) buf = .ok ([0x11, 0x83, slot, 0] ++ n')) ∨
    (Requester.writeTo .challenge (Challenge.writeBody ⟨slot, .none, n⟩) buf = .err .bufferFull ∧
      Requester.writeTo .challenge (Challenge.writeBody ⟨slot, .none, n'⟩) buf = .err .bufferFull) := by
  by_cases hr : 2 + (2 + n.length) ≤ buf.length
  · left
    have w := fun m => Challenge.writes m
    constructor
    · rw [writeTo_run (w ⟨slot, .none, n⟩) (by simp [Wire.challenge]; omega)]; rfl
    · rw [writeTo_run (w ⟨slot, .none, n'⟩) (by simp [Wire.challenge]; omega)]; rfl
  · right
    have key : ∀ m : Bytes, m.length = n.length → Requester.writeTo .challenge (Challenge.writeBody ⟨slot, .none, m⟩) buf = .err .bufferFull := by
      intro m hm
      unfold Requester.writeTo MsgType.write MsgType.writeMsg MsgType.writeHeader Challenge.writeBody
      have e : (MsgType.writeMsg .challenge (Challenge.writeBody ⟨slot, .none, m⟩) (Writer.new buf)).1 = .err .bufferFull := by
        unfold MsgType.writeMsg MsgType.writeHeader Challenge.writeBody
        match buf, hr with
        | [], _ => rfl
        | [_], _ => rfl
        | [_, _], _ => rfl
        | [_, _, _], _ => rfl
        | x0 :: x1 :: x2 :: x3 :: rest, hr =>
          have hl : m.length > rest.length := by simp at hr; omega
          simp only [M.run_bind, Writer.put, Writer.new, Writer.isFull, Writer.extend, Writer.remaining, List.length_cons]
          simp [hl]
      unfold MsgType.writeMsg MsgType.writeHeader Challenge.writeBody at e
      dsimp only
      rw [e]
      rfl
    exact ⟨key n rfl, key n' h.symm⟩

/-- The same request, or two CHALLENGEs with different numbers. -/
def Out (env env' : Env) (a b : Bytes) : Prop := a = b ∨ ∃ slot : UInt8, a = [0x11, 0x83, slot, 0] ++ env.nonce ∧ b = [0x11, 0x83, slot, 0] ++ env'.nonce

theorem extend_out {P : Bytes → Bytes → Prop} {a b : Bytes} (hl : a.length = b.length) (h : P a b) :
    Par P (do Requester.extend a; pure a) (do Requester.extend b; pure b) :=
  (Par.extend hl).bind fun _ _ _ => Par.pure h

theorem write_same (env env' : Env) (hn : env.nonce.length = env'.nonce.length) (buf : Bytes) {st st' : ReqState} (h : StSame (some st) (some st')) :
    Par (Out env env') (Requester.writeReq c env st buf) (Requester.writeReq c env' st' buf) := by
  have chal : ∀ (s : ReqChallenge) (n n' : Option Bytes), Par (Out env env') (Requester.writeReq c env (.challenge { s with nonce := n }) buf)
      (Requester.writeReq c env' (.challenge { s with nonce := n' }) buf) := by
    intro s n n'
    unfold Requester.writeReq
    refine (Par.setState (.nonce s (some env.nonce) (some env'.nonce))).bind fun _ _ _ => ?_
    dsimp only
    rcases challenge_write s.certSlot hn buf with ⟨h1, h2⟩ | ⟨h1, h2⟩
    · rw [h1, h2]
      refine Par.bind (P := fun a b => a = [0x11, 0x83, s.certSlot, 0] ++ env.nonce ∧ b = [0x11, 0x83, s.certSlot, 0] ++ env'.nonce)
        (fun r r' hs => ⟨hs, .inl ⟨_, _, rfl, rfl, rfl, rfl⟩⟩) ?_
      rintro _ _ ⟨rfl, rfl⟩
      exact extend_out (by simp [hn]) (.inr ⟨_, rfl, rfl⟩)
    · rw [h1, h2]
      refine Par.bind (P := fun a b => a = b) (fun r r' hs => ⟨hs, .inr (.inl ⟨_, rfl, rfl⟩)⟩) (fun a b hab => ?_)
      subst hab
      exact extend_out rfl (.inl rfl)
  generalize hs1 : some st = o1 at h
  generalize hs2 : some st' = o2 at h
  cases h with
  | nonce s n n' => cases hs1; cases hs2; exact chal s n n'
  | same =>
    subst hs1
    cases hs2
    cases st with
    | error => exact Par.die _
    | newSession => exact Par.die _
    | version =>
      refine (Par.lift _).bind ?_
      rintro out _ ⟨rfl, _⟩
      exact Par.clear.bind fun _ _ _ => extend_out rfl (.inl rfl)
    | capabilities v ct cap =>
      refine (Par.lift _).bind ?_
      rintro msg _ ⟨rfl, _⟩
      refine (Par.lift _).bind ?_
      rintro out _ ⟨rfl, _⟩
      exact (Par.extend rfl).bind fun _ _ _ => (Par.setState (.same _)).bind fun _ _ _ => Par.pure (.inl rfl)
    | algorithms v caps ng =>
      refine (Par.lift _).bind ?_
      rintro msg _ ⟨rfl, _⟩
      refine (Par.lift _).bind ?_
      rintro out _ ⟨rfl, _⟩
      exact (Par.setState (.same _)).bind fun _ _ _ => extend_out rfl (.inl rfl)
    | idAuth v caps a d =>
      cases d with
      | none =>
        refine (Par.lift _).bind ?_
        rintro out _ ⟨rfl, _⟩
        exact extend_out rfl (.inl rfl)
      | some d =>
        by_cases h0 : ¬ (0 < c.numSlots)
        · simp only [Requester.writeReq, if_pos h0]
          exact Par.die _
        · simp only [Requester.writeReq, if_neg h0]
          refine (Par.lift _).bind ?_
          rintro out _ ⟨rfl, _⟩
          exact extend_out rfl (.inl rfl)
    | challenge s => exact chal s s.nonce s.nonce

theorem no_auth {rsp : Bytes} (h : code rsp ≠ some 0x03) : Responder.expect .challengeAuth rsp ≠ .ok () := by
  intro he
  obtain ⟨_, hr⟩ := expect_ok_inv he
  apply h
  have : code rsp = (Wire.header .challengeAuth)[1]? := by rw [← hr, code, List.getElem?_take]; rfl
  rw [this]; rfl

theorem handle_same {rsp : Bytes} (hc : code rsp ≠ some 0x03) {st st' : ReqState} (h : StSame (some st) (some st')) :
    Par (fun a b => a = b) (Requester.handle c cr st rsp) (Requester.handle c cr' st' rsp) := by
  have chal : ∀ s s' : ReqChallenge, Par (fun a b => a = b) (Requester.handle c cr (.challenge s) rsp) (Requester.handle c cr' (.challenge s') rsp) := by
    intro s s'
    have hx := no_auth hc
    unfold Requester.handle Requester.challengeHandle
    cases e : Responder.expect .challengeAuth rsp with
    | ok u => exact absurd e hx
    | err x => exact fun r r' hs => ⟨hs, .inr (.inl ⟨x, rfl, rfl⟩)⟩
    | panic k => exact fun r r' hs => ⟨hs, .inr (.inr ⟨k, rfl, rfl⟩)⟩
  generalize hs1 : some st = o1 at h
  generalize hs2 : some st' = o2 at h
  cases h with
  | nonce s n n' => cases hs1; cases hs2; exact chal _ _
  | same =>
    subst hs1
    cases hs2
    cases st with
    | error => exact Par.die _
    | newSession => exact Par.die _
    | version =>
      refine (Par.lift _).bind ?_
      rintro _ _ ⟨rfl, _⟩
      refine (Par.lift _).bind ?_
      rintro _ _ ⟨rfl, _⟩
      refine (Par.lift _).bind ?_
      rintro _ _ ⟨rfl, _⟩
      refine (Par.lift _).bind ?_
      rintro e _ ⟨rfl, _⟩
      cases e with
      | none => exact Par.fail _
      | some e => exact (Par.extend rfl).bind fun _ _ _ => Par.pure rfl
    | capabilities v ct cap =>
      refine (Par.lift _).bind ?_
      rintro _ _ ⟨rfl, _⟩
      refine (Par.lift _).bind ?_
      rintro _ _ ⟨rfl, _⟩
      refine (Par.lift _).bind ?_
      rintro _ _ ⟨rfl, _⟩
      refine (Par.extend rfl).bind fun _ _ _ => ?_
      refine (Par.lift _).bind ?_
      rintro _ _ ⟨rfl, _⟩
      refine (Par.lift _).bind ?_
      rintro _ _ ⟨rfl, _⟩
      exact Par.pure rfl
    | algorithms v caps ng =>
      refine (Par.lift _).bind ?_
      rintro _ _ ⟨rfl, _⟩
      refine (Par.lift _).bind ?_
      rintro _ _ ⟨rfl, _⟩
      refine (Par.lift _).bind ?_
      rintro _ _ ⟨rfl, _⟩
      refine (Par.lift _).bind ?_
      rintro _ _ ⟨rfl, _⟩
      exact (Par.extend rfl).bind fun _ _ _ => Par.pure rfl
    | idAuth v caps a d =>
      cases d with
      | none =>
        refine (Par.lift _).bind ?_
        rintro _ _ ⟨rfl, _⟩
        refine (Par.lift _).bind ?_
        rintro _ _ ⟨rfl, _⟩
        refine (Par.lift _).bind ?_
        rintro _ _ ⟨rfl, _⟩
        refine (Par.lift _).bind ?_
        rintro _ _ ⟨rfl, _⟩
        exact (Par.extend rfl).bind fun _ _ _ => Par.pure rfl
      | some d =>
        refine (Par.lift _).bind ?_
        rintro _ _ ⟨rfl, _⟩
        refine (Par.lift _).bind ?_
        rintro _ _ ⟨rfl, _⟩
        refine (Par.lift _).bind ?_
        rintro _ _ ⟨rfl, _⟩
        exact (Par.extend rfl).bind fun _ _ _ => Par.pure rfl
    | challenge s => exact chal s s

theorem next_eq {env : Env} {buf : Bytes} {r : Requester} {st : ReqState} (h : r.state = some st) (hn : st ≠ .newSession) :
    Requester.nextRequest c env buf r = Requester.writeReq c env st buf r := by
  unfold Requester.nextRequest
  rw [h]
  cases st <;> first | rfl | exact absurd rfl hn

theorem next_none {env : Env} {buf : Bytes} {r : Requester} (h : r.state = none) : Requester.nextRequest c env buf r = (.panic .unwrapNone, r) := by
  unfold Requester.nextRequest
  rw [h]

theorem next_new {env : Env} {buf : Bytes} {r : Requester} (h : r.state = some .newSession) :
    Requester.nextRequest c env buf r = (.err .initializationComplete, r) := by
  unfold Requester.nextRequest
  rw [h]

theorem run_same {x y : ReqCall} (hx : SameButChance x y) {r r' : Requester} (h : Same r r') :
    SameButNonce (x.run c cr r).1 (y.run c cr' r').1 ∧ Same (x.run c cr r).2 (y.run c cr' r').2 := by
  cases x with
  | next env buf =>
    cases y with
    | recv _ => exact hx.elim
    | next env' buf' =>
      obtain ⟨hn, rfl⟩ := hx
      have hst := h.st
      simp only [ReqCall.run, SameButNonce]
      rcases h1 : r.state with _ | st <;> rcases h2 : r'.state with _ | st' <;> rw [h1, h2] at hst
      · rw [next_none h1, next_none h2]
        exact ⟨.inl rfl, h⟩
      · generalize hs2 : some st' = o2 at hst; cases hst; cases hs2
      · generalize hs2 : some st = o2 at hst; cases hst; cases hs2
      · obtain ⟨w1, w2⟩ := write_same (c := c) env env' hn buf hst r r' h
        by_cases hnew : st = .newSession
        · subst hnew
          have : st' = .newSession := by
            generalize hs1 : some ReqState.newSession = o1 at hst
            generalize hs2 : some st' = o2 at hst
            cases hst with
            | same => subst hs1; cases hs2; rfl
            | nonce => cases hs1
          subst this
          rw [next_new h1, next_new h2]
          exact ⟨.inl rfl, h⟩
        · have hnew' : st' ≠ .newSession := by
            rintro rfl
            generalize hs1 : some st = o1 at hst
            generalize hs2 : some ReqState.newSession = o2 at hst
            cases hst with
            | same => subst hs1; cases hs2; exact hnew rfl
            | nonce => cases hs2
          rw [next_eq h1 hnew, next_eq h2 hnew']
          refine ⟨?_, w1⟩
          rcases w2 with ⟨a, b, ha, hb, hab⟩ | ⟨e, ha, hb⟩ | ⟨k, ha, hb⟩
          · rcases hab with rfl | ⟨slot, rfl, rfl⟩
            · exact .inl (by rw [ha, hb])
            · exact .inr ⟨slot, ha, hb⟩
          · exact .inl (by rw [ha, hb])
          · exact .inl (by rw [ha, hb])
  | recv rsp =>
    cases y with
    | next _ _ => exact hx.elim
    | recv rsp' =>
      obtain ⟨rfl, hc⟩ := hx
      have hst := h.st
      simp only [ReqCall.run, SameButNonce]
      unfold Requester.handleMsg
      rcases h1 : r.state with _ | st <;> rcases h2 : r'.state with _ | st' <;> rw [h1, h2] at hst
      · exact ⟨rfl, h⟩
      · generalize hs2 : some st' = o2 at hst; cases hst; cases hs2
      · generalize hs2 : some st = o2 at hst; cases hst; cases hs2
      · obtain ⟨w1, w2⟩ := handle_same (c := c) (cr := cr) (cr' := cr') hc hst { r with state := none } { r' with state := none } ⟨.same _, h.tr⟩
        dsimp only
        rcases ha : Requester.handle c cr st rsp { r with state := none } with ⟨x, q⟩
        rcases hb : Requester.handle c cr' st' rsp { r' with state := none } with ⟨x', q'⟩
        rw [ha, hb] at w1 w2
        dsimp only at w1 w2
        rcases w2 with ⟨a, b, rfl, rfl, rfl⟩ | ⟨e, rfl, rfl⟩ | ⟨k, rfl, rfl⟩
        · exact ⟨rfl, .same _, w1.tr⟩
        · exact ⟨rfl, .same _, w1.tr⟩
        · exact ⟨rfl, w1⟩

theorem runs_same (calls : List (ReqCall × ReqCall)) : (∀ p ∈ calls, SameButChance p.1 p.2) → ∀ r r' : Requester, Same r r' → ∀ (i : Nat) e e',
    (reqBehaviour c cr r (calls.map Prod.fst))[i]? = some e → (reqBehaviour c cr' r' (calls.map Prod.snd))[i]? = some e' → SameButNonce e e' := by
  induction calls with
  | nil => intro _ r r' _ i e e' h; simp [reqBehaviour] at h
  | cons p ps ih =>
    intro hp r r' h i e e' h1 h2
    obtain ⟨w1, w2⟩ := run_same (c := c) (cr := cr) (cr' := cr') (hp p (by simp)) h
    simp only [List.map_cons, reqBehaviour] at h1 h2
    cases i with
    | zero =>
      simp only [List.getElem?_cons_zero, Option.some.injEq] at h1 h2
      rw [← h1, ← h2]; exact w1
    | succ i => exact ih (fun q hq => hp q (by simp [hq])) _ _ w2 i e e' (by simpa using h1) (by simpa using h2)

end Chance

/-- **C109**, requester.  Two requesters of the same build with any root certificates, any hash functions and verifiers and any random numbers are called with the
same buffers and receive the same responses, none of them a CHALLENGE_AUTH.  Then corresponding calls return the same, except that each CHALLENGE carries the
number drawn for it: up to the verdict on the CHALLENGE_AUTH nothing the requester sends or returns depends on whom it trusts. -/
theorem c109_requester (calls : List (ReqCall × ReqCall)) (h : ∀ p ∈ calls, SameButChance p.1 p.2) (i : Nat) (e e' : ReqEvent)
    (he : (reqBehaviour c cr (Requester.new c root) (calls.map Prod.fst))[i]? = some e)
    (he' : (reqBehaviour c cr' (Requester.new c root') (calls.map Prod.snd))[i]? = some e') : SameButNonce e e' :=
  Chance.runs_same (c := c) (cr := cr) (cr' := cr') calls h (Requester.new c root) (Requester.new c root') ⟨.same _, rfl, rfl⟩ i e e' he he'

/-- **C109**, the same without chance: the same calls return exactly the same. -/
theorem c109_trust_unseen (calls : List ReqCall) (h : ∀ rsp, ReqCall.recv rsp ∈ calls → code rsp ≠ some 0x03) :
    reqBehaviour c cr (Requester.new c root) calls = reqBehaviour c cr' (Requester.new c root') calls := by
  have key : ∀ r r' : Requester, Chance.Same r r' → reqBehaviour c cr r calls = reqBehaviour c cr' r' calls := by
    induction calls with
    | nil => intro r r' _; rfl
    | cons x xs ih =>
      intro r r' hr
      have hx : SameButChance x x := by
        cases x with
        | next env buf => exact ⟨rfl, rfl⟩
        | recv rsp => exact ⟨rfl, h rsp (by simp)⟩
      obtain ⟨w1, w2⟩ := Chance.run_same (c := c) (cr := cr) (cr' := cr') hx hr
      simp only [reqBehaviour]
      rw [ih (fun rsp hm => h rsp (by simp [hm])) _ _ w2]
      congr 1
      cases x with
      | next env buf =>
        simp only [ReqCall.run, SameButNonce] at w1 ⊢
        rcases w1 with w1 | ⟨slot, w1, w2⟩
        · rw [w1]
        · rw [w1, w2]
      | recv rsp =>
        simp only [ReqCall.run, SameButNonce] at w1 ⊢
        rw [w1]
  exact key _ _ ⟨.same _, rfl, rfl⟩

namespace Chance

theorem verify_same (h : SameTrust cr root root') (s : ReqChallenge) (n : Nat) (m sg : Bytes) :
    Requester.verifyCertChainAndSignature c cr s n m sg root = Requester.verifyCertChainAndSignature c cr s n m sg root' := by
  have e : ∀ leaf a i, cr.verifyChainOfTrust c leaf a i root Requester.unixTime = cr.verifyChainOfTrust c leaf a i root' Requester.unixTime := by
    intro leaf a i
    unfold Crypto.verifyChainOfTrust
    rw [h.1]
    have e4 : ∀ a, cr.chainOk leaf a root i Requester.unixTime = cr.chainOk leaf a root' i Requester.unixTime := fun a => h.2 leaf a i
    split
    · rfl
    · split
      · congr 1; funext a; rw [e4]
      · rfl
  simp only [Requester.verifyCertChainAndSignature, e]

/-- With the other root the program does the same. -/
def Blind {α : Type} (root root' : Bytes) (p : M Requester α) : Prop :=
  ∀ r, r.rootCert = root → p { r with rootCert := root' } = ((p r).1, { (p r).2 with rootCert := root' }) ∧ (p r).2.rootCert = root

namespace Blind
variable {α β : Type}

theorem pure (a : α) : Blind root root' (Pure.pure a) := fun _ h => ⟨rfl, h⟩
theorem lift (x : Res α) : Blind root root' (M.lift x) := fun _ h => ⟨rfl, h⟩
theorem die (k : PanicKind) : Blind root root' (M.die k : M Requester α) := fun _ h => ⟨rfl, h⟩
theorem fail (e : Err) : Blind root root' (M.fail e : M Requester α) := fun _ h => ⟨rfl, h⟩

theorem bind {p : M Requester α} {q : α → M Requester β} (hp : Blind root root' p) (hq : ∀ a, Blind root root' (q a)) : Blind root root' (p >>= q) := by
  intro r h
  obtain ⟨h1, h2⟩ := hp r h
  rcases hx : p r with ⟨x, s⟩
  rw [hx] at h1 h2
  cases x with
  | ok a =>
    rw [M.run_bind_ok h1, M.run_bind_ok hx]
    exact hq a s h2
  | err e =>
    rw [M.run_bind_err h1, M.run_bind_err hx]
    exact ⟨rfl, h2⟩
  | panic k =>
    rw [M.run_bind_panic h1, M.run_bind_panic hx]
    exact ⟨rfl, h2⟩

theorem clear : Blind root root' Requester.clear := fun _ h => ⟨rfl, h⟩
theorem setState (st : ReqState) : Blind root root' (Requester.setState st) := fun _ h => ⟨rfl, h⟩
theorem extend (bs : Bytes) : Blind root root' (Requester.extend bs) := fun _ h => ⟨rfl, h⟩

end Blind

theorem write_blind (env : Env) (st : ReqState) (buf : Bytes) : Blind root root' (Requester.writeReq c env st buf) := by
  cases st with
  | error => exact .die _
  | newSession => exact .die _
  | version => exact .bind (.lift _) fun _ => .bind .clear fun _ => .bind (.extend _) fun _ => .pure _
  | capabilities v ct cap => exact .bind (.lift _) fun _ => .bind (.lift _) fun _ => .bind (.extend _) fun _ => .bind (.setState _) fun _ => .pure _
  | algorithms v caps ng => exact .bind (.lift _) fun _ => .bind (.lift _) fun _ => .bind (.setState _) fun _ => .bind (.extend _) fun _ => .pure _
  | idAuth v caps a d =>
    cases d with
    | none => exact .bind (.lift _) fun _ => .bind (.extend _) fun _ => .pure _
    | some d =>
      by_cases h0 : ¬ (0 < c.numSlots)
      · simp only [Requester.writeReq, if_pos h0]; exact .die _
      · simp only [Requester.writeReq, if_neg h0]
        exact .bind (.lift _) fun _ => .bind (.extend _) fun _ => .pure _
  | challenge s => exact .bind (.setState _) fun _ => .bind (.lift _) fun _ => .bind (.extend _) fun _ => .pure _

theorem get_run {α β : Type} (A : Requester → Res α) (B : Requester → α → Res β) (r : Requester) :
    (do let r ← M.get; let d ← M.lift (A r); M.lift (B r d) : M Requester β) r = ((do let d ← A r; B r d), r) := by
  show (M.lift (A r) >>= fun d => M.lift (B r d)) r = _
  cases h : A r <;> rfl

theorem verdict_blind (h : SameTrust cr root root') (s : ReqChallenge) (n : Nat) (sg : Bytes) : Blind root root' (do
    let r ← M.get
    let m2Hash ← M.lift (cr.digest c s.algorithms.baseHashAlgoSelected r.transcript.get)
    M.lift (Requester.verifyCertChainAndSignature c cr s n m2Hash sg r.rootCert)) := by
  intro r hr
  subst hr
  rw [get_run (fun r => cr.digest c s.algorithms.baseHashAlgoSelected r.transcript.get) (fun r d => Requester.verifyCertChainAndSignature c cr s n d sg r.rootCert),
    get_run (fun r => cr.digest c s.algorithms.baseHashAlgoSelected r.transcript.get) (fun r d => Requester.verifyCertChainAndSignature c cr s n d sg r.rootCert)]
  have e : (fun d => Requester.verifyCertChainAndSignature c cr s n d sg root') = fun d => Requester.verifyCertChainAndSignature c cr s n d sg r.rootCert := by
    funext d; rw [verify_same (c := c) h]
  refine ⟨?_, rfl⟩
  show ((cr.digest c s.algorithms.baseHashAlgoSelected r.transcript.get >>= fun d => Requester.verifyCertChainAndSignature c cr s n d sg root'), _) = _
  rw [e]

theorem handle_blind (h : SameTrust cr root root') (st : ReqState) (rsp : Bytes) : Blind root root' (Requester.handle c cr st rsp) := by
  cases st with
  | error => exact .die _
  | newSession => exact .die _
  | version =>
    refine .bind (.lift _) fun _ => .bind (.lift _) fun _ => .bind (.lift _) fun _ => .bind (.lift _) fun e => ?_
    cases e with
    | none => exact .fail _
    | some e => exact .bind (.extend _) fun _ => .pure _
  | capabilities v ct cap =>
    exact .bind (.lift _) fun _ => .bind (.lift _) fun _ => .bind (.lift _) fun _ => .bind (.extend _) fun _ => .bind (.lift _) fun _ => .bind (.lift _) fun _ => .pure _
  | algorithms v caps ng =>
    exact .bind (.lift _) fun _ => .bind (.lift _) fun _ => .bind (.lift _) fun _ => .bind (.lift _) fun _ => .bind (.extend _) fun _ => .pure _
  | idAuth v caps a d =>
    cases d with
    | none => exact .bind (.lift _) fun _ => .bind (.lift _) fun _ => .bind (.lift _) fun _ => .bind (.lift _) fun _ => .bind (.extend _) fun _ => .pure _
    | some d => exact .bind (.lift _) fun _ => .bind (.lift _) fun _ => .bind (.lift _) fun _ => .bind (.extend _) fun _ => .pure _
  | challenge s =>
    refine .bind ?_ fun _ => .pure _
    unfold Requester.challengeHandle
    refine .bind (.lift _) fun _ => .bind (.lift _) fun _ => .bind (.lift _) fun _ => .bind (.lift _) fun _ => .bind (.lift _) fun a => .bind (.lift _) fun _ =>
      .bind (.lift _) fun _ => .bind (.lift _) fun d => ?_
    by_cases hd : a.certChainHash ≠ d
    · simp only [if_pos hd]; exact .fail _
    · simp only [if_neg hd]
      exact .bind (.lift _) fun _ => .bind (.lift _) fun _ => .bind (.extend _) fun _ => verdict_blind h s _ _

theorem next_root (env : Env) (buf : Bytes) {r : Requester} (hr : r.rootCert = root) : Requester.nextRequest c env buf { r with rootCert := root' } =
    ((Requester.nextRequest c env buf r).1, { (Requester.nextRequest c env buf r).2 with rootCert := root' }) := by
  obtain ⟨x, t, st⟩ := r
  cases st with
  | none => rfl
  | some st =>
    by_cases hn : st = .newSession
    · subst hn; rfl
    · rw [next_eq (r := ⟨x, t, some st⟩) rfl hn]
      refine Eq.trans (next_eq (st := st) rfl hn) ?_
      exact (write_blind (c := c) (root := root) (root' := root') env st buf _ hr).1

theorem call_blind (h : SameTrust cr root root') (x : ReqCall) {r : Requester} (hr : r.rootCert = root) :
    x.run c cr { r with rootCert := root' } = ((x.run c cr r).1, { (x.run c cr r).2 with rootCert := root' }) ∧ (x.run c cr r).2.rootCert = root := by
  cases x with
  | next env buf =>
    simp only [ReqCall.run]
    rw [next_root env buf hr]
    refine ⟨rfl, ?_⟩
    rcases hs : r.state with _ | st
    · rw [next_none hs]; exact hr
    · by_cases hn : st = .newSession
      · subst hn; rw [next_new hs]; exact hr
      · rw [next_eq hs hn]
        exact (write_blind (c := c) (root := root) (root' := root') env st buf r hr).2
  | recv rsp =>
    obtain ⟨x, t, st⟩ := r
    simp only [ReqCall.run]
    unfold Requester.handleMsg
    cases st with
    | none => exact ⟨rfl, hr⟩
    | some st =>
      obtain ⟨h1, h2⟩ := handle_blind (c := c) h st rsp ⟨x, t, none⟩ hr
      dsimp only at h1 h2 ⊢
      rw [h1]
      rcases hq : Requester.handle c cr st rsp ⟨x, t, none⟩ with ⟨_ | _ | _, q⟩ <;> rw [hq] at h2 <;> exact ⟨rfl, h2⟩

end Chance

/-- **C109**, the verdict: of the root certificate only this matters, whether it is usable and for which chains it vouches (as the verifier says, at the fixed time).
Requesters whose roots agree on that return the same in every history. -/
theorem c109_verdict (h : SameTrust cr root root') (calls : List ReqCall) :
    reqBehaviour c cr (Requester.new c root) calls = reqBehaviour c cr (Requester.new c root') calls := by
  have key : ∀ r : Requester, r.rootCert = root → reqBehaviour c cr r calls = reqBehaviour c cr { r with rootCert := root' } calls := by
    induction calls with
    | nil => intro r _; rfl
    | cons x xs ih =>
      intro r hr
      obtain ⟨h1, h2⟩ := Chance.call_blind (c := c) h x hr
      simp only [reqBehaviour, h1]
      rw [ih _ h2]
  exact key _ rfl

namespace Chance

theorem mask_chains (h : SameChains slots slots') : chainsOf slots = chainsOf slots' := h

theorem no_challenge {req : Bytes} (h : code req ≠ some 0x83) : Responder.expect .challenge req ≠ .ok () := by
  intro he
  obtain ⟨_, hr⟩ := expect_ok_inv he
  apply h
  have : code req = (Wire.header .challenge)[1]? := by rw [← hr, code, List.getElem?_take]; rfl
  rw [this]; rfl

theorem dispatch_same (h : SameChains slots slots') {req : Bytes} (hc : code req ≠ some 0x83) (env env' : Env) (st : RspState) :
    Responder.dispatch c cr env slots st req = Responder.dispatch c cr env' slots' st req := by
  cases st with
  | version => rfl
  | capabilities => rfl
  | algorithms caps => rfl
  | error => rfl
  | idAuth n =>
    simp only [Responder.dispatch]
    rw [show slots.map (fun s => s.map (·.certChain)) = slots'.map (fun s => s.map (·.certChain)) from h]
  | challenge n =>
    have hx := no_challenge hc
    simp only [Responder.dispatch, Responder.challengeHandle]
    congr 1
    funext s
    cases e : Responder.expect .challenge req with
    | ok u => exact absurd e hx
    | err x => rfl
    | panic k => rfl

/-- The responders differ only in keys and declared algorithms. -/
def SameK (r r' : Responder) : Prop := SameChains r.slots r'.slots ∧ r.transcript = r'.transcript ∧ r.state = r'.state ∧ r.signed = r'.signed

theorem rsp_same {x y : RspCall} (hx : SameRequest x y) {r r' : Responder} (h : SameK r r') :
    (x.run c cr r).1.result = (y.run c cr r').1.result ∧ SameK (x.run c cr r).2 (y.run c cr r').2 := by
  obtain ⟨hs, ht, hst, hsg⟩ := h
  cases x with
  | reset =>
    cases y with
    | call _ _ _ => exact hx.elim
    | reset => exact ⟨rfl, hs, by simp only [RspCall.run, Responder.reset, ht], rfl, hsg⟩
  | call env req buf =>
    cases y with
    | reset => exact hx.elim
    | call env' req' buf' =>
      obtain ⟨rfl, rfl, hc⟩ := hx
      simp only [RspCall.run, RspEvent.result]
      unfold Responder.handleMsg
      rw [← hst]
      cases hrs : r.state with
      | none => exact ⟨rfl, hs, ht, hst, hsg⟩
      | some st =>
        have : Responder.handle c cr env r.slots st req ⟨buf, r.transcript, r.signed⟩ = Responder.handle c cr env' r'.slots st req ⟨buf, r'.transcript, r'.signed⟩ := by
          unfold Responder.handle
          rw [dispatch_same hs hc env env', ht, hsg]
        simp only
        rw [this]
        rcases Responder.handle c cr env' r'.slots st req ⟨buf, r'.transcript, r'.signed⟩ with ⟨_ | _ | _, h'⟩
        · exact ⟨rfl, hs, rfl, rfl, rfl⟩
        · exact ⟨rfl, hs, rfl, rfl, rfl⟩
        · exact ⟨rfl, hs, rfl, rfl, rfl⟩

theorem rsps_same (calls : List (RspCall × RspCall)) : (∀ p ∈ calls, SameRequest p.1 p.2) → ∀ r r' : Responder, SameK r r' →
    (behaviour c cr r (calls.map Prod.fst)).map RspEvent.result = (behaviour c cr r' (calls.map Prod.snd)).map RspEvent.result ∧
    (after c cr r (calls.map Prod.fst)).signed = (after c cr r' (calls.map Prod.snd)).signed := by
  induction calls with
  | nil => exact fun _ r r' h => ⟨rfl, h.2.2.2⟩
  | cons p ps ih =>
    intro hp r r' h
    obtain ⟨h1, h2⟩ := rsp_same (c := c) (cr := cr) (hp p (by simp)) h
    obtain ⟨h3, h4⟩ := ih (fun q hq => hp q (by simp [hq])) _ _ h2
    exact ⟨by simp only [List.map_cons, behaviour, h1, h3], h4⟩

end Chance

/-- **C109**, responder.  Two responders of the same build with the same certificate chains and any keys, declared algorithms and random numbers receive the same
requests, none of them a CHALLENGE.  Then the calls return the same, byte for byte: keys and random numbers are used for nothing but CHALLENGE_AUTH. -/
theorem c109_responder (h : SameChains slots slots') (calls : List (RspCall × RspCall)) (hc : ∀ p ∈ calls, SameRequest p.1 p.2) :
    (behaviour c cr (Responder.new c slots) (calls.map Prod.fst)).map RspEvent.result =
      (behaviour c cr (Responder.new c slots') (calls.map Prod.snd)).map RspEvent.result :=
  (Chance.rsps_same calls hc (Responder.new c slots) (Responder.new c slots') ⟨h, rfl, rfl, rfl⟩).1

theorem Chance.called {env : Env} {req buf : Bytes} {res : Res Responder.Output} (calls : List RspCall) : ∀ r : Responder,
    RspEvent.call env req buf res ∈ behaviour c cr r calls → RspCall.call env req buf ∈ calls := by
  induction calls with
  | nil => intro r h; simp [behaviour] at h
  | cons x xs ih =>
    intro r h
    simp only [behaviour, List.mem_cons] at h
    rcases h with h | h
    · cases x with
      | reset => simp [RspCall.run] at h
      | call e q b =>
        simp only [RspCall.run, RspEvent.call.injEq] at h
        obtain ⟨rfl, rfl, rfl, _⟩ := h
        simp
    · exact List.mem_cons_of_mem _ (ih _ h)

/-- **C109**, responder: and without a CHALLENGE no key is used at all. -/
theorem c109_nothing_signed (hl : slots.length = c.numSlots) (h8 : c.numSlots ≤ 8) (calls : List RspCall)
    (hc : ∀ env req buf, RspCall.call env req buf ∈ calls → code req ≠ some 0x83) :
    (after c cr (Responder.new c slots) calls).signed = [] := by
  rcases hs : (after c cr (Responder.new c slots) calls).signed with _ | ⟨x, xs⟩
  · rfl
  · obtain ⟨es1, env, req, buf, res, es2, _, _, _, he, _, _, hcode, _⟩ := c36_every_signature hl h8 (RspRun.of c cr slots calls) x (by rw [hs]; simp)
    exact absurd hcode (hc env req buf (Chance.called (c := c) (cr := cr) (res := res) calls _ (by rw [he]; simp)))

end

/-! ### The demo session -/

/-- The calls of the demo session before the CHALLENGE_AUTH, with another number drawn for the CHALLENGE. -/
def chanceCalls : List (ReqCall × ReqCall) :=
  (demoReqCalls 11).map fun x => (x, match x with | .next env buf => .next { env with nonce := [9, 9, 9, 9] } buf | .recv rsp => .recv rsp)

/-- A root for which nothing vouches and functions that accept nothing: they are not noticed before the CHALLENGE_AUTH is there. -/
def chanceCrypto : Crypto := ⟨fun _ _ => [], fun _ => false, fun _ => false, fun _ _ _ _ _ => false, fun _ _ _ _ => false⟩

instance (x y : ReqCall) : Decidable (SameButChance x y) := by
  cases x <;> cases y <;> unfold SameButChance <;> infer_instance

/-- The hypotheses hold, all eleven calls are answered, and the last one is the CHALLENGE with the number drawn. -/
example : (∀ p ∈ chanceCalls, SameButChance p.1 p.2) ∧ chanceCalls.length = 11 ∧
    (reqBehaviour demoCfg demoCrypto (Requester.new demoCfg [1, 2, 3]) (chanceCalls.map Prod.fst))[10]? =
      some (.next demoReqEnv (zeros 200) (.ok [0x11, 0x83, 0, 0, 5, 6, 7, 8])) ∧
    (reqBehaviour demoCfg chanceCrypto (Requester.new demoCfg [7]) (chanceCalls.map Prod.snd))[10]? =
      some (.next { demoReqEnv with nonce := [9, 9, 9, 9] } (zeros 200) (.ok [0x11, 0x83, 0, 0, 9, 9, 9, 9])) := by decide +kernel

/-- The condition is needed: with the CHALLENGE_AUTH the trust decides. -/
example : (reqBehaviour demoCfg demoCrypto (Requester.new demoCfg [1, 2, 3]) (demoReqCalls 12)) ≠
    (reqBehaviour demoCfg chanceCrypto (Requester.new demoCfg [7]) (demoReqCalls 12)) := by decide +kernel

/-- Two roots with the same verdicts. -/
example : SameTrust { demoCrypto with anchorOk := fun r => decide (r.length = 3), chainOk := fun _ _ r _ _ => decide (r.length = 3) } [1, 2, 3] [3, 2, 1] :=
  ⟨rfl, fun _ _ _ => rfl⟩

instance (x y : RspCall) : Decidable (SameRequest x y) := by
  cases x <;> cases y <;> unfold SameRequest <;> infer_instance

/-- The demo session up to the CHALLENGE, with other numbers. -/
def chanceRequests : List (RspCall × RspCall) :=
  (demoCalls 5).map fun x => (x, match x with | .call _ req buf => .call ⟨[9, 9, 9, 9], 7⟩ req buf | .reset => .reset)

/-- The hypotheses hold for it, with other keys in the slots; it has five calls, all answered. -/
example : SameChains demoSlots (demoSlots.map (Option.map fun s => { s with sign := fun _ _ => none, hashAlgorithm := 2 })) ∧
    (∀ p ∈ chanceRequests, SameRequest p.1 p.2) ∧ chanceRequests.length = 5 ∧
    alive (behaviour demoCfg demoCrypto (Responder.new demoCfg demoSlots) (chanceRequests.map Prod.fst)) = true :=
  ⟨rfl, by decide +kernel, by decide +kernel, by decide +kernel⟩

end Spdm
