import Verif.Lemmas.Full
import Verif.Props.Shown
import Verif.DemoSession
/-!
# C103: the endpoints with every field they store

The theorems of the other files speak about states without the fields the library stores and never uses.  Here the endpoints have them all, and nothing changes.
-/
namespace Spdm
open Spec

theorem reqView_inj {st st' : ReqFull.AllStates} (h : reqView st = reqView st') (h1 : ReqRest st) (h2 : ReqRest st') : st = st' := by
  cases st <;> cases st' <;> simp only [reqView, reduceCtorEq] at h <;> try rfl
  · rename_i s s'
    rcases s with ⟨_, _, _, _, _⟩; rcases s' with ⟨_, _, _, _, _⟩
    simp only [ReqRest] at h1 h2
    simp only [ReqState.capabilities.injEq] at h
    simp only [h1, h2, h]
  · rename_i s s'
    rcases s with ⟨_, _, _, _, _, _, _⟩; rcases s' with ⟨_, _, _, _, _, _, _⟩
    simp only [ReqRest] at h1 h2
    simp only [ReqState.algorithms.injEq, Caps.mk.injEq] at h
    simp only [h1, h2, h]
  · rename_i s s'
    rcases s with ⟨_, _, _, _, _, _, _, _⟩; rcases s' with ⟨_, _, _, _, _, _, _, _⟩
    simp only [ReqRest] at h1 h2
    simp only [ReqState.idAuth.injEq, Caps.mk.injEq] at h
    simp only [h1, h2, h]
  · rename_i s s'
    rcases s with ⟨_, _, _, _, _, _, _, _, _, _⟩; rcases s' with ⟨_, _, _, _, _, _, _, _, _, _⟩
    simp only [ReqState.challenge.injEq, ReqChallenge.mk.injEq, Caps.mk.injEq] at h
    simp only [h]

theorem rspView_inj {st st' : RspFull.AllStates} (h : rspView st = rspView st') (h1 : RspRest st) (h2 : RspRest st') : st = st' := by
  cases st <;> cases st' <;> simp only [rspView, reduceCtorEq] at h <;> try rfl
  · simp only [RspRest] at h1 h2
    rw [h1, h2]
  · rename_i s s'
    rcases s with ⟨_, _, _, _, _⟩; rcases s' with ⟨_, _, _, _, _⟩
    simp only [RspRest] at h1 h2
    simp only [RspState.algorithms.injEq, Caps.mk.injEq] at h
    simp only [h1, h2, h]
  · rename_i s s'
    rcases s with ⟨_, _, _, _, _⟩; rcases s' with ⟨_, _, _, _, _⟩
    simp only [RspState.idAuth.injEq, Negotiated.mk.injEq, Caps.mk.injEq] at h
    simp only [h]
  · rename_i s s'
    rcases s with ⟨_, _, _, _, _⟩; rcases s' with ⟨_, _, _, _, _⟩
    simp only [RspState.challenge.injEq, Negotiated.mk.injEq, Caps.mk.injEq] at h
    simp only [h]

/-- A requester with all its fields and any slots: after every list of calls every call has returned what the simpler requester returns, the transcript is the same,
the state shows the same, its other fields are `None`, and root certificate and slots are the ones given. -/
theorem c103_requester (c : Cfg) (cr : Crypto) (root : Bytes) (slots : List (Option FilledSlot)) (calls : List ReqCall) :
    reqFullBehaviour c cr (.new c root slots) calls = reqBehaviour c cr (Requester.new c root) calls ∧
      (reqFullAfter c cr (.new c root slots) calls).transcript = (reqAfter c cr (Requester.new c root) calls).transcript ∧
      (reqFullAfter c cr (.new c root slots) calls).state.map reqView = (reqAfter c cr (Requester.new c root) calls).state ∧
      (∀ st, (reqFullAfter c cr (.new c root slots) calls).state = some st → ReqRest st) ∧
      (reqFullAfter c cr (.new c root slots) calls).rootCert = root ∧ (reqFullAfter c cr (.new c root slots) calls).slots = slots := by
  have h := req_calls_full c cr calls (.new c root slots)
  have hr := req_calls_rest c cr calls (.new c root slots) fun st hst => by cases hst; exact trivial
  have e : (⟨root, Transcript.new c, (some .version : Option ReqFull.AllStates).map reqView⟩ : Requester) = Requester.new c root := rfl
  obtain ⟨h1, h2, h3, h4⟩ := h
  change reqBehaviour c cr (Requester.new c root) calls = _ at h1
  change reqAfter c cr (Requester.new c root) calls = _ at h2
  exact ⟨h1.symm, by rw [h2], by rw [h2], hr, h3, h4⟩

/-- The slots given to a requester change nothing but what `slots()` returns: two requesters of one build with the same root certificate and any slots answer every
list of calls alike and hold the same transcript and state, in every field. -/
theorem c103_requester_slots (c : Cfg) (cr : Crypto) (root : Bytes) (slots slots' : List (Option FilledSlot)) (calls : List ReqCall) :
    reqFullBehaviour c cr (.new c root slots) calls = reqFullBehaviour c cr (.new c root slots') calls ∧
      { reqFullAfter c cr (.new c root slots) calls with slots := slots' } = reqFullAfter c cr (.new c root slots') calls := by
  obtain ⟨a1, a2, a3, a4, a5, a6⟩ := c103_requester c cr root slots calls
  obtain ⟨b1, b2, b3, b4, b5, b6⟩ := c103_requester c cr root slots' calls
  refine ⟨a1.trans b1.symm, ?_⟩
  generalize reqFullAfter c cr (.new c root slots) calls = r at *
  generalize reqFullAfter c cr (.new c root slots') calls = r' at *
  obtain ⟨r1, r2, r3, r4⟩ := r
  obtain ⟨q1, q2, q3, q4⟩ := r'
  dsimp only at *
  subst a5 a6 b5 b6
  rw [← b2] at a2
  rw [← b3] at a3
  subst a2
  have : r4 = q4 := by
    cases r4 with
    | none => cases q4 with
      | none => rfl
      | some y => cases a3
    | some x => cases q4 with
      | none => cases a3
      | some y =>
        simp only [Option.map, Option.some.injEq] at a3
        rw [reqView_inj a3 (a4 x rfl) (b4 y rfl)]
  rw [this]

/-- The same for a responder (whose slots of course matter). -/
theorem c103_responder (c : Cfg) (cr : Crypto) (slots : List (Option FilledSlot)) (calls : List RspCall) :
    fullBehaviour c cr (.new c slots) calls = behaviour c cr (Responder.new c slots) calls ∧
      (fullAfter c cr (.new c slots) calls).transcript = (after c cr (Responder.new c slots) calls).transcript ∧
      (fullAfter c cr (.new c slots) calls).signed = (after c cr (Responder.new c slots) calls).signed ∧
      (fullAfter c cr (.new c slots) calls).state.map rspView = (after c cr (Responder.new c slots) calls).state ∧
      (∀ st, (fullAfter c cr (.new c slots) calls).state = some st → RspRest st) ∧ (fullAfter c cr (.new c slots) calls).slots = (after c cr (Responder.new c slots) calls).slots := by
  obtain ⟨h1, h2, h3⟩ := rsp_calls_full c cr calls (.new c slots) fun st hst => by cases hst; exact trivial
  change behaviour c cr (Responder.new c slots) calls = _ at h1
  change after c cr (Responder.new c slots) calls = _ at h2
  exact ⟨h1.symm, by rw [h2]; rfl, by rw [h2]; rfl, by rw [h2]; rfl, h3, by rw [h2]; rfl⟩

/-- What `state()` of a requester shows, in every field, in terms of the messages (C102), as long as nothing was refused. -/
theorem c103_requester_shows (c : Cfg) (cr : Crypto) (h0 : 0 < c.numSlots) (h8 : c.numSlots ≤ 8) (root : Bytes) (slots : List (Option FilledSlot)) (calls : List ReqCall)
    (hf : failed (reqFullBehaviour c cr (.new c root slots) calls) = false) :
    ∃ st, (reqFullAfter c cr (.new c root slots) calls).state = some st ∧ ReqShown c (reqFullBehaviour c cr (.new c root slots) calls) (reqView st) ∧ ReqRest st := by
  obtain ⟨h1, -, h3, h4, -, -⟩ := c103_requester c cr root slots calls
  rw [h1] at hf ⊢
  obtain ⟨st, hs, hshow⟩ := c102_requester c cr h0 h8 root _ _ (ReqRun.of c cr root calls) hf
  rw [hs] at h3
  cases hx : (reqFullAfter c cr (.new c root slots) calls).state with
  | none => rw [hx] at h3; cases h3
  | some x =>
    rw [hx] at h3
    simp only [Option.map, Option.some.injEq] at h3
    exact ⟨x, rfl, h3 ▸ hshow, h4 x hx⟩

/-- What `state()` of a responder shows, in every field. -/
theorem c103_responder_shows (c : Cfg) (cr : Crypto) (h0 : 0 < c.numSlots) (h8 : c.numSlots ≤ 8) (slots : List (Option FilledSlot)) (hl : slots.length = c.numSlots)
    (calls : List RspCall) (ha : alive (fullBehaviour c cr (.new c slots) calls) = true) :
    ∃ st, (fullAfter c cr (.new c slots) calls).state = some st ∧ RspShown c (sinceVersion (rspMsgs (fullBehaviour c cr (.new c slots) calls))) (rspView st) ∧ RspRest st := by
  obtain ⟨h1, -, -, h3, h4, -⟩ := c103_responder c cr slots calls
  rw [h1] at ha ⊢
  obtain ⟨st, hs, hshow⟩ := c102_responder c cr h0 h8 slots hl _ _ (RspRun.of c cr slots calls) ha
  rw [hs] at h3
  cases hx : (fullAfter c cr (.new c slots) calls).state with
  | none => rw [hx] at h3; cases h3
  | some x =>
    rw [hx] at h3
    simp only [Option.map, Option.some.injEq] at h3
    exact ⟨x, rfl, h3 ▸ hshow, h4 x hx⟩

/-! ### The handshake of the demo, with all fields -/

/-- A requester that was given slots of its own completes the demo handshake; before the last response it shows the slot, the nonce and the size of the chain. -/
example : (reqFullBehaviour demoCfg demoCrypto (.new demoCfg [1, 2, 3] demoSlots) (demoReqCalls 12)).getLast?.map (fun e => match e with | .recv _ (.ok b) => b | _ => false) = some true ∧
    ((reqFullAfter demoCfg demoCrypto (.new demoCfg [1, 2, 3] demoSlots) (demoReqCalls 11)).state.bind fun st => match st with
      | .challenge s => some (s.nonce, s.certSlot) | _ => none) = some (some [5, 6, 7, 8], 0) ∧
    ((reqFullAfter demoCfg demoCrypto (.new demoCfg [1, 2, 3] demoSlots) (demoReqCalls 9)).state.bind fun st => match st with
      | .idAuth s => some (s.digests.isSome, s.certChain) | _ => none) = some (true, none) ∧
    failed (reqFullBehaviour demoCfg demoCrypto (.new demoCfg [1, 2, 3] demoSlots) (demoReqCalls 12)) = false := by
  decide +kernel

example : alive (fullBehaviour demoCfg demoCrypto (.new demoCfg demoSlots) (demoCalls 6)) = true ∧
    (fullAfter demoCfg demoCrypto (.new demoCfg demoSlots) (demoCalls 6)).state =
      some (.challenge ⟨12, 6, 12, 6, ⟨1, 1, 0x10, 1, 4, [⟨.dhe, 2⟩, ⟨.aead, 2⟩, ⟨.reqBaseAsym, 0x10⟩, ⟨.keySchedule, 1⟩]⟩⟩) := by
  decide +kernel

end Spdm
