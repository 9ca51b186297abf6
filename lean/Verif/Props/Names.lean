import Verif.Props.Responder
import Verif.Props.Requester
/-!
# What `state().name()` says: C65
-/
namespace Spdm
open Spec

variable {c : Cfg} {cr : Crypto}

/-- **Specification.** The name of the requester's state, from the code of the response it needs next. -/
def awaiting : Option UInt8 → String
  | some 0x04 => "Version"
  | some 0x61 => "Capabilities"
  | some 0x63 => "Algorithms"
  | some 0x01 => "IdAuth"
  | some 0x02 => "IdAuth"
  | some 0x03 => "Challenge"
  | some _ => "Error"
  | none => "NewSession"

/-- **Specification.** The name of the responder's state, from the code of the request it accepted last. -/
def afterRequest : Option UInt8 → String
  | none => "Version"
  | some 0x84 => "Capabilities"
  | some 0xE1 => "Algorithms"
  | some 0xE3 => "IdAuth"
  | some 0x81 => "IdAuth"
  | some 0x82 => "Challenge"
  | some 0x83 => "Challenge"
  | some _ => "Error"

/-- A `handle_msg` of the requester aborted. -/
def reqAborted (es : List ReqEvent) : Bool := es.any fun e => match e with | .recv _ (.panic _) => true | _ => false

/-- Add an event: `handle_msg` aborted since creation or the last reset. -/
def addAborted (a : Bool) : RspEvent → Bool
  | .call _ _ _ (.panic _) => true
  | .call _ _ _ _ => a
  | .reset => false

/-- A `handle_msg` of the responder aborted since creation or the last reset. -/
def rspAborted (es : List RspEvent) : Bool := es.foldl addAborted false

theorem req_dead {root : Bytes} {es : List ReqEvent} {r : Requester} (run : ReqRun c cr root es r) (hf : failed es = true) :
    r.state = if reqAborted es then none else some .error := by
  induction run with
  | new => simp [failed] at hf
  | @next es r env buf run ih =>
    have hf' : failed es = true := by rw [failed_append] at hf; simpa [failed] using hf
    have ha : reqAborted (es ++ [.next env buf (Requester.nextRequest c env buf r).1]) = reqAborted es := by simp [reqAborted]
    have := ih hf'
    rw [ha, ← this]
    rcases reqRun_inv run with ⟨h, _⟩ | ⟨_, h | h⟩
    · rw [h] at hf'; exact Bool.noConfusion hf'
    · simp [Requester.nextRequest, h, Requester.writeReq]
    · simp [Requester.nextRequest, h]
  | @recv es r rsp run ih =>
    rcases reqRun_inv run with ⟨h, st, hl⟩ | ⟨hf', h | h⟩
    · have ha : reqAborted es = false := by
        simp only [reqAborted, failed, List.any_eq_false] at h ⊢
        intro e he
        have := h e he
        rcases e with _ | ⟨_, _ | _ | _⟩ <;> simp_all
      have hk := handle_keepsState c cr st rsp { r with state := none }
      have ha' : ∀ x, reqAborted (es ++ [x]) = reqAborted [x] := by intro x; simp only [reqAborted, List.any_append] at ha ⊢; rw [ha]; simp
      rw [ha']
      rw [failed_append, h] at hf
      unfold Requester.handleMsg at hf ⊢
      rw [hl.state] at hf ⊢
      rcases hp : Requester.handle c cr st rsp { r with state := none } with ⟨st' | er | k, r1⟩ <;> simp only [hp] at hf hk ⊢
      · simp [failed] at hf
      · simp [reqAborted]
      · simpa [reqAborted] using hk
    · simp [Requester.handleMsg, h, Requester.handle, reqAborted]
    · simp [Requester.handleMsg, h, reqAborted]

/-- **C65.** The name of the requester's state tells which response it needs next; it is "Error" from the first refused response on, and only after an
aborted call does `state()` itself abort. -/
theorem c65_requester_name {root : Bytes} {es : List ReqEvent} {r : Requester} (run : ReqRun c cr root es r) :
    (failed es = false → r.name = .ok (awaiting ((path (conversation (reqMsgs es)))[(accepted es).length]?))) ∧
    (failed es = true → reqAborted es = false → r.name = .ok "Error") ∧
    (reqAborted es = true → r.name.isPanic = true) := by
  refine ⟨fun hf => ?_, fun hf ha => ?_, fun ha => ?_⟩
  · obtain ⟨st, hl⟩ := req_live' run hf
    unfold Requester.name
    rw [hl.state]
    have hm := hl.mat
    generalize accepted es = acc at hm
    generalize conversation (reqMsgs es) = l at hm
    cases hm with
    | version => rfl
    | capabilities => rfl
    | algorithms => rfl
    | digests _ _ _ _ hb1 => simp [path, hb1]; rfl
    | certificate _ _ _ _ hb1 => simp [path, hb1]; rfl
    | challenge _ _ _ _ hb1 hb2 => simp [path, hb1, hb2]; rfl
    | done h =>
      have := congrArg List.length h
      simp only [List.length_map] at this
      rw [this]
      simp
      rfl
  · have := req_dead run hf
    rw [ha] at this
    simp only [Requester.name, this]
    rfl
  · have hf : failed es = true := by
      simp only [reqAborted, failed, List.any_eq_true] at ha ⊢
      obtain ⟨e, he, h⟩ := ha
      exact ⟨e, he, by rcases e with _ | ⟨_, _ | _ | _⟩ <;> simp_all⟩
    have := req_dead run hf
    rw [ha] at this
    simp only [Requester.name, this]
    rfl

/-- The names along the demo session, and after a response out of turn. -/
example : (List.range 13).map (fun n => (demoRequester n).name) = (["Version", "Version", "Capabilities", "Capabilities", "Algorithms", "Algorithms", "IdAuth",
      "IdAuth", "IdAuth", "IdAuth", "Challenge", "Challenge", "NewSession"]).map Res.ok ∧
    (Requester.handleMsg demoCfg demoCrypto [0x11, 0x7F, 0x03, 0] (demoRequester 5)).2.name = .ok "Error" ∧
    (Requester.handleMsg demoCfg demoCrypto [0x11] (demoRequester 5)).2.name = .panic .unwrapNone := by decide +kernel

theorem rspAborted_snoc (es : List RspEvent) (e : RspEvent) : rspAborted (es ++ [e]) = addAborted (rspAborted es) e := by
  simp only [rspAborted, List.foldl_append, List.foldl_cons, List.foldl_nil]

theorem rsp_dead {slots : List (Option FilledSlot)} (hl : slots.length = c.numSlots) (h8 : c.numSlots ≤ 8) {es : List RspEvent} {r : Responder}
    (run : RspRun c cr slots es r) : (rspAborted es = true → alive es = false) ∧ (alive es = false → r.state = if rspAborted es then none else some .error) := by
  induction run with
  | new => simp [alive, rspAborted]
  | @call es r env req buf run ih =>
    rw [rspAborted_snoc, alive_snoc]
    rcases rspRun_inv hl h8 run with ⟨ha, st, hlive⟩ | ⟨ha, hk, hst⟩
    · have hab : rspAborted es = false := by
        rcases hx : rspAborted es
        · rfl
        · rw [ih.1 hx] at ha; exact Bool.noConfusion ha
      rw [ha, hab]
      have ho := call_outcome (cr := cr) (env := env) (req := req) (buf := buf) hl h8 hlive.toRspKept hlive.state
      revert ho
      generalize (Responder.handleMsg c cr env req buf r).1 = x
      generalize (Responder.handleMsg c cr env req buf r).2 = r'
      intro ho
      cases ho with
      | ok hk hs step hsg h3 hlen => simp [addAborted, addAlive]
      | err hk hs he => simp [addAborted, addAlive, hs]
      | panic hk hs he => simp [addAborted, addAlive, hs]
    · obtain ⟨k, hp⟩ := dead_call (c := c) (cr := cr) (env := env) (req := req) (buf := buf) hst
      rw [hp]
      simp [addAborted, addAlive]
  | reset run ih => simp [rspAborted_snoc, alive_snoc, addAborted, addAlive]

/-- **C65.** The name of the responder's state tells which request it accepted last; it is "Error" from the first refused request on, until `reset`, and
only after an aborted call does `state()` itself abort.  `slots()` always returns the slots given at creation. -/
theorem c65_responder_name {slots : List (Option FilledSlot)} (hl : slots.length = c.numSlots) (h8 : c.numSlots ≤ 8) {es : List RspEvent} {r : Responder}
    (run : RspRun c cr slots es r) :
    (alive es = true → r.name = .ok (afterRequest (lastReq es))) ∧
    (alive es = false → rspAborted es = false → r.name = .ok "Error") ∧
    (rspAborted es = true → r.name.isPanic = true) ∧ r.slots = slots := by
  have hd := rsp_dead hl h8 run
  refine ⟨fun ha => ?_, fun ha hb => ?_, fun hb => ?_, ?_⟩
  · rcases rspRun_inv hl h8 run with ⟨_, st, hlive⟩ | ⟨h, _⟩
    · unfold Responder.name
      rw [hlive.state]
      have hm := hlive.mat
      generalize lastReq es = k at hm
      generalize conversation (rspMsgs es) = l at hm
      cases hm with
      | idAuth hk => rcases hk with rfl | rfl <;> rfl
      | challenge hk => rcases hk with rfl | rfl <;> rfl
      | _ => rfl
    · rw [h] at ha; exact Bool.noConfusion ha
  · have := hd.2 ha
    rw [hb] at this
    simp only [Responder.name, this]
    rfl
  · have := hd.2 (hd.1 hb)
    rw [hb] at this
    simp only [Responder.name, this]
    rfl
  · rcases rspRun_inv hl h8 run with ⟨_, st, hlive⟩ | ⟨_, hk, _⟩
    · exact hlive.slots
    · exact hk.slots

/-- The names along the demo session, and after a request out of turn. -/
example : demoSlots.length = demoCfg.numSlots ∧ (List.range 7).map (fun n => (demoResponder n).name) =
      (["Version", "Capabilities", "Algorithms", "IdAuth", "IdAuth", "Challenge", "Challenge"]).map Res.ok ∧
    (Responder.handleMsg demoCfg demoCrypto demoEnv [0x11, 0x83, 0, 0] (zeros 100) (demoResponder 1)).2.name = .ok "Error" ∧
    (Responder.handleMsg demoCfg demoCrypto demoEnv [0x11] (zeros 100) (demoResponder 1)).2.name = .panic .unwrapNone := by decide +kernel

end Spdm
