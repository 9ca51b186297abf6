import Verif.States
import Verif.Spec.Replay
/-!
# The endpoints with all their fields, call by call

The same lists of API calls as in `Spec/Replay.lean`, run on the endpoints of `States.lean`, and what of their states the other theorems speak about.
-/
namespace Spdm.Spec

/-- One call of the requester with all its fields. -/
def ReqCall.runFull (c : Cfg) (cr : Crypto) (r : ReqFull.Requester) : ReqCall → ReqEvent × ReqFull.Requester
  | .next env buf => (.next env buf (ReqFull.Requester.nextRequest c env buf r).1, (ReqFull.Requester.nextRequest c env buf r).2)
  | .recv rsp => (.recv rsp (ReqFull.Requester.handleMsg c cr rsp r).1, (ReqFull.Requester.handleMsg c cr rsp r).2)

/-- It after a list of calls. -/
def reqFullAfter (c : Cfg) (cr : Crypto) (r : ReqFull.Requester) : List ReqCall → ReqFull.Requester
  | [] => r
  | x :: xs => reqFullAfter c cr (x.runFull c cr r).2 xs

/-- The events observed. -/
def reqFullBehaviour (c : Cfg) (cr : Crypto) (r : ReqFull.Requester) : List ReqCall → List ReqEvent
  | [] => []
  | x :: xs => (x.runFull c cr r).1 :: reqFullBehaviour c cr (x.runFull c cr r).2 xs

/-- The fields of a requester's state that are spoken about elsewhere. -/
def reqView : ReqFull.AllStates → ReqState
  | .error => .error
  | .version => .version
  | .capabilities s => .capabilities s.version s.requesterCt s.requesterCap
  | .algorithms s => .algorithms s.version ⟨s.requesterCt, s.requesterCap, s.responderCt, s.responderCap⟩ s.negotiateAlgorithms
  | .idAuth s => .idAuth s.version ⟨s.requesterCt, s.requesterCap, s.responderCt, s.responderCap⟩ s.algorithms s.digests
  | .challenge s => .challenge ⟨s.version, ⟨s.requesterCt, s.requesterCap, s.responderCt, s.responderCap⟩, s.algorithms, s.certSlot, s.certChain, s.certChainSize, s.nonce⟩
  | .newSession => .newSession

/-- The other fields are `None`. -/
def ReqRest : ReqFull.AllStates → Prop
  | .capabilities s => s.responderCt = none ∧ s.responderCap = none
  | .algorithms s => s.algorithms = none
  | .idAuth s => s.certChain = none
  | _ => True

/-- One call of the responder with all its fields. -/
def RspCall.runFull (c : Cfg) (cr : Crypto) (r : RspFull.Responder) : RspCall → RspEvent × RspFull.Responder
  | .call env req buf => (.call env req buf (RspFull.Responder.handleMsg c cr env req buf r).1, (RspFull.Responder.handleMsg c cr env req buf r).2)
  | .reset => (.reset, r.reset)

/-- It after a list of calls. -/
def fullAfter (c : Cfg) (cr : Crypto) (r : RspFull.Responder) : List RspCall → RspFull.Responder
  | [] => r
  | x :: xs => fullAfter c cr (x.runFull c cr r).2 xs

/-- The events observed. -/
def fullBehaviour (c : Cfg) (cr : Crypto) (r : RspFull.Responder) : List RspCall → List RspEvent
  | [] => []
  | x :: xs => (x.runFull c cr r).1 :: fullBehaviour c cr (x.runFull c cr r).2 xs

/-- The fields of a responder's state that are spoken about elsewhere. -/
def rspView : RspFull.AllStates → RspState
  | .error => .error
  | .version => .version
  | .capabilities _ => .capabilities
  | .algorithms s => .algorithms ⟨s.requesterCt, s.requesterCap, s.responderCt, s.responderCap⟩
  | .idAuth s => .idAuth ⟨⟨s.requesterCt, s.requesterCap, s.responderCt, s.responderCap⟩, s.algorithms⟩
  | .challenge s => .challenge ⟨⟨s.requesterCt, s.requesterCap, s.responderCt, s.responderCap⟩, s.algorithms⟩

/-- The other fields are `None`. -/
def RspRest : RspFull.AllStates → Prop
  | .capabilities s => s = ⟨none, none, none, none⟩
  | .algorithms s => s.algorithms = none
  | _ => True

end Spdm.Spec
