import Verif.Spec.Session
/-!
# A noisy line

A requester and a new responder on a line that delivers every message, in order, but perhaps not as it was sent.
-/
namespace Spdm.Spec

/-- One exchange: the request as the requester sent it and as the responder received it, the response as the responder answered and as the requester heard it. -/
structure Exchanged where
  sent : Bytes
  received : Bytes
  answered : Bytes
  heard : Bytes
  deriving DecidableEq

/-- The histories of the two ends, and the exchanges between them.  The requester accepted all it heard; the responder may have answered with an error.  `next_request` may have been called in vain. -/
inductive Line : List ReqEvent → List RspEvent → List Exchanged → Prop
  | start : Line [] [] []
  | vain {es : List ReqEvent} {es' : List RspEvent} {xs : List Exchanged} (env : Env) (buf : Bytes) (res : Res Bytes) : Line es es' xs → res.isOk = false →
      Line (es ++ [.next env buf res]) es' xs
  | exchange {es : List ReqEvent} {es' : List RspEvent} {xs : List Exchanged} (env env' : Env) (buf buf' : Bytes) (x : Exchanged) (err : Option Err) (b : Bool) : Line es es' xs →
      Line (es ++ [.next env buf (.ok x.sent), .recv x.heard (.ok b)]) (es' ++ [.call env' x.received buf' (.ok ⟨x.answered, err⟩)]) (xs ++ [x])

/-- Both messages arrived as they were sent. -/
def Exchanged.Intact (x : Exchanged) : Prop := x.received = x.sent ∧ x.heard = x.answered

/-- Both messages arrived with the length they were sent with (bits may have been flipped). -/
def Exchanged.SameLengths (x : Exchanged) : Prop := x.received.length = x.sent.length ∧ x.heard.length = x.answered.length

/-- At most one message did not arrive as it was sent; nothing is said about what arrived instead. -/
def AtMostOneAltered (xs : List Exchanged) : Prop :=
  ∃ pre y post, xs = pre ++ y :: post ∧ (∀ x ∈ pre ++ post, x.Intact) ∧ (y.received = y.sent ∨ y.heard = y.answered)

end Spdm.Spec
