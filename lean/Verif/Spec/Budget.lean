import Verif.Spec.Replay
/-!
# How often a responder can be asked, and a requester can ask
-/
namespace Spdm.Spec

/-- How many requests were answered since the last GET_VERSION, that one included (since creation or `reset` if there was none). -/
def answeredSince (es : List RspEvent) : Nat := (exchanges es).foldl (fun n x => if code x.1 = some 0x84 then 1 else n + 1) 0

/-- A call of `handle_msg` with something other than GET_VERSION. -/
def OtherRequest (x : RspCall) : Prop := ∃ env req buf, x = .call env req buf ∧ code req ≠ some 0x84

/-- A successful `next_request`. -/
def Written (e : ReqEvent) : Prop := ∃ env buf out, e = .next env buf (.ok out)

end Spdm.Spec
