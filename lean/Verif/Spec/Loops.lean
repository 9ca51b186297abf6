import Verif.Spec.Session
/-!
# What a requester has sent
-/
namespace Spdm.Spec

/-- The requests written, in order. -/
def written (es : List ReqEvent) : List Bytes := es.filterMap fun e => match e with | .next _ _ (.ok out) => some out | _ => none

/-- The last call was a `handle_msg` that said the handshake is complete. -/
def JustCompleted (es : List ReqEvent) : Prop := ∃ es0 rsp, es = es0 ++ [.recv rsp (.ok true)]

end Spdm.Spec
