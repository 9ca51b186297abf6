import Verif.Spec.Session
/-!
# Two endpoints talking to each other
-/
namespace Spdm.Spec

/-- The requester history `es` and the responder history `es'` are the two ends of a link that delivers every message unmodified.  The
responder may have had any history before; `next_request` may have been called in vain (a small buffer, say) in between. -/
inductive Delivered : List ReqEvent → List RspEvent → Prop
  | start (es' : List RspEvent) : Delivered [] es'
  | vain {es : List ReqEvent} {es' : List RspEvent} (env : Env) (buf : Bytes) (res : Res Bytes) : Delivered es es' → res.isOk = false →
      Delivered (es ++ [.next env buf res]) es'
  | exchange {es : List ReqEvent} {es' : List RspEvent} (env env' : Env) (buf buf' req rsp : Bytes) (b : Bool) : Delivered es es' →
      Delivered (es ++ [.next env buf (.ok req), .recv rsp (.ok b)]) (es' ++ [.call env' req buf' (.ok ⟨rsp, none⟩)])

/-- What one exchange is run with: what the two sides draw, and their buffers. -/
structure Round where
  reqEnv : Env
  rspEnv : Env
  reqBuf : Bytes
  rspBuf : Bytes

/-- One exchange between the two endpoints: the requester writes its next request, the responder handles it, the requester handles the
response.  Nothing if any of the calls fails or aborts. -/
def exchange (c c' : Cfg) (cr cr' : Crypto) (x : Round) (ends : Requester × Responder) : Option (Bool × (Requester × Responder)) :=
  match Requester.nextRequest c x.reqEnv x.reqBuf ends.1 with
  | (.ok req, r) =>
    match Responder.handleMsg c' cr' x.rspEnv req x.rspBuf ends.2 with
    | (.ok ⟨rsp, none⟩, r') =>
      match Requester.handleMsg c cr rsp r with
      | (.ok b, r) => some (b, (r, r'))
      | _ => none
    | _ => none
  | _ => none

/-- A list of exchanges, with the completion flags the requester returns. -/
def talk (c c' : Cfg) (cr cr' : Crypto) : List Round → Requester × Responder → Option (List Bool × (Requester × Responder))
  | [], ends => some ([], ends)
  | x :: xs, ends =>
    match exchange c c' cr cr' x ends with
    | none => none
    | some (b, ends) =>
      match talk c c' cr cr' xs ends with
      | none => none
      | some (bs, ends) => some (b :: bs, ends)

end Spdm.Spec
