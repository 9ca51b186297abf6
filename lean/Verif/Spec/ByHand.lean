import Verif.States
import Verif.Spec.Shown
import Verif.Spec.Response
/-!
# Driving the states by hand

The protocol states, their methods and `Transcript` are public: a user who wants another certificate slot than 0, or several, calls the methods of
`requester::id_auth::State` himself, in any order.
-/
namespace Spdm.Spec

/-- A call of a method of `requester::id_auth::State`. -/
inductive HandCall
  | askDigests (buf : Bytes)
  | digests (rsp : Bytes)
  | askCertificate (slot : UInt8) (buf : Bytes)
  | certificate (rsp : Bytes)

/-- The call on a state and a transcript; the result is the message it concerns. -/
def HandCall.run (c : Cfg) : HandCall → ReqFull.S ReqFull.IdAuth Bytes
  | .askDigests buf => ReqFull.IdAuth.writeGetDigests buf
  | .digests rsp => do
    ReqFull.IdAuth.handleDigests c rsp
    pure rsp
  | .askCertificate slot buf => ReqFull.IdAuth.writeGetCertificate c slot buf
  | .certificate rsp => do
    ReqFull.IdAuth.handleCertificate c rsp
    pure rsp

/-- State and transcript after a list of calls, whatever they returned. -/
def byHand (c : Cfg) (p : ReqFull.IdAuth × Transcript) : List HandCall → ReqFull.IdAuth × Transcript
  | [] => p
  | x :: xs => byHand c (x.run c p).2 xs

/-- What the calls returned. -/
def handResults (c : Cfg) (p : ReqFull.IdAuth × Transcript) : List HandCall → List (Res Bytes)
  | [] => []
  | x :: xs => (x.run c p).1 :: handResults c (x.run c p).2 xs

/-- The messages of the calls that succeeded. -/
def handMsgs (rs : List (Res Bytes)) : List Bytes := rs.filterMap fun r => match r with | .ok m => some m | _ => none

/-- The certificate a state holds after a list of calls, `old` before: that of the last message that is a readable CERTIFICATE. -/
def HoldsCert (c : Cfg) (old : Option Certificate) : List HandCall → Option Certificate → Prop
  | [], o => o = old
  | .certificate rsp :: xs, o =>
    (∃ cert, Says c ⟨0, 0, false⟩ rsp (.certificate cert) ∧ HoldsCert c (some cert) xs o) ∨ ((¬ ∃ cert, Says c ⟨0, 0, false⟩ rsp (.certificate cert)) ∧ HoldsCert c old xs o)
  | _ :: xs, o => HoldsCert c old xs o

/-- What a CHALLENGE_AUTH is checked against in a challenge state made by hand: the algorithms of the state and the bytes of the transcript. -/
def handLog (a : Algorithms) (text : Bytes) : Log := ⟨0, 0, a.baseHashAlgoSelected.toNat, a.baseAsymAlgoSelected.toNat, text⟩

end Spdm.Spec
