import Verif.Spec.Pair
import Verif.Spec.Choice
import Verif.Spec.Wire
/-!
# A man in the middle who moves the boundaries of messages

He lets each side negotiate with himself, and hides each of the two negotiations from the other side behind the end of a message, where nobody looks.
-/
namespace Spdm.Spec

/-- What he wants to be believed: the CAPABILITIES and ALGORITHMS the requester is to hear, and the GET_CAPABILITIES and NEGOTIATE_ALGORITHMS the responder is to hear. -/
structure Lies where
  caps : Bytes
  algs : Bytes
  ask : Bytes
  offer : Bytes

/-- VERSION with 1.0 and 1.1. -/
def versionReply : Bytes := [0x10, 0x04, 0, 0, 0, 2, 0, 0x10, 0, 0x11]

/-- The requester writes its next request, if it can. -/
def asks (c : Cfg) (env : Env) (buf : Bytes) (r : Requester) : Option (Bytes × Requester) :=
  match Requester.nextRequest c env buf r with
  | (.ok req, r) => some (req, r)
  | _ => none

/-- The requester accepts a response. -/
def hears (c : Cfg) (cr : Crypto) (rsp : Bytes) (r : Requester) : Option Requester :=
  match Requester.handleMsg c cr rsp r with
  | (.ok _, r) => some r
  | _ => none

/-- The responder answers a request. -/
def serves (c : Cfg) (cr : Crypto) (env : Env) (req buf : Bytes) (q : Responder) : Option (Bytes × Responder) :=
  match Responder.handleMsg c cr env req buf q with
  | (.ok ⟨rsp, none⟩, q) => some (rsp, q)
  | _ => none

/-- The three first exchanges of both sides, with him in between.  First the requester's: he answers GET_VERSION and GET_CAPABILITIES himself and keeps NEGOTIATE_ALGORITHMS waiting.  Then
the responder's: he sends all of that as one GET_VERSION, and asks and offers what he likes.  All that comes then stands behind the ALGORITHMS the requester gets.  He uses nothing but
what he has seen by then. -/
def splice (lies : Lies) (c c' : Cfg) (cr cr' : Crypto) (x y z : Round) (ends : Requester × Responder) : Option (Requester × Responder) :=
  (asks c x.reqEnv x.reqBuf ends.1).bind fun (gv, r) =>
  (hears c cr versionReply r).bind fun r =>
  (asks c y.reqEnv y.reqBuf r).bind fun (gc, r) =>
  (hears c cr lies.caps r).bind fun r =>
  (asks c z.reqEnv z.reqBuf r).bind fun (na, r) =>
  (serves c' cr' x.rspEnv (gv ++ versionReply ++ gc ++ lies.caps ++ na ++ lies.algs) x.rspBuf ends.2).bind fun (version, q) =>
  (serves c' cr' y.rspEnv lies.ask y.rspBuf q).bind fun (caps, q) =>
  (serves c' cr' z.rspEnv lies.offer z.rspBuf q).bind fun (algs, q) =>
  (hears c cr (lies.algs ++ version ++ lies.ask ++ caps ++ lies.offer ++ algs) r).bind fun r =>
  some (r, q)

/-- What he can make both sides believe.  The requester: any secret exponent, any flags the parser knows with CERT_CAP and CHAL_CAP, any selection from its offer that has SHA-256 and
ECDSA P-256.  The responder: any exponent, any flags the parser knows, any offer in which SHA-256 and ECDSA P-256 are the first. -/
structure Plausible (offer : NegotiateAlgorithms) (heard : Capabilities) (told : Algorithms) (asked : GetCapabilities) (offered : NegotiateAlgorithms) (chosen : Algorithms) : Prop where
  flags : OnlyBits rspFlagBit heard.flags.toNat
  cert : heard.flags.toNat.testBit 1 = true
  chal : heard.flags.toNat.testBit 2 = true
  selection : AlgorithmsWF told
  selected : SelectedFrom offer told
  four : told.numAlgorithmResponses = 4
  hash : told.baseHashAlgoSelected = 1
  asym : told.baseAsymAlgoSelected = 16
  flags' : OnlyBits reqFlagBit asked.flags.toNat
  offer : NegotiateWF offered
  something : NonEmptyOffer offered
  four' : offered.numAlgorithmRequests = 4
  answer : Answers offered chosen
  hash' : chosen.baseHashAlgoSelected = 1
  asym' : chosen.baseAsymAlgoSelected = 16

end Spdm.Spec
