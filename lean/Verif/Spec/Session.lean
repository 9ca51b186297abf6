import Verif.Spec.Choice
import Verif.Responder
import Verif.Requester
/-!
# Histories and conversations

Histories are sequences of API calls with their results.  A conversation is the list of messages exchanged; what both sides should
remember of it is read off the bytes of the messages alone, with no reference to the endpoints.
-/
namespace Spdm.Spec

/-- Little-endian value. -/
def leVal : Bytes → Nat
  | [] => 0
  | b :: bs => b.toNat + 256 * leVal bs

/-- Bytes `i` to `i + n - 1` of a message. -/
def field (msg : Bytes) (i n : Nat) : Bytes := (msg.drop i).take n

/-- Second byte of a message: the request or response code. -/
def code (msg : Bytes) : Option UInt8 := msg[1]?

/-- The size a table gives to a word with a single bit set. -/
def sizeFor (table : List Nat) (word : Nat) : Nat := (table[Nat.log2 word]?).getD 0

/-- What is remembered of a conversation: the capability words of the two sides, the selected hash and signature algorithms, and the
transcript. -/
structure Log where
  reqCaps : Nat
  rspCaps : Nat
  hash : Nat
  asym : Nat
  text : Bytes
  deriving DecidableEq, Repr

namespace Log

def empty : Log := ⟨0, 0, 0, 0, []⟩

/-- Add one message: GET_VERSION starts over, capability words are bytes 8 to 11 of GET_CAPABILITIES and CAPABILITIES, the selected
signature and hash algorithms are bytes 12 to 15 and 16 to 19 of ALGORITHMS, and CHALLENGE_AUTH is recorded without its signature. -/
def add (l : Log) (msg : Bytes) : Log :=
  match code msg with
  | some 0x84 => { empty with text := msg }
  | some 0xE1 => { l with reqCaps := leVal (field msg 8 4), text := l.text ++ msg }
  | some 0x61 => { l with rspCaps := leVal (field msg 8 4), text := l.text ++ msg }
  | some 0x63 => { l with asym := leVal (field msg 12 4), hash := leVal (field msg 16 4), text := l.text ++ msg }
  | some 0x03 => { l with text := l.text ++ msg.take (msg.length - sizeFor signatureSizes l.asym) }
  | _ => { l with text := l.text ++ msg }

end Log

/-- The log of a list of messages. -/
def conversation (msgs : List Bytes) : Log := msgs.foldl Log.add Log.empty

/-! ### Responder histories -/

/-- One call of the responder's API: `handle_msg` with the request, the response buffer, what the environment provides, and the result;
or `reset`. -/
inductive RspEvent
  | call (env : Env) (req buf : Bytes) (res : Res Responder.Output)
  | reset
  deriving DecidableEq

/-- Histories of a responder from its creation. -/
inductive RspRun (c : Cfg) (cr : Crypto) (slots : List (Option FilledSlot)) : List RspEvent → Responder → Prop
  | new : RspRun c cr slots [] (Responder.new c slots)
  | call {es : List RspEvent} {r : Responder} (env : Env) (req buf : Bytes) : RspRun c cr slots es r →
      RspRun c cr slots (es ++ [.call env req buf (Responder.handleMsg c cr env req buf r).1]) (Responder.handleMsg c cr env req buf r).2
  | reset {es : List RspEvent} {r : Responder} : RspRun c cr slots es r → RspRun c cr slots (es ++ [.reset]) r.reset

/-- Add an event to the accepted exchanges. -/
def addExchange (acc : List (Bytes × Bytes)) : RspEvent → List (Bytes × Bytes)
  | .call _ req _ (.ok ⟨out, none⟩) => acc ++ [(req, out)]
  | .call _ _ _ _ => acc
  | .reset => []

/-- The accepted exchanges (request, response) since creation or the last reset. -/
def exchanges (es : List RspEvent) : List (Bytes × Bytes) := es.foldl addExchange []

/-- The messages of the accepted exchanges. -/
def rspMsgs (es : List RspEvent) : List Bytes := (exchanges es).flatMap (fun x => [x.1, x.2])

/-- Add an event to the success flag. -/
def addAlive (a : Bool) : RspEvent → Bool
  | .call _ _ _ (.ok ⟨_, none⟩) => a
  | .call _ _ _ _ => false
  | .reset => true

/-- No call has failed since creation or the last reset. -/
def alive (es : List RspEvent) : Bool := es.foldl addAlive true

/-- Code of the last accepted request. -/
def lastReq (es : List RspEvent) : Option UInt8 := ((exchanges es).getLast?).bind (fun x => code x.1)

/-- The protocol order: which request may follow which (`none`: nothing yet).  GET_VERSION 0x84, GET_CAPABILITIES 0xE1,
NEGOTIATE_ALGORITHMS 0xE3, GET_DIGESTS 0x81, GET_CERTIFICATE 0x82, CHALLENGE 0x83. -/
def allowed (prev : Option UInt8) (next : UInt8) : Bool :=
  next == 0x84 ||
  match prev with
  | some 0x84 => next == 0xE1
  | some 0xE1 => next == 0xE3
  | some 0xE3 => next == 0x81 || next == 0x82
  | some 0x81 => next == 0x81 || next == 0x82
  | some 0x82 => next == 0x83
  | some 0x83 => next == 0x83
  | _ => false

/-- Every request of the list may follow the one before it. -/
def InOrder (reqs : List Bytes) : Prop :=
  ∀ pre r post, reqs = pre ++ r :: post → ∃ k, code r = some k ∧ allowed (pre.getLast?.bind code) k = true

/-- The bytes of the ERROR message for each kind of failure. -/
def errorReply (buf : Bytes) (body : Bytes) : Bytes := if 2 + body.length ≤ buf.length then Wire.header .error ++ body else []

/-! ### Requester histories -/

/-- One call of the requester's API: `next_request` or `handle_msg`. -/
inductive ReqEvent
  | next (env : Env) (buf : Bytes) (res : Res Bytes)
  | recv (rsp : Bytes) (res : Res Bool)
  deriving DecidableEq

/-- Histories of a requester from its creation. -/
inductive ReqRun (c : Cfg) (cr : Crypto) (root : Bytes) : List ReqEvent → Requester → Prop
  | new : ReqRun c cr root [] (Requester.new c root)
  | next {es : List ReqEvent} {r : Requester} (env : Env) (buf : Bytes) : ReqRun c cr root es r →
      ReqRun c cr root (es ++ [.next env buf (Requester.nextRequest c env buf r).1]) (Requester.nextRequest c env buf r).2
  | recv {es : List ReqEvent} {r : Requester} (rsp : Bytes) : ReqRun c cr root es r →
      ReqRun c cr root (es ++ [.recv rsp (Requester.handleMsg c cr rsp r).1]) (Requester.handleMsg c cr rsp r).2

/-- The message of an event: a request written or a response accepted. -/
def ReqEvent.msg : ReqEvent → Option Bytes
  | .next _ _ (.ok out) => some out
  | .recv rsp (.ok _) => some rsp
  | _ => none

/-- The responses accepted, in order. -/
def accepted (es : List ReqEvent) : List Bytes :=
  es.filterMap fun e => match e with | .recv rsp (.ok _) => some rsp | _ => none

/-- A response was not accepted: `handle_msg` reported an error or aborted. -/
def failed (es : List ReqEvent) : Bool :=
  es.any fun e => match e with | .recv _ (.ok _) => false | .recv _ _ => true | _ => false

/-- Both sides advertise capability bit `k`. -/
def Log.both (l : Log) (k : Nat) : Bool := l.reqCaps.testBit k && l.rspCaps.testBit k

/-- The responses a requester needs, by code: VERSION 0x04, CAPABILITIES 0x61, ALGORITHMS 0x63; if both sides have CERT_CAP (bit 1)
DIGESTS 0x01 and CERTIFICATE 0x02; if both also have CHAL_CAP (bit 2) CHALLENGE_AUTH 0x03. -/
def path (l : Log) : List UInt8 :=
  [0x04, 0x61, 0x63] ++ if l.both 1 then [0x01, 0x02] ++ (if l.both 2 then [0x03] else []) else []

/-- The requests that ask for them: GET_VERSION, GET_CAPABILITIES, NEGOTIATE_ALGORITHMS, GET_DIGESTS, GET_CERTIFICATE, CHALLENGE. -/
def requestCodes : List UInt8 := [0x84, 0xE1, 0xE3, 0x81, 0x82, 0x83]

/-- The messages of the successful calls. -/
def reqMsgs (es : List ReqEvent) : List Bytes := es.filterMap ReqEvent.msg

/-- The version a requester has agreed on, until it forgets it on completion. -/
def agreedVersion : ReqState → Option VersionEntry
  | .capabilities v _ _ => some v
  | .algorithms v _ _ => some v
  | .idAuth v _ _ _ => some v
  | .challenge s => some s.version
  | _ => none

/-- The algorithms a requester has accepted, until it forgets them on completion. -/
def agreedAlgorithms : ReqState → Option Algorithms
  | .idAuth _ _ a _ => some a
  | .challenge s => some s.algorithms
  | _ => none

end Spdm.Spec
