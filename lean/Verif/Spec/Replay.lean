import Verif.Spec.Session
/-!
# Observable behaviour of a responder

`behaviour c cr r calls` is everything a user of the responder `r` observes of a list of API calls.
-/
namespace Spdm.Spec

/-- A call of the responder's API. -/
inductive RspCall
  | call (env : Env) (req buf : Bytes)
  | reset

/-- One call. -/
def RspCall.run (c : Cfg) (cr : Crypto) (r : Responder) : RspCall → RspEvent × Responder
  | .call env req buf => (.call env req buf (Responder.handleMsg c cr env req buf r).1, (Responder.handleMsg c cr env req buf r).2)
  | .reset => (.reset, r.reset)

/-- The responder after a list of calls. -/
def after (c : Cfg) (cr : Crypto) (r : Responder) : List RspCall → Responder
  | [] => r
  | x :: xs => after c cr (x.run c cr r).2 xs

/-- The events observed. -/
def behaviour (c : Cfg) (cr : Crypto) (r : Responder) : List RspCall → List RspEvent
  | [] => []
  | x :: xs => (x.run c cr r).1 :: behaviour c cr (x.run c cr r).2 xs

theorem RspRun.more {c : Cfg} {cr : Crypto} {slots : List (Option FilledSlot)} {es : List RspEvent} {r : Responder} (h : RspRun c cr slots es r)
    (calls : List RspCall) : RspRun c cr slots (es ++ behaviour c cr r calls) (after c cr r calls) := by
  induction calls generalizing es r with
  | nil => simpa [behaviour, after] using h
  | cons x xs ih =>
    have h1 : RspRun c cr slots (es ++ [(x.run c cr r).1]) (x.run c cr r).2 := by
      cases x with
      | call env req buf => exact RspRun.call env req buf h
      | reset => exact RspRun.reset h
    have := ih h1
    rwa [List.append_assoc] at this

/-- Every list of calls is a history. -/
theorem RspRun.of (c : Cfg) (cr : Crypto) (slots : List (Option FilledSlot)) (calls : List RspCall) :
    RspRun c cr slots (behaviour c cr (Responder.new c slots) calls) (after c cr (Responder.new c slots) calls) := by
  simpa using RspRun.more (c := c) (cr := cr) (slots := slots) .new calls

/-! ### The requester -/

/-- A call of the requester's API. -/
inductive ReqCall
  | next (env : Env) (buf : Bytes)
  | recv (rsp : Bytes)

/-- One call. -/
def ReqCall.run (c : Cfg) (cr : Crypto) (r : Requester) : ReqCall → ReqEvent × Requester
  | .next env buf => (.next env buf (Requester.nextRequest c env buf r).1, (Requester.nextRequest c env buf r).2)
  | .recv rsp => (.recv rsp (Requester.handleMsg c cr rsp r).1, (Requester.handleMsg c cr rsp r).2)

/-- The requester after a list of calls. -/
def reqAfter (c : Cfg) (cr : Crypto) (r : Requester) : List ReqCall → Requester
  | [] => r
  | x :: xs => reqAfter c cr (x.run c cr r).2 xs

/-- The events observed. -/
def reqBehaviour (c : Cfg) (cr : Crypto) (r : Requester) : List ReqCall → List ReqEvent
  | [] => []
  | x :: xs => (x.run c cr r).1 :: reqBehaviour c cr (x.run c cr r).2 xs

theorem ReqRun.more {c : Cfg} {cr : Crypto} {root : Bytes} {es : List ReqEvent} {r : Requester} (h : ReqRun c cr root es r)
    (calls : List ReqCall) : ReqRun c cr root (es ++ reqBehaviour c cr r calls) (reqAfter c cr r calls) := by
  induction calls generalizing es r with
  | nil => simpa [reqBehaviour, reqAfter] using h
  | cons x xs ih =>
    have h1 : ReqRun c cr root (es ++ [(x.run c cr r).1]) (x.run c cr r).2 := by
      cases x with
      | next env buf => exact ReqRun.next env buf h
      | recv rsp => exact ReqRun.recv rsp h
    have := ih h1
    rwa [List.append_assoc] at this

/-- Every list of calls is a history. -/
theorem ReqRun.of (c : Cfg) (cr : Crypto) (root : Bytes) (calls : List ReqCall) :
    ReqRun c cr root (reqBehaviour c cr (Requester.new c root) calls) (reqAfter c cr (Requester.new c root) calls) := by
  simpa using ReqRun.more (c := c) (cr := cr) (root := root) .new calls

/-- The ERROR message body (error code, error data, extended data) for each error the responder reports: a request it does not expect in
its state or of another protocol version is UnexpectedRequest (4); a truncated or oversized request is RequestTooLarge (14); a name the
build configuration should not contain, a signing failure and an internal reader error are Unspecified (5); a full response or transcript
buffer is LargeResponse (15), a full buffer while writing CHALLENGE_AUTH is ResponseTooLarge (13); everything wrong with the fields of a
request is InvalidRequest (1). -/
def errorBytes : Err → Bytes
  | .parseHeader | .unexpectedMsg _ _ => [0x04, 0]
  | .read .bufferEmpty | .tooLarge => [0x0E, 0]
  | .parseName | .sign | .read .unaligned | .read .tooManyBits | .read .typeConversionFailed => [0x05, 0]
  | .bufferFull | .maxSizeExceeded => [0x0F, 0, 0]
  | .challengeAuthFull => [0x0D, 0, 0, 0, 0, 0]
  | .read .reservedByteNotZero | .invalidBitsSet | .invalidSlot | .invalidMeasurementHashType | .maxAlgorithmRequestsExceeded | .invalidMeasurementSpec
  | .invalidBaseAsymAlgo | .invalidBaseHashAlgo | .algorithmRequestRead _ | .incorrectFixedAlgCount | .invalidFixedAlgorithm | .invalidAlgorithmType
  | .opaqueFull | .maxSlotNumberExceeded | .maxOpaqueDataSizeExceeded | .opaqueInvalidVendorIdLength => [0x01, 0]
  | _ => [0x05, 0]

/-! ### What the responder has to say about its slots -/

/-- `mask` has exactly the bits of the filled slots. -/
def MaskOf (slots : List (Option FilledSlot)) (mask : UInt8) : Prop :=
  ∀ i, i < 8 → (mask.toNat.testBit i = true ↔ ∃ s, slots[i]? = some (some s))

/-- The serialised chain of a slot; nothing for an empty slot. -/
def chainBytes : Option FilledSlot → Bytes
  | none => []
  | some s => Wire.chain s.certChain

/-- The digests of the filled slots, by increasing slot number. -/
def digestsOf (hash : Bytes → Bytes) (slots : List (Option FilledSlot)) : Bytes :=
  slots.flatMap fun o => match o with | none => [] | some s => hash (Wire.chain s.certChain)

/-- A CHALLENGE_AUTH up to the signature: header, slot byte, slot mask, chain hash, nonce, `n` zero bytes for the measurement summary hash
and no opaque data (length 4, no elements).  The slot byte is the slot number unless both sides have MUT_AUTH_CAP (bit 8): then the code
overwrites it with zero (C18). -/
def authPart (l : Log) (slot mask : UInt8) (chainHash nonce : Bytes) : Bytes :=
  [0x11, 0x03, if l.both 8 then 0 else slot, mask] ++ chainHash ++ nonce ++ zeros (sizeFor digestSizes l.hash) ++ [4, 0, 0, 0, 0, 0]

end Spdm.Spec
