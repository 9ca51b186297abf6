import Verif.Errors
import Verif.Spec.Rejection
import Verif.Spec.Panics
import Verif.Spec.Refusal
import Verif.Spec.Faults
/-!
# What the returned errors say

The checks of Spec/Rejection.lean, each with the `RequesterError` values that are returned if it is the first one to fail.
-/
namespace Spdm.Spec

/-- The error for a wrong header after `n` accepted responses: `ParseHeader` if only the version is wrong, else `UnexpectedMsgCode`.  The `got` of the latter is the first byte
of the response, which is its version and not its code. -/
def headerError (n : Nat) (rsp : Bytes) : RequesterError :=
  if rsp[1]? = (responseHeader n)[1]? then .parseHeader else .unexpectedMsgCode ((responseHeader n).getD 1 0) (rsp.getD 0 0)

/-- The error for a response that is not an encoding of the message due after `n` accepted ones: the one for the first thing that is wrong in its body (Spec/Faults.lean). -/
def Undecodable (c : Cfg) (l : Log) (rsp : Bytes) : Nat → RequesterError → Prop
  | 0, d => ∃ e, d = .parseVersion e ∧ Faults.First (Faults.version (rsp.drop 2)) (.error e)
  | 1, d => d = .parseCapabilities ∧ ∃ e, Faults.First (Faults.capabilities (rsp.drop 2)) (.error e)
  | 2, d => ∃ e, d = .parseAlgorithms e ∧ Faults.First (Faults.algorithms (rsp.drop 2)) (.error e)
  | 3, d => ∃ e, d = .read e ∧ Faults.First (Faults.digests c (sizeFor digestSizes l.hash) (rsp.drop 2)) (.error e)
  | 4, d => ∃ e, d = .parseCert e ∧ Faults.First (Faults.certificate c (rsp.drop 2)) (.error e)
  | _, d => ∃ e, d = .parseChallengeAuth e ∧ Faults.First (Faults.challengeAuth c (sizeFor digestSizes l.hash) (sizeFor signatureSizes l.asym) (rsp.drop 2)) (.error e)

/-- The errors for each of the `checks`, in their order. -/
def reported (c : Cfg) (acc : List Bytes) (l : Log) (rsp : Bytes) : List (RequesterError → Prop) :=
  [ fun d => d = headerError acc.length rsp,
    fun d => Undecodable c l rsp acc.length d,
    fun d => ∃ v, Means c l rsp (.version v) ∧ d = .noSupportedVersions v,
    fun d => d = .selectedAlgorithmNotRequested,
    fun d => d = .challengeAuth .incorrectSlot,
    fun d => d = .challengeAuth .slotNotInMask,
    fun d => d = .challengeAuth .digestMismatch,
    fun d => d = .bufferFull,
    fun d => ∃ e cert, acc[4]? = some cert ∧ d = .parseCertChain e ∧ Faults.First (Faults.chain c (sizeFor digestSizes l.hash) (carriedChain cert)) (.error e),
    fun d => d = .invalidCert,
    fun d => d = .challengeAuth .invalidSignature ]

/-- `d` is one of the values for the first statement that is false. -/
inductive Reports : List Prop → List (RequesterError → Prop) → RequesterError → Prop
  | here {p : Prop} {ps : List Prop} {q : RequesterError → Prop} {qs : List (RequesterError → Prop)} {d : RequesterError} : ¬ p → q d → Reports (p :: ps) (q :: qs) d
  | later {p : Prop} {ps : List Prop} {q : RequesterError → Prop} {qs : List (RequesterError → Prop)} {d : RequesterError} : p → Reports ps qs d → Reports (p :: ps) (q :: qs) d

/-! ## The responder -/

/-- The ERROR (without its header) that goes with a returned error: unexpected request, invalid request, request too large (also for one that ends too early), unspecified, response too
large with its size, or large response. -/
def errorFor : ResponderError → Bytes
  | .parseHeader => [0x04, 0]
  | .unexpectedMsgCode _ _ => [0x04, 0]
  | .read e | .parseGetCapabilities (.read e) | .parseChallenge (.read e) | .parseNegotiateAlgorithms (.read e) =>
    match e with
    | .bufferEmpty => [0x0E, 0]
    | .reservedByteNotZero => [0x01, 0]
    | _ => [0x05, 0]
  | .parseNegotiateAlgorithms .tooLarge => [0x0E, 0]
  | .bufferFull | .writeCertChain _ => [0x0F, 0, 0]
  | .writeChallengeAuth .bufferFull => [0x0D, 0, 0, 0, 0, 0]
  | .signingFailed | .parseCapability => [0x05, 0]
  | .parseGetCapabilities .invalidBitsSet | .parseChallenge .invalidMeasurementHashType | .parseNegotiateAlgorithms _ | .invalidSlot | .writeChallengeAuth _ => [0x01, 0]

/-- The errors for a request of code `k` that is not a valid encoding.  (Every GET_DIGESTS is one.) -/
def Malformed (k : UInt8) (d : ResponderError) : Prop :=
  (k = 0x84 ∨ k = 0x82) ∧ (∃ e, d = .read e) ∨
  k = 0xE1 ∧ (∃ e, d = .parseGetCapabilities e) ∨
  k = 0xE3 ∧ (∃ e, d = .parseNegotiateAlgorithms e) ∨
  k = 0x83 ∧ (∃ e, d = .parseChallenge e)

/-- The error for a request of code `k` that is not a valid encoding is exactly the one for the first thing that is wrong in its body (Spec/Faults.lean). -/
inductive FirstWrong (c : Cfg) (req : Bytes) : UInt8 → ResponderError → Prop
  | getVersion {e : ReadError} : Faults.First (Faults.twoReserved (req.drop 2)) (.error e) → FirstWrong c req 0x84 (.read e)
  | getCapabilities {e : ParseGetCapabilitiesError} : Faults.First (Faults.getCapabilities (req.drop 2)) (.error e) → FirstWrong c req 0xE1 (.parseGetCapabilities e)
  | negotiateAlgorithms {e : ParseNegotiateAlgorithmsError} : Faults.First (Faults.negotiateAlgorithms (req.drop 2)) (.error e) →
      FirstWrong c req 0xE3 (.parseNegotiateAlgorithms e)
  | getCertificate {e : ReadError} : Faults.First (Faults.getCertificate (req.drop 2)) (.error e) → FirstWrong c req 0x82 (.read e)
  | challenge {e : ParseChallengeError} : Faults.First (Faults.challenge c (req.drop 2)) (.error e) → FirstWrong c req 0x83 (.parseChallenge e)

/-- The error for a chain that is too large to be written. -/
def TooLarge (c : Cfg) (ch : CertificateChain) (e : WriteCertificateChainError) : Prop :=
  (e = .maxSizeExceeded ∧ 65535 < (Wire.chain ch).length) ∨
  (e = .bufferFull ∧ (Wire.chain ch).length ≤ 65535 ∧ c.maxCertChainSize < (Wire.chain ch).length)

/-- The errors for a request that is in order, of a responder with `room` bytes for the response. -/
inductive Unable (c : Cfg) (cr : Crypto) (env : Env) (slots : List (Option FilledSlot)) (l : Log) (req : Bytes) (room : Nat) : ResponderError → Prop
  /-- The response buffer or the transcript is full. -/
  | full : Unable c cr env slots l req room .bufferFull
  /-- A chain is too large: of some slot for GET_DIGESTS, of the slot asked for otherwise. -/
  | chain {i : Nat} {s : FilledSlot} {e : WriteCertificateChainError} (hs : slots[i]? = some (some s)) (ht : TooLarge c s.certChain e)
      (hk : code req = some 0x81 ∨ (code req = some 0x82 ∨ code req = some 0x83) ∧ ∃ b : UInt8, req[2]? = some b ∧ b.toNat = i) :
      Unable c cr env slots l req room (.writeCertChain e)
  /-- The response buffer is full in CHALLENGE_AUTH. -/
  | auth (hk : code req = some 0x83) : Unable c cr env slots l req room (.writeChallengeAuth .bufferFull)
  /-- In its opaque data. -/
  | opaqueData {b : UInt8} {s : FilledSlot} (hk : code req = some 0x83) (hb : req[2]? = some b) (hs : slots[b.toNat]? = some (some s))
      (ho : EndsInOpaque l (cr.hash (UInt32.ofNat l.hash) (Wire.chain s.certChain)) env.nonce room) :
      Unable c cr env slots l req room (.writeChallengeAuth (.writeOpaqueElement .bufferFull))
  /-- The slot's signer declines. -/
  | sign {b mask : UInt8} {s : FilledSlot} (hk : code req = some 0x83) (hb : req[2]? = some b) (hs : slots[b.toNat]? = some (some s)) (hm : MaskOf slots mask)
      (hn : s.sign env.seed (cr.hash (UInt32.ofNat l.hash) (l.text ++ req ++ unsignedReply cr env l b mask s)) = none) :
      Unable c cr env slots l req room .signingFailed

end Spdm.Spec
