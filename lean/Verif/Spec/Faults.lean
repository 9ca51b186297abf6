import Verif.ParseErrors
import Verif.Spec.Wire
import Verif.Spec.Session
/-!
# What a parser complains about

For each message, what its bytes (after the two header bytes) have to satisfy, in the order of the wire, and the error for each requirement.  `num bs i k` is the number in the `k` bytes at
offset `i`.
-/
namespace Spdm.Spec
namespace Faults

/-- What follows from a requirement that is not met. -/
inductive Fault (ε : Type)
  | error (e : ε)
  | abort

/-- Requirements in order. -/
abbrev Checks (ε : Type) := List (Prop × Fault ε)

/-- `f` is for the first requirement that is not met. -/
inductive First {ε : Type} : Checks ε → Fault ε → Prop
  | here {p : Prop} {f : Fault ε} {cs : Checks ε} : ¬ p → First ((p, f) :: cs) f
  | later {p : Prop} {f g : Fault ε} {cs : Checks ε} : p → First cs g → First ((p, f) :: cs) g

/-- Every requirement is met. -/
def AllMet {ε : Type} (cs : Checks ε) : Prop := ∀ x ∈ cs, x.1

/-- The outcome of a parser with these requirements: a message if all are met, else the first one's error, or an abort. -/
def Outcome {ε α : Type} (cs : Checks ε) : Out ε α → Prop
  | .ok _ => AllMet cs
  | .err e => First cs (.error e)
  | .panic _ => First cs .abort

/-- The error type wraps a `ReadError` (each `From<ReadError>`). -/
class OfRead (ε : Type) where
  ofRead : ReadError → ε

instance : OfRead ReadError := ⟨id⟩
instance : OfRead ParseVersionError := ⟨.read⟩
instance : OfRead ParseGetCapabilitiesError := ⟨.read⟩
instance : OfRead ParseCapabilitiesError := ⟨.read⟩
instance : OfRead ParseAlgorithmRequestError := ⟨.read⟩
instance : OfRead ParseNegotiateAlgorithmsError := ⟨.read⟩
instance : OfRead ParseAlgorithmsError := ⟨.read⟩
instance : OfRead ParseCertificateError := ⟨.read⟩
instance : OfRead ParseCertificateChainError := ⟨.read⟩
instance : OfRead ParseVendorIdError := ⟨.read⟩
instance : OfRead ParseOpaqueElementError := ⟨.read⟩
instance : OfRead ParseOpaqueDataError := ⟨.read⟩
instance : OfRead ParseChallengeError := ⟨.read⟩
instance : OfRead ParseChallengeAuthError := ⟨.read⟩
instance : OfRead ParseGetMeasurementsError := ⟨.read⟩
instance : OfRead ParseBitStreamError := ⟨.read⟩
instance : OfRead ParseDmtfMeasurementError := ⟨.read⟩
instance : OfRead ParseMeasurementBlockError := ⟨.read⟩
instance : OfRead ParseMeasurementBlocksError := ⟨.read⟩
instance : OfRead ParseMeasurementsError := ⟨.read⟩
instance : OfRead ParseErrorError := ⟨.read⟩

/-! ## Single requirements -/

variable {ε δ : Type}

/-- `p`, else the error `e`. -/
def need (p : Prop) (e : ε) (rest : Checks ε) : Checks ε := (p, .error e) :: rest

/-- `p`, else an abort. -/
def orAbort (p : Prop) (rest : Checks ε) : Checks ε := (p, .abort) :: rest

/-- There are `n` bytes, else `BufferEmpty`. -/
def has [OfRead ε] (bs : Bytes) (n : Nat) (rest : Checks ε) : Checks ε := need (n ≤ bs.length) (OfRead.ofRead .bufferEmpty) rest

/-- The little-endian number in the `k` bytes at `i`. -/
def num (bs : Bytes) (i k : Nat) : Nat := leVal (field bs i k)

/-- `n` reserved bytes at `i`, each of them there and zero. -/
def zeroes [OfRead ε] (bs : Bytes) : Nat → Nat → Checks ε → Checks ε
  | _, 0, rest => rest
  | i, n + 1, rest => has bs (i + 1) <| need (num bs i 1 = 0) (OfRead.ofRead .reservedByteNotZero) <| zeroes bs (i + 1) n rest

/-- A part with errors of its own. -/
def within (wrap : δ → ε) (part : Checks δ) (rest : Checks ε) : Checks ε :=
  part.map (fun x => (x.1, match x.2 with | .error e => .error (wrap e) | .abort => .abort)) ++ rest

/-! ## The messages -/

/-- GET_VERSION and GET_DIGESTS. -/
def twoReserved (bs : Bytes) : Checks ReadError := zeroes bs 0 2 []

/-- VERSION: at most two entries. -/
def version (bs : Bytes) : Checks ParseVersionError :=
  zeroes bs 0 3 <| has bs 4 <| need (num bs 3 1 ≤ 2) .tooManyVersionsReceived <| has bs (4 + 2 * num bs 3 1) []

/-- GET_CAPABILITIES. -/
def getCapabilities (bs : Bytes) : Checks ParseGetCapabilitiesError :=
  zeroes bs 0 3 <| has bs 4 <| zeroes bs 4 2 <| has bs 10 <| need (OnlyBits reqFlagBit (num bs 6 4)) .invalidBitsSet []

/-- CAPABILITIES. -/
def capabilities (bs : Bytes) : Checks ParseCapabilitiesError :=
  zeroes bs 0 3 <| has bs 4 <| zeroes bs 4 2 <| has bs 10 <| need (OnlyBits rspFlagBit (num bs 6 4)) .invalidBitsSet []

/-- Number of bits defined for the algorithm type `t`: 2 for DHE, 3 for AEAD, 4 for the requester's signatures, 5 for the key schedule. -/
def typeBits (t : Nat) : Nat := if t = 2 then 6 else if t = 3 then 3 else if t = 4 then 9 else 1

/-- An algorithm structure at `i`: its type, a byte with the number of external algorithms (low) and of fixed bytes (high), two bytes of fixed algorithms, and four bytes for each
external one. -/
def algorithm (bs : Bytes) (i : Nat) : Checks ParseAlgorithmRequestError :=
  has bs (i + 1) <| need (2 ≤ num bs i 1 ∧ num bs i 1 ≤ 5) .invalidAlgorithmType <|
  has bs (i + 2) <| need (num bs (i + 1) 1 / 16 = 2) .incorrectFixedAlgCount <|
  has bs (i + 4) <| need (num bs (i + 2) 2 < 2 ^ typeBits (num bs i 1)) .invalidFixedAlgorithm <|
  has bs (i + 4 + 4 * (num bs (i + 1) 1 % 16)) []

/-- Where it ends. -/
def algorithmEnd (bs : Bytes) (i : Nat) : Nat := i + 4 + 4 * (num bs (i + 1) 1 % 16)

/-- `n` of them in a request. -/
def requests (bs : Bytes) : Nat → Nat → Checks ParseNegotiateAlgorithmsError
  | 0, _ => []
  | n + 1, i => within .algorithmRequest (algorithm bs i) <| requests bs n (algorithmEnd bs i)

/-- NEGOTIATE_ALGORITHMS. -/
def negotiateAlgorithms (bs : Bytes) : Checks ParseNegotiateAlgorithmsError :=
  has bs 1 <| need (num bs 0 1 ≤ 4) .maxAlgorithmRequestsExceeded <| zeroes bs 1 1 <|
  has bs 4 <| need (num bs 2 2 ≤ 128) .tooLarge <|
  has bs 5 <| need (num bs 4 1 < 2) .invalidMeasurementSpec <| zeroes bs 5 1 <|
  has bs 10 <| need (num bs 6 4 < 2 ^ 9) .invalidBaseAsymAlgo <|
  has bs 14 <| need (num bs 10 4 < 2 ^ 6) .invalidBaseHashAlgo <| zeroes bs 14 12 <|
  has bs 28 <| zeroes bs 28 2 <| has bs (30 + 4 * num bs 26 1 + 4 * num bs 27 1) <|
  requests bs (num bs 0 1) (30 + 4 * num bs 26 1 + 4 * num bs 27 1)

/-- The error for several selected algorithms of type `t` (or none). -/
def selectedError (t : Nat) : ParseAlgorithmResponseError :=
  if t = 2 then .moreThanOneDheAlgoSelected else if t = 3 then .moreThanOneAeadAlgoSelected
  else if t = 4 then .moreThanOneBaseAsymAlgoSelected else .moreThanOneKeySchedule

/-- `n` algorithm structures in a response: exactly one algorithm each. -/
def responses (bs : Bytes) : Nat → Nat → Checks ParseAlgorithmsError
  | 0, _ => []
  | n + 1, i => within .algorithmsRequest (algorithm bs i) <|
    need (OneBit 16 (num bs (i + 2) 2)) (.algorithmsResponse (selectedError (num bs i 1))) <| responses bs n (algorithmEnd bs i)

/-- ALGORITHMS. -/
def algorithms (bs : Bytes) : Checks ParseAlgorithmsError :=
  has bs 1 <| need (num bs 0 1 ≤ 4) .maxAlgorithmResponsesExceeded <| zeroes bs 1 1 <|
  has bs 5 <| need (num bs 4 1 < 2) .invalidMeasurementSpecSelected <|
  need (num bs 4 1 = 1) .moreThanOneMeasurementSpecSelected <| zeroes bs 5 1 <|
  has bs 10 <| need (num bs 6 4 < 2 ^ 6) .invalidMeasurementHashAlgoSelected <|
  need (OneBit 6 (num bs 6 4)) .moreThanOneMeasurementHashAlgoSelected <|
  has bs 14 <| need (num bs 10 4 < 2 ^ 9) .invalidBaseAsymAlgoSelected <|
  need (OneBit 9 (num bs 10 4)) .moreThanOneBaseAsymAlgoSelected <|
  has bs 18 <| need (num bs 14 4 < 2 ^ 6) .invalidBaseHashAlgoSelected <|
  need (OneBit 6 (num bs 14 4)) .moreThanOneBaseHashAlgoSelected <| zeroes bs 18 16 <|
  responses bs (num bs 0 1) 34

/-- Number of the build's slots in a mask. -/
def slotsIn (c : Cfg) (mask : Nat) : Nat := ((List.range c.numSlots).filter mask.testBit).length

/-- DIGESTS with digests of `size` bytes. -/
def digests (c : Cfg) (size : Nat) (bs : Bytes) : Checks ReadError :=
  zeroes bs 0 1 <| has bs 2 <| has bs (2 + size * slotsIn c (num bs 1 1)) []

/-- GET_CERTIFICATE. -/
def getCertificate (bs : Bytes) : Checks ReadError := has bs 1 <| zeroes bs 1 1 <| has bs 6 []

/-- CERTIFICATE. -/
def certificate (c : Cfg) (bs : Bytes) : Checks ParseCertificateError :=
  has bs 1 <| zeroes bs 1 1 <| has bs 4 <| need (num bs 2 2 ≤ c.maxCertChainSize) .tooLarge <| has bs 6 <| has bs (6 + num bs 2 2) []

/-- A certificate with a header of `h` bytes and `n` bytes of contents at `i`, where `found` precede it and `next` is for those after it: the last one ends where the chain ends. -/
def contents (c : Cfg) (bs : Bytes) (i found h n : Nat) (next : Nat → Checks ParseCertificateChainError) : Checks ParseCertificateChainError :=
  need (i + h + n ≤ bs.length) .lengthMismatch <|
  if i + h + n = bs.length then [] else need (found < c.maxCertChainDepth) .maxDepthExceeded <| next (i + h + n)

/-- The certificates at `i`: DER sequences with a length in one byte below 128, or in one or two bytes after 0x81 or 0x82.  Each has two bytes or more, so `fuel` for every byte is enough. -/
def certificates (c : Cfg) (bs : Bytes) : Nat → Nat → Nat → Checks ParseCertificateChainError
  | 0, _, _ => []
  | fuel + 1, i, found =>
    has bs (i + 1) <| orAbort (num bs i 1 = 0x30) <| has bs (i + 2) <|
    if num bs (i + 1) 1 < 128 then contents c bs i found 2 (num bs (i + 1) 1) fun j => certificates c bs fuel j (found + 1)
    else if num bs (i + 1) 1 = 0x81 then
      has bs (i + 3) <| need (128 ≤ num bs (i + 2) 1) .badDerEncoding <| contents c bs i found 3 (num bs (i + 2) 1) fun j => certificates c bs fuel j (found + 1)
    else if num bs (i + 1) 1 = 0x82 then
      has bs (i + 4) <| need (256 ≤ 256 * num bs (i + 2) 1 + num bs (i + 3) 1) .badDerEncoding <|
      contents c bs i found 4 (256 * num bs (i + 2) 1 + num bs (i + 3) 1) fun j => certificates c bs fuel j (found + 1)
    else need False .badDerEncoding []

/-- A certificate chain with a root digest of `size` bytes. -/
def chain (c : Cfg) (size : Nat) (bs : Bytes) : Checks ParseCertificateChainError :=
  has bs 2 <| need (num bs 0 2 = bs.length) .lengthMismatch <| zeroes bs 2 2 <| has bs (4 + size) <| certificates c bs (bs.length + 1) (4 + size) 0

/-- CHALLENGE. -/
def challenge (c : Cfg) (bs : Bytes) : Checks ParseChallengeError :=
  has bs 2 <| need (num bs 1 1 = 0 ∨ num bs 1 1 = 1 ∨ num bs 1 1 = 0xFF) .invalidMeasurementHashType <| has bs (2 + c.nonceSize) []

/-! ## Opaque data -/

/-- A vendor id of `n` bytes. -/
def vendorId (bs : Bytes) (i n : Nat) : Checks ParseVendorIdError :=
  need (n = 0 ∨ n = 2 ∨ n = 4) .invalidLen <| has bs (i + n) []

/-- Length of the vendor ids of registry `r`: none for the DMTF, four bytes for IANA and HDBaseT, else two. -/
def idLen (r : Nat) : Nat := if r = 0 then 0 else if r = 4 ∨ r = 5 then 4 else 2

/-- Length of an element at `i`, without its padding. -/
def elementSize (bs : Bytes) (i : Nat) : Nat := 4 + num bs (i + 1) 1 + num bs (i + 2 + num bs (i + 1) 1) 2

/-- Its padding to a multiple of four. -/
def paddingOf (n : Nat) : Nat := (4 - n % 4) % 4

/-- An element at `i`: registry, vendor id with its length, data with its length, padding. -/
def element (c : Cfg) (bs : Bytes) (i : Nat) : Checks ParseOpaqueElementError :=
  has bs (i + 1) <| need (num bs i 1 ≤ 8) .parseVendorRegistryId <|
  has bs (i + 2) <| need (num bs (i + 1) 1 = idLen (num bs i 1)) .invalidVendorId <|
  within .parseVendorId (vendorId bs (i + 2) (num bs (i + 1) 1)) <|
  has bs (i + 4 + num bs (i + 1) 1) <| has bs (i + elementSize bs i) <|
  orAbort (num bs (i + 2 + num bs (i + 1) 1) 2 ≤ c.maxOpaqueElementDataSize) <|
  zeroes bs (i + elementSize bs i) (paddingOf (elementSize bs i)) []

/-- Where it ends. -/
def elementEnd (bs : Bytes) (i : Nat) : Nat := i + elementSize bs i + paddingOf (elementSize bs i)

/-- `n` elements at `i`, the first of them with index `k`. -/
def elements (c : Cfg) (bs : Bytes) : Nat → Nat → Nat → Checks ParseOpaqueDataError
  | 0, _, _ => []
  | n + 1, k, i => within .parseOpaqueElement (element c bs i) <| orAbort (k < c.maxOpaqueElements) <| elements c bs n (k + 1) (elementEnd bs i)

/-- Where they end. -/
def elementsEnd (bs : Bytes) : Nat → Nat → Nat
  | 0, i => i
  | n + 1, i => elementsEnd bs n (elementEnd bs i)

/-- Opaque data at `i`. -/
def opaqueData (c : Cfg) (bs : Bytes) (i : Nat) : Checks ParseOpaqueDataError :=
  has bs (i + 1) <| zeroes bs (i + 1) 3 <| elements c bs (num bs i 1) 0 (i + 4)

/-- Where it ends. -/
def opaqueEnd (bs : Bytes) (i : Nat) : Nat := elementsEnd bs (num bs i 1) (i + 4)

/-- CHALLENGE_AUTH with digests of `size` bytes and a signature of `sig` bytes.  A slot that is too large is reported as an error of the opaque data. -/
def challengeAuth (c : Cfg) (size sig : Nat) (bs : Bytes) : Checks ParseChallengeAuthError :=
  has bs 1 <| need (num bs 0 1 % 16 ≤ c.numSlots) .maxOpaqueDataSizeExceeded <|
  has bs (4 + 2 * size + c.nonceSize) <|
  need (num bs (2 + 2 * size + c.nonceSize) 2 ≤ 1024) .maxOpaqueDataSizeExceeded <|
  within .parseOpaqueData (opaqueData c bs (4 + 2 * size + c.nonceSize)) <|
  has bs (opaqueEnd bs (4 + 2 * size + c.nonceSize) + sig) []

/-! ## Measurements -/

/-- GET_MEASUREMENTS: a nonce and a slot if a signature is asked for. -/
def getMeasurements (c : Cfg) (bs : Bytes) : Checks ParseGetMeasurementsError :=
  has bs 1 <| need (num bs 0 1 < 4) .reservedBitsNotZero <| has bs 2 <|
  if num bs 0 1 % 2 = 1 then has bs (3 + c.nonceSize) <| need (num bs (2 + c.nonceSize) 1 < c.numSlots) .maxSlotNumberExceeded []
  else []

/-- A measurement at `i`: a digest, or raw bits. -/
def measurement (c : Cfg) (bs : Bytes) (i : Nat) : Checks ParseDmtfMeasurementError :=
  has bs (i + 1) <| need (num bs i 1 % 128 ≤ 7) .type <| has bs (i + 3) <|
  if num bs i 1 < 128 then need (num bs (i + 1) 2 ≤ c.maxDigestSize) .digestTooLargeError <| has bs (i + 3 + num bs (i + 1) 2) []
  else within .bitStream (need (num bs (i + 1) 2 ≤ c.maxMeasurementSize) .maxSizeExceeded <| has bs (i + 3 + num bs (i + 1) 2) []) []

/-- A block at `i`: its index, the specification, the size, the measurement. -/
def block (c : Cfg) (bs : Bytes) (i : Nat) : Checks ParseMeasurementBlockError :=
  has bs (i + 2) <| need (num bs (i + 1) 1 = 1) .invalidMeasurementSpec <| has bs (i + 4) <|
  within .measurement (measurement c bs (i + 4)) <|
  need (num bs (i + 2) 2 = 3 + num bs (i + 5) 2) .measurementSizeMismatch []

/-- Where it ends. -/
def blockEnd (bs : Bytes) (i : Nat) : Nat := i + 7 + num bs (i + 5) 2

/-- `n` blocks at `i`, the first of them with position `k`. -/
def blockList (c : Cfg) (bs : Bytes) : Nat → Nat → Nat → Checks ParseMeasurementBlocksError → Checks ParseMeasurementBlocksError
  | 0, _, _, rest => rest
  | n + 1, k, i, rest => within .block (block c bs i) <| orAbort (k < c.maxMeasurementBlocks) <| blockList c bs n (k + 1) (blockEnd bs i) rest

/-- Where they end. -/
def blockListEnd (bs : Bytes) : Nat → Nat → Nat
  | 0, i => i
  | n + 1, i => blockListEnd bs n (blockEnd bs i)

/-- The measurement record at `i`: the number of blocks, their size, the blocks. -/
def record (c : Cfg) (bs : Bytes) (i : Nat) : Checks ParseMeasurementBlocksError :=
  has bs (i + 4) <| need (num bs (i + 1) 3 ≤ c.maxMeasurementSize * c.maxMeasurementBlocks) .maxSizeExceeded <|
  blockList c bs (num bs i 1) 0 (i + 4) <|
  need (i + 4 + num bs (i + 1) 3 = blockListEnd bs (num bs i 1) (i + 4)) .measurementSizeMismatch []

/-- Where it ends. -/
def recordEnd (bs : Bytes) (i : Nat) : Nat := blockListEnd bs (num bs i 1) (i + 4)

/-- MEASUREMENTS, with a signature of `sig` bytes if one was asked for. -/
def measurements (c : Cfg) (signed : Bool) (sig : Nat) (bs : Bytes) : Checks ParseMeasurementsError :=
  has bs 1 <| need (num bs 0 1 ≤ c.maxMeasurementBlocks) .maxBlocksExceeded <|
  has bs 2 <| need (num bs 1 1 % 16 ≤ c.numSlots) .maxSlotNumberExceeded <|
  need (num bs 1 1 / 16 % 4 ≤ 2) .contentChanged <|
  within .blocks (record c bs 2) <|
  has bs (recordEnd bs 2 + c.nonceSize + 2) <|
  need (num bs (recordEnd bs 2 + c.nonceSize) 2 ≤ 1024) .maxOpaqueDataSizeExceeded <|
  within .opaqueData (opaqueData c bs (recordEnd bs 2 + c.nonceSize + 2)) <|
  if signed then has bs (opaqueEnd bs (recordEnd bs 2 + c.nonceSize + 2) + sig) [] else []

/-! ## ERROR -/

/-- The defined error codes. -/
def errorCodes : List Nat := [0x1, 0x3, 0x4, 0x5, 0x6, 0x7, 0x8, 0x9, 0xA, 0xB, 0xC, 0xD, 0xE, 0xF, 0x10, 0x41, 0x42, 0x43, 0xFF]

/-- ERROR: code, data, and what the code requires: a size (0x0D), a handle (0x0F), four bytes (0x42), a registry in the data byte and a vendor id with its length (0xFF). -/
def error (bs : Bytes) : Checks ParseErrorError :=
  has bs 2 <| need (num bs 0 1 ∈ errorCodes) .invalidErrorCode <|
  if num bs 0 1 = 0xD then has bs 6 [] else if num bs 0 1 = 0xF then has bs 3 [] else if num bs 0 1 = 0x42 then has bs 6 []
  else if num bs 0 1 = 0xFF then
    need (num bs 1 1 ≤ 8) .parseVendorRegistryId <| has bs 3 <| within .parseVendorId (vendorId bs 3 (num bs 2 1)) []
  else []

end Faults
end Spdm.Spec
