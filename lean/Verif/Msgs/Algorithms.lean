import Verif.Msgs.Header
/-!
# NEGOTIATE_ALGORITHMS and ALGORITHMS: src/msgs/algorithms.rs
-/
namespace Spdm

namespace BaseAsymAlgo
/-! `BaseAsymAlgo`, src/msgs/algorithms.rs 16-26. -/
/-- `RSASSA_2048`, src/msgs/algorithms.rs 17. -/
def rsassa2048 : UInt32 := 0x1
/-- `RSAPSS_2048`, src/msgs/algorithms.rs 18. -/
def rsapss2048 : UInt32 := 0x2
/-- `RSASSA_3072`, src/msgs/algorithms.rs 19. -/
def rsassa3072 : UInt32 := 0x4
/-- `RSAPSS_3072`, src/msgs/algorithms.rs 20. -/
def rsapss3072 : UInt32 := 0x8
/-- `ECDSA_ECC_NIST_P256`, src/msgs/algorithms.rs 21. -/
def ecdsaP256 : UInt32 := 0x10
/-- `RSASSA_4096`, src/msgs/algorithms.rs 22. -/
def rsassa4096 : UInt32 := 0x20
/-- `RSAPSS_4096`, src/msgs/algorithms.rs 23. -/
def rsapss4096 : UInt32 := 0x40
/-- `ECDSA_ECC_NIST_P384`, src/msgs/algorithms.rs 24. -/
def ecdsaP384 : UInt32 := 0x80
/-- `ECDSA_ECC_NIST_P521`, src/msgs/algorithms.rs 25. -/
def ecdsaP521 : UInt32 := 0x100
/-- `BaseAsymAlgo::all()`.  src/msgs/algorithms.rs 16-26. -/
def all : UInt32 :=
  rsassa2048 ||| rsapss2048 ||| rsassa3072 ||| rsapss3072 ||| ecdsaP256 ||| rsassa4096 |||
  rsapss4096 ||| ecdsaP384 ||| ecdsaP521

/-- `SignatureSize::try_from`, src/msgs/common.rs 427-436. -/
def checkedSignatureSize (c : Cfg) (n : Nat) : Res Nat :=
  if n ≤ c.maxSignatureSize then .ok n else .panic .unwrapNone

/-- `get_signature_size`, src/msgs/algorithms.rs 31-43. -/
def getSignatureSize (c : Cfg) (a : UInt32) : Res Nat :=
  if a = rsassa2048 ∨ a = rsapss2048 then checkedSignatureSize c 256
  else if a = rsassa3072 ∨ a = rsapss3072 then checkedSignatureSize c 384
  else if a = ecdsaP256 then checkedSignatureSize c 64
  else if a = rsassa4096 ∨ a = rsapss4096 then checkedSignatureSize c 512
  else if a = ecdsaP384 then checkedSignatureSize c 96
  else if a = ecdsaP521 then checkedSignatureSize c 132
  else .panic .unreachable

/-- `from_str`, src/msgs/algorithms.rs 51-67. -/
def fromStr (s : String) : Res UInt32 :=
  match s with
  | "RSASSA_2048" => .ok rsassa2048
  | "RSAPSS_2048" => .ok rsapss2048
  | "RSASSA_3072" => .ok rsassa3072
  | "RSAPSS_3072" => .ok rsapss3072
  | "ECDSA_ECC_NIST_P256" => .ok ecdsaP256
  | "RSASSA_4096" => .ok rsassa4096
  | "RSAPSS_4096" => .ok rsapss4096
  | "ECDSA_ECC_NIST_P384" => .ok ecdsaP384
  | "ECDSA_ECC_NIST_P521" => .ok ecdsaP521
  | _ => .err .parseName
end BaseAsymAlgo

namespace BaseHashAlgo
/-! `BaseHashAlgo`, src/msgs/algorithms.rs 73-80. -/
/-- `SHA_256`, src/msgs/algorithms.rs 74. -/
def sha256 : UInt32 := 0x1
/-- `SHA_384`, src/msgs/algorithms.rs 75. -/
def sha384 : UInt32 := 0x2
/-- `SHA_512`, src/msgs/algorithms.rs 76. -/
def sha512 : UInt32 := 0x4
/-- `SHA3_256`, src/msgs/algorithms.rs 77. -/
def sha3_256 : UInt32 := 0x8
/-- `SHA3_384`, src/msgs/algorithms.rs 78. -/
def sha3_384 : UInt32 := 0x10
/-- `SHA3_512`, src/msgs/algorithms.rs 79. -/
def sha3_512 : UInt32 := 0x20
/-- `BaseHashAlgo::all()`.  src/msgs/algorithms.rs 73-80. -/
def all : UInt32 := sha256 ||| sha384 ||| sha512 ||| sha3_256 ||| sha3_384 ||| sha3_512

/-- `DigestSize::try_from`, src/msgs/common.rs 344-353, unwrapped. -/
def checkedDigestSize (c : Cfg) (n : Nat) : Res Nat :=
  if n ≤ c.maxDigestSize then .ok n else .panic .unwrapNone

/-- `get_digest_size`, src/msgs/algorithms.rs 85-94. -/
def getDigestSize (c : Cfg) (h : UInt32) : Res Nat :=
  if h = sha256 ∨ h = sha3_256 then checkedDigestSize c 32
  else if h = sha384 ∨ h = sha3_384 then checkedDigestSize c 48
  else if h = sha512 ∨ h = sha3_512 then checkedDigestSize c 64
  else .panic .unreachable

/-- `from_str`, src/msgs/algorithms.rs 102-115. -/
def fromStr (s : String) : Res UInt32 :=
  match s with
  | "SHA_256" => .ok sha256
  | "SHA_384" => .ok sha384
  | "SHA_512" => .ok sha512
  | "SHA3_256" => .ok sha3_256
  | "SHA3_384" => .ok sha3_384
  | "SHA3_512" => .ok sha3_512
  | _ => .err .parseName
end BaseHashAlgo

/-- `MeasurementSpec::all()` (only DMTF), src/msgs/algorithms.rs 123-125. -/
def measurementSpecDmtf : UInt8 := 0x1

/-- The four algorithm structures of `AlgorithmRequest`, src/msgs/algorithms.rs 151, 174, 203, 221. -/
inductive AlgKind
  | dhe | aead | reqBaseAsym | keySchedule
  deriving DecidableEq, Repr

namespace AlgKind
/-- `AlgorithmConstants::TYPE`, src/msgs/algorithms.rs 156, 179, 208, 226. -/
def type : AlgKind → UInt8
  | dhe => 2 | aead => 3 | reqBaseAsym => 4 | keySchedule => 5

/-- `AlgorithmConstants::FIXED_ALG_COUNT`, src/msgs/algorithms.rs 157, 180, 209, 227. -/
def fixedAlgCount : AlgKind → UInt8
  | _ => 2

/-- The defined bits of the four `*FixedAlgorithms` types, src/msgs/algorithms.rs 137-144, 163-167,
186-196, 214-216. -/
def mask : AlgKind → UInt16
  | dhe => 0x3F | aead => 0x7 | reqBaseAsym => 0x1FF | keySchedule => 0x1

/-- The `match` on the type byte, src/msgs/algorithms.rs 307-308, 325, 342, 362, 382. -/
def ofType (b : UInt8) : Option AlgKind :=
  if b = 2 then some dhe
  else if b = 3 then some aead
  else if b = 4 then some reqBaseAsym
  else if b = 5 then some keySchedule
  else none
end AlgKind

/-- `AlgorithmRequest` (= `AlgorithmResponse`), src/msgs/algorithms.rs 232-237, 583: a kind and the
`supported` bits. -/
structure AlgorithmRequest where
  kind : AlgKind
  supported : UInt16
  deriving DecidableEq, Repr

namespace AlgorithmRequest
/-- `default`, src/msgs/algorithms.rs 240-244. -/
def dflt : AlgorithmRequest := ⟨.dhe, 0⟩

/-- `fixed_algo_count`, src/msgs/algorithms.rs 263-274. -/
def fixedAlgoCount (a : AlgorithmRequest) : UInt8 := a.kind.fixedAlgCount

/-- `write`, src/msgs/algorithms.rs 277-301 (the four match arms are the same code). -/
def write (a : AlgorithmRequest) : W Nat := do
  let _ ← Writer.put a.kind.type
  let _ ← Writer.put (a.kind.fixedAlgCount <<< 4)
  Writer.putU16 a.supported

/-- `read`, src/msgs/algorithms.rs 304-384 (the four match arms are the same code). -/
def read : R AlgorithmRequest := do
  let ty ← Reader.getByte
  match AlgKind.ofType ty with
  | some k =>
    let extCount ← Reader.getBits 4
    let fixedCount ← Reader.getBits 4
    if fixedCount ≠ k.fixedAlgCount then M.fail .incorrectFixedAlgCount
    else
      let s ← Reader.getU16
      let s ← M.lift (fromBits16 k.mask s .invalidFixedAlgorithm)
      Reader.skipIgnored (4 * extCount.toNat)
      pure ⟨k, s⟩
  | none => M.fail .invalidAlgorithmType
end AlgorithmRequest

/-- `MAX_ALGORITHM_REQUESTS`, src/msgs/algorithms.rs 411. -/
def maxAlgorithmRequests : Nat := 4

/-- `NegotiateAlgorithms`, src/msgs/algorithms.rs 419-425. -/
structure NegotiateAlgorithms where
  measurementSpec : UInt8
  baseAsymAlgo : UInt32
  baseHashAlgo : UInt32
  numAlgorithmRequests : UInt8
  algorithmRequests : List AlgorithmRequest
  deriving DecidableEq, Repr

/-- The loop writing algorithm structures, src/msgs/algorithms.rs 541-544, 719-722. -/
def writeAlgs (algs : List AlgorithmRequest) : Nat → Nat → W Nat
  | 0, _ => Writer.offsetM
  | n + 1, i => do
    let a ← M.lift (index algs i)
    let _ ← a.write
    writeAlgs algs n (i + 1)

/-- The fold of `msg_length`, src/msgs/algorithms.rs 530-534, 708-712. -/
def algsLength (start : UInt16) (algs : List AlgorithmRequest) : UInt16 :=
  algs.foldl (fun acc a => acc + 2 + a.fixedAlgoCount.toUInt16) start

namespace NegotiateAlgorithms

/-- `msg_length`, src/msgs/algorithms.rs 529-535. -/
def msgLength (m : NegotiateAlgorithms) : Res UInt16 := do
  let algs ← sliceTo m.algorithmRequests m.numAlgorithmRequests.toNat
  pure (algsLength 32 algs)

/-- `write_body`, src/msgs/algorithms.rs 436-449. -/
def writeBody (m : NegotiateAlgorithms) : W Nat := do
  let _ ← Writer.put m.numAlgorithmRequests
  let _ ← Writer.putReserved 1
  let len ← M.lift m.msgLength
  let _ ← Writer.putU16 len
  let _ ← Writer.put m.measurementSpec
  let _ ← Writer.putReserved 1
  let _ ← Writer.putU32 m.baseAsymAlgo
  let _ ← Writer.putU32 m.baseHashAlgo
  let _ ← Writer.putReserved 12
  let _ ← Writer.put 0
  let _ ← Writer.put 0
  let _ ← Writer.putReserved 2
  writeAlgs m.algorithmRequests m.numAlgorithmRequests.toNat 0

/-- `ParseNegotiateAlgorithmsError::from(ParseAlgorithmRequestError)`, src/msgs/algorithms.rs 399-409: read
errors inside an algorithm structure stay distinguishable from other read errors. -/
def wrapAlgorithmRequestError : Err → Err
  | .read e => .algorithmRequestRead e
  | e => e

/-- `read_algorithm_requests`, src/msgs/algorithms.rs 518-527. -/
def readRequests : Nat → Nat → List AlgorithmRequest → R (List AlgorithmRequest)
  | 0, _, rs => pure rs
  | n + 1, i, rs => do
    let a ← M.mapErr wrapAlgorithmRequestError AlgorithmRequest.read
    let rs ← M.lift (setIndex rs i a)
    readRequests n (i + 1) rs

/-- `parse_body` as a reader action, src/msgs/algorithms.rs 457-515. -/
def read : R NegotiateAlgorithms := do
  let num ← Reader.getByte
  if num.toNat > maxAlgorithmRequests then M.fail .maxAlgorithmRequestsExceeded
  else
    Reader.skipReserved 1
    let length ← Reader.getU16
    if length > 128 then M.fail .tooLarge
    else
      let spec ← Reader.getByte
      let spec ← M.lift (fromBits8 measurementSpecDmtf spec .invalidMeasurementSpec)
      Reader.skipReserved 1
      let asym ← Reader.getU32
      let asym ← M.lift (fromBits32 BaseAsymAlgo.all asym .invalidBaseAsymAlgo)
      let hash ← Reader.getU32
      let hash ← M.lift (fromBits32 BaseHashAlgo.all hash .invalidBaseHashAlgo)
      Reader.skipReserved 12
      let extAsym ← Reader.getByte
      let extHash ← Reader.getByte
      Reader.skipReserved 2
      Reader.skipIgnored (extAsym.toNat * 4)
      Reader.skipIgnored (extHash.toNat * 4)
      let rs ← readRequests num.toNat 0
        (List.replicate maxAlgorithmRequests AlgorithmRequest.dflt)
      pure ⟨spec, asym, hash, num, rs⟩

/-- `parse_body`, src/msgs/algorithms.rs 453-516. -/
def parseBody (buf : Bytes) : Res NegotiateAlgorithms := (read (Reader.new buf)).1

end NegotiateAlgorithms

/-- `Algorithms`, src/msgs/algorithms.rs 595-602. -/
structure Algorithms where
  measurementSpecSelected : UInt8
  measurementHashAlgoSelected : UInt32
  baseAsymAlgoSelected : UInt32
  baseHashAlgoSelected : UInt32
  numAlgorithmResponses : UInt8
  algorithmResponses : List AlgorithmRequest
  deriving DecidableEq, Repr

namespace Algorithms

/-- `msg_length`, src/msgs/algorithms.rs 707-713. -/
def msgLength (m : Algorithms) : Res UInt16 := do
  let algs ← sliceTo m.algorithmResponses m.numAlgorithmResponses.toNat
  pure (algsLength 36 algs)

/-- `write_body`, src/msgs/algorithms.rs 613-631. -/
def writeBody (m : Algorithms) : W Nat := do
  let _ ← Writer.put m.numAlgorithmResponses
  let _ ← Writer.putReserved 1
  let len ← M.lift m.msgLength
  let _ ← Writer.putU16 len
  let _ ← Writer.put m.measurementSpecSelected
  let _ ← Writer.putReserved 1
  let _ ← Writer.putU32 m.measurementHashAlgoSelected
  let _ ← Writer.putU32 m.baseAsymAlgoSelected
  let _ ← Writer.putU32 m.baseHashAlgoSelected
  let _ ← Writer.putReserved 12
  let _ ← Writer.put 0
  let _ ← Writer.put 0
  let _ ← Writer.putReserved 2
  writeAlgs m.algorithmResponses m.numAlgorithmResponses.toNat 0

/-- The error of `ensure_only_one_bit_set` per kind, src/msgs/algorithms.rs 741-766. -/
def moreThanOne : AlgKind → Err
  | .dhe => .moreThanOneDheAlgoSelected
  | .aead => .moreThanOneAeadAlgoSelected
  | .reqBaseAsym => .moreThanOneRspBaseAsymAlgoSelected
  | .keySchedule => .moreThanOneKeySchedule

/-- `ensure_only_one_bit_set`, src/msgs/algorithms.rs 737-769. -/
def ensureOnlyOneBitSet (a : AlgorithmRequest) : Res Unit :=
  if countOnes a.supported.toNat 16 ≠ 1 then .err (moreThanOne a.kind) else .ok ()

/-- `read_algorithm_responses`, src/msgs/algorithms.rs 725-735. -/
def readResponses : Nat → Nat → List AlgorithmRequest → R (List AlgorithmRequest)
  | 0, _, rs => pure rs
  | n + 1, i, rs => do
    let a ← AlgorithmRequest.read
    let rs ← M.lift (setIndex rs i a)
    M.lift (ensureOnlyOneBitSet a)
    readResponses n (i + 1) rs

/-- `parse_body` as a reader action, src/msgs/algorithms.rs 637-704. -/
def read : R Algorithms := do
  let num ← Reader.getByte
  if num.toNat > maxAlgorithmRequests then M.fail .maxAlgorithmResponsesExceeded
  else
    Reader.skipReserved 1
    let _length ← Reader.getU16
    let spec ← Reader.getByte
    let spec ← M.lift (fromBits8 measurementSpecDmtf spec .invalidMeasurementSpecSelected)
    if countOnes spec.toNat 8 ≠ 1 then M.fail .moreThanOneMeasurementSpecSelected
    else
      Reader.skipReserved 1
      let mh ← Reader.getU32
      let mh ← M.lift (fromBits32 BaseHashAlgo.all mh .invalidMeasurementHashAlgoSelected)
      if countOnes mh.toNat 32 ≠ 1 then M.fail .moreThanOneMeasurementHashAlgoSelected
      else
        let asym ← Reader.getU32
        let asym ← M.lift (fromBits32 BaseAsymAlgo.all asym .invalidBaseAsymAlgoSelected)
        if countOnes asym.toNat 32 ≠ 1 then M.fail .moreThanOneBaseAsymAlgoSelected
        else
          let hash ← Reader.getU32
          let hash ← M.lift (fromBits32 BaseHashAlgo.all hash .invalidBaseHashAlgoSelected)
          if countOnes hash.toNat 32 ≠ 1 then M.fail .moreThanOneBaseHashAlgoSelected
          else
            Reader.skipReserved 12
            Reader.skipReserved 1
            Reader.skipReserved 1
            Reader.skipReserved 2
            let rs ← readResponses num.toNat 0
              (List.replicate maxAlgorithmRequests AlgorithmRequest.dflt)
            pure ⟨spec, mh, asym, hash, num, rs⟩

/-- `parse_body`, src/msgs/algorithms.rs 635-705. -/
def parseBody (buf : Bytes) : Res Algorithms := (read (Reader.new buf)).1

end Algorithms
end Spdm
