import Verif.Msgs.Common
/-!
# CHALLENGE and CHALLENGE_AUTH: src/msgs/challenge.rs
-/
namespace Spdm

/-- `MAX_OPAQUE_DATA_SIZE`, src/msgs/challenge.rs 18. -/
def maxOpaqueDataSize : Nat := 1024

/-- `MeasurementHashType`, src/msgs/challenge.rs 23-27. -/
inductive MeasurementHashType
  | none | tcb | all
  deriving DecidableEq, Repr

namespace MeasurementHashType
/-- `as u8`, src/msgs/challenge.rs 24-26. -/
def toU8 : MeasurementHashType → UInt8
  | none => 0 | tcb => 1 | all => 0xFF

/-- `try_from`, src/msgs/challenge.rs 35-42. -/
def tryFrom (b : UInt8) : Res MeasurementHashType :=
  if b = 0 then .ok none else if b = 1 then .ok tcb else if b = 0xFF then .ok all
  else .err .invalidMeasurementHashType
end MeasurementHashType

/-- `Challenge`, src/msgs/challenge.rs 65-69.  The nonce is its bytes. -/
structure Challenge where
  slot : UInt8
  measurementHashType : MeasurementHashType
  nonce : Bytes
  deriving DecidableEq, Repr

namespace Challenge
/-- `write_body`, src/msgs/challenge.rs 84-88. -/
def writeBody (m : Challenge) : W Nat := do
  let _ ← Writer.put m.slot
  let _ ← Writer.put m.measurementHashType.toU8
  Writer.extend m.nonce

/-- `parse_body` as a reader action, src/msgs/challenge.rs 94-97. -/
def read (c : Cfg) : R Challenge := do
  let slot ← Reader.getByte
  let b ← Reader.getByte
  let t ← M.lift (MeasurementHashType.tryFrom b)
  let nonce ← Nonce.read c
  pure ⟨slot, t, nonce⟩

/-- `parse_body`, src/msgs/challenge.rs 92-98. -/
def parseBody (c : Cfg) (buf : Bytes) : Res Challenge := (read c (Reader.new buf)).1
end Challenge

/-- `ChallengeAuth`, src/msgs/challenge.rs 143-154.  Digest, nonce and signature buffers are modelled by
their valid bytes. -/
structure ChallengeAuth where
  slot : UInt8
  slotMask : UInt8
  useMutualAuth : Bool
  certChainHash : Bytes
  nonce : Bytes
  measurementSummaryHash : Bytes
  opaqueData : OpaqueData
  signature : Bytes
  deriving DecidableEq, Repr

namespace ChallengeAuth

/-- `validate`, src/msgs/challenge.rs 185-194. -/
def validate (c : Cfg) (m : ChallengeAuth) : Res Unit :=
  if m.slot.toNat ≥ c.numSlots then .err .maxSlotNumberExceeded
  else do
    let n ← m.opaqueData.serializedSize
    if n > maxOpaqueDataSize then .err .maxOpaqueDataSizeExceeded else .ok ()

/-- `new`, src/msgs/challenge.rs 196-221: the `try_into().unwrap()`s. -/
def new (c : Cfg) (slot slotMask : UInt8) (useMutualAuth : Bool) (certChainDigest nonce
    measurementSummaryDigest : Bytes) (opaqueData : OpaqueData) (sig : Bytes) :
    Res ChallengeAuth :=
  if certChainDigest.length ≤ c.maxDigestSize ∧ measurementSummaryDigest.length ≤ c.maxDigestSize
      ∧ sig.length ≤ c.maxSignatureSize then
    .ok ⟨slot, slotMask, useMutualAuth, certChainDigest, nonce, measurementSummaryDigest,
      opaqueData, sig⟩
  else .panic .unwrapNone

/-- `write_body`, src/msgs/challenge.rs 163-181. -/
def writeBody (c : Cfg) (m : ChallengeAuth) : W Nat := do
  M.lift (m.validate c)
  let _ ← Writer.put (if m.useMutualAuth then m.slot &&& ((1 : UInt8) <<< 7) else m.slot)
  let _ ← Writer.put m.slotMask
  let _ ← Writer.extend m.certChainHash
  let _ ← Writer.extend m.nonce
  let _ ← Writer.extend m.measurementSummaryHash
  let n ← M.lift m.opaqueData.serializedSize
  let _ ← Writer.putU16 (UInt16.ofNat n)
  let _ ← m.opaqueData.write
  let _ ← Writer.extend m.signature
  Writer.offsetM

/-- `parse_body` as a reader action, src/msgs/challenge.rs 231-260. -/
def read (c : Cfg) (digestSize sigSize : Nat) : R ChallengeAuth := do
  let slot ← Reader.getBits 4
  if slot.toNat > c.numSlots then M.fail .maxOpaqueDataSizeExceeded
  else
    let _ ← Reader.getBits 3
    let bit ← Reader.getBit
    let mask ← Reader.getByte
    let cch ← Reader.getSlice digestSize digestSize
    let nonce ← Nonce.read c
    let msh ← Reader.getSlice digestSize digestSize
    let olen ← Reader.getU16
    if olen.toNat > maxOpaqueDataSize then M.fail .maxOpaqueDataSizeExceeded
    else
      let od ← OpaqueData.read c
      let sig ← Reader.getSlice sigSize sigSize
      pure ⟨slot, mask, bit == 1, cch, nonce, msh, od, sig⟩

/-- `parse_body`, src/msgs/challenge.rs 226-261. -/
def parseBody (c : Cfg) (buf : Bytes) (digestSize sigSize : Nat) : Res ChallengeAuth :=
  (read c digestSize sigSize (Reader.new buf)).1

end ChallengeAuth
end Spdm
