import Verif.Msgs.Common
import Verif.Msgs.Measurements
import Verif.Buffers
import Verif.Transcript
/-!
# Equality tests: src/msgs/common.rs, src/msgs/measurements.rs, src/transcript.rs
-/
namespace Spdm

/-- `OpaqueElement::eq`, src/msgs/common.rs 125-134; `&&` stops at the first difference. -/
def OpaqueElement.eq (a b : OpaqueElement) : Res Bool :=
  if a.registryId = b.registryId then
    if a.vendorId = b.vendorId then
      if a.dataLen = b.dataLen then do
        let x ← sliceTo a.data a.dataLen.toNat
        let y ← sliceTo b.data b.dataLen.toNat
        pure (x == y)
      else .ok false
    else .ok false
  else .ok false

/-- `==` of two arrays of elements, as derived for `OpaqueData`, src/msgs/common.rs 33-37: entry by entry up to the first difference. -/
def OpaqueData.eqElements : List OpaqueElement → List OpaqueElement → Res Bool
  | a :: as, b :: bs => do
    let e ← a.eq b
    if e then eqElements as bs else pure false
  | [], [] => .ok true
  | _, _ => .ok false

/-- The derived `OpaqueData::eq`, src/msgs/common.rs 33-37: all `MAX_OPAQUE_ELEMENTS` entries of the arrays, those not in use too. -/
def OpaqueData.eq (a b : OpaqueData) : Res Bool :=
  if a.totalElements = b.totalElements then eqElements a.elements b.elements else .ok false

/-- `BitStream`, src/msgs/measurements.rs 313-316, with the array (the messages of Msgs/Measurements.lean hold only its contents). -/
structure ArrStream where
  len : Nat
  buf : Bytes
  deriving DecidableEq, Repr

namespace ArrStream

/-- `new`, src/msgs/measurements.rs 331-335. -/
def new (c : Cfg) (data : Bytes) : Res ArrStream :=
  if data.length ≤ c.maxMeasurementSize then .ok ⟨data.length, data ++ List.replicate (c.maxMeasurementSize - data.length) 0⟩
  else .panic .indexOutOfBounds

/-- `as_slice`, src/msgs/measurements.rs 337-339. -/
def asSlice (s : ArrStream) : Res Bytes := sliceTo s.buf s.len

/-- `read`, src/msgs/measurements.rs 345-356. -/
def read (c : Cfg) (len : Nat) : R ArrStream := do
  if len > c.maxMeasurementSize then M.fail .bitStreamMaxSizeExceeded
  else
    let d ← Reader.getSlice len c.maxMeasurementSize
    pure ⟨len, zeroPad c.maxMeasurementSize d⟩

/-- `eq`, src/msgs/measurements.rs 359-363. -/
def eq (a b : ArrStream) : Res Bool :=
  if a.len = b.len then do
    let x ← a.asSlice
    let y ← b.asSlice
    pure (x == y)
  else .ok false

end ArrStream

/-- The derived `Transcript::eq`, src/transcript.rs 14-18: the whole array, then the length. -/
def Transcript.eq (a b : Transcript) : Bool := a.buf == b.buf && a.offset == b.offset

end Spdm
