import Verif.Msgs.Common
import Verif.Msgs.Algorithms
import Verif.Msgs.Challenge
/-!
# GET_MEASUREMENTS and MEASUREMENTS: src/msgs/measurements.rs
-/
namespace Spdm

/-- `RequestAttributes`, src/msgs/measurements.rs 19-23. -/
structure RequestAttributes where
  signatureRequested : Bool
  rawBitStreamRequested : Bool
  deriving DecidableEq, Repr

/-- `u8::from(&RequestAttributes)`, src/msgs/measurements.rs 25-36. -/
def RequestAttributes.toU8 (a : RequestAttributes) : UInt8 :=
  (if a.signatureRequested then 0x1 else 0) ||| (if a.rawBitStreamRequested then 0x2 else 0)

/-- `MeasurementIndex`, src/msgs/measurements.rs 39-56. -/
inductive MeasurementIndex
  | totalNumberOfMeasurementsAvailable
  | allMeasurements
  | implementationDefined (i : UInt8)
  | reserved (i : UInt8)
  | measurementManifest
  | deviceMode
  deriving DecidableEq, Repr

namespace MeasurementIndex
/-- `From<u8>`, src/msgs/measurements.rs 58-71. -/
def ofU8 (v : UInt8) : MeasurementIndex :=
  if v = 0 then totalNumberOfMeasurementsAvailable
  else if v = 0xFF then allMeasurements
  else if 0x01 ≤ v ∧ v ≤ 0xEF then implementationDefined v
  else if 0xF0 ≤ v ∧ v ≤ 0xFC then reserved v
  else if v = 0xFD then measurementManifest
  else deviceMode

/-- `TryFrom<&MeasurementIndex> for u8`, src/msgs/measurements.rs 79-104. -/
def toU8 : MeasurementIndex → Res UInt8
  | totalNumberOfMeasurementsAvailable => .ok 0
  | allMeasurements => .ok 0xFF
  | implementationDefined i =>
    if i < 0x1 ∨ i > 0xEF then .err .invalidImplementationDefinedIndex else .ok i
  | reserved i => if i < 0xF0 ∨ i > 0xFC then .err .invalidReservedIndex else .ok i
  | measurementManifest => .ok 0xFD
  | deviceMode => .ok 0xFE
end MeasurementIndex

/-- `GetMeasurements`, src/msgs/measurements.rs 140-153. -/
structure GetMeasurements where
  attributes : RequestAttributes
  index : MeasurementIndex
  nonce : Option Bytes
  slotId : UInt8
  deriving DecidableEq, Repr

namespace GetMeasurements

/-- `new`, src/msgs/measurements.rs 156-167; `freshNonce` stands for `Nonce::new()`. -/
def new (c : Cfg) (attributes : RequestAttributes) (index : MeasurementIndex) (slotId : UInt8)
    (freshNonce : Bytes) : Res GetMeasurements :=
  if slotId.toNat < c.numSlots then
    .ok ⟨attributes, index, if attributes.signatureRequested then some freshNonce else none, slotId⟩
  else .panic .assertion

/-- `write_body`, src/msgs/measurements.rs 177-191. -/
def writeBody (m : GetMeasurements) : W Nat := do
  let _ ← Writer.put m.attributes.toU8
  let i ← M.lift m.index.toU8
  let _ ← Writer.put i
  if m.attributes.signatureRequested then
    match m.nonce with
    | none => M.die .unwrapNone
    | some n =>
      let _ ← Writer.extend n
      let _ ← Writer.put m.slotId
      Writer.offsetM
  else Writer.offsetM

/-- `parse_body` as a reader action, src/msgs/measurements.rs 199-223. -/
def read (c : Cfg) : R GetMeasurements := do
  let sig ← Reader.getBit
  let raw ← Reader.getBit
  let rsvd ← Reader.getBits 6
  if rsvd ≠ 0 then M.fail .reservedBitsNotZero
  else
    let i ← Reader.getByte
    if sig = 1 then
      let nonce ← Nonce.read c
      let slot ← Reader.getByte
      if slot.toNat ≥ c.numSlots then M.fail .maxSlotNumberExceeded
      else pure ⟨⟨sig == 1, raw == 1⟩, MeasurementIndex.ofU8 i, some nonce, slot⟩
    else pure ⟨⟨sig == 1, raw == 1⟩, MeasurementIndex.ofU8 i, none, 0⟩

/-- `parse_body`, src/msgs/measurements.rs 195-224. -/
def parseBody (c : Cfg) (buf : Bytes) : Res GetMeasurements := (read c (Reader.new buf)).1

end GetMeasurements

/-- `ContentChanged`, src/msgs/measurements.rs 229-236. -/
inductive ContentChanged
  | notSupported | true | false
  deriving DecidableEq, Repr

/-- `try_from`, src/msgs/measurements.rs 243-250. -/
def ContentChanged.tryFrom (v : UInt8) : Res ContentChanged :=
  if v = 0 then .ok .notSupported else if v = 1 then .ok .true else if v = 2 then .ok .false
  else .err .parseContentChanged

/-- `DmtfMeasurementValueRepresentation`, src/msgs/measurements.rs 256-259. -/
inductive ValueRepresentation
  | digest | rawBitStream
  deriving DecidableEq, Repr

namespace ValueRepresentation
/-- `as u8`, src/msgs/measurements.rs 257-258. -/
def toU8 : ValueRepresentation → UInt8
  | digest => 0x00 | rawBitStream => 0x80
/-- `try_from`, src/msgs/measurements.rs 266-272. -/
def tryFrom (v : UInt8) : Res ValueRepresentation :=
  if v = 0x00 then .ok digest else if v = 0x80 then .ok rawBitStream
  else .err .parseValueRepresentation
end ValueRepresentation

/-- `DmtfMeasurementValueType`, src/msgs/measurements.rs 279-288. -/
inductive ValueType
  | immutableRom | mutableFirmware | hardwareConfig | firmwareConfig
  | measurementManifest | deviceMode | mutableFirmwareVersion | mutableFirmwareSecurityVersion
  deriving DecidableEq, Repr

namespace ValueType
/-- `as u8`, src/msgs/measurements.rs 280-287. -/
def toU8 : ValueType → UInt8
  | immutableRom => 0 | mutableFirmware => 1 | hardwareConfig => 2 | firmwareConfig => 3
  | measurementManifest => 4 | deviceMode => 5 | mutableFirmwareVersion => 6
  | mutableFirmwareSecurityVersion => 7
/-- `try_from`, src/msgs/measurements.rs 296-308. -/
def tryFrom (v : UInt8) : Res ValueType :=
  if v = 0 then .ok immutableRom else if v = 1 then .ok mutableFirmware
  else if v = 2 then .ok hardwareConfig else if v = 3 then .ok firmwareConfig
  else if v = 4 then .ok measurementManifest else if v = 5 then .ok deviceMode
  else if v = 6 then .ok mutableFirmwareVersion
  else if v = 7 then .ok mutableFirmwareSecurityVersion
  else .err .parseValueType
end ValueType

/-- `DmtfMeasurementValue`, src/msgs/measurements.rs 369-372.  `DigestBuf` and `BitStream` are modelled by
their valid bytes (equality: src/msgs/common.rs 405-409, src/msgs/measurements.rs 359-363). -/
inductive MeasurementValue
  | digest (bs : Bytes)
  | bitStream (bs : Bytes)
  deriving DecidableEq, Repr

/-- The bytes of a value, src/msgs/measurements.rs 374-388. -/
def MeasurementValue.bytes : MeasurementValue → Bytes
  | digest bs => bs
  | bitStream bs => bs

/-- `DmtfMeasurement`, src/msgs/measurements.rs 427-431. -/
structure DmtfMeasurement where
  valueRepresentation : ValueRepresentation
  valueType : ValueType
  value : MeasurementValue
  deriving DecidableEq, Repr

/-- `usize::try_into().unwrap()` to `u16`.  For example src/msgs/measurements.rs 487, 553. -/
def toU16Unwrap (n : Nat) : Res UInt16 :=
  if n < 65536 then .ok (UInt16.ofNat n) else .panic .unwrapNone

namespace DmtfMeasurement
/-- `serialized_size`, src/msgs/measurements.rs 475-477. -/
def serializedSize (m : DmtfMeasurement) : Nat := 3 + m.value.bytes.length

/-- `write`, src/msgs/measurements.rs 479-489. -/
def write (m : DmtfMeasurement) : W Nat := do
  let _ ← Writer.put (m.valueRepresentation.toU8 ||| m.valueType.toU8)
  let n ← M.lift (toU16Unwrap m.value.bytes.length)
  let _ ← Writer.putU16 n
  Writer.extend m.value.bytes

/-- `read`, src/msgs/measurements.rs 491-511 (with `BitStream::read`, 345-356). -/
def read (c : Cfg) : R DmtfMeasurement := do
  let v ← Reader.getByte
  let ty ← M.lift (ValueType.tryFrom (v &&& 0x7f))
  let rep ← M.lift (ValueRepresentation.tryFrom (v &&& 0x80))
  let size ← Reader.getU16
  match rep with
  | .digest =>
    if size.toNat ≤ c.maxDigestSize then
      let d ← Reader.getSlice size.toNat size.toNat
      pure ⟨rep, ty, .digest d⟩
    else M.fail .digestTooLarge
  | .rawBitStream =>
    if size.toNat > c.maxMeasurementSize then M.fail .bitStreamMaxSizeExceeded
    else
      let d ← Reader.getSlice size.toNat c.maxMeasurementSize
      pure ⟨rep, ty, .bitStream d⟩
end DmtfMeasurement

/-- `MeasurementBlock`, src/msgs/measurements.rs 516-520. -/
structure MeasurementBlock where
  index : UInt8
  measurementSpecSelected : UInt8
  measurement : DmtfMeasurement
  deriving DecidableEq, Repr

namespace MeasurementBlock
/-- `serialized_size`, src/msgs/measurements.rs 546-548. -/
def serializedSize (b : MeasurementBlock) : Nat := 4 + b.measurement.serializedSize

/-- `write`, src/msgs/measurements.rs 550-555. -/
def write (b : MeasurementBlock) : W Nat := do
  let _ ← Writer.put b.index
  let _ ← Writer.put b.measurementSpecSelected
  let n ← M.lift (toU16Unwrap b.measurement.serializedSize)
  let _ ← Writer.putU16 n
  b.measurement.write

/-- `read`, src/msgs/measurements.rs 557-581. -/
def read (c : Cfg) : R MeasurementBlock := do
  let index ← Reader.getByte
  let spec ← Reader.getByte
  if spec ≠ measurementSpecDmtf then M.fail .blockInvalidMeasurementSpec
  else
    let size ← Reader.getU16
    let r ← M.get
    let offset := r.byteOffset
    let m ← DmtfMeasurement.read c
    let r ← M.get
    if size.toNat ≠ r.byteOffset - offset then M.fail .blockSizeMismatch
    else pure ⟨index, measurementSpecDmtf, m⟩
end MeasurementBlock

/-- `MeasurementBlocks`, src/msgs/measurements.rs 623-626; `blocks` has `MAX_MEASUREMENT_BLOCKS` entries. -/
structure MeasurementBlocks where
  len : Nat
  blocks : List (Option MeasurementBlock)
  deriving DecidableEq, Repr

namespace MeasurementBlocks
/-- `default`, src/msgs/measurements.rs 628-636. -/
def dflt (c : Cfg) : MeasurementBlocks := ⟨0, List.replicate c.maxMeasurementBlocks none⟩

/-- The fold of `serialized_size`, src/msgs/measurements.rs 646-650, on the slice of `as_slice`. -/
def sumSizes : List (Option MeasurementBlock) → Res Nat
  | [] => .ok 0
  | none :: _ => .panic .unwrapNone
  | some b :: bs => do
    let n ← sumSizes bs
    pure (b.serializedSize + n)

/-- `serialized_size`, src/msgs/measurements.rs 642-650. -/
def serializedSize (m : MeasurementBlocks) : Res Nat := do
  let s ← sliceTo m.blocks m.len
  sumSizes s

/-- The loop of src/msgs/measurements.rs 656-658. -/
def writeLoop (blocks : List (Option MeasurementBlock)) : Nat → Nat → W Nat
  | 0, _ => Writer.offsetM
  | n + 1, i => do
    let b ← M.lift (index blocks i)
    match b with
    | none => M.die .unwrapNone
    | some b =>
      let _ ← b.write
      writeLoop blocks n (i + 1)

/-- `write`, src/msgs/measurements.rs 653-660. -/
def write (m : MeasurementBlocks) : W Nat := do
  let n ← M.lift (if m.len < 256 then Res.ok (UInt8.ofNat m.len) else Res.panic .unwrapNone)
  let _ ← Writer.put n
  let size ← M.lift m.serializedSize
  let _ ← Writer.putU24 size
  writeLoop m.blocks m.len 0

/-- The loop of src/msgs/measurements.rs 674-677. -/
def readLoop (c : Cfg) : Nat → Nat → List (Option MeasurementBlock) →
    R (List (Option MeasurementBlock))
  | 0, _, bs => pure bs
  | n + 1, i, bs => do
    let b ← MeasurementBlock.read c
    let bs ← M.lift (setIndex bs i (some b))
    readLoop c n (i + 1) bs

/-- `read`, src/msgs/measurements.rs 662-685. -/
def read (c : Cfg) : R MeasurementBlocks := do
  let num ← Reader.getByte
  let size ← Reader.getU24
  if size > c.maxMeasurementSize * c.maxMeasurementBlocks then M.fail .blocksMaxSizeExceeded
  else
    let r ← M.get
    let offset := r.byteOffset
    let bs ← readLoop c num.toNat 0 (dflt c).blocks
    let r ← M.get
    if size ≠ r.byteOffset - offset then M.fail .blocksSizeMismatch
    else pure ⟨num.toNat, bs⟩
end MeasurementBlocks

/-- `Measurements`, src/msgs/measurements.rs 724-742. -/
structure Measurements where
  totalBlocks : UInt8
  contentChanged : ContentChanged
  slotId : UInt8
  blocks : MeasurementBlocks
  nonce : Bytes
  opaqueData : OpaqueData
  signature : Option Bytes
  deriving DecidableEq, Repr

namespace Measurements

/-- The byte built by `write_param2`, src/msgs/measurements.rs 796-804. -/
def param2 (m : Measurements) : UInt8 :=
  (match m.contentChanged with
    | .true => (1 : UInt8) <<< 4
    | .false => (1 : UInt8) <<< 5
    | .notSupported => 0) |||
  (if m.signature.isSome then m.slotId else 0)

/-- `write_body`, src/msgs/measurements.rs 864-882. -/
def writeBody (m : Measurements) : W Nat := do
  let _ ← Writer.put m.totalBlocks
  let _ ← Writer.put m.param2
  let _ ← m.blocks.write
  let _ ← Writer.extend m.nonce
  let n ← M.lift m.opaqueData.serializedSize
  let n ← M.lift (toU16Unwrap n)
  let _ ← Writer.putU16 n
  let _ ← m.opaqueData.write
  match m.signature with
  | none => Writer.offsetM
  | some s => Writer.extend s

/-- `let _ = r.get_bits(2);` (src/msgs/measurements.rs 828): the result, even an error, is dropped. -/
def dropResult {α : Type} (m : R α) : R Unit := fun r =>
  match m r with
  | (.panic k, r') => (.panic k, r')
  | (_, r') => (.ok (), r')

/-- `parse_body` as a reader action, src/msgs/measurements.rs 815-853. -/
def read (c : Cfg) (signatureRequested : Bool) (sigSize : Nat) : R Measurements := do
  let total ← Reader.getByte
  if total.toNat > c.maxMeasurementBlocks then M.fail .maxBlocksExceeded
  else
    let slot ← Reader.getBits 4
    if slot.toNat > c.numSlots then M.fail .maxSlotNumberExceeded
    else
      let ccb ← Reader.getBits 2
      let cc ← M.lift (ContentChanged.tryFrom ccb)
      dropResult (Reader.getBits 2)
      let blocks ← MeasurementBlocks.read c
      let nonce ← Nonce.read c
      let olen ← Reader.getU16
      if olen.toNat > maxOpaqueDataSize then M.fail .maxOpaqueDataSizeExceeded
      else
        let od ← OpaqueData.read c
        if signatureRequested then
          let s ← Reader.getSlice sigSize sigSize
          pure ⟨total, cc, slot, blocks, nonce, od, some s⟩
        else pure ⟨total, cc, slot, blocks, nonce, od, none⟩

/-- `parse_body`, src/msgs/measurements.rs 809-854. -/
def parseBody (c : Cfg) (buf : Bytes) (signatureRequested : Bool) (sigSize : Nat) :
    Res Measurements := (read c signatureRequested sigSize (Reader.new buf)).1

end Measurements
end Spdm
