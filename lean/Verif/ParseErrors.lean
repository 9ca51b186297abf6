import Verif.Errors
import Verif.Msgs.Measurements
import Verif.Msgs.Error
/-!
# The error values of the remaining parsers

The enums returned by the parsers of CAPABILITIES, GET_MEASUREMENTS, MEASUREMENTS and ERROR, which the state machines either do not call or whose errors they drop, and these parsers
with their `?` conversions.  Verif/Props/Faults.lean shows that they do what the flat ones do.
-/
namespace Spdm

/-- `ParseCapabilitiesError`, src/msgs/capabilities.rs 171-175. -/
inductive ParseCapabilitiesError
  | invalidBitsSet
  | read (e : ReadError)
  deriving DecidableEq, Repr

/-- `ParseGetMeasurementsError`, src/msgs/measurements.rs 125-130. -/
inductive ParseGetMeasurementsError
  | reservedBitsNotZero
  | maxSlotNumberExceeded
  | read (e : ReadError)
  deriving DecidableEq, Repr

/-- `ParseBitStreamError`, src/msgs/measurements.rs 318-322. -/
inductive ParseBitStreamError
  | maxSizeExceeded
  | read (e : ReadError)
  deriving DecidableEq, Repr

/-- `ParseDmtfMeasurementError`, src/msgs/measurements.rs 433-440. -/
inductive ParseDmtfMeasurementError
  | representation
  | type
  | read (e : ReadError)
  | digestTooLargeError
  | bitStream (e : ParseBitStreamError)
  deriving DecidableEq, Repr

/-- `ParseMeasurementBlockError`, src/msgs/measurements.rs 522-531. -/
inductive ParseMeasurementBlockError
  | invalidMeasurementSpec
  | measurementSizeMismatch
  | measurement (e : ParseDmtfMeasurementError)
  | read (e : ReadError)
  deriving DecidableEq, Repr

/-- `ParseMeasurementBlocksError`, src/msgs/measurements.rs 602-608. -/
inductive ParseMeasurementBlocksError
  | maxSizeExceeded
  | measurementSizeMismatch
  | block (e : ParseMeasurementBlockError)
  | read (e : ReadError)
  deriving DecidableEq, Repr

/-- `ParseMeasurementsError`, src/msgs/measurements.rs 688-697. -/
inductive ParseMeasurementsError
  | maxSlotNumberExceeded
  | maxBlocksExceeded
  | maxOpaqueDataSizeExceeded
  | read (e : ReadError)
  | blocks (e : ParseMeasurementBlocksError)
  | contentChanged
  | opaqueData (e : ParseOpaqueDataError)
  deriving DecidableEq, Repr

/-- `ParseErrorError`, src/msgs/error.rs 15-21. -/
inductive ParseErrorError
  | read (e : ReadError)
  | invalidErrorCode
  | parseVendorId (e : ParseVendorIdError)
  | parseVendorRegistryId
  deriving DecidableEq, Repr

/-- `ParseCapabilitiesError` of `Capabilities::parse_body`, src/msgs/capabilities.rs 207-218 with 177-181. -/
def ParseCapabilitiesError.from : Err → ParseCapabilitiesError
  | .read e => .read e
  | _ => .invalidBitsSet

/-- `ParseGetMeasurementsError` of `GetMeasurements::parse_body`, src/msgs/measurements.rs 195-224 with 132-136. -/
def ParseGetMeasurementsError.from : Err → ParseGetMeasurementsError
  | .read e => .read e
  | .reservedBitsNotZero => .reservedBitsNotZero
  | _ => .maxSlotNumberExceeded

namespace DmtfMeasurement
/-- `BitStream::read`, src/msgs/measurements.rs 345-356. -/
def readBitsT (c : Cfg) (size : Nat) : TM ParseBitStreamError Reader Bytes :=
  if size > c.maxMeasurementSize then TM.fail .maxSizeExceeded
  else TM.of (fromRead .read) (Reader.getSlice size c.maxMeasurementSize)

/-- `read`, src/msgs/measurements.rs 491-511, with the conversions of 442-472. -/
def readT (c : Cfg) : TM ParseDmtfMeasurementError Reader DmtfMeasurement := do
  let v ← TM.of (fromRead .read) Reader.getByte
  let ty ← TM.lift (Out.of (fun _ => .type) (ValueType.tryFrom (v &&& 0x7f)))
  let rep ← TM.lift (Out.of (fun _ => .representation) (ValueRepresentation.tryFrom (v &&& 0x80)))
  let size ← TM.of (fromRead .read) Reader.getU16
  match rep with
  | .digest =>
    if size.toNat ≤ c.maxDigestSize then do
      let d ← TM.of (fromRead .read) (Reader.getSlice size.toNat size.toNat)
      pure ⟨rep, ty, .digest d⟩
    else TM.fail .digestTooLargeError
  | .rawBitStream => do
    let d ← TM.via .bitStream (readBitsT c size.toNat)
    pure ⟨rep, ty, .bitStream d⟩
end DmtfMeasurement

namespace MeasurementBlock
/-- `read`, src/msgs/measurements.rs 557-581, with the conversions of 533-543. -/
def readT (c : Cfg) : TM ParseMeasurementBlockError Reader MeasurementBlock := do
  let index ← TM.of (fromRead .read) Reader.getByte
  let spec ← TM.of (fromRead .read) Reader.getByte
  if spec ≠ measurementSpecDmtf then TM.fail .invalidMeasurementSpec
  else
    let size ← TM.of (fromRead .read) Reader.getU16
    let r ← TM.get
    let offset := r.byteOffset
    let m ← TM.via .measurement (DmtfMeasurement.readT c)
    let r ← TM.get
    if size.toNat ≠ r.byteOffset - offset then TM.fail .measurementSizeMismatch
    else pure ⟨index, measurementSpecDmtf, m⟩
end MeasurementBlock

namespace MeasurementBlocks
/-- The loop of src/msgs/measurements.rs 674-677. -/
def readLoopT (c : Cfg) : Nat → Nat → List (Option MeasurementBlock) → TM ParseMeasurementBlocksError Reader (List (Option MeasurementBlock))
  | 0, _, bs => pure bs
  | n + 1, i, bs => do
    let b ← TM.via .block (MeasurementBlock.readT c)
    let bs ← TM.of (noErr (.read .unaligned)) (M.lift (setIndex bs i (some b)))
    readLoopT c n (i + 1) bs

/-- `read`, src/msgs/measurements.rs 662-685, with the conversions of 610-620. -/
def readT (c : Cfg) : TM ParseMeasurementBlocksError Reader MeasurementBlocks := do
  let num ← TM.of (fromRead .read) Reader.getByte
  let size ← TM.of (fromRead .read) Reader.getU24
  if size > c.maxMeasurementSize * c.maxMeasurementBlocks then TM.fail .maxSizeExceeded
  else
    let r ← TM.get
    let offset := r.byteOffset
    let bs ← readLoopT c num.toNat 0 (dflt c).blocks
    let r ← TM.get
    if size ≠ r.byteOffset - offset then TM.fail .measurementSizeMismatch
    else pure ⟨num.toNat, bs⟩
end MeasurementBlocks

namespace Measurements
/-- `let _ = r.get_bits(2);` (src/msgs/measurements.rs 828): the result, even an error, is dropped. -/
def dropResultT {ε α : Type} (m : R α) : TM ε Reader Unit := fun r =>
  match m r with
  | (.panic k, r') => (.panic k, r')
  | (_, r') => (.ok (), r')

/-- `parse_body`, src/msgs/measurements.rs 809-854, with the conversions of 699-722. -/
def readT (c : Cfg) (signatureRequested : Bool) (sigSize : Nat) : TM ParseMeasurementsError Reader Measurements := do
  let total ← TM.of (fromRead .read) Reader.getByte
  if total.toNat > c.maxMeasurementBlocks then TM.fail .maxBlocksExceeded
  else
    let slot ← TM.of (fromRead .read) (Reader.getBits 4)
    if slot.toNat > c.numSlots then TM.fail .maxSlotNumberExceeded
    else
      let ccb ← TM.of (fromRead .read) (Reader.getBits 2)
      let cc ← TM.lift (Out.of (fun _ => .contentChanged) (ContentChanged.tryFrom ccb))
      dropResultT (Reader.getBits 2)
      let blocks ← TM.via .blocks (MeasurementBlocks.readT c)
      let nonce ← TM.of (fromRead .read) (Nonce.read c)
      let olen ← TM.of (fromRead .read) Reader.getU16
      if olen.toNat > maxOpaqueDataSize then TM.fail .maxOpaqueDataSizeExceeded
      else
        let od ← TM.via .opaqueData (OpaqueData.readT c)
        if signatureRequested then do
          let s ← TM.of (fromRead .read) (Reader.getSlice sigSize sigSize)
          pure ⟨total, cc, slot, blocks, nonce, od, some s⟩
        else pure ⟨total, cc, slot, blocks, nonce, od, none⟩

/-- `parse_body`, src/msgs/measurements.rs 809-854. -/
def parseBodyT (c : Cfg) (buf : Bytes) (signatureRequested : Bool) (sigSize : Nat) : Out ParseMeasurementsError Measurements :=
  (readT c signatureRequested sigSize (Reader.new buf)).1
end Measurements

namespace ErrorMsg
/-- `parse_body`, src/msgs/error.rs 191-252, with the conversions of 23-39. -/
def readT : TM ParseErrorError Reader ErrorMsg := do
  let code ← TM.of (fromRead .read) Reader.getByte
  let data ← TM.of (fromRead .read) Reader.getByte
  if code = 0x1 then pure invalidRequest
  else if code = 0x3 then pure busy
  else if code = 0x4 then pure unexpectedRequest
  else if code = 0x5 then pure unspecified
  else if code = 0x6 then pure decryptError
  else if code = 0x7 then pure (unsupportedRequest data)
  else if code = 0x8 then pure requestInFlight
  else if code = 0x9 then pure invalidResponseCode
  else if code = 0xA then pure sessionLimitExceeded
  else if code = 0xB then pure sessionRequired
  else if code = 0xC then pure resetRequired
  else if code = 0xD then do
    let n ← TM.of (fromRead .read) Reader.getU32
    pure (responseTooLarge n)
  else if code = 0xE then pure requestTooLarge
  else if code = 0xF then do
    let h ← TM.of (fromRead .read) Reader.getByte
    pure (largeResponse h)
  else if code = 0x10 then pure messageLost
  else if code = 0x41 then pure versionMismatch
  else if code = 0x42 then do
    let a ← TM.of (fromRead .read) Reader.getByte
    let b ← TM.of (fromRead .read) Reader.getByte
    let c ← TM.of (fromRead .read) Reader.getByte
    let d ← TM.of (fromRead .read) Reader.getByte
    pure (responseNotReady a b c d)
  else if code = 0x43 then pure requestResynch
  else if code = 0xFF then
    match VendorRegistryId.tryFrom data with
    | none => TM.fail .parseVendorRegistryId
    | some id => do
      let len ← TM.of (fromRead .read) Reader.getByte
      let vid ← TM.via .parseVendorId (VendorId.readT len)
      pure (vendorDefined id { VendorDefined.empty with vendorId := vid })
  else TM.fail .invalidErrorCode

/-- `parse_body`, src/msgs/error.rs 191-252. -/
def parseBodyT (buf : Bytes) : Out ParseErrorError ErrorMsg := (readT (Reader.new buf)).1
end ErrorMsg
end Spdm
