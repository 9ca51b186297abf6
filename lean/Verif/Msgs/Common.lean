import Verif.Msgs.Header
/-!
# Common types: src/msgs/common.rs (opaque data, vendor ids), src/crypto/nonce.rs
-/
namespace Spdm

/-- `VendorRegistryId`, src/msgs/common.rs 281-291. -/
inductive VendorRegistryId
  | dmtf | tcg | usb | pciSig | iana | hdBaseT | mipi | cxl | jedec
  deriving DecidableEq, Repr

namespace VendorRegistryId
/-- `self.registry_id as u8`, discriminants of src/msgs/common.rs 282-290. -/
def toU8 : VendorRegistryId → UInt8
  | dmtf => 0 | tcg => 1 | usb => 2 | pciSig => 3 | iana => 4 | hdBaseT => 5 | mipi => 6
  | cxl => 7 | jedec => 8

/-- `try_from`, src/msgs/common.rs 295-311. -/
def tryFrom (b : UInt8) : Option VendorRegistryId :=
  if b = 0 then some dmtf else if b = 1 then some tcg else if b = 2 then some usb
  else if b = 3 then some pciSig else if b = 4 then some iana else if b = 5 then some hdBaseT
  else if b = 6 then some mipi else if b = 7 then some cxl else if b = 8 then some jedec
  else none

/-- `vendor_id_len`, src/msgs/common.rs 315-327. -/
def vendorIdLen : VendorRegistryId → UInt8
  | dmtf => 0 | tcg => 2 | usb => 2 | pciSig => 2 | iana => 4 | hdBaseT => 4 | mipi => 2
  | cxl => 2 | jedec => 2
end VendorRegistryId

/-- `VendorId`, src/msgs/common.rs 231-235. -/
inductive VendorId
  | empty
  | u16 (v : UInt16)
  | u32 (v : UInt32)
  deriving DecidableEq, Repr

namespace VendorId
/-- `write`, src/msgs/common.rs 239-257: returns the length of the id. -/
def write : VendorId → W UInt8
  | empty => do
    let _ ← Writer.put 0
    pure 0
  | u16 v => do
    let _ ← Writer.put 2
    let _ ← Writer.putU16 v
    pure 2
  | u32 v => do
    let _ ← Writer.put 4
    let _ ← Writer.putU32 v
    pure 4

/-- `read`, src/msgs/common.rs 259-272. -/
def read (len : UInt8) : R VendorId :=
  if len = 0 then pure empty
  else if len = 2 then do
    let v ← Reader.getU16
    pure (u16 v)
  else if len = 4 then do
    let v ← Reader.getU32
    pure (u32 v)
  else M.fail .opaqueInvalidVendorIdLength
end VendorId

/-- `OpaqueElement`, src/msgs/common.rs 114-121; `data` has `MAX_OPAQUE_ELEMENT_DATA_SIZE` bytes. -/
structure OpaqueElement where
  registryId : VendorRegistryId
  vendorId : VendorId
  dataLen : UInt16
  data : Bytes
  deriving DecidableEq, Repr

namespace OpaqueElement
/-- `default`, src/msgs/common.rs 137-146. -/
def dflt (c : Cfg) : OpaqueElement :=
  ⟨.dmtf, .empty, 0, List.replicate c.maxOpaqueElementDataSize 0⟩

/-- `padding`, src/msgs/common.rs 157-164. -/
def padding (raw : Nat) : Nat := if raw % 4 = 0 then 0 else 4 - raw % 4

/-- `serialized_size`, src/msgs/common.rs 149-154. -/
def serializedSize (e : OpaqueElement) : Nat :=
  let raw := 4 + e.registryId.vendorIdLen.toNat + e.dataLen.toNat
  raw + padding raw

/-- `ensure_vendor_id_len_matches_registry_id`, src/msgs/common.rs 204-213 (the same error value for
read and write, lines 174 and 211). -/
def ensureVendorIdLen (len : UInt8) (id : VendorRegistryId) : Res Unit :=
  if len = id.vendorIdLen then .ok () else .err .opaqueInvalidVendorIdLength

/-- `write`, src/msgs/common.rs 166-183. -/
def write (e : OpaqueElement) : W Nat := do
  let _ ← Writer.put e.registryId.toU8
  let vlen ← e.vendorId.write
  M.lift (ensureVendorIdLen vlen e.registryId)
  let _ ← Writer.putU16 e.dataLen
  let d ← M.lift (sliceTo e.data e.dataLen.toNat)
  let _ ← Writer.extend d
  Writer.putReserved (padding (4 + vlen.toNat + e.dataLen.toNat))

/-- `read`, src/msgs/common.rs 185-199. -/
def read (c : Cfg) : R OpaqueElement := do
  let b ← Reader.getByte
  match VendorRegistryId.tryFrom b with
  | none => M.fail .opaqueInvalidVendorRegistryId
  | some id =>
    let vlen ← Reader.getByte
    M.lift (ensureVendorIdLen vlen id)
    let vid ← VendorId.read vlen
    let dlen ← Reader.getU16
    let d ← Reader.getSlice dlen.toNat c.maxOpaqueElementDataSize
    Reader.skipReserved (padding (4 + vlen.toNat + dlen.toNat))
    pure ⟨id, vid, dlen, zeroPad c.maxOpaqueElementDataSize d⟩
end OpaqueElement

/-- `OpaqueData`, src/msgs/common.rs 34-37; `elements` has `MAX_OPAQUE_ELEMENTS` entries. -/
structure OpaqueData where
  totalElements : UInt8
  elements : List OpaqueElement
  deriving DecidableEq, Repr

namespace OpaqueData
/-- `OpaqueData::default()`, src/msgs/common.rs 33 (derived). -/
def dflt (c : Cfg) : OpaqueData :=
  ⟨0, List.replicate c.maxOpaqueElements (OpaqueElement.dflt c)⟩

/-- `serialized_size`, src/msgs/common.rs 40-44. -/
def serializedSize (d : OpaqueData) : Res Nat := do
  let es ← sliceTo d.elements d.totalElements.toNat
  pure (4 + es.foldl (fun acc e => acc + e.serializedSize) 0)

/-- The loop of src/msgs/common.rs 49-51. -/
def writeElements : List OpaqueElement → W Nat
  | [] => Writer.offsetM
  | e :: es => do
    let _ ← e.write
    writeElements es

/-- `WriteOpaqueElementError::from(BufferFullError)`, src/msgs/common.rs 74-78. -/
def wrapFull : Err → Err
  | .bufferFull => .opaqueFull
  | e => e

/-- `write`, src/msgs/common.rs 46-53. -/
def write (d : OpaqueData) : W Nat := M.mapErr wrapFull (do
  let _ ← Writer.put d.totalElements
  let _ ← Writer.putReserved 3
  let es ← M.lift (sliceTo d.elements d.totalElements.toNat)
  writeElements es)

/-- The loop of src/msgs/common.rs 60-62.  The element is read before the index is checked. -/
def readElements (c : Cfg) : Nat → Nat → List OpaqueElement → R (List OpaqueElement)
  | 0, _, es => pure es
  | n + 1, i, es => do
    let e ← OpaqueElement.read c
    let es ← M.lift (setIndex es i e)
    readElements c n (i + 1) es

/-- `read`, src/msgs/common.rs 55-64. -/
def read (c : Cfg) : R OpaqueData := do
  let total ← Reader.getByte
  Reader.skipReserved 3
  let es ← readElements c total.toNat 0 (dflt c).elements
  pure ⟨total, es⟩
end OpaqueData

/-- `Nonce::read`, src/crypto/nonce.rs 26-30 and 43-45.  Without the `rand` feature nothing is
read; an aligned zero-byte `get_slice` has the same effect. -/
def Nonce.read (c : Cfg) : R Bytes := Reader.getSlice c.nonceSize c.nonceSize

end Spdm
