import Verif.Msgs.Common
/-!
# ERROR: src/msgs/error.rs
-/
namespace Spdm

/-- `MAX_OPAQUE_ERROR_DATA_SIZE`, src/msgs/error.rs 13. -/
def maxOpaqueErrorDataSize : Nat := 32

/-- `VendorDefined`, src/msgs/error.rs 66-72; `opaqueErrorData` has 32 bytes. -/
structure VendorDefined where
  vendorId : VendorId
  opaqueLen : Nat
  opaqueErrorData : Bytes
  deriving DecidableEq, Repr

/-- `VendorDefined::empty`, src/msgs/error.rs 75-81. -/
def VendorDefined.empty : VendorDefined :=
  ⟨.empty, 0, List.replicate maxOpaqueErrorDataSize 0⟩

/-- `Error`, src/msgs/error.rs 43-63 (with `ResponseNotReady`, 85-90, inlined). -/
inductive ErrorMsg
  | invalidRequest
  | busy
  | unexpectedRequest
  | unspecified
  | decryptError
  | unsupportedRequest (reqCode : UInt8)
  | requestInFlight
  | invalidResponseCode
  | sessionLimitExceeded
  | sessionRequired
  | resetRequired
  | responseTooLarge (actualSize : UInt32)
  | requestTooLarge
  | largeResponse (handle : UInt8)
  | messageLost
  | versionMismatch
  | responseNotReady (rdtExponent requestCode token rdtm : UInt8)
  | requestResynch
  | vendorDefined (id : VendorRegistryId) (v : VendorDefined)
  deriving DecidableEq, Repr

namespace ErrorMsg

/-- The arms of src/msgs/error.rs 101-178 without data: code and a zero byte. -/
def putSimple (code : UInt8) : W Nat := do
  let _ ← Writer.put code
  Writer.put 0

/-- `write_body`, src/msgs/error.rs 99-187. -/
def writeBody : ErrorMsg → W Nat
  | invalidRequest => putSimple 0x1
  | busy => putSimple 0x3
  | unexpectedRequest => putSimple 0x4
  | unspecified => putSimple 0x5
  | decryptError => putSimple 0x6
  | unsupportedRequest reqCode => do
    let _ ← Writer.put 0x7
    Writer.put reqCode
  | requestInFlight => putSimple 0x8
  | invalidResponseCode => putSimple 0x9
  | sessionLimitExceeded => putSimple 0xA
  | sessionRequired => putSimple 0xB
  | resetRequired => putSimple 0xC
  | responseTooLarge n => do
    let _ ← putSimple 0xD
    Writer.putU32 n
  | requestTooLarge => putSimple 0xE
  | largeResponse handle => do
    let _ ← putSimple 0xF
    Writer.put handle
  | messageLost => putSimple 0x10
  | versionMismatch => putSimple 0x41
  | responseNotReady a b c d => do
    let _ ← putSimple 0x42
    let _ ← Writer.put a
    let _ ← Writer.put b
    let _ ← Writer.put c
    Writer.put d
  | requestResynch => putSimple 0x43
  | vendorDefined id v => do
    let _ ← Writer.put 0xFF
    let _ ← Writer.put id.toU8
    let _ ← v.vendorId.write
    let d ← M.lift (sliceTo v.opaqueErrorData v.opaqueLen)
    Writer.extend d

/-- `parse_body` as a reader action, src/msgs/error.rs 193-251. -/
def read : R ErrorMsg := do
  let code ← Reader.getByte
  let data ← Reader.getByte
  if code = 0x1 then pure invalidRequest
  else if code = 0x3 then pure busy
  else if code = 0x4 then pure unexpectedRequest
  else if code = 0x5 then pure unspecified
  else if code = 0x6 then pure decryptError
  else if code = 0x7 then pure (unsupportedRequest data)
  else if code = 0x8 then pure requestInFlight
  else if code = 0x9 then pure invalidResponseCode
  else if code = 0xA then pure sessionLimitExceeded
  else if code = 0xB then pure sessionRequired
  else if code = 0xC then pure resetRequired
  else if code = 0xD then do
    let n ← Reader.getU32
    pure (responseTooLarge n)
  else if code = 0xE then pure requestTooLarge
  else if code = 0xF then do
    let h ← Reader.getByte
    pure (largeResponse h)
  else if code = 0x10 then pure messageLost
  else if code = 0x41 then pure versionMismatch
  else if code = 0x42 then do
    let a ← Reader.getByte
    let b ← Reader.getByte
    let c ← Reader.getByte
    let d ← Reader.getByte
    pure (responseNotReady a b c d)
  else if code = 0x43 then pure requestResynch
  else if code = 0xFF then
    match VendorRegistryId.tryFrom data with
    | none => M.fail .opaqueInvalidVendorRegistryId
    | some id => do
      let len ← Reader.getByte
      let vid ← VendorId.read len
      pure (vendorDefined id { VendorDefined.empty with vendorId := vid })
  else M.fail .invalidErrorCode

/-- `parse_body`, src/msgs/error.rs 191-252. -/
def parseBody (buf : Bytes) : Res ErrorMsg := (read (Reader.new buf)).1

end ErrorMsg
end Spdm
