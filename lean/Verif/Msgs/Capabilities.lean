import Verif.Msgs.Header
/-!
# GET_CAPABILITIES and CAPABILITIES: src/msgs/capabilities.rs
-/
namespace Spdm

namespace ReqFlags
/-! `ReqFlags`, src/msgs/capabilities.rs 14-28. -/
/-- `CERT_CAP`, src/msgs/capabilities.rs 15. -/
def certCap : UInt32 := 0x2
/-- `CHAL_CAP`, src/msgs/capabilities.rs 16. -/
def chalCap : UInt32 := 0x4
/-- `ENCRYPT_CAP`, src/msgs/capabilities.rs 17. -/
def encryptCap : UInt32 := 0x40
/-- `MAC_CAP`, src/msgs/capabilities.rs 18. -/
def macCap : UInt32 := 0x80
/-- `MUT_AUTH_CAP`, src/msgs/capabilities.rs 19. -/
def mutAuthCap : UInt32 := 0x100
/-- `KEY_EX_CAP`, src/msgs/capabilities.rs 20. -/
def keyExCap : UInt32 := 0x200
/-- `PSK_CAP`, src/msgs/capabilities.rs 21. -/
def pskCap : UInt32 := 0x400
/-- `PSK_CAP_MASK`, src/msgs/capabilities.rs 22. -/
def pskCapMask : UInt32 := 0xC00
/-- `ENCAP_CAP`, src/msgs/capabilities.rs 23. -/
def encapCap : UInt32 := 0x1000
/-- `HBEAT_CAP`, src/msgs/capabilities.rs 24. -/
def hbeatCap : UInt32 := 0x2000
/-- `KEY_UPD_CAP`, src/msgs/capabilities.rs 25. -/
def keyUpdCap : UInt32 := 0x4000
/-- `HANDSHAKE_IN_THE_CLEAR_CAP`, src/msgs/capabilities.rs 26. -/
def handshakeInTheClearCap : UInt32 := 0x8000
/-- `PUB_KEY_ID_CAP`, src/msgs/capabilities.rs 27. -/
def pubKeyIdCap : UInt32 := 0x10000

/-- All bits defined by the `bitflags!` block (`ReqFlags::all()`).  src/msgs/capabilities.rs 13-29. -/
def all : UInt32 :=
  certCap ||| chalCap ||| encryptCap ||| macCap ||| mutAuthCap ||| keyExCap ||| pskCap |||
  pskCapMask ||| encapCap ||| hbeatCap ||| keyUpdCap ||| handshakeInTheClearCap ||| pubKeyIdCap

/-- `from_str`, src/msgs/capabilities.rs 39-60. -/
def fromStr (s : String) : Res UInt32 :=
  match s with
  | "CERT_CAP" => .ok certCap
  | "CHAL_CAP" => .ok chalCap
  | "ENCRYPT_CAP" => .ok encryptCap
  | "MAC_CAP" => .ok macCap
  | "MUT_AUTH_CAP" => .ok mutAuthCap
  | "KEY_EX_CAP" => .ok keyExCap
  | "PSK_CAP" => .ok pskCap
  | "ENCAP_CAP" => .ok encapCap
  | "HBEAT_CAP" => .ok hbeatCap
  | "KEY_UPD_CAP" => .ok keyUpdCap
  | "HANDSHAKE_IN_THE_CLEAR_CAP" => .ok handshakeInTheClearCap
  | "PUB_KEY_ID_CAP" => .ok pubKeyIdCap
  | _ => .err .parseName
end ReqFlags

namespace RspFlags
/-! `RspFlags`, src/msgs/capabilities.rs 116-134. -/
/-- `CACHE_CAP`, src/msgs/capabilities.rs 117. -/
def cacheCap : UInt32 := 0x1
/-- `CERT_CAP`, src/msgs/capabilities.rs 118. -/
def certCap : UInt32 := 0x2
/-- `CHAL_CAP`, src/msgs/capabilities.rs 119. -/
def chalCap : UInt32 := 0x4
/-- `MEAS_CAP_NO_SIG`, src/msgs/capabilities.rs 120. -/
def measCapNoSig : UInt32 := 0x8
/-- `MEAS_CAP_SIG`, src/msgs/capabilities.rs 121. -/
def measCapSig : UInt32 := 0x10
/-- `MEAS_FRESH_CAP`, src/msgs/capabilities.rs 122. -/
def measFreshCap : UInt32 := 0x20
/-- `ENCRYPT_CAP`, src/msgs/capabilities.rs 123. -/
def encryptCap : UInt32 := 0x40
/-- `MAC_CAP`, src/msgs/capabilities.rs 124. -/
def macCap : UInt32 := 0x80
/-- `MUT_AUTH_CAP`, src/msgs/capabilities.rs 125. -/
def mutAuthCap : UInt32 := 0x100
/-- `KEY_EX_CAP`, src/msgs/capabilities.rs 126. -/
def keyExCap : UInt32 := 0x200
/-- `PSK_CAP`, src/msgs/capabilities.rs 127. -/
def pskCap : UInt32 := 0x400
/-- `PSX_CAP_WITH_CONTEXT`, src/msgs/capabilities.rs 128. -/
def psxCapWithContext : UInt32 := 0x800
/-- `ENCAP_CAP`, src/msgs/capabilities.rs 129. -/
def encapCap : UInt32 := 0x1000
/-- `HBEAT_CAP`, src/msgs/capabilities.rs 130. -/
def hbeatCap : UInt32 := 0x2000
/-- `KEY_UPD_CAP`, src/msgs/capabilities.rs 131. -/
def keyUpdCap : UInt32 := 0x4000
/-- `HANDSHAKE_IN_THE_CLEAR_CAP`, src/msgs/capabilities.rs 132. -/
def handshakeInTheClearCap : UInt32 := 0x8000
/-- `PUB_KEY_ID_CAP`, src/msgs/capabilities.rs 133. -/
def pubKeyIdCap : UInt32 := 0x10000

/-- All bits defined by the `bitflags!` block (`RspFlags::all()`).  src/msgs/capabilities.rs 115-135. -/
def all : UInt32 :=
  cacheCap ||| certCap ||| chalCap ||| measCapNoSig ||| measCapSig ||| measFreshCap |||
  encryptCap ||| macCap ||| mutAuthCap ||| keyExCap ||| pskCap ||| psxCapWithContext |||
  encapCap ||| hbeatCap ||| keyUpdCap ||| handshakeInTheClearCap ||| pubKeyIdCap

/-- `from_str`, src/msgs/capabilities.rs 145-168. -/
def fromStr (s : String) : Res UInt32 :=
  match s with
  | "CACHE_CAP" => .ok cacheCap
  | "CERT_CAP" => .ok certCap
  | "CHAL_CAP" => .ok chalCap
  | "MEAS_FRESH_CAP" => .ok measFreshCap
  | "ENCRYPT_CAP" => .ok encryptCap
  | "MAC_CAP" => .ok macCap
  | "MUT_AUTH_CAP" => .ok mutAuthCap
  | "KEY_EX_CAP" => .ok keyExCap
  | "PSK_CAP" => .ok pskCap
  | "ENCAP_CAP" => .ok encapCap
  | "HBEAT_CAP" => .ok hbeatCap
  | "KEY_UPD_CAP" => .ok keyUpdCap
  | "HANDSHAKE_IN_THE_CLEAR_CAP" => .ok handshakeInTheClearCap
  | "PUB_KEY_ID_CAP" => .ok pubKeyIdCap
  | _ => .err .parseName
end RspFlags

/-- `GetCapabilities`, src/msgs/capabilities.rs 76-79. -/
structure GetCapabilities where
  ctExponent : UInt8
  flags : UInt32
  deriving DecidableEq, Repr

namespace GetCapabilities
/-- `write_body`, src/msgs/capabilities.rs 90-95. -/
def writeBody (m : GetCapabilities) : W Nat := do
  let _ ← Writer.putReserved 3
  let _ ← Writer.put m.ctExponent
  let _ ← Writer.putReserved 2
  Writer.putU32 m.flags

/-- `parse_body` as a reader action, src/msgs/capabilities.rs 103-109. -/
def read : R GetCapabilities := do
  Reader.skipReserved 3
  let ct ← Reader.getByte
  Reader.skipReserved 2
  let flags ← Reader.getU32
  let flags ← M.lift (fromBits32 ReqFlags.all flags .invalidBitsSet)
  pure ⟨ct, flags⟩

/-- `parse_body`, src/msgs/capabilities.rs 99-110. -/
def parseBody (buf : Bytes) : Res GetCapabilities := (read (Reader.new buf)).1
end GetCapabilities

/-- `Capabilities`, src/msgs/capabilities.rs 184-187. -/
structure Capabilities where
  ctExponent : UInt8
  flags : UInt32
  deriving DecidableEq, Repr

namespace Capabilities
/-- `write_body`, src/msgs/capabilities.rs 198-203. -/
def writeBody (m : Capabilities) : W Nat := do
  let _ ← Writer.putReserved 3
  let _ ← Writer.put m.ctExponent
  let _ ← Writer.putReserved 2
  Writer.putU32 m.flags

/-- `parse_body` as a reader action, src/msgs/capabilities.rs 211-217. -/
def read : R Capabilities := do
  Reader.skipReserved 3
  let ct ← Reader.getByte
  Reader.skipReserved 2
  let flags ← Reader.getU32
  let flags ← M.lift (fromBits32 RspFlags.all flags .invalidBitsSet)
  pure ⟨ct, flags⟩

/-- `parse_body`, src/msgs/capabilities.rs 207-218. -/
def parseBody (buf : Bytes) : Res Capabilities := (read (Reader.new buf)).1
end Capabilities

end Spdm
