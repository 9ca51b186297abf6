import Verif.Msgs.Header
/-!
# GET_VERSION and VERSION: src/msgs/version.rs
-/
namespace Spdm

namespace GetVersion
/-- `write_body`, src/msgs/version.rs 23-25. -/
def writeBody : W Nat := Writer.putReserved 2

/-- `parse_body` as a reader action, src/msgs/version.rs 31-32. -/
def read : R Unit := do
  Reader.skipReserved 2

/-- `parse_body`, src/msgs/version.rs 29-33. -/
def parseBody (buf : Bytes) : Res Unit := (read (Reader.new buf)).1
end GetVersion

/-- `VersionEntry`, src/msgs/version.rs 42-48. -/
structure VersionEntry where
  major : UInt8
  minor : UInt8
  update : UInt8
  alpha : UInt8
  deriving DecidableEq, Repr

/-- `VersionEntry::default()`, src/msgs/version.rs 42 (derived). -/
def VersionEntry.zero : VersionEntry := ⟨0, 0, 0, 0⟩

/-- `MAX_ALLOWED_VERSIONS`, src/msgs/version.rs 39. -/
def maxAllowedVersions : Nat := 2

/-- `Version`, src/msgs/version.rs 52-55; `entries` is an array of `MAX_ALLOWED_VERSIONS`. -/
structure Version where
  numEntries : UInt8
  entries : List VersionEntry
  deriving DecidableEq, Repr

namespace Version

/-- `Version::empty`, src/msgs/version.rs 58-63. -/
def empty : Version := ⟨0, List.replicate maxAllowedVersions VersionEntry.zero⟩

/-- `Version::default`, src/msgs/version.rs 68-78. -/
def default : Version := ⟨2, [⟨1, 0, 0, 0⟩, ⟨1, 1, 0, 0⟩]⟩

/-- The loop of src/msgs/version.rs 97-100.  `<< 4` on a `u8` drops the high bits. -/
def writeEntries : List VersionEntry → W Nat
  | [] => Writer.offsetM
  | v :: vs => do
    let _ ← Writer.put (v.alpha ||| (v.update <<< 4))
    let _ ← Writer.put (v.minor ||| (v.major <<< 4))
    writeEntries vs

/-- `write_body`, src/msgs/version.rs 89-103. -/
def writeBody (v : Version) : W Nat := do
  let _ ← Writer.put 0
  let _ ← Writer.put 0
  let _ ← Writer.put 0
  let _ ← Writer.put v.numEntries
  writeEntries v.entries

/-- One iteration of the loop body, src/msgs/version.rs 138-143. -/
def readEntry : R VersionEntry := do
  let alpha ← Reader.getBits 4
  let update ← Reader.getBits 4
  let minor ← Reader.getBits 4
  let major ← Reader.getBits 4
  pure ⟨major, minor, update, alpha⟩

/-- The loop of src/msgs/version.rs 137-144 (`n` iterations left, next index `i`). -/
def readEntries : Nat → Nat → List VersionEntry → R (List VersionEntry)
  | 0, _, es => pure es
  | n + 1, i, es => do
    let e ← readEntry
    let es ← M.lift (setIndex es i e)
    readEntries n (i + 1) es

/-- `parse_body` as a reader action, src/msgs/version.rs 125-146. -/
def read : R Version := do
  Reader.skipReserved 3
  let num ← Reader.getByte
  if num.toNat > maxAllowedVersions then M.fail .tooManyVersionsReceived
  else
    let es ← readEntries num.toNat 0 empty.entries
    pure ⟨num, es⟩

/-- `parse_body`, src/msgs/version.rs 122-147. -/
def parseBody (buf : Bytes) : Res Version := (read (Reader.new buf)).1

end Version
end Spdm
