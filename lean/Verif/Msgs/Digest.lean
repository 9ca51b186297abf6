import Verif.Msgs.Header
/-!
# GET_DIGESTS and DIGESTS: src/msgs/digest.rs
-/
namespace Spdm

namespace GetDigests
/-- `write_body`, src/msgs/digest.rs 31-33. -/
def writeBody : W Nat := Writer.putReserved 2

/-- `parse_body` as a reader action, src/msgs/digest.rs 39-40. -/
def read : R Unit := Reader.skipReserved 2

/-- `parse_body`, src/msgs/digest.rs 37-41. -/
def parseBody (buf : Bytes) : Res Unit := (read (Reader.new buf)).1
end GetDigests

/-- `Digests`, src/msgs/digest.rs 46-52.  A `DigestBuf` (src/msgs/common.rs 357-360) is modelled by the bytes its
`as_ref` returns; its equality (src/msgs/common.rs 405-409) is equality of those bytes. -/
structure Digests where
  slotMask : UInt8
  digests : List (Option Bytes)
  deriving DecidableEq, Repr

namespace Digests

/-- The loop of `write_digests`, src/msgs/digest.rs 109-114.  The fuel counts iterations: each
clears the lowest set bit of the 8-bit `bits`, so 9 rounds always suffice. `offset` is the
variable of line 108. -/
def writeLoop (c : Cfg) (digests : List (Option Bytes)) : Nat → UInt8 → Nat → W Nat
  | 0, _, offset => pure offset
  | fuel + 1, bits, offset =>
    let k := trailingZeros 8 bits.toNat
    if k < c.numSlots then do
      let d ← M.lift (index digests k)
      match d with
      | none => M.die .unwrapNone
      | some d =>
        let offset ← Writer.extend d
        if k < 8 then writeLoop c digests fuel (bits ^^^ UInt8.ofNat (2 ^ k)) offset
        else M.die .overflow
    else pure offset

/-- `write_body`, src/msgs/digest.rs 63-67, 106-116. -/
def writeBody (c : Cfg) (m : Digests) : W Nat := do
  let _ ← Writer.putReserved 1
  let _ ← Writer.put m.slotMask
  let offset ← Writer.offsetM
  writeLoop c m.digests 9 m.slotMask offset

/-- The loop of `read_digests`, src/msgs/digest.rs 91-98; fuel as in `writeLoop`. -/
def readLoop (c : Cfg) (size : Nat) : Nat → UInt8 → List (Option Bytes) → R (List (Option Bytes))
  | 0, _, ds => pure ds
  | fuel + 1, bits, ds =>
    let k := trailingZeros 8 bits.toNat
    if k < c.numSlots then do
      let d ← Reader.getSlice size size
      let ds ← M.lift (setIndex ds k (some d))
      if k < 8 then readLoop c size fuel (bits ^^^ UInt8.ofNat (2 ^ k)) ds
      else M.die .overflow
    else pure ds

/-- `parse_body` as a reader action, src/msgs/digest.rs 77-99. -/
def read (c : Cfg) (size : Nat) : R Digests := do
  Reader.skipReserved 1
  let mask ← Reader.getByte
  let ds ← readLoop c size 9 mask (List.replicate c.numSlots none)
  pure ⟨mask, ds⟩

/-- `parse_body`, src/msgs/digest.rs 72-80. -/
def parseBody (c : Cfg) (size : Nat) (buf : Bytes) : Res Digests :=
  (read c size (Reader.new buf)).1

end Digests
end Spdm
