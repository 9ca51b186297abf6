import Verif.Basic
/-!
# Writer and Reader: src/msgs/encoding.rs
-/

namespace Spdm

/-- `Writer`, src/msgs/encoding.rs 11-14: a mutable buffer and a cursor. -/
structure Writer where
  buf : Bytes
  offset : Nat
  deriving DecidableEq, Repr

/-- Methods of `Writer`, src/msgs/encoding.rs 16-96. -/
abbrev W := M Writer

namespace Writer

/-- `Writer::new`, src/msgs/encoding.rs 17-19. -/
def new (buf : Bytes) : Writer := { buf, offset := 0 }

/-- `is_full`, src/msgs/encoding.rs 88-90. -/
def isFull (w : Writer) : Bool := w.offset == w.buf.length

/-- `remaining`, src/msgs/encoding.rs 93-95 (saturating here; the cursor never exceeds the buffer). -/
def remaining (w : Writer) : Nat := w.buf.length - w.offset

/-- `put`, src/msgs/encoding.rs 24-32.  The index is in range unless the cursor is beyond the buffer. -/
def put (value : UInt8) : W Nat := fun w =>
  if w.isFull then (.err .bufferFull, w)
  else if w.offset < w.buf.length then
    let w' : Writer := { buf := w.buf.set w.offset value, offset := w.offset + 1 }
    (.ok w'.offset, w')
  else (.panic .indexOutOfBounds, w)

/-- `Ok(self.offset)` / `Ok(w.offset())`.  src/msgs/encoding.rs 30, 45, 54. -/
def offsetM : W Nat := fun w => (.ok w.offset, w)

/-- The loop `for b in bs { self.put(b)?; } Ok(self.offset)`, the shape of
src/msgs/encoding.rs 42-45, 51-54, 60-63, 69-72. -/
def putAll : Bytes → W Nat
  | [] => offsetM
  | b :: bs => do let _ ← put b; putAll bs

/-- `put_reserved`, src/msgs/encoding.rs 38-46. -/
def putReserved (n : Nat) : W Nat := putAll (List.replicate n 0)

/-- `to_le_bytes` of a number, first `k` bytes (src/msgs/encoding.rs 50, 59, 68). -/
def leBytes : Nat → Nat → Bytes
  | 0, _ => []
  | k + 1, n => UInt8.ofNat (n % 256) :: leBytes k (n / 256)

/-- `put_u16`, src/msgs/encoding.rs 49-55. -/
def putU16 (n : UInt16) : W Nat := putAll (leBytes 2 n.toNat)

/-- `put_u24`, src/msgs/encoding.rs 58-64: the lower three bytes of a `usize`. -/
def putU24 (n : Nat) : W Nat := putAll (leBytes 3 n)

/-- `put_u32`, src/msgs/encoding.rs 67-73. -/
def putU32 (n : UInt32) : W Nat := putAll (leBytes 4 n.toNat)

/-- `extend`, src/msgs/encoding.rs 76-85. -/
def extend (bs : Bytes) : W Nat := fun w =>
  if bs.length > w.remaining then (.err .bufferFull, w)
  else
    let e := w.offset + bs.length
    let w' : Writer := { buf := w.buf.take w.offset ++ bs ++ w.buf.drop e, offset := e }
    (.ok e, w')

end Writer

/-- `Reader`, src/msgs/encoding.rs 123-127. -/
structure Reader where
  buf : Bytes
  byteOffset : Nat
  bitOffset : Nat
  deriving DecidableEq, Repr

/-- Methods of `Reader`, src/msgs/encoding.rs 129-311. -/
abbrev R := M Reader

namespace Reader

/-- `Reader::new`, src/msgs/encoding.rs 130-132. -/
def new (buf : Bytes) : Reader := { buf, byteOffset := 0, bitOffset := 0 }

/-- `is_empty`, src/msgs/encoding.rs 303-305. -/
def isEmpty (r : Reader) : Bool := r.buf.length == r.byteOffset

/-- `is_aligned`, src/msgs/encoding.rs 308-310. -/
def isAligned (r : Reader) : Bool := r.bitOffset == 0

/-- `remaining`, src/msgs/encoding.rs 298-300 (saturating; the cursor never exceeds the buffer). -/
def remaining (r : Reader) : Nat := r.buf.length - r.byteOffset

/-- `get_byte`, src/msgs/encoding.rs 135-145. -/
def getByte : R UInt8 := fun r =>
  if !r.isAligned then (.err (.read .unaligned), r)
  else if r.isEmpty then (.err (.read .bufferEmpty), r)
  else match r.buf[r.byteOffset]? with
    | some b => (.ok b, { r with byteOffset := r.byteOffset + 1 })
    | none => (.panic .indexOutOfBounds, r)

/-- `skip_reserved`, src/msgs/encoding.rs 150-158. -/
def skipReserved : Nat → R Unit
  | 0 => pure ()
  | n + 1 => do
    let byte ← getByte
    if byte ≠ 0 then M.fail (.read .reservedByteNotZero)
    else skipReserved n

/-- `skip_ignored`, src/msgs/encoding.rs 162-167. -/
def skipIgnored : Nat → R Unit
  | 0 => pure ()
  | n + 1 => do
    let _ ← getByte
    skipIgnored n

/-- `u8 << n`, with the overflow check on the shift amount.  src/msgs/encoding.rs 195, 205. -/
def shl8 (b : UInt8) (n : Nat) : Res UInt8 :=
  if n < 8 then .ok (UInt8.ofNat (b.toNat * 2 ^ n)) else .panic .overflow

/-- `u8 >> n`, with the overflow check on the shift amount.  src/msgs/encoding.rs 188, 196, 206. -/
def shr8 (b : UInt8) (n : Nat) : Res UInt8 :=
  if n < 8 then .ok (UInt8.ofNat (b.toNat / 2 ^ n)) else .panic .overflow

/-- An index into the buffer.  src/msgs/encoding.rs 188, 195, 205. -/
def at? (r : Reader) (i : Nat) : Res UInt8 :=
  match r.buf[i]? with
  | some b => .ok b
  | none => .panic .indexOutOfBounds

/-- `get_bits`, src/msgs/encoding.rs 173-210.  The subtractions on lines 192-194 and 205-206 are on
`u8` and would panic when negative; they are never negative when `bit_offset < 8`. -/
def getBits (count : Nat) : R UInt8 := fun r =>
  if r.isEmpty then (.err (.read .bufferEmpty), r)
  else if count > 7 then (.err (.read .tooManyBits), r)
  else
    let newBit := r.bitOffset + count
    if newBit ≥ 8 then
      let newByte := r.byteOffset + 1
      let newBit := newBit - 8
      if newByte = r.buf.length ∧ newBit ≠ 0 then (.err (.read .bufferEmpty), r)
      else
        let val : Res UInt8 := do
          let b ← shr8 (← at? r r.byteOffset) r.bitOffset
          if newBit ≠ 0 then
            let lowBit := 8 - r.bitOffset
            let trailingZeros := 8 - newBit
            let rightShift := trailingZeros - lowBit
            let hi ← shr8 (← shl8 (← at? r newByte) trailingZeros) rightShift
            pure (b ||| hi)
          else pure b
        match val with
        | .ok b => (.ok b, { r with byteOffset := newByte, bitOffset := newBit })
        | .err e => (.err e, r)
        | .panic k => (.panic k, r)
    else
      let high := r.bitOffset + count
      let low := r.bitOffset
      let val : Res UInt8 := do
        shr8 (← shl8 (← at? r r.byteOffset) (8 - high)) (8 - (high - low))
      match val with
      | .ok b => (.ok b, { r with bitOffset := high })
      | .err e => (.err e, r)
      | .panic k => (.panic k, r)

/-- `get_bit`, src/msgs/encoding.rs 213-215. -/
def getBit : R UInt8 := getBits 1

/-- `from_le_bytes` (src/msgs/encoding.rs 232, 267-269, 289). -/
def fromLe : Bytes → Nat
  | [] => 0
  | b :: bs => b.toNat + 256 * fromLe bs

/-- `get_u16`, src/msgs/encoding.rs 220-233. -/
def getU16 : R UInt16 := fun r =>
  if !r.isAligned then (.err (.read .unaligned), r)
  else if r.remaining < 2 then (.err (.read .bufferEmpty), r)
  else
    let s := (r.buf.drop r.byteOffset).take 2
    (.ok (UInt16.ofNat (fromLe s)), { r with byteOffset := r.byteOffset + 2 })

/-- `get_slice`, src/msgs/encoding.rs 240-257.  `cap` is the length of the destination slice; the
function returns the `size` bytes copied to its front. -/
def getSlice (size cap : Nat) : R Bytes := fun r =>
  if !r.isAligned then (.err (.read .unaligned), r)
  else if r.remaining < size then (.err (.read .bufferEmpty), r)
  else
    let r' := { r with byteOffset := r.byteOffset + size }
    if size ≤ cap then (.ok ((r.buf.drop r.byteOffset).take size), r')
    else (.panic .indexOutOfBounds, r')

/-- `get_u24`, src/msgs/encoding.rs 262-272. -/
def getU24 : R Nat := fun r =>
  if !r.isAligned then (.err (.read .unaligned), r)
  else (do
    let a ← getByte
    let b ← getByte
    let c ← getByte
    pure (fromLe [a, b, c])) r

/-- `get_u32`, src/msgs/encoding.rs 277-290. -/
def getU32 : R UInt32 := fun r =>
  if !r.isAligned then (.err (.read .unaligned), r)
  else if r.remaining < 4 then (.err (.read .bufferEmpty), r)
  else
    let s := (r.buf.drop r.byteOffset).take 4
    (.ok (UInt32.ofNat (fromLe s)), { r with byteOffset := r.byteOffset + 4 })

end Reader
end Spdm
