import Verif.Encoding
/-!
# Message headers: src/msgs/mod.rs
-/
namespace Spdm

/-- The fifteen types implementing `Msg` (src/msgs/mod.rs 45). -/
inductive MsgType
  | getVersion | version | getCapabilities | capabilities
  | negotiateAlgorithms | algorithms | getDigests | digests
  | getCertificate | certificate | challenge | challengeAuth
  | getMeasurements | measurements | error
  deriving DecidableEq, Repr

namespace MsgType

/-- `SPDM_VERSION`: src/msgs/version.rs 17, 83; src/msgs/capabilities.rs 84, 192; src/msgs/algorithms.rs 430, 607;
src/msgs/digest.rs 25, 57; src/msgs/certificates.rs 29, 67; src/msgs/challenge.rs 79, 158; src/msgs/measurements.rs 170, 859;
src/msgs/error.rs 94. -/
def spdmVersion : MsgType → UInt8
  | getVersion => 0x10 | version => 0x10
  | getCapabilities => 0x11 | capabilities => 0x11
  | negotiateAlgorithms => 0x11 | algorithms => 0x11
  | getDigests => 0x11 | digests => 0x11
  | getCertificate => 0x11 | certificate => 0x11
  | challenge => 0x11 | challengeAuth => 0x11
  | getMeasurements => 0x12 | measurements => 0x12
  | error => 0x12

/-- `SPDM_CODE`: src/msgs/version.rs 19, 85; src/msgs/capabilities.rs 86, 194; src/msgs/algorithms.rs 432, 609;
src/msgs/digest.rs 27, 59; src/msgs/certificates.rs 31, 69; src/msgs/challenge.rs 80, 159; src/msgs/measurements.rs 172, 861;
src/msgs/error.rs 95. -/
def spdmCode : MsgType → UInt8
  | getVersion => 0x84 | version => 0x04
  | getCapabilities => 0xE1 | capabilities => 0x61
  | negotiateAlgorithms => 0xE3 | algorithms => 0x63
  | getDigests => 0x81 | digests => 0x01
  | getCertificate => 0x82 | certificate => 0x02
  | challenge => 0x83 | challengeAuth => 0x03
  | getMeasurements => 0xE0 | measurements => 0x60
  | error => 0x7F

/-- `parse_header`, src/msgs/mod.rs 68-79. -/
def parseHeader (t : MsgType) (buf : Bytes) : Res Bool :=
  if ¬ (buf.length > 2) then .panic .assertion
  else match buf[0]?, buf[1]? with
    | some b0, some b1 =>
      if b1 ≠ t.spdmCode then .ok false
      else if b0 = t.spdmVersion then .ok true
      else .err .parseHeader
    | _, _ => .panic .indexOutOfBounds

/-- `write_header`, src/msgs/mod.rs 97-100. -/
def writeHeader (t : MsgType) : W Nat := do
  let _ ← Writer.put t.spdmVersion
  Writer.put t.spdmCode

/-- `write` as a writer action (header, then body), src/msgs/mod.rs 83-87. -/
def writeMsg (t : MsgType) (body : W Nat) : W Nat := do
  let _ ← writeHeader t
  body

/-- `write`, src/msgs/mod.rs 83-87: on a caller-provided buffer; returns the outcome
and the final buffer. -/
def write (t : MsgType) (body : W Nat) (buf : Bytes) : Res Nat × Bytes :=
  let (res, w) := writeMsg t body (Writer.new buf)
  (res, w.buf)

end MsgType

/-- `HEADER_SIZE`, src/msgs/mod.rs 42. -/
def headerSize : Nat := 2

/-- `&buf[i..]`.  For example src/msgs/certificates.rs 285. -/
def sliceFrom (buf : Bytes) (i : Nat) : Res Bytes :=
  if i ≤ buf.length then .ok (buf.drop i) else .panic .indexOutOfBounds

/-- `&buf[..n]`.  For example src/msgs/certificates.rs 78. -/
def sliceTo {α : Type} (buf : List α) (n : Nat) : Res (List α) :=
  if n ≤ buf.length then .ok (buf.take n) else .panic .indexOutOfBounds

/-- `arr[i]`.  For example src/responder/id_auth.rs 133-150. -/
def index {α : Type} (l : List α) (i : Nat) : Res α :=
  match l[i]? with
  | some a => .ok a
  | none => .panic .indexOutOfBounds

/-- `arr[i] = v`.  For example src/msgs/version.rs 137-144. -/
def setIndex {α : Type} (l : List α) (i : Nat) (v : α) : Res (List α) :=
  if i < l.length then .ok (l.set i v) else .panic .indexOutOfBounds

/-- Copy `bs` to the front of a zeroed array of `n` bytes (`let mut a = [0u8; N];
a[..bs.len()] = bs`).  For example src/msgs/certificates.rs 106. -/
def zeroPad (n : Nat) (bs : Bytes) : Bytes := bs ++ List.replicate (n - bs.length) 0

/-- `T::from_bits(bits).ok_or(..)` of the `bitflags` crate: all bits must be defined ones.  src/msgs/algorithms.rs 473, 648. -/
def fromBits8 (mask bits : UInt8) (e : Err) : Res UInt8 :=
  if bits &&& ~~~mask = 0 then .ok bits else .err e
/-- The same for 16 bits, src/msgs/algorithms.rs 317, 334, 352, 372. -/
def fromBits16 (mask bits : UInt16) (e : Err) : Res UInt16 :=
  if bits &&& ~~~mask = 0 then .ok bits else .err e
/-- The same for 32 bits, src/msgs/algorithms.rs 481, 487, 661, 672, 679, src/msgs/capabilities.rs 107, 215. -/
def fromBits32 (mask bits : UInt32) (e : Err) : Res UInt32 :=
  if bits &&& ~~~mask = 0 then .ok bits else .err e

/-- `count_ones`.  src/msgs/algorithms.rs 652, 665, 674, 681, 742-760. -/
def countOnes (n : Nat) : Nat → Nat
  | 0 => 0
  | k + 1 => (n.testBit k).toNat + countOnes n k

/-- `trailing_zeros` of a word of `width` bits: index of the lowest set bit, `width` if none.  src/msgs/digest.rs 91, 97, 109, 113, src/responder/algorithms.rs 71. -/
def trailingZeros (width n : Nat) : Nat :=
  ((List.range width).find? (fun i => n.testBit i)).getD width

end Spdm
