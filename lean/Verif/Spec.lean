import Verif.Basic
/-!
# Specification vocabulary

Small, independent definitions used in the statements of the properties.  Nothing here refers to
the functions of the model (only to its data types).
-/
namespace Spdm.Spec

/-- Little-endian bytes of `n`: byte `i` is digit `i` in base 256. -/
def le (k n : Nat) : Bytes := (List.range k).map (fun i => UInt8.ofNat (n / 256 ^ i))

/-- `n` zero bytes. -/
def zeros (n : Nat) : Bytes := List.replicate n 0

/-- The bit stream of a buffer: every byte, least significant bit first. -/
def bits (buf : Bytes) : List Bool :=
  buf.flatMap (fun b => (List.range 8).map (fun i => b.toNat.testBit i))

/-- The number whose binary digits, least significant first, are the given bits. -/
def bitsVal : List Bool → Nat
  | [] => 0
  | b :: bs => b.toNat + 2 * bitsVal bs

end Spdm.Spec
