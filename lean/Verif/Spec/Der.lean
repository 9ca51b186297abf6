import Verif.Spec.Wire
/-!
# DER, as far as ECDSA signatures need it (X.690 8.1, 8.3, 10.1; RFC 3279 2.2.3)
-/
namespace Spdm.Spec

/-- Big-endian value. -/
def beVal (bs : Bytes) : Nat := bs.foldl (fun n b => n * 256 + b.toNat) 0

/-- `bs` is the DER encoding of the positive integer `n`: tag 2, length, and two's complement contents of minimal length — the sign bit is
clear, and a zero first octet is only there to clear it. -/
def IsDerInteger (bs : Bytes) (n : Nat) : Prop :=
  ∃ content : Bytes, bs = [0x02] ++ derLen content.length ++ content ∧ beVal content = n ∧
    (∃ b, content[0]? = some b ∧ b.toNat < 128) ∧
    (content[0]? = some 0 → ∃ b, content[1]? = some b ∧ 128 ≤ b.toNat)

/-- `bs` is `SEQUENCE { r INTEGER, s INTEGER }`. -/
def IsDerSignature (bs : Bytes) (r s : Nat) : Prop :=
  ∃ a b, IsDerInteger a r ∧ IsDerInteger b s ∧ bs = [0x30] ++ derLen (a ++ b).length ++ (a ++ b)

/-- A raw signature: two big-endian integers, each half of it. -/
def rawR (sig : Bytes) : Nat := beVal (sig.take (sig.length / 2))
def rawS (sig : Bytes) : Nat := beVal (sig.drop (sig.length / 2))

end Spdm.Spec
