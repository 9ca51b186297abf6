import Verif.Msgs.Header
import Verif.Lemmas.Writer
import Mathlib.Tactic.IntervalCases
/-! Lemmas about the Reader. -/
namespace Spdm

theorem fromLe_leBytes (k n : Nat) : Reader.fromLe (Writer.leBytes k n) = n % 256 ^ k := by
  induction k generalizing n with
  | zero => simp [Writer.leBytes, Reader.fromLe]; omega
  | succ k ih =>
    simp only [Writer.leBytes, Reader.fromLe, ih]
    have h : (UInt8.ofNat (n % 256)).toNat = n % 256 := by
      simp [UInt8.toNat_ofNat']
    rw [h, Nat.pow_succ, Nat.mul_comm (256 ^ k) 256, Nat.mod_mul]

/-- `p`, started aligned in front of `bs`, consumes exactly `bs` and returns `a`. -/
def Reads {α : Type} (p : R α) (bs : Bytes) (a : α) : Prop :=
  ∀ pre suf : Bytes, p ⟨pre ++ (bs ++ suf), pre.length, 0⟩ =
    (.ok a, ⟨pre ++ (bs ++ suf), pre.length + bs.length, 0⟩)

namespace Reads
variable {α β : Type}

theorem pure (a : α) : Reads (Pure.pure a : R α) [] a := by
  intro pre suf; simp

theorem bind {p : R α} {q : α → R β} {bs cs : Bytes} {a : α} {b : β}
    (hp : Reads p bs a) (hq : Reads (q a) cs b) : Reads (p >>= q) (bs ++ cs) b := by
  intro pre suf
  have h1 := hp pre (cs ++ suf)
  have h2 := hq (pre ++ bs) suf
  rw [List.append_assoc, M.run_bind_ok h1]
  simp only [List.append_assoc, List.length_append] at h2 ⊢
  rw [h2, Nat.add_assoc]

theorem congr {p : R α} {bs cs : Bytes} {a : α} (hp : Reads p bs a) (h : bs = cs) :
    Reads p cs a := h ▸ hp

theorem lift_bind {x : Res α} {a : α} {q : α → R β} {cs : Bytes} {b : β} (hx : x = .ok a)
    (hq : Reads (q a) cs b) : Reads (M.lift x >>= q) cs b := by
  subst hx; exact hq

theorem mapErr {p : R α} {bs : Bytes} {a : α} (F : Err → Err) (hp : Reads p bs a) :
    Reads (M.mapErr F p) bs a := by
  intro pre suf
  simp [M.mapErr, hp pre suf]

theorem parse {p : R α} {bs : Bytes} {a : α} (hp : Reads p bs a) (suf : Bytes) :
    (p (Reader.new (bs ++ suf))).1 = .ok a := by
  have := hp [] suf
  simp only [List.nil_append, List.length_nil] at this
  simp [Reader.new, this]

theorem getByte (b : UInt8) : Reads Reader.getByte [b] b := by
  intro pre suf
  simp [Reader.getByte, Reader.isAligned, Reader.isEmpty]

theorem skipReserved (n : Nat) : Reads (Reader.skipReserved n) (List.replicate n 0) () := by
  induction n with
  | zero => exact pure ()
  | succ n ih => exact (getByte 0).bind (by simpa using ih)

theorem skipIgnored (bs : Bytes) : Reads (Reader.skipIgnored bs.length) bs () := by
  induction bs with
  | nil => exact pure ()
  | cons b bs ih => exact (getByte b).bind ih

theorem getSlice (bs : Bytes) {n cap : Nat} (h : bs.length = n) (hc : n ≤ cap) :
    Reads (Reader.getSlice n cap) bs bs := by
  subst h
  intro pre suf
  simp [Reader.getSlice, Reader.isAligned, Reader.remaining, hc]

theorem getU16 (n : UInt16) : Reads Reader.getU16 (Writer.leBytes 2 n.toNat) n := by
  intro pre suf
  unfold Reader.getU16
  rw [if_neg (by simp [Reader.isAligned]), if_neg (by simp [Reader.remaining])]
  simp only [List.length_append, leBytes_length]
  rw [List.drop_left, List.take_left' (by simp), fromLe_leBytes]
  have : n.toNat % 256 ^ 2 = n.toNat := Nat.mod_eq_of_lt n.toNat_lt
  rw [this, UInt16.ofNat_toNat]

theorem getU32 (n : UInt32) : Reads Reader.getU32 (Writer.leBytes 4 n.toNat) n := by
  intro pre suf
  unfold Reader.getU32
  rw [if_neg (by simp [Reader.isAligned]), if_neg (by simp [Reader.remaining])]
  simp only [List.length_append, leBytes_length]
  rw [List.drop_left, List.take_left' (by simp), fromLe_leBytes]
  have : n.toNat % 256 ^ 4 = n.toNat := Nat.mod_eq_of_lt n.toNat_lt
  rw [this, UInt32.ofNat_toNat]

theorem getU24 (n : Nat) (hn : n < 2 ^ 24) : Reads Reader.getU24 (Writer.leBytes 3 n) n := by
  have h : Reads (do
      let a ← Reader.getByte
      let b ← Reader.getByte
      let c ← Reader.getByte
      Pure.pure (Reader.fromLe [a, b, c])) (Writer.leBytes 3 n) n := by
    have e : Writer.leBytes 3 n = [UInt8.ofNat (n % 256)] ++ ([UInt8.ofNat (n / 256 % 256)] ++
        ([UInt8.ofNat (n / 256 / 256 % 256)] ++ [])) := rfl
    rw [e]
    refine (getByte _).bind ((getByte _).bind ((getByte _).bind ?_))
    have h2 := fromLe_leBytes 3 n
    rw [Nat.mod_eq_of_lt (by simpa using hn)] at h2
    have h3 : Reader.fromLe [UInt8.ofNat (n % 256), UInt8.ofNat (n / 256 % 256),
      UInt8.ofNat (n / 256 / 256 % 256)] = n := h2
    rw [h3]
    exact pure n
  intro pre suf
  have := h pre suf
  unfold Reader.getU24
  rw [if_neg (by simp [Reader.isAligned])]
  exact this

end Reads

/-- Bits `bit .. bit+n` of a byte. -/
def bitField (b : UInt8) (bit n : Nat) : UInt8 := UInt8.ofNat (b.toNat / 2 ^ bit % 2 ^ n)

theorem bitField_toNat (b : UInt8) (bit n : Nat) (hn : n ≤ 8) :
    (bitField b bit n).toNat = b.toNat / 2 ^ bit % 2 ^ n := by
  unfold bitField
  rw [UInt8.toNat_ofNat']
  apply Nat.mod_eq_of_lt
  calc b.toNat / 2 ^ bit % 2 ^ n < 2 ^ n := Nat.mod_lt _ (Nat.two_pow_pos n)
    _ ≤ 2 ^ 8 := Nat.pow_le_pow_right (by omega) hn

/-- A bit read inside one byte. -/
theorem getBits_run (pre suf : Bytes) (b : UInt8) (bit n : Nat) (hn : 1 ≤ n) (hn7 : n ≤ 7)
    (h8 : bit + n ≤ 8) :
    Reader.getBits n ⟨pre ++ b :: suf, pre.length, bit⟩ =
      (.ok (bitField b bit n),
        if bit + n = 8 then ⟨pre ++ b :: suf, pre.length + 1, 0⟩
        else ⟨pre ++ b :: suf, pre.length, bit + n⟩) := by
  have hb := b.toNat_lt
  have hat : ∀ k, Reader.at? ⟨pre ++ b :: suf, pre.length, k⟩ pre.length = .ok b := by
    intro k; simp [Reader.at?]
  have hb256 : b.toNat < 256 := hb
  unfold Reader.getBits
  rw [if_neg (by simp [Reader.isEmpty]), if_neg (by omega)]
  by_cases h : bit + n = 8
  · rw [if_pos h]
    simp only [ge_iff_le, h, Nat.le_refl, if_true, Nat.sub_self, ne_eq, not_true, and_false,
      if_false, hat, Res.ok_bind, Reader.shr8, Res.pure_eq]
    rw [if_pos (by omega)]
    simp only [Res.ok_bind, bitField]
    have h1 : n = 8 - bit := by omega
    have hlt : b.toNat / 2 ^ bit % 2 ^ n = b.toNat / 2 ^ bit := by
      subst h1
      have : bit ≤ 7 := by omega
      interval_cases bit <;> simp <;> omega
    rw [hlt]
  · rw [if_neg h]
    have h2 : ¬ (bit + n ≥ 8) := by omega
    simp only [h2, if_false, hat, Res.ok_bind, Reader.shl8, Reader.shr8]
    have h3 : 8 - (bit + n) < 8 := by omega
    have h4 : 8 - (bit + n - bit) < 8 := by omega
    simp only [h3, h4, if_true, Res.ok_bind]
    have : (UInt8.ofNat ((UInt8.ofNat (b.toNat * 2 ^ (8 - (bit + n)))).toNat /
        2 ^ (8 - (bit + n - bit)))) = bitField b bit n := by
      unfold bitField
      congr 1
      rw [UInt8.toNat_ofNat']
      have : bit ≤ 6 := by omega
      interval_cases bit <;> interval_cases n <;> simp_all <;> omega
    rw [this]

end Spdm
