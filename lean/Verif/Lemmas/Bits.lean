import Verif.Spec
import Verif.Lemmas.Reader
/-! Bit-level lemmas for `get_bits`. -/
namespace Spdm

theorem bitsVal_testBit (l : List Bool) (i : Nat) :
    (Spec.bitsVal l).testBit i = (l[i]?).getD false := by
  induction l generalizing i with
  | nil => simp [Spec.bitsVal]
  | cons b bs ih =>
    cases i with
    | zero => cases b <;> simp [Spec.bitsVal]
    | succ i =>
      simp only [Spec.bitsVal, Nat.testBit_succ]
      have : (b.toNat + 2 * Spec.bitsVal bs) / 2 = Spec.bitsVal bs := by
        cases b <;> simp <;> omega
      rw [this, ih]; simp

theorem bits_length (buf : Bytes) : (Spec.bits buf).length = 8 * buf.length := by
  induction buf with
  | nil => rfl
  | cons b bs ih => simp only [Spec.bits, List.flatMap_cons, List.length_append] at ih ⊢
                    rw [ih]; simp; omega

theorem bits_getElem? (buf : Bytes) (j : Nat) :
    (Spec.bits buf)[j]? = (buf[j / 8]?).map (fun b => b.toNat.testBit (j % 8)) := by
  induction buf generalizing j with
  | nil => simp [Spec.bits]
  | cons b bs ih =>
    have e : Spec.bits (b :: bs) = (List.range 8).map (fun i => b.toNat.testBit i) ++ Spec.bits bs := by
      simp [Spec.bits]
    rw [e]
    by_cases h : j < 8
    · rw [List.getElem?_append_left (by simpa using h)]
      have : j / 8 = 0 := by omega
      have h2 : j % 8 = j := by omega
      simp [this, h2, h]
    · rw [List.getElem?_append_right (by simp; omega)]
      simp only [List.length_map, List.length_range]
      rw [ih]
      have h1 : j / 8 = (j - 8) / 8 + 1 := by omega
      have h2 : j % 8 = (j - 8) % 8 := by omega
      rw [h1, h2]; simp

/-- A reader position that can arise: inside the buffer, or aligned at its end. -/
def Reader.Valid (r : Reader) : Prop :=
  r.byteOffset ≤ r.buf.length ∧ r.bitOffset < 8 ∧ (r.byteOffset = r.buf.length → r.bitOffset = 0)

/-- The position in bits. -/
def Reader.pos (r : Reader) : Nat := 8 * r.byteOffset + r.bitOffset

theorem or_eq_add_of_lt {a b k : Nat} (ha : a < 2 ^ k) : a ||| (b * 2 ^ k) = a + b * 2 ^ k := by
  rw [Nat.or_comm, Nat.add_comm a, Nat.mul_comm b]
  exact (Nat.two_pow_add_eq_or_of_lt ha b).symm

theorem stream_val (buf : Bytes) (i bit n : Nat) (b0 b1 : UInt8) (hbit : bit < 8) (hn : n ≤ 7)
    (h0 : buf[i]? = some b0) (h1 : 8 < bit + n → buf[i + 1]? = some b1) :
    Spec.bitsVal (((Spec.bits buf).drop (8 * i + bit)).take n) =
      (b0.toNat + (if 8 < bit + n then 256 * b1.toNat else 0)) / 2 ^ bit % 2 ^ n := by
  apply Nat.eq_of_testBit_eq
  intro j
  rw [bitsVal_testBit, Nat.testBit_mod_two_pow, Nat.testBit_div_two_pow]
  have hb0 : b0.toNat < 2 ^ 8 := b0.toNat_lt
  by_cases hj : j < n
  · simp only [hj, decide_true, Bool.true_and]
    rw [List.getElem?_take_of_lt hj, List.getElem?_drop, bits_getElem?]
    by_cases hc : bit + j < 8
    · have e1 : (8 * i + bit + j) / 8 = i := by omega
      have e2 : (8 * i + bit + j) % 8 = bit + j := by omega
      rw [e1, e2, h0]
      simp only [Option.map_some, Option.getD_some]
      split
      · have := Nat.testBit_two_pow_mul_add b1.toNat hb0 (j + bit)
        rw [show (2:Nat) ^ 8 = 256 from rfl] at this
        rw [Nat.add_comm b0.toNat, this, if_pos (by omega), Nat.add_comm]
      · rw [Nat.add_zero, Nat.add_comm]
    · have e1 : (8 * i + bit + j) / 8 = i + 1 := by omega
      have e2 : (8 * i + bit + j) % 8 = bit + j - 8 := by omega
      rw [e1, e2, h1 (by omega), if_pos (by omega)]
      have := Nat.testBit_two_pow_mul_add b1.toNat hb0 (j + bit)
      rw [show (2:Nat) ^ 8 = 256 from rfl] at this
      rw [Nat.add_comm b0.toNat, this, if_neg (by omega)]
      simp [Nat.add_comm]
  · rw [List.getElem?_take_eq_none (by omega)]
    simp [hj]

/-- The value of the code's expression across a byte boundary. -/
theorem cross_val (b0 b1 : UInt8) (bit n : Nat) (hbit : bit < 8) (hn : n ≤ 7) (h : 8 < bit + n) :
    (UInt8.ofNat (b0.toNat / 2 ^ bit) |||
      UInt8.ofNat ((UInt8.ofNat (b1.toNat * 2 ^ (8 - (bit + n - 8)))).toNat /
        2 ^ (8 - (bit + n - 8) - (8 - bit)))).toNat =
      (b0.toNat + 256 * b1.toNat) / 2 ^ bit % 2 ^ n := by
  have hb0 : b0.toNat < 256 := b0.toNat_lt
  have hb1 : b1.toNat < 256 := b1.toNat_lt
  rw [UInt8.toNat_or]
  simp only [UInt8.toNat_ofNat']
  have key : b1.toNat * 2 ^ (8 - (bit + n - 8)) % 2 ^ 8 / 2 ^ (8 - (bit + n - 8) - (8 - bit)) % 2 ^ 8
      = (b1.toNat % 2 ^ (bit + n - 8)) * 2 ^ (8 - bit) := by
    interval_cases bit <;> interval_cases n <;> simp_all <;> omega
  rw [key, or_eq_add_of_lt]
  · interval_cases bit <;> interval_cases n <;> simp_all <;> omega
  · interval_cases bit <;> simp <;> omega

theorem within_val (b0 : UInt8) (bit n : Nat) (hbit : bit < 8) (hn : 1 ≤ n) (h : bit + n < 8) :
    (UInt8.ofNat ((UInt8.ofNat (b0.toNat * 2 ^ (8 - (bit + n)))).toNat /
        2 ^ (8 - (bit + n - bit)))).toNat = b0.toNat / 2 ^ bit % 2 ^ n := by
  have hb0 : b0.toNat < 256 := b0.toNat_lt
  simp only [UInt8.toNat_ofNat']
  have : n ≤ 7 := by omega
  interval_cases bit <;> interval_cases n <;> simp_all <;> omega

/-- `get_bits` against the bit stream. -/
theorem getBits_spec (r : Reader) (n : Nat) (hr : r.Valid) (h1 : 1 ≤ n) (h7 : n ≤ 7) :
    (r.pos + n ≤ 8 * r.buf.length →
      ∃ v r', Reader.getBits n r = (.ok v, r') ∧ r'.buf = r.buf ∧ r'.Valid ∧ r'.pos = r.pos + n ∧
        v.toNat = Spec.bitsVal (((Spec.bits r.buf).drop r.pos).take n)) ∧
    (8 * r.buf.length < r.pos + n → Reader.getBits n r = (.err (.read .bufferEmpty), r)) := by
  obtain ⟨hle, hbit, hend⟩ := hr
  obtain ⟨buf, i, bit⟩ := r
  simp only [Reader.pos] at *
  constructor
  · intro hfit
    have hi : i < buf.length := by omega
    obtain ⟨b0, hb0⟩ : ∃ b, buf[i]? = some b := ⟨buf[i], by simp [hi]⟩
    have hat0 : ∀ k, Reader.at? ⟨buf, i, k⟩ i = .ok b0 := by intro k; simp [Reader.at?, hb0]
    unfold Reader.getBits
    rw [if_neg (by simp [Reader.isEmpty]; omega), if_neg (by omega)]
    by_cases hc : bit + n ≥ 8
    · simp only [hc, if_true]
      by_cases h8 : bit + n = 8
      · have hz : bit + n - 8 = 0 := by omega
        simp only [hz, ne_eq, not_true, and_false, if_false, hat0, Res.ok_bind, Reader.shr8, hbit,
          if_true, Res.pure_eq]
        refine ⟨_, _, rfl, rfl, ⟨?_, ?_, ?_⟩, ?_, ?_⟩
        · simp; omega
        · simp
        · simp
        · simp; omega
        · rw [stream_val buf i bit n b0 0 hbit h7 hb0 (by omega)]
          rw [if_neg (by omega), Nat.add_zero]
          rw [UInt8.toNat_ofNat']
          have hb : b0.toNat < 256 := b0.toNat_lt
          interval_cases bit <;> interval_cases n <;> simp_all <;> omega
      · have hi1 : i + 1 < buf.length := by omega
        obtain ⟨b1, hb1⟩ : ∃ b, buf[i + 1]? = some b := ⟨buf[i + 1], by simp [hi1]⟩
        have hat1 : ∀ k, Reader.at? ⟨buf, i, k⟩ (i + 1) = .ok b1 := by
          intro k; simp [Reader.at?, hb1]
        have hnz : ¬ (bit + n - 8 = 0) := by omega
        have hne : ¬ (i + 1 = buf.length) := by omega
        have l1 : 8 - (bit + n - 8) < 8 := by omega
        have l2 : 8 - (bit + n - 8) - (8 - bit) < 8 := by omega
        simp only [hne, false_and, if_false, hat0, hat1, Res.ok_bind, Reader.shr8, Reader.shl8, hbit,
          if_true, Res.pure_eq, ne_eq, hnz, not_false_eq_true, l1, l2]
        refine ⟨_, _, rfl, rfl, ⟨?_, ?_, ?_⟩, ?_, ?_⟩
        · simp; omega
        · simp; omega
        · simp; omega
        · simp; omega
        · rw [stream_val buf i bit n b0 b1 hbit h7 hb0 (fun _ => hb1)]
          rw [if_pos (by omega)]
          exact cross_val b0 b1 bit n hbit h7 (by omega)
    · simp only [hc, if_false]
      have l1 : 8 - (bit + n) < 8 := by omega
      have l2 : 8 - (bit + n - bit) < 8 := by omega
      simp only [hat0, Res.ok_bind, Reader.shr8, Reader.shl8, l1, l2, if_true]
      refine ⟨_, _, rfl, rfl, ⟨?_, ?_, ?_⟩, ?_, ?_⟩
      · simp; omega
      · simp; omega
      · simp; omega
      · simp; omega
      · rw [stream_val buf i bit n b0 0 hbit h7 hb0 (by omega)]
        rw [if_neg (by omega), Nat.add_zero]
        exact within_val b0 bit n hbit h1 (by omega)
  · intro hno
    unfold Reader.getBits
    by_cases he : i = buf.length
    · rw [if_pos (by simp [Reader.isEmpty, he])]
    · have : i + 1 = buf.length := by omega
      rw [if_neg (by simp [Reader.isEmpty]; omega), if_neg (by omega)]
      have h8 : bit + n ≥ 8 := by omega
      simp only [h8, if_true]
      rw [if_pos ⟨this, by omega⟩]

end Spdm
