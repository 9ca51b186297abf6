import Verif.Lemmas.Bits
/-! A reader program is safe if it never panics and keeps the cursor inside the buffer. -/
namespace Spdm

/-- No panic, buffer unchanged, position stays valid and does not go back. -/
def Safe {α : Type} (p : R α) : Prop :=
  ∀ r : Reader, r.Valid → (p r).1.isPanic = false ∧ (p r).2.buf = r.buf ∧ (p r).2.Valid ∧
    r.pos ≤ (p r).2.pos

namespace Safe
variable {α β : Type}

theorem pure (a : α) : Safe (Pure.pure a : R α) := by
  intro r hr; exact ⟨rfl, rfl, hr, Nat.le_refl _⟩

theorem fail (e : Err) : Safe (M.fail e : R α) := by
  intro r hr; exact ⟨rfl, rfl, hr, Nat.le_refl _⟩

theorem lift {x : Res α} (h : x.isPanic = false) : Safe (M.lift x : R α) := by
  intro r hr; exact ⟨h, rfl, hr, Nat.le_refl _⟩

theorem get : Safe (M.get : R Reader) := by
  intro r hr; exact ⟨rfl, rfl, hr, Nat.le_refl _⟩

theorem bind {p : R α} {q : α → R β} (hp : Safe p) (hq : ∀ a, Safe (q a)) : Safe (p >>= q) := by
  intro r hr
  obtain ⟨h1, h2, h3, h4⟩ := hp r hr
  cases hpr : p r with
  | mk x r' =>
    rw [hpr] at h1 h2 h3 h4
    cases x with
    | ok a =>
      obtain ⟨g1, g2, g3, g4⟩ := hq a r' h3
      rw [M.run_bind_ok hpr]
      exact ⟨g1, g2.trans h2, g3, Nat.le_trans h4 g4⟩
    | err e => rw [M.run_bind_err hpr]; exact ⟨rfl, h2, h3, h4⟩
    | panic k => simp [Res.isPanic] at h1

/-- A bind whose first part ends only in values satisfying `P`. -/
theorem bind_of {p : R α} {q : α → R β} (P : α → Prop) (hp : Safe p)
    (hP : ∀ r a r', r.Valid → p r = (.ok a, r') → P a) (hq : ∀ a, P a → Safe (q a)) :
    Safe (p >>= q) := by
  intro r hr
  obtain ⟨h1, h2, h3, h4⟩ := hp r hr
  cases hpr : p r with
  | mk x r' =>
    rw [hpr] at h1 h2 h3 h4
    cases x with
    | ok a =>
      obtain ⟨g1, g2, g3, g4⟩ := hq a (hP r a r' hr hpr) r' h3
      rw [M.run_bind_ok hpr]
      exact ⟨g1, g2.trans h2, g3, Nat.le_trans h4 g4⟩
    | err e => rw [M.run_bind_err hpr]; exact ⟨rfl, h2, h3, h4⟩
    | panic k => simp [Res.isPanic] at h1

theorem ite {c : Prop} [Decidable c] {p q : R α} (hp : c → Safe p) (hq : ¬ c → Safe q) :
    Safe (if c then p else q) := by
  split
  · exact hp ‹_›
  · exact hq ‹_›

theorem mapErr {p : R α} (F : Err → Err) (hp : Safe p) : Safe (M.mapErr F p) := by
  intro r hr
  have h := hp r hr
  unfold M.mapErr
  cases hpr : p r with
  | mk x r' => cases x <;> simp_all [Res.isPanic]

theorem getByte : Safe Reader.getByte := by
  intro r ⟨h1, h2, h3⟩
  unfold Reader.getByte
  split
  · exact ⟨rfl, rfl, ⟨h1, h2, h3⟩, Nat.le_refl _⟩
  · rename_i ha
    split
    · exact ⟨rfl, rfl, ⟨h1, h2, h3⟩, Nat.le_refl _⟩
    · rename_i he
      have hlt : r.byteOffset < r.buf.length := by
        simp [Reader.isEmpty] at he; omega
      have hb : r.bitOffset = 0 := by simpa [Reader.isAligned] using ha
      have : r.buf[r.byteOffset]? = some r.buf[r.byteOffset] := by simp [hlt]
      rw [this]
      refine ⟨rfl, rfl, ⟨?_, ?_, ?_⟩, ?_⟩ <;> simp [Reader.pos] <;> omega

theorem skipReserved (n : Nat) : Safe (Reader.skipReserved n) := by
  induction n with
  | zero => exact pure ()
  | succ n ih =>
    exact getByte.bind (fun a => ite (fun _ => fail _) (fun _ => ih))

theorem skipIgnored (n : Nat) : Safe (Reader.skipIgnored n) := by
  induction n with
  | zero => exact pure ()
  | succ n ih => exact getByte.bind (fun a => ih)

theorem getBits {n : Nat} (h : 1 ≤ n) : Safe (Reader.getBits n) := by
  intro r hr
  by_cases h7 : n ≤ 7
  · obtain ⟨g1, g2⟩ := getBits_spec r n hr h h7
    by_cases hf : r.pos + n ≤ 8 * r.buf.length
    · obtain ⟨v, r', e, b, hv, hp, _⟩ := g1 hf
      rw [e]; exact ⟨rfl, b, hv, by simp only; omega⟩
    · rw [g2 (by omega)]; exact ⟨rfl, rfl, hr, Nat.le_refl _⟩
  · unfold Reader.getBits
    split
    · exact ⟨rfl, rfl, hr, Nat.le_refl _⟩
    · rw [if_pos (by omega)]; exact ⟨rfl, rfl, hr, Nat.le_refl _⟩

theorem getBit : Safe Reader.getBit := getBits (by omega)

theorem getU16 : Safe Reader.getU16 := by
  intro r ⟨h1, h2, h3⟩
  unfold Reader.getU16
  split
  · exact ⟨rfl, rfl, ⟨h1, h2, h3⟩, Nat.le_refl _⟩
  · rename_i ha
    have hb : r.bitOffset = 0 := by simpa [Reader.isAligned] using ha
    split
    · exact ⟨rfl, rfl, ⟨h1, h2, h3⟩, Nat.le_refl _⟩
    · rename_i hr
      simp only [Reader.remaining] at hr
      refine ⟨rfl, rfl, ⟨?_, ?_, ?_⟩, ?_⟩ <;> simp [Reader.pos] <;> omega

theorem getU32 : Safe Reader.getU32 := by
  intro r ⟨h1, h2, h3⟩
  unfold Reader.getU32
  split
  · exact ⟨rfl, rfl, ⟨h1, h2, h3⟩, Nat.le_refl _⟩
  · rename_i ha
    have hb : r.bitOffset = 0 := by simpa [Reader.isAligned] using ha
    split
    · exact ⟨rfl, rfl, ⟨h1, h2, h3⟩, Nat.le_refl _⟩
    · rename_i hr
      simp only [Reader.remaining] at hr
      refine ⟨rfl, rfl, ⟨?_, ?_, ?_⟩, ?_⟩ <;> simp [Reader.pos] <;> omega

theorem getU24 : Safe Reader.getU24 := by
  intro r hr
  unfold Reader.getU24
  split
  · exact ⟨rfl, rfl, hr, Nat.le_refl _⟩
  · exact (getByte.bind fun _ => getByte.bind fun _ => getByte.bind fun _ => pure _) r hr

theorem getSlice {size cap : Nat} (h : size ≤ cap) : Safe (Reader.getSlice size cap) := by
  intro r ⟨h1, h2, h3⟩
  unfold Reader.getSlice
  split
  · exact ⟨rfl, rfl, ⟨h1, h2, h3⟩, Nat.le_refl _⟩
  · rename_i ha
    have hb : r.bitOffset = 0 := by simpa [Reader.isAligned] using ha
    split
    · exact ⟨rfl, rfl, ⟨h1, h2, h3⟩, Nat.le_refl _⟩
    · rename_i hr
      simp only [Reader.remaining] at hr
      refine ⟨rfl, rfl, ⟨?_, ?_, ?_⟩, ?_⟩ <;> simp [Reader.pos] <;> omega

theorem parse {p : R α} (hp : Safe p) (buf : Bytes) : (p (Reader.new buf)).1.isPanic = false :=
  (hp _ ⟨by simp [Reader.new], by simp [Reader.new], by simp [Reader.new]⟩).1

end Safe
end Spdm
