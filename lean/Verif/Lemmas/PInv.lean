import Verif.Props.Accepts
import Verif.Props.Parsers
import Verif.Spec.ParserPanics
/-! What a panicking read says about the bytes. -/
namespace Spdm
open Spec

/-- Whenever `p`, started aligned, panics, the bytes start with some `bs` with `P bs`. -/
def PInv {α : Type} (p : R α) (P : Bytes → Prop) : Prop :=
  ∀ pre tail, (p ⟨pre ++ tail, pre.length, 0⟩).1.isPanic = true → ∃ bs rest, tail = bs ++ rest ∧ P bs

def PInvB {α : Type} (bit : Nat) (p : R α) (P : UInt8 → Bytes → Prop) : Prop :=
  ∀ pre b tail, (p ⟨pre ++ b :: tail, pre.length, bit⟩).1.isPanic = true → ∃ bs rest, tail = bs ++ rest ∧ P b bs

theorem panic_bind_inv {σ α β : Type} {p : M σ α} {q : α → M σ β} {s : σ} (h : ((p >>= q) s).1.isPanic = true) :
    (p s).1.isPanic = true ∨ ∃ a s', p s = (.ok a, s') ∧ (q a s').1.isPanic = true := by
  rcases hr : p s with ⟨x, s'⟩
  cases x with
  | ok a => rw [M.run_bind_ok hr] at h; exact .inr ⟨a, s', rfl, h⟩
  | err e => rw [M.run_bind_err hr] at h; simp [Res.isPanic] at h
  | panic k => exact .inl rfl

namespace PInv
variable {α β : Type}

theorem mono {p : R α} {P Q : Bytes → Prop} (hp : PInv p P) (h : ∀ bs, P bs → Q bs) : PInv p Q := by
  intro pre tail hr
  obtain ⟨bs, rest, h1, h2⟩ := hp pre tail hr
  exact ⟨bs, rest, h1, h _ h2⟩

theorem safe {p : R α} (hp : Safe p) (P : Bytes → Prop) : PInv p P := by
  intro pre tail hr
  have := (hp ⟨pre ++ tail, pre.length, 0⟩ ⟨by simp, by simp, by simp⟩).1
  rw [this] at hr; simp at hr

theorem bind {p : R α} {q : α → R β} {P : Bytes → Prop} {Q : Bytes → α → Prop} {S : α → Bytes → Prop} (hp : PInv p P) (hi : Inverts p Q) (hq : ∀ a, PInv (q a) (S a)) :
    PInv (p >>= q) (fun bs => P bs ∨ ∃ b1 b2 a, bs = b1 ++ b2 ∧ Q b1 a ∧ S a b2) := by
  intro pre tail h
  rcases panic_bind_inv h with h | ⟨a, r', h1, h2⟩
  · obtain ⟨bs, rest, e1, e2⟩ := hp pre tail h
    exact ⟨bs, rest, e1, .inl e2⟩
  · obtain ⟨b1, rest1, e1, e2, e3⟩ := hi pre tail a r' h1
    subst e2
    have h2' : (q a ⟨(pre ++ b1) ++ rest1, (pre ++ b1).length, 0⟩).1.isPanic = true := by
      rw [← h2, e1]; simp
    obtain ⟨b2, rest2, g1, g2⟩ := hq a (pre ++ b1) rest1 h2'
    exact ⟨b1 ++ b2, rest2, by rw [e1, g1]; simp, .inr ⟨b1, b2, a, rfl, e3, g2⟩⟩

theorem then_ {p : R α} {q : α → R β} {Q : Bytes → α → Prop} {S : α → Bytes → Prop} (hp : Safe p) (hi : Inverts p Q) (hq : ∀ a, PInv (q a) (S a)) :
    PInv (p >>= q) (fun bs => ∃ b1 b2 a, bs = b1 ++ b2 ∧ Q b1 a ∧ S a b2) :=
  ((safe hp fun _ => False).bind hi hq).mono fun _ h => h.resolve_left id

theorem guard {c : Prop} [Decidable c] {e : Err} {q : R α} {Q : Bytes → Prop} (hq : ¬ c → PInv q Q) : PInv (if c then M.fail e else q) (fun bs => ¬ c ∧ Q bs) := by
  intro pre tail h
  by_cases hc : c
  · rw [if_pos hc] at h; simp [Res.isPanic] at h
  · rw [if_neg hc] at h
    obtain ⟨bs, rest, h1, h2⟩ := hq hc pre tail h
    exact ⟨bs, rest, h1, hc, h2⟩

theorem start {n : Nat} (hn : 1 ≤ n) {q : UInt8 → R α} {P : UInt8 → Bytes → Prop} (h : PInvB 0 (Reader.getBits n >>= q) P) :
    PInv (Reader.getBits n >>= q) (fun bs => ∃ b cs, bs = b :: cs ∧ P b cs) := by
  intro pre tail hr
  cases tail with
  | nil =>
    rcases panic_bind_inv hr with h1 | ⟨x, s, h1, _⟩
    · have := (Safe.getBits hn ⟨pre ++ [], pre.length, 0⟩ ⟨by simp, by simp, by simp⟩).1
      rw [this] at h1; simp at h1
    · simp [Reader.getBits, Reader.isEmpty] at h1
  | cons b tail =>
    obtain ⟨bs, rest, h1, h3⟩ := h pre b tail hr
    exact ⟨b :: bs, rest, by rw [h1]; rfl, b, bs, rfl, h3⟩

theorem parse {p : R α} {P : Bytes → Prop} (hp : PInv p P) {buf : Bytes} (h : (p (Reader.new buf)).1.isPanic = true) : ∃ bs rest, buf = bs ++ rest ∧ P bs := hp [] buf h

theorem getSlice (n cap : Nat) : PInv (Reader.getSlice n cap) (fun bs => bs.length = n ∧ cap < n) := by
  intro pre tail h
  unfold Reader.getSlice at h
  rw [if_neg (by simp [Reader.isAligned])] at h
  split at h
  · simp [Res.isPanic] at h
  · rename_i hr
    simp only [Reader.remaining, List.length_append, Nat.add_sub_cancel_left] at hr
    simp only at h
    split at h
    · simp [Res.isPanic] at h
    · exact ⟨tail.take n, tail.drop n, (List.take_append_drop _ _).symm, by simp; omega, by omega⟩

/-- A measured read followed by something harmless can only panic in the read. -/
theorem measured {p : R α} {q : α → R β} {P : Bytes → Prop} {size : Nat} {e : Err} (hp : PInv p P) (hq : ∀ a r, (q a r).1.isPanic = false) :
    PInv (do
      let r ← M.get
      let offset := r.byteOffset
      let x ← p
      let r ← M.get
      if size ≠ r.byteOffset - offset then M.fail e else q x) P := by
  intro pre tail h
  rw [M.run_bind_ok (M.run_get _)] at h
  rcases panic_bind_inv h with h | ⟨a, r', h1, h2⟩
  · exact hp pre tail h
  · rw [M.run_bind_ok (M.run_get _), M.ite_run] at h2
    split at h2
    · simp [Res.isPanic] at h2
    · rw [hq] at h2; simp at h2

end PInv

namespace PInvB
variable {α β : Type}

theorem bits {bit n : Nat} {q : UInt8 → R α} {Q : UInt8 → UInt8 → Bytes → Prop} (hn : 1 ≤ n) (h8 : bit + n < 8) (hq : ∀ x, PInvB (bit + n) (q x) (Q x)) :
    PInvB bit (Reader.getBits n >>= q) (fun b bs => Q (bitField b bit n) b bs) := by
  intro pre b tail hr
  have := getBits_run pre tail b bit n hn (by omega) (by omega)
  rw [if_neg (by omega)] at this
  rw [M.run_bind_ok this] at hr
  exact hq _ pre b tail hr

theorem last {bit n : Nat} {q : UInt8 → R α} {Q : UInt8 → Bytes → Prop} (hn : 1 ≤ n) (h7 : n ≤ 7) (h8 : bit + n = 8) (hq : ∀ x, PInv (q x) (Q x)) :
    PInvB bit (Reader.getBits n >>= q) (fun b bs => Q (bitField b bit n) bs) := by
  intro pre b tail hr
  have := getBits_run pre tail b bit n hn h7 (by omega)
  rw [if_pos h8] at this
  rw [M.run_bind_ok this] at hr
  exact hq _ (pre ++ [b]) tail (by rw [← hr]; simp)

theorem guard {bit : Nat} {c : Prop} [Decidable c] {e : Err} {q : R α} {Q : UInt8 → Bytes → Prop} (hq : ¬ c → PInvB bit q Q) :
    PInvB bit (if c then M.fail e else q) (fun b bs => ¬ c ∧ Q b bs) := by
  intro pre b tail h
  by_cases hc : c
  · rw [if_pos hc] at h; simp [Res.isPanic] at h
  · rw [if_neg hc] at h
    obtain ⟨bs, rest, h1, h2⟩ := hq hc pre b tail h
    exact ⟨bs, rest, h1, hc, h2⟩

theorem lift_bind {bit : Nat} {x : Res α} {q : α → R β} {Q : α → UInt8 → Bytes → Prop} (hx : x.isPanic = false) (hq : ∀ a, PInvB bit (q a) (Q a)) :
    PInvB bit (M.lift x >>= q) (fun b bs => ∃ a, x = .ok a ∧ Q a b bs) := by
  intro pre b tail h
  rcases panic_bind_inv h with h | ⟨a, s, h1, h2⟩
  · rw [M.run_lift] at h; simp only at h; rw [hx] at h; simp at h
  · simp only [M.run_lift, Prod.mk.injEq] at h1
    obtain ⟨h1, rfl⟩ := h1
    obtain ⟨bs, rest, e1, e2⟩ := hq a pre b tail h2
    exact ⟨bs, rest, e1, a, h1, e2⟩

theorem dropLast {q : Unit → R α} {Q : Bytes → Prop} (hq : PInv (q ()) Q) : PInvB 6 (Measurements.dropResult (Reader.getBits 2) >>= q) (fun _ bs => Q bs) := by
  intro pre b tail hr
  rw [dropResult_run] at hr
  exact hq (pre ++ [b]) tail hr

end PInvB

/-! ### Array loops -/

theorem setIndex_panic {α : Type} {l : List α} {i : Nat} {a : α} (h : (setIndex l i a).isPanic = true) : l.length ≤ i := by
  unfold setIndex at h
  split at h
  · simp [Res.isPanic] at h
  · omega

theorem pinv_array {α β : Type} {loop : Nat → Nat → List β → R (List β)} {item : R α} {f : α → β} {Wr : Bytes → α → Prop} {P : Bytes → Prop}
    (h0 : ∀ i l, loop 0 i l = pure l)
    (hs : ∀ n i l, loop (n + 1) i l = (do
      let a ← item
      let l ← M.lift (setIndex l i (f a))
      loop n (i + 1) l))
    (hi : Inverts item Wr) (hp : PInv item P) (n i : Nat) (l : List β) (hil : i ≤ l.length) :
    PInv (loop n i l) (fun bs => (∃ (xs : List (Bytes × α)) (w : Bytes), xs.length < n ∧ i + xs.length ≤ l.length ∧ (∀ x ∈ xs, Wr x.1 x.2) ∧ bs = (xs.map Prod.fst).flatten ++ w ∧ P w) ∨
      ∃ xs : List (Bytes × α), xs.length ≤ n ∧ i + xs.length = l.length + 1 ∧ (∀ x ∈ xs, Wr x.1 x.2) ∧ bs = (xs.map Prod.fst).flatten) := by
  induction n generalizing i l with
  | zero => rw [h0]; exact PInv.safe (Safe.pure _) _
  | succ n ih =>
    intro pre tail hr
    rw [hs] at hr
    rcases panic_bind_inv hr with hr | ⟨a, r1, e1, hr⟩
    · obtain ⟨bs, rest, g1, g2⟩ := hp pre tail hr
      exact ⟨bs, rest, g1, .inl ⟨[], bs, by simp, by simpa using hil, by simp, by simp, g2⟩⟩
    · obtain ⟨b1, rest1, f1, f2, f3⟩ := hi pre tail a r1 e1
      rcases panic_bind_inv hr with hr | ⟨l1, r2, e2, hr⟩
      · rw [M.run_lift] at hr
        have := setIndex_panic hr
        exact ⟨b1, rest1, f1, .inr ⟨[(b1, a)], by simp, by simp; omega, by simpa using f3, by simp⟩⟩
      · obtain ⟨hset, rfl⟩ := M.lift_inv e2
        obtain ⟨hlt, rfl⟩ := setIndex_inv hset
        have hr' : (loop n (i + 1) (l.set i (f a)) ⟨(pre ++ b1) ++ rest1, (pre ++ b1).length, 0⟩).1.isPanic = true := by
          rw [← hr, f2, f1, List.append_assoc, List.length_append]
        obtain ⟨b2, rest2, g1, g2⟩ := ih (i + 1) (l.set i (f a)) (by simp; omega) (pre ++ b1) rest1 hr'
        refine ⟨b1 ++ b2, rest2, by rw [f1, g1]; simp, ?_⟩
        simp only [List.length_set] at g2
        rcases g2 with ⟨xs, w, k1, k2, k3, k4, k5⟩ | ⟨xs, k1, k2, k3, k4⟩
        · refine .inl ⟨(b1, a) :: xs, w, by simp; omega, by simp; omega, ?_, by simp [k4], k5⟩
          intro x hx
          rcases List.mem_cons.mp hx with rfl | hx
          · exact f3
          · exact k3 x hx
        · refine .inr ⟨(b1, a) :: xs, by simp; omega, by simp; omega, ?_, by simp [k4]⟩
          intro x hx
          rcases List.mem_cons.mp hx with rfl | hx
          · exact f3
          · exact k3 x hx

theorem panics_array {α β : Type} {loop : Nat → Nat → List β → R (List β)} {item : R α} {f : α → β} {wire : α → Bytes}
    (hs : ∀ n i l, loop (n + 1) i l = (do
      let a ← item
      let l ← M.lift (setIndex l i (f a))
      loop n (i + 1) l))
    (xs : List α) (hr : ∀ a ∈ xs, Reads item (wire a) a) {w : Bytes} (hw : Panics item w) (n i : Nat) (l : List β) (hn : xs.length < n) (hl : i + xs.length ≤ l.length) :
    Panics (loop n i l) (xs.flatMap wire ++ w) := by
  induction xs generalizing n i l with
  | nil =>
    obtain ⟨n, rfl⟩ : ∃ k, n = k + 1 := ⟨n - 1, by simp at hn; omega⟩
    rw [hs]
    exact hw.bind
  | cons a as ih =>
    obtain ⟨n, rfl⟩ : ∃ k, n = k + 1 := ⟨n - 1, by simp at hn; omega⟩
    simp only [List.length_cons] at hn hl
    rw [hs, List.flatMap_cons, List.append_assoc]
    refine (hr a (by simp)).then_panics ?_
    have hset : setIndex l i (f a) = .ok (l.set i (f a)) := by unfold setIndex; rw [if_pos (by omega)]
    rw [hset]
    exact ih (fun x hx => hr x (by simp [hx])) n (i + 1) _ (by omega) (by simp; omega)

theorem panics_array_full {α β : Type} {loop : Nat → Nat → List β → R (List β)} {item : R α} {f : α → β} {wire : α → Bytes}
    (hs : ∀ n i l, loop (n + 1) i l = (do
      let a ← item
      let l ← M.lift (setIndex l i (f a))
      loop n (i + 1) l))
    (xs : List α) (hr : ∀ a ∈ xs, Reads item (wire a) a) (n i : Nat) (l : List β) (hn : xs.length ≤ n) (hl : i + xs.length = l.length + 1) (hi : i ≤ l.length) :
    Panics (loop n i l) (xs.flatMap wire) := by
  induction xs generalizing n i l with
  | nil => simp at hl; omega
  | cons a as ih =>
    obtain ⟨n, rfl⟩ : ∃ k, n = k + 1 := ⟨n - 1, by simp at hn; omega⟩
    simp only [List.length_cons] at hn hl
    rw [hs, List.flatMap_cons]
    refine (hr a (by simp)).then_panics ?_
    by_cases hlt : i < l.length
    · have hset : setIndex l i (f a) = .ok (l.set i (f a)) := by unfold setIndex; rw [if_pos hlt]
      rw [hset]
      exact ih (fun x hx => hr x (by simp [hx])) n (i + 1) _ (by omega) (by simp; omega) (by simp; omega)
    · have hset : setIndex l i (f a) = .panic .indexOutOfBounds := by unfold setIndex; rw [if_neg hlt]
      rw [hset]
      intro pre suf
      rfl

end Spdm
