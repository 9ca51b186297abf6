import Verif.Encoding
/-! Lemmas about the Writer. -/
namespace Spdm

/-- Errors that report a full buffer. -/
def Err.isFull : Err → Bool
  | .bufferFull | .opaqueFull | .challengeAuthFull => true
  | _ => false

namespace Writer

/-- The cursor is inside the buffer. -/
def WF (w : Writer) : Prop := w.offset ≤ w.buf.length

/-- The writer after appending `bs` at the cursor. -/
def app (w : Writer) (bs : Bytes) : Writer :=
  { buf := w.buf.take w.offset ++ bs ++ w.buf.drop (w.offset + bs.length),
    offset := w.offset + bs.length }

/-- Free space. -/
def room (w : Writer) : Nat := w.buf.length - w.offset

@[simp] theorem app_offset (w : Writer) (bs : Bytes) : (w.app bs).offset = w.offset + bs.length := rfl

theorem app_length {w : Writer} {bs : Bytes} (hw : w.WF) (h : bs.length ≤ w.room) :
    (w.app bs).buf.length = w.buf.length := by
  unfold WF at hw; unfold room at h
  simp [app]; omega

theorem app_wf {w : Writer} {bs : Bytes} (hw : w.WF) (h : bs.length ≤ w.room) : (w.app bs).WF := by
  unfold WF; rw [app_length hw h]
  unfold WF at hw; unfold room at h; simp; omega

theorem app_room {w : Writer} {bs : Bytes} (hw : w.WF) (h : bs.length ≤ w.room) :
    (w.app bs).room = w.room - bs.length := by
  unfold room; rw [app_length hw h]; simp; omega

@[simp] theorem app_nil (w : Writer) : w.app [] = w := by
  cases w; simp [app]

theorem app_app {w : Writer} {bs cs : Bytes} (hw : w.WF) (h : bs.length ≤ w.room) :
    (w.app bs).app cs = w.app (bs ++ cs) := by
  unfold WF at hw; unfold room at h
  have h1 : (w.buf.take w.offset).length = w.offset := by simp; omega
  simp only [app, Writer.mk.injEq, List.length_append]
  constructor
  · rw [List.take_append_of_le_length (by simp; omega), List.take_of_length_le (by simp; omega)]
    rw [List.drop_append, List.drop_of_length_le (by simp; omega)]
    simp only [List.nil_append, List.length_append, h1, List.drop_drop, List.append_assoc]
    congr 3
    congr 1
    omega
  · omega

end Writer

/-- `p` appends exactly `bs` if they fit and fails otherwise, having appended a prefix; `f` gives
the returned value from the new cursor. -/
def Writes {α : Type} (p : W α) (f : Nat → α) (bs : Bytes) : Prop :=
  ∀ w : Writer, w.WF →
    (bs.length ≤ w.room → p w = (.ok (f (w.offset + bs.length)), w.app bs)) ∧
    (w.room < bs.length → ∃ e n, e.isFull = true ∧ n ≤ w.room ∧
      p w = (.err e, w.app (bs.take n)))

namespace Writes
variable {α β : Type}

theorem pure (a : α) : Writes (Pure.pure a : W α) (fun _ => a) [] := by
  intro w _; simp

theorem offsetM : Writes Writer.offsetM id [] := by
  intro w _; simp [Writer.offsetM]

theorem bind {p : W α} {q : α → W β} {f : Nat → α} {g : Nat → β} {bs cs : Bytes}
    (hp : Writes p f bs) (hq : ∀ n, Writes (q (f n)) g cs) : Writes (p >>= q) g (bs ++ cs) := by
  intro w hw
  obtain ⟨h1, h2⟩ := hp w hw
  constructor
  · intro h
    simp only [List.length_append] at h
    have hb : bs.length ≤ w.room := by omega
    rw [M.run_bind_ok (h1 hb)]
    have := (hq (w.offset + bs.length) (w.app bs) (Writer.app_wf hw hb)).1
      (by rw [Writer.app_room hw hb]; omega)
    rw [this, Writer.app_app hw hb]
    simp [Nat.add_assoc]
  · intro h
    simp only [List.length_append] at h
    by_cases hb : bs.length ≤ w.room
    · obtain ⟨e, n, he, hn, h3⟩ := (hq (w.offset + bs.length) (w.app bs) (Writer.app_wf hw hb)).2
        (by rw [Writer.app_room hw hb]; omega)
      rw [Writer.app_room hw hb] at hn
      refine ⟨e, bs.length + n, he, by omega, ?_⟩
      rw [M.run_bind_ok (h1 hb), h3, Writer.app_app hw hb]
      rw [List.take_length_add_append]
    · obtain ⟨e, n, he, hn, h3⟩ := h2 (by omega)
      refine ⟨e, n, he, hn, ?_⟩
      rw [M.run_bind_err h3, List.take_append_of_le_length (by omega)]

theorem congr {p : W α} {f : Nat → α} {bs cs : Bytes} (hp : Writes p f bs) (h : bs = cs) :
    Writes p f cs := h ▸ hp

theorem lift_bind {x : Res α} {a : α} {q : α → W β} {g : Nat → β} {cs : Bytes} (hx : x = .ok a)
    (hq : Writes (q a) g cs) : Writes (M.lift x >>= q) g cs := by
  subst hx; exact hq

theorem mapErr {p : W α} {f : Nat → α} {bs : Bytes} (F : Err → Err)
    (hF : ∀ e, e.isFull = true → (F e).isFull = true) (hp : Writes p f bs) :
    Writes (M.mapErr F p) f bs := by
  intro w hw
  obtain ⟨h1, h2⟩ := hp w hw
  constructor
  · intro h; simp [M.mapErr, h1 h]
  · intro h
    obtain ⟨e, n, he, hn, h3⟩ := h2 h
    exact ⟨F e, n, hF e he, hn, by simp [M.mapErr, h3]⟩

theorem put (b : UInt8) : Writes (Writer.put b) id [b] := by
  intro w hw
  unfold Writer.WF at hw
  constructor
  · intro h
    unfold Writer.room at h
    simp only [List.length_singleton] at h
    have h2 : w.offset < w.buf.length := by omega
    simp only [Writer.put, Writer.isFull, Writer.app]
    rw [if_neg (by simp; omega), if_pos h2]
    simp [List.set_eq_take_append_cons_drop, h2]
  · intro h
    unfold Writer.room at h
    refine ⟨.bufferFull, 0, rfl, by omega, ?_⟩
    simp only [List.length_singleton] at h
    simp [Writer.put, Writer.isFull]
    omega

theorem putAll (bs : Bytes) : Writes (Writer.putAll bs) id bs := by
  induction bs with
  | nil => exact offsetM
  | cons b bs ih => exact (put b).bind (fun _ => ih)

theorem putReserved (n : Nat) : Writes (Writer.putReserved n) id (List.replicate n 0) := putAll _

theorem putU16 (n : UInt16) : Writes (Writer.putU16 n) id (Writer.leBytes 2 n.toNat) := putAll _
theorem putU24 (n : Nat) : Writes (Writer.putU24 n) id (Writer.leBytes 3 n) := putAll _
theorem putU32 (n : UInt32) : Writes (Writer.putU32 n) id (Writer.leBytes 4 n.toNat) := putAll _

theorem extend (bs : Bytes) : Writes (Writer.extend bs) id bs := by
  intro w hw
  constructor
  · intro h
    simp only [Writer.extend, Writer.app, id]
    rw [if_neg]
    unfold Writer.remaining; unfold Writer.room at h; omega
  · intro h
    refine ⟨.bufferFull, 0, rfl, by omega, ?_⟩
    simp [Writer.extend, Writer.remaining]
    unfold Writer.room at h
    omega

end Writes

@[simp] theorem leBytes_length (k n : Nat) : (Writer.leBytes k n).length = k := by
  induction k generalizing n with
  | zero => rfl
  | succ k ih => simp [Writer.leBytes, ih]

end Spdm
