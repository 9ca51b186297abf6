import Verif.Lemmas.Inv4
import Verif.Lemmas.SafeMsgs
import Verif.Responder
/-! Run and inversion lemmas shared by the two state machines. -/
namespace Spdm
open Spec

theorem res_bind_ok {α β : Type} {x : Res α} {f : α → Res β} {b : β} (h : (x >>= f) = .ok b) : ∃ a, x = .ok a ∧ f a = .ok b := by
  cases x with
  | ok a => exact ⟨a, rfl, h⟩
  | err e => simp at h
  | panic k => simp at h

theorem sliceFrom_inv {b o : Bytes} {i : Nat} (h : sliceFrom b i = .ok o) : i ≤ b.length ∧ o = b.drop i := by
  unfold sliceFrom at h; split at h
  · simp at h; exact ⟨by assumption, h.symm⟩
  · simp at h

theorem sliceTo_inv {α : Type} {b o : List α} {i : Nat} (h : sliceTo b i = .ok o) : i ≤ b.length ∧ o = b.take i := by
  unfold sliceTo at h; split at h
  · simp at h; exact ⟨by assumption, h.symm⟩
  · simp at h

theorem index_inv {α : Type} {l : List α} {i : Nat} {a : α} (h : index l i = .ok a) : l[i]? = some a := by
  unfold index at h; split at h
  · simp at h; subst h; assumption
  · simp at h

/-! ### Transcript -/

namespace Transcript

/-- The cursor is inside the buffer. -/
def WF (t : Transcript) : Prop := t.offset ≤ t.buf.length

theorem new_wf (c : Cfg) : (Transcript.new c).WF := by simp [WF, new]
theorem clear_wf (t : Transcript) : t.clear.WF := by simp [WF, clear]
@[simp] theorem new_get (c : Cfg) : (Transcript.new c).get = [] := by simp [get, new]
@[simp] theorem clear_get (t : Transcript) : t.clear.get = [] := by simp [get, clear]
@[simp] theorem clear_buf (t : Transcript) : t.clear.buf = t.buf := rfl

theorem get_length {t : Transcript} (h : t.WF) : t.get.length = t.offset := by
  unfold WF at h; simp [get]; omega

/-- `extend` when there is room. -/
theorem extend_room {t : Transcript} (hw : t.WF) {bs : Bytes} (h : t.get.length + bs.length ≤ t.buf.length) :
    ∃ t', extend bs t = (.ok (), t') ∧ t'.get = t.get ++ bs ∧ t'.WF ∧ t'.buf.length = t.buf.length := by
  rw [get_length hw] at h
  unfold WF at hw
  refine ⟨_, by simp only [extend]; rw [if_neg (by omega)], ?_, ?_, ?_⟩
  · simp only [get]
    rw [List.take_append_of_le_length (by simp; omega), List.take_of_length_le (by simp)]
  · simp [WF]; omega
  · simp; omega

theorem extend_full {t : Transcript} (hw : t.WF) {bs : Bytes} (h : t.buf.length < t.get.length + bs.length) :
    extend bs t = (.err .bufferFull, t) := by
  rw [get_length hw] at h
  simp only [extend]; rw [if_pos (by omega)]

theorem extend_ok_inv {t t' : Transcript} (hw : t.WF) {bs : Bytes} {u : Unit} (h : extend bs t = (.ok u, t')) :
    t'.get = t.get ++ bs ∧ t'.WF ∧ t'.buf.length = t.buf.length ∧ t.get.length + bs.length ≤ t.buf.length := by
  by_cases hr : t.get.length + bs.length ≤ t.buf.length
  · obtain ⟨t1, h1, h2, h3, h4⟩ := extend_room hw hr
    rw [h1] at h
    simp only [Prod.mk.injEq] at h
    obtain ⟨-, rfl⟩ := h
    exact ⟨h2, h3, h4, hr⟩
  · rw [extend_full hw (by omega)] at h
    simp at h

/-- Whatever the outcome, the transcript stays a valid transcript of the same capacity. -/
theorem extend_wf {t : Transcript} (hw : t.WF) (bs : Bytes) : (extend bs t).2.WF ∧ (extend bs t).2.buf.length = t.buf.length := by
  by_cases hr : t.get.length + bs.length ≤ t.buf.length
  · obtain ⟨t1, h1, h2, h3, h4⟩ := extend_room hw hr
    rw [h1]; exact ⟨h3, h4⟩
  · rw [extend_full hw (by omega)]; exact ⟨hw, rfl⟩

end Transcript

/-! ### Headers -/

theorem parseHeader_true {t : MsgType} {buf : Bytes} (h : t.parseHeader buf = .ok true) : 3 ≤ buf.length ∧ buf.take 2 = Wire.header t := by
  match buf with
  | [] => simp [MsgType.parseHeader] at h
  | [_] => simp [MsgType.parseHeader] at h
  | [_, _] => simp [MsgType.parseHeader] at h
  | b0 :: b1 :: b2 :: rest =>
    have hh : Wire.header t = [t.spdmVersion, t.spdmCode] := by cases t <;> rfl
    simp only [MsgType.parseHeader] at h
    rw [if_neg (by simp)] at h
    simp only [List.getElem?_cons_zero, List.getElem?_cons_succ] at h
    split at h
    · simp at h
    · split at h
      · rename_i h1 h0
        refine ⟨by simp, ?_⟩
        rw [hh]; simp at h1; simp [h0, h1]
      · simp at h

theorem parseHeader_false {t : MsgType} {buf : Bytes} (h : t.parseHeader buf = .ok false) : 3 ≤ buf.length ∧ buf[1]? ≠ (Wire.header t)[1]? := by
  match buf with
  | [] => simp [MsgType.parseHeader] at h
  | [_] => simp [MsgType.parseHeader] at h
  | [_, _] => simp [MsgType.parseHeader] at h
  | b0 :: b1 :: b2 :: rest =>
    have hh : Wire.header t = [t.spdmVersion, t.spdmCode] := by cases t <;> rfl
    simp only [MsgType.parseHeader] at h
    rw [if_neg (by simp)] at h
    simp only [List.getElem?_cons_zero, List.getElem?_cons_succ] at h
    split at h
    · rename_i h1
      refine ⟨by simp, ?_⟩
      rw [hh]; simpa using h1
    · split at h <;> simp at h

theorem header_inj {t t' : MsgType} (h : (Wire.header t)[1]? = (Wire.header t')[1]?) : t = t' := by
  revert h; cases t <;> cases t' <;> first | (intro _; rfl) | (intro h; simp [Wire.header] at h)

theorem header_run {t : MsgType} {buf : Bytes} (h3 : 3 ≤ buf.length) (h : buf.take 2 = Wire.header t) (t' : MsgType) :
    t'.parseHeader buf = .ok (decide (t' = t)) := by
  match buf, h3 with
  | b0 :: b1 :: b2 :: rest, _ =>
    have hh : ∀ t : MsgType, Wire.header t = [t.spdmVersion, t.spdmCode] := fun t => by cases t <;> rfl
    rw [hh] at h
    simp only [List.take_succ_cons, List.take_zero, List.cons.injEq, and_true] at h
    obtain ⟨rfl, rfl⟩ := h
    simp only [MsgType.parseHeader]
    rw [if_neg (by simp)]
    simp only [List.getElem?_cons_zero, List.getElem?_cons_succ]
    by_cases e : t' = t
    · subst e; simp
    · rw [if_pos]
      · simp [e]
      · intro hc
        exact e (header_inj (by rw [hh, hh]; simp [hc]))

theorem header_append {t : MsgType} {bs : Bytes} (h : 1 ≤ bs.length) (t' : MsgType) :
    t'.parseHeader (Wire.header t ++ bs) = .ok (decide (t' = t)) :=
  header_run (by simp; omega) (List.take_left' (header_length t)) t'

theorem expect_ok_inv {t : MsgType} {buf : Bytes} {u : Unit} (h : Responder.expect t buf = .ok u) : 3 ≤ buf.length ∧ buf.take 2 = Wire.header t := by
  unfold Responder.expect at h
  split at h
  · rename_i h1; exact parseHeader_true h1
  · obtain ⟨a, _, h⟩ := res_bind_ok h; simp at h
  · simp at h
  · simp at h

theorem expect_ok {t : MsgType} {buf : Bytes} (h3 : 3 ≤ buf.length) (h : buf.take 2 = Wire.header t) : Responder.expect t buf = .ok () := by
  unfold Responder.expect
  rw [header_run h3 h t]; simp

/-! ### Writing messages -/

/-- Writing a message into the response buffer. -/
theorem write_fits {t : MsgType} {body : W Nat} {layout : Bytes} (hw : Writes body id layout) {buf : Bytes}
    (h : 2 + layout.length ≤ buf.length) :
    t.write body buf = (.ok (2 + layout.length), Wire.header t ++ layout ++ buf.drop (2 + layout.length)) := by
  have := (hw.msg (t := t) (Writer.new buf) (by simp [Writer.WF, Writer.new])).1 (by simp [Writer.room, Writer.new]; omega)
  simp only [MsgType.write, this]
  simp [Writer.new, Writer.app, Nat.add_comm]

theorem write_full {t : MsgType} {body : W Nat} {layout : Bytes} (hw : Writes body id layout) {buf : Bytes}
    (h : buf.length < 2 + layout.length) : ∃ e out, e.isFull = true ∧ out.length = buf.length ∧ t.write body buf = (.err e, out) := by
  obtain ⟨e, n, h1, h2, h3⟩ := (hw.msg (t := t) (Writer.new buf) (by simp [Writer.WF, Writer.new])).2
    (by simp [Writer.room, Writer.new]; omega)
  refine ⟨e, ((Writer.new buf).app ((Wire.header t ++ layout).take n)).buf, h1, ?_, by simp only [MsgType.write, h3]⟩
  have := Writer.app_length (w := Writer.new buf) (bs := (Wire.header t ++ layout).take n) (by simp [Writer.WF, Writer.new])
    (by simp only [Writer.room, Writer.new] at h2 ⊢; simp; omega)
  rw [this]; rfl

theorem write_ok_inv {t : MsgType} {body : W Nat} {layout : Bytes} (hw : Writes body id layout) {buf out : Bytes} {n : Nat}
    (h : t.write body buf = (.ok n, out)) :
    n = 2 + layout.length ∧ n ≤ buf.length ∧ out = Wire.header t ++ layout ++ buf.drop n := by
  by_cases hl : 2 + layout.length ≤ buf.length
  · rw [write_fits hw hl] at h
    simp only [Prod.mk.injEq, Res.ok.injEq] at h
    obtain ⟨rfl, rfl⟩ := h
    exact ⟨rfl, hl, rfl⟩
  · obtain ⟨e, o, _, _, h1⟩ := write_full (t := t) hw (buf := buf) (by omega)
    rw [h1] at h; simp at h

end Spdm
