import Verif.Lemmas.ReqStep
/-! Which errors a program can report. -/
namespace Spdm
open Spec

/-- Every error of `p` satisfies `S`. -/
def ErrIn {σ α : Type} (S : Err → Prop) (p : M σ α) : Prop := ∀ s e, (p s).1 = .err e → S e

/-- The same for pure results. -/
def RErrIn {α : Type} (S : Err → Prop) (x : Res α) : Prop := ∀ e, x = .err e → S e

namespace RErrIn
variable {α β : Type} {S T : Err → Prop}

theorem mono {x : Res α} (h : RErrIn S x) (hs : ∀ e, S e → T e) : RErrIn T x := fun e he => hs e (h e he)
theorem ok (a : α) : RErrIn S (.ok a) := by intro e h; simp at h
theorem panic (k : PanicKind) : RErrIn S (.panic k : Res α) := by intro e h; simp at h
theorem err {e : Err} (h : S e) : RErrIn S (.err e : Res α) := by intro e' h'; simp only [Res.err.injEq] at h'; exact h' ▸ h
theorem bind {x : Res α} {f : α → Res β} (hx : RErrIn S x) (hf : ∀ a, RErrIn S (f a)) : RErrIn S (x >>= f) := by
  cases x with
  | ok a => exact hf a
  | err e => intro e' h; exact hx e' (by simpa using h)
  | panic k => intro e' h; simp at h
theorem ite {c : Prop} [Decidable c] {x y : Res α} (hx : RErrIn S x) (hy : RErrIn S y) : RErrIn S (if c then x else y) := by
  split <;> assumption
theorem sliceFrom (b : Bytes) (i : Nat) : RErrIn S (sliceFrom b i) := by unfold Spdm.sliceFrom; exact ite (ok _) (panic _)
theorem sliceTo (b : List α) (i : Nat) : RErrIn S (sliceTo b i) := by unfold Spdm.sliceTo; exact ite (ok _) (panic _)
theorem setIndex (l : List α) (i : Nat) (v : α) : RErrIn S (setIndex l i v) := by unfold Spdm.setIndex; exact ite (ok _) (panic _)
theorem index (l : List α) (i : Nat) : RErrIn S (index l i) := by
  unfold Spdm.index; split
  · exact ok _
  · exact panic _
end RErrIn

namespace ErrIn
variable {σ α β : Type} {S T : Err → Prop}

theorem mono {p : M σ α} (h : ErrIn S p) (hs : ∀ e, S e → T e) : ErrIn T p := fun s e he => hs e (h s e he)
theorem pure (a : α) : ErrIn S (Pure.pure a : M σ α) := by intro s e h; simp at h
theorem fail {e : Err} (h : S e) : ErrIn S (M.fail e : M σ α) := by
  intro s e' h'
  have : e = e' := by simpa [M.fail] using h'
  exact this ▸ h
theorem die (k : PanicKind) : ErrIn S (M.die k : M σ α) := by intro s e h; simp [M.die] at h
theorem get : ErrIn S (M.get : M σ σ) := by intro s e h; simp [M.get] at h
theorem lift {x : Res α} (h : RErrIn S x) : ErrIn S (M.lift x : M σ α) := fun _ e he => h e he
theorem bind {p : M σ α} {q : α → M σ β} (hp : ErrIn S p) (hq : ∀ a, ErrIn S (q a)) : ErrIn S (p >>= q) := by
  intro s e h
  rcases hpr : p s with ⟨x | e' | k, s'⟩
  · rw [M.run_bind_ok hpr] at h; exact hq x s' e h
  · rw [M.run_bind_err hpr] at h
    simp only [Res.err.injEq] at h
    subst h
    exact hp s e' (by rw [hpr])
  · rw [M.run_bind_panic hpr] at h; simp at h
theorem ite {c : Prop} [Decidable c] {p q : M σ α} (hp : ErrIn S p) (hq : ErrIn S q) : ErrIn S (if c then p else q) := by
  split <;> assumption
theorem mapErr {p : M σ α} {F : Err → Err} (hp : ErrIn S p) (hF : ∀ e, S e → T (F e)) : ErrIn T (M.mapErr F p) := by
  intro s e h
  unfold M.mapErr at h
  rcases hpr : p s with ⟨x | e' | k, s'⟩ <;> rw [hpr] at h <;> simp at h
  exact h ▸ hF e' (hp s e' (by rw [hpr]))
end ErrIn

/-- Read errors. -/
def IsRead (e : Err) : Prop := ∃ x, e = .read x

theorem getByte_errs : ErrIn IsRead Reader.getByte := by
  intro r e h
  unfold Reader.getByte at h
  split at h
  · simp only [Res.err.injEq] at h; exact ⟨_, h.symm⟩
  · split at h
    · simp only [Res.err.injEq] at h; exact ⟨_, h.symm⟩
    · split at h <;> simp at h

theorem skipReserved_errs (n : Nat) : ErrIn IsRead (Reader.skipReserved n) := by
  induction n with
  | zero => exact .pure _
  | succ n ih => exact getByte_errs.bind fun b => .ite (.fail ⟨_, rfl⟩) ih

theorem getBits_errs (n : Nat) : ErrIn IsRead (Reader.getBits n) := by
  intro r e h
  have h8 : ∀ b k, RErrIn IsRead (Reader.shr8 b k) := fun b k => .ite (.ok _) (.panic _)
  have h9 : ∀ b k, RErrIn IsRead (Reader.shl8 b k) := fun b k => .ite (.ok _) (.panic _)
  have ha : ∀ k, RErrIn IsRead (Reader.at? r k) := fun k => by unfold Reader.at?; split <;> first | exact .ok _ | exact .panic _
  unfold Reader.getBits at h
  split at h
  · simp only [Res.err.injEq] at h; exact ⟨_, h.symm⟩
  split at h
  · simp only [Res.err.injEq] at h; exact ⟨_, h.symm⟩
  simp only at h
  split at h
  · split at h
    · simp only [Res.err.injEq] at h; exact ⟨_, h.symm⟩
    · split at h
      · simp at h
      · rename_i e' hv
        simp only [Res.err.injEq] at h
        subst h
        refine RErrIn.bind (S := IsRead) (ha _) (fun a => RErrIn.bind (h8 _ _) fun b => RErrIn.ite ?_ (.ok _)) _ hv
        exact RErrIn.bind (ha _) fun _ => RErrIn.bind (h9 _ _) fun _ => RErrIn.bind (h8 _ _) fun _ => .ok _
      · simp at h
  · split at h
    · simp at h
    · rename_i e' hv
      simp only [Res.err.injEq] at h
      subst h
      exact RErrIn.bind (S := IsRead) (ha _) (fun a => RErrIn.bind (h9 _ _) fun _ => h8 _ _) _ hv
    · simp at h

/-- Errors of the VERSION parser. -/
def VersionErr (e : Err) : Prop := IsRead e ∨ e = .tooManyVersionsReceived

theorem Version.read_errs : ErrIn VersionErr Version.read := by
  have he : ErrIn VersionErr Version.readEntry := by
    unfold Version.readEntry
    exact ((getBits_errs 4).bind fun _ => (getBits_errs 4).bind fun _ => (getBits_errs 4).bind fun _ => (getBits_errs 4).bind fun _ => .pure _).mono fun _ h => .inl h
  have hes : ∀ n i es, ErrIn VersionErr (Version.readEntries n i es) := by
    intro n
    induction n with
    | zero => intro i es; exact .pure _
    | succ n ih => intro i es; exact he.bind fun _ => (ErrIn.lift (.setIndex _ _ _)).bind fun _ => ih _ _
  unfold Version.read
  exact ((skipReserved_errs 3).mono fun _ h => .inl h).bind fun _ => (getByte_errs.mono fun _ h => .inl h).bind fun _ =>
    .ite (.fail (.inr rfl)) ((hes _ _ _).bind fun _ => .pure _)

theorem expect_errs (t : MsgType) (buf : Bytes) : RErrIn (fun e => e = .parseHeader ∨ ∃ x g, e = .unexpectedMsg x g) (Responder.expect t buf) := by
  have hp : RErrIn (fun e => e = .parseHeader) (t.parseHeader buf) := by
    unfold MsgType.parseHeader
    refine .ite (.panic _) ?_
    split
    · exact .ite (.ok _) (.ite (.ok _) (.err rfl))
    · exact .panic _
  unfold Responder.expect
  split
  · exact .ok _
  · exact .bind (.index _ _) fun _ => .err (.inr ⟨_, _, rfl⟩)
  · rename_i e he
    exact .err (.inl (hp e he))
  · exact .panic _

end Spdm
