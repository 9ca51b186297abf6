import Verif.Spec.Faults
import Verif.Lemmas.Msgs2
import Verif.Lemmas.Inv
/-!
# Running a parser against its requirements
-/
namespace Spdm
open Spec Spec.Faults

variable {ε δ α β : Type}

/-! ## Requirements -/

theorem Spec.Faults.First.append {cs cs' : Checks ε} {f : Fault ε} (h : First cs f) : First (cs ++ cs') f := by
  induction h with
  | here h => exact .here h
  | later h _ ih => exact .later h ih

theorem Spec.Faults.First.after {cs cs' : Checks ε} {f : Fault ε} (hc : AllMet cs) (h : First cs' f) : First (cs ++ cs') f := by
  induction cs with
  | nil => exact h
  | cons x cs ih =>
    obtain ⟨p, g⟩ := x
    exact .later (hc (p, g) (by simp)) (ih fun y hy => hc y (by simp [hy]))

theorem Spec.Faults.AllMet.append {cs cs' : Checks ε} (h : AllMet cs) (h' : AllMet cs') : AllMet (cs ++ cs') := by
  intro x hx
  rcases List.mem_append.1 hx with hx | hx
  · exact h x hx
  · exact h' x hx

theorem allMet_nil : AllMet ([] : Checks ε) := by intro x hx; simp at hx
theorem allMet_cons {p : Prop} {f : Fault ε} {cs : Checks ε} (hp : p) (h : AllMet cs) : AllMet ((p, f) :: cs) := by
  intro x hx
  rcases List.mem_cons.1 hx with rfl | hx
  · exact hp
  · exact h x hx

/-! ## Running -/

/-- From `s`, the outcome of `t` is the one for the requirements, and a result and the state after it satisfy `P`. -/
def Runs (t : TM ε Reader α) (s : Reader) (cs : Checks ε) (P : α → Reader → Prop) : Prop :=
  match t s with
  | (.ok a, s') => AllMet cs ∧ P a s'
  | (.err e, _) => First cs (.error e)
  | (.panic _, _) => First cs .abort

theorem Runs.outcome {t : TM ε Reader α} {s : Reader} {cs : Checks ε} {P : α → Reader → Prop} (h : Runs t s cs P) : Outcome cs (t s).1 := by
  unfold Runs at h
  rcases e : t s with ⟨r, s'⟩
  rw [e] at h
  cases r with
  | ok a => exact h.1
  | err e => exact h
  | panic k => exact h

theorem Runs.bind {t : TM ε Reader α} {f : α → TM ε Reader β} {s : Reader} {cs cs' : Checks ε} {P : α → Reader → Prop} {Q : β → Reader → Prop}
    (h : Runs t s cs P) (hf : ∀ a s', P a s' → AllMet cs → Runs (f a) s' cs' Q) : Runs (t >>= f) s (cs ++ cs') Q := by
  have hb : (t >>= f) s = TM.bind t f s := rfl
  unfold Runs at h ⊢
  rw [hb]
  unfold TM.bind
  rcases e : t s with ⟨r, s'⟩
  rw [e] at h
  cases r with
  | ok a =>
    have h2 := hf a s' h.2 h.1
    unfold Runs at h2
    dsimp only
    rcases e2 : f a s' with ⟨r2, s2⟩
    rw [e2] at h2
    cases r2 with
    | ok b => exact ⟨h.1.append h2.1, h2.2⟩
    | err x => exact First.after h.1 h2
    | panic k => exact First.after h.1 h2
  | err x => exact First.append h
  | panic k => exact First.append h

theorem Runs.mono {t : TM ε Reader α} {s : Reader} {cs : Checks ε} {P Q : α → Reader → Prop} (h : Runs t s cs P) (hpq : ∀ a s', P a s' → Q a s') : Runs t s cs Q := by
  unfold Runs at h ⊢
  rcases e : t s with ⟨r, s'⟩
  rw [e] at h
  cases r with
  | ok a => exact ⟨h.1, hpq _ _ h.2⟩
  | err x => exact h
  | panic k => exact h

theorem Runs.pure {a : α} {s : Reader} {P : α → Reader → Prop} (h : P a s) : Runs (Pure.pure a : TM ε Reader α) s [] P := ⟨allMet_nil, h⟩

theorem Runs.fail {e : ε} {s : Reader} {cs : Checks ε} {P : α → Reader → Prop} {p : Prop} (h : ¬ p) : Runs (TM.fail e : TM ε Reader α) s (need p e cs) P := First.here h

/-- A requirement that is met. -/
theorem Runs.met {t : TM ε Reader α} {s : Reader} {p : Prop} {f : Fault ε} {cs : Checks ε} {P : α → Reader → Prop} (hp : p) (h : Runs t s cs P) :
    Runs t s ((p, f) :: cs) P := by
  unfold Runs at h ⊢
  rcases e : t s with ⟨r, s'⟩
  rw [e] at h
  cases r with
  | ok a => exact ⟨allMet_cons hp h.1, h.2⟩
  | err x => exact .later hp h
  | panic k => exact .later hp h

/-- `if c then return Err(e)`. -/
theorem Runs.unless {c p : Prop} [Decidable c] {k : TM ε Reader α} {e : ε} {s : Reader} {cs : Checks ε} {P : α → Reader → Prop}
    (hc : p ↔ ¬ c) (h : p → Runs k s cs P) : Runs (if c then TM.fail e else k) s (need p e cs) P := by
  by_cases hx : c
  · rw [if_pos hx]; exact Runs.fail fun hp => hc.1 hp hx
  · rw [if_neg hx]; exact Runs.met (hc.2 hx) (h (hc.2 hx))

theorem Runs.err {x : Out ε α} {e : ε} {k : α → TM ε Reader β} {s : Reader} {cs : Checks ε} {P : β → Reader → Prop} {p : Prop} (hx : x = .err e) (h : ¬ p) :
    Runs (TM.lift x >>= k) s (need p e cs) P := by
  subst hx; exact First.here h

/-- The other way round. -/
theorem Runs.when {c p : Prop} [Decidable c] {k : TM ε Reader α} {e : ε} {s : Reader} {cs : Checks ε} {P : α → Reader → Prop}
    (hc : p ↔ c) (h : p → Runs k s cs P) : Runs (if c then k else TM.fail e) s (need p e cs) P := by
  by_cases hx : c
  · rw [if_pos hx]; exact Runs.met (hc.2 hx) (h (hc.2 hx))
  · rw [if_neg hx]; exact Runs.fail fun hp => hx (hc.1 hp)

/-- A check of a value that leaves the state. -/
theorem Runs.check {p : Prop} {x : Out ε α} {a : α} {e : ε} {f : α → TM ε Reader β} {s : Reader} {cs : Checks ε} {Q : β → Reader → Prop}
    (hok : p → x = .ok a) (herr : ¬ p → x = .err e) (h : p → Runs (f a) s cs Q) : Runs (TM.lift x >>= f) s (need p e cs) Q := by
  by_cases hp : p
  · rw [hok hp]; exact Runs.met hp (h hp)
  · rw [herr hp]; exact First.here hp

theorem Runs.lift_ok {x : Out ε α} {a : α} {f : α → TM ε Reader β} {s : Reader} {cs : Checks ε} {Q : β → Reader → Prop}
    (hok : x = .ok a) (h : Runs (f a) s cs Q) : Runs (TM.lift x >>= f) s cs Q := by
  subst hok; exact h

/-- `?` with a conversion. -/
theorem Runs.via {t : TM δ Reader α} {w : δ → ε} {s : Reader} {cs : Checks δ} {rest : Checks ε} {P : α → Reader → Prop} {f : α → TM ε Reader β} {Q : β → Reader → Prop}
    (h : Runs t s cs P) (hf : ∀ a s', P a s' → AllMet cs → Runs (f a) s' rest Q) : Runs (TM.via w t >>= f) s (within w cs rest) Q := by
  refine Runs.bind (P := fun a s' => P a s' ∧ AllMet cs) ?_ fun a s' hp _ => hf a s' hp.1 hp.2
  have hmap : AllMet cs → AllMet (cs.map fun x => (x.1, match x.2 with | .error e => Fault.error (w e) | .abort => .abort)) := by
    intro hc x hx
    obtain ⟨y, hy, rfl⟩ := List.mem_map.1 hx
    exact hc y hy
  have hfirst : ∀ {g : Fault δ}, First cs g →
      First (cs.map fun x => (x.1, match x.2 with | .error e => Fault.error (w e) | .abort => .abort)) (match g with | .error e => Fault.error (w e) | .abort => .abort) := by
    intro g hg
    clear h hf
    induction hg with
    | here h => exact .here h
    | later h _ ih => exact .later h (ih (fun hc x hx => by obtain ⟨y, hy, rfl⟩ := List.mem_map.1 hx; exact hc y hy))
  unfold Runs at h ⊢
  unfold TM.via
  rcases e : t s with ⟨r, s'⟩
  rw [e] at h
  cases r with
  | ok a => exact ⟨hmap h.1, h.2, h.1⟩
  | err x => exact hfirst h
  | panic k => exact hfirst h

theorem Runs.cond {c : Prop} [Decidable c] {k l : TM ε Reader α} {s : Reader} {cs cs' : Checks ε} {P : α → Reader → Prop}
    (h : c → Runs k s cs P) (h' : ¬ c → Runs l s cs' P) : Runs (if c then k else l) s (if c then cs else cs') P := by
  by_cases hx : c
  · simp only [if_pos hx]; exact h hx
  · simp only [if_neg hx]; exact h' hx

theorem Runs.cond_iff {c d : Prop} [Decidable c] [Decidable d] (hcd : d ↔ c) {k l : TM ε Reader α} {s : Reader} {cs cs' : Checks ε} {P : α → Reader → Prop}
    (h : d → Runs k s cs P) (h' : ¬ d → Runs l s cs' P) : Runs (if c then k else l) s (if d then cs else cs') P := by
  by_cases hx : d
  · rw [if_pos (hcd.1 hx), if_pos hx]; exact h hx
  · rw [if_neg (fun hc => hx (hcd.2 hc)), if_neg hx]; exact h' hx

/-- Two lists with the same first unmet requirements. -/
def SameFaults (cs cs' : Checks ε) : Prop := (AllMet cs → AllMet cs') ∧ ∀ f, First cs f → First cs' f

theorem Runs.same {t : TM ε Reader α} {s : Reader} {cs cs' : Checks ε} {P : α → Reader → Prop} (hs : SameFaults cs cs') (h : Runs t s cs P) : Runs t s cs' P := by
  unfold Runs at h ⊢
  rcases e : t s with ⟨r, s'⟩
  rw [e] at h
  cases r with
  | ok a => exact ⟨hs.1 h.1, h.2⟩
  | err x => exact hs.2 _ h
  | panic k => exact hs.2 _ h

/-- Two lengths in a row need only the larger one. -/
theorem same_has [OfRead ε] {bs : Bytes} {m n : Nat} (h : m ≤ n) (rest : Checks ε) : SameFaults (has bs m (has bs n rest)) (has bs n rest) := by
  constructor
  · intro hc x hx
    exact hc x (by simp only [has, need, List.mem_cons] at hx ⊢; exact .inr hx)
  · intro f hf
    cases hf with
    | here hm => exact .here (by omega)
    | later _ hf => exact hf

/-- The same for programs: to be used from the end. -/
theorem Runs.merge [OfRead ε] {bs : Bytes} {m n : Nat} {t : TM ε Reader α} {s : Reader} {rest : Checks ε} {P : α → Reader → Prop} (hmn : m ≤ n)
    (h : Runs t s (has bs m (has bs n rest)) P) : Runs t s (has bs n rest) P := h.same (same_has hmn rest)

/-! ## The flat programs -/

theorem TM.of_bind {σ : Type} (f : Err → ε) (m : M σ α) (k : α → M σ β) : TM.of f (m >>= k) = (TM.of f m >>= fun a => TM.of f (k a)) := by
  funext s
  show _ = TM.bind (TM.of f m) (fun a => TM.of f (k a)) s
  unfold TM.of TM.bind
  rw [M.run_bind]
  dsimp only
  rcases m s with ⟨r, s'⟩
  cases r <;> rfl

theorem TM.bind_assoc' {σ γ : Type} (m : TM ε σ α) (f : α → TM ε σ β) (g : β → TM ε σ γ) : (m >>= f >>= g) = (m >>= fun a => f a >>= g) := by
  funext s
  show TM.bind (TM.bind m f) g s = TM.bind m (fun a => TM.bind (f a) g) s
  unfold TM.bind
  dsimp only
  rcases m s with ⟨r, s'⟩
  cases r <;> rfl

theorem TM.pure_bind' {σ : Type} (a : α) (f : α → TM ε σ β) : ((Pure.pure a : TM ε σ α) >>= f) = f a := rfl

theorem TM.of_pure {σ : Type} (f : Err → ε) (a : α) : TM.of f (Pure.pure a : M σ α) = Pure.pure a := rfl
theorem TM.of_fail {σ : Type} (f : Err → ε) (e : Err) : TM.of f (M.fail e : M σ α) = TM.fail (f e) := rfl
theorem TM.of_lift {σ : Type} (f : Err → ε) (x : Res α) : (TM.of f (M.lift x) : TM ε σ α) = TM.lift (Out.of f x) := by
  cases x <;> rfl
theorem TM.of_get {σ : Type} (f : Err → ε) : (TM.of f (M.get : M σ σ) : TM ε σ σ) = TM.get := rfl
theorem TM.of_ite {σ : Type} (f : Err → ε) (c : Prop) [Decidable c] (x y : M σ α) : TM.of f (if c then x else y) = if c then TM.of f x else TM.of f y := by
  split <;> rfl

/-- A last step without requirements. -/
theorem Runs.last {t : TM ε Reader α} {f : α → TM ε Reader β} {s : Reader} {cs : Checks ε} {P : α → Reader → Prop} {Q : β → Reader → Prop}
    (h : Runs t s cs P) (hf : ∀ a s', P a s' → AllMet cs → Runs (f a) s' [] Q) : Runs (t >>= f) s cs Q := by
  have := Runs.bind h hf
  rwa [List.append_nil] at this

/-- An assignment to an element that exists. -/
theorem Runs.index {γ : Type} {g : Err → ε} {l : List γ} {i : Nat} {a : γ} {k : List γ → TM ε Reader β} {s : Reader} {cs : Checks ε} {Q : β → Reader → Prop}
    (hi : i < l.length) (h : ∀ l' : List γ, l'.length = l.length → Runs (k l') s cs Q) : Runs (TM.of g (M.lift (setIndex l i a)) >>= k) s cs Q := by
  rw [setIndex_ok hi]
  exact h _ (by simp)

/-- One to an element that may not exist. -/
theorem Runs.indexOr {γ : Type} {g : Err → ε} {l : List γ} {i n : Nat} {a : γ} {k : List γ → TM ε Reader β} {s : Reader} {cs : Checks ε} {Q : β → Reader → Prop}
    (hn : l.length = n) (h : ∀ l' : List γ, l'.length = n → Runs (k l') s cs Q) : Runs (TM.of g (M.lift (setIndex l i a)) >>= k) s (orAbort (i < n) cs) Q := by
  subst hn
  by_cases hi : i < l.length
  · exact Runs.met hi (Runs.index hi h)
  · have : setIndex l i a = .panic .indexOutOfBounds := by simp [setIndex, hi]
    rw [this]
    exact First.here hi

theorem Runs.get {f : Reader → TM ε Reader β} {s : Reader} {cs : Checks ε} {Q : β → Reader → Prop} (h : Runs (f s) s cs Q) : Runs (TM.get >>= f) s cs Q := h

/-! ## Reading -/

theorem num_one {bs : Bytes} {i : Nat} {b : UInt8} (h : bs[i]? = some b) : num bs i 1 = b.toNat := by
  obtain ⟨hi, hb⟩ := List.getElem?_eq_some_iff.1 h
  unfold num field
  rw [List.drop_eq_getElem_cons hi]
  simp [leVal, hb]

theorem fromLe_leVal (bs : Bytes) : Reader.fromLe bs = leVal bs := by
  induction bs with
  | nil => rfl
  | cons b bs ih => simp only [Reader.fromLe, leVal, ih]

theorem num_lt (bs : Bytes) (i k : Nat) : num bs i k < 256 ^ k := by
  have : ∀ l : Bytes, leVal l < 256 ^ l.length := by
    intro l
    induction l with
    | nil => simp [leVal]
    | cons b l ih =>
      simp only [leVal, List.length_cons, Nat.pow_succ]
      have := b.toNat_lt
      omega
  refine Nat.lt_of_lt_of_le (this _) (Nat.pow_le_pow_right (by omega) ?_)
  simp [field]

theorem num_succ {bs : Bytes} {i k : Nat} (h : i < bs.length) : num bs i (k + 1) = num bs i 1 + 256 * num bs (i + 1) k := by
  obtain ⟨b, l, hb⟩ : ∃ b l, bs.drop i = b :: l := ⟨_, _, List.drop_eq_getElem_cons h⟩
  have hd : bs.drop (i + 1) = l := by rw [← List.drop_drop, hb]; rfl
  simp only [num, field, hd, hb, List.take_succ_cons, List.take_zero, leVal]
  omega

variable [OfRead ε]

/-- `f` is the conversion of the `ReadError`s. -/
abbrev Reads' (f : Err → ε) : Prop := ∀ e, f (.read e) = OfRead.ofRead e

theorem runs_getByte {f : Err → ε} (hf : Reads' f) {bs : Bytes} {i : Nat} (hi : i ≤ bs.length) :
    Runs (TM.of f Reader.getByte) ⟨bs, i, 0⟩ (has bs (i + 1) []) (fun b s => b.toNat = num bs i 1 ∧ s = ⟨bs, i + 1, 0⟩ ∧ i + 1 ≤ bs.length) := by
  rcases Nat.lt_or_ge i bs.length with hlt | hge
  · have hb : bs[i]? = some bs[i] := by simp [hlt]
    have : Reader.getByte ⟨bs, i, 0⟩ = (.ok bs[i], ⟨bs, i + 1, 0⟩) := by
      simp only [Reader.getByte, Reader.isAligned, Reader.isEmpty, hb]
      have : (bs.length == i) = false := by simp; omega
      simp [this]
    unfold Runs TM.of
    rw [this]
    exact ⟨allMet_cons hlt allMet_nil, (num_one hb).symm, rfl, hlt⟩
  · have : i = bs.length := by omega
    subst this
    have : Reader.getByte ⟨bs, bs.length, 0⟩ = (.err (.read .bufferEmpty), ⟨bs, bs.length, 0⟩) := by
      simp [Reader.getByte, Reader.isAligned, Reader.isEmpty]
    unfold Runs TM.of
    rw [this]
    show First _ (.error (f _))
    rw [hf]
    exact .here (by omega)

theorem Runs.byte {f : Err → ε} (hf : Reads' f) {bs : Bytes} {i : Nat} {k : UInt8 → TM ε Reader β} {rest : Checks ε} {Q : β → Reader → Prop} (hi : i ≤ bs.length)
    (h : ∀ b : UInt8, b.toNat = num bs i 1 → i + 1 ≤ bs.length → Runs (k b) ⟨bs, i + 1, 0⟩ rest Q) :
    Runs (TM.of f Reader.getByte >>= k) ⟨bs, i, 0⟩ (has bs (i + 1) rest) Q :=
  Runs.bind (runs_getByte hf hi) fun b s hb _ => by
    obtain ⟨h1, rfl, h3⟩ := hb
    exact h b h1 h3

theorem Runs.u16 {f : Err → ε} (hf : Reads' f) {bs : Bytes} {i : Nat} {k : UInt16 → TM ε Reader β} {rest : Checks ε} {Q : β → Reader → Prop}
    (h : ∀ b : UInt16, b.toNat = num bs i 2 → i + 2 ≤ bs.length → Runs (k b) ⟨bs, i + 2, 0⟩ rest Q) :
    Runs (TM.of f Reader.getU16 >>= k) ⟨bs, i, 0⟩ (has bs (i + 2) rest) Q := by
  refine Runs.bind (cs := has bs (i + 2) []) (P := fun b s => b.toNat = num bs i 2 ∧ s = ⟨bs, i + 2, 0⟩ ∧ i + 2 ≤ bs.length) ?_ fun b s hb _ => by
    obtain ⟨h1, rfl, h3⟩ := hb
    exact h b h1 h3
  unfold Runs TM.of Reader.getU16
  rcases Nat.lt_or_ge bs.length (i + 2) with hlt | hge
  · have : Reader.remaining ⟨bs, i, 0⟩ < 2 := by simp [Reader.remaining]; omega
    rw [if_neg (by simp [Reader.isAligned]), if_pos this]
    show First _ (.error (f _))
    rw [hf]
    exact .here (by omega)
  · have : ¬ Reader.remaining ⟨bs, i, 0⟩ < 2 := by simp [Reader.remaining]; omega
    rw [if_neg (by simp [Reader.isAligned]), if_neg this]
    refine ⟨allMet_cons hge allMet_nil, ?_, rfl, hge⟩
    dsimp only
    rw [fromLe_leVal]
    exact UInt16.toNat_ofNat_of_lt (num_lt bs i 2)

theorem Runs.u32 {f : Err → ε} (hf : Reads' f) {bs : Bytes} {i : Nat} {k : UInt32 → TM ε Reader β} {rest : Checks ε} {Q : β → Reader → Prop}
    (h : ∀ b : UInt32, b.toNat = num bs i 4 → i + 4 ≤ bs.length → Runs (k b) ⟨bs, i + 4, 0⟩ rest Q) :
    Runs (TM.of f Reader.getU32 >>= k) ⟨bs, i, 0⟩ (has bs (i + 4) rest) Q := by
  refine Runs.bind (cs := has bs (i + 4) []) (P := fun b s => b.toNat = num bs i 4 ∧ s = ⟨bs, i + 4, 0⟩ ∧ i + 4 ≤ bs.length) ?_ fun b s hb _ => by
    obtain ⟨h1, rfl, h3⟩ := hb
    exact h b h1 h3
  unfold Runs TM.of Reader.getU32
  rcases Nat.lt_or_ge bs.length (i + 4) with hlt | hge
  · have : Reader.remaining ⟨bs, i, 0⟩ < 4 := by simp [Reader.remaining]; omega
    rw [if_neg (by simp [Reader.isAligned]), if_pos this]
    show First _ (.error (f _))
    rw [hf]
    exact .here (by omega)
  · have : ¬ Reader.remaining ⟨bs, i, 0⟩ < 4 := by simp [Reader.remaining]; omega
    rw [if_neg (by simp [Reader.isAligned]), if_neg this]
    refine ⟨allMet_cons hge allMet_nil, ?_, rfl, hge⟩
    dsimp only
    rw [fromLe_leVal]
    exact UInt32.toNat_ofNat_of_lt (num_lt bs i 4)

/-- A slice into a buffer of `cap` bytes. -/
theorem Runs.slice {f : Err → ε} (hf : Reads' f) {bs : Bytes} {i n cap : Nat} {k : Bytes → TM ε Reader β} {rest : Checks ε} {Q : β → Reader → Prop}
    (hi : i ≤ bs.length) (h : ∀ d : Bytes, n ≤ cap → i + n ≤ bs.length → Runs (k d) ⟨bs, i + n, 0⟩ rest Q) :
    Runs (TM.of f (Reader.getSlice n cap) >>= k) ⟨bs, i, 0⟩ (has bs (i + n) (orAbort (n ≤ cap) rest)) Q := by
  refine Runs.bind (cs := has bs (i + n) (orAbort (n ≤ cap) [])) (P := fun b s => n ≤ cap ∧ s = ⟨bs, i + n, 0⟩ ∧ i + n ≤ bs.length) ?_ fun b s hb _ => by
    obtain ⟨h1, rfl, h3⟩ := hb
    exact h b h1 h3
  unfold Runs TM.of Reader.getSlice
  rcases Nat.lt_or_ge bs.length (i + n) with hlt | hge
  · have : Reader.remaining ⟨bs, i, 0⟩ < n := by simp [Reader.remaining]; omega
    rw [if_neg (by simp [Reader.isAligned]), if_pos this]
    show First _ (.error (f _))
    rw [hf]
    exact .here (by omega)
  · have : ¬ Reader.remaining ⟨bs, i, 0⟩ < n := by simp [Reader.remaining]; omega
    rw [if_neg (by simp [Reader.isAligned]), if_neg this]
    by_cases hc : n ≤ cap
    · dsimp only
      rw [if_pos hc]
      exact ⟨allMet_cons hge (allMet_cons hc allMet_nil), hc, rfl, hge⟩
    · dsimp only
      rw [if_neg hc]
      exact .later hge (.here hc)

/-- The same where the buffer is large enough. -/
theorem Runs.sliceFit {f : Err → ε} (hf : Reads' f) {bs : Bytes} {i n cap : Nat} {k : Bytes → TM ε Reader β} {rest : Checks ε} {Q : β → Reader → Prop}
    (hi : i ≤ bs.length) (hn : n ≤ cap) (h : ∀ d : Bytes, i + n ≤ bs.length → Runs (k d) ⟨bs, i + n, 0⟩ rest Q) :
    Runs (TM.of f (Reader.getSlice n cap) >>= k) ⟨bs, i, 0⟩ (has bs (i + n) rest) Q := by
  have h0 := Runs.slice hf (rest := rest) (Q := Q) (k := k) hi (cap := cap) (n := n) (fun d _ hd => h d hd)
  refine h0.same ⟨fun hc x hx => hc x ?_, fun g hg => ?_⟩
  · simp only [has, need, orAbort, List.mem_cons] at hx ⊢
    rcases hx with hx | hx
    · exact .inl hx
    · exact .inr (.inr hx)
  · cases hg with
    | here hm => exact .here hm
    | later h1 hg =>
      refine .later h1 ?_
      cases hg with
      | here hm => exact absurd hn hm
      | later _ hg => exact hg

theorem runs_skip {f : Err → ε} (hf : Reads' f) {bs : Bytes} : ∀ (n i : Nat), i ≤ bs.length →
    Runs (TM.of f (Reader.skipReserved n)) ⟨bs, i, 0⟩ (zeroes bs i n []) (fun _ s => s = ⟨bs, i + n, 0⟩ ∧ i + n ≤ bs.length)
  | 0, i, hi => Runs.pure ⟨rfl, hi⟩
  | n + 1, i, hi => by
    rw [Reader.skipReserved, TM.of_bind, zeroes]
    refine Runs.byte hf hi fun b hb hlt => ?_
    rw [TM.of_ite, TM.of_fail, hf]
    refine Runs.unless ?_ fun _ => ?_
    · rw [← hb, Decidable.not_not]
      exact (UInt8.toNat_inj (b := 0))
    · have := runs_skip hf n (i + 1) hlt
      rwa [show i + 1 + n = i + (n + 1) by omega] at this

theorem zeroes_append {bs : Bytes} (n i : Nat) (cs rest : Checks ε) : zeroes bs i n cs ++ rest = zeroes bs i n (cs ++ rest) := by
  induction n generalizing i with
  | zero => rfl
  | succ n ih => simp only [zeroes, has, need, List.cons_append, ih]

theorem Runs.skip {f : Err → ε} (hf : Reads' f) {bs : Bytes} {i n : Nat} {k : Unit → TM ε Reader β} {rest : Checks ε} {Q : β → Reader → Prop}
    (hi : i ≤ bs.length) (h : i + n ≤ bs.length → Runs (k ()) ⟨bs, i + n, 0⟩ rest Q) :
    Runs (TM.of f (Reader.skipReserved n) >>= k) ⟨bs, i, 0⟩ (zeroes bs i n rest) Q := by
  have := Runs.bind (cs' := rest) (f := k) (Q := Q) (runs_skip hf n i hi) fun b s hb _ => by
    obtain ⟨rfl, h3⟩ := hb
    exact h h3
  rwa [zeroes_append] at this

theorem runs_ignore {f : Err → ε} (hf : Reads' f) {bs : Bytes} : ∀ (n i : Nat), i ≤ bs.length →
    Runs (TM.of f (Reader.skipIgnored n)) ⟨bs, i, 0⟩ (has bs (i + n) []) (fun _ s => s = ⟨bs, i + n, 0⟩ ∧ i + n ≤ bs.length)
  | 0, i, hi => Runs.met hi (Runs.pure ⟨rfl, hi⟩)
  | n + 1, i, hi => by
    rw [Reader.skipIgnored, TM.of_bind]
    refine Runs.merge (m := i + 1) (by omega) (Runs.byte hf hi fun b hb hlt => ?_)
    have := runs_ignore hf n (i + 1) hlt
    rwa [show i + 1 + n = i + (n + 1) by omega] at this

theorem Runs.ignore {f : Err → ε} (hf : Reads' f) {bs : Bytes} {i n : Nat} {k : Unit → TM ε Reader β} {rest : Checks ε} {Q : β → Reader → Prop}
    (hi : i ≤ bs.length) (h : i + n ≤ bs.length → Runs (k ()) ⟨bs, i + n, 0⟩ rest Q) :
    Runs (TM.of f (Reader.skipIgnored n) >>= k) ⟨bs, i, 0⟩ (has bs (i + n) rest) Q :=
  Runs.bind (runs_ignore hf n i hi) fun b s hb _ => by
    obtain ⟨rfl, h3⟩ := hb
    exact h h3

/-- Three bytes. -/
theorem Runs.u24 {f : Err → ε} (hf : Reads' f) {bs : Bytes} {i : Nat} {k : Nat → TM ε Reader β} {rest : Checks ε} {Q : β → Reader → Prop} (hi : i ≤ bs.length)
    (h : i + 3 ≤ bs.length → Runs (k (num bs i 3)) ⟨bs, i + 3, 0⟩ rest Q) :
    Runs (TM.of f Reader.getU24 >>= k) ⟨bs, i, 0⟩ (has bs (i + 3) rest) Q := by
  refine Runs.bind (cs := has bs (i + 3) []) (P := fun b s => b = num bs i 3 ∧ s = ⟨bs, i + 3, 0⟩ ∧ i + 3 ≤ bs.length) ?_ fun b s hb _ => by
    obtain ⟨rfl, rfl, h3⟩ := hb
    exact h h3
  have : (TM.of f Reader.getU24) ⟨bs, i, 0⟩ = TM.of f (do
    let a ← Reader.getByte
    let b ← Reader.getByte
    let c ← Reader.getByte
    Pure.pure (Reader.fromLe [a, b, c])) ⟨bs, i, 0⟩ := by
    unfold TM.of Reader.getU24
    rw [if_neg (by simp [Reader.isAligned])]
  unfold Runs
  rw [this]
  rw [TM.of_bind]
  show Runs _ _ _ _
  refine Runs.merge (m := i + 1) (by omega) (Runs.byte hf hi fun a ha h1 => ?_)
  rw [TM.of_bind]
  refine Runs.merge (m := i + 1 + 1) (by omega) (Runs.byte hf h1 fun b hb h2 => ?_)
  rw [TM.of_bind]
  refine Runs.byte hf h2 fun c hc h3 => ?_
  refine Runs.pure ⟨?_, rfl, h3⟩
  rw [num_succ (by omega), num_succ (i := i + 1) (by omega), ← ha, ← hb, ← hc]
  simp [Reader.fromLe]

/-- Bits of the byte at `i`. -/
theorem Runs.bits {f : Err → ε} (hf : Reads' f) {bs : Bytes} {i bit n : Nat} {k : UInt8 → TM ε Reader β} {rest : Checks ε} {Q : β → Reader → Prop}
    (hi : i ≤ bs.length) (hv : bit = 0 ∨ i < bs.length) (h1 : 1 ≤ n) (h7 : n ≤ 7) (h8 : bit + n ≤ 8)
    (h : ∀ b : UInt8, b.toNat = num bs i 1 / 2 ^ bit % 2 ^ n → i + 1 ≤ bs.length → Runs (k b) ⟨bs, i + (bit + n) / 8, (bit + n) % 8⟩ rest Q) :
    Runs (TM.of f (Reader.getBits n) >>= k) ⟨bs, i, bit⟩ (has bs (i + 1) rest) Q := by
  refine Runs.bind (cs := has bs (i + 1) []) (P := fun b s => b.toNat = num bs i 1 / 2 ^ bit % 2 ^ n ∧ s = ⟨bs, i + (bit + n) / 8, (bit + n) % 8⟩ ∧ i + 1 ≤ bs.length) ?_ fun b s hb _ => by
    obtain ⟨h1, rfl, h3⟩ := hb
    exact h b h1 h3
  rcases Nat.lt_or_ge i bs.length with hlt | hge
  · have hb : bs[i]? = some bs[i] := by simp [hlt]
    have hat : Reader.at? ⟨bs, i, bit⟩ i = .ok bs[i] := by simp [Reader.at?, hb]
    have hn := num_one hb
    have hlt8 := (bs[i]).toNat_lt
    have key : ∃ v : UInt8, v.toNat = (bs[i]).toNat / 2 ^ bit % 2 ^ n ∧ Reader.getBits n ⟨bs, i, bit⟩ = (.ok v, ⟨bs, i + (bit + n) / 8, (bit + n) % 8⟩) := by
      unfold Reader.getBits
      rw [if_neg (by simp [Reader.isEmpty]; omega), if_neg (by omega)]
      dsimp only
      by_cases h88 : bit + n = 8
      · rw [if_pos (by omega), if_neg (by omega)]
        have hs : Reader.shr8 bs[i] bit = .ok (UInt8.ofNat ((bs[i]).toNat / 2 ^ bit)) := by
          unfold Reader.shr8; rw [if_pos (by omega)]
        have hlt' : (bs[i]).toNat / 2 ^ bit < 2 ^ n := by
          rw [Nat.div_lt_iff_lt_mul (Nat.two_pow_pos bit), ← Nat.pow_add, show n + bit = 8 by omega]
          exact hlt8
        refine ⟨UInt8.ofNat ((bs[i]).toNat / 2 ^ bit), ?_, ?_⟩
        · rw [Nat.mod_eq_of_lt hlt']
          exact UInt8.toNat_ofNat_of_lt' (Nat.lt_of_le_of_lt (Nat.div_le_self _ _) hlt8)
        · rw [hat]
          simp only [Res.ok_bind, hs, h88]
          simp [Pure.pure, Res.ok_bind]
      · rw [if_neg (by omega)]
        have hs : Reader.shl8 bs[i] (8 - (bit + n)) = .ok (UInt8.ofNat ((bs[i]).toNat * 2 ^ (8 - (bit + n)))) := by
          unfold Reader.shl8; rw [if_pos (by omega)]
        have hs2 : ∀ x : UInt8, Reader.shr8 x (8 - (bit + n - bit)) = .ok (UInt8.ofNat (x.toNat / 2 ^ (8 - (bit + n - bit)))) := by
          intro x; unfold Reader.shr8; rw [if_pos (by omega)]
        refine ⟨UInt8.ofNat ((UInt8.ofNat ((bs[i]).toNat * 2 ^ (8 - (bit + n)))).toNat / 2 ^ (8 - (bit + n - bit))), ?_, ?_⟩
        · generalize bs[i] = b at hlt8
          have hb1 : bit < 8 := by omega
          have hn1 : n < 8 := by omega
          revert b
          have : ∀ (b : Fin 256) (bit n : Fin 8), bit.val + n.val < 8 → 1 ≤ n.val →
              (UInt8.ofNat ((UInt8.ofNat ((UInt8.ofNat b.val).toNat * 2 ^ (8 - (bit.val + n.val)))).toNat / 2 ^ (8 - (bit.val + n.val - bit.val)))).toNat
                = (UInt8.ofNat b.val).toNat / 2 ^ bit.val % 2 ^ n.val := by decide +kernel
          intro b hb
          have := this ⟨b.toNat, hb⟩ ⟨bit, hb1⟩ ⟨n, hn1⟩ (by dsimp only; omega) h1
          simpa using this
        · rw [hat]
          simp only [Res.ok_bind, hs, hs2]
          rw [show (bit + n) / 8 = 0 from Nat.div_eq_of_lt (by omega), show (bit + n) % 8 = bit + n from Nat.mod_eq_of_lt (by omega)]
          rfl
    obtain ⟨v, hv', hr⟩ := key
    unfold Runs TM.of
    rw [hr]
    exact ⟨allMet_cons hlt allMet_nil, by rw [hn]; exact hv', rfl, hlt⟩
  · have : i = bs.length := by omega
    subst this
    have hb0 : bit = 0 := by omega
    subst hb0
    have : Reader.getBits n ⟨bs, bs.length, 0⟩ = (.err (.read .bufferEmpty), ⟨bs, bs.length, 0⟩) := by
      simp [Reader.getBits, Reader.isEmpty]
    unfold Runs TM.of
    rw [this]
    show First _ (.error (f _))
    rw [hf]
    exact .here (by omega)

/-- Bits of a byte that is there. -/
theorem Runs.moreBits {f : Err → ε} (hf : Reads' f) {bs : Bytes} {i bit n : Nat} {k : UInt8 → TM ε Reader β} {rest : Checks ε} {Q : β → Reader → Prop}
    (hi : i + 1 ≤ bs.length) (h1 : 1 ≤ n) (h7 : n ≤ 7) (h8 : bit + n ≤ 8)
    (h : ∀ b : UInt8, b.toNat = num bs i 1 / 2 ^ bit % 2 ^ n → Runs (k b) ⟨bs, i + (bit + n) / 8, (bit + n) % 8⟩ rest Q) :
    Runs (TM.of f (Reader.getBits n) >>= k) ⟨bs, i, bit⟩ rest Q := by
  have h0 := Runs.bits hf (k := k) (rest := rest) (Q := Q) (i := i) (bit := bit) (n := n) (bs := bs) (by omega) (.inr (by omega)) h1 h7 h8 fun b hb _ => h b hb
  refine h0.same ⟨fun hc x hx => hc x (List.mem_cons_of_mem _ hx), fun g hg => ?_⟩
  cases hg with
  | here hm => exact absurd hi hm
  | later _ hg => exact hg

attribute [irreducible] Runs

end Spdm
