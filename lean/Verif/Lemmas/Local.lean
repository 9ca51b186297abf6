import Verif.Lemmas.SafeMsgs
/-! Reader programs whose success depends only on the bytes they consume, and which fail on shorter input. -/
namespace Spdm

/-- `p` is local: a successful run ends at a position inside the buffer, gives the same result on every buffer with the same bytes up to
that position, and fails with an error on every proper prefix that ends before it. -/
def Local {α : Type} (p : R α) : Prop :=
  ∀ buf off bit a r', Reader.Valid ⟨buf, off, bit⟩ → p ⟨buf, off, bit⟩ = (.ok a, r') →
    ∃ off' bit', r' = ⟨buf, off', bit'⟩ ∧ Reader.Valid ⟨buf, off', bit'⟩ ∧ 8 * off + bit ≤ 8 * off' + bit' ∧
      (∀ buf', (∀ i, 8 * i < 8 * off' + bit' → buf'[i]? = buf[i]?) → p ⟨buf', off, bit⟩ = (.ok a, ⟨buf', off', bit'⟩)) ∧
      (∀ buf', buf' <+: buf → Reader.Valid ⟨buf', off, bit⟩ → 8 * buf'.length < 8 * off' + bit' → ∃ e r, p ⟨buf', off, bit⟩ = (.err e, r))

theorem valid_of_agree {buf buf' : Bytes} {off bit : Nat} (h : Reader.Valid ⟨buf, off, bit⟩)
    (ha : ∀ i, 8 * i < 8 * off + bit → buf'[i]? = buf[i]?) : Reader.Valid ⟨buf', off, bit⟩ := by
  obtain ⟨h1, h2, h3⟩ := h
  simp only [Reader.Valid] at *
  have key : ∀ i, i < buf.length → 8 * i < 8 * off + bit → i < buf'.length := by
    intro i hi h8
    have := ha i h8
    rw [List.getElem?_eq_getElem hi] at this
    exact (List.getElem?_eq_some_iff.mp this).1
  have hle : off ≤ buf'.length := by
    by_cases h0 : off = 0
    · omega
    · have := key (off - 1) (by omega) (by omega); omega
  refine ⟨hle, h2, fun he => ?_⟩
  by_cases hb : bit = 0
  · exact hb
  · have := key off (by omega) (by omega); omega

namespace Local
variable {α β : Type}

theorem pure (a : α) : Local (Pure.pure a : R α) := by
  intro buf off bit b r' hv h
  simp only [M.run_pure, Prod.mk.injEq, Res.ok.injEq] at h
  obtain ⟨rfl, rfl⟩ := h
  refine ⟨off, bit, rfl, hv, Nat.le_refl _, fun _ _ => rfl, fun buf' _ hv' hl => ?_⟩
  have := hv'.1; have := hv'.2.1; have := hv'.2.2
  simp only at *
  by_cases he : off = buf'.length
  · have := hv'.2.2 he; simp only at this; omega
  · omega

theorem lift (x : Res α) : Local (M.lift x : R α) := by
  cases x with
  | ok a => exact pure a
  | err e => intro buf off bit b r' hv h; simp at h
  | panic k => intro buf off bit b r' hv h; simp at h

theorem fail (e : Err) : Local (M.fail e : R α) := by
  intro buf off bit b r' hv h; simp at h

theorem die (e : PanicKind) : Local (M.die e : R α) := by
  intro buf off bit b r' hv h; simp at h

theorem bind {p : R α} {q : α → R β} (hp : Local p) (hq : ∀ a, Local (q a)) : Local (p >>= q) := by
  intro buf off bit b r'' hv h
  obtain ⟨a, r', h1, h2⟩ := M.bind_ok_inv h
  obtain ⟨o1, b1, rfl, v1, l1, s1, t1⟩ := hp buf off bit a r' hv h1
  obtain ⟨o2, b2, rfl, v2, l2, s2, t2⟩ := hq a buf o1 b1 b r'' v1 h2
  refine ⟨o2, b2, rfl, v2, by omega, fun buf' ha => ?_, fun buf' hpre hv' hl => ?_⟩
  · rw [M.run_bind_ok (s1 buf' fun i hi => ha i (by omega))]
    exact s2 buf' ha
  · by_cases hc : 8 * buf'.length < 8 * o1 + b1
    · obtain ⟨e, r, he⟩ := t1 buf' hpre hv' hc
      exact ⟨e, r, M.run_bind_err he⟩
    · have hag : ∀ i, 8 * i < 8 * o1 + b1 → buf'[i]? = buf[i]? := by
        intro i hi
        obtain ⟨t, rfl⟩ := hpre
        rw [List.getElem?_append_left (by omega)]
      rw [M.run_bind_ok (s1 buf' hag)]
      exact t2 buf' hpre (valid_of_agree v1 hag) hl

theorem ite {c : Prop} [Decidable c] {p q : R α} (hp : c → Local p) (hq : ¬ c → Local q) : Local (if c then p else q) := by
  split
  · exact hp ‹_›
  · exact hq ‹_›

theorem mapErr {p : R α} (F : Err → Err) (hp : Local p) : Local (M.mapErr F p) := by
  intro buf off bit a r' hv h
  have hok : p ⟨buf, off, bit⟩ = (.ok a, r') := by
    unfold M.mapErr at h
    split at h
    · simp at h
    · exact h
  obtain ⟨o1, b1, rfl, v1, l1, s1, t1⟩ := hp buf off bit a r' hv hok
  refine ⟨o1, b1, rfl, v1, l1, fun buf' ha => ?_, fun buf' hpre hv' hl => ?_⟩
  · simp [M.mapErr, s1 buf' ha]
  · obtain ⟨e, r, he⟩ := t1 buf' hpre hv' hl
    exact ⟨F e, r, by simp [M.mapErr, he]⟩

/-- Only the byte position of the reader is used. -/
theorem get_offset {f : Nat → R α} (hf : ∀ n, Local (f n)) : Local (M.get >>= fun r => f r.byteOffset) := by
  intro buf off bit a r' hv h
  rw [M.run_bind_ok (M.run_get _)] at h
  obtain ⟨o1, b1, rfl, v1, l1, s1, t1⟩ := hf off buf off bit a r' hv h
  refine ⟨o1, b1, rfl, v1, l1, fun buf' ha => ?_, fun buf' hpre hv' hl => ?_⟩
  · rw [M.run_bind_ok (M.run_get _)]; exact s1 buf' ha
  · rw [M.run_bind_ok (M.run_get _)]; exact t1 buf' hpre hv' hl

theorem getByte : Local Reader.getByte := by
  intro buf off bit a r' hv h
  obtain ⟨v1, v2, v3⟩ := hv
  unfold Reader.getByte at h
  simp only at v1 v2 v3
  split at h
  · simp at h
  split at h
  · simp at h
  rename_i hal hem
  simp only [Reader.isAligned, Reader.isEmpty] at hal hem
  have hb0 : bit = 0 := by simpa using hal
  subst hb0
  have hlt : off < buf.length := by simp at hem; omega
  simp only [List.getElem?_eq_getElem hlt, Prod.mk.injEq, Res.ok.injEq] at h
  obtain ⟨rfl, rfl⟩ := h
  refine ⟨off + 1, 0, rfl, ⟨by simp; omega, by simp, by simp⟩, by omega, fun buf' ha => ?_, fun buf' hpre hv' hl => ?_⟩
  · have := ha off (by omega)
    rw [List.getElem?_eq_getElem hlt] at this
    have hlt' : off < buf'.length := (List.getElem?_eq_some_iff.mp this).1
    unfold Reader.getByte
    rw [if_neg (by simp [Reader.isAligned]), if_neg (by simp [Reader.isEmpty]; omega)]
    simp only [this]
  · refine ⟨.read .bufferEmpty, ⟨buf', off, 0⟩, ?_⟩
    unfold Reader.getByte
    rw [if_neg (by simp [Reader.isAligned]), if_pos (by have := hv'.1; simp [Reader.isEmpty] at *; omega)]

theorem skipReserved (n : Nat) : Local (Reader.skipReserved n) := by
  induction n with
  | zero => exact pure ()
  | succ n ih => exact getByte.bind fun a => ite (fun _ => fail _) fun _ => ih

theorem skipIgnored (n : Nat) : Local (Reader.skipIgnored n) := by
  induction n with
  | zero => exact pure ()
  | succ n ih => exact getByte.bind fun a => ih

theorem getU24 : Local Reader.getU24 := by
  have hb : Local (do
    let a ← Reader.getByte
    let b ← Reader.getByte
    let c ← Reader.getByte
    Pure.pure (Reader.fromLe [a, b, c]) : R Nat) := getByte.bind fun _ => getByte.bind fun _ => getByte.bind fun _ => pure _
  intro buf off bit a r' hv h
  unfold Reader.getU24 at h
  split at h
  · simp at h
  rename_i hal
  obtain ⟨o1, b1, rfl, v1, l1, s1, t1⟩ := hb buf off bit a r' hv h
  refine ⟨o1, b1, rfl, v1, l1, fun buf' ha => ?_, fun buf' hpre hv' hl => ?_⟩
  · unfold Reader.getU24
    rw [if_neg (by simpa [Reader.isAligned] using hal)]
    exact s1 buf' ha
  · unfold Reader.getU24
    rw [if_neg (by simpa [Reader.isAligned] using hal)]
    exact t1 buf' hpre hv' hl

/-- Fixed-size aligned reads. -/
theorem chunk {k : Nat} {p : R α} (f : Bytes → α)
    (hp : ∀ r : Reader, p r = if !r.isAligned then (.err (.read .unaligned), r)
      else if r.remaining < k then (.err (.read .bufferEmpty), r)
      else (.ok (f ((r.buf.drop r.byteOffset).take k)), { r with byteOffset := r.byteOffset + k })) : Local p := by
  intro buf off bit a r' hv h
  obtain ⟨v1, v2, v3⟩ := hv
  simp only at v1 v2 v3
  rw [hp] at h
  split at h
  · simp at h
  split at h
  · simp at h
  rename_i hal hrem
  have hb0 : bit = 0 := by simpa [Reader.isAligned] using hal
  subst hb0
  simp only [Reader.remaining] at hrem
  simp only [Prod.mk.injEq, Res.ok.injEq] at h
  obtain ⟨rfl, rfl⟩ := h
  refine ⟨off + k, 0, rfl, ⟨by simp; omega, by simp, by simp⟩, by omega, fun buf' ha => ?_, fun buf' hpre hv' hl => ?_⟩
  · have hv' := valid_of_agree (buf := buf) (buf' := buf') (off := off + k) (bit := 0) ⟨by simp; omega, by simp, by simp⟩ ha
    have hl' : off + k ≤ buf'.length := hv'.1
    rw [hp, if_neg (by simp [Reader.isAligned]), if_neg (by simp [Reader.remaining]; omega)]
    have : (buf'.drop off).take k = (buf.drop off).take k := by
      apply List.ext_getElem?
      intro i
      by_cases hi : i < k
      · simp only [List.getElem?_take, if_pos hi, List.getElem?_drop]
        exact ha _ (by omega)
      · simp [List.getElem?_take, hi]
    simp only [this]
  · refine ⟨.read .bufferEmpty, ⟨buf', off, 0⟩, ?_⟩
    rw [hp, if_neg (by simp [Reader.isAligned]), if_pos (by have := hv'.1; simp [Reader.remaining] at *; omega)]

theorem getU16 : Local Reader.getU16 := chunk (k := 2) (fun s => UInt16.ofNat (Reader.fromLe s)) fun _ => rfl
theorem getU32 : Local Reader.getU32 := chunk (k := 4) (fun s => UInt32.ofNat (Reader.fromLe s)) fun _ => rfl

theorem getSlice (n cap : Nat) : Local (Reader.getSlice n cap) := by
  by_cases h : n ≤ cap
  · refine chunk (k := n) id fun r => ?_
    simp [Reader.getSlice, h]
  · intro buf off bit a r' hv hr
    unfold Reader.getSlice at hr
    split at hr
    · simp at hr
    split at hr
    · simp at hr
    simp [h] at hr

theorem getBits {n : Nat} (h1 : 1 ≤ n) (h7 : n ≤ 7) : Local (Reader.getBits n) := by
  intro buf off bit a r' hv h
  obtain ⟨g1, g2⟩ := getBits_spec ⟨buf, off, bit⟩ n hv h1 h7
  simp only [Reader.pos] at g1 g2
  by_cases hfit : 8 * off + bit + n ≤ 8 * buf.length
  · obtain ⟨v, rr, e, hbuf, hval, hpos, hv'⟩ := g1 hfit
    rw [e] at h
    simp only [Prod.mk.injEq, Res.ok.injEq] at h
    obtain ⟨rfl, rfl⟩ := h
    obtain ⟨b, o1, b1⟩ := rr
    simp only at hbuf hpos
    subst hbuf
    refine ⟨o1, b1, rfl, hval, by omega, fun buf' ha => ?_, fun buf' hpre hvp hl => ?_⟩
    · have hvalid := valid_of_agree hval ha
      have hstart : Reader.Valid ⟨buf', off, bit⟩ := valid_of_agree hv fun i hi => ha i (by omega)
      have hfit' : 8 * off + bit + n ≤ 8 * buf'.length := by
        have := hvalid.1; have := hvalid.2.1; have := hvalid.2.2
        simp only at *
        by_cases he : o1 = buf'.length
        · have := hvalid.2.2 he; simp only at this; omega
        · omega
      obtain ⟨w, r2, e2, hbuf2, hval2, hpos2, hw⟩ := (getBits_spec ⟨buf', off, bit⟩ n hstart h1 h7).1 (by simpa [Reader.pos] using hfit')
      rw [e2]
      obtain ⟨b2, o2, bb2⟩ := r2
      simp only [Reader.pos] at hbuf2 hpos2 hw
      subst hbuf2
      have hbits : ((Spec.bits b2).drop (8 * off + bit)).take n = ((Spec.bits b).drop (8 * off + bit)).take n := by
        apply List.ext_getElem?
        intro i
        by_cases hi : i < n
        · simp only [List.getElem?_take, if_pos hi, List.getElem?_drop, bits_getElem?]
          rw [ha _ (by omega)]
        · simp [List.getElem?_take, hi]
      have hvw : w = v := by
        rw [← UInt8.toNat_inj, hw, hbits, hv']
      have h2a := hval2.2.1; have h2b := hval.2.1
      simp only at h2a h2b
      have : o2 = o1 ∧ bb2 = b1 := by omega
      rw [hvw, this.1, this.2]
    · refine ⟨_, _, (getBits_spec ⟨buf', off, bit⟩ n hvp h1 h7).2 ?_⟩
      simp only [Reader.pos]; omega
  · rw [g2 (by omega)] at h
    simp at h

theorem getBit : Local Reader.getBit := getBits (by omega) (by omega)

/-- The consequence for whole parsers. -/
theorem parse {p : R α} (hp : Local p) {buf : Bytes} {a : α} (h : (p (Reader.new buf)).1 = .ok a) :
    ∃ n, n ≤ buf.length ∧ (∀ buf', n ≤ buf'.length → buf'.take n = buf.take n → (p (Reader.new buf')).1 = .ok a) ∧
      ∀ k, k < n → ∃ e, (p (Reader.new (buf.take k))).1 = .err e := by
  obtain ⟨o, b, _, v, _, s, t⟩ := hp buf 0 0 a (p (Reader.new buf)).2 ⟨by simp, by simp, by simp⟩ (by
    show p (Reader.new buf) = _
    rw [← h])
  have v1 := v.1; have v2 := v.2.1; have v3 := v.2.2
  simp only at v1 v2 v3
  refine ⟨if b = 0 then o else o + 1, ?_, fun buf' hl he => ?_, fun k hk => ?_⟩
  · split
    · exact v1
    · by_cases ho : o = buf.length
      · exact absurd (v3 ho) (by assumption)
      · omega
  · have := s buf' fun i hi => by
      have hi' : i < if b = 0 then o else o + 1 := by split <;> omega
      have h1 : (buf'.take (if b = 0 then o else o + 1))[i]? = (buf.take (if b = 0 then o else o + 1))[i]? := by rw [he]
      simpa only [List.getElem?_take, if_pos hi'] using h1
    show (p ⟨buf', 0, 0⟩).1 = _
    rw [this]
  · have hkl : k < buf.length := by
      split at hk
      · omega
      · by_cases ho : o = buf.length
        · exact absurd (v3 ho) (by assumption)
        · omega
    obtain ⟨e, r, he⟩ := t (buf.take k) (List.take_prefix _ _) ⟨by simp, by simp, by simp⟩ (by
      rw [List.length_take, Nat.min_eq_left (by omega)]
      split at hk <;> omega)
    exact ⟨e, by show (p ⟨buf.take k, 0, 0⟩).1 = _; rw [he]⟩

end Local
end Spdm
