import Verif.Lemmas.Choose
import Verif.Requester
/-! The requester's checks on versions and algorithm selections. -/
namespace Spdm
open Spec

/-! ### Versions -/

theorem versionLt_iff (a b : VersionEntry) : Requester.versionLt a b = true ↔ rank a < rank b := by
  have e : ∀ x y : UInt8, x ≠ y ↔ x.toNat ≠ y.toNat := fun x y => not_congr UInt8.toNat_inj.symm
  have l : ∀ x y : UInt8, x < y ↔ x.toNat < y.toNat := fun x y => UInt8.lt_iff_toNat_lt
  have a1 := a.major.toNat_lt; have a2 := a.minor.toNat_lt; have a3 := a.update.toNat_lt; have a4 := a.alpha.toNat_lt
  have b1 := b.major.toNat_lt; have b2 := b.minor.toNat_lt; have b3 := b.update.toNat_lt; have b4 := b.alpha.toNat_lt
  unfold Requester.versionLt rank
  simp only [e, l]
  split
  · simp only [decide_eq_true_eq]; omega
  · split
    · simp only [decide_eq_true_eq]; omega
    · split
      · simp only [decide_eq_true_eq]; omega
      · simp only [decide_eq_true_eq]; omega

theorem rank_inj {a b : VersionEntry} (h : rank a = rank b) : a = b := by
  have a1 := a.major.toNat_lt; have a2 := a.minor.toNat_lt; have a3 := a.update.toNat_lt; have a4 := a.alpha.toNat_lt
  have b1 := b.major.toNat_lt; have b2 := b.minor.toNat_lt; have b3 := b.update.toNat_lt; have b4 := b.alpha.toNat_lt
  unfold rank at h
  cases a; cases b
  simp only at *
  congr <;> apply UInt8.toNat_inj.mp <;> omega

theorem rank_zero {a : VersionEntry} : rank a = 0 ↔ a = VersionEntry.zero := by
  constructor
  · intro h; exact rank_inj (h.trans (by decide))
  · rintro rfl; decide

/-- The loop keeps the best of the entries seen. -/
theorem findMaxLoop_run (entries expected : List VersionEntry) (n i : Nat) (found : VersionEntry) (hl : i + n ≤ entries.length) :
    ∃ e, Requester.findMaxLoop entries expected n i found = .ok e ∧ rank found ≤ rank e ∧
      (e = found ∨ e ∈ (entries.drop i).take n ∧ e ∈ expected) ∧
      ∀ e' ∈ (entries.drop i).take n, e' ∈ expected → rank e' ≤ rank e := by
  induction n generalizing i found with
  | zero => exact ⟨found, rfl, by omega, .inl rfl, by simp⟩
  | succ n ih =>
    have hi : i < entries.length := by omega
    have hd : (entries.drop i).take (n + 1) = entries[i] :: (entries.drop (i + 1)).take n := by
      rw [List.drop_eq_getElem_cons hi, List.take_succ_cons]
    simp only [Requester.findMaxLoop, index_ok hi, Res.ok_bind]
    rw [hd]
    obtain ⟨e, h1, h2, h3, h4⟩ := ih (i + 1) (if Requester.versionLt found entries[i] = true then
      (if expected.contains entries[i] = true then entries[i] else found) else found) (by omega)
    refine ⟨e, h1, ?_, ?_, ?_⟩
    · revert h2; split
      · rename_i hlt
        rw [versionLt_iff] at hlt
        split <;> intro h2 <;> omega
      · exact id
    · rcases h3 with h3 | h3
      · revert h3; split
        · split
          · rename_i hc; intro h3
            right; rw [h3]; exact ⟨by simp, by simpa using hc⟩
          · exact .inl
        · exact .inl
      · right; exact ⟨by simp [h3.1], h3.2⟩
    · intro e' he' hx
      rcases List.mem_cons.mp he' with rfl | he'
      · revert h2; split
        · rw [if_pos (by simpa using hx)]; exact id
        · rename_i hlt
          rw [versionLt_iff] at hlt
          intro h2; omega
      · exact h4 e' he' hx

theorem findMax_run (v : Version) (h : v.numEntries.toNat ≤ v.entries.length) :
    ∃ o, Requester.findMaxMatchingVersion v = .ok o ∧
      (∀ e, o = some e → HighestCommon v e) ∧ (o = none → ∀ e ∈ listed v, e ∉ supportedVersions) := by
  obtain ⟨e, h1, h2, h3, h4⟩ := findMaxLoop_run v.entries supportedVersions v.numEntries.toNat 0 VersionEntry.zero (by omega)
  simp only [List.drop_zero] at h3 h4
  have hex : Version.default.entries.take Version.default.numEntries.toNat = supportedVersions := by rfl
  refine ⟨if e = VersionEntry.zero then none else some e, ?_, ?_, ?_⟩
  · unfold Requester.findMaxMatchingVersion
    simp only [hex, h1, Res.ok_bind, Res.pure_eq]
  · intro e' he'
    split at he'
    · simp at he'
    · simp only [Option.some.injEq] at he'
      subst he'
      rcases h3 with h3 | h3
      · exact absurd h3 (by assumption)
      · exact ⟨h3.1, h3.2, h4⟩
  · intro hn e' he' hs
    split at hn
    · rename_i hz
      have := h4 e' he' hs
      rw [hz] at this
      have hz0 : rank VersionEntry.zero = 0 := by decide
      have : rank e' = 0 := by omega
      rw [rank_zero] at this
      subst this
      revert hs; decide
    · simp at hn

/-! ### Algorithms -/

theorem and_pow_ne (n k : Nat) : ¬ (n &&& 2 ^ k = 0) ↔ n.testBit k = true := by
  constructor
  · intro h
    by_contra hf
    apply h
    apply Nat.eq_of_testBit_eq
    intro i
    rw [Nat.testBit_and, Nat.testBit_two_pow, Nat.zero_testBit]
    by_cases hk : k = i
    · subst hk; simpa using hf
    · simp [hk]
  · intro h h0
    have := congrArg (fun m => m.testBit k) h0
    simp only [Nat.testBit_and, Nat.testBit_two_pow_self, Nat.zero_testBit, h] at this
    simp at this

theorem and32_ne {x y : UInt32} {k : Nat} (hy : y.toNat = 2 ^ k) : x &&& y ≠ 0 ↔ x.toNat.testBit k = true := by
  have : x &&& y = 0 ↔ x.toNat &&& 2 ^ k = 0 := by
    rw [← UInt32.toNat_inj, UInt32.toNat_and, hy]; simp
  exact (not_congr this).trans (and_pow_ne _ _)

theorem and16_ne {x y : UInt16} {k : Nat} (hy : y.toNat = 2 ^ k) : x &&& y ≠ 0 ↔ x.toNat.testBit k = true := by
  have : x &&& y = 0 ↔ x.toNat &&& 2 ^ k = 0 := by
    rw [← UInt16.toNat_inj, UInt16.toNat_and, hy]; simp
  exact (not_congr this).trans (and_pow_ne _ _)

theorem offered32 {x y : UInt32} {w : Nat} (hy : OneBit w y.toNat) : x &&& y ≠ 0 ↔ Offered x.toNat y.toNat := by
  obtain ⟨k, _, hk⟩ := hy
  rw [and32_ne hk]
  constructor
  · intro h; exact ⟨k, h, hk⟩
  · rintro ⟨j, h, hj⟩
    have : j = k := Nat.pow_right_injective (Nat.le_refl 2) (hj.symm.trans hk)
    exact this ▸ h

theorem offered16 {x y : UInt16} {w : Nat} (hy : OneBit w y.toNat) : x &&& y ≠ 0 ↔ Offered x.toNat y.toNat := by
  obtain ⟨k, _, hk⟩ := hy
  rw [and16_ne hk]
  constructor
  · intro h; exact ⟨k, h, hk⟩
  · rintro ⟨j, h, hj⟩
    have : j = k := Nat.pow_right_injective (Nat.le_refl 2) (hj.symm.trans hk)
    exact this ▸ h

theorem ensureResponseLoop_run (reqs : List AlgorithmRequest) (rsp : AlgorithmRequest) (n i : Nat) (hl : i + n ≤ reqs.length) :
    (Requester.ensureResponseLoop reqs rsp n i = .ok () ∧ ∀ j q, reqs[j]? = some q → i ≤ j → j < i + n → q.kind = rsp.kind → q.supported &&& rsp.supported ≠ 0) ∨
    (Requester.ensureResponseLoop reqs rsp n i = .err (.selectedAlgorithmNotRequested 5) ∧
      ∃ j q, reqs[j]? = some q ∧ i ≤ j ∧ j < i + n ∧ q.kind = rsp.kind ∧ q.supported &&& rsp.supported = 0) := by
  induction n generalizing i with
  | zero => left; exact ⟨rfl, fun j q _ _ _ => by omega⟩
  | succ n ih =>
    have hi : i < reqs.length := by omega
    simp only [Requester.ensureResponseLoop, index_ok hi, Res.ok_bind]
    by_cases hb : reqs[i].kind = rsp.kind ∧ reqs[i].supported &&& rsp.supported = 0
    · rw [if_pos hb]
      right; exact ⟨rfl, i, reqs[i], List.getElem?_eq_getElem hi, by omega, by omega, hb⟩
    · rw [if_neg hb]
      rcases ih (i + 1) (by omega) with ⟨h1, h2⟩ | ⟨h1, j, q, h2, h3, h4, h5⟩
      · left
        refine ⟨h1, fun j q hq hj1 hj2 hk => ?_⟩
        rcases Nat.lt_or_ge i j with hij | hij
        · exact h2 j q hq (by omega) (by omega) hk
        · have : j = i := by omega
          subst this
          rw [List.getElem?_eq_getElem hi] at hq
          simp only [Option.some.injEq] at hq
          subst hq
          exact fun hz => hb ⟨hk, hz⟩
      · right; exact ⟨h1, j, q, h2, by omega, by omega, h5⟩

theorem ensureResponses_run (m : NegotiateAlgorithms) (rsps : List AlgorithmRequest) (hm : m.numAlgorithmRequests.toNat ≤ m.algorithmRequests.length) (n i : Nat)
    (hl : i + n ≤ rsps.length) :
    (Requester.ensureResponses m rsps n i = .ok () ∧ ∀ k p, rsps[k]? = some p → i ≤ k → k < i + n → ∀ j q, m.algorithmRequests[j]? = some q →
      j < m.numAlgorithmRequests.toNat → q.kind = p.kind → q.supported &&& p.supported ≠ 0) ∨
    (Requester.ensureResponses m rsps n i = .err (.selectedAlgorithmNotRequested 5) ∧ ∃ k p j q, rsps[k]? = some p ∧ i ≤ k ∧ k < i + n ∧
      m.algorithmRequests[j]? = some q ∧ j < m.numAlgorithmRequests.toNat ∧ q.kind = p.kind ∧ q.supported &&& p.supported = 0) := by
  induction n generalizing i with
  | zero => left; exact ⟨rfl, fun j q _ _ _ => by omega⟩
  | succ n ih =>
    have hi : i < rsps.length := by omega
    simp only [Requester.ensureResponses, index_ok hi, Res.ok_bind]
    rcases ensureResponseLoop_run m.algorithmRequests rsps[i] m.numAlgorithmRequests.toNat 0 (by omega) with ⟨h1, h2⟩ | ⟨h1, j, q, h2, h3, h4, h5⟩
    · rw [h1]
      simp only [Res.ok_bind]
      rcases ih (i + 1) (by omega) with ⟨g1, g2⟩ | ⟨g1, k, p, j, q, g2, g3, g4, g5⟩
      · left
        refine ⟨g1, fun k p hp hk1 hk2 j q hq hj hkk => ?_⟩
        rcases Nat.lt_or_ge i k with hij | hij
        · exact g2 k p hp (by omega) (by omega) j q hq hj hkk
        · have : k = i := by omega
          subst this
          rw [List.getElem?_eq_getElem hi] at hp
          simp only [Option.some.injEq] at hp
          subst hp
          exact h2 j q hq (by omega) (by omega) hkk
      · right; exact ⟨g1, k, p, j, q, g2, by omega, by omega, g5⟩
    · rw [h1]
      right; exact ⟨rfl, i, rsps[i], j, q, List.getElem?_eq_getElem hi, by omega, by omega, h2, by omega, h5⟩

/-- What the requester's check accepts, for a parsed response. -/
theorem ensureValid_iff {m : NegotiateAlgorithms} {a : Algorithms} (hm : m.numAlgorithmRequests.toNat ≤ m.algorithmRequests.length) (ha : AlgorithmsWF a) :
    Requester.ensureValidAlgorithmsSelected (some m) a = .ok () ↔
      (a.measurementSpecSelected = m.measurementSpec ∧ Offered m.baseAsymAlgo.toNat a.baseAsymAlgoSelected.toNat ∧
        Offered m.baseHashAlgo.toNat a.baseHashAlgoSelected.toNat ∧ Offered m.baseHashAlgo.toNat a.measurementHashAlgoSelected.toNat ∧
        ∀ k p, a.algorithmResponses[k]? = some p → k < a.numAlgorithmResponses.toNat → ∀ j q, m.algorithmRequests[j]? = some q →
          j < m.numAlgorithmRequests.toNat → q.kind = p.kind → Offered q.supported.toNat p.supported.toNat) := by
  unfold Requester.ensureValidAlgorithmsSelected
  simp only
  rw [← offered32 ha.asym, ← offered32 ha.hash, ← offered32 ha.mhash]
  by_cases h1 : m.measurementSpec = a.measurementSpecSelected
  swap
  · rw [if_pos h1]; simp only [reduceCtorEq, false_iff]; rintro ⟨h, _⟩; exact h1 h.symm
  rw [if_neg (by simpa using h1)]
  by_cases h2 : m.baseAsymAlgo &&& a.baseAsymAlgoSelected = 0
  · rw [if_pos h2]; simp [h2]
  rw [if_neg h2]
  by_cases h3 : m.baseHashAlgo &&& a.baseHashAlgoSelected = 0
  · rw [if_pos h3]; simp [h3]
  rw [if_neg h3]
  by_cases h4 : m.baseHashAlgo &&& a.measurementHashAlgoSelected = 0
  · rw [if_pos h4]; simp [h4]
  rw [if_neg h4]
  have hb : ∀ k p, a.algorithmResponses[k]? = some p → k < a.numAlgorithmResponses.toNat → ∀ q : AlgorithmRequest,
      (q.supported &&& p.supported ≠ 0 ↔ Offered q.supported.toNat p.supported.toNat) :=
    fun k p hp hk q => offered16 (ha.bits k p hp hk)
  rcases ensureResponses_run m a.algorithmResponses hm a.numAlgorithmResponses.toNat 0 (by rw [ha.len]; have := ha.num; omega) with ⟨g1, g2⟩ | ⟨g1, k, p, j, q, g2, g3, g4, g5, g6, g7, g8⟩
  · simp only [g1, true_iff]
    refine ⟨h1.symm, h2, h3, h4, fun k p hp hk j q hq hj hkk => (hb k p hp hk q).mp (g2 k p hp (by omega) (by omega) j q hq hj hkk)⟩
  · rw [g1]
    simp only [reduceCtorEq, false_iff]
    rintro ⟨_, _, _, _, h⟩
    exact (hb k p g2 (by omega) q).mpr (h k p g2 (by omega) j q g5 g6 g7) g8

end Spdm
