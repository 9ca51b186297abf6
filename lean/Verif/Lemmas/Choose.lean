import Verif.Lemmas.Machine
import Verif.Spec.Choice
/-! Algorithm selection. -/
namespace Spdm
open Spec

theorem find_range {p : Nat → Bool} {n k : Nat} (h : (List.range n).find? p = some k) : k < n ∧ p k = true ∧ ∀ j, j < k → p j = false := by
  rw [List.find?_range_eq_some] at h
  refine ⟨by simpa using h.2.1, h.1, fun j hj => by simpa using h.2.2 j hj⟩

theorem trailingZeros_lt {w n : Nat} (h : trailingZeros w n < w) : LowestBit n (trailingZeros w n) := by
  unfold trailingZeros at h ⊢
  cases hf : (List.range w).find? (fun i => n.testBit i) with
  | none => rw [hf] at h; simp at h
  | some k => obtain ⟨_, h2, h3⟩ := find_range hf; exact ⟨h2, h3⟩

theorem trailingZeros_ge {w n : Nat} (h : ¬ trailingZeros w n < w) : ∀ j, j < w → n.testBit j = false := by
  unfold trailingZeros at h
  cases hf : (List.range w).find? (fun i => n.testBit i) with
  | none =>
    intro j hj
    have := List.find?_eq_none.mp hf j (by simpa using hj)
    simpa using this
  | some k => rw [hf] at h; exact absurd (find_range hf).1 h

/-- Lowest bits below `k`, given that only bits below `k` occur. -/
theorem lowest_exists {n k : Nat} (h0 : n ≠ 0) (hk : n < 2 ^ k) : ∃ i, i < k ∧ LowestBit n i := by
  have hex : ∃ i, n.testBit i = true := by
    by_contra hc
    apply h0
    apply Nat.eq_of_testBit_eq
    intro i
    cases hb : n.testBit i with
    | true => exact absurd ⟨i, hb⟩ hc
    | false => simp
  have hmin := Nat.find_spec hex
  refine ⟨Nat.find hex, testBit_lt hk hmin, hmin, fun j hj => ?_⟩
  have := Nat.find_min hex hj
  simpa using this

theorem lowest_unique {n i j : Nat} (hi : LowestBit n i) (hj : LowestBit n j) : i = j := by
  rcases Nat.lt_trichotomy i j with h | h | h
  · have := hj.2 i h; rw [hi.1] at this; simp at this
  · exact h
  · have := hi.2 j h; rw [hj.1] at this; simp at this

/-- `firstBit` on a mask of `k` low bits. -/
theorem firstBit_ok {w k n i : Nat} (hw : k ≤ w) (hi : i < k) (hl : LowestBit n i) : Responder.firstBit w (2 ^ k - 1) n = .ok (2 ^ i) := by
  have ht : trailingZeros w n = i := by
    by_cases h : trailingZeros w n < w
    · exact lowest_unique (trailingZeros_lt h) hl
    · have := trailingZeros_ge h i (by omega)
      rw [hl.1] at this; simp at this
  unfold Responder.firstBit
  simp only [ht]
  rw [if_pos (by omega), if_pos (by simp; omega)]

theorem firstBit_zero {w m : Nat} : Responder.firstBit w m 0 = .panic .overflow := by
  have : ¬ trailingZeros w 0 < w := by
    intro h
    have := (trailingZeros_lt h).1
    simp at this
  unfold Responder.firstBit
  simp only
  rw [if_neg this]

theorem firstBit_inv {w m n b : Nat} (h : Responder.firstBit w m n = .ok b) : Lowest n b := by
  unfold Responder.firstBit at h
  simp only at h
  split at h
  · rename_i h1
    split at h
    · simp only [Res.ok.injEq] at h; exact ⟨_, trailingZeros_lt h1, h.symm⟩
    · simp at h
  · simp at h

theorem lowest_lt {n b k : Nat} (hn : n < 2 ^ k) (h : Lowest n b) : b < 2 ^ k := by
  obtain ⟨i, hi, rfl⟩ := h
  exact Nat.pow_lt_pow_right (by omega) (testBit_lt hn hi.1)

theorem lowest_oneBit {n b k : Nat} (hn : n < 2 ^ k) (h : Lowest n b) : OneBit k b := by
  obtain ⟨i, hi, rfl⟩ := h
  exact ⟨i, testBit_lt hn hi.1, rfl⟩

/-- The response loop of `choose_algorithms`. -/
theorem chooseResponses_inv (reqs : List AlgorithmRequest) (hb : ∀ a ∈ reqs, a.supported.toNat < 2 ^ algBits a.kind) (n i : Nat) (rs rs' : List AlgorithmRequest)
    (h : Responder.chooseResponses reqs n i rs = .ok rs') :
    rs'.length = rs.length ∧ (∀ j, j < i → rs'[j]? = rs[j]?) ∧ (∀ j, i + n ≤ j → rs'[j]? = rs[j]?) ∧
    ∀ j, i ≤ j → j < i + n → ∃ q p, reqs[j]? = some q ∧ rs'[j]? = some p ∧ p.kind = q.kind ∧ Lowest q.supported.toNat p.supported.toNat := by
  induction n generalizing i rs with
  | zero =>
    simp only [Responder.chooseResponses, Res.ok.injEq] at h
    subst h
    exact ⟨rfl, fun _ _ => rfl, fun _ _ => rfl, fun j h1 h2 => by omega⟩
  | succ n ih =>
    simp only [Responder.chooseResponses] at h
    obtain ⟨q, h1, h⟩ := res_bind_ok h
    obtain ⟨b, h2, h⟩ := res_bind_ok h
    obtain ⟨rs1, h3, h⟩ := res_bind_ok h
    obtain ⟨hlt, rfl⟩ := setIndex_inv h3
    have hq := index_inv h1
    have hlow := firstBit_inv h2
    have hbb : b < 65536 := by
      have h5 := hb q (List.mem_of_getElem? hq)
      have h6 := lowest_lt h5 hlow
      have : algBits q.kind ≤ 9 := by cases q.kind <;> decide
      have := Nat.pow_le_pow_right (n := 2) (by omega) this
      omega
    obtain ⟨g1, g2, g3, g4⟩ := ih (i + 1) _ h
    refine ⟨by simpa using g1, ?_, ?_, ?_⟩
    · intro j hj
      rw [g2 j (by omega), List.getElem?_set_ne (by omega)]
    · intro j hj
      rw [g3 j (by omega), List.getElem?_set_ne (by omega)]
    · intro j hj1 hj2
      rcases Nat.lt_or_ge i j with hij | hij
      · exact g4 j (by omega) (by omega)
      · have : j = i := by omega
        subst this
        refine ⟨q, ⟨q.kind, UInt16.ofNat b⟩, hq, by rw [g2 j (by omega), List.getElem?_set_self hlt], rfl, ?_⟩
        show Lowest _ (UInt16.ofNat b).toNat
        rw [UInt16.toNat_ofNat_of_lt' hbb]; exact hlow

theorem chooseResponses_ok (reqs : List AlgorithmRequest) (hb : ∀ a ∈ reqs, a.supported.toNat < 2 ^ algBits a.kind) (n i : Nat) (rs : List AlgorithmRequest)
    (hl : i + n ≤ reqs.length) (hr : i + n ≤ rs.length) (h0 : ∀ j q, reqs[j]? = some q → i ≤ j → j < i + n → q.supported.toNat ≠ 0) :
    ∃ rs', Responder.chooseResponses reqs n i rs = .ok rs' := by
  induction n generalizing i rs with
  | zero => exact ⟨rs, rfl⟩
  | succ n ih =>
    have hq : reqs[i]? = some reqs[i] := List.getElem?_eq_getElem (by omega)
    obtain ⟨k, hk, hlow⟩ := lowest_exists (h0 i _ hq (by omega) (by omega)) (hb _ (List.getElem_mem (by omega)))
    have hf : Responder.firstBit 16 reqs[i].kind.mask.toNat reqs[i].supported.toNat = .ok (2 ^ k) := by
      rw [algMask]
      exact firstBit_ok (by cases reqs[i].kind <;> decide) hk hlow
    obtain ⟨rs', h⟩ := ih (i + 1) (rs.set i ⟨reqs[i].kind, UInt16.ofNat (2 ^ k)⟩) (by omega) (by simp; omega)
      (fun j q hj h1 h2 => h0 j q hj (by omega) (by omega))
    refine ⟨rs', ?_⟩
    simp only [Responder.chooseResponses, index_ok (show i < reqs.length by omega), Res.ok_bind, hf]
    rw [show setIndex rs i _ = .ok (rs.set i _) from by unfold setIndex; rw [if_pos (by omega)]]
    exact h

theorem chooseResponses_panic (reqs : List AlgorithmRequest) (hb : ∀ a ∈ reqs, a.supported.toNat < 2 ^ algBits a.kind) (n i : Nat) (rs : List AlgorithmRequest)
    (hl : i + n ≤ reqs.length) (hr : i + n ≤ rs.length) (h0 : ∃ j q, reqs[j]? = some q ∧ i ≤ j ∧ j < i + n ∧ q.supported.toNat = 0) :
    Responder.chooseResponses reqs n i rs = .panic .overflow := by
  induction n generalizing i rs with
  | zero => obtain ⟨j, q, _, h1, h2, _⟩ := h0; omega
  | succ n ih =>
    simp only [Responder.chooseResponses, index_ok (show i < reqs.length by omega), Res.ok_bind]
    by_cases hz : reqs[i].supported.toNat = 0
    · rw [hz, firstBit_zero]; rfl
    · obtain ⟨k, hk, hlow⟩ := lowest_exists hz (hb _ (List.getElem_mem (by omega)))
      rw [algMask, firstBit_ok (by cases reqs[i].kind <;> decide) hk hlow]
      simp only [Res.ok_bind]
      rw [show setIndex rs i _ = .ok (rs.set i _) from by unfold setIndex; rw [if_pos (by omega)]]
      simp only [Res.ok_bind]
      obtain ⟨j, q, hj, h1, h2, h3⟩ := h0
      refine ih (i + 1) _ (by omega) (by simp; omega) ⟨j, q, hj, ?_, by omega, h3⟩
      rcases Nat.lt_or_ge i j with hij | hij
      · exact hij
      · have : j = i := by omega
        subst this
        rw [List.getElem?_eq_getElem (by omega)] at hj
        simp only [Option.some.injEq] at hj
        rw [hj] at hz
        exact absurd h3 hz

theorem hashMask : BaseHashAlgo.all.toNat = 2 ^ 6 - 1 := by rfl
theorem asymMask : BaseAsymAlgo.all.toNat = 2 ^ 9 - 1 := by rfl

theorem chooseAlgorithms_inv {m : NegotiateAlgorithms} (hm : NegotiateWF m) {a : Algorithms} (h : Responder.chooseAlgorithms m = .ok a) : Answers m a := by
  unfold Responder.chooseAlgorithms at h
  obtain ⟨hash, h1, h⟩ := res_bind_ok h
  obtain ⟨asym, h2, h⟩ := res_bind_ok h
  obtain ⟨rs, h3, h⟩ := res_bind_ok h
  simp only [Res.pure_eq, Res.ok.injEq] at h
  subst h
  have l1 := firstBit_inv h1
  have l2 := firstBit_inv h2
  have b1 := lowest_lt hm.hash l1
  have b2 := lowest_lt hm.asym l2
  obtain ⟨g1, g2, g3, g4⟩ := chooseResponses_inv _ hm.bits _ _ _ _ h3
  have e1 : (UInt32.ofNat hash).toNat = hash := UInt32.toNat_ofNat_of_lt' (by simp [UInt32.size] at b1 ⊢; omega)
  have e2 : (UInt32.ofNat asym).toNat = asym := UInt32.toNat_ofNat_of_lt' (by simp [UInt32.size] at b2 ⊢; omega)
  refine ⟨rfl, by simpa only [e1] using l1, by simpa only [e2] using l2, by simpa only [e1] using l1, rfl, by simpa [maxAlgorithmRequests] using g1, ?_, ?_⟩
  · intro i hi
    exact g4 i (by omega) (by omega)
  · intro i p hp hi
    simp only at hp
    rw [g3 i (by omega), List.getElem?_replicate] at hp
    split at hp
    · simp only [Option.some.injEq] at hp; exact hp.symm
    · simp at hp

theorem chooseAlgorithms_ok {m : NegotiateAlgorithms} (hm : NegotiateWF m) (h0 : NonEmptyOffer m) : ∃ a, Responder.chooseAlgorithms m = .ok a := by
  obtain ⟨i, hi, hl⟩ := lowest_exists h0.hash hm.hash
  obtain ⟨j, hj, hl'⟩ := lowest_exists h0.asym hm.asym
  obtain ⟨rs, hrs⟩ := chooseResponses_ok m.algorithmRequests hm.bits m.numAlgorithmRequests.toNat 0 (List.replicate maxAlgorithmRequests AlgorithmRequest.dflt)
    (by have := hm.len; have := hm.num; omega) (by have := hm.num; simp [maxAlgorithmRequests]; omega) (fun j q hq _ h2 => h0.algs j q hq (by omega))
  unfold Responder.chooseAlgorithms
  rw [hashMask, asymMask, firstBit_ok (by omega) hi hl, firstBit_ok (by omega) hj hl', hrs]
  exact ⟨_, rfl⟩

theorem chooseAlgorithms_panic {m : NegotiateAlgorithms} (hm : NegotiateWF m) (h0 : ¬ NonEmptyOffer m) : Responder.chooseAlgorithms m = .panic .overflow := by
  unfold Responder.chooseAlgorithms
  by_cases hh : m.baseHashAlgo.toNat = 0
  · rw [hh, firstBit_zero]; rfl
  · obtain ⟨i, hi, hl⟩ := lowest_exists hh hm.hash
    rw [hashMask, firstBit_ok (by omega) hi hl]
    simp only [Res.ok_bind]
    by_cases ha : m.baseAsymAlgo.toNat = 0
    · rw [ha, firstBit_zero]; rfl
    · obtain ⟨j, hj, hl'⟩ := lowest_exists ha hm.asym
      rw [asymMask, firstBit_ok (by omega) hj hl']
      simp only [Res.ok_bind]
      rw [chooseResponses_panic m.algorithmRequests hm.bits m.numAlgorithmRequests.toNat 0 (List.replicate maxAlgorithmRequests AlgorithmRequest.dflt)
        (by have := hm.len; have := hm.num; omega) (by have := hm.num; simp [maxAlgorithmRequests]; omega)]
      · rfl
      · by_contra hc
        apply h0
        refine ⟨ha, hh, fun i a hia hi hz => hc ⟨i, a, hia, by omega, by omega, hz⟩⟩

theorem answers_wf {m : NegotiateAlgorithms} (hm : NegotiateWF m) (hs : m.measurementSpec.toNat = 1) {a : Algorithms} (h : Answers m a) : AlgorithmsWF a where
  len := h.len
  num := by rw [h.num]; exact hm.num
  unused := by intro i p hp hi; rw [h.num] at hi; exact h.unused i p hp hi
  bits := by
    intro i p hp hi
    rw [h.num] at hi
    obtain ⟨q, p', hq, hp', hk, hl⟩ := h.algs i hi
    rw [hp] at hp'
    simp only [Option.some.injEq] at hp'
    subst hp'
    rw [hk]
    exact lowest_oneBit (hm.bits q (List.mem_of_getElem? hq)) hl
  spec := by rw [h.spec, hs]; exact ⟨0, by omega, rfl⟩
  mhash := lowest_oneBit hm.hash h.mhash
  asym := lowest_oneBit hm.asym h.asym
  hash := lowest_oneBit hm.hash h.hash

end Spdm
