import Verif.Lemmas.Msgs
/-! Writers and readers of algorithms, digests, opaque data, CHALLENGE_AUTH, ERROR, GET_MEASUREMENTS. -/
namespace Spdm
open Spec

/-! ### Algorithms -/

theorem index_ok {α : Type} {l : List α} {i : Nat} (h : i < l.length) : index l i = .ok l[i] := by
  simp [index, h]

theorem AlgorithmRequest.writes (a : AlgorithmRequest) : Writes a.write id (Wire.alg a) :=
  Writes.congr ((Writes.put _).bind fun _ => (Writes.put _).bind fun _ => Writes.le16 _)
    (by cases a with | mk k s => cases k <;> rfl)

theorem writesAlgs (algs : List AlgorithmRequest) (n i : Nat) (h : i + n ≤ algs.length) :
    Writes (writeAlgs algs n i) id (((algs.drop i).take n).flatMap Wire.alg) := by
  induction n generalizing i with
  | zero => exact Writes.congr Writes.offsetM (by simp)
  | succ n ih =>
    refine Writes.congr (Writes.lift_bind (index_ok (by omega))
      ((AlgorithmRequest.writes _).bind fun _ => ih (i + 1) (by omega))) ?_
    rw [List.drop_eq_getElem_cons (by omega : i < algs.length), List.take_succ_cons, List.flatMap_cons]

theorem algsLength_eq (s : UInt16) (l : List AlgorithmRequest) :
    algsLength s l = s + UInt16.ofNat (4 * l.length) := by
  unfold algsLength
  induction l generalizing s with
  | nil => simp
  | cons a as ih =>
    rw [List.foldl_cons, ih]
    have h1 : s + 2 + a.fixedAlgoCount.toUInt16 = s + 4 := by
      have : a.fixedAlgoCount.toUInt16 = 2 := rfl
      rw [this, UInt16.add_assoc]; rfl
    rw [h1, UInt16.add_assoc]
    congr 1
    have : 4 * (a :: as).length = 4 + 4 * as.length := by simp; omega
    rw [this, UInt16.ofNat_add]; rfl

theorem algKind_mask (k : AlgKind) : k.mask.toNat = 2 ^ algBits k - 1 := by cases k <;> rfl

theorem AlgorithmRequest.reads {a : AlgorithmRequest} (h : a.supported.toNat < 2 ^ algBits a.kind) :
    Reads AlgorithmRequest.read (Wire.alg a) a := by
  have e : Wire.alg a = [Wire.algType a.kind] ++ (0x20 :: (Spec.le 2 a.supported.toNat ++ [])) := by
    simp [Wire.alg]
  rw [e]
  refine (Reads.getByte _).bind ?_
  have ht : AlgKind.ofType (Wire.algType a.kind) = some a.kind := by cases a.kind <;> rfl
  rw [ht]
  refine ReadsB.start (ReadsB.bits (by omega) (by omega) (ReadsB.last (by omega) (by omega) (by omega) ?_))
  rw [if_neg (by cases a.kind <;> decide)]
  refine (Reads.le16 _).bind (Reads.lift_bind ((fromBits16_low _ (algKind_mask _)).1 h) ?_)
  have : (bitField 0x20 0 4).toNat = 0 := by decide
  rw [this]
  exact Reads.bind (bs := []) (cs := []) (Reads.pure ()) (Reads.pure a)

theorem NegotiateAlgorithms.writes {m : NegotiateAlgorithms} (hl : m.algorithmRequests.length = 4)
    (hn : m.numAlgorithmRequests.toNat ≤ 4) : Writes m.writeBody id (Wire.negotiateAlgorithms m) := by
  have hlen : m.msgLength = .ok (UInt16.ofNat (32 + 4 * m.numAlgorithmRequests.toNat)) := by
    unfold NegotiateAlgorithms.msgLength
    rw [sliceTo_ok (by omega)]
    simp [algsLength_eq, hl, Nat.min_eq_left hn]
  have hmod : (32 + 4 * m.numAlgorithmRequests.toNat) % 2 ^ 16 = 32 + 4 * m.numAlgorithmRequests.toNat :=
    Nat.mod_eq_of_lt (by omega)
  refine Writes.congr ((Writes.put _).bind fun _ => (Writes.zeros 1).bind fun _ => Writes.lift_bind hlen <|
    (Writes.le16 _).bind fun _ => (Writes.put _).bind fun _ => (Writes.zeros 1).bind fun _ =>
    (Writes.le32 _).bind fun _ => (Writes.le32 _).bind fun _ => (Writes.zeros 12).bind fun _ =>
    (Writes.put _).bind fun _ => (Writes.put _).bind fun _ => (Writes.zeros 2).bind fun _ =>
    writesAlgs _ _ 0 (by omega)) ?_
  simp only [Wire.negotiateAlgorithms, UInt16.toNat_ofNat', hmod]
  simp

theorem NegotiateAlgorithms.reads {m : NegotiateAlgorithms} (h : NegotiateWF m) :
    Reads NegotiateAlgorithms.read (Wire.negotiateAlgorithms m) m := by
  have hn := h.num
  have hmod : (32 + 4 * m.numAlgorithmRequests.toNat) % 2 ^ 16 = 32 + 4 * m.numAlgorithmRequests.toNat :=
    Nat.mod_eq_of_lt (by omega)
  have e : Wire.negotiateAlgorithms m = [m.numAlgorithmRequests] ++ (Spec.zeros 1 ++
      (Spec.le 2 (UInt16.ofNat (32 + 4 * m.numAlgorithmRequests.toNat)).toNat ++ ([m.measurementSpec] ++
      (Spec.zeros 1 ++ (Spec.le 4 m.baseAsymAlgo.toNat ++ (Spec.le 4 m.baseHashAlgo.toNat ++
      (Spec.zeros 12 ++ ([0] ++ ([0] ++ (Spec.zeros 2 ++ ([] ++ ([] ++
      ((m.algorithmRequests.take m.numAlgorithmRequests.toNat).flatMap Wire.alg ++ []))))))))))))) := by
    simp only [Wire.negotiateAlgorithms, UInt16.toNat_ofNat', hmod]
    simp
  rw [e]
  refine (Reads.getByte _).bind ?_
  rw [if_neg (by simp [maxAlgorithmRequests]; omega)]
  refine (Reads.zeros 1).bind ((Reads.le16 _).bind ?_)
  rw [if_neg (by
    rw [gt_iff_lt, UInt16.lt_iff_toNat_lt, UInt16.toNat_ofNat', hmod]; simp; omega)]
  refine (Reads.getByte _).bind (Reads.lift_bind (by rw [fromBits8_spec, if_pos h.spec]) ?_)
  refine (Reads.zeros 1).bind ((Reads.le32 _).bind (Reads.lift_bind ((fromBits32_low _ (k := 9) (by decide)).1 h.asym) ?_))
  refine (Reads.le32 _).bind (Reads.lift_bind ((fromBits32_low _ (k := 6) (by decide)).1 h.hash) ?_)
  refine (Reads.zeros 12).bind ((Reads.getByte _).bind ((Reads.getByte _).bind ((Reads.zeros 2).bind
    (Reads.bind (Reads.skipIgnored []) (Reads.bind (Reads.skipIgnored []) ?_)))))
  refine Reads.bind (a := m.algorithmRequests) (reads_used
    (item := M.mapErr NegotiateAlgorithms.wrapAlgorithmRequestError AlgorithmRequest.read)
    (fun _ _ => rfl) (fun _ _ _ => rfl) h.len h.num h.unused ?_) (Reads.pure m)
  intro a ha
  exact (AlgorithmRequest.reads (h.bits a (List.mem_of_mem_take ha))).mapErr _

theorem countOnes_two_pow {i k : Nat} : countOnes (2 ^ i) k = if i < k then 1 else 0 := by
  induction k with
  | zero => simp [countOnes]
  | succ k ih =>
    simp only [countOnes, ih, Nat.testBit_two_pow]
    by_cases h : i = k
    · subst h; simp
    · by_cases h2 : i < k
      · rw [if_pos h2, if_pos (by omega)]; simp [h]
      · rw [if_neg h2, if_neg (by omega)]; simp [h]

theorem countOnes_pos {n k : Nat} (h : countOnes n k = 1) : ∃ i, i < k ∧ n.testBit i = true ∧
    ∀ j, j < k → n.testBit j = true → j = i := by
  have hz : ∀ k, countOnes n k = 0 → ∀ j, j < k → n.testBit j = false := by
    intro k
    induction k with
    | zero => intro _ j hj; omega
    | succ k ih =>
      intro h0 j hj
      simp only [countOnes] at h0
      rcases Nat.lt_succ_iff_lt_or_eq.mp hj with hj | rfl
      · exact ih (by omega) j hj
      · cases hb : n.testBit j with
        | false => rfl
        | true => rw [hb] at h0; simp at h0
  induction k with
  | zero => simp [countOnes] at h
  | succ k ih =>
    simp only [countOnes] at h
    cases hb : n.testBit k with
    | true =>
      rw [hb] at h
      have h0 : countOnes n k = 0 := by simp at h; exact h
      refine ⟨k, by omega, hb, ?_⟩
      intro j hj hjb
      rcases Nat.lt_succ_iff_lt_or_eq.mp hj with hj | rfl
      · rw [hz k h0 j hj] at hjb; exact absurd hjb (by simp)
      · rfl
    | false =>
      rw [hb] at h
      obtain ⟨i, hi, hbi, hu⟩ := ih (by simpa using h)
      refine ⟨i, by omega, hbi, ?_⟩
      intro j hj hjb
      rcases Nat.lt_succ_iff_lt_or_eq.mp hj with hj | rfl
      · exact hu j hj hjb
      · rw [hb] at hjb; exact absurd hjb (by simp)

/-- `count_ones() == 1` on a word without bits from `k` on means a single bit below `k`. -/
theorem oneBit_iff {n k w : Nat} (hk : k ≤ w) (hn : n < 2 ^ k) : countOnes n w = 1 ↔ OneBit k n := by
  constructor
  · intro h
    obtain ⟨i, hi, hb, hu⟩ := countOnes_pos h
    refine ⟨i, testBit_lt hn hb, ?_⟩
    apply Nat.eq_of_testBit_eq
    intro j
    rw [Nat.testBit_two_pow]
    by_cases hj : i = j
    · subst hj; simp [hb]
    · simp only [hj, decide_false]
      cases hjb : n.testBit j with
      | false => rfl
      | true => exact absurd (hu j (by have := testBit_lt hn hjb; omega) hjb).symm hj
  · rintro ⟨i, hi, rfl⟩
    rw [countOnes_two_pow, if_pos (by omega)]

theorem Spec.OneBit.lt {k n : Nat} (h : OneBit k n) : n < 2 ^ k := by
  obtain ⟨i, hi, rfl⟩ := h
  exact Nat.pow_lt_pow_right (by omega) hi

theorem Algorithms.writes {m : Algorithms} (hl : m.algorithmResponses.length = 4)
    (hn : m.numAlgorithmResponses.toNat ≤ 4) : Writes m.writeBody id (Wire.algorithms m) := by
  have hlen : m.msgLength = .ok (UInt16.ofNat (36 + 4 * m.numAlgorithmResponses.toNat)) := by
    unfold Algorithms.msgLength
    rw [sliceTo_ok (by omega)]
    simp [algsLength_eq, hl, Nat.min_eq_left hn]
  have hmod : (36 + 4 * m.numAlgorithmResponses.toNat) % 2 ^ 16 = 36 + 4 * m.numAlgorithmResponses.toNat :=
    Nat.mod_eq_of_lt (by omega)
  refine Writes.congr ((Writes.put _).bind fun _ => (Writes.zeros 1).bind fun _ => Writes.lift_bind hlen <|
    (Writes.le16 _).bind fun _ => (Writes.put _).bind fun _ => (Writes.zeros 1).bind fun _ =>
    (Writes.le32 _).bind fun _ => (Writes.le32 _).bind fun _ => (Writes.le32 _).bind fun _ =>
    (Writes.zeros 12).bind fun _ =>
    (Writes.put _).bind fun _ => (Writes.put _).bind fun _ => (Writes.zeros 2).bind fun _ =>
    writesAlgs _ _ 0 (by omega)) ?_
  simp only [Wire.algorithms, UInt16.toNat_ofNat', hmod]
  simp

/-- `readResponses` is the generic loop reading checked items. -/
theorem readResponses_succ (n i : Nat) (l : List AlgorithmRequest) :
    Algorithms.readResponses (n + 1) i l = (do
      let a ← AlgorithmRequest.read
      let l ← M.lift (setIndex l i a)
      M.lift (Algorithms.ensureOnlyOneBitSet a)
      Algorithms.readResponses n (i + 1) l) := rfl

theorem readsResponses (pre todo rest post : List AlgorithmRequest)
    (hr : ∀ a ∈ todo, OneBit (algBits a.kind) a.supported.toNat) (hl : rest.length = todo.length) :
    Reads (Algorithms.readResponses todo.length pre.length (pre ++ rest ++ post)) (todo.flatMap Wire.alg)
      (pre ++ todo ++ post) := by
  induction todo generalizing pre rest with
  | nil =>
    have : rest = [] := by simpa using hl
    subst this
    exact Reads.pure _
  | cons a as ih =>
    obtain ⟨r, rs, rfl⟩ : ∃ r rs, rest = r :: rs := by
      cases rest with
      | nil => simp at hl
      | cons r rs => exact ⟨r, rs, rfl⟩
    simp only [List.length_cons, readResponses_succ, List.flatMap_cons]
    have h1 := hr a (by simp)
    refine (AlgorithmRequest.reads h1.lt).bind (Reads.lift_bind (setIndex_ok (by simp))
      (Reads.lift_bind (a := ()) ?_ ?_))
    · unfold Algorithms.ensureOnlyOneBitSet
      rw [if_neg]
      rw [not_not, oneBit_iff (by cases a.kind <;> decide) h1.lt]
      exact h1
    · have := ih (pre ++ [a]) rs (fun x hx => hr x (by simp [hx])) (by simpa using hl)
      simpa using this

theorem Algorithms.reads {m : Algorithms} (h : AlgorithmsWF m) :
    Reads Algorithms.read (Wire.algorithms m) m := by
  have hn := h.num
  have hmod : (36 + 4 * m.numAlgorithmResponses.toNat) % 2 ^ 16 = 36 + 4 * m.numAlgorithmResponses.toNat :=
    Nat.mod_eq_of_lt (by omega)
  have e : Wire.algorithms m = [m.numAlgorithmResponses] ++ (Spec.zeros 1 ++
      (Spec.le 2 (UInt16.ofNat (36 + 4 * m.numAlgorithmResponses.toNat)).toNat ++ ([m.measurementSpecSelected] ++
      (Spec.zeros 1 ++ (Spec.le 4 m.measurementHashAlgoSelected.toNat ++ (Spec.le 4 m.baseAsymAlgoSelected.toNat ++
      (Spec.le 4 m.baseHashAlgoSelected.toNat ++
      (Spec.zeros 12 ++ (Spec.zeros 1 ++ (Spec.zeros 1 ++ (Spec.zeros 2 ++
      ((m.algorithmResponses.take m.numAlgorithmResponses.toNat).flatMap Wire.alg ++ [])))))))))))) := by
    simp only [Wire.algorithms, UInt16.toNat_ofNat', hmod]
    simp [Spec.zeros, List.replicate]
  rw [e]
  refine (Reads.getByte _).bind ?_
  rw [if_neg (by simp [maxAlgorithmRequests]; omega)]
  refine (Reads.zeros 1).bind ((Reads.le16 _).bind ?_)
  refine (Reads.getByte _).bind (Reads.lift_bind (by rw [fromBits8_spec, if_pos (by simpa using h.spec.lt)]) ?_)
  rw [if_neg (by rw [not_not, oneBit_iff (by omega) h.spec.lt]; exact h.spec)]
  refine (Reads.zeros 1).bind ((Reads.le32 _).bind (Reads.lift_bind ((fromBits32_low _ (k := 6) (by decide)).1 h.mhash.lt) ?_))
  rw [if_neg (by rw [not_not, oneBit_iff (by omega) h.mhash.lt]; exact h.mhash)]
  refine (Reads.le32 _).bind (Reads.lift_bind ((fromBits32_low _ (k := 9) (by decide)).1 h.asym.lt) ?_)
  rw [if_neg (by rw [not_not, oneBit_iff (by omega) h.asym.lt]; exact h.asym)]
  refine (Reads.le32 _).bind (Reads.lift_bind ((fromBits32_low _ (k := 6) (by decide)).1 h.hash.lt) ?_)
  rw [if_neg (by rw [not_not, oneBit_iff (by omega) h.hash.lt]; exact h.hash)]
  refine (Reads.zeros 12).bind ((Reads.zeros 1).bind ((Reads.zeros 1).bind ((Reads.zeros 2).bind ?_)))
  have hsplit := split_used (d := AlgorithmRequest.dflt) h.len h.num h.unused
  have := readsResponses [] (m.algorithmResponses.take m.numAlgorithmResponses.toNat)
    (List.replicate m.numAlgorithmResponses.toNat AlgorithmRequest.dflt)
    (List.replicate (4 - m.numAlgorithmResponses.toNat) AlgorithmRequest.dflt) (by
      intro a ha
      obtain ⟨i, hi, rfl⟩ := List.getElem_of_mem ha
      rw [List.getElem_take]
      simp only [List.length_take] at hi
      exact h.bits i _ (List.getElem?_eq_getElem (by omega)) (by omega)) (by simp [h.len]; omega)
  simp only [List.nil_append, List.length_nil, List.length_take, List.replicate_append_replicate, h.len] at this
  rw [show min m.numAlgorithmResponses.toNat 4 = m.numAlgorithmResponses.toNat by omega,
    show m.numAlgorithmResponses.toNat + (4 - m.numAlgorithmResponses.toNat) = 4 by omega, ← hsplit] at this
  exact Reads.bind (a := m.algorithmResponses) this (Reads.pure m)

/-! ### DIGESTS -/

/-- The positions of the set bits of a byte. -/
def setBits (b : UInt8) : List Nat := (List.range 8).filter (fun i => b.toNat.testBit i)

theorem setBits_table (b : UInt8) : trailingZeros 8 b.toNat = (setBits b).headD 8 ∧
    (setBits b ≠ [] → (setBits b).headD 8 < 8 ∧
      setBits (b ^^^ UInt8.ofNat (2 ^ (setBits b).headD 8)) = (setBits b).tail) := by
  revert b
  apply forall_u8
  decide +kernel

theorem setBits_step (b : UInt8) : match setBits b with
    | [] => trailingZeros 8 b.toNat = 8
    | k :: t => trailingZeros 8 b.toNat = k ∧ k < 8 ∧ setBits (b ^^^ UInt8.ofNat (2 ^ k)) = t := by
  have h := setBits_table b
  split
  · rename_i hb; rw [hb] at h; exact h.1
  · rename_i k t hb
    rw [hb] at h
    exact ⟨h.1, h.2 (by simp)⟩

theorem setBits_length (b : UInt8) : (setBits b).length ≤ 8 := by
  unfold setBits
  exact Nat.le_trans (List.length_filter_le _ _) (by simp)

theorem Digests.writesLoop (c : Cfg) (hc : c.numSlots ≤ 8) (ds : List (Option Bytes)) (get : Nat → Bytes) (fuel : Nat)
    (bits : UInt8) (hf : (setBits bits).length < fuel)
    (h : ∀ k ∈ setBits bits, k < c.numSlots ∧ ds[k]? = some (some (get k))) :
    ∀ w : Writer, w.WF →
    (((setBits bits).flatMap get).length ≤ w.room → Digests.writeLoop c ds fuel bits w.offset w =
      (.ok (w.offset + ((setBits bits).flatMap get).length), w.app ((setBits bits).flatMap get))) ∧
    (w.room < ((setBits bits).flatMap get).length → ∃ e n, e.isFull = true ∧ n ≤ w.room ∧
      Digests.writeLoop c ds fuel bits w.offset w = (.err e, w.app (((setBits bits).flatMap get).take n))) := by
  induction fuel generalizing bits with
  | zero => omega
  | succ fuel ih =>
    intro w hw
    have hs := setBits_step bits
    cases hb : setBits bits with
    | nil =>
      rw [hb] at hs
      simp only at hs
      simp only [Digests.writeLoop, hs]
      rw [if_neg (by omega)]
      simp
    | cons k t =>
      rw [hb] at hs
      obtain ⟨h1, h2, h3⟩ := hs
      obtain ⟨h4, h5⟩ := h k (by rw [hb]; simp)
      have hidx : index ds k = .ok (some (get k)) := by simp [index, h5]
      have hrun : ∀ off, Digests.writeLoop c ds (fuel + 1) bits off = (do
            let offset ← Writer.extend (get k)
            Digests.writeLoop c ds fuel (bits ^^^ UInt8.ofNat (2 ^ k)) offset) := by
        intro off
        simp only [Digests.writeLoop, h1]
        rw [if_pos h4, hidx]
        show (do
            let offset ← Writer.extend (get k)
            if k < 8 then Digests.writeLoop c ds fuel (bits ^^^ UInt8.ofNat (2 ^ k)) offset
              else M.die PanicKind.overflow) = _
        simp only [h2, if_true]
      rw [hrun]
      have hext := Writes.extend (get k) w hw
      have hih := ih (bits ^^^ UInt8.ofNat (2 ^ k)) (by rw [h3]; rw [hb] at hf; simp at hf; omega)
        (by rw [h3]; intro j hj; exact h j (by rw [hb]; simp [hj]))
      rw [h3] at hih
      simp only [List.flatMap_cons, List.length_append]
      constructor
      · intro hfit
        have hk : (get k).length ≤ w.room := by omega
        rw [M.run_bind_ok (hext.1 hk)]
        have := (hih (w.app (get k)) (Writer.app_wf hw hk)).1 (by rw [Writer.app_room hw hk]; omega)
        simp only [id, Writer.app_offset] at this ⊢
        rw [this, Writer.app_app hw hk, Nat.add_assoc]
      · intro hno
        by_cases hk : (get k).length ≤ w.room
        · obtain ⟨e, n, he, hn, h6⟩ := (hih (w.app (get k)) (Writer.app_wf hw hk)).2
            (by rw [Writer.app_room hw hk]; omega)
          rw [Writer.app_room hw hk] at hn
          refine ⟨e, (get k).length + n, he, by omega, ?_⟩
          rw [M.run_bind_ok (hext.1 hk)]
          simp only [id, Writer.app_offset] at h6 ⊢
          rw [h6, Writer.app_app hw hk, List.take_length_add_append]
        · obtain ⟨e, n, he, hn, h6⟩ := hext.2 (by omega)
          refine ⟨e, n, he, hn, ?_⟩
          rw [M.run_bind_err h6, List.take_append_of_le_length (by omega)]

theorem flatMap_filter_eq (p : Nat → Bool) (f : Nat → Bytes) (l : List Nat)
    (h : ∀ i ∈ l, p i = false → f i = []) : (l.filter p).flatMap f = l.flatMap f := by
  induction l with
  | nil => rfl
  | cons a as ih =>
    rw [List.filter_cons]
    have ih' := ih fun i hi => h i (by simp [hi])
    split
    · rw [List.flatMap_cons, List.flatMap_cons, ih']
    · rename_i hp
      rw [List.flatMap_cons, h a (by simp) (by simpa using hp), ih']; rfl

theorem flatMap_range_getD (ds : List (Option Bytes)) (n : Nat) (h : ds.length ≤ n) :
    (List.range n).flatMap (fun k => ((ds[k]?).getD none).getD []) = ds.flatMap (fun d => d.getD []) := by
  induction ds generalizing n with
  | nil =>
    simp only [List.flatMap_nil]
    rw [List.flatMap_eq_nil_iff]
    intro x _; simp
  | cons d ds ih =>
    obtain ⟨m, rfl⟩ : ∃ m, n = m + 1 := ⟨n - 1, by simp at h; omega⟩
    rw [List.range_succ_eq_map, List.flatMap_cons, List.flatMap_cons, List.flatMap_map]
    congr 1
    rw [← ih m (by simpa using h)]
    rfl

theorem Digests.setBits_layout_gen {c : Cfg} {m : Digests} (hs : c.numSlots ≤ 8) (hl : m.digests.length = c.numSlots)
    (hm : ∀ i, i < 8 → (m.slotMask.toNat.testBit i = true ↔ ∃ d, m.digests[i]? = some (some d))) :
    (setBits m.slotMask).flatMap (fun k => ((m.digests[k]?).getD none).getD []) =
      m.digests.flatMap (fun d => d.getD []) := by
  unfold setBits
  rw [flatMap_filter_eq, flatMap_range_getD _ 8 (by rw [hl]; omega)]
  intro i hi hb
  have hi8 : i < 8 := by simpa using hi
  have := hm i hi8
  rw [hb] at this
  cases hd : m.digests[i]? with
  | none => rfl
  | some o =>
    cases o with
    | none => rfl
    | some d => exact absurd (this.mpr ⟨d, hd⟩) (by simp)

theorem Digests.setBits_layout {c : Cfg} {size : Nat} {m : Digests} (h : DigestsWF c size m) :
    (setBits m.slotMask).flatMap (fun k => ((m.digests[k]?).getD none).getD []) =
      m.digests.flatMap (fun d => d.getD []) := Digests.setBits_layout_gen h.slots h.len h.mask

theorem Digests.mem_setBits_gen {c : Cfg} {m : Digests} (hl : m.digests.length = c.numSlots)
    (hm : ∀ i, i < 8 → (m.slotMask.toNat.testBit i = true ↔ ∃ d, m.digests[i]? = some (some d))) {k : Nat}
    (hk : k ∈ setBits m.slotMask) : k < 8 ∧ k < c.numSlots ∧ ∃ d, m.digests[k]? = some (some d) := by
  simp only [setBits, List.mem_filter, List.mem_range] at hk
  obtain ⟨d, hd⟩ := (hm k hk.1).mp hk.2
  have hlt : k < m.digests.length := by
    by_contra hc
    rw [List.getElem?_eq_none (by omega)] at hd
    simp at hd
  exact ⟨hk.1, by rw [← hl]; exact hlt, d, hd⟩

theorem Digests.mem_setBits {c : Cfg} {size : Nat} {m : Digests} (h : DigestsWF c size m) {k : Nat}
    (hk : k ∈ setBits m.slotMask) : k < 8 ∧ k < c.numSlots ∧ ∃ d, m.digests[k]? = some (some d) ∧ d.length = size := by
  obtain ⟨h1, h2, d, hd⟩ := Digests.mem_setBits_gen h.len h.mask hk
  exact ⟨h1, h2, d, hd, h.size d (List.mem_of_getElem? hd)⟩

theorem Digests.writes_gen {c : Cfg} {m : Digests} (hs : c.numSlots ≤ 8) (hl : m.digests.length = c.numSlots)
    (hm : ∀ i, i < 8 → (m.slotMask.toNat.testBit i = true ↔ ∃ d, m.digests[i]? = some (some d))) :
    Writes (m.writeBody c) id (Wire.digests m) := by
  refine Writes.congr ((Writes.zeros 1).bind fun _ => (Writes.put m.slotMask).bind
    (cs := (setBits m.slotMask).flatMap (fun k => ((m.digests[k]?).getD none).getD [])) (g := id) fun _ => ?_)
    (by rw [Digests.setBits_layout_gen hs hl hm]; simp [Wire.digests])
  intro w hw
  have := Digests.writesLoop c hs m.digests (fun k => ((m.digests[k]?).getD none).getD []) 9 m.slotMask
    (by have := setBits_length m.slotMask; omega) (by
      intro k hk
      obtain ⟨_, h1, d, hd⟩ := Digests.mem_setBits_gen hl hm hk
      exact ⟨h1, by simp [hd]⟩) w hw
  exact this

theorem Digests.writes {c : Cfg} {size : Nat} {m : Digests} (h : DigestsWF c size m) :
    Writes (m.writeBody c) id (Wire.digests m) := Digests.writes_gen h.slots h.len h.mask

theorem Digests.readsLoop (c : Cfg) (hc : c.numSlots ≤ 8) (size : Nat) (get : Nat → Bytes) (fuel : Nat) (bits : UInt8) (ds : List (Option Bytes))
    (hf : (setBits bits).length < fuel) (hl : ds.length = c.numSlots)
    (h : ∀ k ∈ setBits bits, k < c.numSlots ∧ (get k).length = size) :
    Reads (Digests.readLoop c size fuel bits ds) ((setBits bits).flatMap get)
      ((setBits bits).foldl (fun ds k => ds.set k (some (get k))) ds) := by
  induction fuel generalizing bits ds with
  | zero => omega
  | succ fuel ih =>
    have hs := setBits_step bits
    cases hb : setBits bits with
    | nil =>
      rw [hb] at hs
      simp only at hs
      simp only [Digests.readLoop, hs]
      rw [if_neg (by omega)]
      exact Reads.pure _
    | cons k t =>
      rw [hb] at hs
      obtain ⟨h1, h2, h3⟩ := hs
      obtain ⟨h4, h5⟩ := h k (by rw [hb]; simp)
      simp only [Digests.readLoop, h1]
      rw [if_pos h4]
      have hih := ih (bits ^^^ UInt8.ofNat (2 ^ k)) (ds.set k (some (get k))) (by rw [h3]; rw [hb] at hf; simp at hf; omega)
        (by simp [hl]) (by rw [h3]; intro j hj; exact h j (by rw [hb]; simp [hj]))
      rw [h3] at hih
      simp only [List.flatMap_cons, List.foldl_cons]
      refine (Reads.getSlice _ h5 (Nat.le_refl _)).bind (Reads.lift_bind (setIndex_ok (by omega)) ?_)
      rw [if_pos h2]
      exact hih

theorem foldl_set_length (l : List Nat) (g : Nat → Bytes) (ds : List (Option Bytes)) :
    (l.foldl (fun ds k => ds.set k (some (g k))) ds).length = ds.length := by
  induction l generalizing ds with
  | nil => rfl
  | cons k t ih => rw [List.foldl_cons, ih]; simp

theorem foldl_set_getElem? (l : List Nat) (g : Nat → Bytes) (ds : List (Option Bytes)) (i : Nat) (hi : i < ds.length) :
    (l.foldl (fun ds k => ds.set k (some (g k))) ds)[i]? =
      if i ∈ l then some (some (g i)) else ds[i]? := by
  induction l generalizing ds with
  | nil => simp
  | cons k t ih =>
    rw [List.foldl_cons, ih _ (by simpa using hi)]
    by_cases ht : i ∈ t
    · simp [ht]
    · by_cases hk : i = k
      · subst hk; simp [ht, hi]
      · simp [ht, hk, List.getElem?_set_ne (Ne.symm hk)]

theorem Digests.reads {c : Cfg} {size : Nat} {m : Digests} (h : DigestsWF c size m) :
    Reads (Digests.read c size) (Wire.digests m) m := by
  have e : Wire.digests m = Spec.zeros 1 ++ ([m.slotMask] ++
      ((setBits m.slotMask).flatMap (fun k => ((m.digests[k]?).getD none).getD []) ++ [])) := by
    rw [Digests.setBits_layout h]; simp [Wire.digests]
  rw [e]
  refine (Reads.zeros 1).bind ((Reads.getByte _).bind ?_)
  have hds : (setBits m.slotMask).foldl (fun ds k => ds.set k (some (((m.digests[k]?).getD none).getD [])))
      (List.replicate c.numSlots none) = m.digests := by
    apply List.ext_getElem?
    intro i
    by_cases hi : i < c.numSlots
    · rw [foldl_set_getElem? _ _ _ _ (by simpa using hi)]
      have h8 : i < 8 := by have := h.slots; omega
      by_cases hm : i ∈ setBits m.slotMask
      · rw [if_pos hm]
        obtain ⟨_, _, d, hd, _⟩ := Digests.mem_setBits h hm
        simp [hd]
      · rw [if_neg hm, List.getElem?_replicate, if_pos hi]
        have hlt : i < m.digests.length := by rw [h.len]; exact hi
        rw [List.getElem?_eq_getElem hlt]
        cases hd : m.digests[i] with
        | none => rfl
        | some d =>
          exfalso; apply hm
          simp only [setBits, List.mem_filter, List.mem_range]
          exact ⟨h8, (h.mask i h8).mpr ⟨d, by rw [List.getElem?_eq_getElem hlt, hd]⟩⟩
    · rw [List.getElem?_eq_none (by rw [foldl_set_length]; simp; omega), List.getElem?_eq_none (by rw [h.len]; omega)]
  have := Digests.readsLoop c h.slots size (fun k => ((m.digests[k]?).getD none).getD []) 9 m.slotMask
    (List.replicate c.numSlots none) (by have := setBits_length m.slotMask; omega) (by simp) (by
      intro k hk
      obtain ⟨_, h1, d, hd, hs⟩ := Digests.mem_setBits h hk
      exact ⟨h1, by simp [hd, hs]⟩)
  rw [hds] at this
  exact this.bind (Reads.pure m)

end Spdm
