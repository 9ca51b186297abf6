import Verif.Lemmas.Accepts
/-! DIGESTS: soundness and completeness of the parser with respect to `Spec.Denotes`. -/
namespace Spdm
open Spec

/-! ### DIGESTS -/

/-- The bits below NUM_SLOTS. -/
def lowBits (n : Nat) (b : UInt8) : UInt8 := UInt8.ofNat (b.toNat % 2 ^ n)

theorem lowBits_table (n : Nat) (hn : n ≤ 8) (b : UInt8) :
    (trailingZeros 8 b.toNat < n → trailingZeros 8 (lowBits n b).toNat = trailingZeros 8 b.toNat ∧
      lowBits n (b ^^^ UInt8.ofNat (2 ^ trailingZeros 8 b.toNat)) = lowBits n b ^^^ UInt8.ofNat (2 ^ trailingZeros 8 b.toNat)) ∧
    (¬ trailingZeros 8 b.toNat < n → ¬ trailingZeros 8 (lowBits n b).toNat < n) := by
  have h : ∀ n : Fin 9, ∀ i : Fin 256, (trailingZeros 8 (UInt8.ofNat i.val).toNat < n.val →
      trailingZeros 8 (lowBits n.val (UInt8.ofNat i.val)).toNat = trailingZeros 8 (UInt8.ofNat i.val).toNat ∧
      lowBits n.val (UInt8.ofNat i.val ^^^ UInt8.ofNat (2 ^ trailingZeros 8 (UInt8.ofNat i.val).toNat)) =
        lowBits n.val (UInt8.ofNat i.val) ^^^ UInt8.ofNat (2 ^ trailingZeros 8 (UInt8.ofNat i.val).toNat)) ∧
      (¬ trailingZeros 8 (UInt8.ofNat i.val).toNat < n.val → ¬ trailingZeros 8 (lowBits n.val (UInt8.ofNat i.val)).toNat < n.val) := by
    decide +kernel
  revert b
  apply forall_u8
  exact h ⟨n, by omega⟩

theorem lowBits_testBit (n : Nat) (b : UInt8) (i : Nat) : (lowBits n b).toNat.testBit i = (decide (i < n) && b.toNat.testBit i) := by
  unfold lowBits
  have : b.toNat % 2 ^ n < 256 := Nat.lt_of_le_of_lt (Nat.mod_le _ _) b.toNat_lt
  rw [UInt8.toNat_ofNat', Nat.mod_eq_of_lt this, Nat.testBit_mod_two_pow]

theorem setBits_mem {b : UInt8} {i : Nat} : i ∈ setBits b ↔ i < 8 ∧ b.toNat.testBit i = true := by
  simp [setBits]

theorem Digests.readLoop_low (c : Cfg) (hc : c.numSlots ≤ 8) (size fuel : Nat) (bits : UInt8) (ds : List (Option Bytes)) :
    Digests.readLoop c size fuel bits ds = Digests.readLoop c size fuel (lowBits c.numSlots bits) ds := by
  induction fuel generalizing bits ds with
  | zero => rfl
  | succ n ih =>
    obtain ⟨h1, h2⟩ := lowBits_table c.numSlots hc bits
    by_cases hk : trailingZeros 8 bits.toNat < c.numSlots
    · obtain ⟨h3, h4⟩ := h1 hk
      simp only [Digests.readLoop, h3, if_pos hk]
      rw [← h4]
      congr 1; funext d; congr 1; funext ds
      rw [if_pos (by omega), if_pos (by omega)]
      exact ih _ _
    · simp only [Digests.readLoop, if_neg hk, if_neg (h2 hk)]

theorem Digests.readLoop_inverts (c : Cfg) (size fuel : Nat) (bits : UInt8) (ds : List (Option Bytes))
    (hf : (setBits bits).length < fuel) (hc : c.numSlots ≤ 8) (hb : ∀ k ∈ setBits bits, k < c.numSlots) :
    Inverts (Digests.readLoop c size fuel bits ds) (fun bs l => ∃ get : Nat → Bytes, (∀ k ∈ setBits bits, (get k).length = size) ∧
      bs = (setBits bits).flatMap get ∧ l = (setBits bits).foldl (fun ds k => ds.set k (some (get k))) ds) := by
  induction fuel generalizing bits ds with
  | zero => omega
  | succ n ih =>
    have hs := setBits_step bits
    cases hl : setBits bits with
    | nil =>
      rw [hl] at hs
      simp only at hs
      simp only [Digests.readLoop, hs]
      rw [if_neg (by omega)]
      refine (Inverts.pure _).mono ?_
      rintro bs l ⟨rfl, rfl⟩
      exact ⟨fun _ => [], by simp, rfl, rfl⟩
    | cons k t =>
      rw [hl] at hs
      obtain ⟨h1, h2, h3⟩ := hs
      have hkt : k ∉ t := by
        have hnd : (setBits bits).Nodup := List.nodup_range.filter _
        rw [hl] at hnd
        exact (List.nodup_cons.mp hnd).1
      simp only [Digests.readLoop, h1]
      rw [if_pos (hb k (by rw [hl]; simp))]
      refine ((Inverts.getSlice _ _).bind fun d => (Inverts.lift _).bind fun ds' => (Inverts.ite
        (P := fun bs l => ∃ get : Nat → Bytes, (∀ k ∈ t, (get k).length = size) ∧
          bs = t.flatMap get ∧ l = t.foldl (fun ds k => ds.set k (some (get k))) ds') (fun _ => ?_)
        fun h => absurd h2 h)).mono ?_
      · have := ih (bits ^^^ UInt8.ofNat (2 ^ k)) ds' (by rw [h3]; rw [hl] at hf; simp at hf; omega)
          (by rw [h3]; intro j hj; exact hb j (by rw [hl]; simp [hj]))
        rw [h3] at this
        exact this
      · rintro bs l ⟨d, _, _, rfl, ⟨rfl, hd, _⟩, _, _, ds', rfl, ⟨rfl, hset⟩, get, g1, rfl, rfl⟩
        obtain ⟨_, rfl⟩ := setIndex_inv hset
        have hne : ∀ j ∈ t, (fun j => if j = k then d else get j) j = get j := by
          intro j hj
          show (if j = k then d else get j) = get j
          rw [if_neg (by intro e; subst e; exact hkt hj)]
        refine ⟨fun j => if j = k then d else get j, ?_, ?_, ?_⟩
        · intro j hj
          rcases List.mem_cons.mp hj with rfl | hj
          · simpa using hd
          · rw [hne j hj]; exact g1 j hj
        · simp only [List.flatMap_cons, if_true, List.nil_append]
          congr 1
          clear ih hl hb g1 h3
          induction t with
          | nil => rfl
          | cons j t iht =>
            simp only [List.flatMap_cons]
            have e1 := hne j (by simp)
            simp only at e1
            rw [e1, iht (fun h => hkt (by simp [h])) fun i hi => hne i (by simp [hi])]
        · simp only [List.foldl_cons, if_true]
          clear ih hl hb g1 h3
          generalize ds.set k (some d) = es
          induction t generalizing es with
          | nil => rfl
          | cons j t iht =>
            simp only [List.foldl_cons]
            have e1 := hne j (by simp)
            simp only at e1
            rw [e1, iht (fun h => hkt (by simp [h])) fun i hi => hne i (by simp [hi])]

theorem Digests.inverts' (c : Cfg) (x : Ctx) (hc : c.numSlots ≤ 8) :
    Inverts (Digests.read c x.digestSize) (fun bs m => Denotes c x bs (.digests m)) := by
  have hloop : ∀ mask : UInt8, Inverts (Digests.readLoop c x.digestSize 9 mask (List.replicate c.numSlots none))
      (fun bs l => ∃ get : Nat → Bytes, (∀ k ∈ setBits (lowBits c.numSlots mask), (get k).length = x.digestSize) ∧
      bs = (setBits (lowBits c.numSlots mask)).flatMap get ∧
      l = (setBits (lowBits c.numSlots mask)).foldl (fun ds k => ds.set k (some (get k))) (List.replicate c.numSlots none)) := by
    intro mask
    rw [Digests.readLoop_low c hc]
    refine Digests.readLoop_inverts c x.digestSize 9 _ _ ?_ hc ?_
    · have := setBits_length (lowBits c.numSlots mask); omega
    · intro k hk
      have := (setBits_mem.mp hk).2
      rw [lowBits_testBit] at this
      simp at this
      exact this.1
  unfold Digests.read
  refine ((Inverts.skipReserved 1).bind fun _ => Inverts.getByte.bind fun mask => (hloop mask).bind fun _ => Inverts.pure _).mono ?_
  · rintro bs m ⟨_, _, _, rfl, rfl, _, _, mask, rfl, rfl, _, _, l, rfl, ⟨get, g1, rfl, rfl⟩, rfl, rfl⟩
    have hget : ∀ i, i < c.numSlots → ((setBits (lowBits c.numSlots mask)).foldl (fun ds k => ds.set k (some (get k)))
        (List.replicate c.numSlots none))[i]? = if mask.toNat.testBit i = true then some (some (get i)) else some none := by
      intro i hi
      rw [foldl_set_getElem? _ _ _ _ (by simpa using hi), List.getElem?_replicate, if_pos hi]
      have : i ∈ setBits (lowBits c.numSlots mask) ↔ mask.toNat.testBit i = true := by
        rw [setBits_mem, lowBits_testBit]
        simp [hi]; omega
      simp only [this]
    have hlen : ((setBits (lowBits c.numSlots mask)).foldl (fun ds k => ds.set k (some (get k)))
        (List.replicate c.numSlots none)).length = c.numSlots := by rw [foldl_set_length]; simp
    have hmask : ∀ i, i < c.numSlots → (mask.toNat.testBit i = true ↔ ∃ d, ((setBits (lowBits c.numSlots mask)).foldl (fun ds k => ds.set k (some (get k)))
        (List.replicate c.numSlots none))[i]? = some (some d)) := by
      intro i hi
      rw [hget i hi]
      by_cases hb : mask.toNat.testBit i = true
      · rw [if_pos hb]; simp [hb]
      · rw [if_neg hb]; simp [hb]
    refine ⟨hlen, hmask, ?_, ?_⟩
    · intro d hd
      obtain ⟨i, hi⟩ := List.mem_iff_getElem?.mp hd
      have hlt : i < c.numSlots := by
        by_contra h
        rw [List.getElem?_eq_none (by rw [hlen]; omega)] at hi
        simp at hi
      simp only at hi
      rw [hget i hlt] at hi
      split at hi
      · rename_i hb
        simp only [Option.some.injEq] at hi
        rw [← hi]
        refine g1 i (setBits_mem.mpr ⟨by omega, ?_⟩)
        rw [lowBits_testBit]; simp [hlt, hb]
      · simp at hi
    · have hlay := Digests.setBits_layout_gen (c := c) (m := ⟨lowBits c.numSlots mask, (setBits (lowBits c.numSlots mask)).foldl
        (fun ds k => ds.set k (some (get k))) (List.replicate c.numSlots none)⟩) hc hlen (by
          intro i hi
          simp only [lowBits_testBit]
          by_cases hlt : i < c.numSlots
          · rw [← hmask i hlt]; simp [hlt]
          · rw [List.getElem?_eq_none (by rw [hlen]; omega)]
            simp [hlt])
      simp only [Wire.digests]
      rw [← hlay]
      simp only [List.append_nil, List.append_assoc]
      congr 2
      have : ∀ S : List Nat, (∀ k ∈ S, k ∈ setBits (lowBits c.numSlots mask)) → S.flatMap get = S.flatMap fun k =>
          (((setBits (lowBits c.numSlots mask)).foldl (fun ds k => ds.set k (some (get k))) (List.replicate c.numSlots none))[k]?.getD none).getD [] := by
        intro S
        induction S with
        | nil => intro _; rfl
        | cons k S ih =>
          intro h
          simp only [List.flatMap_cons]
          rw [ih fun j hj => h j (by simp [hj])]
          have hk := (setBits_mem.mp (h k (by simp))).2
          rw [lowBits_testBit] at hk
          simp only [Bool.and_eq_true, decide_eq_true_eq] at hk
          rw [hget k hk.1, if_pos hk.2]
          rfl
      exact this _ fun k hk => hk

theorem Digests.loop_reads {c : Cfg} {size : Nat} {m : Digests} (h : DigestsWF c size m) :
    Reads (Digests.readLoop c size 9 m.slotMask (List.replicate c.numSlots none)) (m.digests.flatMap (fun d => d.getD [])) m.digests := by
  have hds : (setBits m.slotMask).foldl (fun ds k => ds.set k (some (((m.digests[k]?).getD none).getD [])))
      (List.replicate c.numSlots none) = m.digests := by
    apply List.ext_getElem?
    intro i
    by_cases hi : i < c.numSlots
    · rw [foldl_set_getElem? _ _ _ _ (by simpa using hi)]
      have h8 : i < 8 := by have := h.slots; omega
      by_cases hm : i ∈ setBits m.slotMask
      · rw [if_pos hm]
        obtain ⟨_, _, d, hd, _⟩ := Digests.mem_setBits h hm
        simp [hd]
      · rw [if_neg hm, List.getElem?_replicate, if_pos hi]
        have hlt : i < m.digests.length := by rw [h.len]; exact hi
        rw [List.getElem?_eq_getElem hlt]
        cases hd : m.digests[i] with
        | none => rfl
        | some d =>
          exfalso; apply hm
          simp only [setBits, List.mem_filter, List.mem_range]
          exact ⟨h8, (h.mask i h8).mpr ⟨d, by rw [List.getElem?_eq_getElem hlt, hd]⟩⟩
    · rw [List.getElem?_eq_none (by rw [foldl_set_length]; simp; omega), List.getElem?_eq_none (by rw [h.len]; omega)]
  have := Digests.readsLoop c h.slots size (fun k => ((m.digests[k]?).getD none).getD []) 9 m.slotMask
    (List.replicate c.numSlots none) (by have := setBits_length m.slotMask; omega) (by simp) (by
      intro k hk
      obtain ⟨_, h1, d, hd, hs⟩ := Digests.mem_setBits h hk
      exact ⟨h1, by simp [hd, hs]⟩)
  rw [hds, Digests.setBits_layout h] at this
  exact this

theorem Digests.reads' {c : Cfg} {x : Ctx} {bs : Bytes} {m : Digests} (hc : c.numSlots ≤ 8) (h : Denotes c x bs (.digests m)) :
    Reads (Digests.read c x.digestSize) bs m := by
  obtain ⟨hl, hm, hs, rfl⟩ := h
  have hw : DigestsWF c x.digestSize ⟨lowBits c.numSlots m.slotMask, m.digests⟩ := by
    refine ⟨hc, hl, ?_, hs⟩
    intro i hi
    simp only [lowBits_testBit]
    by_cases hlt : i < c.numSlots
    · rw [← hm i hlt]; simp [hlt]
    · rw [List.getElem?_eq_none (by rw [hl]; omega)]
      simp [hlt]
  have hl2 := Digests.loop_reads hw
  dsimp only at hl2
  rw [← Digests.readLoop_low c hc] at hl2
  have e : Wire.digests m = Spec.zeros 1 ++ ([m.slotMask] ++ (m.digests.flatMap (fun d => d.getD []) ++ [])) := by simp [Wire.digests]
  rw [e]
  have h3 : Reads (Digests.readLoop c x.digestSize 9 m.slotMask (List.replicate c.numSlots none) >>= fun ds => pure (⟨m.slotMask, ds⟩ : Digests))
      (m.digests.flatMap (fun d => d.getD []) ++ []) m := Reads.bind hl2 (Reads.pure m)
  exact (Reads.zeros 1).bind ((Reads.getByte _).bind h3)

end Spdm
