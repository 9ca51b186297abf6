import Verif.Props.Faults2
/-!
# C108, continued: MEASUREMENTS, ERROR
-/
namespace Spdm
open Spec Spec.Faults

theorem TM.bind_pure' {ε σ α : Type} (m : TM ε σ α) : (m >>= fun a => (Pure.pure a : TM ε σ α)) = m := by
  funext s
  show TM.bind m (fun a => Pure.pure a) s = m s
  unfold TM.bind
  rcases e : m s with ⟨r, s'⟩
  cases r <;> rfl

/-! ## MEASUREMENTS -/

theorem and7f (b : UInt8) : (b &&& 0x7f).toNat = b.toNat % 128 := by
  revert b; apply forall_u8; decide +kernel

theorem valueType_table (b : UInt8) : (b.toNat ≤ 7 → ∃ t, ValueType.tryFrom b = .ok t) ∧ (¬ b.toNat ≤ 7 → ∃ e, ValueType.tryFrom b = .err e) := by
  constructor
  · intro h
    have : ∀ n : Fin 8, (ValueType.tryFrom (UInt8.ofNat n.val)).isOk = true := by decide +kernel
    have := this ⟨b.toNat, by omega⟩
    rw [show UInt8.ofNat (⟨b.toNat, by omega⟩ : Fin 8).val = b from UInt8.ofNat_toNat] at this
    cases e : ValueType.tryFrom b with
    | ok t => exact ⟨t, rfl⟩
    | err x => rw [e] at this; cases this
    | panic k => rw [e] at this; cases this
  · intro h
    unfold ValueType.tryFrom
    have : ∀ k : UInt8, k.toNat ≤ 7 → b ≠ k := fun k hk hb => h (hb ▸ hk)
    rw [if_neg (this 0 (by decide)), if_neg (this 1 (by decide)), if_neg (this 2 (by decide)), if_neg (this 3 (by decide)), if_neg (this 4 (by decide)), if_neg (this 5 (by decide)),
      if_neg (this 6 (by decide)), if_neg (this 7 (by decide))]
    exact ⟨_, rfl⟩

theorem and80 (b : UInt8) : (b.toNat < 128 → b &&& 0x80 = 0) ∧ (¬ b.toNat < 128 → b &&& 0x80 = 0x80) := by
  revert b; apply forall_u8; decide +kernel

theorem runs_measurement {c : Cfg} {bs : Bytes} {i : Nat} (hi : i ≤ bs.length) :
    Runs (DmtfMeasurement.readT c) ⟨bs, i, 0⟩ (measurement c bs i) (fun _ s => s = ⟨bs, i + 3 + num bs (i + 1) 2, 0⟩ ∧ i + 3 + num bs (i + 1) 2 ≤ bs.length) := by
  have hf : Reads' (fromRead ParseDmtfMeasurementError.read) := fun _ => rfl
  have hf' : Reads' (fromRead ParseBitStreamError.read) := fun _ => rfl
  simp only [DmtfMeasurement.readT, measurement]
  refine Runs.byte hf hi fun b hb h1 => ?_
  rw [← hb, ← and7f]
  by_cases ht : (b &&& 0x7f).toNat ≤ 7
  · obtain ⟨t, h⟩ := (valueType_table _).1 ht
    rw [h]
    refine Runs.met ht (Runs.lift_ok (by rfl) ?_)
    by_cases hr : b.toNat < 128
    · rw [(and80 b).1 hr]
      refine Runs.lift_ok (by rfl) (Runs.u16 hf fun n hn h3 => ?_)
      have hn' : n.toNat = num bs (i + 1) 2 := hn
      rw [if_pos hr, ← hn']
      exact Runs.when Iff.rfl fun _ => Runs.sliceFit hf h3 (Nat.le_refl _) fun _ h => Runs.pure ⟨rfl, h⟩
    · rw [(and80 b).2 hr]
      refine Runs.lift_ok (by rfl) (Runs.u16 hf fun n hn h3 => ?_)
      have hn' : n.toNat = num bs (i + 1) 2 := hn
      rw [if_neg hr, ← hn']
      refine Runs.via (P := fun _ s => s = ⟨bs, i + 3 + n.toNat, 0⟩ ∧ i + 3 + n.toNat ≤ bs.length) ?_ fun _ _ hs _ => Runs.pure hs
      refine Runs.unless (by omega) fun hle => ?_
      have := Runs.sliceFit (k := fun d => (Pure.pure d : TM ParseBitStreamError Reader Bytes)) (rest := []) (Q := fun _ s => s = ⟨bs, i + 3 + n.toNat, 0⟩ ∧ i + 3 + n.toNat ≤ bs.length)
        hf' h3 hle fun _ h => Runs.pure ⟨rfl, h⟩
      rwa [TM.bind_pure'] at this
  · obtain ⟨e, h⟩ := (valueType_table _).2 ht
    rw [h]
    exact Runs.err (by rfl) ht

theorem runs_block {c : Cfg} {bs : Bytes} {i : Nat} (hi : i ≤ bs.length) :
    Runs (MeasurementBlock.readT c) ⟨bs, i, 0⟩ (block c bs i) (fun _ s => s = ⟨bs, blockEnd bs i, 0⟩ ∧ blockEnd bs i ≤ bs.length) := by
  have hf : Reads' (fromRead ParseMeasurementBlockError.read) := fun _ => rfl
  simp only [MeasurementBlock.readT, block]
  refine Runs.merge (m := i + 1) (by omega) (Runs.byte hf hi fun x _ h1 => Runs.byte hf h1 fun sp hsp h2 => ?_)
  have hsp' : sp.toNat = num bs (i + 1) 1 := hsp
  rw [← hsp']
  refine Runs.unless ?_ fun _ => Runs.u16 hf fun n hn h4 => Runs.get ?_
  · rw [ne_eq, Decidable.not_not, ← UInt8.toNat_inj]; exact Iff.rfl
  have hn' : n.toNat = num bs (i + 2) 2 := hn
  refine Runs.via (runs_measurement h4) fun m s hs _ => ?_
  obtain ⟨rfl, h5⟩ := hs
  refine Runs.get ?_
  have e5 : i + 1 + 1 + 2 + 1 = i + 5 := by omega
  rw [e5] at h5
  simp only [e5]
  rw [← hn']
  refine Runs.unless (by omega) fun _ => Runs.pure ⟨?_, ?_⟩
  · unfold blockEnd; rw [show i + 1 + 1 + 2 + 3 = i + 7 by omega]
  · unfold blockEnd; omega

theorem within_append {δ ε : Type} (w : δ → ε) (cs : Checks δ) (r r' : Checks ε) : within w cs r ++ r' = within w cs (r ++ r') := by simp [within]

theorem blockList_append {c : Cfg} {bs : Bytes} : ∀ (n k i : Nat) (r r' : Checks ParseMeasurementBlocksError), blockList c bs n k i r ++ r' = blockList c bs n k i (r ++ r')
  | 0, _, _, _, _ => rfl
  | n + 1, k, i, r, r' => by simp only [blockList, within_append, orAbort, List.cons_append, blockList_append n]

theorem runs_blockList {c : Cfg} {bs : Bytes} : ∀ (n k i : Nat) (l : List (Option MeasurementBlock)), i ≤ bs.length → l.length = c.maxMeasurementBlocks →
    Runs (MeasurementBlocks.readLoopT c n k l) ⟨bs, i, 0⟩ (blockList c bs n k i []) (fun _ s => s = ⟨bs, blockListEnd bs n i, 0⟩ ∧ blockListEnd bs n i ≤ bs.length)
  | 0, k, i, l, hi, _ => Runs.pure ⟨rfl, hi⟩
  | n + 1, k, i, l, hi, hl => by
    simp only [MeasurementBlocks.readLoopT, blockList, blockListEnd]
    refine Runs.via (runs_block hi) fun e s hs _ => ?_
    obtain ⟨rfl, h1⟩ := hs
    exact Runs.indexOr hl fun l hl => runs_blockList n (k + 1) _ l h1 hl

theorem blockListEnd_ge (bs : Bytes) : ∀ n i, i ≤ blockListEnd bs n i
  | 0, i => Nat.le_refl i
  | n + 1, i => by
    have := blockListEnd_ge bs n (blockEnd bs i)
    unfold blockListEnd
    unfold blockEnd at this ⊢
    omega

theorem runs_record {c : Cfg} {bs : Bytes} {i : Nat} (hi : i ≤ bs.length) :
    Runs (MeasurementBlocks.readT c) ⟨bs, i, 0⟩ (record c bs i) (fun _ s => s = ⟨bs, recordEnd bs i, 0⟩ ∧ recordEnd bs i ≤ bs.length) := by
  have hf : Reads' (fromRead ParseMeasurementBlocksError.read) := fun _ => rfl
  simp only [MeasurementBlocks.readT, record, recordEnd]
  refine Runs.merge (m := i + 1) (by omega) (Runs.byte hf hi fun n hn h1 => ?_)
  rw [show i + 4 = i + 1 + 3 by omega]
  refine Runs.u24 hf h1 fun h4 => ?_
  refine Runs.unless (by omega) fun _ => Runs.get ?_
  rw [← hn]
  have := Runs.bind (runs_blockList (c := c) (bs := bs) n.toNat 0 (i + 1 + 3) (MeasurementBlocks.dflt c).blocks h4 (by simp [MeasurementBlocks.dflt]))
    (f := fun l => TM.get >>= fun r => if num bs (i + 1) 3 ≠ r.byteOffset - (i + 1 + 3) then TM.fail .measurementSizeMismatch else (Pure.pure ⟨n.toNat, l⟩ : TM ParseMeasurementBlocksError Reader MeasurementBlocks))
    (cs' := need (i + 1 + 3 + num bs (i + 1) 3 = blockListEnd bs n.toNat (i + 1 + 3)) .measurementSizeMismatch [])
    (Q := fun _ s => s = ⟨bs, blockListEnd bs n.toNat (i + 1 + 3), 0⟩ ∧ blockListEnd bs n.toNat (i + 1 + 3) ≤ bs.length) (fun l s hs _ => by
      obtain ⟨rfl, h5⟩ := hs
      refine Runs.get ?_
      have := blockListEnd_ge bs n.toNat (i + 1 + 3)
      exact Runs.unless (by dsimp only; omega) fun _ => Runs.pure ⟨rfl, h5⟩)
  rw [blockList_append] at this
  exact this

theorem Runs.dropBits {ε β : Type} {bs : Bytes} {i bit n : Nat} {k : Unit → TM ε Reader β} {rest : Checks ε} {Q : β → Reader → Prop}
    (hi : i + 1 ≤ bs.length) (h1 : 1 ≤ n) (h7 : n ≤ 7) (h8 : bit + n ≤ 8)
    (h : Runs (k ()) ⟨bs, i + (bit + n) / 8, (bit + n) % 8⟩ rest Q) :
    Runs (Measurements.dropResultT (Reader.getBits n) >>= k) ⟨bs, i, bit⟩ rest Q := by
  have h0 := Runs.moreBits (ε := ReadError) (f := fromRead id) (fun _ => rfl) (k := fun b => Pure.pure b) (rest := [])
    (Q := fun _ s => s = ⟨bs, i + (bit + n) / 8, (bit + n) % 8⟩) hi h1 h7 h8 fun b _ => Runs.pure rfl
  rw [TM.bind_pure'] at h0
  have key : ∃ v, Reader.getBits n ⟨bs, i, bit⟩ = (.ok v, ⟨bs, i + (bit + n) / 8, (bit + n) % 8⟩) := by
    unfold Runs TM.of at h0
    rcases e : Reader.getBits n ⟨bs, i, bit⟩ with ⟨r, s'⟩
    rw [e] at h0
    cases r with
    | ok v => exact ⟨v, by rw [h0.2]⟩
    | err x => cases h0
    | panic x => cases h0
  obtain ⟨v, hv⟩ := key
  refine Runs.bind (cs := []) (P := fun _ s => s = ⟨bs, i + (bit + n) / 8, (bit + n) % 8⟩) ?_ fun _ s hs _ => by subst hs; exact h
  unfold Runs Measurements.dropResultT
  rw [hv]
  exact ⟨allMet_nil, rfl⟩

/-- MEASUREMENTS. -/
theorem c108_measurements (c : Cfg) (signed : Bool) (sig : Nat) (bs : Bytes) : Outcome (measurements c signed sig bs) (Measurements.parseBodyT c bs signed sig) := by
  have hf : Reads' (fromRead ParseMeasurementsError.read) := fun _ => rfl
  refine Runs.outcome (P := fun _ _ => True) (s := ⟨bs, 0, 0⟩) ?_
  simp only [Measurements.readT, measurements, Nonce.read]
  refine Runs.byte hf (Nat.zero_le _) fun tot (htot : tot.toNat = num bs 0 1) h1 => ?_
  rw [← htot]
  refine Runs.unless (by omega) fun _ => ?_
  refine Runs.bits hf h1 (.inl rfl) (by omega) (by omega) (by omega) fun sl hsl h2 => ?_
  have hsl' : sl.toNat = num bs 1 1 % 16 := by rw [hsl]; show num bs 1 1 / 1 % 16 = _; rw [Nat.div_one]
  rw [← hsl']
  refine Runs.unless (by omega) fun _ => ?_
  refine Runs.moreBits hf h2 (by omega) (by omega) (by omega) fun cc hcc => ?_
  have hcc' : cc.toNat = num bs 1 1 / 16 % 4 := hcc
  rw [← hcc']
  have htab : ∀ b : UInt8, (b.toNat ≤ 2 → ∃ t, ContentChanged.tryFrom b = .ok t) ∧ (¬ b.toNat ≤ 2 → ContentChanged.tryFrom b = .err .parseContentChanged) := by
    intro b
    unfold ContentChanged.tryFrom
    simp only [← UInt8.toNat_inj, show UInt8.toNat 0 = 0 from rfl, show UInt8.toNat 1 = 1 from rfl, show UInt8.toNat 2 = 2 from rfl]
    constructor
    · intro h
      split
      · exact ⟨_, rfl⟩
      · split
        · exact ⟨_, rfl⟩
        · rw [if_pos (by omega)]; exact ⟨_, rfl⟩
    · intro h
      rw [if_neg (by omega), if_neg (by omega), if_neg (by omega)]
  by_cases hc2 : cc.toNat ≤ 2
  · obtain ⟨t, h⟩ := (htab cc).1 hc2
    rw [h]
    refine Runs.met hc2 (Runs.lift_ok (by rfl) ?_)
    refine Runs.dropBits h2 (by omega) (by omega) (by omega) ?_
    refine Runs.via (runs_record h2) fun _ s hs _ => ?_
    obtain ⟨rfl, h3⟩ := hs
    generalize recordEnd bs 2 = e at h3
    refine Runs.merge (m := e + c.nonceSize) (by omega) (Runs.sliceFit hf h3 (Nat.le_refl _) fun _ h4 => Runs.u16 hf fun o ho h6 => ?_)
    rw [← ho]
    refine Runs.unless (by show _ ↔ ¬ 1024 < o.toNat; omega) fun _ => ?_
    refine Runs.via (runs_opaque h6) fun _ s hs _ => ?_
    obtain ⟨rfl, h7⟩ := hs
    exact Runs.cond (fun _ => Runs.sliceFit hf h7 (Nat.le_refl _) fun _ _ => Runs.pure trivial) fun _ => Runs.pure trivial
  · rw [(htab cc).2 hc2]
    exact Runs.err (by rfl) hc2

/-! ## ERROR -/

/-- ERROR. -/
theorem c108_error (bs : Bytes) : Outcome (error bs) (ErrorMsg.parseBodyT bs) := by
  have hf : Reads' (fromRead ParseErrorError.read) := fun _ => rfl
  refine Runs.outcome (P := fun _ _ => True) (s := ⟨bs, 0, 0⟩) ?_
  simp only [ErrorMsg.readT, error]
  refine Runs.merge (m := 1) (by omega) (Runs.byte hf (Nat.zero_le _) fun c (hc : c.toNat = num bs 0 1) h1 => Runs.byte hf h1 fun d (hd : d.toNat = num bs 1 1) h2 => ?_)
  rw [← hc, ← hd]
  by_cases hm : c.toNat ∈ errorCodes
  · refine Runs.met hm ?_
    have hcases : c = 0x1 ∨ c = 0x3 ∨ c = 0x4 ∨ c = 0x5 ∨ c = 0x6 ∨ c = 0x7 ∨ c = 0x8 ∨ c = 0x9 ∨ c = 0xA ∨ c = 0xB ∨ c = 0xC ∨ c = 0xD ∨ c = 0xE ∨ c = 0xF ∨ c = 0x10 ∨ c = 0x41 ∨
        c = 0x42 ∨ c = 0x43 ∨ c = 0xFF := by
      simpa [errorCodes, ← UInt8.toNat_inj] using hm
    have h2' : 2 ≤ bs.length := h2
    rcases hcases with rfl | rfl | rfl | rfl | rfl | rfl | rfl | rfl | rfl | rfl | rfl | rfl | rfl | rfl | rfl | rfl | rfl | rfl | rfl
    case inr.inr.inr.inr.inr.inr.inr.inr.inr.inr.inr.inl => exact Runs.u32 hf fun _ _ _ => Runs.pure trivial
    case inr.inr.inr.inr.inr.inr.inr.inr.inr.inr.inr.inr.inr.inl => exact Runs.byte hf h2 fun _ _ _ => Runs.pure trivial
    case inr.inr.inr.inr.inr.inr.inr.inr.inr.inr.inr.inr.inr.inr.inr.inr.inl =>
      show Runs _ _ (has bs 6 []) _
      exact Runs.merge (m := 3) (by omega) (Runs.byte hf h2 fun _ _ h3 => Runs.merge (m := 4) (by omega) (Runs.byte hf h3 fun _ _ h4 =>
        Runs.merge (m := 5) (by omega) (Runs.byte hf h4 fun _ _ h5 => Runs.byte hf h5 fun _ _ _ => Runs.pure trivial)))
    case inr.inr.inr.inr.inr.inr.inr.inr.inr.inr.inr.inr.inr.inr.inr.inr.inr.inr =>
      show Runs (match VendorRegistryId.tryFrom d with | none => _ | some id => _) _ (need (d.toNat ≤ 8) _ (has bs 3 _)) _
      by_cases hr : d.toNat ≤ 8
      · obtain ⟨id, hid, _⟩ := (registry_table d).1 hr
        rw [hid]
        refine Runs.met hr (Runs.byte hf h2 fun v hv h3 => ?_)
        have hv' : v.toNat = num bs 2 1 := hv
        rw [← hv']
        exact Runs.via (runs_vendorId h3) fun _ _ _ _ => Runs.pure trivial
      · rw [(registry_table d).2 hr]
        exact Runs.fail hr
    all_goals exact Runs.pure trivial
  · have : ∀ k : UInt8, k.toNat ∈ errorCodes → ¬ c = k := fun k hk hb => hm (hb ▸ hk)
    simp only [if_neg (this 0x1 (by decide)), if_neg (this 0x3 (by decide)), if_neg (this 0x4 (by decide)), if_neg (this 0x5 (by decide)), if_neg (this 0x6 (by decide)),
      if_neg (this 0x7 (by decide)), if_neg (this 0x8 (by decide)), if_neg (this 0x9 (by decide)), if_neg (this 0xA (by decide)), if_neg (this 0xB (by decide)),
      if_neg (this 0xC (by decide)), if_neg (this 0xD (by decide)), if_neg (this 0xE (by decide)), if_neg (this 0xF (by decide)), if_neg (this 0x10 (by decide)),
      if_neg (this 0x41 (by decide)), if_neg (this 0x42 (by decide)), if_neg (this 0x43 (by decide)), if_neg (this 0xFF (by decide))]
    exact Runs.fail hm

end Spdm
