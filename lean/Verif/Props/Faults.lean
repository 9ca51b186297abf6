import Verif.Lemmas.Faults
import Verif.Lemmas.ErrMachine
/-!
# C108: what a parser complains about
-/
namespace Spdm
open Spec Spec.Faults

theorem outcome_of {ε α : Type} {f : Err → ε} {m : R α} {bs : Bytes} {cs : Checks ε} {P : α → Reader → Prop} (h : Runs (TM.of f m) ⟨bs, 0, 0⟩ cs P) :
    Outcome cs (Out.of f (m (Reader.new bs)).1) := by
  have h := h.outcome
  unfold TM.of at h
  show Outcome cs (Out.of f (m ⟨bs, 0, 0⟩).1)
  rcases e : m ⟨bs, 0, 0⟩ with ⟨r, s'⟩
  rw [e] at h
  cases r <;> exact h

/-- GET_VERSION. -/
theorem c108_getVersion (bs : Bytes) : Outcome (twoReserved bs) (Out.of (fromRead id) (GetVersion.parseBody bs)) :=
  outcome_of (runs_skip (fun _ => rfl) 2 0 (Nat.zero_le _))

/-- GET_DIGESTS. -/
theorem c108_getDigests (bs : Bytes) : Outcome (twoReserved bs) (Out.of (fromRead id) (GetDigests.parseBody bs)) :=
  outcome_of (runs_skip (fun _ => rfl) 2 0 (Nat.zero_le _))

/-! ## VERSION -/

theorem runs_entries {bs : Bytes} : ∀ (n i k : Nat) (es : List VersionEntry), i ≤ bs.length → k + n ≤ es.length →
    Runs (TM.of ParseVersionError.from (Version.readEntries n k es)) ⟨bs, i, 0⟩ (has bs (i + 2 * n) []) (fun _ _ => True)
  | 0, i, k, es, hi, _ => Runs.met hi (Runs.pure trivial)
  | n + 1, i, k, es, hi, hk => by
    have hf : Reads' ParseVersionError.from := fun _ => rfl
    simp only [Version.readEntries, Version.readEntry, TM.of_bind, TM.of_pure, TM.bind_assoc', TM.pure_bind']
    refine Runs.merge (m := i + 1) (n := i + 2 * (n + 1)) (by omega) ?_
    refine Runs.bits hf hi (.inl rfl) (by omega) (by omega) (by omega) fun _ _ h1 => ?_
    refine Runs.moreBits hf h1 (by omega) (by omega) (by omega) fun _ _ => ?_
    refine Runs.merge (m := i + 1 + 1) (n := i + 2 * (n + 1)) (by omega) ?_
    refine Runs.bits hf h1 (.inl rfl) (by omega) (by omega) (by omega) fun _ _ h2 => ?_
    refine Runs.moreBits hf h2 (by omega) (by omega) (by omega) fun _ _ => ?_
    refine Runs.index (by omega) fun l hl => ?_
    have := runs_entries n (i + 1 + 1) (k + 1) l h2 (by omega)
    rw [show i + 1 + 1 + 2 * n = i + 2 * (n + 1) by omega] at this
    exact this

/-- VERSION. -/
theorem c108_version (bs : Bytes) : Outcome (version bs) (Out.of ParseVersionError.from (Version.parseBody bs)) := by
  have hf : Reads' ParseVersionError.from := fun _ => rfl
  refine outcome_of (P := fun _ _ => True) (m := Version.read) ?_
  simp only [Version.read, version, TM.of_bind, TM.of_ite, TM.of_fail, TM.of_pure]
  refine Runs.skip hf (Nat.zero_le _) fun h3 => Runs.byte hf h3 fun b (hb : b.toNat = num bs 3 1) (h4 : 4 ≤ bs.length) => ?_
  refine Runs.unless (by rw [← hb]; show _ ↔ ¬ 2 < b.toNat; omega) fun hn => ?_
  have := runs_entries b.toNat 4 0 Version.empty.entries h4 (by rw [hb]; show 0 + num bs 3 1 ≤ 2; omega)
  rw [← hb]
  exact Runs.last this fun _ _ _ _ => Runs.pure trivial

/-! ## GET_CAPABILITIES, CAPABILITIES -/

theorem fromBits32_ok {m b : UInt32} {e : Err} (h : b &&& ~~~m = 0) : fromBits32 m b e = .ok b := by unfold fromBits32; rw [if_pos h]
theorem fromBits32_err {m b : UInt32} {e : Err} (h : ¬ b &&& ~~~m = 0) : fromBits32 m b e = .err e := by unfold fromBits32; rw [if_neg h]

/-- GET_CAPABILITIES. -/
theorem c108_getCapabilities (bs : Bytes) : Outcome (getCapabilities bs) (Out.of ParseGetCapabilitiesError.from (GetCapabilities.parseBody bs)) := by
  have hf : Reads' ParseGetCapabilitiesError.from := fun _ => rfl
  refine outcome_of (P := fun _ _ => True) (m := GetCapabilities.read) ?_
  simp only [GetCapabilities.read, getCapabilities, TM.of_bind, TM.of_pure, TM.of_lift]
  refine Runs.skip hf (Nat.zero_le _) fun h3 => Runs.byte hf h3 fun ct _ h4 => Runs.skip hf h4 fun _ => Runs.u32 hf fun b (hb : b.toNat = num bs 6 4) _ => ?_
  rw [← hb]
  exact Runs.check (a := b) (fun hp => by rw [fromBits32_ok ((reqFlags_iff b).2 hp)]; rfl) (fun hp => by rw [fromBits32_err fun h => hp ((reqFlags_iff b).1 h)]; rfl) fun _ => Runs.pure trivial

/-- CAPABILITIES. -/
theorem c108_capabilities (bs : Bytes) : Outcome (capabilities bs) (Out.of ParseCapabilitiesError.from (Capabilities.parseBody bs)) := by
  have hf : Reads' ParseCapabilitiesError.from := fun _ => rfl
  refine outcome_of (P := fun _ _ => True) (m := Capabilities.read) ?_
  simp only [Capabilities.read, capabilities, TM.of_bind, TM.of_pure, TM.of_lift]
  refine Runs.skip hf (Nat.zero_le _) fun h3 => Runs.byte hf h3 fun ct _ h4 => Runs.skip hf h4 fun _ => Runs.u32 hf fun b (hb : b.toNat = num bs 6 4) _ => ?_
  rw [← hb]
  exact Runs.check (a := b) (fun hp => by rw [fromBits32_ok ((rspFlags_iff b).2 hp)]; rfl) (fun hp => by rw [fromBits32_err fun h => hp ((rspFlags_iff b).1 h)]; rfl) fun _ => Runs.pure trivial

/-! ## Algorithm structures -/

theorem ofType_table (b : UInt8) : (2 ≤ b.toNat ∧ b.toNat ≤ 5 → ∃ k, AlgKind.ofType b = some k ∧ algBits k = typeBits b.toNat ∧ Algorithms.moreThanOneT k = selectedError b.toNat) ∧
    (¬ (2 ≤ b.toNat ∧ b.toNat ≤ 5) → AlgKind.ofType b = none) := by
  revert b
  apply forall_u8
  decide +kernel

theorem kindOf_one (k : AlgKind) : k.fixedAlgCount = 2 := by cases k <;> rfl

theorem runs_algorithm {bs : Bytes} {i : Nat} (hi : i ≤ bs.length) :
    Runs AlgorithmRequest.readT ⟨bs, i, 0⟩ (algorithm bs i) (fun a s => s = ⟨bs, algorithmEnd bs i, 0⟩ ∧ algorithmEnd bs i ≤ bs.length ∧
      a.supported.toNat = num bs (i + 2) 2 ∧ Algorithms.moreThanOneT a.kind = selectedError (num bs i 1)) := by
  have hf : Reads' ParseAlgorithmRequestError.from := fun _ => rfl
  simp only [AlgorithmRequest.readT, AlgorithmRequest.read, algorithm, TM.of_bind]
  refine Runs.byte hf hi fun b hb h1 => ?_
  rw [← hb]
  by_cases ht : 2 ≤ b.toNat ∧ b.toNat ≤ 5
  · obtain ⟨k, hk, hbits, hsel⟩ := (ofType_table b).1 ht
    refine Runs.met ht ?_
    rw [hk]
    simp only [TM.of_bind, TM.of_ite, TM.of_fail, TM.of_lift, TM.of_pure]
    refine Runs.bits hf h1 (.inl rfl) (by omega) (by omega) (by omega) fun ext hext h2 => ?_
    refine Runs.moreBits hf h2 (by omega) (by omega) (by omega) fun fix hfix => ?_
    refine Runs.unless ?_ fun _ => ?_
    · rw [kindOf_one, ne_eq, Decidable.not_not, ← UInt8.toNat_inj, hfix]
      show num bs (i + 1) 1 / 16 = 2 ↔ num bs (i + 1) 1 / 16 % 16 = 2
      have := num_lt bs (i + 1) 1
      omega
    refine Runs.u16 hf fun s hs h4 => ?_
    have hs' : s.toNat = num bs (i + 2) 2 := hs
    rw [← hs', ← hbits]
    refine Runs.check (a := s) (fun hp => by rw [(fromBits16_low _ (algKind_mask k)).1 hp]; rfl) (fun hp => by rw [(fromBits16_low _ (algKind_mask k)).2 hp]; rfl) fun _ => ?_
    have hx : ext.toNat = num bs (i + 1) 1 % 16 := by rw [hext]; show num bs (i + 1) 1 / 1 % 16 = _; rw [Nat.div_one]
    rw [← hx]
    refine Runs.ignore hf h4 fun h5 => Runs.pure ⟨?_, ?_, rfl, hsel⟩
    · unfold algorithmEnd; rw [← hx]
    · unfold algorithmEnd; rw [← hx]; exact h5
  · rw [(ofType_table b).2 ht]
    exact Runs.fail ht

/-- A flat program whose errors have two wrappings. -/
theorem of_eq_via {ε δ σ α : Type} {S : Err → Prop} {m : M σ α} {F : Err → ε} {G : Err → δ} {w : δ → ε} (hm : ErrIn S m) (h : ∀ e, S e → F e = w (G e)) :
    TM.of F m = TM.via w (TM.of G m) := by
  funext s
  unfold TM.of TM.via
  have := hm s
  rcases e : m s with ⟨r, s'⟩
  rw [e] at this
  dsimp only
  rw [e]
  cases r with
  | ok a => rfl
  | err x => exact Prod.ext (congrArg Out.err (h x (this x rfl))) rfl
  | panic k => rfl

theorem of_mapErr {ε σ α : Type} {F : Err → ε} {g : Err → Err} {m : M σ α} : TM.of F (M.mapErr g m) = TM.of (fun e => F (g e)) m := by
  funext s
  unfold TM.of M.mapErr
  dsimp only
  rcases m s with ⟨r, s'⟩
  cases r <;> rfl

theorem runs_requests {bs : Bytes} : ∀ (n i k : Nat) (rs : List AlgorithmRequest), i ≤ bs.length → k + n ≤ rs.length →
    Runs (TM.of ParseNegotiateAlgorithmsError.from (NegotiateAlgorithms.readRequests n k rs)) ⟨bs, i, 0⟩ (requests bs n i) (fun _ _ => True)
  | 0, i, k, rs, hi, _ => Runs.pure trivial
  | n + 1, i, k, rs, hi, hk => by
    simp only [NegotiateAlgorithms.readRequests, TM.of_bind, of_mapErr, requests]
    rw [of_eq_via (w := .algorithmRequest) (G := ParseAlgorithmRequestError.from) AlgorithmRequest.read_errs_exact]
    · refine Runs.via (runs_algorithm hi) fun a s ha _ => ?_
      obtain ⟨rfl, h1, -⟩ := ha
      exact Runs.index (by omega) fun l hl => runs_requests n _ (k + 1) l h1 (by omega)
    · rintro e (⟨x, rfl⟩ | rfl | rfl | rfl) <;> rfl

/-- NEGOTIATE_ALGORITHMS. -/
theorem c108_negotiateAlgorithms (bs : Bytes) : Outcome (negotiateAlgorithms bs) (Out.of ParseNegotiateAlgorithmsError.from (NegotiateAlgorithms.parseBody bs)) := by
  have hf : Reads' ParseNegotiateAlgorithmsError.from := fun _ => rfl
  refine outcome_of (P := fun _ _ => True) (m := NegotiateAlgorithms.read) ?_
  simp only [NegotiateAlgorithms.read, negotiateAlgorithms, TM.of_bind, TM.of_ite, TM.of_fail, TM.of_pure, TM.of_lift]
  refine Runs.byte hf (Nat.zero_le _) fun n (hn : n.toNat = num bs 0 1) h1 => ?_
  refine Runs.unless (by rw [← hn]; show _ ↔ ¬ 4 < n.toNat; omega) fun hn4 => ?_
  refine Runs.skip hf h1 fun h2 => Runs.u16 hf fun len (hlen : len.toNat = num bs 2 2) h4 => ?_
  refine Runs.unless (by rw [← hlen, gt_iff_lt, UInt16.lt_iff_toNat_lt]; show _ ↔ ¬ 128 < len.toNat; omega) fun _ => ?_
  refine Runs.byte hf h4 fun sp (hsp : sp.toNat = num bs 4 1) h5 => ?_
  rw [← hsp]
  refine Runs.check (a := sp) (fun hp => by rw [fromBits8_spec, if_pos hp]; rfl) (fun hp => by rw [fromBits8_spec, if_neg hp]; rfl) fun _ => ?_
  refine Runs.skip hf h5 fun h6 => Runs.u32 hf fun as (has : as.toNat = num bs 6 4) h10 => ?_
  rw [← has]
  refine Runs.check (a := as) (fun hp => by rw [(fromBits32_low _ asymMask).1 hp]; rfl) (fun hp => by rw [(fromBits32_low _ asymMask).2 hp]; rfl) fun _ => ?_
  refine Runs.u32 hf fun ha (hha : ha.toNat = num bs 10 4) h14 => ?_
  rw [← hha]
  refine Runs.check (a := ha) (fun hp => by rw [(fromBits32_low _ hashMask).1 hp]; rfl) (fun hp => by rw [(fromBits32_low _ hashMask).2 hp]; rfl) fun _ => ?_
  refine Runs.skip hf h14 fun h26 => ?_
  refine Runs.merge (m := 27) (by omega) (Runs.byte hf h26 fun ea (hea : ea.toNat = num bs 26 1) h27 => Runs.byte hf h27 fun eh (heh : eh.toNat = num bs 27 1) h28 => ?_)
  refine Runs.skip hf h28 fun h30 => ?_
  refine Runs.merge (m := 30 + 4 * num bs 26 1) (by omega) ?_
  rw [← hea, ← heh, Nat.mul_comm 4 ea.toNat, Nat.mul_comm 4 eh.toNat]
  refine Runs.ignore hf h30 fun h31 => Runs.ignore hf h31 fun h32 => ?_
  rw [← hn]
  exact Runs.last (runs_requests n.toNat _ 0 _ h32 (by simp [maxAlgorithmRequests]; omega)) fun _ _ _ _ => Runs.pure trivial

/-! ## ALGORITHMS -/

theorem zeroes_add {ε : Type} [OfRead ε] {bs : Bytes} (m n i : Nat) (rest : Checks ε) : zeroes bs i (m + n) rest = zeroes bs i m (zeroes bs (i + m) n rest) := by
  induction m generalizing i with
  | zero => rw [Nat.zero_add]; rfl
  | succ m ih => rw [Nat.succ_add, zeroes, ih, zeroes, Nat.succ_add_eq_add_succ]

theorem runs_responses {bs : Bytes} : ∀ (n i k : Nat) (rs : List AlgorithmRequest), i ≤ bs.length → k + n ≤ rs.length →
    Runs (Algorithms.readResponsesT n k rs) ⟨bs, i, 0⟩ (responses bs n i) (fun _ _ => True)
  | 0, i, k, rs, hi, _ => Runs.pure trivial
  | n + 1, i, k, rs, hi, hk => by
    simp only [Algorithms.readResponsesT, responses]
    refine Runs.via (runs_algorithm hi) fun a s ha _ => ?_
    obtain ⟨rfl, h1, hs, hk'⟩ := ha
    refine Runs.index (by omega) fun l hl => ?_
    rw [← hs, ← hk']
    have hone : OneBit 16 a.supported.toNat ↔ ¬ countOnes a.supported.toNat 16 ≠ 1 := by
      rw [ne_eq, Decidable.not_not, oneBit_iff (Nat.le_refl 16) a.supported.toNat_lt]
    exact Runs.unless hone fun _ => runs_responses n _ (k + 1) l h1 (by omega)

/-- ALGORITHMS. -/
theorem c108_algorithms (bs : Bytes) : Outcome (algorithms bs) (Algorithms.parseBodyT bs) := by
  have hf : Reads' (fromRead ParseAlgorithmsError.read) := fun _ => rfl
  refine Runs.outcome (P := fun _ _ => True) (s := ⟨bs, 0, 0⟩) ?_
  simp only [Algorithms.readT, algorithms, Algorithms.bitsT]
  refine Runs.byte hf (Nat.zero_le _) fun n (hn : n.toNat = num bs 0 1) h1 => ?_
  refine Runs.unless (by rw [← hn]; show _ ↔ ¬ 4 < n.toNat; omega) fun hn4 => ?_
  refine Runs.skip hf h1 fun h2 => Runs.merge (m := 4) (by omega) (Runs.u16 hf fun len _ h4 => ?_)
  refine Runs.byte hf h4 fun sp (hsp : sp.toNat = num bs 4 1) h5 => ?_
  rw [← hsp]
  refine Runs.check (a := sp) (fun hp => by rw [fromBits8_spec, if_pos hp]; rfl) (fun hp => by rw [fromBits8_spec, if_neg hp]; rfl) fun hs2 => ?_
  refine Runs.unless ?_ fun _ => ?_
  · rw [ne_eq, Decidable.not_not, oneBit_iff (k := 1) (by omega) (by simpa using hs2)]
    constructor
    · intro h; exact ⟨0, by omega, h⟩
    · rintro ⟨j, hj, h⟩
      obtain rfl : j = 0 := by omega
      exact h
  refine Runs.skip hf h5 fun h6 => Runs.u32 hf fun mh (hmh : mh.toNat = num bs 6 4) h10 => ?_
  rw [← hmh]
  refine Runs.check (a := mh) (fun hp => by rw [(fromBits32_low _ hashMask).1 hp]; rfl) (fun hp => by rw [(fromBits32_low _ hashMask).2 hp]; rfl) fun hlt => ?_
  refine Runs.unless (by rw [ne_eq, Decidable.not_not, oneBit_iff (k := 6) (by omega) hlt]) fun _ => ?_
  refine Runs.u32 hf fun as (has : as.toNat = num bs 10 4) h14 => ?_
  rw [← has]
  refine Runs.check (a := as) (fun hp => by rw [(fromBits32_low _ asymMask).1 hp]; rfl) (fun hp => by rw [(fromBits32_low _ asymMask).2 hp]; rfl) fun hlt => ?_
  refine Runs.unless (by rw [ne_eq, Decidable.not_not, oneBit_iff (k := 9) (by omega) hlt]) fun _ => ?_
  refine Runs.u32 hf fun ha (hha : ha.toNat = num bs 14 4) h18 => ?_
  rw [← hha]
  refine Runs.check (a := ha) (fun hp => by rw [(fromBits32_low _ hashMask).1 hp]; rfl) (fun hp => by rw [(fromBits32_low _ hashMask).2 hp]; rfl) fun hlt => ?_
  refine Runs.unless (by rw [ne_eq, Decidable.not_not, oneBit_iff (k := 6) (by omega) hlt]) fun _ => ?_
  rw [show (16 : Nat) = 12 + (1 + (1 + 2)) from rfl, zeroes_add, zeroes_add, zeroes_add]
  refine Runs.skip hf h18 fun h30 => Runs.skip hf h30 fun h31 => Runs.skip hf h31 fun h32 => Runs.skip hf h32 fun h34 => ?_
  rw [← hn]
  exact Runs.last (runs_responses n.toNat _ 0 _ h34 (by simp [maxAlgorithmRequests]; omega)) fun _ _ _ _ => Runs.pure trivial

/-! ## DIGESTS -/

theorem runs_digests {c : Cfg} (hc : c.numSlots ≤ 8) {size : Nat} {bs : Bytes} : ∀ (fuel i : Nat) (bits : UInt8) (ds : List (Option Bytes)), i ≤ bs.length →
    (setBits bits).length < fuel → ds.length = c.numSlots →
    Runs (TM.of (fromRead id) (Digests.readLoop c size fuel bits ds)) ⟨bs, i, 0⟩ (has bs (i + size * ((setBits bits).filter (· < c.numSlots)).length) []) (fun _ _ => True)
  | 0, i, bits, ds, _, h, _ => absurd h (Nat.not_lt_zero _)
  | fuel + 1, i, bits, ds, hi, h, hd => by
    have hs := setBits_step bits
    unfold Digests.readLoop
    dsimp only
    cases hb : setBits bits with
    | nil =>
      rw [hb] at hs
      rw [hs, if_neg (by omega)]
      exact Runs.met (by simpa using hi) (Runs.pure trivial)
    | cons k t =>
      rw [hb] at hs h
      obtain ⟨hz, h8, ht⟩ := hs
      rw [hz]
      by_cases hk : k < c.numSlots
      · rw [if_pos hk]
        simp only [if_pos h8, TM.of_bind]
        have hlen : ((k :: t).filter (· < c.numSlots)).length = (t.filter (· < c.numSlots)).length + 1 := by simp [List.filter_cons, hk]
        rw [hlen]
        refine Runs.merge (m := i + size) (by rw [Nat.mul_add]; omega) (Runs.sliceFit (fun _ => rfl) hi (Nat.le_refl _) fun d h1 => ?_)
        refine Runs.index (by omega) fun l hl => ?_
        have := runs_digests hc (size := size) fuel (i + size) (bits ^^^ UInt8.ofNat (2 ^ k)) l h1 (by rw [ht]; simp at h; omega) (by omega)
        rw [ht] at this
        rw [show i + size * ((t.filter (· < c.numSlots)).length + 1) = i + size + size * (t.filter (· < c.numSlots)).length by rw [Nat.mul_add]; omega]
        exact this
      · rw [if_neg hk]
        have hsort : List.Pairwise (· < ·) (setBits bits) := (List.pairwise_lt_range).filter _
        rw [hb] at hsort
        have hnone : (k :: t).filter (· < c.numSlots) = [] := by
          rw [List.filter_eq_nil_iff]
          intro x hx
          rcases List.mem_cons.1 hx with rfl | hx
          · simpa using hk
          · have := List.rel_of_pairwise_cons hsort hx
            simp; omega
        rw [hnone]
        exact Runs.met (by simpa using hi) (Runs.pure trivial)

/-- DIGESTS. -/
theorem c108_digests {c : Cfg} (hc : c.numSlots ≤ 8) (size : Nat) (bs : Bytes) : Outcome (digests c size bs) (Out.of (fromRead id) (Digests.parseBody c size bs)) := by
  have hf : Reads' (fromRead (id : ReadError → ReadError)) := fun _ => rfl
  refine outcome_of (P := fun _ _ => True) (m := Digests.read c size) ?_
  simp only [Digests.read, digests, TM.of_bind, TM.of_pure]
  refine Runs.skip hf (Nat.zero_le _) fun h1 => Runs.byte hf h1 fun m (hm : m.toNat = num bs 1 1) h2 => ?_
  have := runs_digests hc (size := size) 9 2 m (List.replicate c.numSlots none) h2 (Nat.lt_succ_of_le (setBits_length m)) (by simp)
  have hslots : ((setBits m).filter (· < c.numSlots)).length = slotsIn c (num bs 1 1) := by
    unfold setBits slotsIn
    rw [← hm, List.filter_filter]
    obtain ⟨k, hk⟩ : ∃ k, 8 = c.numSlots + k := ⟨8 - c.numSlots, by omega⟩
    rw [hk, List.range_add, List.filter_append]
    have h1 : (List.range c.numSlots).filter (fun i => decide (i < c.numSlots) && m.toNat.testBit i) = (List.range c.numSlots).filter m.toNat.testBit := by
      refine List.filter_congr fun x hx => ?_
      simp [List.mem_range.1 hx]
    have h2 : (List.map (c.numSlots + ·) (List.range k)).filter (fun i => decide (i < c.numSlots) && m.toNat.testBit i) = [] := by
      rw [List.filter_eq_nil_iff]
      intro x hx
      obtain ⟨y, _, rfl⟩ := List.mem_map.1 hx
      simp
    rw [h1, h2, List.append_nil]
  rw [hslots] at this
  exact Runs.last this fun _ _ _ _ => Runs.pure trivial

/-! ## GET_CERTIFICATE, CERTIFICATE -/

/-- GET_CERTIFICATE. -/
theorem c108_getCertificate (bs : Bytes) : Outcome (getCertificate bs) (Out.of (fromRead id) (GetCertificate.parseBody bs)) := by
  have hf : Reads' (fromRead (id : ReadError → ReadError)) := fun _ => rfl
  refine outcome_of (P := fun _ _ => True) (m := GetCertificate.read) ?_
  simp only [GetCertificate.read, getCertificate, TM.of_bind, TM.of_pure]
  exact Runs.byte hf (Nat.zero_le _) fun _ _ h1 => Runs.skip hf h1 fun h2 => Runs.merge (m := 4) (by omega) (Runs.u16 hf fun _ _ h4 => Runs.u16 hf fun _ _ _ => Runs.pure trivial)

/-- CERTIFICATE. -/
theorem c108_certificate (c : Cfg) (bs : Bytes) : Outcome (certificate c bs) (Out.of ParseCertificateError.from (Certificate.parseBody c bs)) := by
  have hf : Reads' ParseCertificateError.from := fun _ => rfl
  refine outcome_of (P := fun _ _ => True) (m := Certificate.read c) ?_
  simp only [Certificate.read, certificate, TM.of_bind, TM.of_pure, TM.of_ite, TM.of_fail]
  refine Runs.byte hf (Nat.zero_le _) fun _ _ h1 => Runs.skip hf h1 fun h2 => Runs.u16 hf fun p (hp : p.toNat = num bs 2 2) h4 => ?_
  rw [← hp]
  refine Runs.unless (by omega) fun hle => Runs.u16 hf fun _ _ h6 => ?_
  exact Runs.sliceFit hf h6 hle fun _ _ => Runs.pure trivial

/-- CHALLENGE. -/
theorem c108_challenge (c : Cfg) (bs : Bytes) : Outcome (challenge c bs) (Out.of ParseChallengeError.from (Challenge.parseBody c bs)) := by
  have hf : Reads' ParseChallengeError.from := fun _ => rfl
  have ht : ∀ b : UInt8, (b.toNat = 0 ∨ b.toNat = 1 ∨ b.toNat = 0xFF → ∃ t, MeasurementHashType.tryFrom b = .ok t) ∧
      (¬ (b.toNat = 0 ∨ b.toNat = 1 ∨ b.toNat = 0xFF) → MeasurementHashType.tryFrom b = .err .invalidMeasurementHashType) := by
    intro b
    unfold MeasurementHashType.tryFrom
    simp only [← UInt8.toNat_inj, show UInt8.toNat 0 = 0 from rfl, show UInt8.toNat 1 = 1 from rfl, show UInt8.toNat 255 = 255 from rfl]
    constructor
    · intro h
      split
      · exact ⟨_, rfl⟩
      · split
        · exact ⟨_, rfl⟩
        · rename_i h0 h1
          have : b.toNat = 255 := by rcases h with h | h | h; exacts [absurd h h0, absurd h h1, h]
          rw [if_pos this]; exact ⟨_, rfl⟩
    · intro h
      rw [if_neg fun h' => h (.inl h'), if_neg fun h' => h (.inr (.inl h')), if_neg fun h' => h (.inr (.inr h'))]
  refine outcome_of (P := fun _ _ => True) (m := Challenge.read c) ?_
  simp only [Challenge.read, challenge, TM.of_bind, TM.of_pure, TM.of_lift]
  refine Runs.merge (m := 1) (by omega) (Runs.byte hf (Nat.zero_le _) fun _ _ h1 => Runs.byte hf h1 fun b (hb : b.toNat = num bs 1 1) h2 => ?_)
  rw [← hb]
  by_cases hp : b.toNat = 0 ∨ b.toNat = 1 ∨ b.toNat = 0xFF
  · obtain ⟨t, h⟩ := (ht b).1 hp
    rw [h]
    exact Runs.met hp (Runs.sliceFit hf h2 (Nat.le_refl _) fun _ _ => Runs.pure trivial)
  · rw [(ht b).2 hp]
    exact Runs.err rfl hp


end Spdm
