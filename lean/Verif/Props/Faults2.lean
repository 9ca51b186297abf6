import Verif.Props.Faults
/-!
# C108, continued: certificate chains, opaque data, CHALLENGE_AUTH
-/
namespace Spdm
open Spec Spec.Faults

/-- A requirement that is met can be left out. -/
theorem Runs.drop {ε α : Type} {t : TM ε Reader α} {s : Reader} {p : Prop} {f : Fault ε} {cs : Checks ε} {P : α → Reader → Prop} (hp : p)
    (h : Runs t s ((p, f) :: cs) P) : Runs t s cs P := by
  refine h.same ⟨fun hc x hx => hc x (List.mem_cons_of_mem _ hx), fun g hg => ?_⟩
  cases hg with
  | here hm => exact absurd hp hm
  | later _ hg => exact hg

theorem Runs.dieOr {ε α β : Type} {g : Err → ε} {k : PanicKind} {f : α → TM ε Reader β} {s : Reader} {cs : Checks ε} {P : β → Reader → Prop} {p : Prop} (h : ¬ p) :
    Runs (TM.of g (M.die k : M Reader α) >>= f) s (orAbort p cs) P := by
  unfold Runs
  exact First.here h

theorem TM.ite_bind {ε σ α β : Type} {c : Prop} [Decidable c] (x y : TM ε σ α) (f : α → TM ε σ β) : ((if c then x else y) >>= f) = if c then x >>= f else y >>= f := by
  split <;> rfl

/-- The remainder of a program that has failed is not run. -/
theorem Runs.failOr {ε α β : Type} {e : ε} {f : α → TM ε Reader β} {s : Reader} {cs : Checks ε} {P : β → Reader → Prop} {p : Prop} (h : ¬ p) :
    Runs ((TM.fail e : TM ε Reader α) >>= f) s (need p e cs) P := by
  unfold Runs
  exact First.here h

theorem Runs.unless' {ε α β : Type} {c p : Prop} [Decidable c] {k : TM ε Reader β} {f : α → TM ε Reader β} {e : ε} {s : Reader} {cs : Checks ε} {P : β → Reader → Prop}
    (hc : p ↔ ¬ c) (h : p → Runs k s cs P) : Runs (if c then (TM.fail e : TM ε Reader α) >>= f else k) s (need p e cs) P := by
  by_cases hx : c
  · rw [if_pos hx]; exact Runs.failOr fun hp => hc.1 hp hx
  · rw [if_neg hx]; exact Runs.met (hc.2 hx) (h (hc.2 hx))

theorem and128_iff (b : UInt8) : b.toNat < 128 ↔ b &&& 0x80 = 0 := by
  revert b
  apply forall_u8
  decide +kernel

/-! ## Certificate chains -/

namespace CertificateChain

/-- What follows `readCertSize` in the loop. -/
def after (c : Cfg) (buf : Bytes) (fuel offset : Nat) (certs : List Bytes) (p : Nat × Nat) : R (List Bytes × Nat) := do
  let r ← M.get
  if p.1 > r.remaining then M.fail .lengthMismatch
  else if p.1 = r.remaining then pure (certs, offset)
  else if certs.length = c.maxCertChainDepth then M.fail .maxDepthExceeded
  else
    let cert ← M.lift (slice buf offset (offset + p.1 + p.2))
    Reader.skipIgnored p.1
    parseLoop c buf fuel (certs ++ [cert])

end CertificateChain

open CertificateChain in
theorem runs_after {c : Cfg} {bs : Bytes} {fuel i h n : Nat} {certs : List Bytes} {next : Nat → Checks ParseCertificateChainError} (hi : i + h ≤ bs.length)
    (hd : certs.length ≤ c.maxCertChainDepth)
    (ih : ∀ l, l.length = certs.length + 1 → l.length ≤ c.maxCertChainDepth → i + h + n ≤ bs.length →
      Runs (TM.of ParseCertificateChainError.from (parseLoop c bs fuel l)) ⟨bs, i + h + n, 0⟩ (next (i + h + n)) (fun p _ => p.2 ≤ bs.length)) :
    Runs (TM.of ParseCertificateChainError.from (CertificateChain.after c bs fuel i certs (n, h))) ⟨bs, i + h, 0⟩ (contents c bs i certs.length h n next) (fun p _ => p.2 ≤ bs.length) := by
  have hf : Reads' ParseCertificateChainError.from := fun _ => rfl
  simp only [CertificateChain.after, contents, TM.of_bind, TM.of_get, TM.of_ite, TM.of_fail, TM.of_pure]
  refine Runs.get ?_
  have hr : Reader.remaining ⟨bs, i + h, 0⟩ = bs.length - (i + h) := rfl
  rw [hr]
  refine Runs.unless (by omega) fun hle => ?_
  refine Runs.cond_iff (by omega) (fun _ => Runs.pure (by dsimp only; omega)) fun hne => ?_
  refine Runs.unless (by omega) fun hlt => ?_
  have hs : slice bs i (i + n + h) = .ok ((bs.drop i).take (i + n + h - i)) := by
    unfold slice; rw [if_pos ⟨by omega, by omega⟩]
  rw [hs]
  refine Runs.lift_ok (x := Out.of ParseCertificateChainError.from (.ok _)) (by rfl) ?_
  refine Runs.drop (p := i + h + n ≤ bs.length) hle (Runs.ignore hf hi fun _ => ?_)
  exact ih _ (by simp) (by simp; omega) hle

open CertificateChain in
theorem parseLoop_eq (c : Cfg) (buf : Bytes) (fuel : Nat) (certs : List Bytes) :
    parseLoop c buf (fuel + 1) certs = (M.get >>= fun r => readCertSize >>= CertificateChain.after c buf fuel r.byteOffset certs) := rfl

open CertificateChain in
theorem runs_loop {c : Cfg} {bs : Bytes} : ∀ (fuel i : Nat) (certs : List Bytes), i ≤ bs.length → bs.length - i < fuel → certs.length ≤ c.maxCertChainDepth →
    Runs (TM.of ParseCertificateChainError.from (parseLoop c bs fuel certs)) ⟨bs, i, 0⟩ (certificates c bs fuel i certs.length) (fun p _ => p.2 ≤ bs.length)
  | 0, _, _, _, h, _ => absurd h (Nat.not_lt_zero _)
  | fuel + 1, i, certs, hi, hfu, hd => by
    have hf : Reads' ParseCertificateChainError.from := fun _ => rfl
    have ih : ∀ (h n : Nat), 2 ≤ h → ∀ l : List Bytes, l.length = certs.length + 1 → l.length ≤ c.maxCertChainDepth → i + h + n ≤ bs.length →
        Runs (TM.of ParseCertificateChainError.from (parseLoop c bs fuel l)) ⟨bs, i + h + n, 0⟩ (certificates c bs fuel (i + h + n) (certs.length + 1)) (fun p _ => p.2 ≤ bs.length) := by
      intro h n h2 l hl hm hle
      rw [← hl]
      exact runs_loop fuel (i + h + n) l hle (by omega) hm
    rw [parseLoop_eq]
    simp only [readCertSize, certificates, TM.of_bind, TM.of_get, TM.bind_assoc', TM.of_ite, TM.of_fail, TM.of_pure, TM.ite_bind]
    refine Runs.get (Runs.byte hf hi fun tag htag h1 => ?_)
    rw [← htag]
    by_cases ht : tag = 0x30
    · subst ht
      simp only [ne_eq, not_true_eq_false, if_false]
      refine Runs.met (by decide) ?_
      refine Runs.byte hf h1 fun b hb h2 => ?_
      have hb' : b.toNat = num bs (i + 1) 1 := hb
      rw [← hb']
      refine Runs.cond_iff (and128_iff b) (fun _ => ?_) fun _ => ?_
      · exact runs_after h2 hd (ih 2 b.toNat (by omega))
      refine Runs.cond_iff (by rw [← UInt8.toNat_inj]; exact Iff.rfl) (fun _ => ?_) fun _ => ?_
      · refine Runs.byte hf h2 fun m hm h3 => ?_
        have hm' : m.toNat = num bs (i + 2) 1 := hm
        rw [← hm']
        refine Runs.unless' (by rw [UInt8.lt_iff_toNat_lt]; show _ ↔ ¬ m.toNat < 128; omega) fun _ => ?_
        exact runs_after h3 hd (ih 3 m.toNat (by omega))
      refine Runs.cond_iff (by rw [← UInt8.toNat_inj]; exact Iff.rfl) (fun _ => ?_) fun _ => ?_
      · refine Runs.merge (m := i + 3) (by omega) (Runs.byte hf h2 fun m hm h3 => ?_)
        refine Runs.byte hf h3 fun l hl h4 => ?_
        have hm' : m.toNat = num bs (i + 2) 1 := hm
        have hl' : l.toNat = num bs (i + 3) 1 := hl
        have hv : m.toNat <<< 8 ||| l.toNat = 256 * m.toNat + l.toNat := by
          have := l.toNat_lt
          rw [← Nat.shiftLeft_add_eq_or_of_lt (by omega), Nat.shiftLeft_eq]; omega
        rw [← hm', ← hl', hv]
        refine Runs.unless' (by omega) fun _ => ?_
        exact runs_after h4 hd (ih 4 _ (by omega))
      · exact Runs.failOr id
    · rw [if_pos ht]
      exact Runs.dieOr fun h => ht (UInt8.toNat_inj.1 h)

/-- A certificate chain. -/
theorem c108_chain (c : Cfg) (size : Nat) (bs : Bytes) : Outcome (chain c size bs) (Out.of ParseCertificateChainError.from (CertificateChain.parse c bs size)) := by
  have hf : Reads' ParseCertificateChainError.from := fun _ => rfl
  refine outcome_of (P := fun _ _ => True) (m := CertificateChain.read c bs size) ?_
  simp only [CertificateChain.read, chain, TM.of_bind, TM.of_pure, TM.of_ite, TM.of_fail, TM.of_get]
  refine Runs.u16 hf fun l (hl : l.toNat = num bs 0 2) h2 => ?_
  rw [← hl]
  refine Runs.unless (by omega) fun _ => Runs.skip hf h2 fun h4 => Runs.get ?_
  refine Runs.ignore hf h4 fun h5 => ?_
  have hs : CertificateChain.slice bs 4 (4 + size) = .ok ((bs.drop 4).take (4 + size - 4)) := by
    unfold CertificateChain.slice; rw [if_pos ⟨by omega, h5⟩]
  show Runs (TM.of _ (M.lift (CertificateChain.slice bs 4 (4 + size))) >>= _) _ _ _
  rw [hs]
  refine Runs.lift_ok (x := Out.of ParseCertificateChainError.from (.ok _)) (by rfl) ?_
  refine Runs.last (runs_loop (bs.length + 1) (4 + size) [] h5 (by omega) (Nat.zero_le _)) fun p s hp _ => ?_
  have : sliceFrom bs p.2 = .ok (bs.drop p.2) := by unfold sliceFrom; rw [if_pos hp]
  rw [this]
  exact Runs.lift_ok (x := Out.of ParseCertificateChainError.from (.ok _)) (by rfl) (Runs.pure trivial)

/-! ## Opaque data -/

theorem runs_vendorId {bs : Bytes} {i : Nat} {len : UInt8} (hi : i ≤ bs.length) :
    Runs (VendorId.readT len) ⟨bs, i, 0⟩ (vendorId bs i len.toNat) (fun _ s => s = ⟨bs, i + len.toNat, 0⟩ ∧ i + len.toNat ≤ bs.length) := by
  have hf : Reads' (fromRead ParseVendorIdError.read) := fun _ => rfl
  unfold VendorId.readT vendorId
  by_cases h0 : len = 0
  · subst h0
    rw [if_pos rfl]
    exact Runs.met (.inl rfl) (Runs.met (by simpa using hi) (Runs.pure ⟨rfl, hi⟩))
  rw [if_neg h0]
  by_cases h2 : len = 2
  · subst h2
    rw [if_pos rfl]
    exact Runs.met (.inr (.inl rfl)) (Runs.u16 hf fun _ _ h => Runs.pure ⟨rfl, h⟩)
  rw [if_neg h2]
  by_cases h4 : len = 4
  · subst h4
    rw [if_pos rfl]
    exact Runs.met (.inr (.inr rfl)) (Runs.u32 hf fun _ _ h => Runs.pure ⟨rfl, h⟩)
  rw [if_neg h4]
  refine Runs.fail ?_
  rintro (h | h | h)
  · exact h0 (UInt8.toNat_inj.1 h)
  · exact h2 (UInt8.toNat_inj.1 h)
  · exact h4 (UInt8.toNat_inj.1 h)

theorem registry_table (b : UInt8) : (b.toNat ≤ 8 → ∃ id, VendorRegistryId.tryFrom b = some id ∧ id.vendorIdLen.toNat = idLen b.toNat) ∧
    (¬ b.toNat ≤ 8 → VendorRegistryId.tryFrom b = none) := by
  constructor
  · revert b; apply forall_u8; intro n h
    have : ∀ n : Fin 256, (UInt8.ofNat n.val).toNat ≤ 8 → (VendorRegistryId.tryFrom (UInt8.ofNat n.val)).any (fun id => id.vendorIdLen.toNat = idLen (UInt8.ofNat n.val).toNat) = true := by decide +kernel
    have := this n h
    cases e : VendorRegistryId.tryFrom (UInt8.ofNat n.val) with
    | none => rw [e] at this; cases this
    | some id => rw [e] at this; exact ⟨id, rfl, by simpa using this⟩
  · revert b; apply forall_u8; decide +kernel

theorem runs_element {c : Cfg} {bs : Bytes} {i : Nat} (hi : i ≤ bs.length) :
    Runs (OpaqueElement.readT c) ⟨bs, i, 0⟩ (element c bs i) (fun _ s => s = ⟨bs, elementEnd bs i, 0⟩ ∧ elementEnd bs i ≤ bs.length) := by
  have hf : Reads' (fromRead ParseOpaqueElementError.read) := fun _ => rfl
  simp only [OpaqueElement.readT, element]
  refine Runs.byte hf hi fun b hb h1 => ?_
  rw [← hb]
  by_cases hr : b.toNat ≤ 8
  · obtain ⟨id, hid, hlen⟩ := (registry_table b).1 hr
    refine Runs.met hr ?_
    rw [hid]
    refine Runs.byte hf h1 fun v hv h2 => ?_
    have hv' : v.toNat = num bs (i + 1) 1 := hv
    rw [← hv', ← hlen]
    refine Runs.when UInt8.toNat_inj fun _ => ?_
    refine Runs.via (runs_vendorId h2) fun vid s hs _ => ?_
    obtain ⟨rfl, h3⟩ := hs
    have e1 : i + 4 + v.toNat = i + 1 + 1 + v.toNat + 2 := by omega
    rw [e1]
    refine Runs.u16 hf fun d hd h4 => ?_
    have hd' : d.toNat = num bs (i + 2 + v.toNat) 2 := hd
    have hsz : elementSize bs i = 4 + v.toNat + d.toNat := by unfold elementSize; rw [← hv', ← hd']
    have hend : elementEnd bs i = i + 1 + 1 + v.toNat + 2 + d.toNat + OpaqueElement.padding (4 + v.toNat + d.toNat) := by
      unfold elementEnd paddingOf OpaqueElement.padding
      rw [hsz]
      split <;> omega
    have hpad : paddingOf (elementSize bs i) = OpaqueElement.padding (4 + v.toNat + d.toNat) := by
      unfold paddingOf OpaqueElement.padding
      rw [hsz]
      split <;> omega
    rw [← hd', hpad, hend, hsz, show i + (4 + v.toNat + d.toNat) = i + 1 + 1 + v.toNat + 2 + d.toNat by omega]
    refine Runs.slice hf h4 fun _ _ h5 => Runs.skip hf h5 fun h6 => Runs.pure ⟨rfl, h6⟩
  · rw [(registry_table b).2 hr]
    exact Runs.fail hr

theorem runs_elements {c : Cfg} {bs : Bytes} : ∀ (n k i : Nat) (es : List OpaqueElement), i ≤ bs.length → es.length = c.maxOpaqueElements →
    Runs (OpaqueData.readElementsT c n k es) ⟨bs, i, 0⟩ (elements c bs n k i) (fun _ s => s = ⟨bs, elementsEnd bs n i, 0⟩ ∧ elementsEnd bs n i ≤ bs.length)
  | 0, k, i, es, hi, _ => Runs.pure ⟨rfl, hi⟩
  | n + 1, k, i, es, hi, he => by
    simp only [OpaqueData.readElementsT, elements, elementsEnd]
    refine Runs.via (runs_element hi) fun e s hs _ => ?_
    obtain ⟨rfl, h1⟩ := hs
    exact Runs.indexOr he fun l hl => runs_elements n (k + 1) _ l h1 hl

theorem runs_opaque {c : Cfg} {bs : Bytes} {i : Nat} (hi : i ≤ bs.length) :
    Runs (OpaqueData.readT c) ⟨bs, i, 0⟩ (opaqueData c bs i) (fun _ s => s = ⟨bs, opaqueEnd bs i, 0⟩ ∧ opaqueEnd bs i ≤ bs.length) := by
  have hf : Reads' (fromRead ParseOpaqueDataError.read) := fun _ => rfl
  simp only [OpaqueData.readT, opaqueData, opaqueEnd]
  refine Runs.byte hf hi fun b hb h1 => Runs.skip hf h1 fun h4 => ?_
  rw [← hb]
  exact Runs.last (runs_elements b.toNat 0 (i + 4) _ h4 (by simp [OpaqueData.dflt])) fun _ _ hs _ => Runs.pure hs

/-! ## CHALLENGE_AUTH -/

/-- CHALLENGE_AUTH. -/
theorem c108_challengeAuth (c : Cfg) (size sig : Nat) (bs : Bytes) : Outcome (challengeAuth c size sig bs) (ChallengeAuth.parseBodyT c bs size sig) := by
  have hf : Reads' (fromRead ParseChallengeAuthError.read) := fun _ => rfl
  refine Runs.outcome (P := fun _ _ => True) (s := ⟨bs, 0, 0⟩) ?_
  simp only [ChallengeAuth.readT, challengeAuth, Nonce.read, Reader.getBit]
  refine Runs.bits hf (Nat.zero_le _) (.inl rfl) (by omega) (by omega) (by omega) fun sl hsl h1 => ?_
  have hsl' : sl.toNat = num bs 0 1 % 16 := by rw [hsl]; show num bs 0 1 / 1 % 16 = _; rw [Nat.div_one]
  rw [← hsl']
  refine Runs.unless (by omega) fun _ => ?_
  refine Runs.moreBits hf h1 (by omega) (by omega) (by omega) fun _ _ => Runs.moreBits hf h1 (by omega) (by omega) (by omega) fun _ _ => ?_
  refine Runs.merge (m := 2) (n := 4 + 2 * size + c.nonceSize) (by omega) (Runs.byte hf h1 fun m hm h2 => ?_)
  refine Runs.merge (m := 2 + size) (n := 4 + 2 * size + c.nonceSize) (by omega) (Runs.sliceFit hf h2 (Nat.le_refl _) fun _ h3 => ?_)
  refine Runs.merge (m := 2 + size + c.nonceSize) (n := 4 + 2 * size + c.nonceSize) (by omega) (Runs.sliceFit hf h3 (Nat.le_refl _) fun _ h4 => ?_)
  refine Runs.merge (m := 2 + size + c.nonceSize + size) (n := 4 + 2 * size + c.nonceSize) (by omega) (Runs.sliceFit hf h4 (Nat.le_refl _) fun _ h5 => ?_)
  rw [show 4 + 2 * size + c.nonceSize = 2 + size + c.nonceSize + size + 2 by omega, show 2 + 2 * size + c.nonceSize = 2 + size + c.nonceSize + size by omega]
  refine Runs.u16 hf fun o ho h6 => ?_
  have ho' : o.toNat = num bs (2 + size + c.nonceSize + size) 2 := ho
  rw [← ho']
  refine Runs.unless (by show _ ↔ ¬ 1024 < o.toNat; omega) fun _ => ?_
  refine Runs.via (runs_opaque h6) fun _ s hs _ => ?_
  obtain ⟨rfl, h7⟩ := hs
  exact Runs.sliceFit hf h7 (Nat.le_refl _) fun _ _ => Runs.pure trivial

/-! ## GET_MEASUREMENTS -/

/-- GET_MEASUREMENTS. -/
theorem c108_getMeasurements (c : Cfg) (bs : Bytes) : Outcome (getMeasurements c bs) (Out.of ParseGetMeasurementsError.from (GetMeasurements.parseBody c bs)) := by
  have hf : Reads' ParseGetMeasurementsError.from := fun _ => rfl
  refine outcome_of (P := fun _ _ => True) (m := GetMeasurements.read c) ?_
  simp only [GetMeasurements.read, getMeasurements, TM.of_bind, TM.of_pure, TM.of_ite, TM.of_fail, Reader.getBit, Nonce.read]
  refine Runs.bits hf (Nat.zero_le _) (.inl rfl) (by omega) (by omega) (by omega) fun b0 hb0 h1 => ?_
  refine Runs.moreBits hf h1 (by omega) (by omega) (by omega) fun b1 _ => Runs.moreBits hf h1 (by omega) (by omega) (by omega) fun rs hrs => ?_
  refine Runs.unless ?_ fun _ => ?_
  · rw [ne_eq, Decidable.not_not, ← UInt8.toNat_inj, hrs]
    show num bs 0 1 < 4 ↔ num bs 0 1 / 4 % 64 = 0
    have := num_lt bs 0 1
    omega
  refine Runs.byte hf h1 fun ix _ h2 => ?_
  refine Runs.cond_iff ?_ (fun _ => ?_) fun _ => Runs.pure trivial
  · rw [← UInt8.toNat_inj, hb0]
    show _ ↔ num bs 0 1 / 1 % 2 = 1
    rw [Nat.div_one]
  · rw [show 3 + c.nonceSize = 2 + c.nonceSize + 1 by omega]
    refine Runs.merge (m := 2 + c.nonceSize) (by omega) (Runs.sliceFit hf h2 (Nat.le_refl _) fun _ h3 => Runs.byte hf h3 fun s hs _ => ?_)
    have hs' : s.toNat = num bs (2 + c.nonceSize) 1 := hs
    rw [← hs']
    exact Runs.unless (by omega) fun _ => Runs.pure trivial

end Spdm
