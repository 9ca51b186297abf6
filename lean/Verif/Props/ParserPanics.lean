import Verif.Lemmas.PInv
import Verif.Lemmas.ChainInv
import Verif.Lemmas.Chain
/-!
# C83: exactly which bytes abort a parser
-/
namespace Spdm
open Spec

/-! ### Opaque data -/

/-- The bytes of an element with more data than fit. -/
def BigElement (c : Cfg) (bs : Bytes) : Prop :=
  ∃ (id : VendorRegistryId) (v : VendorId) (d : Bytes), Wire.vendorIdLen v = Wire.registryIdLen id ∧ c.maxOpaqueElementDataSize < d.length ∧ d.length < 65536 ∧
    bs = [Wire.registry id] ++ Wire.vendorId v ++ le 2 d.length ++ d

theorem OpaqueElement.pinv (c : Cfg) : PInv (OpaqueElement.read c) (BigElement c) := by
  unfold OpaqueElement.read
  refine (PInv.then_ Safe.getByte Inverts.getByte (S := fun b bs => BigElement c ([b] ++ bs)) fun b => ?_).mono ?_
  · cases hid : VendorRegistryId.tryFrom b with
    | none => exact PInv.safe (Safe.fail _) _
    | some id =>
      refine (PInv.then_ Safe.getByte Inverts.getByte fun vlen => PInv.then_ (Safe.lift (by unfold OpaqueElement.ensureVendorIdLen; split <;> rfl)) (Inverts.lift _) fun _ =>
        PInv.then_ (VendorId.safe _) (VendorId.inverts _) fun vid => PInv.then_ Safe.getU16 Inverts.getU16 fun dlen =>
        PInv.bind (PInv.getSlice _ _) (Inverts.getSlice _ _) fun d => PInv.safe ((Safe.skipReserved _).bind fun _ => Safe.pure _) (fun _ => False)).mono ?_
      rintro bs ⟨_, _, vlen, rfl, rfl, _, _, _, rfl, ⟨rfl, hv⟩, w, _, vid, rfl, ⟨hw, hw2⟩, _, _, dlen, rfl, rfl, h⟩
      rcases h with ⟨h1, h2⟩ | ⟨_, _, _, _, _, h⟩
      · rename_i d
        have hlt := dlen.toNat_lt
        refine ⟨id, vid, d, by rw [hw2, idlen_inv hv], by omega, by omega, ?_⟩
        rw [← hw, h1, registry_inv hid]; simp
      · exact h.elim
  · rintro bs ⟨_, _, b, rfl, rfl, h⟩; exact h

theorem OpaqueElement.panics {c : Cfg} {bs : Bytes} (h : BigElement c bs) : Panics (OpaqueElement.read c) bs := by
  obtain ⟨id, v, d, hv, hd, h16, rfl⟩ := h
  obtain ⟨w, h1, h2, h3⟩ := VendorId.wire_split v
  rw [h1]
  refine Panics.congr (bs := [Wire.registry id] ++ ([UInt8.ofNat (Wire.vendorIdLen v)] ++ ([] ++ (w ++ (le 2 (UInt16.ofNat d.length).toNat ++ d))))) ?_
    (by rw [ofNat_toNat16 h16]; simp)
  unfold OpaqueElement.read
  refine (Reads.getByte _).then_panics ?_
  have hid : VendorRegistryId.tryFrom (Wire.registry id) = some id := by cases id <;> rfl
  rw [hid]
  refine (Reads.getByte _).then_panics ?_
  have hen : OpaqueElement.ensureVendorIdLen (UInt8.ofNat (Wire.vendorIdLen v)) id = .ok () := by
    rw [hv]; cases id <;> rfl
  rw [hen]
  refine (Reads.pure (a := ())).then_panics (h3.then_panics ((Reads.le16 _).then_panics (Panics.bind ?_)))
  exact Panics.getSlice (by rw [ofNat_toNat16 h16]; exact hd) _ (by rw [ofNat_toNat16 h16])

theorem flat_fst {α : Type} {wire : α → Bytes} (ys : List (Bytes × α)) (h : ∀ y ∈ ys, y.1 = wire y.2) : (ys.map Prod.fst).flatten = (ys.map Prod.snd).flatMap wire := by
  induction ys with
  | nil => rfl
  | cons y ys ih => simp only [List.map_cons, List.flatten_cons, List.flatMap_cons]; rw [h y (by simp), ih fun z hz => h z (by simp [hz])]

theorem OpaqueData.pinv (c : Cfg) : PInv (OpaqueData.read c) (OpaqueOverflow c) := by
  unfold OpaqueData.read
  refine (PInv.then_ Safe.getByte Inverts.getByte fun total => PInv.then_ (Safe.skipReserved 3) (Inverts.skipReserved 3) fun _ =>
    PInv.bind (pinv_array (f := id) (fun _ _ => rfl) (fun _ _ _ => rfl) (OpaqueElement.inverts c) (OpaqueElement.pinv c) _ 0 _ (by simp))
      (inverts_array (chk := fun _ => .ok ()) (fun _ _ => rfl) (fun _ _ _ => rfl) (OpaqueElement.inverts c) _ 0 _ (by simp)) fun _ => PInv.safe (Safe.pure _) (fun _ => False)).mono ?_
  rintro bs ⟨_, _, total, rfl, rfl, _, w, _, rfl, rfl, h⟩
  rcases h with h | ⟨_, _, _, _, _, h⟩
  · simp only [OpaqueData.dflt, List.length_replicate, Nat.zero_add] at h
    rcases h with ⟨xs, w, k1, k2, k3, rfl, id, v, d, g1, g2, g3, rfl⟩ | ⟨xs, k1, k2, k3, rfl⟩
    · rw [flat_fst (wire := Wire.opaqueElement) xs fun x hx => (k3 x hx).1]
      have := OpaqueOverflow.data (c := c) (count := total) (es := xs.map Prod.snd) (id := id) (v := v) (d := d) (by simpa using k1) (by simpa using k2)
        (by intro e he; obtain ⟨x, hx, rfl⟩ := List.mem_map.mp he; exact (k3 x hx).2) g1 g2 g3
      simpa using this
    · rw [flat_fst (wire := Wire.opaqueElement) xs fun x hx => (k3 x hx).1]
      have := OpaqueOverflow.count (c := c) (count := total) (es := xs.map Prod.snd) (by simpa using k1) (by simpa using k2)
        (by intro e he; obtain ⟨x, hx, rfl⟩ := List.mem_map.mp he; exact (k3 x hx).2)
      simpa using this
  · exact h.elim

theorem OpaqueData.panics_of {c : Cfg} {bs : Bytes} (h : OpaqueOverflow c bs) : Panics (OpaqueData.read c) bs := by
  unfold OpaqueData.read
  cases h with
  | data hc hm he hv hd h16 =>
    rename_i count es id v d
    refine Panics.congr (bs := [count] ++ (zeros 3 ++ (es.flatMap Wire.opaqueElement ++ ([Wire.registry id] ++ Wire.vendorId v ++ le 2 d.length ++ d)))) ?_ (by simp)
    refine (Reads.getByte _).then_panics ((Reads.zeros 3).then_panics (Panics.bind ?_))
    exact panics_array (f := (fun x => x)) (loop := OpaqueData.readElements c) (fun _ _ _ => rfl) es (fun a ha => OpaqueElement.reads (he a ha)) (OpaqueElement.panics ⟨_, _, _, hv, hd, h16, rfl⟩) _ 0 _ hc
      (by simpa [OpaqueData.dflt] using hm)
  | count hc hm he =>
    rename_i count es
    refine Panics.congr (bs := [count] ++ (zeros 3 ++ es.flatMap Wire.opaqueElement)) ?_ (by simp)
    refine (Reads.getByte _).then_panics ((Reads.zeros 3).then_panics (Panics.bind ?_))
    exact panics_array_full (f := (fun x => x)) (loop := OpaqueData.readElements c) (fun _ _ _ => rfl) es (fun a ha => OpaqueElement.reads (he a ha)) _ 0 _ hc
      (by simpa [OpaqueData.dflt] using hm) (by simp)

/-! ### CHALLENGE_AUTH -/

theorem ChallengeAuth.pinv (c : Cfg) (x : Ctx) : PInv (ChallengeAuth.read c x.digestSize x.sigSize) (BodyAborts c x .challengeAuth) := by
  unfold ChallengeAuth.read Nonce.read
  refine (PInv.start (by omega) (PInvB.bits (by omega) (by omega) fun slot => PInvB.guard fun _ => PInvB.bits (by omega) (by omega) fun _ =>
    PInvB.last (by omega) (by omega) (by omega) fun bit => PInv.then_ Safe.getByte Inverts.getByte fun mask => PInv.then_ (Safe.getSlice (Nat.le_refl _)) (Inverts.getSlice _ _) fun cch =>
    PInv.then_ (Safe.getSlice (Nat.le_refl _)) (Inverts.getSlice _ _) fun nonce => PInv.then_ (Safe.getSlice (Nat.le_refl _)) (Inverts.getSlice _ _) fun msh =>
    PInv.then_ Safe.getU16 Inverts.getU16 fun olen => PInv.guard fun _ =>
    PInv.bind (OpaqueData.pinv c) (OpaqueData.inverts c) fun od => PInv.safe ((Safe.getSlice (Nat.le_refl _)).bind fun sig => Safe.pure _) (fun _ => False))).mono ?_
  rintro bs ⟨b, _, rfl, hs, _, _, mask, rfl, rfl, cch, _, _, rfl, ⟨rfl, h1, _⟩, nonce, _, _, rfl, ⟨rfl, h2, _⟩, msh, _, _, rfl, ⟨rfl, h3, _⟩,
    _, od, olen, rfl, rfl, ho, h⟩
  rcases h with h | ⟨_, _, _, _, _, h⟩
  · simp only [maxOpaqueDataSize] at ho
    have := BodyAborts.challengeAuth (c := c) (x := x) (b := b) (mask := mask) (len := olen.toNat) (by rw [← (auth_bits b).1]; omega) h1 h2 h3 (by omega) h
    simpa using this
  · exact h.elim

theorem ChallengeAuth.panics_of {c : Cfg} {x : Ctx} {bs : Bytes} (h : BodyAborts c x .challengeAuth bs) : Panics (ChallengeAuth.read c x.digestSize x.sigSize) bs := by
  cases h with
  | challengeAuth hs h1 h2 h3 hl ho =>
    rename_i b mask hash nonce sum od len
    intro pre suf
    unfold ChallengeAuth.read Nonce.read
    obtain ⟨a1, a2⟩ := auth_bits b
    have g1 := getBits_run pre (([mask] ++ (hash ++ (nonce ++ (sum ++ (le 2 (UInt16.ofNat len).toNat ++ od))))) ++ suf) b 0 4 (by omega) (by omega) (by omega)
    have g2 := getBits_run pre (([mask] ++ (hash ++ (nonce ++ (sum ++ (le 2 (UInt16.ofNat len).toNat ++ od))))) ++ suf) b 4 3 (by omega) (by omega) (by omega)
    have g3 := getBits_run pre (([mask] ++ (hash ++ (nonce ++ (sum ++ (le 2 (UInt16.ofNat len).toNat ++ od))))) ++ suf) b 7 1 (by omega) (by omega) (by omega)
    rw [if_neg (by omega)] at g1 g2
    rw [if_pos (by omega)] at g3
    change Reader.getBit _ = _ at g3
    have hP : Panics (do
        let mask ← Reader.getByte
        let cch ← Reader.getSlice x.digestSize x.digestSize
        let nonce ← Reader.getSlice c.nonceSize c.nonceSize
        let msh ← Reader.getSlice x.digestSize x.digestSize
        let olen ← Reader.getU16
        if olen.toNat > maxOpaqueDataSize then M.fail .maxOpaqueDataSizeExceeded
        else
          let od ← OpaqueData.read c
          let sig ← Reader.getSlice x.sigSize x.sigSize
          pure (⟨bitField b 0 4, mask, bitField b 7 1 == 1, cch, nonce, msh, od, sig⟩ : ChallengeAuth)) ([mask] ++ (hash ++ (nonce ++ (sum ++ (le 2 (UInt16.ofNat len).toNat ++ od))))) := by
      refine (Reads.getByte _).then_panics ((Reads.getSlice _ h1 (Nat.le_refl _)).then_panics ((Reads.getSlice _ h2 (Nat.le_refl _)).then_panics
        ((Reads.getSlice _ h3 (Nat.le_refl _)).then_panics ((Reads.le16 _).then_panics ?_))))
      rw [ofNat_toNat16 (by omega), if_neg (by simp only [maxOpaqueDataSize]; omega)]
      exact Panics.bind (OpaqueData.panics_of ho)
    have e : pre ++ ([b, mask] ++ hash ++ nonce ++ sum ++ le 2 len ++ od ++ suf) =
        pre ++ b :: (([mask] ++ (hash ++ (nonce ++ (sum ++ (le 2 (UInt16.ofNat len).toNat ++ od))))) ++ suf) := by rw [ofNat_toNat16 (by omega)]; simp
    rw [e, M.run_bind_ok g1, if_neg (by omega), M.run_bind_ok g2, M.run_bind_ok (by exact g3)]
    have := hP (pre ++ [b]) suf
    simpa using this

/-! ### MEASUREMENTS -/

theorem MeasurementBlocks.pinv (c : Cfg) : PInv (MeasurementBlocks.read c) (fun w => ∃ (num : UInt8) (size : Nat) (bs : List MeasurementBlock),
    size ≤ c.maxMeasurementSize * c.maxMeasurementBlocks ∧ size < 2 ^ 24 ∧ bs.length ≤ num.toNat ∧ bs.length = c.maxMeasurementBlocks + 1 ∧ (∀ y ∈ bs, BlockWF c y) ∧
    w = [num] ++ le 3 size ++ bs.flatMap Wire.measurementBlock) := by
  unfold MeasurementBlocks.read
  refine (PInv.then_ Safe.getByte Inverts.getByte fun num => PInv.then_ Safe.getU24 Inverts.getU24 fun size => PInv.guard
    (Q := fun bs => (∃ xs : List (Bytes × MeasurementBlock), xs.length ≤ num.toNat ∧ xs.length = c.maxMeasurementBlocks + 1 ∧
      (∀ x ∈ xs, x.1 = Wire.measurementBlock x.2 ∧ BlockWF c x.2) ∧ bs = (xs.map Prod.fst).flatten)) fun _ => ?_).mono ?_
  · refine (PInv.measured (pinv_array (f := some) (fun _ _ => rfl) (fun _ _ _ => rfl) (MeasurementBlock.inverts c) (PInv.safe (MeasurementBlock.safe c) (fun _ => False)) _ 0 _ (by simp))
      fun a r => rfl).mono ?_
    rintro bs (⟨_, _, _, _, _, _, h⟩ | ⟨xs, k1, k2, k3, k4⟩)
    · exact h.elim
    · exact ⟨xs, k1, by simpa [MeasurementBlocks.dflt] using k2, k3, k4⟩
  · rintro bs ⟨_, _, num, rfl, rfl, _, w, size, rfl, ⟨rfl, h24⟩, hmax, xs, k1, k2, k3, rfl⟩
    refine ⟨num, size, xs.map Prod.snd, by omega, h24, by simpa using k1, by simpa using k2, ?_, ?_⟩
    · intro e he; obtain ⟨x, hx, rfl⟩ := List.mem_map.mp he; exact (k3 x hx).2
    · rw [flat_fst (wire := Wire.measurementBlock) xs fun x hx => (k3 x hx).1]; simp

theorem MeasurementBlocks.panics_of {c : Cfg} {num : UInt8} {size : Nat} {bs : List MeasurementBlock} (hz : size ≤ c.maxMeasurementSize * c.maxMeasurementBlocks) (h24 : size < 2 ^ 24)
    (hn : bs.length ≤ num.toNat) (hm : bs.length = c.maxMeasurementBlocks + 1) (hb : ∀ y ∈ bs, BlockWF c y) :
    Panics (MeasurementBlocks.read c) ([num] ++ (le 3 size ++ bs.flatMap Wire.measurementBlock)) := by
  unfold MeasurementBlocks.read
  refine (Reads.getByte _).then_panics ((Reads.le24 _ h24).then_panics ?_)
  rw [if_neg (by omega)]
  intro pre suf
  rw [M.run_bind_ok (M.run_get _)]
  exact Panics.bind (panics_array_full (f := some) (loop := MeasurementBlocks.readLoop c) (fun _ _ _ => rfl) bs (fun a ha => MeasurementBlock.reads (hb a ha)) _ 0 _ hn
    (by simpa [MeasurementBlocks.dflt] using hm) (by simp)) pre suf

theorem cc_safe {v : UInt8} : (ContentChanged.tryFrom v).isPanic = false := by unfold ContentChanged.tryFrom; (repeat' split) <;> rfl

theorem cc_good (v : UInt8) (h : v.toNat < 4) : (∃ cc, ContentChanged.tryFrom v = .ok cc) ↔ v.toNat ≠ 3 := by
  have hv : ∀ k : Nat, v.toNat = k → v = UInt8.ofNat k := by intro k hk; rw [← hk]; simp
  obtain h | h | h | h : v.toNat = 0 ∨ v.toNat = 1 ∨ v.toNat = 2 ∨ v.toNat = 3 := by omega
  · rw [hv 0 h]; exact ⟨fun _ => by decide, fun _ => ⟨_, rfl⟩⟩
  · rw [hv 1 h]; exact ⟨fun _ => by decide, fun _ => ⟨_, rfl⟩⟩
  · rw [hv 2 h]; exact ⟨fun _ => by decide, fun _ => ⟨_, rfl⟩⟩
  · rw [hv 3 h]; exact ⟨fun ⟨_, h⟩ => by simp [ContentChanged.tryFrom] at h, fun h => absurd rfl h⟩

theorem Measurements.pinv (c : Cfg) (x : Ctx) : PInv (Measurements.read c x.sigRequested x.sigSize) (BodyAborts c x .measurements) := by
  unfold Measurements.read Nonce.read
  refine (PInv.then_ Safe.getByte Inverts.getByte fun total => PInv.guard fun _ => PInv.start (by omega) (PInvB.bits (by omega) (by omega) fun slot => PInvB.guard fun _ =>
    PInvB.bits (by omega) (by omega) fun ccb => PInvB.lift_bind cc_safe fun cc => PInvB.dropLast <| PInv.bind (MeasurementBlocks.pinv c) (MeasurementBlocks.inverts c) fun blocks =>
    PInv.then_ (Safe.getSlice (Nat.le_refl _)) (Inverts.getSlice _ _) fun nonce => PInv.then_ Safe.getU16 Inverts.getU16 fun olen => PInv.guard fun _ =>
    PInv.bind (OpaqueData.pinv c) (OpaqueData.inverts c) (S := fun _ _ => False) fun od => PInv.safe ?_ _)).mono ?_
  · exact Safe.ite (fun _ => (Safe.getSlice (Nat.le_refl _)).bind fun sig => Safe.pure _) fun _ => Safe.pure _
  rintro bs ⟨_, _, total, rfl, rfl, ht, p2, _, rfl, hs, cc, hcc, h⟩
  obtain ⟨m1, m2⟩ := meas_bits p2
  rw [not_lt, m1] at hs
  have h3 := (cc_good _ (by rw [m2]; omega)).mp ⟨cc, hcc⟩
  rw [m2] at h3
  rcases h with ⟨num, size, bs, g1, g2, g3, g4, g5, rfl⟩ | ⟨_, _, blocks, rfl, ⟨rfl, hb, hb1, hb2⟩, nonce, _, _, rfl, ⟨rfl, hn, _⟩, _, od, olen, rfl, rfl, ho, h⟩
  · have := BodyAborts.blocks (c := c) (x := x) (total := total) (by omega) hs h3 g1 g2 g3 g4 g5
    simpa using this
  · rcases h with h | ⟨_, _, _, _, _, h⟩
    · simp only [maxOpaqueDataSize] at ho
      have := BodyAborts.measurements (c := c) (x := x) (total := total) (b := p2) (len := olen.toNat) (by omega) hs h3 hb hb1 hb2 hn (by omega) h
      simpa using this
    · exact h.elim

/-- The part of the parser before the blocks. -/
theorem Measurements.panics_head {c : Cfg} {x : Ctx} {total b : UInt8} {bs : Bytes} (ht : total.toNat ≤ c.maxMeasurementBlocks) (hs : b.toNat % 16 ≤ c.numSlots) (hcc : b.toNat / 16 % 4 ≠ 3)
    (h : ∀ cc slot, Panics (do
      let blocks ← MeasurementBlocks.read c
      let nonce ← Nonce.read c
      let olen ← Reader.getU16
      if olen.toNat > maxOpaqueDataSize then M.fail .maxOpaqueDataSizeExceeded
      else
        let od ← OpaqueData.read c
        if x.sigRequested then
          let s ← Reader.getSlice x.sigSize x.sigSize
          pure (⟨total, cc, slot, blocks, nonce, od, some s⟩ : Measurements)
        else pure (⟨total, cc, slot, blocks, nonce, od, none⟩ : Measurements)) bs) :
    Panics (Measurements.read c x.sigRequested x.sigSize) ([total] ++ ([b] ++ bs)) := by
  unfold Measurements.read
  refine (Reads.getByte _).then_panics ?_
  rw [if_neg (by omega)]
  intro pre suf
  obtain ⟨m1, m2⟩ := meas_bits b
  obtain ⟨cc, hc⟩ := (cc_good _ (by rw [m2]; omega)).mpr (by rw [m2]; exact hcc)
  have g1 := getBits_run pre (bs ++ suf) b 0 4 (by omega) (by omega) (by omega)
  have g2 := getBits_run pre (bs ++ suf) b 4 2 (by omega) (by omega) (by omega)
  rw [if_neg (by omega)] at g1 g2
  have e : pre ++ ([b] ++ bs ++ suf) = pre ++ b :: (bs ++ suf) := by simp
  rw [e, M.run_bind_ok g1, if_neg (by omega), M.run_bind_ok g2, hc]
  have hl : (M.lift (.ok cc) : R ContentChanged) ⟨pre ++ b :: (bs ++ suf), pre.length, 4 + 2⟩ = (.ok cc, ⟨pre ++ b :: (bs ++ suf), pre.length, 4 + 2⟩) := rfl
  rw [M.run_bind_ok hl, dropResult_run]
  have := h cc (bitField b 0 4) (pre ++ [b]) suf
  simpa using this

theorem Measurements.panics_of {c : Cfg} {x : Ctx} {bs : Bytes} (h : BodyAborts c x .measurements bs) : Panics (Measurements.read c x.sigRequested x.sigSize) bs := by
  cases h with
  | blocks ht hs hcc hz h24 hn hm hb =>
    refine Panics.congr (Measurements.panics_head ht hs hcc fun cc slot => Panics.bind (MeasurementBlocks.panics_of hz h24 hn hm hb)) (by simp)
  | measurements ht hs hcc hb hz h24 h2 hl ho =>
    rename_i total b m nonce od len
    refine Panics.congr (Measurements.panics_head ht hs hcc (bs := Wire.measurementBlocks m ++ (nonce ++ (le 2 (UInt16.ofNat len).toNat ++ od))) fun cc slot => ?_)
      (by rw [ofNat_toNat16 (by omega)]; simp)
    unfold Nonce.read
    refine (MeasurementBlocks.reads hb hz h24).then_panics ((Reads.getSlice _ h2 (Nat.le_refl _)).then_panics ((Reads.le16 _).then_panics ?_))
    rw [ofNat_toNat16 (by omega), if_neg (by simp only [maxOpaqueDataSize]; omega)]
    exact Panics.bind (OpaqueData.panics_of ho)

/-! ### Certificate chains -/

namespace CertificateChain

theorem readCertSize_pinv : PInv readCertSize (fun bs => ∃ tag, tag ≠ 0x30 ∧ bs = [tag]) := by
  unfold readCertSize
  refine (PInv.then_ Safe.getByte Inverts.getByte (S := fun tag bs => tag ≠ 0x30 ∧ bs = []) fun tag => ?_).mono ?_
  · by_cases ht : tag ≠ 0x30
    · intro pre tail _
      exact ⟨[], tail, rfl, ht, rfl⟩
    · rw [if_neg ht]
      exact PInv.safe (Safe.getByte.bind fun n => Safe.ite (fun _ => Safe.pure _) fun _ => Safe.ite (fun _ => Safe.getByte.bind fun _ => Safe.ite (fun _ => Safe.fail _) fun _ => Safe.pure _) fun _ =>
        Safe.ite (fun _ => Safe.getByte.bind fun _ => Safe.getByte.bind fun _ => Safe.ite (fun _ => Safe.fail _) fun _ => Safe.pure _) fun _ => Safe.fail _) _
  · rintro bs ⟨_, _, tag, rfl, rfl, h, rfl⟩
    exact ⟨tag, h, rfl⟩

theorem readCertSize_panics {tag : UInt8} (h : tag ≠ 0x30) : Panics readCertSize [tag] := by
  unfold readCertSize
  refine Panics.congr ((Reads.getByte tag).then_panics (cs := []) ?_) (by simp)
  rw [if_pos h]
  intro pre suf
  rfl

theorem parseLoop_panic_inv (c : Cfg) (fuel : Nat) : ∀ (pre tail : Bytes) (done : List Bytes),
    done.length ≤ c.maxCertChainDepth → tail.length < fuel →
    (parseLoop c (pre ++ tail) fuel done ⟨pre ++ tail, pre.length, 0⟩).1.isPanic = true →
    ∃ (certs : List Bytes) (tag : UInt8) (rest : Bytes), done.length + certs.length ≤ c.maxCertChainDepth ∧ (∀ x ∈ certs, IsSequence x) ∧ tag ≠ 0x30 ∧ tail = certs.flatten ++ [tag] ++ rest := by
  induction fuel with
  | zero => intro pre tail done _ h; omega
  | succ fuel ih =>
    intro pre tail done hd hf h
    unfold parseLoop at h
    rw [M.run_bind_ok (M.run_get _)] at h
    rcases panic_bind_inv h with h | ⟨⟨len, hs⟩, r1, e1, h⟩
    · obtain ⟨_, rest, rfl, tag, ht, rfl⟩ := readCertSize_pinv pre tail h
      exact ⟨[], tag, rest, by simpa using hd, by simp, ht, by simp⟩
    obtain ⟨H, rest, rfl, rfl, hH, hHl, hlt⟩ := readCertSize_inverts pre tail _ _ e1
    simp only at hH hHl hlt h
    rw [M.run_bind_ok (M.run_get _)] at h
    have hrem : (⟨pre ++ (H ++ rest), pre.length + H.length, 0⟩ : Reader).remaining = rest.length := by
      simp [Reader.remaining]; omega
    simp only [hrem] at h
    split at h
    · simp [Res.isPanic] at h
    split at h
    · simp [Res.isPanic] at h
    split at h
    · simp [Res.isPanic] at h
    rename_i hgt hne hdep
    have hsl : slice (pre ++ (H ++ rest)) pre.length (pre.length + len + hs) = .ok (H ++ rest.take len) := by
      rw [slice, if_pos ⟨by omega, by simp; omega⟩, List.drop_left,
        show pre.length + len + hs - pre.length = H.length + len by omega, List.take_length_add_append]
    rw [hsl] at h
    have hli : (M.lift (.ok (H ++ rest.take len)) : R Bytes) ⟨pre ++ (H ++ rest), pre.length + H.length, 0⟩ =
      (.ok (H ++ rest.take len), ⟨pre ++ (H ++ rest), pre.length + H.length, 0⟩) := rfl
    rw [M.run_bind_ok hli] at h
    have htl : (rest.take len).length = len := by simp; omega
    have hsk : Reader.skipIgnored len ⟨pre ++ (H ++ rest), pre.length + H.length, 0⟩ =
        (.ok (), ⟨(pre ++ H ++ rest.take len) ++ rest.drop len, (pre ++ H ++ rest.take len).length, 0⟩) := by
      have := Reads.skipIgnored (rest.take len) (pre ++ H) (rest.drop len)
      rw [htl] at this
      simpa [htl, Nat.add_assoc] using this
    rw [M.run_bind_ok hsk] at h
    have hbuf : pre ++ (H ++ rest) = (pre ++ H ++ rest.take len) ++ rest.drop len := by simp
    rw [hbuf] at h
    have hH2 : 1 ≤ H.length := by rw [hH]; simp
    obtain ⟨certs, tag, rest', k1, k2, k3, k4⟩ := ih _ _ _ (by simp; omega) (by simp at hf ⊢; omega) h
    simp only [List.length_append, List.length_singleton] at k1
    refine ⟨(H ++ rest.take len) :: certs, tag, rest', by simp; omega, ?_, k3, ?_⟩
    · intro x hx
      simp only [List.mem_cons] at hx
      rcases hx with rfl | hx
      · exact ⟨rest.take len, by omega, by rw [htl, hH]⟩
      · exact k2 x hx
    · have := (List.take_append_drop len rest).symm
      rw [k4] at this
      rw [List.flatten_cons, List.append_assoc, List.append_assoc, List.append_assoc, ← List.append_assoc certs.flatten, ← this]

theorem parseLoop_panics (c : Cfg) (certs : List Bytes) : ∀ (pre : Bytes) (done : List Bytes) (tag : UInt8) (rest : Bytes) (fuel : Nat), certs.length < fuel →
    done.length + certs.length ≤ c.maxCertChainDepth → (∀ x ∈ certs, IsSequence x) → tag ≠ 0x30 →
    (parseLoop c (pre ++ (certs.flatten ++ [tag] ++ rest)) fuel done ⟨pre ++ (certs.flatten ++ [tag] ++ rest), pre.length, 0⟩).1.isPanic = true := by
  induction certs with
  | nil =>
    intro pre done tag rest fuel hf _ _ ht
    obtain ⟨fuel, rfl⟩ : ∃ k, fuel = k + 1 := ⟨fuel - 1, by simp at hf; omega⟩
    unfold parseLoop
    rw [M.run_bind_ok (M.run_get _)]
    exact Panics.bind (readCertSize_panics ht) pre rest
  | cons x xs ih =>
    intro pre done tag rest fuel hf hd hx ht
    obtain ⟨fuel, rfl⟩ : ∃ k, fuel = k + 1 := ⟨fuel - 1, by simp at hf; omega⟩
    simp only [List.length_cons] at hf hd
    obtain ⟨content, hcl, hxe⟩ := hx x (by simp)
    unfold parseLoop
    rw [M.run_bind_ok (M.run_get _)]
    have hb : pre ++ ((x :: xs).flatten ++ [tag] ++ rest) = pre ++ (([0x30] ++ derLen content.length) ++ (content ++ (xs.flatten ++ [tag] ++ rest))) := by
      rw [List.flatten_cons, hxe]; simp
    generalize hw : xs.flatten ++ [tag] ++ rest = w at hb
    generalize hHd : ([0x30] ++ derLen content.length : Bytes) = H at hb
    rw [hb]
    have h1 := readsCertSize hcl pre (content ++ w)
    rw [hHd] at h1
    rw [M.run_bind_ok h1]
    simp only
    rw [M.run_bind_ok (M.run_get _)]
    have hwl : 0 < w.length := by rw [← hw]; simp
    have hrem : (⟨pre ++ (H ++ (content ++ w)), pre.length + H.length, 0⟩ : Reader).remaining = (content ++ w).length := by
      simp [Reader.remaining]; omega
    simp only [hrem]
    rw [if_neg (by simp), if_neg (by rw [List.length_append]; omega), if_neg (by omega)]
    have hsl : slice (pre ++ (H ++ (content ++ w))) pre.length (pre.length + content.length + H.length) = .ok (H ++ content) := by
      rw [slice, if_pos ⟨by omega, by simp; omega⟩, List.drop_left,
        show pre.length + content.length + H.length - pre.length = H.length + content.length by omega, List.take_length_add_append, List.take_left]
    rw [hsl]
    have hli : (M.lift (.ok (H ++ content)) : R Bytes) ⟨pre ++ (H ++ (content ++ w)), pre.length + H.length, 0⟩ =
      (.ok (H ++ content), ⟨pre ++ (H ++ (content ++ w)), pre.length + H.length, 0⟩) := rfl
    rw [M.run_bind_ok hli]
    have hsk : Reader.skipIgnored content.length ⟨pre ++ (H ++ (content ++ w)), pre.length + H.length, 0⟩ =
        (.ok (), ⟨(pre ++ H ++ content) ++ w, (pre ++ H ++ content).length, 0⟩) := by
      have := Reads.skipIgnored content (pre ++ H) w
      simpa [Nat.add_assoc] using this
    rw [M.run_bind_ok hsk]
    have := ih (pre ++ H ++ content) (done ++ [H ++ content]) tag rest fuel (by omega) (by simp; omega) (fun y hy => hx y (by simp [hy])) ht
    rw [hw] at this
    have e : pre ++ (H ++ (content ++ w)) = pre ++ H ++ content ++ w := by simp
    rw [e]; exact this

end CertificateChain

/-- **C83**: the chain parser aborts on exactly the buffers described by `ChainAborts`: right length, zero reserved bytes, whole certificates, and then a byte that does not start one. -/
theorem c83_chain_aborts_iff (c : Cfg) (ds : Nat) (buf : Bytes) : (CertificateChain.parse c buf ds).isPanic = true ↔ ChainAborts c ds buf := by
  unfold CertificateChain.parse CertificateChain.read
  constructor
  · intro h
    rcases panic_bind_inv h with h | ⟨n, r1, e1, h⟩
    · have := Safe.getU16.parse buf
      rw [this] at h; simp at h
    obtain ⟨L, t1, rfl, rfl, hL⟩ := Inverts.getU16 [] buf _ _ e1
    rw [M.ite_run] at h
    split at h
    · simp [Res.isPanic] at h
    rename_i hn
    rw [not_not] at hn
    rcases panic_bind_inv h with h | ⟨_, r2, e2, h⟩
    · have := (Safe.skipReserved 2 ⟨L ++ t1, L.length, 0⟩ ⟨by simp, by simp, by simp⟩).1
      simp only [List.nil_append, List.length_nil, Nat.zero_add] at h
      rw [this] at h; simp at h
    simp only [List.nil_append, List.length_nil, Nat.zero_add] at e2
    obtain ⟨Z, t2, rfl, rfl, hZ⟩ := Inverts.skipReserved 2 L t1 _ _ e2
    rw [M.run_bind_ok (M.run_get _)] at h
    simp only at h
    have eb : L ++ (Z ++ t2) = (L ++ Z) ++ t2 := by simp
    rcases panic_bind_inv h with h | ⟨_, r3, e3, h⟩
    · have := (Safe.skipIgnored ds ⟨L ++ (Z ++ t2), L.length + Z.length, 0⟩ ⟨by simp, by simp, by simp⟩).1
      rw [this] at h; simp at h
    rw [eb, ← List.length_append] at e3
    obtain ⟨root, t3, rfl, rfl, hroot⟩ := Inverts.skipIgnored ds (L ++ Z) t2 _ _ e3
    have hLl : L.length = 2 := by rw [hL]; simp
    have hZl : Z.length = 2 := by rw [hZ]; simp [zeros]
    have hbuf : L ++ (Z ++ (root ++ t3)) = (L ++ Z ++ root) ++ t3 := by simp
    have hsl : CertificateChain.slice (L ++ (Z ++ (root ++ t3))) (L.length + Z.length) (L.length + Z.length + ds) = .ok root := by
      rw [CertificateChain.slice, if_pos ⟨by omega, by simp; omega⟩, ← List.length_append, ← List.append_assoc, List.drop_left,
        show (L ++ Z).length + ds - (L ++ Z).length = root.length by omega, List.take_left]
    rw [hsl] at h
    have hli : ∀ r : Reader, (M.lift (.ok root) : R Bytes) r = (.ok root, r) := fun _ => rfl
    rw [M.run_bind_ok (hli _)] at h
    rcases panic_bind_inv h with h | ⟨⟨certs, off⟩, r5, e5, h⟩
    · rw [hbuf] at h
      have hst : (⟨L ++ Z ++ (root ++ t3), (L ++ Z).length + root.length, 0⟩ : Reader) = ⟨(L ++ Z ++ root) ++ t3, (L ++ Z ++ root).length, 0⟩ := by simp [Nat.add_assoc]
      rw [hst] at h
      obtain ⟨certs, tag, rest, k1, k2, k3, k4⟩ := CertificateChain.parseLoop_panic_inv c _ _ _ _ (by simp) (by simp; omega) h
      have := n.toNat_lt
      refine ⟨root, certs, tag, rest, hroot, by simpa using k1, k2, k3, by omega, ?_⟩
      rw [← hn, ← hL, ← hZ]
      rw [hbuf, k4]; simp
    · have hst : (⟨L ++ Z ++ (root ++ t3), (L ++ Z).length + root.length, 0⟩ : Reader) = ⟨(L ++ Z ++ root) ++ t3, (L ++ Z ++ root).length, 0⟩ := by simp [Nat.add_assoc]
      rw [hbuf, hst] at e5
      obtain ⟨inter, leaf, rfl, k2, k3, k4, k5, k6⟩ := CertificateChain.parseLoop_inv c _ _ _ _ _ _ _ (by simp) e5
      have hsf : sliceFrom (L ++ (Z ++ (root ++ (inter.flatten ++ leaf)))) off = .ok leaf := by
        rw [sliceFrom, if_pos (by rw [k3]; simp), k3]
        have e : L ++ (Z ++ (root ++ (inter.flatten ++ leaf))) = (L ++ Z ++ root ++ inter.flatten) ++ leaf := by simp
        rw [e, List.drop_left]
      simp only at h
      rw [hsf] at h
      simp [Res.isPanic, M.run_bind, M.run_lift] at h
  · rintro ⟨root, certs, tag, rest, h1, h2, h3, h4, h5, hb⟩
    have hn : (UInt16.ofNat buf.length).toNat = buf.length := ofNat_toNat16 h5
    have hB : buf = Spec.le 2 (UInt16.ofNat buf.length).toNat ++ (Spec.zeros 2 ++ (root ++ (certs.flatten ++ [tag] ++ rest))) := by
      rw [hn]; conv => lhs; rw [hb]
      simp
    generalize hw : certs.flatten ++ [tag] ++ rest = w at hB
    have hil : certs.length ≤ certs.flatten.length := by
      have : ∀ l : List Bytes, (∀ x ∈ l, IsSequence x) → l.length ≤ l.flatten.length := by
        intro l
        induction l with
        | nil => simp
        | cons a as ih =>
          intro hh
          obtain ⟨ct, _, hct⟩ := hh a (by simp)
          have := ih fun x hx => hh x (by simp [hx])
          have h0 : 0 < a.length := by rw [hct]; simp
          simp only [List.flatten_cons, List.length_append, List.length_cons]; omega
      exact this _ h3
    generalize hL : Spec.le 2 (UInt16.ofNat buf.length).toNat = L at hB
    have hLl : L.length = 2 := by rw [← hL]; simp
    have hlen : buf.length = 4 + ds + w.length := by
      have := congrArg List.length hB
      simp only [List.length_append, hLl, zeros, List.length_replicate] at this
      omega
    have hwl : certs.flatten.length < w.length := by rw [← hw]; simp only [List.length_append, List.length_singleton]; omega
    have s1 : Reader.getU16 (Reader.new buf) = (.ok (UInt16.ofNat buf.length), ⟨buf, 2, 0⟩) := by
      have := Reads.le16 (UInt16.ofNat buf.length) [] (Spec.zeros 2 ++ (root ++ w))
      rw [hL] at this
      simp only [List.nil_append, List.length_nil, hLl, ← hB] at this
      exact this
    have s2 : Reader.skipReserved 2 ⟨buf, 2, 0⟩ = (.ok (), ⟨buf, 4, 0⟩) := by
      have := Reads.zeros 2 L (root ++ w)
      rw [← hB] at this
      simpa [hLl, zeros] using this
    have s3 : Reader.skipIgnored ds ⟨buf, 4, 0⟩ = (.ok (), ⟨buf, 4 + ds, 0⟩) := by
      have := Reads.skipIgnored root (L ++ Spec.zeros 2) w
      simp only [List.append_assoc, ← hB] at this
      simpa [hLl, zeros, h1] using this
    have s4 : CertificateChain.slice buf 4 (4 + ds) = .ok root := by
      rw [CertificateChain.slice, if_pos ⟨by omega, by omega⟩]
      congr 1
      rw [hB, ← List.append_assoc, show (4 : Nat) = (L ++ Spec.zeros 2).length by simp [hLl, zeros], List.drop_left,
        show (L ++ Spec.zeros 2).length + ds - (L ++ Spec.zeros 2).length = root.length by omega, List.take_left]
    have hp : (L ++ (Spec.zeros 2 ++ root)).length = 4 + ds := by simp [hLl, zeros, h1]; omega
    have hr := CertificateChain.parseLoop_panics c certs (L ++ (Spec.zeros 2 ++ root)) [] tag rest (buf.length + 1) (by omega) (by simpa using h2) h3 h4
    rw [hw, hp] at hr
    have e1 : L ++ (Spec.zeros 2 ++ root) ++ w = buf := by rw [hB]; simp
    rw [e1] at hr
    rw [M.run_bind_ok s1, if_neg (by rw [hn]; simp), M.run_bind_ok s2, M.run_bind_ok (M.run_get _)]
    dsimp only
    rw [M.run_bind_ok s3, M.run_bind_ok (M.run_lift_ok s4), M.run_bind]
    generalize CertificateChain.parseLoop c buf (buf.length + 1) [] ⟨buf, 4 + ds, 0⟩ = y at hr ⊢
    rcases y with ⟨_ | _ | _, _⟩
    · simp [Res.isPanic] at hr
    · simp [Res.isPanic] at hr
    · rfl

/-- **C83**: the parser of a message aborts on exactly the buffers that start with the bytes described by `BodyAborts`: opaque data or measurement blocks that overflow their arrays.
On every other buffer, of whatever length, it returns a message or an error. -/
theorem c83_parser_aborts_iff (c : Cfg) (hc : c.numSlots ≤ 8) (x : Ctx) (t : MsgType) (buf : Bytes) :
    (AnyMsg.parse c x t buf).isPanic = true ↔ ∃ bs rest, buf = bs ++ rest ∧ BodyAborts c x t bs := by
  have hmap : ∀ {α β : Type} {y : Res α} {f : α → β}, (y.map f).isPanic = true ↔ y.isPanic = true := by
    intro α β y f; cases y <;> simp [Res.map, Res.isPanic]
  by_cases ht : t ≠ .challengeAuth ∧ t ≠ .measurements
  · rw [c24_no_panic_partial c hc x t ht buf]
    constructor
    · simp
    · rintro ⟨bs, rest, rfl, h⟩
      cases h <;> simp at ht
  · have : t = .challengeAuth ∨ t = .measurements := by
      by_cases h1 : t = .challengeAuth
      · exact .inl h1
      · by_cases h2 : t = .measurements
        · exact .inr h2
        · exact absurd ⟨h1, h2⟩ ht
    rcases this with rfl | rfl
    · refine hmap.trans ⟨fun h => (ChallengeAuth.pinv c x).parse h, ?_⟩
      rintro ⟨bs, rest, rfl, h⟩
      exact (ChallengeAuth.panics_of h).parse rest
    · refine hmap.trans ⟨fun h => (Measurements.pinv c x).parse h, ?_⟩
      rintro ⟨bs, rest, rfl, h⟩
      exact (Measurements.panics_of h).parse rest

/-! Non-vacuity: for the demo configuration, each case is met. -/

/-- One opaque element of nine bytes where eight fit. -/
example : BodyAborts demoCfg ⟨32, 64, false⟩ .challengeAuth ([1, 3] ++ zeros 32 ++ zeros 4 ++ zeros 32 ++ le 2 20 ++ ([1] ++ zeros 3 ++ [] ++ [0] ++ Wire.vendorId .empty ++ le 2 9 ++ zeros 9)) :=
  .challengeAuth (by decide) (by decide) (by decide) (by decide) (by decide)
    (.data (count := 1) (es := []) (id := .dmtf) (v := .empty) (d := zeros 9) (by decide) (by decide) (by simp) rfl (by decide) (by decide))

/-- Three measurement blocks where two fit. -/
example : BodyAborts demoCfg ⟨32, 64, false⟩ .measurements ([2, 1, 3] ++ le 3 16 ++ (List.replicate 3 (⟨1, 1, ⟨.digest, .immutableRom, .digest [7]⟩⟩ : MeasurementBlock)).flatMap Wire.measurementBlock) :=
  .blocks (by decide) (by decide) (by decide) (by decide) (by decide) (by decide) (by decide) (by
    intro y hy
    obtain rfl := List.eq_of_mem_replicate hy
    exact ⟨rfl, by decide⟩)

/-- A chain whose first certificate has the wrong tag; and one that is well-formed is not in the set. -/
example : ChainAborts demoCfg 2 ([8, 0, 0, 0, 9, 9, 0x31, 0]) := ⟨[9, 9], [], 0x31, [0], by decide, by decide, by simp, by decide, by decide, by decide⟩
example : ¬ ChainAborts demoCfg 2 ([8, 0, 0, 0, 9, 9, 0x30, 0]) := by
  rw [← c83_chain_aborts_iff]; decide +kernel

end Spdm
