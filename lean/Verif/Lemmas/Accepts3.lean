import Verif.Lemmas.Accepts2
/-! CHALLENGE_AUTH, MEASUREMENTS and ERROR: soundness and completeness of the parsers with respect to `Spec.Denotes`. -/
namespace Spdm
open Spec

theorem auth_bits (b : UInt8) : (bitField b 0 4).toNat = b.toNat % 16 ∧ ((bitField b 7 1 == 1) = true ↔ 128 ≤ b.toNat) := by
  revert b; apply forall_u8; decide +kernel

theorem u8_ext {a b : UInt8} (h : a.toNat = b.toNat) : a = b := UInt8.toNat_inj.mp h

theorem bool_ext {a b : Bool} {p : Prop} (h1 : a = true ↔ p) (h2 : b = true ↔ p) : a = b := by
  cases a <;> cases b <;> simp_all

theorem ChallengeAuth.inverts' (c : Cfg) (x : Ctx) :
    Inverts (ChallengeAuth.read c x.digestSize x.sigSize) (fun bs m => Denotes c x bs (.challengeAuth m)) := by
  refine (ChallengeAuth.inverts c x.digestSize x.sigSize).mono ?_
  rintro bs m ⟨b, olen, rfl, h1, h2, h3, h4, h5, h6, h7, h8, h9⟩
  obtain ⟨a1, a2⟩ := auth_bits b
  exact ⟨b, olen, by rw [h1, a1], by rw [h2, a2], h3, h4, h5, h6, h7, h8, h9, rfl⟩

theorem ChallengeAuth.reads' {c : Cfg} {x : Ctx} {bs : Bytes} {m : ChallengeAuth} (h : Denotes c x bs (.challengeAuth m)) :
    Reads (ChallengeAuth.read c x.digestSize x.sigSize) bs m := by
  obtain ⟨b, len, h1, h2, h3, h4, h5, h6, h7, h8, h9, rfl⟩ := h
  obtain ⟨a1, a2⟩ := auth_bits b
  have hs : bitField b 0 4 = m.slot := u8_ext (by rw [a1, h1])
  have hu : (bitField b 7 1 == 1) = m.useMutualAuth := bool_ext a2 h2
  refine Reads.congr (bs := b :: ([m.slotMask] ++ (m.certChainHash ++ (m.nonce ++ (m.measurementSummaryHash ++
      (Spec.le 2 (UInt16.ofNat len).toNat ++ (Wire.opaqueData m.opaqueData ++
      (m.signature ++ [])))))))) ?_ (by rw [ofNat_toNat16 (by omega)]; simp)
  refine ReadsB.start (ReadsB.bits (by omega) (by omega) ?_)
  rw [hs, if_neg (by omega)]
  refine ReadsB.bits (by omega) (by omega) (ReadsB.last (by omega) (by omega) (by omega) ?_)
  simp only [Nat.zero_add]
  refine (Reads.getByte _).bind ((Reads.getSlice _ h4 (Nat.le_refl _)).bind
    ((Reads.getSlice _ h5 (Nat.le_refl _)).bind ((Reads.getSlice _ h6 (Nat.le_refl _)).bind
    ((Reads.le16 _).bind ?_))))
  rw [if_neg (by rw [ofNat_toNat16 (by omega)]; simp [maxOpaqueDataSize]; omega)]
  refine (OpaqueData.reads h7).bind ((Reads.getSlice _ h8 (Nat.le_refl _)).bind ?_)
  rw [hu]
  exact Reads.pure m

/-! ### MEASUREMENTS -/

theorem meas_bits (b : UInt8) : (bitField b 0 4).toNat = b.toNat % 16 ∧ (bitField b 4 2).toNat = b.toNat / 16 % 4 := by
  revert b; apply forall_u8; decide +kernel

theorem cc_ok {v : UInt8} {cc : ContentChanged} (h : 16 * v.toNat = Wire.ccBits cc) : ContentChanged.tryFrom v = .ok cc := by
  have hv : ∀ k : Nat, v.toNat = k → v = UInt8.ofNat k := by intro k hk; rw [← hk]; simp
  cases cc with
  | notSupported => simp only [Wire.ccBits] at h; rw [hv 0 (by omega)]; rfl
  | true => simp only [Wire.ccBits] at h; rw [hv 1 (by omega)]; rfl
  | false => simp only [Wire.ccBits] at h; rw [hv 2 (by omega)]; rfl

theorem Measurements.inverts' (c : Cfg) (x : Ctx) :
    Inverts (Measurements.read c x.sigRequested x.sigSize) (fun bs m => Denotes c x bs (.measurements m)) := by
  unfold Measurements.read Nonce.read
  refine (Inverts.getByte.bind fun total => Inverts.guard fun _ => Inverts.start (InvertsB.bits (by omega) (by omega) fun slot => InvertsB.guard fun _ =>
    InvertsB.bits (by omega) (by omega) fun ccb => InvertsB.lift_bind fun cc => InvertsB.dropLast <| (MeasurementBlocks.inverts c).bind fun blocks =>
    (Inverts.getSlice _ _).bind fun nonce => Inverts.getU16.bind fun olen => Inverts.guard fun _ => (OpaqueData.inverts c).bind
    (Q := fun (od : OpaqueData) (bs : Bytes) (m : Measurements) => ∃ sig : Option Bytes, bs = sig.getD [] ∧ sig.isSome = x.sigRequested ∧
      (∀ s, sig = some s → s.length = x.sigSize) ∧ m = (⟨total, cc, slot, blocks, nonce, od, sig⟩ : Measurements)) fun od => ?_)).mono ?_
  · cases hx : x.sigRequested with
    | true =>
      show Inverts (Reader.getSlice x.sigSize x.sigSize >>= fun s => pure (⟨total, cc, slot, blocks, nonce, od, some s⟩ : Measurements)) _
      refine ((Inverts.getSlice _ _).bind fun sig => Inverts.pure _).mono ?_
      rintro bs m ⟨sig, _, _, rfl, ⟨rfl, hl, _⟩, rfl, rfl⟩
      exact ⟨some sig, by simp, rfl, by simpa using hl, rfl⟩
    | false =>
      show Inverts (pure (⟨total, cc, slot, blocks, nonce, od, none⟩ : Measurements)) _
      refine (Inverts.pure _).mono ?_
      rintro bs m ⟨rfl, rfl⟩
      exact ⟨none, rfl, rfl, by simp, rfl⟩
  · rintro bs m ⟨_, _, total, rfl, rfl, ht, p2, _, rfl, hs, cc, hcc, _, _, blocks, rfl, ⟨rfl, hb, hb1, hb2⟩, nonce, _, _, rfl, ⟨rfl, hn, _⟩, _, _, olen, rfl, rfl, ho,
      _, _, od, rfl, ⟨rfl, hod⟩, sig, rfl, h1, h2, rfl⟩
    simp only [maxOpaqueDataSize] at ho
    obtain ⟨m1, m2⟩ := meas_bits p2
    refine ⟨p2, olen.toNat, by simp; omega, m1, ?_, by simp; omega, hb, hb1, hb2, hn, hod, by omega, h1, h2, by simp⟩
    rw [← m2, Nat.mul_comm]
    simpa using cc_inv hcc

theorem Measurements.reads' {c : Cfg} {x : Ctx} {bs : Bytes} {m : Measurements} (h : Denotes c x bs (.measurements m)) :
    Reads (Measurements.read c x.sigRequested x.sigSize) bs m := by
  obtain ⟨B, len, h1, h2, h3, h4, h5, h6, h7, h8, h9, h10, h11, h12, rfl⟩ := h
  obtain ⟨m1, m2⟩ := meas_bits B
  have hb0 : bitField B 0 4 = m.slotId := u8_ext (by rw [m1, h2])
  have hb4 : ContentChanged.tryFrom (bitField B 4 2) = .ok m.contentChanged := cc_ok (by rw [m2, h3])
  refine Reads.congr (bs := [m.totalBlocks] ++ (B ::
      (Wire.measurementBlocks m.blocks ++ (m.nonce ++ (Spec.le 2 (UInt16.ofNat len).toNat ++
        (Wire.opaqueData m.opaqueData ++ m.signature.getD [])))))) ?_ (by rw [ofNat_toNat16 (by omega)]; simp)
  refine (Reads.getByte _).bind ?_
  rw [if_neg (by omega)]
  refine ReadsB.start (ReadsB.bits (by omega) (by omega) ?_)
  rw [hb0, if_neg (by omega)]
  refine ReadsB.bits (by omega) (by omega) ?_
  simp only [Nat.zero_add] at hb4 ⊢
  rw [hb4]
  have hrest : Reads (do
      let blocks ← MeasurementBlocks.read c
      let nonce ← Nonce.read c
      let olen ← Reader.getU16
      if olen.toNat > maxOpaqueDataSize then M.fail .maxOpaqueDataSizeExceeded
      else
        let od ← OpaqueData.read c
        if x.sigRequested then
          let s ← Reader.getSlice x.sigSize x.sigSize
          pure (⟨m.totalBlocks, m.contentChanged, m.slotId, blocks, nonce, od, some s⟩ : Measurements)
        else pure ⟨m.totalBlocks, m.contentChanged, m.slotId, blocks, nonce, od, none⟩)
      (Wire.measurementBlocks m.blocks ++ (m.nonce ++ (Spec.le 2 (UInt16.ofNat len).toNat ++
        (Wire.opaqueData m.opaqueData ++ m.signature.getD [])))) m := by
    refine (MeasurementBlocks.reads h5 h6 h7).bind ((Reads.getSlice _ h8 (Nat.le_refl _)).bind
      ((Reads.le16 _).bind ?_))
    rw [if_neg (by rw [ofNat_toNat16 (by omega)]; simp [maxOpaqueDataSize]; omega)]
    refine (OpaqueData.reads h9).bind ?_
    obtain ⟨tb, cc, sl, bl, no, od, sg⟩ := m
    simp only at h11 h12
    rw [← h11]
    cases sg with
    | none => exact Reads.pure _
    | some s => exact Reads.congr ((Reads.getSlice s (h12 s rfl) (Nat.le_refl _)).bind (Reads.pure _)) (by simp)
  intro pre suf
  have h2 := hrest (pre ++ [B]) suf
  simp only [List.append_assoc, List.singleton_append, List.length_append, List.length_singleton] at h2
  rw [M.run_bind_ok (M.run_lift _ _), M.run_bind_ok (dropResult_bits pre _ 6 2 (by omega) (by omega) (by omega))]
  simp only [List.append_assoc, List.length_append] at h2 ⊢
  exact h2

/-! ### ERROR -/

theorem ErrorMsg.inverts : Inverts ErrorMsg.read (fun bs m => ErrorBytes m bs) := by
  unfold ErrorMsg.read
  refine (Inverts.getByte.bind fun code => Inverts.getByte.bind (Q := fun data bs m => ErrorBytes m ([code] ++ ([data] ++ bs)))
    fun data => ?_).mono ?_
  · have simple : ∀ (m : ErrorMsg), ErrorBytes m [code, data] → Inverts (Pure.pure m : R ErrorMsg) (fun bs m => ErrorBytes m ([code] ++ ([data] ++ bs))) := by
      intro m hm
      refine (Inverts.pure _).mono ?_
      rintro bs _ ⟨rfl, rfl⟩
      exact hm
    repeat' refine Inverts.ite (fun h => ?_) (fun _ => ?_)
    all_goals try (subst h; exact simple _ ⟨_, rfl⟩)
    · subst h; exact simple _ rfl
    · subst h
      refine (Inverts.getU32.bind fun n => Inverts.pure _).mono ?_
      rintro bs _ ⟨_, _, n, rfl, rfl, rfl, rfl⟩
      exact ⟨data, by simp⟩
    · subst h
      refine (Inverts.getByte.bind fun n => Inverts.pure _).mono ?_
      rintro bs _ ⟨_, _, n, rfl, rfl, rfl, rfl⟩
      exact ⟨data, by simp⟩
    · subst h
      refine (Inverts.getByte.bind fun _ => Inverts.getByte.bind fun _ => Inverts.getByte.bind fun _ => Inverts.getByte.bind fun _ => Inverts.pure _).mono ?_
      rintro bs _ ⟨_, _, a, rfl, rfl, _, _, b, rfl, rfl, _, _, c, rfl, rfl, _, _, d, rfl, rfl, rfl, rfl⟩
      exact ⟨data, by simp⟩
    · subst h
      cases hid : VendorRegistryId.tryFrom data with
      | none => exact (Inverts.fail _).mono (by simp)
      | some id =>
        refine (Inverts.getByte.bind fun len => (VendorId.inverts len).bind fun vid => Inverts.pure _).mono ?_
        rintro bs _ ⟨_, _, len, rfl, rfl, w, _, vid, rfl, ⟨hw, _⟩, rfl, rfl⟩
        refine ⟨rfl, rfl, ?_⟩
        simp only [List.append_nil]
        rw [hw, registry_inv hid]
        rfl
    · exact (Inverts.fail _).mono (by simp)
  · rintro bs m ⟨_, _, code, rfl, rfl, _, _, data, rfl, rfl, h⟩
    exact h

theorem ErrorMsg.reads' {m : ErrorMsg} {bs : Bytes} (h : ErrorBytes m bs) : Reads ErrorMsg.read bs m := by
  cases m with
  | vendorDefined id v =>
    obtain ⟨h1, h2, rfl⟩ := h
    exact Reads.congr (ErrorMsg.reads (m := .vendorDefined id v) ⟨h1, h2⟩) (by simp [Wire.error, h1])
  | responseTooLarge n =>
    obtain ⟨d, rfl⟩ := h
    exact Reads.congr ((Reads.getByte 0x0D).bind ((Reads.getByte d).bind ((Reads.le32 n).bind (Reads.pure _)))) (by simp)
  | largeResponse b =>
    obtain ⟨d, rfl⟩ := h
    exact (Reads.getByte 0x0F).bind ((Reads.getByte d).bind ((Reads.getByte b).bind (Reads.pure _)))
  | responseNotReady a b c d =>
    obtain ⟨d', rfl⟩ := h
    exact (Reads.getByte 0x42).bind ((Reads.getByte d').bind ((Reads.getByte a).bind ((Reads.getByte b).bind
      ((Reads.getByte c).bind ((Reads.getByte d).bind (Reads.pure _))))))
  | unsupportedRequest code => subst h; exact (Reads.getByte 0x07).bind ((Reads.getByte code).bind (Reads.pure _))
  | invalidRequest => obtain ⟨d, rfl⟩ := h; exact (Reads.getByte _).bind ((Reads.getByte _).bind (Reads.pure _))
  | busy => obtain ⟨d, rfl⟩ := h; exact (Reads.getByte _).bind ((Reads.getByte _).bind (Reads.pure _))
  | unexpectedRequest => obtain ⟨d, rfl⟩ := h; exact (Reads.getByte _).bind ((Reads.getByte _).bind (Reads.pure _))
  | unspecified => obtain ⟨d, rfl⟩ := h; exact (Reads.getByte _).bind ((Reads.getByte _).bind (Reads.pure _))
  | decryptError => obtain ⟨d, rfl⟩ := h; exact (Reads.getByte _).bind ((Reads.getByte _).bind (Reads.pure _))
  | requestInFlight => obtain ⟨d, rfl⟩ := h; exact (Reads.getByte _).bind ((Reads.getByte _).bind (Reads.pure _))
  | invalidResponseCode => obtain ⟨d, rfl⟩ := h; exact (Reads.getByte _).bind ((Reads.getByte _).bind (Reads.pure _))
  | sessionLimitExceeded => obtain ⟨d, rfl⟩ := h; exact (Reads.getByte _).bind ((Reads.getByte _).bind (Reads.pure _))
  | sessionRequired => obtain ⟨d, rfl⟩ := h; exact (Reads.getByte _).bind ((Reads.getByte _).bind (Reads.pure _))
  | resetRequired => obtain ⟨d, rfl⟩ := h; exact (Reads.getByte _).bind ((Reads.getByte _).bind (Reads.pure _))
  | requestTooLarge => obtain ⟨d, rfl⟩ := h; exact (Reads.getByte _).bind ((Reads.getByte _).bind (Reads.pure _))
  | messageLost => obtain ⟨d, rfl⟩ := h; exact (Reads.getByte _).bind ((Reads.getByte _).bind (Reads.pure _))
  | versionMismatch => obtain ⟨d, rfl⟩ := h; exact (Reads.getByte _).bind ((Reads.getByte _).bind (Reads.pure _))
  | requestResynch => obtain ⟨d, rfl⟩ := h; exact (Reads.getByte _).bind ((Reads.getByte _).bind (Reads.pure _))

end Spdm
