import Verif.Lemmas.Msgs2
/-! Writers and readers of opaque data, CHALLENGE_AUTH, ERROR, GET_MEASUREMENTS, MEASUREMENTS. -/
namespace Spdm
open Spec

/-! ### Opaque data -/

theorem VendorId.writes (v : VendorId) :
    Writes v.write (fun _ => UInt8.ofNat (Wire.vendorIdLen v)) (Wire.vendorId v) := by
  cases v with
  | empty => exact Writes.congr ((Writes.put 0).bind fun _ => Writes.pure 0) (by simp [Wire.vendorId])
  | u16 n =>
    refine Writes.congr ((Writes.put 2).bind fun _ => (Writes.le16 n).bind fun _ => Writes.pure 2) ?_
    simp [Wire.vendorId]
  | u32 n =>
    refine Writes.congr ((Writes.put 4).bind fun _ => (Writes.le32 n).bind fun _ => Writes.pure 4) ?_
    simp [Wire.vendorId]

theorem VendorId.wire_split (v : VendorId) : ∃ bs, Wire.vendorId v = [UInt8.ofNat (Wire.vendorIdLen v)] ++ bs ∧
    bs.length = Wire.vendorIdLen v ∧ Reads (VendorId.read (UInt8.ofNat (Wire.vendorIdLen v))) bs v := by
  cases v with
  | empty => exact ⟨[], rfl, rfl, Reads.pure _⟩
  | u16 n => exact ⟨Spec.le 2 n.toNat, rfl, by simp [Wire.vendorIdLen], Reads.congr ((Reads.le16 n).bind (Reads.pure _)) (by simp)⟩
  | u32 n => exact ⟨Spec.le 4 n.toNat, rfl, by simp [Wire.vendorIdLen], Reads.congr ((Reads.le32 n).bind (Reads.pure _)) (by simp)⟩

theorem vendorIdLen_toNat (v : VendorId) : (UInt8.ofNat (Wire.vendorIdLen v)).toNat = Wire.vendorIdLen v := by
  cases v <;> rfl

theorem ensureVendorIdLen_ok {v : VendorId} {id : VendorRegistryId}
    (h : Wire.vendorIdLen v = Wire.registryIdLen id) :
    OpaqueElement.ensureVendorIdLen (UInt8.ofNat (Wire.vendorIdLen v)) id = .ok () := by
  unfold OpaqueElement.ensureVendorIdLen
  rw [if_pos]
  rw [h]
  cases id <;> rfl

theorem padding_eq (n : Nat) : OpaqueElement.padding n = (4 - n % 4) % 4 := by
  unfold OpaqueElement.padding
  split <;> omega

theorem opaqueElementRaw_length {c : Cfg} {e : OpaqueElement} (h : OpaqueElementWF c e) :
    (Wire.opaqueElementRaw e).length = 4 + Wire.vendorIdLen e.vendorId + e.dataLen.toNat := by
  obtain ⟨bs, h1, h2, _⟩ := VendorId.wire_split e.vendorId
  have h3 := h.dlen
  have h4 := h.len
  simp [Wire.opaqueElementRaw, h1, h2, Nat.min_eq_left (h4 ▸ h3)]
  omega

theorem OpaqueElement.writes {c : Cfg} {e : OpaqueElement} (h : OpaqueElementWF c e) :
    Writes e.write id (Wire.opaqueElement e) := by
  refine Writes.congr ((Writes.put e.registryId.toU8).bind fun _ => (VendorId.writes e.vendorId).bind fun _ =>
    Writes.lift_bind (ensureVendorIdLen_ok h.vendor) <| (Writes.le16 _).bind fun _ =>
    Writes.lift_bind (sliceTo_ok (by have := h.len; have := h.dlen; omega)) <| (Writes.extend _).bind fun _ =>
    Writes.zeros _) ?_
  rw [vendorIdLen_toNat, padding_eq]
  unfold Wire.opaqueElement
  rw [opaqueElementRaw_length h]
  simp only [Wire.opaqueElementRaw, List.append_assoc]
  congr 1

theorem OpaqueElement.reads {c : Cfg} {e : OpaqueElement} (h : OpaqueElementWF c e) :
    Reads (OpaqueElement.read c) (Wire.opaqueElement e) e := by
  obtain ⟨bs, h1, h2, h3⟩ := VendorId.wire_split e.vendorId
  have hl : (Wire.opaqueElementRaw e).length = 4 + Wire.vendorIdLen e.vendorId + e.dataLen.toNat :=
    opaqueElementRaw_length h
  have heq : Wire.opaqueElement e = [Wire.registry e.registryId] ++ ([UInt8.ofNat (Wire.vendorIdLen e.vendorId)] ++
      (bs ++ (Spec.le 2 e.dataLen.toNat ++ (e.data.take e.dataLen.toNat ++
        (Spec.zeros (OpaqueElement.padding (4 + (UInt8.ofNat (Wire.vendorIdLen e.vendorId)).toNat + e.dataLen.toNat)) ++ []))))) := by
    unfold Wire.opaqueElement
    rw [hl, padding_eq, vendorIdLen_toNat]
    simp [Wire.opaqueElementRaw, h1]
  rw [heq]
  refine (Reads.getByte _).bind ?_
  have hv : VendorRegistryId.tryFrom (Wire.registry e.registryId) = some e.registryId := by
    cases e.registryId <;> rfl
  rw [hv]
  refine (Reads.getByte _).bind (Reads.lift_bind (ensureVendorIdLen_ok h.vendor) (h3.bind ((Reads.le16 _).bind
    ((Reads.getSlice _ ?_ h.dlen).bind ((Reads.zeros _).bind ?_)))))
  · have := h.len; have := h.dlen; simp; omega
  · rw [zeroPad_take h.len h.dlen h.zero]; exact Reads.pure e

theorem OpaqueData.writesElements {c : Cfg} (es : List OpaqueElement) (h : ∀ e ∈ es, OpaqueElementWF c e) :
    Writes (OpaqueData.writeElements es) id (es.flatMap Wire.opaqueElement) := by
  induction es with
  | nil => exact Writes.offsetM
  | cons e es ih =>
    exact (OpaqueElement.writes (h e (by simp))).bind fun _ => ih fun x hx => h x (by simp [hx])

theorem wrapFull_isFull (e : Err) (h : e.isFull = true) : (OpaqueData.wrapFull e).isFull = true := by
  cases e <;> simp_all [OpaqueData.wrapFull, Err.isFull]

theorem OpaqueData.writes {c : Cfg} {d : OpaqueData} (h : OpaqueDataWF c d) :
    Writes d.write id (Wire.opaqueData d) := by
  refine Writes.mapErr _ wrapFull_isFull (Writes.congr ((Writes.put _).bind fun _ => (Writes.zeros 3).bind fun _ =>
    Writes.lift_bind (sliceTo_ok (by have := h.len; have := h.total; omega))
      (OpaqueData.writesElements (c := c) _ ?_)) ?_)
  · intro e he; exact h.used e (List.mem_of_mem_take he)
  · simp [Wire.opaqueData]

theorem OpaqueData.reads {c : Cfg} {d : OpaqueData} (h : OpaqueDataWF c d) :
    Reads (OpaqueData.read c) (Wire.opaqueData d) d := by
  have e : Wire.opaqueData d = [d.totalElements] ++ (Spec.zeros 3 ++
      ((d.elements.take d.totalElements.toNat).flatMap Wire.opaqueElement ++ [])) := by simp [Wire.opaqueData]
  rw [e]
  refine (Reads.getByte _).bind ((Reads.zeros 3).bind (Reads.bind (a := d.elements) ?_ (Reads.pure d)))
  exact reads_used (fun _ _ => rfl) (fun _ _ _ => rfl) h.len h.total h.unused
    (fun e he => OpaqueElement.reads (h.used e (List.mem_of_mem_take he)))

theorem foldl_add {α : Type} (f : α → Nat) (l : List α) (s : Nat) :
    l.foldl (fun acc a => acc + f a) s = s + (l.map f).sum := by
  induction l generalizing s with
  | nil => simp
  | cons a as ih => simp [ih, Nat.add_assoc]

theorem length_flatMap' {α : Type} (f : α → Bytes) (l : List α) :
    (l.flatMap f).length = (l.map fun a => (f a).length).sum := by
  induction l with
  | nil => rfl
  | cons a as ih => simp [ih]

theorem OpaqueElement.serializedSize_eq {c : Cfg} {e : OpaqueElement} (h : OpaqueElementWF c e) :
    e.serializedSize = (Wire.opaqueElement e).length := by
  unfold OpaqueElement.serializedSize Wire.opaqueElement
  rw [List.length_append, zeros_length, opaqueElementRaw_length h]
  simp only [padding_eq]
  have : e.registryId.vendorIdLen.toNat = Wire.vendorIdLen e.vendorId := by
    rw [h.vendor]; cases e.registryId <;> rfl
  rw [this]

theorem OpaqueData.serializedSize_eq {c : Cfg} {d : OpaqueData} (h : OpaqueDataWF c d) :
    d.serializedSize = .ok (Wire.opaqueData d).length := by
  unfold OpaqueData.serializedSize
  rw [sliceTo_ok (by have := h.len; have := h.total; omega)]
  simp only [Res.ok_bind, Res.pure_eq, foldl_add, Nat.zero_add]
  congr 1
  simp only [Wire.opaqueData, List.length_append, List.length_singleton, zeros_length, length_flatMap']
  congr 2
  apply List.map_congr_left
  intro e he
  exact OpaqueElement.serializedSize_eq (h.used e (List.mem_of_mem_take he))

/-! ### CHALLENGE_AUTH -/

theorem ofNat_toNat16 {n : Nat} (h : n < 65536) : (UInt16.ofNat n).toNat = n := by
  rw [UInt16.toNat_ofNat']; exact Nat.mod_eq_of_lt h

/-- What the code writes for the slot byte. -/
def slotByte (m : ChallengeAuth) : UInt8 :=
  if m.useMutualAuth then m.slot &&& ((1 : UInt8) <<< 7) else m.slot

theorem ChallengeAuth.writes_gen {c : Cfg} {m : ChallengeAuth} (hslot : m.slot.toNat < c.numSlots) (hopq : OpaqueDataWF c m.opaqueData)
    (hlen : (Wire.opaqueData m.opaqueData).length ≤ 1024) :
    Writes (m.writeBody c) id ([slotByte m, m.slotMask] ++ m.certChainHash ++ m.nonce ++
      m.measurementSummaryHash ++ Spec.le 2 (Wire.opaqueData m.opaqueData).length ++
      Wire.opaqueData m.opaqueData ++ m.signature) := by
  have hv : m.validate c = .ok () := by
    unfold ChallengeAuth.validate
    rw [if_neg (by omega), OpaqueData.serializedSize_eq hopq]
    simp only [Res.ok_bind]
    rw [if_neg (by simp [maxOpaqueDataSize]; omega)]
  refine Writes.congr (Writes.lift_bind hv <| (Writes.put _).bind fun _ => (Writes.put _).bind fun _ =>
    (Writes.extend _).bind fun _ => (Writes.extend _).bind fun _ => (Writes.extend _).bind fun _ =>
    Writes.lift_bind (OpaqueData.serializedSize_eq hopq) <| (Writes.le16 _).bind fun _ =>
    (OpaqueData.writes hopq).bind fun _ => (Writes.extend _).bind fun _ => Writes.offsetM) ?_
  rw [ofNat_toNat16 (by omega)]
  simp [slotByte]

theorem ChallengeAuth.writes' {c : Cfg} {ds ss : Nat} {m : ChallengeAuth} (h : ChallengeAuthWF c ds ss m) :
    Writes (m.writeBody c) id ([slotByte m, m.slotMask] ++ m.certChainHash ++ m.nonce ++
      m.measurementSummaryHash ++ Spec.le 2 (Wire.opaqueData m.opaqueData).length ++
      Wire.opaqueData m.opaqueData ++ m.signature) :=
  ChallengeAuth.writes_gen h.slot h.opq h.opqLen

theorem ChallengeAuth.writes {c : Cfg} {ds ss : Nat} {m : ChallengeAuth} (h : ChallengeAuthWF c ds ss m)
    (hm : m.useMutualAuth = false) : Writes (m.writeBody c) id (Wire.challengeAuth m) := by
  refine Writes.congr (ChallengeAuth.writes' h) ?_
  simp [slotByte, hm, Wire.challengeAuth]

theorem bits_slot {slot : UInt8} (h : slot < 16) (f : Bool) :
    bitField (UInt8.ofNat (slot.toNat + if f then 128 else 0)) 0 4 = slot ∧
    bitField (UInt8.ofNat (slot.toNat + if f then 128 else 0)) 7 1 = if f then 1 else 0 := by
  obtain ⟨i, rfl⟩ := u8_lt16 h
  revert i f
  decide +kernel

/-- The reader inverts the documented layout, also with the mutual authentication bit. -/
theorem ChallengeAuth.reads {c : Cfg} {ds ss : Nat} {m : ChallengeAuth} (h : ChallengeAuthWF c ds ss m) :
    Reads (ChallengeAuth.read c ds ss) (Wire.challengeAuth m) m := by
  have hlen := h.opqLen
  have hs : m.slot < 16 := by
    have := h.slot; have := h.slots
    rw [UInt8.lt_iff_toNat_lt]; simp; omega
  obtain ⟨hb0, hb7⟩ := bits_slot hs m.useMutualAuth
  have e : Wire.challengeAuth m = UInt8.ofNat (m.slot.toNat + if m.useMutualAuth then 128 else 0) ::
      ([m.slotMask] ++ (m.certChainHash ++ (m.nonce ++ (m.measurementSummaryHash ++
      (Spec.le 2 (UInt16.ofNat (Wire.opaqueData m.opaqueData).length).toNat ++ (Wire.opaqueData m.opaqueData ++
      (m.signature ++ []))))))) := by
    rw [ofNat_toNat16 (by omega)]
    simp [Wire.challengeAuth]
  rw [e]
  refine ReadsB.start (ReadsB.bits (by omega) (by omega) ?_)
  rw [hb0, if_neg (by have := h.slot; omega)]
  refine ReadsB.bits (by omega) (by omega) (ReadsB.last (by omega) (by omega) (by omega) ?_)
  simp only [Nat.zero_add]
  rw [hb7]
  refine (Reads.getByte _).bind ((Reads.getSlice _ h.cch (Nat.le_refl _)).bind
    ((Reads.getSlice _ h.nonce (Nat.le_refl _)).bind ((Reads.getSlice _ h.msh (Nat.le_refl _)).bind
    ((Reads.le16 _).bind ?_))))
  rw [if_neg (by rw [ofNat_toNat16 (by omega)]; simp [maxOpaqueDataSize]; omega)]
  refine (OpaqueData.reads h.opq).bind ((Reads.getSlice _ h.sig (Nat.le_refl _)).bind ?_)
  have : ((if m.useMutualAuth then (1 : UInt8) else 0) == 1) = m.useMutualAuth := by
    cases m.useMutualAuth <;> rfl
  rw [this]
  exact Reads.pure m

/-! ### ERROR -/

theorem ErrorMsg.writesSimple (code : UInt8) : Writes (ErrorMsg.putSimple code) id [code, 0] :=
  (Writes.put code).bind fun _ => Writes.put 0

theorem ErrorMsg.writes {m : ErrorMsg} (h : ∀ id v, m = .vendorDefined id v → v.opaqueLen ≤ v.opaqueErrorData.length) :
    Writes m.writeBody id (Wire.error m) := by
  cases m with
  | unsupportedRequest code => exact (Writes.put _).bind fun _ => Writes.put _
  | responseTooLarge n => exact (ErrorMsg.writesSimple _).bind fun _ => Writes.le32 n
  | largeResponse b => exact (ErrorMsg.writesSimple _).bind fun _ => Writes.put b
  | responseNotReady a b c d =>
    exact (ErrorMsg.writesSimple _).bind fun _ => (Writes.put _).bind fun _ => (Writes.put _).bind fun _ =>
      (Writes.put _).bind fun _ => (Writes.put _)
  | vendorDefined id v =>
    refine Writes.congr ((Writes.put _).bind fun _ => (Writes.put _).bind fun _ => (VendorId.writes _).bind fun _ =>
      Writes.lift_bind (sliceTo_ok (h id v rfl)) (Writes.extend _)) ?_
    simp only [Wire.error, List.append_assoc]
    cases id <;> rfl
  | _ => exact ErrorMsg.writesSimple _

theorem ErrorMsg.reads {m : ErrorMsg} (h : ErrorWF m) : Reads ErrorMsg.read (Wire.error m) m := by
  cases m with
  | vendorDefined id v =>
    obtain ⟨bs, h1, h2, h3⟩ := VendorId.wire_split v.vendorId
    have e : Wire.error (.vendorDefined id v) = [0xFF] ++ ([Wire.registry id] ++
        ([UInt8.ofNat (Wire.vendorIdLen v.vendorId)] ++ (bs ++ []))) := by
      simp [Wire.error, h1, h.1]
    rw [e]
    refine (Reads.getByte _).bind ((Reads.getByte _).bind ?_)
    have hv : VendorRegistryId.tryFrom (Wire.registry id) = some id := by cases id <;> rfl
    rw [hv]
    refine (Reads.getByte _).bind (h3.bind ?_)
    have : ({ VendorDefined.empty with vendorId := v.vendorId } : VendorDefined) = v := by
      obtain ⟨a, b, d⟩ := v
      obtain ⟨h4, h5⟩ := h
      simp only at h4 h5
      subst h4 h5
      rfl
    rw [this]
    exact Reads.pure _
  | responseTooLarge n =>
    exact Reads.congr ((Reads.getByte 0x0D).bind ((Reads.getByte 0).bind ((Reads.le32 n).bind (Reads.pure _))))
      (by simp [Wire.error])
  | largeResponse b => exact (Reads.getByte 0x0F).bind ((Reads.getByte 0).bind ((Reads.getByte b).bind (Reads.pure _)))
  | responseNotReady a b c d =>
    exact (Reads.getByte 0x42).bind ((Reads.getByte 0).bind ((Reads.getByte a).bind ((Reads.getByte b).bind
      ((Reads.getByte c).bind ((Reads.getByte d).bind (Reads.pure _))))))
  | unsupportedRequest code => exact (Reads.getByte 0x07).bind ((Reads.getByte code).bind (Reads.pure _))
  | invalidRequest => exact (Reads.getByte _).bind ((Reads.getByte _).bind (Reads.pure _))
  | busy => exact (Reads.getByte _).bind ((Reads.getByte _).bind (Reads.pure _))
  | unexpectedRequest => exact (Reads.getByte _).bind ((Reads.getByte _).bind (Reads.pure _))
  | unspecified => exact (Reads.getByte _).bind ((Reads.getByte _).bind (Reads.pure _))
  | decryptError => exact (Reads.getByte _).bind ((Reads.getByte _).bind (Reads.pure _))
  | requestInFlight => exact (Reads.getByte _).bind ((Reads.getByte _).bind (Reads.pure _))
  | invalidResponseCode => exact (Reads.getByte _).bind ((Reads.getByte _).bind (Reads.pure _))
  | sessionLimitExceeded => exact (Reads.getByte _).bind ((Reads.getByte _).bind (Reads.pure _))
  | sessionRequired => exact (Reads.getByte _).bind ((Reads.getByte _).bind (Reads.pure _))
  | resetRequired => exact (Reads.getByte _).bind ((Reads.getByte _).bind (Reads.pure _))
  | requestTooLarge => exact (Reads.getByte _).bind ((Reads.getByte _).bind (Reads.pure _))
  | messageLost => exact (Reads.getByte _).bind ((Reads.getByte _).bind (Reads.pure _))
  | versionMismatch => exact (Reads.getByte _).bind ((Reads.getByte _).bind (Reads.pure _))
  | requestResynch => exact (Reads.getByte _).bind ((Reads.getByte _).bind (Reads.pure _))

/-! ### GET_MEASUREMENTS -/

theorem index_toU8 {i : MeasurementIndex} (h : IndexWF i) : i.toU8 = .ok (Wire.measurementIndex i) := by
  cases i with
  | implementationDefined v =>
    simp only [IndexWF] at h
    simp only [MeasurementIndex.toU8, Wire.measurementIndex]
    rw [if_neg]
    simp only [not_or, UInt8.not_lt, gt_iff_lt]
    exact h
  | reserved v =>
    simp only [IndexWF] at h
    simp only [MeasurementIndex.toU8, Wire.measurementIndex]
    rw [if_neg]
    simp only [not_or, UInt8.not_lt, gt_iff_lt]
    exact h
  | _ => rfl

theorem index_ofU8 {i : MeasurementIndex} (h : IndexWF i) : MeasurementIndex.ofU8 (Wire.measurementIndex i) = i := by
  cases i with
  | implementationDefined v =>
    revert h; revert v; apply forall_u8; unfold IndexWF; decide +kernel
  | reserved v =>
    revert h; revert v; apply forall_u8; unfold IndexWF; decide +kernel
  | _ => rfl

theorem GetMeasurements.writes {c : Cfg} {m : GetMeasurements} (h : GetMeasurementsWF c m) :
    Writes m.writeBody id (Wire.getMeasurements m) := by
  unfold GetMeasurements.writeBody
  cases hs : m.attributes.signatureRequested with
  | true =>
    obtain ⟨n, hn, _⟩ := h.nonce hs
    refine Writes.congr ((Writes.put _).bind fun _ => Writes.lift_bind (index_toU8 h.index) <|
      (Writes.put _).bind (cs := n ++ ([m.slotId] ++ [])) (g := id) fun _ => ?_) ?_
    · simp only [if_true]
      rw [hn]
      exact (Writes.extend n).bind fun _ => (Writes.put _).bind fun _ => Writes.offsetM
    · simp [Wire.getMeasurements, hs, hn, RequestAttributes.toU8]
      cases m.attributes.rawBitStreamRequested <;> rfl
  | false =>
    refine Writes.congr ((Writes.put _).bind fun _ => Writes.lift_bind (index_toU8 h.index) <|
      (Writes.put _).bind (cs := []) (g := id) fun _ => ?_) ?_
    · exact Writes.offsetM
    · simp [Wire.getMeasurements, hs, RequestAttributes.toU8]
      cases m.attributes.rawBitStreamRequested <;> rfl

theorem GetMeasurements.reads {c : Cfg} {m : GetMeasurements} (h : GetMeasurementsWF c m) :
    Reads (GetMeasurements.read c) (Wire.getMeasurements m) m := by
  obtain ⟨⟨sg, raw⟩, idx, nonce, slot⟩ := m
  have hb : ∀ sg raw : Bool, bitField (UInt8.ofNat ((if sg then 1 else 0) + (if raw then 2 else 0))) 0 1 = (if sg then 1 else 0) ∧
      bitField (UInt8.ofNat ((if sg then 1 else 0) + (if raw then 2 else 0))) 1 1 = (if raw then 1 else 0) ∧
      bitField (UInt8.ofNat ((if sg then 1 else 0) + (if raw then 2 else 0))) 2 6 = 0 := by decide
  obtain ⟨hb0, hb1, hb2⟩ := hb sg raw
  obtain ⟨B, hB⟩ : ∃ B, B = UInt8.ofNat ((if sg then 1 else 0) + (if raw then 2 else 0)) := ⟨_, rfl⟩
  rw [← hB] at hb0 hb1 hb2
  have hraw : ((if raw then (1 : UInt8) else 0) == 1) = raw := by cases raw <;> rfl
  cases sg with
  | true =>
    obtain ⟨n, hn, hl⟩ := h.nonce rfl
    simp only at hn
    subst hn
    have e : Wire.getMeasurements ⟨⟨true, raw⟩, idx, some n, slot⟩ =
        B :: ([Wire.measurementIndex idx] ++ (n ++ ([slot] ++ []))) := by
      simp [Wire.getMeasurements, hB]
    rw [e]
    refine ReadsB.start (ReadsB.bits (by omega) (by omega) (ReadsB.bits (by omega) (by omega)
      (ReadsB.last (by omega) (by omega) (by omega) ?_)))
    simp only [Nat.zero_add, Nat.reduceAdd, hb0, hb1, hb2]
    rw [if_neg (by simp)]
    refine (Reads.getByte _).bind ?_
    rw [if_pos (by simp)]
    refine (Reads.getSlice _ hl (Nat.le_refl _)).bind ((Reads.getByte _).bind ?_)
    rw [if_neg (by have := h.slot; simp only at this; omega), hraw, index_ofU8 h.index]
    exact Reads.pure _
  | false =>
    obtain ⟨hn, hz⟩ := h.plain rfl
    simp only at hn hz
    subst hn hz
    have e : Wire.getMeasurements ⟨⟨false, raw⟩, idx, none, 0⟩ =
        B :: ([Wire.measurementIndex idx] ++ []) := by
      simp [Wire.getMeasurements, hB]
    rw [e]
    refine ReadsB.start (ReadsB.bits (by omega) (by omega) (ReadsB.bits (by omega) (by omega)
      (ReadsB.last (by omega) (by omega) (by omega) ?_)))
    simp only [Nat.zero_add, Nat.reduceAdd, hb0, hb1, hb2]
    rw [if_neg (by simp)]
    refine (Reads.getByte _).bind ?_
    rw [if_neg (by simp), hraw, index_ofU8 h.index]
    exact Reads.pure _

end Spdm
