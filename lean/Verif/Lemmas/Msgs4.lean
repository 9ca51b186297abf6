import Verif.Lemmas.Msgs3
/-! Writers and readers of MEASUREMENTS and of certificate chains. -/
namespace Spdm
open Spec

/-! ### MEASUREMENTS -/

theorem valueBytes_eq (v : MeasurementValue) : v.bytes = Wire.valueBytes v := by cases v <;> rfl

theorem dmtf_length (m : DmtfMeasurement) : (Wire.dmtfMeasurement m).length = 3 + (Wire.valueBytes m.value).length := by
  simp [Wire.dmtfMeasurement]; omega

theorem dmtf_ser (m : DmtfMeasurement) : m.serializedSize = (Wire.dmtfMeasurement m).length := by
  rw [dmtf_length, DmtfMeasurement.serializedSize, valueBytes_eq]

theorem toU16_ok {n : Nat} (h : n < 65536) : toU16Unwrap n = .ok (UInt16.ofNat n) := by simp [toU16Unwrap, h]

theorem DmtfMeasurement.writes {m : DmtfMeasurement} (h : (Wire.valueBytes m.value).length < 65536) :
    Writes m.write id (Wire.dmtfMeasurement m) := by
  unfold DmtfMeasurement.write
  rw [valueBytes_eq]
  refine Writes.congr ((Writes.put _).bind fun _ => Writes.lift_bind (toU16_ok h) <| (Writes.le16 _).bind fun _ =>
    Writes.extend _) ?_
  rw [ofNat_toNat16 h]
  simp only [Wire.dmtfMeasurement, List.append_assoc]
  congr 2
  cases m.valueRepresentation <;> cases m.valueType <;> rfl

theorem blockWF_len {c : Cfg} {b : MeasurementBlock} (h : BlockWF c b) :
    (Wire.valueBytes b.measurement.value).length + 3 < 65536 := by
  have := h.fits
  revert this
  cases b.measurement.valueRepresentation <;> cases b.measurement.value <;> simp [Wire.valueBytes]

theorem MeasurementBlock.writes {c : Cfg} {b : MeasurementBlock} (h : BlockWF c b) :
    Writes b.write id (Wire.measurementBlock b) := by
  have hl := blockWF_len h
  unfold MeasurementBlock.write
  rw [dmtf_ser]
  refine Writes.congr ((Writes.put _).bind fun _ => (Writes.put _).bind fun _ => Writes.lift_bind (toU16_ok (by rw [dmtf_length]; omega)) <|
    (Writes.le16 _).bind fun _ => DmtfMeasurement.writes (by omega)) ?_
  rw [ofNat_toNat16 (by rw [dmtf_length]; omega)]
  simp [Wire.measurementBlock]

theorem DmtfMeasurement.reads {c : Cfg} {b : MeasurementBlock} (h : BlockWF c b) :
    Reads (DmtfMeasurement.read c) (Wire.dmtfMeasurement b.measurement) b.measurement := by
  have hl := blockWF_len h
  have hfit := h.fits
  obtain ⟨idx, sp, ⟨rep, ty, v⟩⟩ := b
  simp only at hl hfit ⊢
  have e : Wire.dmtfMeasurement ⟨rep, ty, v⟩ = [UInt8.ofNat (Wire.valueType ty + Wire.repBit rep)] ++
      (Spec.le 2 (UInt16.ofNat (Wire.valueBytes v).length).toNat ++ (Wire.valueBytes v ++ [])) := by
    rw [ofNat_toNat16 (by omega)]; simp [Wire.dmtfMeasurement]
  rw [e]
  refine (Reads.getByte _).bind (Reads.lift_bind (a := ty) (by cases rep <;> cases ty <;> rfl)
    (Reads.lift_bind (a := rep) (by cases rep <;> cases ty <;> rfl) ((Reads.le16 _).bind ?_)))
  cases rep with
  | digest =>
    cases v with
    | digest bs =>
      obtain ⟨h1, h2⟩ := hfit
      have hn : (UInt16.ofNat bs.length).toNat = bs.length := ofNat_toNat16 (by omega)
      dsimp only [Wire.valueBytes]
      simp only [hn]
      rw [if_pos h1]
      exact (Reads.getSlice bs rfl (Nat.le_refl _)).bind (Reads.pure _)
    | bitStream bs => simp at hfit
  | rawBitStream =>
    cases v with
    | digest bs => simp at hfit
    | bitStream bs =>
      obtain ⟨h1, h2⟩ := hfit
      have hn : (UInt16.ofNat bs.length).toNat = bs.length := ofNat_toNat16 (by omega)
      dsimp only [Wire.valueBytes]
      simp only [hn]
      rw [if_neg (Nat.not_lt.mpr h1)]
      exact (Reads.getSlice bs rfl h1).bind (Reads.pure _)

/-- Reading something and comparing the number of bytes consumed with an announced size. -/
theorem Reads.measured {α β : Type} {p : R α} {q : α → R β} {bs cs : Bytes} {a : α} {b : β} {size : Nat} {e : Err}
    (hp : Reads p bs a) (hs : size = bs.length) (hq : Reads (q a) cs b) :
    Reads (do
      let r ← M.get
      let offset := r.byteOffset
      let x ← p
      let r ← M.get
      if size ≠ r.byteOffset - offset then M.fail e else q x) (bs ++ cs) b := by
  intro pre suf
  have h1 := hp pre (cs ++ suf)
  have h2 := hq (pre ++ bs) suf
  simp only [List.append_assoc, List.length_append] at h2 ⊢
  rw [M.run_bind_ok (M.run_get _)]
  dsimp only
  rw [M.run_bind_ok h1, M.run_bind_ok (M.run_get _)]
  dsimp only
  rw [if_neg (by simp; omega), h2, Nat.add_assoc]

theorem MeasurementBlock.reads {c : Cfg} {b : MeasurementBlock} (h : BlockWF c b) :
    Reads (MeasurementBlock.read c) (Wire.measurementBlock b) b := by
  have hl := blockWF_len h
  have hlt : (Wire.dmtfMeasurement b.measurement).length < 65536 := by rw [dmtf_length]; omega
  have e : Wire.measurementBlock b = [b.index] ++ ([b.measurementSpecSelected] ++
      (Spec.le 2 (UInt16.ofNat (Wire.dmtfMeasurement b.measurement).length).toNat ++ (Wire.dmtfMeasurement b.measurement ++ []))) := by
    rw [ofNat_toNat16 hlt]; simp [Wire.measurementBlock]
  rw [e]
  refine (Reads.getByte _).bind ((Reads.getByte _).bind ?_)
  rw [if_neg (by rw [h.spec]; decide)]
  refine (Reads.le16 _).bind (Reads.measured (DmtfMeasurement.reads h) (by rw [ofNat_toNat16 hlt]) ?_)
  have : (⟨b.index, measurementSpecDmtf, b.measurement⟩ : MeasurementBlock) = b := by
    obtain ⟨i, s, m⟩ := b
    have := h.spec
    simp only at this
    subst this; rfl
  rw [this]
  exact Reads.pure b

/-- The used blocks of a well-formed array. -/
theorem blocks_split {c : Cfg} {m : MeasurementBlocks} (h : BlocksWF c m) :
    m.blocks.take m.len = (Wire.blockList m).map some ∧ (Wire.blockList m).length = m.len ∧
      (∀ b ∈ Wire.blockList m, BlockWF c b) ∧
      m.blocks = (Wire.blockList m).map some ++ List.replicate (c.maxMeasurementBlocks - m.len) none := by
  have hlen := h.len
  have hal := h.alen
  have hex : ∀ o ∈ m.blocks.take m.len, ∃ b, o = some b ∧ BlockWF c b := by
    intro o ho
    obtain ⟨i, hi, rfl⟩ := List.getElem_of_mem ho
    rw [List.getElem_take]
    simp only [List.length_take] at hi
    obtain ⟨b, hb, hwf⟩ := h.used i (by omega)
    rw [List.getElem?_eq_getElem (by omega)] at hb
    exact ⟨b, by simpa using hb, hwf⟩
  have key : ∀ l : List (Option MeasurementBlock), (∀ o ∈ l, ∃ b, o = some b ∧ BlockWF c b) →
      l = (l.filterMap id).map some ∧ ∀ b ∈ l.filterMap id, BlockWF c b := by
    intro l
    induction l with
    | nil => intro _; simp
    | cons o os ih =>
      intro ho
      obtain ⟨b, rfl, hb⟩ := ho o (by simp)
      obtain ⟨i1, i2⟩ := ih fun x hx => ho x (by simp [hx])
      refine ⟨?_, ?_⟩
      · rw [List.filterMap_cons_some (f := id) (a := some b) (b := b) rfl, List.map_cons, ← i1]
      · intro x hx
        rw [List.filterMap_cons_some (f := id) (a := some b) (b := b) rfl] at hx
        rcases List.mem_cons.mp hx with rfl | hx
        · exact hb
        · exact i2 x hx
  obtain ⟨k1, k2⟩ := key _ hex
  refine ⟨k1, ?_, k2, ?_⟩
  · have := congrArg List.length k1
    simp only [List.length_take, List.length_map] at this
    simp only [Wire.blockList]
    omega
  · have := split_used (d := none) h.alen h.len h.unused
    rw [this]
    simp only [Wire.blockList]
    congr 1

theorem sumSizes_eq (bs : List MeasurementBlock) :
    MeasurementBlocks.sumSizes (bs.map some) = .ok (bs.flatMap Wire.measurementBlock).length := by
  induction bs with
  | nil => rfl
  | cons b bs ih =>
    simp only [List.map_cons, MeasurementBlocks.sumSizes, ih, Res.ok_bind, Res.pure_eq, List.flatMap_cons, List.length_append]
    congr 2
    rw [MeasurementBlock.serializedSize, dmtf_ser]
    simp [Wire.measurementBlock]; omega

theorem MeasurementBlocks.writesLoop {c : Cfg} (blocks : List (Option MeasurementBlock)) (bs : List MeasurementBlock) (i : Nat)
    (h : ∀ j, j < bs.length → blocks[i + j]? = some (bs[j]?)) (hw : ∀ b ∈ bs, BlockWF c b) :
    Writes (MeasurementBlocks.writeLoop blocks bs.length i) id (bs.flatMap Wire.measurementBlock) := by
  induction bs generalizing i with
  | nil => exact Writes.offsetM
  | cons b bs ih =>
    have h0 : index blocks i = .ok (some b) := by
      have := h 0 (by simp)
      simp at this
      simp [index, this]
    simp only [List.length_cons, MeasurementBlocks.writeLoop, List.flatMap_cons]
    refine Writes.lift_bind h0 ?_
    exact (MeasurementBlock.writes (hw b (by simp))).bind fun _ => ih (i + 1) (by
      intro j hj
      have := h (j + 1) (by simp; omega)
      rw [show i + (j + 1) = i + 1 + j by omega] at this
      simpa using this) fun x hx => hw x (by simp [hx])

theorem MeasurementBlocks.writes {c : Cfg} {m : MeasurementBlocks} (h : BlocksWF c m) :
    Writes m.write id (Wire.measurementBlocks m) := by
  obtain ⟨h1, h2, h3, h4⟩ := blocks_split h
  have hlen := h.len
  have hal := h.alen
  have hmax := h.max
  have hser : m.serializedSize = .ok ((Wire.blockList m).flatMap Wire.measurementBlock).length := by
    unfold MeasurementBlocks.serializedSize
    rw [sliceTo_ok (by omega)]
    simp only [Res.ok_bind]
    rw [h1, sumSizes_eq]
  have hloop := MeasurementBlocks.writesLoop (c := c) m.blocks (Wire.blockList m) 0 (by
    intro j hj
    rw [h4, Nat.zero_add, List.getElem?_append_left (by simpa using hj)]
    simp [hj]) h3
  rw [h2] at hloop
  refine Writes.congr (Writes.lift_bind (a := UInt8.ofNat m.len) (by rw [if_pos (by omega)]) <| (Writes.put _).bind fun _ =>
    Writes.lift_bind hser <| (Writes.le24 _).bind fun _ => hloop) ?_
  simp [Wire.measurementBlocks]

theorem MeasurementBlocks.readsLoop {c : Cfg} (pre todo : List MeasurementBlock) (rest post : List (Option MeasurementBlock))
    (hw : ∀ b ∈ todo, BlockWF c b) (hl : rest.length = todo.length) :
    Reads (MeasurementBlocks.readLoop c todo.length pre.length (pre.map some ++ rest ++ post))
      (todo.flatMap Wire.measurementBlock) (pre.map some ++ todo.map some ++ post) := by
  induction todo generalizing pre rest with
  | nil =>
    have : rest = [] := by simpa using hl
    subst this
    exact Reads.pure _
  | cons a as ih =>
    obtain ⟨r, rs, rfl⟩ : ∃ r rs, rest = r :: rs := by
      cases rest with
      | nil => simp at hl
      | cons r rs => exact ⟨r, rs, rfl⟩
    simp only [List.length_cons, MeasurementBlocks.readLoop, List.flatMap_cons]
    refine (MeasurementBlock.reads (hw a (by simp))).bind (Reads.lift_bind (setIndex_ok (by simp)) ?_)
    have := ih (pre ++ [a]) rs (fun x hx => hw x (by simp [hx])) (by simpa using hl)
    simp only [List.length_append, List.length_singleton, List.map_append, List.map_cons, List.map_nil, List.append_assoc, List.singleton_append] at this
    simp only [List.append_assoc, List.cons_append, List.map_cons]
    have hset : (pre.map some ++ r :: (rs ++ post)).set pre.length (some a) = pre.map some ++ some a :: (rs ++ post) := by
      simp
    rw [hset]
    exact this

theorem MeasurementBlocks.reads {c : Cfg} {m : MeasurementBlocks} (h : BlocksWF c m)
    (hmax : ((Wire.blockList m).flatMap Wire.measurementBlock).length ≤ c.maxMeasurementSize * c.maxMeasurementBlocks)
    (h24 : ((Wire.blockList m).flatMap Wire.measurementBlock).length < 2 ^ 24) :
    Reads (MeasurementBlocks.read c) (Wire.measurementBlocks m) m := by
  obtain ⟨h1, h2, h3, h4⟩ := blocks_split h
  have hlen := h.len
  have hb := h.max
  have hn : (UInt8.ofNat m.len).toNat = m.len := by
    rw [UInt8.toNat_ofNat']; exact Nat.mod_eq_of_lt (by omega)
  have e : Wire.measurementBlocks m = [UInt8.ofNat m.len] ++ (Spec.le 3 ((Wire.blockList m).flatMap Wire.measurementBlock).length ++
      ((Wire.blockList m).flatMap Wire.measurementBlock ++ [])) := by simp [Wire.measurementBlocks]
  rw [e]
  refine (Reads.getByte _).bind ((Reads.le24 _ h24).bind ?_)
  rw [if_neg (by omega)]
  refine Reads.measured (a := m.blocks) ?_ rfl ?_
  · have := MeasurementBlocks.readsLoop (c := c) [] (Wire.blockList m) (List.replicate m.len none)
      (List.replicate (c.maxMeasurementBlocks - m.len) none) h3 (by simp [h2])
    simp only [List.map_nil, List.nil_append, List.length_nil, List.replicate_append_replicate, h2] at this
    rw [show m.len + (c.maxMeasurementBlocks - m.len) = c.maxMeasurementBlocks by omega, ← h4] at this
    rw [hn]; exact this
  · rw [hn]; exact Reads.pure m

theorem param2_bits (cc : ContentChanged) {slot : UInt8} (hs : slot < 16) :
    let b := UInt8.ofNat (Wire.ccBits cc + slot.toNat)
    bitField b 0 4 = slot ∧ ContentChanged.tryFrom (bitField b 4 2) = .ok cc ∧
    ((match cc with
      | .true => (1 : UInt8) <<< 4
      | .false => (1 : UInt8) <<< 5
      | .notSupported => 0) ||| slot) = b := by
  obtain ⟨i, rfl⟩ := u8_lt16 hs
  cases cc <;> revert i <;> decide +kernel

theorem Measurements.writes {c : Cfg} {ss : Nat} {m : Measurements} (h : MeasurementsWF c ss m) :
    Writes m.writeBody id (Wire.measurements m) := by
  have hs : m.slotId < 16 := by
    have := h.slot; have := h.slots
    rw [UInt8.lt_iff_toNat_lt]; simp; omega
  have hlen := h.opqMax
  unfold Measurements.writeBody
  refine Writes.congr ((Writes.put _).bind fun _ => (Writes.put _).bind fun _ => (MeasurementBlocks.writes h.blocks).bind fun _ =>
    (Writes.extend _).bind fun _ => Writes.lift_bind (OpaqueData.serializedSize_eq h.opq) <| Writes.lift_bind (toU16_ok hlen) <|
    (Writes.le16 _).bind fun _ => (OpaqueData.writes h.opq).bind (cs := m.signature.getD []) (g := id) fun _ => ?_) ?_
  · cases m.signature with
    | none => exact Writes.offsetM
    | some s => exact Writes.extend s
  · rw [ofNat_toNat16 hlen]
    simp only [Wire.measurements, List.append_assoc]
    have hp : m.param2 = UInt8.ofNat (Wire.ccBits m.contentChanged +
      (if m.signature.isSome then m.slotId.toNat else 0)) := by
      unfold Measurements.param2
      cases hsig : m.signature.isSome with
      | true => exact (param2_bits m.contentChanged hs).2.2
      | false => exact (param2_bits m.contentChanged (slot := 0) (by decide)).2.2
    rw [hp]
    simp

theorem dropResult_bits {b : UInt8} (pre suf : Bytes) (bit n : Nat) (hn : 1 ≤ n) (h7 : n ≤ 7) (h8 : bit + n = 8) :
    Measurements.dropResult (Reader.getBits n) ⟨pre ++ b :: suf, pre.length, bit⟩ =
      (.ok (), ⟨pre ++ b :: suf, pre.length + 1, 0⟩) := by
  have := getBits_run pre suf b bit n hn h7 (by omega)
  rw [if_pos h8] at this
  simp [Measurements.dropResult, this]

theorem Measurements.reads {c : Cfg} {ss : Nat} {m : Measurements} (h : MeasurementsWF c ss m) (hr : MeasurementsReadable c m) :
    Reads (Measurements.read c m.signature.isSome ss) (Wire.measurements m) m := by
  have hlen := h.opqMax
  have ho := hr.opqLen
  have hs : m.slotId < 16 := by
    have := h.slot; have := h.slots
    rw [UInt8.lt_iff_toNat_lt]; simp; omega
  have hslot : (if m.signature.isSome then m.slotId.toNat else 0) = m.slotId.toNat := by
    cases hsig : m.signature with
    | none => simp [hr.slot hsig]
    | some s => simp
  have e : Wire.measurements m = [m.totalBlocks] ++ (UInt8.ofNat (Wire.ccBits m.contentChanged + m.slotId.toNat) ::
      (Wire.measurementBlocks m.blocks ++ (m.nonce ++ (Spec.le 2 (UInt16.ofNat (Wire.opaqueData m.opaqueData).length).toNat ++
        (Wire.opaqueData m.opaqueData ++ m.signature.getD []))))) := by
    rw [ofNat_toNat16 hlen]
    simp [Wire.measurements, hslot]
  rw [e]
  obtain ⟨hb0, hb4, _⟩ := param2_bits m.contentChanged hs
  generalize UInt8.ofNat (Wire.ccBits m.contentChanged + m.slotId.toNat) = B at hb0 hb4
  refine (Reads.getByte _).bind ?_
  rw [if_neg (by have := h.total; omega)]
  refine ReadsB.start (ReadsB.bits (by omega) (by omega) ?_)
  rw [hb0, if_neg (by have := h.slot; omega)]
  refine ReadsB.bits (by omega) (by omega) ?_
  simp only [Nat.zero_add] at hb4 ⊢
  rw [hb4]
  have hrest : Reads (do
      let blocks ← MeasurementBlocks.read c
      let nonce ← Nonce.read c
      let olen ← Reader.getU16
      if olen.toNat > maxOpaqueDataSize then M.fail .maxOpaqueDataSizeExceeded
      else
        let od ← OpaqueData.read c
        if m.signature.isSome then
          let s ← Reader.getSlice ss ss
          pure (⟨m.totalBlocks, m.contentChanged, m.slotId, blocks, nonce, od, some s⟩ : Measurements)
        else pure ⟨m.totalBlocks, m.contentChanged, m.slotId, blocks, nonce, od, none⟩)
      (Wire.measurementBlocks m.blocks ++ (m.nonce ++ (Spec.le 2 (UInt16.ofNat (Wire.opaqueData m.opaqueData).length).toNat ++
        (Wire.opaqueData m.opaqueData ++ m.signature.getD [])))) m := by
    refine (MeasurementBlocks.reads h.blocks hr.blocksLen hr.blocks24).bind ((Reads.getSlice _ h.nonce (Nat.le_refl _)).bind
      ((Reads.le16 _).bind ?_))
    rw [if_neg (by rw [ofNat_toNat16 hlen]; simp [maxOpaqueDataSize]; omega)]
    refine (OpaqueData.reads h.opq).bind ?_
    obtain ⟨tb, cc, sl, bl, no, od, sg⟩ := m
    cases sg with
    | none => exact Reads.pure _
    | some s => exact Reads.congr ((Reads.getSlice s (h.sig s rfl) (Nat.le_refl _)).bind (Reads.pure _)) (by simp)
  intro pre suf
  have h2 := hrest (pre ++ [B]) suf
  simp only [List.append_assoc, List.singleton_append, List.length_append, List.length_singleton] at h2
  rw [M.run_bind_ok (M.run_lift _ _), M.run_bind_ok (dropResult_bits pre _ 6 2 (by omega) (by omega) (by omega))]
  simp only [List.append_assoc, List.length_append] at h2 ⊢
  exact h2

end Spdm
