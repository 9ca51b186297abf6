import Verif.Lemmas.Inv2
/-! What a successful read says: CHALLENGE_AUTH and the measurement messages. -/
namespace Spdm
open Spec

theorem ChallengeAuth.inverts (c : Cfg) (ds ss : Nat) : Inverts (ChallengeAuth.read c ds ss) (fun bs m =>
    ∃ b olen, bs = [b, m.slotMask] ++ m.certChainHash ++ m.nonce ++ m.measurementSummaryHash ++ Spec.le 2 olen ++
      Wire.opaqueData m.opaqueData ++ m.signature ∧ m.slot = bitField b 0 4 ∧ m.useMutualAuth = (bitField b 7 1 == 1) ∧
      m.slot.toNat ≤ c.numSlots ∧ m.certChainHash.length = ds ∧ m.nonce.length = c.nonceSize ∧ m.measurementSummaryHash.length = ds ∧
      OpaqueDataWF c m.opaqueData ∧ m.signature.length = ss ∧ olen ≤ 1024) := by
  unfold ChallengeAuth.read Nonce.read
  refine (Inverts.start (InvertsB.bits (by omega) (by omega) fun slot => InvertsB.guard fun _ => InvertsB.bits (by omega) (by omega) fun _ =>
    InvertsB.last (by omega) (by omega) (by omega) fun bit => Inverts.getByte.bind fun mask => (Inverts.getSlice _ _).bind fun cch =>
    (Inverts.getSlice _ _).bind fun nonce => (Inverts.getSlice _ _).bind fun msh => Inverts.getU16.bind fun olen => Inverts.guard fun _ =>
    (OpaqueData.inverts c).bind fun od => (Inverts.getSlice _ _).bind fun sig => Inverts.pure _)).mono ?_
  rintro bs m ⟨b, _, rfl, hs, _, _, mask, rfl, rfl, cch, _, _, rfl, ⟨rfl, h1, _⟩, nonce, _, _, rfl, ⟨rfl, h2, _⟩, msh, _, _, rfl, ⟨rfl, h3, _⟩,
    _, _, olen, rfl, rfl, ho, _, _, od, rfl, ⟨rfl, hod⟩, sig, _, _, rfl, ⟨rfl, h4, _⟩, rfl, rfl⟩
  simp only [maxOpaqueDataSize] at ho
  exact ⟨b, olen.toNat, by simp, rfl, rfl, by simp; omega, h1, h2, h3, hod, h4, by omega⟩

/-- A measured read. -/
theorem Inverts.measured {α β : Type} {p : R α} {q : α → R β} {P : Bytes → α → Prop} {Q : α → Bytes → β → Prop} {size : Nat} {e : Err}
    (hp : Inverts p P) (hq : ∀ a, Inverts (q a) (Q a)) :
    Inverts (do
      let r ← M.get
      let offset := r.byteOffset
      let x ← p
      let r ← M.get
      if size ≠ r.byteOffset - offset then M.fail e else q x)
      (fun bs b => ∃ b1 b2 a, bs = b1 ++ b2 ∧ P b1 a ∧ size = b1.length ∧ Q a b2 b) := by
  intro pre tail b r'' h
  rw [M.run_bind_ok (M.run_get _)] at h
  obtain ⟨a, r', h1, h2⟩ := M.bind_ok_inv h
  obtain ⟨b1, rest1, e1, e2, e3⟩ := hp pre tail a r' h1
  rw [M.run_bind_ok (M.run_get _)] at h2
  rw [M.ite_run] at h2
  split at h2
  · simp at h2
  · rename_i hsz
    rw [not_not] at hsz
    have h2' : q a ⟨(pre ++ b1) ++ rest1, (pre ++ b1).length, 0⟩ = (.ok b, r'') := by
      rw [← h2, e2, e1, List.append_assoc, List.length_append]
    obtain ⟨b2, rest2, g1, g2, g3⟩ := hq a (pre ++ b1) rest1 b r'' h2'
    refine ⟨b1 ++ b2, rest2, by rw [e1, g1]; simp, by rw [g2, e1]; simp; omega, b1, b2, a, rfl, e3, ?_, g3⟩
    rw [hsz, e2]; simp

theorem vt_inv {b : UInt8} {t : ValueType} {r : ValueRepresentation} (h1 : ValueType.tryFrom (b &&& 0x7f) = .ok t)
    (h2 : ValueRepresentation.tryFrom (b &&& 0x80) = .ok r) : b = UInt8.ofNat (Wire.valueType t + Wire.repBit r) := by
  revert h1 h2; revert b; cases t <;> cases r <;> (apply forall_u8; decide +kernel)

/-- The value matches the representation and is within the limits. -/
def DmtfFits (c : Cfg) (m : DmtfMeasurement) : Prop :=
  match m.valueRepresentation, m.value with
    | .digest, .digest bs => bs.length ≤ c.maxDigestSize ∧ bs.length < 65536
    | .rawBitStream, .bitStream bs => bs.length ≤ c.maxMeasurementSize ∧ bs.length < 65536
    | _, _ => False

theorem DmtfMeasurement.inverts (c : Cfg) : Inverts (DmtfMeasurement.read c) (fun bs m => bs = Wire.dmtfMeasurement m ∧ DmtfFits c m) := by
  unfold DmtfMeasurement.read
  refine (Inverts.getByte.bind fun b => (Inverts.lift _).bind fun ty => (Inverts.lift _).bind fun rep => Inverts.getU16.bind
    (Q := fun size bs m => m.valueRepresentation = rep ∧ m.valueType = ty ∧ bs = Wire.valueBytes m.value ∧ bs.length = size.toNat ∧ DmtfFits c m) fun size => ?_).mono ?_
  · have := size.toNat_lt
    cases rep with
    | digest =>
      refine Inverts.ite (fun h => ((Inverts.getSlice _ _).bind fun _ => Inverts.pure _).mono ?_) fun _ => (Inverts.fail _).mono (by simp)
      rintro bs m ⟨d, _, _, rfl, ⟨rfl, hl, _⟩, rfl, rfl⟩
      exact ⟨rfl, rfl, by simp [Wire.valueBytes], by simpa using hl, by simp [DmtfFits]; omega⟩
    | rawBitStream =>
      refine (Inverts.guard fun h => (Inverts.getSlice _ _).bind fun _ => Inverts.pure _).mono ?_
      rintro bs m ⟨_, d, _, _, rfl, ⟨rfl, hl, hm⟩, rfl, rfl⟩
      exact ⟨rfl, rfl, by simp [Wire.valueBytes], by simpa using hl, by simp [DmtfFits]; omega⟩
  · rintro bs m ⟨_, _, b, rfl, rfl, _, _, ty, rfl, ⟨rfl, h1⟩, _, _, rep, rfl, ⟨rfl, h2⟩, _, w, size, rfl, rfl, rfl, rfl, hw, hl, hf⟩
    refine ⟨?_, hf⟩
    simp only [Wire.dmtfMeasurement]
    rw [← hw, hl, vt_inv h1 h2]
    simp

theorem MeasurementBlock.inverts (c : Cfg) : Inverts (MeasurementBlock.read c) (fun bs b => bs = Wire.measurementBlock b ∧ BlockWF c b) := by
  unfold MeasurementBlock.read
  refine (Inverts.getByte.bind fun i => Inverts.getByte.bind fun s => Inverts.guard fun _ => Inverts.getU16.bind fun size =>
    Inverts.measured (DmtfMeasurement.inverts c) fun m => Inverts.pure _).mono ?_
  rintro bs b ⟨_, _, i, rfl, rfl, _, _, s, rfl, rfl, hs, _, _, size, rfl, rfl, _, _, m, rfl, ⟨rfl, hf⟩, hsz, rfl, rfl⟩
  rw [not_not] at hs
  have hlt := size.toNat_lt
  have hb : (Wire.valueBytes m.value).length + 3 < 65536 := by
    have := dmtf_length m; omega
  refine ⟨?_, rfl, ?_⟩
  · simp only [Wire.measurementBlock]
    rw [← hsz, hs]
    simp
  · revert hf hb
    obtain ⟨rep, ty, v⟩ := m
    cases rep <;> cases v <;> simp [DmtfFits, Wire.valueBytes]
    all_goals (intros; omega)

theorem MeasurementBlocks.inverts (c : Cfg) : Inverts (MeasurementBlocks.read c) (fun bs m => bs = Wire.measurementBlocks m ∧ BlocksWF c m ∧
    ((Wire.blockList m).flatMap Wire.measurementBlock).length ≤ c.maxMeasurementSize * c.maxMeasurementBlocks ∧
    ((Wire.blockList m).flatMap Wire.measurementBlock).length < 2 ^ 24) := by
  unfold MeasurementBlocks.read
  have harr : ∀ n i (l : List (Option MeasurementBlock)), i ≤ l.length → Inverts (MeasurementBlocks.readLoop c n i l) _ :=
    inverts_array (loop := MeasurementBlocks.readLoop c) (item := do let b ← MeasurementBlock.read c; pure (some b)) (chk := fun _ => .ok ())
      (Wr := fun bs o => ∃ b, o = some b ∧ bs = Wire.measurementBlock b ∧ BlockWF c b)
      (fun _ _ => rfl) (fun n i l => by
        funext r
        show (MeasurementBlock.read c >>= fun b => M.lift (setIndex l i (some b)) >>= fun l => MeasurementBlocks.readLoop c n (i + 1) l) r = _
        cases h : MeasurementBlock.read c r with
        | mk x r' =>
          cases x with
          | ok b =>
            rw [M.run_bind_ok h]
            have : (do let b ← MeasurementBlock.read c; pure (some b) : R _) r = (.ok (some b), r') := by rw [M.run_bind_ok h]; rfl
            rw [M.run_bind_ok this]; rfl
          | err e =>
            rw [M.run_bind_err h]
            have : (do let b ← MeasurementBlock.read c; pure (some b) : R _) r = (.err e, r') := by rw [M.run_bind_err h]
            rw [M.run_bind_err this]
          | panic k =>
            rw [M.run_bind_panic h]
            have : (do let b ← MeasurementBlock.read c; pure (some b) : R _) r = (.panic k, r') := by rw [M.run_bind_panic h]
            rw [M.run_bind_panic this])
      (((MeasurementBlock.inverts c).bind fun b => Inverts.pure _).mono (by
        rintro bs o ⟨_, _, b, rfl, ⟨rfl, hb⟩, rfl, rfl⟩
        exact ⟨b, rfl, by simp, hb⟩))
  refine (Inverts.getByte.bind fun num => Inverts.getU24.bind fun size => Inverts.guard fun _ =>
    Inverts.measured (harr _ _ _ (by simp)) fun bs => Inverts.pure _).mono ?_
  rintro bs m ⟨_, _, num, rfl, rfl, _, _, size, rfl, ⟨rfl, h24⟩, hmax, w, _, l, rfl, ⟨xs, k1, k2, k3, k4, k5⟩, hsz, rfl, rfl⟩
  simp only [MeasurementBlocks.dflt, List.length_replicate, Nat.zero_add] at k2
  simp only [MeasurementBlocks.dflt] at k5
  obtain ⟨p1, p2, p3⟩ := array_parts (d := (none : Option MeasurementBlock)) (k := c.maxMeasurementBlocks) (xs := xs.map Prod.snd) (n := num.toNat) (by simp [k1]) k2
  rw [← k5] at p1 p2 p3
  have hnum := num.toNat_lt
  have hflat : ∀ ys : List (Bytes × Option MeasurementBlock), (∀ x ∈ ys, ∃ b, x.2 = some b ∧ x.1 = Wire.measurementBlock b ∧ BlockWF c b) →
      (ys.map Prod.fst).flatten = ((ys.map Prod.snd).filterMap id).flatMap Wire.measurementBlock := by
    intro ys
    induction ys with
    | nil => intro _; rfl
    | cons y ys ih =>
      intro h
      obtain ⟨b, hb1, hb2, _⟩ := h y (by simp)
      simp only [List.map_cons, List.flatten_cons, hb1]
      rw [ih fun z hz => h z (by simp [hz]), List.filterMap_cons_some (f := id) (a := some b) (b := b) rfl, List.flatMap_cons, hb2]
  have hbl : w = (Wire.blockList ⟨num.toNat, l⟩).flatMap Wire.measurementBlock := by
    simp only [Wire.blockList, p2]
    rw [k3, hflat xs fun x hx => (k4 x hx).1]
  refine ⟨?_, ⟨p1, hnum, k2, ?_, p3⟩, ?_⟩
  · simp only [Wire.measurementBlocks]
    rw [← hbl, ← hsz]
    simp
  · intro i hi
    simp only at hi ⊢
    have hx : i < xs.length := by omega
    obtain ⟨b, hb1, hb2, hb3⟩ := (k4 xs[i] (by simp)).1
    refine ⟨b, ?_, hb3⟩
    have : (l.take num.toNat)[i]? = some (some b) := by rw [p2]; simp [hx, hb1]
    rw [List.getElem?_take, if_pos hi] at this
    exact this
  · rw [← hbl, ← hsz]; exact ⟨by omega, h24⟩

theorem dropResult_run {α : Type} {q : Unit → R α} (pre tail : Bytes) (b : UInt8) :
    (Measurements.dropResult (Reader.getBits 2) >>= q) ⟨pre ++ b :: tail, pre.length, 6⟩ =
      q () ⟨(pre ++ [b]) ++ tail, (pre ++ [b]).length, 0⟩ := by
  rw [M.run_bind_ok (dropResult_bits pre tail 6 2 (by omega) (by omega) (by omega))]
  simp

theorem InvertsB.dropLast {α : Type} {q : Unit → R α} {Q : Bytes → α → Prop} (hq : Inverts (q ()) Q) :
    InvertsB 6 (Measurements.dropResult (Reader.getBits 2) >>= q) (fun _ bs a => Q bs a) := by
  intro pre b tail a r' hr
  rw [dropResult_run] at hr
  obtain ⟨bs, rest, h1, h2, h3⟩ := hq (pre ++ [b]) tail a r' hr
  exact ⟨bs, rest, h1, by rw [h2]; simp, h3⟩

theorem cc_inv {b : UInt8} {cc : ContentChanged} (h : ContentChanged.tryFrom b = .ok cc) : b.toNat * 16 = Wire.ccBits cc := by
  unfold ContentChanged.tryFrom at h
  split at h
  · simp at h; subst h; simp [Wire.ccBits, *]
  · split at h
    · simp at h; subst h; simp [Wire.ccBits, *]
    · split at h
      · simp at h; subst h; simp [Wire.ccBits, *]
      · simp at h

theorem Measurements.inverts (c : Cfg) (sg : Bool) (ss : Nat) : Inverts (Measurements.read c sg ss) (fun bs m =>
    ∃ p2 olen, bs = [m.totalBlocks, p2] ++ Wire.measurementBlocks m.blocks ++ m.nonce ++ Spec.le 2 olen ++
      Wire.opaqueData m.opaqueData ++ m.signature.getD [] ∧ m.totalBlocks.toNat ≤ c.maxMeasurementBlocks ∧
      m.slotId = bitField p2 0 4 ∧ (bitField p2 4 2).toNat * 16 = Wire.ccBits m.contentChanged ∧ m.slotId.toNat ≤ c.numSlots ∧
      BlocksWF c m.blocks ∧ m.nonce.length = c.nonceSize ∧ OpaqueDataWF c m.opaqueData ∧ olen ≤ 1024 ∧
      m.signature.isSome = sg ∧ (∀ s, m.signature = some s → s.length = ss)) := by
  unfold Measurements.read Nonce.read
  refine (Inverts.getByte.bind fun total => Inverts.guard fun _ => Inverts.start (InvertsB.bits (by omega) (by omega) fun slot => InvertsB.guard fun _ =>
    InvertsB.bits (by omega) (by omega) fun ccb => InvertsB.lift_bind fun cc => InvertsB.dropLast <| (MeasurementBlocks.inverts c).bind fun blocks =>
    (Inverts.getSlice _ _).bind fun nonce => Inverts.getU16.bind fun olen => Inverts.guard fun _ => (OpaqueData.inverts c).bind
    (Q := fun (od : OpaqueData) (bs : Bytes) (m : Measurements) => ∃ sig : Option Bytes, bs = sig.getD [] ∧ sig.isSome = sg ∧ (∀ s, sig = some s → s.length = ss) ∧
      m = (⟨total, cc, slot, blocks, nonce, od, sig⟩ : Measurements)) fun od => ?_)).mono ?_
  · cases sg with
    | true =>
      show Inverts (Reader.getSlice ss ss >>= fun s => pure (⟨total, cc, slot, blocks, nonce, od, some s⟩ : Measurements)) _
      refine ((Inverts.getSlice _ _).bind fun sig => Inverts.pure _).mono ?_
      rintro bs m ⟨sig, _, _, rfl, ⟨rfl, hl, _⟩, rfl, rfl⟩
      exact ⟨some sig, by simp, rfl, by simpa using hl, rfl⟩
    | false =>
      show Inverts (pure (⟨total, cc, slot, blocks, nonce, od, none⟩ : Measurements)) _
      refine (Inverts.pure _).mono ?_
      rintro bs m ⟨rfl, rfl⟩
      exact ⟨none, rfl, rfl, by simp, rfl⟩
  · rintro bs m ⟨_, _, total, rfl, rfl, ht, p2, _, rfl, hs, cc, hcc, _, _, blocks, rfl, ⟨rfl, hb, _⟩, nonce, _, _, rfl, ⟨rfl, hn, _⟩, _, _, olen, rfl, rfl, ho,
      _, _, od, rfl, ⟨rfl, hod⟩, sig, rfl, h1, h2, rfl⟩
    simp only [maxOpaqueDataSize] at ho
    refine ⟨p2, olen.toNat, by simp, by simp; omega, rfl, ?_, by simp; omega, hb, hn, hod, by omega, h1, h2⟩
    simpa using cc_inv hcc

theorem gm_bits {b : UInt8} (h : bitField b 2 6 = 0) :
    b = UInt8.ofNat ((if bitField b 0 1 == 1 then 1 else 0) + (if bitField b 1 1 == 1 then 2 else 0)) := by
  revert h; revert b; apply forall_u8; decide +kernel

theorem ofU8_wf (v : UInt8) : IndexWF (MeasurementIndex.ofU8 v) ∧ Wire.measurementIndex (MeasurementIndex.ofU8 v) = v := by
  have hd : ∀ i : Fin 256, MeasurementIndex.toU8 (MeasurementIndex.ofU8 (UInt8.ofNat i.val)) = .ok (UInt8.ofNat i.val) := by decide +kernel
  revert v; apply forall_u8
  intro i
  have := hd i
  generalize MeasurementIndex.ofU8 (UInt8.ofNat i.val) = x at *
  cases x with
  | implementationDefined j =>
    simp only [MeasurementIndex.toU8] at this
    split at this
    · simp at this
    · rename_i h
      simp only [Res.ok.injEq] at this
      refine ⟨⟨?_, ?_⟩, this⟩
      · exact UInt8.not_lt.mp fun hh => h (Or.inl hh)
      · exact UInt8.not_lt.mp fun hh => h (Or.inr hh)
  | reserved j =>
    simp only [MeasurementIndex.toU8] at this
    split at this
    · simp at this
    · rename_i h
      simp only [Res.ok.injEq] at this
      refine ⟨⟨?_, ?_⟩, this⟩
      · exact UInt8.not_lt.mp fun hh => h (Or.inl hh)
      · exact UInt8.not_lt.mp fun hh => h (Or.inr hh)
  | _ => simp only [MeasurementIndex.toU8, Res.ok.injEq] at this; exact ⟨trivial, this⟩

theorem GetMeasurements.inverts (c : Cfg) (hc : 0 < c.numSlots) : Inverts (GetMeasurements.read c) (fun bs m =>
    bs = Wire.getMeasurements m ∧ GetMeasurementsWF c m) := by
  unfold GetMeasurements.read Nonce.read Reader.getBit
  refine (Inverts.start (InvertsB.bits (by omega) (by omega) fun sig => InvertsB.bits (by omega) (by omega) fun raw =>
    InvertsB.last (by omega) (by omega) (by omega) fun rsvd => Inverts.guard fun _ => Inverts.getByte.bind
    (Q := fun (i : UInt8) (bs : Bytes) (m : GetMeasurements) => m.attributes = ⟨sig == 1, raw == 1⟩ ∧ m.index = MeasurementIndex.ofU8 i ∧
      bs = (if sig == 1 then m.nonce.getD [] ++ [m.slotId] else []) ∧ m.slotId.toNat < c.numSlots ∧
      (sig = 1 → ∃ n : Bytes, m.nonce = some n ∧ n.length = c.nonceSize) ∧ (sig ≠ 1 → m.nonce = none ∧ m.slotId = 0)) fun i => ?_)).mono ?_
  · refine Inverts.ite (fun hs => ((Inverts.getSlice _ _).bind fun n => Inverts.getByte.bind fun slot => Inverts.guard fun _ => Inverts.pure _).mono ?_)
      fun hs => (Inverts.pure _).mono ?_
    · rintro bs m ⟨n, _, _, rfl, ⟨rfl, hn, _⟩, _, _, slot, rfl, rfl, hslot, rfl, rfl⟩
      exact ⟨rfl, rfl, by simp [hs], by simpa using hslot, fun _ => ⟨n, rfl, hn⟩, fun h => absurd hs h⟩
    · rintro bs m ⟨rfl, rfl⟩
      exact ⟨rfl, rfl, by simp [hs], by simpa using hc, fun h => absurd h hs, fun _ => ⟨rfl, rfl⟩⟩
  · rintro bs m ⟨b, _, rfl, hr, _, _, i, rfl, rfl, ha, hidx, rfl, hslot, h1, h2⟩
    rw [not_not] at hr
    obtain ⟨w1, w2⟩ := ofU8_wf i
    obtain ⟨at', idx, nonce, slot⟩ := m
    simp only at *
    subst ha hidx
    refine ⟨?_, w1, hslot, ?_, ?_⟩
    · simp only [Wire.getMeasurements, w2]
      have hb := gm_bits hr
      exact congrArg (fun z => z :: ([i] ++ if bitField b 0 1 == 1 then nonce.getD [] ++ [slot] else [])) hb
    · intro h; exact h1 (by simpa using h)
    · intro h; exact h2 (by simpa using h)

end Spdm
