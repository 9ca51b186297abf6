import Verif.Lemmas.Safe
import Verif.Lemmas.Inv3
/-! Parsers that never panic. -/
namespace Spdm
open Spec

theorem fromBits8_np (m b : UInt8) (e : Err) : (fromBits8 m b e).isPanic = false := by unfold fromBits8; split <;> rfl
theorem fromBits16_np (m b : UInt16) (e : Err) : (fromBits16 m b e).isPanic = false := by unfold fromBits16; split <;> rfl
theorem fromBits32_np (m b : UInt32) (e : Err) : (fromBits32 m b e).isPanic = false := by unfold fromBits32; split <;> rfl

/-- An array-filling loop within the bounds of the array. -/
theorem safe_array {α : Type} {loop : Nat → Nat → List α → R (List α)} {item : R α} {chk : α → Res Unit}
    (h0 : ∀ i es, loop 0 i es = pure es)
    (h1 : ∀ n i es, loop (n + 1) i es = item >>= fun e => M.lift (chk e) >>= fun _ => M.lift (setIndex es i e) >>= fun es => loop n (i + 1) es)
    (hi : Safe item) (hc : ∀ a, (chk a).isPanic = false) :
    ∀ n i es, i + n ≤ es.length → Safe (loop n i es) := by
  intro n
  induction n with
  | zero => intro i es _; rw [h0]; exact Safe.pure _
  | succ n ih =>
    intro i es hl
    rw [h1]
    refine hi.bind fun e => (Safe.lift (hc e)).bind fun _ => ?_
    have hs : setIndex es i e = .ok (es.set i e) := by rw [setIndex, if_pos (by omega)]
    rw [hs]
    exact Safe.bind_of (fun l => l.length = es.length) (Safe.lift rfl) (by
      intro r a r' _ h
      simp only [M.run_lift, Prod.mk.injEq, Res.ok.injEq] at h
      rw [← h.1]; simp) fun l hll => ih _ _ (by omega)

theorem GetVersion.safe : Safe GetVersion.read := Safe.skipReserved 2
theorem GetDigests.safe : Safe GetDigests.read := Safe.skipReserved 2

theorem Version.safe : Safe Version.read := by
  refine (Safe.skipReserved 3).bind fun _ => Safe.getByte.bind fun num => Safe.ite (fun _ => Safe.fail _) fun h => ?_
  refine (safe_array (loop := Version.readEntries) (item := Version.readEntry) (chk := fun _ => .ok ()) (by intros; rfl) (by intros; rfl) ?_ (by intros; rfl) _ _ _ ?_).bind fun _ => Safe.pure _
  · exact (Safe.getBits (by omega)).bind fun _ => (Safe.getBits (by omega)).bind fun _ => (Safe.getBits (by omega)).bind fun _ =>
      (Safe.getBits (by omega)).bind fun _ => Safe.pure _
  · simp only [maxAllowedVersions] at h
    simp [Version.empty, maxAllowedVersions]; omega

theorem GetCapabilities.safe : Safe GetCapabilities.read :=
  (Safe.skipReserved 3).bind fun _ => Safe.getByte.bind fun _ => (Safe.skipReserved 2).bind fun _ => Safe.getU32.bind fun _ =>
    (Safe.lift (fromBits32_np _ _ _)).bind fun _ => Safe.pure _

theorem Capabilities.safe : Safe Capabilities.read :=
  (Safe.skipReserved 3).bind fun _ => Safe.getByte.bind fun _ => (Safe.skipReserved 2).bind fun _ => Safe.getU32.bind fun _ =>
    (Safe.lift (fromBits32_np _ _ _)).bind fun _ => Safe.pure _

theorem GetCertificate.safe : Safe GetCertificate.read :=
  Safe.getByte.bind fun _ => (Safe.skipReserved 1).bind fun _ => Safe.getU16.bind fun _ => Safe.getU16.bind fun _ => Safe.pure _

theorem Certificate.safe (c : Cfg) : Safe (Certificate.read c) :=
  Safe.getByte.bind fun _ => (Safe.skipReserved 1).bind fun _ => Safe.getU16.bind fun _ => Safe.ite (fun _ => Safe.fail _) fun h =>
    Safe.getU16.bind fun _ => (Safe.getSlice (by omega)).bind fun _ => Safe.pure _

theorem Challenge.safe (c : Cfg) : Safe (Challenge.read c) :=
  Safe.getByte.bind fun _ => Safe.getByte.bind fun b => (Safe.lift (by unfold MeasurementHashType.tryFrom; (repeat' split) <;> rfl)).bind fun _ =>
    (Safe.getSlice (Nat.le_refl _)).bind fun _ => Safe.pure _

theorem VendorId.safe (n : UInt8) : Safe (VendorId.read n) :=
  Safe.ite (fun _ => Safe.pure _) fun _ => Safe.ite (fun _ => Safe.getU16.bind fun _ => Safe.pure _) fun _ =>
    Safe.ite (fun _ => Safe.getU32.bind fun _ => Safe.pure _) fun _ => Safe.fail _

theorem ErrorMsg.safe : Safe ErrorMsg.read := by
  refine Safe.getByte.bind fun code => Safe.getByte.bind fun data => ?_
  repeat' refine Safe.ite (fun _ => ?_) (fun _ => ?_)
  all_goals first
    | exact Safe.pure _
    | exact Safe.fail _
    | exact Safe.getU32.bind fun _ => Safe.pure _
    | exact Safe.getByte.bind fun _ => Safe.pure _
    | exact Safe.getByte.bind fun _ => Safe.getByte.bind fun _ => Safe.getByte.bind fun _ => Safe.getByte.bind fun _ => Safe.pure _
    | skip
  split
  · exact Safe.fail _
  · exact Safe.getByte.bind fun _ => (VendorId.safe _).bind fun _ => Safe.pure _

theorem GetMeasurements.safe (c : Cfg) : Safe (GetMeasurements.read c) :=
  Safe.getBit.bind fun _ => Safe.getBit.bind fun _ => (Safe.getBits (by omega)).bind fun _ => Safe.ite (fun _ => Safe.fail _) fun _ =>
    Safe.getByte.bind fun _ => Safe.ite (fun _ => (Safe.getSlice (Nat.le_refl _)).bind fun _ => Safe.getByte.bind fun _ =>
      Safe.ite (fun _ => Safe.fail _) fun _ => Safe.pure _) fun _ => Safe.pure _

theorem AlgorithmRequest.safe : Safe AlgorithmRequest.read := by
  refine Safe.getByte.bind fun ty => ?_
  split
  · exact (Safe.getBits (by omega)).bind fun _ => (Safe.getBits (by omega)).bind fun _ => Safe.ite (fun _ => Safe.fail _) fun _ =>
      Safe.getU16.bind fun _ => (Safe.lift (fromBits16_np _ _ _)).bind fun _ => (Safe.skipIgnored _).bind fun _ => Safe.pure _
  · exact Safe.fail _

theorem NegotiateAlgorithms.safe : Safe NegotiateAlgorithms.read := by
  refine Safe.getByte.bind fun num => Safe.ite (fun _ => Safe.fail _) fun h => (Safe.skipReserved 1).bind fun _ => Safe.getU16.bind fun _ =>
    Safe.ite (fun _ => Safe.fail _) fun _ => Safe.getByte.bind fun _ => (Safe.lift (fromBits8_np _ _ _)).bind fun _ => (Safe.skipReserved 1).bind fun _ =>
    Safe.getU32.bind fun _ => (Safe.lift (fromBits32_np _ _ _)).bind fun _ => Safe.getU32.bind fun _ => (Safe.lift (fromBits32_np _ _ _)).bind fun _ =>
    (Safe.skipReserved 12).bind fun _ => Safe.getByte.bind fun _ => Safe.getByte.bind fun _ => (Safe.skipReserved 2).bind fun _ =>
    (Safe.skipIgnored _).bind fun _ => (Safe.skipIgnored _).bind fun _ => (safe_array (loop := NegotiateAlgorithms.readRequests)
      (item := M.mapErr wrapAlgorithmRequestError AlgorithmRequest.read) (chk := fun _ => .ok ()) (by intros; rfl) (by intros; rfl)
      (Safe.mapErr _ AlgorithmRequest.safe) (by intros; rfl) _ _ _ ?_).bind fun _ => Safe.pure _
  simp only [maxAlgorithmRequests] at h
  simp [maxAlgorithmRequests]; omega

theorem Algorithms.safe : Safe Algorithms.read := by
  have hloop : ∀ n i es, i + n ≤ es.length → Safe (Algorithms.readResponses n i es) := by
    intro n
    induction n with
    | zero => intro i es _; exact Safe.pure _
    | succ n ih =>
      intro i es hl
      refine AlgorithmRequest.safe.bind fun e => ?_
      have hs : setIndex es i e = .ok (es.set i e) := by rw [setIndex, if_pos (by omega)]
      rw [hs]
      exact Safe.bind_of (fun l => l.length = es.length) (Safe.lift rfl) (by
        intro r a r' _ h
        simp only [M.run_lift, Prod.mk.injEq, Res.ok.injEq] at h
        rw [← h.1]; simp) fun l hll => (Safe.lift (by unfold Algorithms.ensureOnlyOneBitSet; split <;> rfl)).bind fun _ => ih _ _ (by omega)
  refine Safe.getByte.bind fun num => Safe.ite (fun _ => Safe.fail _) fun h => (Safe.skipReserved 1).bind fun _ => Safe.getU16.bind fun _ =>
    Safe.getByte.bind fun _ => (Safe.lift (fromBits8_np _ _ _)).bind fun _ => Safe.ite (fun _ => Safe.fail _) fun _ => (Safe.skipReserved 1).bind fun _ =>
    Safe.getU32.bind fun _ => (Safe.lift (fromBits32_np _ _ _)).bind fun _ => Safe.ite (fun _ => Safe.fail _) fun _ =>
    Safe.getU32.bind fun _ => (Safe.lift (fromBits32_np _ _ _)).bind fun _ => Safe.ite (fun _ => Safe.fail _) fun _ =>
    Safe.getU32.bind fun _ => (Safe.lift (fromBits32_np _ _ _)).bind fun _ => Safe.ite (fun _ => Safe.fail _) fun _ =>
    (Safe.skipReserved 12).bind fun _ => (Safe.skipReserved 1).bind fun _ => (Safe.skipReserved 1).bind fun _ => (Safe.skipReserved 2).bind fun _ =>
    (hloop _ _ _ ?_).bind fun _ => Safe.pure _
  simp only [maxAlgorithmRequests] at h
  simp [maxAlgorithmRequests]; omega

theorem Digests.safe (c : Cfg) (hc : c.numSlots ≤ 8) (size : Nat) : Safe (Digests.read c size) := by
  have hloop : ∀ fuel bits ds, ds.length = c.numSlots → Safe (Digests.readLoop c size fuel bits ds) := by
    intro fuel
    induction fuel with
    | zero => intro bits ds _; exact Safe.pure _
    | succ n ih =>
      intro bits ds hl
      refine Safe.ite (fun hk => (Safe.getSlice (Nat.le_refl _)).bind fun d => ?_) fun _ => Safe.pure _
      generalize hkk : trailingZeros 8 bits.toNat = k at hk
      have hs : setIndex ds k (some d) = .ok (ds.set k (some d)) := by rw [setIndex, if_pos (by omega)]
      rw [hs]
      exact Safe.bind_of (fun l => l.length = c.numSlots) (Safe.lift rfl) (by
        intro r a r' _ h
        simp only [M.run_lift, Prod.mk.injEq, Res.ok.injEq] at h
        rw [← h.1]; simpa using hl) fun l hll => Safe.ite (fun _ => ih _ _ hll) fun hn => by omega
  exact (Safe.skipReserved 1).bind fun _ => Safe.getByte.bind fun _ => (hloop _ _ _ (by simp)).bind fun _ => Safe.pure _

/-- Opaque data cannot panic when the arrays can hold whatever the length fields announce. -/
theorem OpaqueData.safe (c : Cfg) (h1 : 65535 ≤ c.maxOpaqueElementDataSize) (h2 : 255 ≤ c.maxOpaqueElements) : Safe (OpaqueData.read c) := by
  refine Safe.getByte.bind fun total => (Safe.skipReserved 3).bind fun _ => (safe_array (loop := OpaqueData.readElements c) (item := OpaqueElement.read c)
    (chk := fun _ => .ok ()) (by intros; rfl) (by intros; rfl) ?_ (by intros; rfl) _ _ _ ?_).bind fun _ => Safe.pure _
  · refine Safe.getByte.bind fun b => ?_
    split
    · exact Safe.fail _
    · refine Safe.getByte.bind fun _ => (Safe.lift (by unfold OpaqueElement.ensureVendorIdLen; split <;> rfl)).bind fun _ => (VendorId.safe _).bind fun _ =>
        Safe.getU16.bind fun n => (Safe.getSlice (by have := n.toNat_lt; omega)).bind fun _ => (Safe.skipReserved _).bind fun _ => Safe.pure _
  · have := total.toNat_lt
    simp [OpaqueData.dflt]; omega

theorem ChallengeAuth.safe (c : Cfg) (ds ss : Nat) (h1 : 65535 ≤ c.maxOpaqueElementDataSize) (h2 : 255 ≤ c.maxOpaqueElements) :
    Safe (ChallengeAuth.read c ds ss) :=
  (Safe.getBits (by omega)).bind fun _ => Safe.ite (fun _ => Safe.fail _) fun _ => (Safe.getBits (by omega)).bind fun _ => Safe.getBit.bind fun _ =>
    Safe.getByte.bind fun _ => (Safe.getSlice (Nat.le_refl _)).bind fun _ => (Safe.getSlice (Nat.le_refl _)).bind fun _ => (Safe.getSlice (Nat.le_refl _)).bind fun _ =>
    Safe.getU16.bind fun _ => Safe.ite (fun _ => Safe.fail _) fun _ => (OpaqueData.safe c h1 h2).bind fun _ => (Safe.getSlice (Nat.le_refl _)).bind fun _ => Safe.pure _

theorem MeasurementBlock.safe (c : Cfg) : Safe (MeasurementBlock.read c) := by
  have hd : Safe (DmtfMeasurement.read c) := by
    refine Safe.getByte.bind fun v => (Safe.lift (by unfold ValueType.tryFrom; (repeat' split) <;> rfl)).bind fun _ =>
      (Safe.lift (by unfold ValueRepresentation.tryFrom; (repeat' split) <;> rfl)).bind fun rep => Safe.getU16.bind fun n => ?_
    cases rep with
    | digest => exact Safe.ite (fun _ => (Safe.getSlice (Nat.le_refl _)).bind fun _ => Safe.pure _) fun _ => Safe.fail _
    | rawBitStream => exact Safe.ite (fun _ => Safe.fail _) fun h => (Safe.getSlice (by omega)).bind fun _ => Safe.pure _
  exact Safe.getByte.bind fun _ => Safe.getByte.bind fun _ => Safe.ite (fun _ => Safe.fail _) fun _ => Safe.getU16.bind fun _ => Safe.get.bind fun _ =>
    hd.bind fun _ => Safe.get.bind fun _ => Safe.ite (fun _ => Safe.fail _) fun _ => Safe.pure _

theorem Safe.dropResult {α : Type} {p : R α} (h : Safe p) : Safe (Measurements.dropResult p) := by
  intro r hr
  have := h r hr
  unfold Measurements.dropResult
  split
  · rename_i heq; rw [heq] at this; simp [Res.isPanic] at this
  · rename_i heq; rw [heq] at this; exact ⟨rfl, this.2⟩

theorem Measurements.safe (c : Cfg) (sg : Bool) (ss : Nat) (h1 : 65535 ≤ c.maxOpaqueElementDataSize) (h2 : 255 ≤ c.maxOpaqueElements)
    (h3 : 255 ≤ c.maxMeasurementBlocks) : Safe (Measurements.read c sg ss) := by
  have hb : Safe (MeasurementBlocks.read c) := by
    refine Safe.getByte.bind fun num => Safe.getU24.bind fun _ => Safe.ite (fun _ => Safe.fail _) fun _ => Safe.get.bind fun _ => ?_
    have hloop : ∀ n i es, i + n ≤ es.length → Safe (MeasurementBlocks.readLoop c n i es) := by
      intro n
      induction n with
      | zero => intro i es _; exact Safe.pure _
      | succ n ih =>
        intro i es hl
        refine (MeasurementBlock.safe c).bind fun e => ?_
        have hs : setIndex es i (some e) = .ok (es.set i (some e)) := by rw [setIndex, if_pos (by omega)]
        rw [hs]
        exact Safe.bind_of (fun l => l.length = es.length) (Safe.lift rfl) (by
          intro r a r' _ h
          simp only [M.run_lift, Prod.mk.injEq, Res.ok.injEq] at h
          rw [← h.1]; simp) fun l hll => ih _ _ (by omega)
    exact (hloop _ _ _ (by have := num.toNat_lt; simp [MeasurementBlocks.dflt]; omega)).bind fun _ => Safe.get.bind fun _ =>
      Safe.ite (fun _ => Safe.fail _) fun _ => Safe.pure _
  refine Safe.getByte.bind fun _ => Safe.ite (fun _ => Safe.fail _) fun _ => (Safe.getBits (by omega)).bind fun _ => Safe.ite (fun _ => Safe.fail _) fun _ =>
    (Safe.getBits (by omega)).bind fun _ => (Safe.lift (by unfold ContentChanged.tryFrom; (repeat' split) <;> rfl)).bind fun _ =>
    (Safe.dropResult (Safe.getBits (by omega))).bind fun _ => hb.bind fun _ => (Safe.getSlice (Nat.le_refl _)).bind fun _ => Safe.getU16.bind fun _ =>
    Safe.ite (fun _ => Safe.fail _) fun _ => (OpaqueData.safe c h1 h2).bind fun _ => Safe.ite (fun _ => (Safe.getSlice (Nat.le_refl _)).bind fun _ => Safe.pure _) fun _ => Safe.pure _

end Spdm
