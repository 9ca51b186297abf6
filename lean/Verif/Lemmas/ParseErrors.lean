import Verif.ParseErrors
import Verif.Lemmas.Errors
/-!
# The parsers of Verif/ParseErrors.lean do what the flat ones do
-/
namespace Spdm

/-- The flat error inside. -/
def ParseBitStreamError.flat : ParseBitStreamError → Err
  | .maxSizeExceeded => .bitStreamMaxSizeExceeded
  | .read e => .read e

/-- The flat error inside. -/
def ParseDmtfMeasurementError.flat : ParseDmtfMeasurementError → Err
  | .representation => .parseValueRepresentation
  | .type => .parseValueType
  | .read e => .read e
  | .digestTooLargeError => .digestTooLarge
  | .bitStream e => e.flat

/-- The flat error inside. -/
def ParseMeasurementBlockError.flat : ParseMeasurementBlockError → Err
  | .invalidMeasurementSpec => .blockInvalidMeasurementSpec
  | .measurementSizeMismatch => .blockSizeMismatch
  | .measurement e => e.flat
  | .read e => .read e

/-- The flat error inside. -/
def ParseMeasurementBlocksError.flat : ParseMeasurementBlocksError → Err
  | .maxSizeExceeded => .blocksMaxSizeExceeded
  | .measurementSizeMismatch => .blocksSizeMismatch
  | .block e => e.flat
  | .read e => .read e

/-- The flat error inside. -/
def ParseMeasurementsError.flat : ParseMeasurementsError → Err
  | .maxSlotNumberExceeded => .maxSlotNumberExceeded
  | .maxBlocksExceeded => .maxBlocksExceeded
  | .maxOpaqueDataSizeExceeded => .maxOpaqueDataSizeExceeded
  | .read e => .read e
  | .blocks e => e.flat
  | .contentChanged => .parseContentChanged
  | .opaqueData e => e.flat

/-- The flat error inside. -/
def ParseErrorError.flat : ParseErrorError → Err
  | .read e => .read e
  | .invalidErrorCode => .invalidErrorCode
  | .parseVendorId e => e.flat
  | .parseVendorRegistryId => .opaqueInvalidVendorRegistryId

theorem getU24_errs : ErrIn IsRead Reader.getU24 := by
  have h := getByte_errs.bind fun a => getByte_errs.bind fun b => getByte_errs.bind fun c => (ErrIn.pure (Reader.fromLe [a, b, c]) : ErrIn IsRead _)
  intro r e he
  unfold Reader.getU24 at he
  split at he
  · cases he; exact ⟨_, rfl⟩
  · exact h r e he

theorem ValueType.tryFrom_errs (v : UInt8) : RErrIn (fun e => e = .parseValueType) (ValueType.tryFrom v) := by
  unfold ValueType.tryFrom
  exact .ite (.ok _) (.ite (.ok _) (.ite (.ok _) (.ite (.ok _) (.ite (.ok _) (.ite (.ok _) (.ite (.ok _) (.ite (.ok _) (.err rfl))))))))

theorem ValueRepresentation.tryFrom_errs (v : UInt8) : RErrIn (fun e => e = .parseValueRepresentation) (ValueRepresentation.tryFrom v) := by
  unfold ValueRepresentation.tryFrom
  exact .ite (.ok _) (.ite (.ok _) (.err rfl))

theorem ContentChanged.tryFrom_errs (v : UInt8) : RErrIn (fun e => e = .parseContentChanged) (ContentChanged.tryFrom v) := by
  unfold ContentChanged.tryFrom
  exact .ite (.ok _) (.ite (.ok _) (.ite (.ok _) (.err rfl)))

theorem DmtfMeasurement.readT_agrees (c : Cfg) : Agrees (fun e d => e = ParseDmtfMeasurementError.flat d) (DmtfMeasurement.read c) (DmtfMeasurement.readT c) := by
  unfold DmtfMeasurement.read DmtfMeasurement.readT
  refine Agrees.bind (by agree_step) fun v => ?_
  refine Agrees.bind (.lift (.liftOf (ValueType.tryFrom_errs _) fun _ h => h)) fun ty => ?_
  refine Agrees.bind (.lift (.liftOf (ValueRepresentation.tryFrom_errs _) fun _ h => h)) fun rep => ?_
  refine Agrees.bind (by agree_step) fun size => ?_
  cases rep with
  | digest => repeat' agree_step
  | rawBitStream =>
    have h : Agrees (fun e d => e = ParseBitStreamError.flat d) (if size.toNat > c.maxMeasurementSize then M.fail .bitStreamMaxSizeExceeded else Reader.getSlice size.toNat c.maxMeasurementSize)
        (DmtfMeasurement.readBitsT c size.toNat) := by
      unfold DmtfMeasurement.readBitsT
      repeat' agree_step
    have := Agrees.bind (h.via (f := ParseDmtfMeasurementError.bitStream) (R := fun e d => e = ParseDmtfMeasurementError.flat d) fun _ _ h => h)
      (f := fun d => (Pure.pure ⟨.rawBitStream, ty, .bitStream d⟩ : R DmtfMeasurement)) (g := fun d => Pure.pure ⟨.rawBitStream, ty, .bitStream d⟩) fun _ => .pure _
    dsimp only
    split
    · next hx => rw [if_pos hx] at this; exact this
    · next hx => rw [if_neg hx] at this; exact this

theorem MeasurementBlock.readT_agrees (c : Cfg) : Agrees (fun e d => e = ParseMeasurementBlockError.flat d) (MeasurementBlock.read c) (MeasurementBlock.readT c) := by
  unfold MeasurementBlock.read MeasurementBlock.readT
  repeat' first
    | agree_step
    | exact (DmtfMeasurement.readT_agrees c).via fun _ _ h => h

theorem MeasurementBlocks.readLoopT_agrees (c : Cfg) : ∀ n i bs, Agrees (fun e d => e = ParseMeasurementBlocksError.flat d) (MeasurementBlocks.readLoop c n i bs) (MeasurementBlocks.readLoopT c n i bs)
  | 0, _, bs => .pure bs
  | n + 1, i, bs => by
    simp only [MeasurementBlocks.readLoop, MeasurementBlocks.readLoopT]
    refine Agrees.bind ((MeasurementBlock.readT_agrees c).via fun _ _ h => h) fun e => ?_
    exact Agrees.bind (by agree_step) fun es => MeasurementBlocks.readLoopT_agrees c n (i + 1) es

theorem MeasurementBlocks.readT_agrees (c : Cfg) : Agrees (fun e d => e = ParseMeasurementBlocksError.flat d) (MeasurementBlocks.read c) (MeasurementBlocks.readT c) := by
  unfold MeasurementBlocks.read MeasurementBlocks.readT
  repeat' first
    | agree_step
    | with_reducible exact MeasurementBlocks.readLoopT_agrees c _ _ _
    | exact Agrees.read getU24_errs (fun _ => rfl)

theorem Measurements.dropResultT_agrees {α : Type} (m : R α) {ε : Type} (R : Err → ε → Prop) : Agrees R (Measurements.dropResult m) (Measurements.dropResultT m) := by
  intro s
  unfold Measurements.dropResult Measurements.dropResultT
  rcases m s with ⟨r, s'⟩
  cases r
  · exact ⟨.ok _, rfl⟩
  · exact ⟨.ok _, rfl⟩
  · exact ⟨.panic _, rfl⟩

theorem Measurements.readT_agrees (c : Cfg) (b : Bool) (n : Nat) : Agrees (fun e d => e = ParseMeasurementsError.flat d) (Measurements.read c b n) (Measurements.readT c b n) := by
  unfold Measurements.read Measurements.readT
  repeat' first
    | agree_step
    | with_reducible exact Measurements.dropResultT_agrees _ _
    | exact (OpaqueData.readT_agrees c).via fun _ _ h => h
    | exact (MeasurementBlocks.readT_agrees c).via fun _ _ h => h
    | exact Agrees.lift (.liftOf (ContentChanged.tryFrom_errs _) fun _ h => h)
    | exact Agrees.read (by unfold Nonce.read; exact getSlice_errs _ _) (fun _ => rfl)

theorem ErrorMsg.readT_agrees : Agrees (fun e d => e = ParseErrorError.flat d) ErrorMsg.read ErrorMsg.readT := by
  unfold ErrorMsg.read ErrorMsg.readT
  refine Agrees.bind (by agree_step) fun code => ?_
  refine Agrees.bind (by agree_step) fun data => ?_
  cases VendorRegistryId.tryFrom data with
  | none => repeat' agree_step
  | some id =>
    repeat' first
      | agree_step
      | exact (VendorId.readT_agrees _).via fun _ _ h => h

end Spdm
