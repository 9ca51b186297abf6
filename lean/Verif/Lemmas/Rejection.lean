import Verif.Lemmas.Refusal
import Verif.Spec.Rejection
/-! The errors of the response parsers. -/
namespace Spdm
open Spec

/-- The error complains about an encoding. -/
def Enc (e : Err) : Prop := complaint e = .encoding

theorem enc_read {σ α : Type} {p : M σ α} (h : ErrIn IsRead p) : ErrIn Enc p := h.mono fun e h => by obtain ⟨x, rfl⟩ := h; rfl

theorem getU32_errs : ErrIn IsRead Reader.getU32 := by
  intro r e h
  unfold Reader.getU32 at h
  split at h
  · simp only [Res.err.injEq] at h; exact ⟨_, h.symm⟩
  split at h
  · simp only [Res.err.injEq] at h; exact ⟨_, h.symm⟩
  · simp at h

theorem getSlice_errs (n cap : Nat) : ErrIn IsRead (Reader.getSlice n cap) := by
  intro r e h
  unfold Reader.getSlice at h
  split at h
  · simp only [Res.err.injEq] at h; exact ⟨_, h.symm⟩
  split at h
  · simp only [Res.err.injEq] at h; exact ⟨_, h.symm⟩
  · simp only at h
    split at h <;> simp at h

theorem enc_bits8 {mask v : UInt8} {e : Err} (h : Enc e) : RErrIn Enc (fromBits8 mask v e) := by unfold fromBits8; exact .ite (.ok _) (.err h)
theorem enc_bits16 {mask v : UInt16} {e : Err} (h : Enc e) : RErrIn Enc (fromBits16 mask v e) := by unfold fromBits16; exact .ite (.ok _) (.err h)
theorem enc_bits32 {mask v : UInt32} {e : Err} (h : Enc e) : RErrIn Enc (fromBits32 mask v e) := by unfold fromBits32; exact .ite (.ok _) (.err h)

theorem Version.read_enc : ErrIn Enc Version.read := Version.read_errs.mono fun e h => by
  rcases h with ⟨x, rfl⟩ | rfl <;> rfl

theorem Capabilities.read_enc : ErrIn Enc Capabilities.read := by
  unfold Capabilities.read
  refine (enc_read (skipReserved_errs _)).bind fun _ => (enc_read getByte_errs).bind fun _ => (enc_read (skipReserved_errs _)).bind fun _ => (enc_read getU32_errs).bind fun _ => ?_
  exact (ErrIn.lift (enc_bits32 (by exact rfl))).bind fun _ => .pure _

theorem AlgorithmRequest.read_enc : ErrIn Enc AlgorithmRequest.read := by
  unfold AlgorithmRequest.read
  refine (enc_read getByte_errs).bind fun ty => ?_
  cases AlgKind.ofType ty with
  | none => exact .fail rfl
  | some k =>
    refine (enc_read (getBits_errs 4)).bind fun _ => (enc_read (getBits_errs 4)).bind fun _ => .ite (.fail rfl) ?_
    refine (enc_read getU16_errs).bind fun _ => (ErrIn.lift (enc_bits16 (by exact rfl))).bind fun _ => ?_
    exact (enc_read (skipIgnored_errs _)).bind fun _ => .pure _

theorem readResponses_enc (n i : Nat) (rs : List AlgorithmRequest) : ErrIn Enc (Algorithms.readResponses n i rs) := by
  induction n generalizing i rs with
  | zero => exact .pure _
  | succ n ih =>
    refine AlgorithmRequest.read_enc.bind fun a => (ErrIn.lift (.setIndex _ _ _)).bind fun _ => ErrIn.bind (ErrIn.lift ?_) fun _ => ih _ _
    unfold Algorithms.ensureOnlyOneBitSet
    refine .ite (.err ?_) (.ok _)
    cases a.kind <;> rfl

theorem Algorithms.read_enc : ErrIn Enc Algorithms.read := by
  unfold Algorithms.read
  refine (enc_read getByte_errs).bind fun _ => .ite (.fail rfl) ?_
  refine (enc_read (skipReserved_errs _)).bind fun _ => (enc_read getU16_errs).bind fun _ => (enc_read getByte_errs).bind fun _ => ?_
  refine (ErrIn.lift (enc_bits8 (by exact rfl))).bind fun _ => .ite (.fail rfl) ?_
  refine (enc_read (skipReserved_errs _)).bind fun _ => (enc_read getU32_errs).bind fun _ => (ErrIn.lift (enc_bits32 (by exact rfl))).bind fun _ => .ite (.fail rfl) ?_
  refine (enc_read getU32_errs).bind fun _ => (ErrIn.lift (enc_bits32 (by exact rfl))).bind fun _ => .ite (.fail rfl) ?_
  refine (enc_read getU32_errs).bind fun _ => (ErrIn.lift (enc_bits32 (by exact rfl))).bind fun _ => .ite (.fail rfl) ?_
  refine (enc_read (skipReserved_errs _)).bind fun _ => (enc_read (skipReserved_errs _)).bind fun _ => (enc_read (skipReserved_errs _)).bind fun _ => (enc_read (skipReserved_errs _)).bind fun _ => ?_
  exact (readResponses_enc _ _ _).bind fun _ => .pure _

theorem Digests.read_enc (c : Cfg) (size : Nat) : ErrIn Enc (Digests.read c size) := by
  have hl : ∀ n bits ds, ErrIn Enc (Digests.readLoop c size n bits ds) := by
    intro n
    induction n with
    | zero => intro _ _; exact .pure _
    | succ n ih =>
      intro bits ds
      unfold Digests.readLoop
      refine .ite ?_ (.pure _)
      exact (enc_read (getSlice_errs _ _)).bind fun _ => (ErrIn.lift (.setIndex _ _ _)).bind fun _ => .ite (ih _ _) (.die _)
  unfold Digests.read
  exact (enc_read (skipReserved_errs _)).bind fun _ => (enc_read getByte_errs).bind fun _ => (hl _ _ _).bind fun _ => .pure _

theorem Certificate.read_enc (c : Cfg) : ErrIn Enc (Certificate.read c) := by
  unfold Certificate.read
  refine (enc_read getByte_errs).bind fun _ => (enc_read (skipReserved_errs _)).bind fun _ => (enc_read getU16_errs).bind fun _ => .ite (.fail rfl) ?_
  exact (enc_read getU16_errs).bind fun _ => (enc_read (getSlice_errs _ _)).bind fun _ => .pure _

theorem OpaqueElement.read_enc (c : Cfg) : ErrIn Enc (OpaqueElement.read c) := by
  unfold OpaqueElement.read
  refine (enc_read getByte_errs).bind fun b => ?_
  cases VendorRegistryId.tryFrom b with
  | none => exact .fail rfl
  | some id =>
    refine (enc_read getByte_errs).bind fun _ => (ErrIn.lift (by unfold OpaqueElement.ensureVendorIdLen; exact .ite (.ok _) (.err rfl))).bind fun _ => ErrIn.bind ?_ fun _ => ?_
    · unfold VendorId.read
      exact .ite (.pure _) (.ite ((enc_read getU16_errs).bind fun _ => .pure _) (.ite ((enc_read getU32_errs).bind fun _ => .pure _) (.fail rfl)))
    · exact (enc_read getU16_errs).bind fun _ => (enc_read (getSlice_errs _ _)).bind fun _ => (enc_read (skipReserved_errs _)).bind fun _ => .pure _

theorem OpaqueData.read_enc (c : Cfg) : ErrIn Enc (OpaqueData.read c) := by
  have hl : ∀ n i es, ErrIn Enc (OpaqueData.readElements c n i es) := by
    intro n
    induction n with
    | zero => intro _ _; exact .pure _
    | succ n ih =>
      intro i es
      exact (OpaqueElement.read_enc c).bind fun _ => (ErrIn.lift (.setIndex _ _ _)).bind fun _ => ih _ _
  unfold OpaqueData.read
  exact (enc_read getByte_errs).bind fun _ => (enc_read (skipReserved_errs _)).bind fun _ => (hl _ _ _).bind fun _ => .pure _

theorem ChallengeAuth.read_enc (c : Cfg) (ds ss : Nat) : ErrIn Enc (ChallengeAuth.read c ds ss) := by
  unfold ChallengeAuth.read Nonce.read
  refine (enc_read (getBits_errs 4)).bind fun _ => .ite (.fail rfl) ?_
  refine (enc_read (getBits_errs 3)).bind fun _ => (enc_read (getBits_errs 1)).bind fun _ => (enc_read getByte_errs).bind fun _ => (enc_read (getSlice_errs _ _)).bind fun _ => ?_
  refine (enc_read (getSlice_errs _ _)).bind fun _ => (enc_read (getSlice_errs _ _)).bind fun _ => (enc_read getU16_errs).bind fun _ => .ite (.fail rfl) ?_
  exact (OpaqueData.read_enc c).bind fun _ => (enc_read (getSlice_errs _ _)).bind fun _ => .pure _

theorem readCertSize_enc : ErrIn Enc CertificateChain.readCertSize := by
  unfold CertificateChain.readCertSize
  refine (enc_read getByte_errs).bind fun _ => .ite (.die _) ?_
  refine (enc_read getByte_errs).bind fun _ => .ite (.pure _) (.ite ?_ (.ite ?_ (.fail rfl)))
  · exact (enc_read getByte_errs).bind fun _ => .ite (.fail rfl) (.pure _)
  · exact (enc_read getByte_errs).bind fun _ => (enc_read getByte_errs).bind fun _ => .ite (.fail rfl) (.pure _)

theorem slice_enc (b : Bytes) (i j : Nat) : RErrIn Enc (CertificateChain.slice b i j) := by unfold CertificateChain.slice; exact .ite (.ok _) (.panic _)

theorem CertificateChain.read_enc (c : Cfg) (buf : Bytes) (ds : Nat) : ErrIn Enc (CertificateChain.read c buf ds) := by
  have hl : ∀ n certs, ErrIn Enc (CertificateChain.parseLoop c buf n certs) := by
    intro n
    induction n with
    | zero => intro _; exact .die _
    | succ n ih =>
      intro certs
      unfold CertificateChain.parseLoop
      refine ErrIn.get.bind fun _ => readCertSize_enc.bind fun p => ErrIn.get.bind fun _ => ?_
      refine .ite (.fail rfl) (.ite (.pure _) (.ite (.fail rfl) ?_))
      exact (ErrIn.lift (slice_enc _ _ _)).bind fun _ => (enc_read (skipIgnored_errs _)).bind fun _ => ih _
  unfold CertificateChain.read
  refine (enc_read getU16_errs).bind fun _ => .ite (.fail rfl) ?_
  refine (enc_read (skipReserved_errs _)).bind fun _ => ErrIn.get.bind fun _ => (enc_read (skipIgnored_errs _)).bind fun _ => (ErrIn.lift (slice_enc _ _ _)).bind fun _ => ?_
  exact (hl _ _).bind fun _ => (ErrIn.lift (.sliceFrom _ _)).bind fun _ => .pure _

end Spdm
