import Verif.Props.Faults3
import Verif.Lemmas.ParseErrors
import Verif.Demo
/-!
# C108: what the tables determine, and examples
-/
namespace Spdm
open Spec Spec.Faults

variable {ε α : Type}

/-- There is one first requirement that is not met. -/
theorem c108_first_unique {cs : Checks ε} {f g : Fault ε} (hf : First cs f) (hg : First cs g) : f = g := by
  induction hf with
  | here h =>
    cases hg with
    | here _ => rfl
    | later h' _ => exact absurd h' h
  | later h _ ih =>
    cases hg with
    | here h' => exact absurd h h'
    | later _ hg => exact ih hg

theorem Spec.Faults.First.notMet {cs : Checks ε} {f : Fault ε} (hf : First cs f) : ¬ AllMet cs := by
  induction hf with
  | here h => exact fun hc => h (hc (_, _) (List.mem_cons_self ..))
  | later _ _ ih => exact fun hc => ih fun x hx => hc x (List.mem_cons_of_mem _ hx)

/-- A message is accepted exactly if every requirement is met. -/
theorem c108_accepted_iff {cs : Checks ε} {o : Out ε α} (h : Outcome cs o) : (∃ a, o = .ok a) ↔ AllMet cs := by
  cases o with
  | ok a => exact ⟨fun _ => h, fun _ => ⟨a, rfl⟩⟩
  | err e => exact ⟨fun ⟨_, h⟩ => (nomatch h), fun hc => absurd hc (First.notMet h)⟩
  | panic k => exact ⟨fun ⟨_, h⟩ => (nomatch h), fun hc => absurd hc (First.notMet h)⟩

/-- An error is returned exactly if the first requirement that is not met is the one with this error. -/
theorem c108_error_iff {cs : Checks ε} {o : Out ε α} (h : Outcome cs o) (e : ε) : o = .err e ↔ First cs (.error e) := by
  cases o with
  | ok a => exact ⟨nofun, fun hf => absurd h (First.notMet hf)⟩
  | err e' =>
    constructor
    · intro he; cases he; exact h
    · intro hf; cases c108_first_unique h hf; rfl
  | panic k => exact ⟨nofun, fun hf => nomatch c108_first_unique h hf⟩

/-- The process aborts exactly if it is one with an abort. -/
theorem c108_abort_iff {cs : Checks ε} {o : Out ε α} (h : Outcome cs o) : (∃ k, o = .panic k) ↔ First cs .abort := by
  cases o with
  | ok a => exact ⟨fun ⟨_, h⟩ => (nomatch h), fun hf => absurd h (First.notMet hf)⟩
  | err e' => exact ⟨fun ⟨_, h⟩ => (nomatch h), fun hf => nomatch c108_first_unique h hf⟩
  | panic k => exact ⟨fun _ => h, fun _ => ⟨k, rfl⟩⟩

/-! ## The parsers with typed errors are the parsers -/

/-- ALGORITHMS. -/
theorem c108_same_algorithms (bs : Bytes) : Same (fun e d => e = ParseAlgorithmsError.flat d) (Algorithms.parseBody bs) (Algorithms.parseBodyT bs) := Algorithms.readT_agrees.run _

/-- CHALLENGE_AUTH. -/
theorem c108_same_challengeAuth (c : Cfg) (bs : Bytes) (size sig : Nat) :
    Same (fun e d => e = ParseChallengeAuthError.flat d) (ChallengeAuth.parseBody c bs size sig) (ChallengeAuth.parseBodyT c bs size sig) := (ChallengeAuth.readT_agrees c size sig).run _

/-- MEASUREMENTS. -/
theorem c108_same_measurements (c : Cfg) (bs : Bytes) (signed : Bool) (sig : Nat) :
    Same (fun e d => e = ParseMeasurementsError.flat d) (Measurements.parseBody c bs signed sig) (Measurements.parseBodyT c bs signed sig) := (Measurements.readT_agrees c signed sig).run _

/-- ERROR. -/
theorem c108_same_error (bs : Bytes) : Same (fun e d => e = ParseErrorError.flat d) (ErrorMsg.parseBody bs) (ErrorMsg.parseBodyT bs) := ErrorMsg.readT_agrees.run _

/-! ## Examples

Two things wrong in each message; the error is for the first one.  And for each parser a message it accepts. -/

/-- What is returned besides a message. -/
def shown : Out ε α → Option (Option ε)
  | .ok _ => none
  | .err e => some (some e)
  | .panic _ => some none

example : shown (Out.of (fromRead id) (GetVersion.parseBody [1])) = some (some .reservedByteNotZero) := by decide +kernel
example : shown (Out.of (fromRead id) (GetVersion.parseBody [0, 0])) = none := by decide +kernel
example : shown (Out.of ParseVersionError.from (Version.parseBody [0, 0, 0, 3])) = some (some .tooManyVersionsReceived) := by decide +kernel
example : shown (Out.of ParseVersionError.from (Version.parseBody [0, 0, 0, 2, 0, 0x11, 0])) = some (some (.read .bufferEmpty)) := by decide +kernel
example : shown (Out.of ParseVersionError.from (Version.parseBody [0, 0, 0, 1, 0, 0x11])) = none := by decide +kernel
example : shown (Out.of ParseGetCapabilitiesError.from (GetCapabilities.parseBody [0, 0, 0, 9, 0, 1, 0xFF, 0xFF, 0xFF, 0xFF])) = some (some (.read .reservedByteNotZero)) := by decide +kernel
example : shown (Out.of ParseGetCapabilitiesError.from (GetCapabilities.parseBody [0, 0, 0, 9, 0, 0, 0xFF, 0xFF, 0xFF, 0xFF])) = some (some .invalidBitsSet) := by decide +kernel
example : shown (Out.of ParseCapabilitiesError.from (Capabilities.parseBody [0, 0, 0, 9, 0, 0, 0xFF, 0xFF, 0xFF, 0xFF])) = some (some .invalidBitsSet) := by decide +kernel
example : shown (Out.of ParseCapabilitiesError.from (Capabilities.parseBody [0, 0, 0, 9, 0, 0, 0x06, 0, 0, 0])) = none := by decide +kernel

/-- A NEGOTIATE_ALGORITHMS body with one algorithm structure. -/
def demoFaultyNegotiate (structure_ : Bytes) : Bytes := [1, 0, 36, 0, 1, 0, 0x80, 0, 0, 0, 2, 0, 0, 0] ++ List.replicate 16 0 ++ structure_

example : shown (Out.of ParseNegotiateAlgorithmsError.from (NegotiateAlgorithms.parseBody (demoFaultyNegotiate [2, 0x20, 1, 0]))) = none := by decide +kernel
example : shown (Out.of ParseNegotiateAlgorithmsError.from (NegotiateAlgorithms.parseBody (demoFaultyNegotiate [2, 0x30, 0, 0xFF]))) = some (some (.algorithmRequest .incorrectFixedAlgCount)) := by decide +kernel
example : shown (Out.of ParseNegotiateAlgorithmsError.from (NegotiateAlgorithms.parseBody (demoFaultyNegotiate [6, 0x30, 0, 0xFF]))) = some (some (.algorithmRequest .invalidAlgorithmType)) := by decide +kernel
example : shown (Out.of ParseNegotiateAlgorithmsError.from (NegotiateAlgorithms.parseBody (demoFaultyNegotiate [2, 0x21, 1, 0]))) = some (some (.algorithmRequest (.read .bufferEmpty))) := by decide +kernel

/-- An ALGORITHMS body with one algorithm structure. -/
def demoFaultyAlgorithms (spec hash : UInt8) (structure_ : Bytes) : Bytes :=
  [1, 0, 40, 0, spec, 0, hash, 0, 0, 0, 0x80, 0, 0, 0, 2, 0, 0, 0] ++ List.replicate 16 0 ++ structure_

example : shown (Algorithms.parseBodyT (demoFaultyAlgorithms 1 1 [2, 0x20, 1, 0])) = none := by decide +kernel
example : shown (Algorithms.parseBodyT (demoFaultyAlgorithms 0 3 [2, 0x20, 3, 0])) = some (some .moreThanOneMeasurementSpecSelected) := by decide +kernel
example : shown (Algorithms.parseBodyT (demoFaultyAlgorithms 1 3 [2, 0x20, 3, 0])) = some (some .moreThanOneMeasurementHashAlgoSelected) := by decide +kernel
example : shown (Algorithms.parseBodyT (demoFaultyAlgorithms 1 1 [2, 0x20, 3, 0])) = some (some (.algorithmsResponse .moreThanOneDheAlgoSelected)) := by decide +kernel

example : shown (Out.of (fromRead id) (Digests.parseBody demoCfg 2 [0, 3, 1, 2, 3])) = some (some .bufferEmpty) := by decide +kernel
example : shown (Out.of (fromRead id) (Digests.parseBody demoCfg 2 [0, 3, 1, 2, 3, 4])) = none := by decide +kernel
example : demoCfg.numSlots ≤ 8 := by decide
example : shown (Out.of (fromRead id) (GetCertificate.parseBody [0, 1])) = some (some .reservedByteNotZero) := by decide +kernel
example : shown (Out.of ParseCertificateError.from (Certificate.parseBody demoCfg [0, 0, 65, 0])) = some (some .tooLarge) := by decide +kernel
example : shown (Out.of ParseCertificateError.from (Certificate.parseBody demoCfg [0, 0, 1, 0, 0, 0, 7])) = none := by decide +kernel

/-- A chain of two certificates after a digest of two bytes; the first has a length of `n`. -/
def demoFaultyChain (tag n : UInt8) : Bytes := [13, 0, 0, 0, 1, 2, tag, n, 7, 0x30, 2, 8, 9]

example : shown (Out.of ParseCertificateChainError.from (CertificateChain.parse demoCfg (demoFaultyChain 0x30 1) 2)) = none := by decide +kernel
example : shown (Out.of ParseCertificateChainError.from (CertificateChain.parse demoCfg (demoFaultyChain 0x30 6) 2)) = some (some .lengthMismatch) := by decide +kernel
example : shown (Out.of ParseCertificateChainError.from (CertificateChain.parse demoCfg (demoFaultyChain 0x30 0x83) 2)) = some (some .badDerEncoding) := by decide +kernel
example : shown (Out.of ParseCertificateChainError.from (CertificateChain.parse demoCfg (demoFaultyChain 0x31 0x83) 2)) = some none := by decide +kernel
example : shown (Out.of ParseCertificateChainError.from (CertificateChain.parse { demoCfg with maxCertChainDepth := 0 } (demoFaultyChain 0x30 1) 2)) = some (some .maxDepthExceeded) := by decide +kernel

example : shown (Out.of ParseChallengeError.from (Challenge.parseBody demoCfg [0, 2])) = some (some .invalidMeasurementHashType) := by decide +kernel
example : shown (Out.of ParseChallengeError.from (Challenge.parseBody demoCfg [0, 0xFF, 1, 2, 3, 4])) = none := by decide +kernel

/-- A CHALLENGE_AUTH body with digests of two bytes, one opaque element and a signature of one byte. -/
def demoFaultyAuth (registry idLen dataLen last : UInt8) : Bytes :=
  [0, 1, 1, 2, 1, 2, 3, 4, 5, 6, 16, 0, 1, 0, 0, 0, registry, idLen, 1, 2, dataLen, 0, 0, last, 9]

example : shown (ChallengeAuth.parseBodyT demoCfg (demoFaultyAuth 1 2 1 0) 2 1) = none := by decide +kernel
example : shown (ChallengeAuth.parseBodyT demoCfg (demoFaultyAuth 9 4 9 1) 2 1) = some (some (.parseOpaqueData (.parseOpaqueElement .parseVendorRegistryId))) := by decide +kernel
example : shown (ChallengeAuth.parseBodyT demoCfg (demoFaultyAuth 1 4 9 1) 2 1) = some (some (.parseOpaqueData (.parseOpaqueElement .invalidVendorId))) := by decide +kernel
example : shown (ChallengeAuth.parseBodyT demoCfg (demoFaultyAuth 1 2 1 1) 2 1) = some (some (.parseOpaqueData (.parseOpaqueElement (.read .reservedByteNotZero)))) := by decide +kernel
example : shown (ChallengeAuth.parseBodyT { demoCfg with maxOpaqueElementDataSize := 0 } (demoFaultyAuth 1 2 1 1) 2 1) = some none := by decide +kernel
example : shown (ChallengeAuth.parseBodyT { demoCfg with maxOpaqueElements := 0 } (demoFaultyAuth 1 2 1 0) 2 1) = some none := by decide +kernel
example : shown (ChallengeAuth.parseBodyT demoCfg [3] 2 1) = some (some .maxOpaqueDataSizeExceeded) := by decide +kernel

example : shown (Out.of ParseGetMeasurementsError.from (GetMeasurements.parseBody demoCfg [5])) = some (some .reservedBitsNotZero) := by decide +kernel
example : shown (Out.of ParseGetMeasurementsError.from (GetMeasurements.parseBody demoCfg [1, 0, 1, 2, 3, 4, 2])) = some (some .maxSlotNumberExceeded) := by decide +kernel
example : shown (Out.of ParseGetMeasurementsError.from (GetMeasurements.parseBody demoCfg [1, 0, 1, 2, 3, 4, 1])) = none := by decide +kernel

/-- A MEASUREMENTS body with one block and no opaque elements. -/
def demoFaultyMeasurements (slot spec size ty : UInt8) : Bytes :=
  [1, slot, 1, 9, 0, 0, 1, spec, size, 0, ty, 2, 0, 7, 8, 1, 2, 3, 4, 4, 0, 0, 0, 0, 0]

example : shown (Measurements.parseBodyT demoCfg (demoFaultyMeasurements 0x10 1 5 0x80) false 1) = none := by decide +kernel
example : shown (Measurements.parseBodyT demoCfg (demoFaultyMeasurements 0x10 1 5 0x80) true 1) = some (some (.read .bufferEmpty)) := by decide +kernel
example : shown (Measurements.parseBodyT demoCfg (demoFaultyMeasurements 0x30 2 5 0x80) false 1) = some (some .contentChanged) := by decide +kernel
example : shown (Measurements.parseBodyT demoCfg (demoFaultyMeasurements 0x33 2 5 0x80) false 1) = some (some .maxSlotNumberExceeded) := by decide +kernel
example : shown (Measurements.parseBodyT demoCfg (demoFaultyMeasurements 0x10 1 6 0x88) false 1) = some (some (.blocks (.block (.measurement .type)))) := by decide +kernel
example : shown (Measurements.parseBodyT demoCfg (demoFaultyMeasurements 0x10 1 6 0x80) false 1) = some (some (.blocks (.block .measurementSizeMismatch))) := by decide +kernel
example : shown (Measurements.parseBodyT { demoCfg with maxMeasurementSize := 0 } [1, 0, 1, 0, 0, 0, 1, 1, 6, 0, 0x80, 1, 0] false 1) = some (some (.blocks (.block (.measurement (.bitStream .maxSizeExceeded))))) := by decide +kernel

example : shown (ErrorMsg.parseBodyT [2, 9]) = some (some .invalidErrorCode) := by decide +kernel
example : shown (ErrorMsg.parseBodyT [0xFF, 9]) = some (some .parseVendorRegistryId) := by decide +kernel
example : shown (ErrorMsg.parseBodyT [0xFF, 1, 3]) = some (some (.parseVendorId .invalidLen)) := by decide +kernel
example : shown (ErrorMsg.parseBodyT [0xFF, 1, 2, 5, 6]) = none := by decide +kernel
example : shown (ErrorMsg.parseBodyT [0xD, 0, 1]) = some (some (.read .bufferEmpty)) := by decide +kernel

end Spdm
