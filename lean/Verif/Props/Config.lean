import Verif.Spec.Config
import Verif.Requester
/-!
# Build configuration (C53, C54)
-/
namespace Spdm
open Spec

/-! ## C53 -/

theorem maxSignatureSize_ok (l : List String) : SpdmConfig.maxSignatureSize l = .ok 64 ↔ ∀ a ∈ l, a = "ECDSA_ECC_NIST_P256" := by
  induction l with
  | nil => simp [SpdmConfig.maxSignatureSize]
  | cons a l ih =>
    unfold SpdmConfig.maxSignatureSize
    split
    · rw [ih]; simp
    · rename_i h
      simp only [reduceCtorEq, List.mem_cons, forall_eq_or_imp, false_iff, not_and]
      intro h1; exact absurd h1 h

theorem maxSignatureSize_cases (l : List String) : SpdmConfig.maxSignatureSize l = .ok 64 ∨
    ∃ a ∈ l, a ≠ "ECDSA_ECC_NIST_P256" ∧ SpdmConfig.maxSignatureSize l = .error (.invalidAsymmetricSigningAlgorithm a) := by
  induction l with
  | nil => exact .inl rfl
  | cons a l ih =>
    unfold SpdmConfig.maxSignatureSize
    split
    · rcases ih with h | ⟨x, hx, hx1, hx2⟩
      · exact .inl h
      · exact .inr ⟨x, by simp [hx], hx1, hx2⟩
    · rename_i h
      exact .inr ⟨a, by simp, h, rfl⟩

theorem checkCapabilities_cases (l : List String) : (SpdmConfig.checkCapabilities l = .ok () ∧ ∀ a ∈ l, ∃ k, (a, k) ∈ capabilityBits) ∨
    ∃ a ∈ l, (∀ k, (a, k) ∉ capabilityBits) ∧ SpdmConfig.checkCapabilities l = .error (.invalidCapability a) := by
  induction l with
  | nil => exact .inl ⟨rfl, by simp⟩
  | cons a l ih =>
    unfold SpdmConfig.checkCapabilities
    have step : (∃ k, (a, k) ∈ capabilityBits) → (SpdmConfig.checkCapabilities l = .ok () ∧ ∀ x ∈ a :: l, ∃ k, (x, k) ∈ capabilityBits) ∨
        ∃ x ∈ a :: l, (∀ k, (x, k) ∉ capabilityBits) ∧ SpdmConfig.checkCapabilities l = .error (.invalidCapability x) := by
      intro ha
      rcases ih with ⟨h1, h2⟩ | ⟨x, hx, hx1, hx2⟩
      · refine .inl ⟨h1, ?_⟩
        intro x hx
        rcases List.mem_cons.mp hx with rfl | hx
        · exact ha
        · exact h2 x hx
      · exact .inr ⟨x, by simp [hx], hx1, hx2⟩
    split
    · exact step ⟨1, by simp [capabilityBits]⟩
    · exact step ⟨2, by simp [capabilityBits]⟩
    · exact step ⟨6, by simp [capabilityBits]⟩
    · exact step ⟨7, by simp [capabilityBits]⟩
    · exact step ⟨8, by simp [capabilityBits]⟩
    · exact step ⟨9, by simp [capabilityBits]⟩
    · exact step ⟨14, by simp [capabilityBits]⟩
    · rename_i h1 h2 h3 h4 h5 h6 h7
      refine .inr ⟨a, by simp, ?_, rfl⟩
      intro k hk
      simp only [capabilityBits, List.mem_cons, Prod.mk.injEq, List.not_mem_nil, or_false] at hk
      rcases hk with ⟨h, _⟩ | ⟨h, _⟩ | ⟨h, _⟩ | ⟨h, _⟩ | ⟨h, _⟩ | ⟨h, _⟩ | ⟨h, _⟩
      · exact h1 h
      · exact h2 h
      · exact h3 h
      · exact h4 h
      · exact h5 h
      · exact h6 h
      · exact h7 h

/-- What every outcome of the build says. -/
def ConfigOutcome (crypto : Bool) (i : SpdmConfig) : Except SpdmConfigError (List (String × SpdmConfig.Param)) → Prop
  | .ok _ => ValidConfig crypto i
  | .error .invalidNumCertChains => i.numSlots < 1 ∨ 8 < i.numSlots
  | .error .certChainBufferTooLarge => 65536 < i.certBufSize
  | .error .certChainDepthTooLarge => 24 < i.maxDepth
  | .error (.invalidAsymmetricSigningAlgorithm a) => a ∈ i.asymmetricSigning ∧ a ≠ "ECDSA_ECC_NIST_P256"
  | .error (.invalidCapability a) => a ∈ i.capabilities ∧ ∀ k, (a, k) ∉ capabilityBits
  | .error (.cryptoCapNotSupported caps) => crypto = false ∧ caps = i.capabilities ∧ i.capabilities ≠ []

/-- **C53.** The build accepts valid configurations only, and the error of a rejected one names a constraint it violates. -/
theorem c53_outcome (crypto : Bool) (i : SpdmConfig) : ConfigOutcome crypto i (SpdmConfig.genConfig crypto i) := by
  unfold SpdmConfig.genConfig
  rcases maxSignatureSize_cases i.asymmetricSigning with h | ⟨a, h1, h2, h3⟩
  · have hs := (maxSignatureSize_ok _).mp h
    rw [h]
    unfold SpdmConfig.validateCertChains
    simp only [bind, Except.bind]
    by_cases h1 : i.numSlots < 1 ∨ i.numSlots > 8
    · rw [if_pos h1]; exact h1
    rw [if_neg h1]
    by_cases h2 : i.certBufSize > 65536
    · rw [if_pos h2]; exact h2
    rw [if_neg h2]
    by_cases h3 : i.maxDepth > 24
    · rw [if_pos h3]; exact h3
    rw [if_neg h3]
    simp only
    unfold SpdmConfig.validateCapabilities
    by_cases h4 : (!crypto && !i.capabilities.isEmpty) = true
    · rw [if_pos h4]
      simp at h4
      exact ⟨h4.1, rfl, h4.2⟩
    · rw [if_neg h4]
      rcases checkCapabilities_cases i.capabilities with ⟨h5, h6⟩ | ⟨a, h5, h6, h7⟩
      · rw [h5]
        refine ⟨by omega, by omega, by omega, hs, h6, ?_⟩
        intro hc
        simp [hc] at h4
        exact h4
      · rw [h7]; exact ⟨h5, h6⟩
  · rw [h3]; exact ⟨h1, h2⟩

/-- **C53.** Exactly the valid configurations are accepted. -/
theorem c53_accepts_valid (crypto : Bool) (i : SpdmConfig) : (∃ consts, SpdmConfig.genConfig crypto i = .ok consts) ↔ ValidConfig crypto i := by
  have ho := c53_outcome crypto i
  constructor
  · rintro ⟨consts, h⟩; rw [h] at ho; exact ho
  · intro hv
    cases h : SpdmConfig.genConfig crypto i with
    | ok consts => exact ⟨consts, rfl⟩
    | error e =>
      exfalso
      rw [h] at ho
      have := hv.slots; have := hv.chain; have := hv.depth
      cases e with
      | invalidNumCertChains => simp only [ConfigOutcome] at ho; omega
      | certChainBufferTooLarge => simp only [ConfigOutcome] at ho; omega
      | certChainDepthTooLarge => simp only [ConfigOutcome] at ho; omega
      | invalidAsymmetricSigningAlgorithm a => exact ho.2 (hv.signing a ho.1)
      | invalidCapability a => obtain ⟨k, hk⟩ := hv.names a ho.1; exact ho.2 k hk
      | cryptoCapNotSupported caps => exact ho.2.2 (hv.provider ho.1)

/-- **C53.** The generated constants hold the configured values. -/
theorem c53_constants (crypto : Bool) (i : SpdmConfig) (nonceSize : Nat) (consts : List (String × SpdmConfig.Param))
    (h : SpdmConfig.genConfig crypto i = .ok consts) : ∃ c, SpdmConfig.toCfg crypto consts nonceSize = some c ∧ Built crypto i nonceSize c := by
  have hs : SpdmConfig.maxSignatureSize i.asymmetricSigning = .ok 64 := by
    rcases maxSignatureSize_cases i.asymmetricSigning with h' | ⟨a, h1, h2, h3⟩
    · exact h'
    · unfold SpdmConfig.genConfig at h; rw [h3] at h; simp [bind, Except.bind] at h
  have hc : consts = SpdmConfig.template.zip (i.params 64) := by
    unfold SpdmConfig.genConfig at h
    rw [hs] at h
    simp only [bind, Except.bind] at h
    split at h
    · simp at h
    · split at h
      · simp at h
      · simpa [pure, Except.pure] using h.symm
  subst hc
  exact ⟨_, rfl, ⟨rfl, rfl, rfl, rfl, rfl, rfl, rfl, rfl, rfl, rfl, rfl, rfl, rfl, rfl⟩⟩

/-- spdm-config-crypto.toml. -/
def cryptoToml : SpdmConfig :=
  { numSlots := 5, certBufSize := 1024, maxDepth := 4, transcriptBufSize := 4096
    capabilities := ["CERT_CAP", "CHAL_CAP", "ENCRYPT_CAP", "MAC_CAP", "MUT_AUTH_CAP", "KEY_EX_CAP", "KEY_UPD_CAP"]
    maxDigestSize := 64, asymmetricSigning := ["ECDSA_ECC_NIST_P256"], maxBlocks := 8, maxSize := 1024
    maxElements := 2, maxElementDataSize := 16 }

/-- It is accepted with a provider and rejected without; nine slots, and unknown names, are rejected. -/
example : (SpdmConfig.genConfig true cryptoToml).isOk = true ∧ (SpdmConfig.genConfig false cryptoToml).isOk = false ∧
    SpdmConfig.genConfig true { cryptoToml with numSlots := 9 } = .error .invalidNumCertChains ∧
    SpdmConfig.genConfig true { cryptoToml with capabilities := ["CERT_CAP", "PSK_CAP"] } = .error (.invalidCapability "PSK_CAP") ∧
    SpdmConfig.genConfig true { cryptoToml with asymmetricSigning := ["ECDSA_ECC_NIST_P384"] } = .error (.invalidAsymmetricSigningAlgorithm "ECDSA_ECC_NIST_P384") :=
  ⟨by decide +kernel, by decide +kernel, rfl, rfl, rfl⟩

/-! ## C54 -/

/-- A name of the table and its bit, for requests and responses. -/
theorem flag_of_name {a : String} {k : Nat} (h : (a, k) ∈ capabilityBits) :
    ReqFlags.fromStr a = .ok (UInt32.ofNat (2 ^ k)) ∧ RspFlags.fromStr a = .ok (UInt32.ofNat (2 ^ k)) ∧ k < 32 := by
  simp only [capabilityBits, List.mem_cons, Prod.mk.injEq, List.not_mem_nil, or_false] at h
  rcases h with ⟨rfl, rfl⟩ | ⟨rfl, rfl⟩ | ⟨rfl, rfl⟩ | ⟨rfl, rfl⟩ | ⟨rfl, rfl⟩ | ⟨rfl, rfl⟩ | ⟨rfl, rfl⟩ <;> exact ⟨rfl, rfl, by decide⟩

theorem parseFlags_ok (parse : String → Res UInt32) (bit : String → Nat → Prop) (l : List String) (acc : UInt32)
    (hp : ∀ a ∈ l, ∃ k, bit a k ∧ k < 32 ∧ parse a = .ok (UInt32.ofNat (2 ^ k)) ∧ ∀ j, bit a j → j = k) :
    ∃ w, Responder.parseFlags parse l acc = .ok w ∧ ∀ k, w.toNat.testBit k = true ↔ (acc.toNat.testBit k = true ∨ ∃ a ∈ l, bit a k) := by
  induction l generalizing acc with
  | nil => exact ⟨acc, rfl, by simp⟩
  | cons a l ih =>
    obtain ⟨j, hj, hj32, hpa, huniq⟩ := hp a (by simp)
    obtain ⟨w, hw, hb⟩ := ih (acc ||| UInt32.ofNat (2 ^ j)) (fun x hx => hp x (by simp [hx]))
    refine ⟨w, by unfold Responder.parseFlags; rw [hpa]; simpa using hw, ?_⟩
    intro k
    have hpow : 2 ^ j < 2 ^ 32 := Nat.pow_lt_pow_right (by omega) hj32
    rw [hb k, UInt32.toNat_or, Nat.testBit_or]
    rw [show (UInt32.ofNat (2 ^ j)).toNat = 2 ^ j by simp; omega, Nat.testBit_two_pow]
    simp only [Bool.or_eq_true, decide_eq_true_eq, List.mem_cons, exists_eq_or_imp]
    constructor
    · rintro ((h | rfl) | h)
      · exact .inl h
      · exact .inr (.inl hj)
      · exact .inr (.inr h)
    · rintro (h | h | h)
      · exact .inl (.inl h)
      · exact .inl (.inr (huniq k h).symm)
      · exact .inr h

/-- The names denote different bits. -/
theorem capabilityBits_functional {a : String} {j k : Nat} (hj : (a, j) ∈ capabilityBits) (hk : (a, k) ∈ capabilityBits) : j = k := by
  simp only [capabilityBits, List.mem_cons, Prod.mk.injEq, List.not_mem_nil, or_false] at hj hk
  rcases hj with ⟨rfl, rfl⟩ | ⟨rfl, rfl⟩ | ⟨rfl, rfl⟩ | ⟨rfl, rfl⟩ | ⟨rfl, rfl⟩ | ⟨rfl, rfl⟩ | ⟨rfl, rfl⟩ <;>
    simp at hk <;> omega

/-- **C54.** With an accepted configuration, the capability messages of both roles can be built, with exactly the configured flags. -/
theorem c54_capabilities (crypto : Bool) (i : SpdmConfig) (nonceSize : Nat) (c : Cfg) (hv : ValidConfig crypto i) (hb : Built crypto i nonceSize c) :
    (∃ flags : UInt32, Requester.configToGetCapabilities c = .ok ⟨12, flags⟩ ∧ ∀ k, flags.toNat.testBit k = true ↔ ∃ a ∈ i.capabilities, (a, k) ∈ capabilityBits) ∧
    (∃ flags : UInt32, Responder.configToCapabilities c = .ok ⟨12, flags⟩ ∧ ∀ k, flags.toNat.testBit k = true ↔ ∃ a ∈ i.capabilities, (a, k) ∈ capabilityBits) := by
  constructor
  · obtain ⟨w, h1, h2⟩ := parseFlags_ok ReqFlags.fromStr (fun a k => (a, k) ∈ capabilityBits) i.capabilities 0 (by
      intro a ha
      obtain ⟨k, hk⟩ := hv.names a ha
      exact ⟨k, hk, (flag_of_name hk).2.2, (flag_of_name hk).1, fun j hj => capabilityBits_functional hj hk⟩)
    refine ⟨w, by unfold Requester.configToGetCapabilities; rw [hb.capabilities, h1]; rfl, ?_⟩
    intro k; rw [h2 k]; simp
  · obtain ⟨w, h1, h2⟩ := parseFlags_ok RspFlags.fromStr (fun a k => (a, k) ∈ capabilityBits) i.capabilities 0 (by
      intro a ha
      obtain ⟨k, hk⟩ := hv.names a ha
      exact ⟨k, hk, (flag_of_name hk).2.2, (flag_of_name hk).2.1, fun j hj => capabilityBits_functional hj hk⟩)
    refine ⟨w, by unfold Responder.configToCapabilities; rw [hb.capabilities, h1]; rfl, ?_⟩
    intro k; rw [h2 k]; simp

/-- **C54.** The offer of NEGOTIATE_ALGORITHMS can be built: DMTF measurements, ECDSA P-256 (bit 4) exactly if it is configured, SHA-256, SHA-384
and SHA-512 (bits 0 to 2; only SHA-256 without a provider), and the four fixed algorithm structures. -/
theorem c54_algorithms (crypto : Bool) (i : SpdmConfig) (nonceSize : Nat) (c : Cfg) (hv : ValidConfig crypto i) (hb : Built crypto i nonceSize c) :
    ∃ asym : UInt32, Requester.configToNegotiateAlgorithms c = .ok ⟨1, asym, if crypto then 7 else 1, 4, [⟨.dhe, 0x12⟩, ⟨.aead, 6⟩, ⟨.reqBaseAsym, 0x90⟩, ⟨.keySchedule, 1⟩]⟩ ∧
      ∀ k, asym.toNat.testBit k = true ↔ (k = 4 ∧ i.asymmetricSigning ≠ []) := by
  obtain ⟨w, h1, h2⟩ := parseFlags_ok BaseAsymAlgo.fromStr (fun _ k => k = 4) i.asymmetricSigning 0 (by
    intro a ha
    rw [hv.signing a ha]
    exact ⟨4, rfl, by decide, rfl, fun j hj => hj⟩)
  refine ⟨w, by unfold Requester.configToNegotiateAlgorithms; rw [hb.asymSigning, h1, Crypto.supportedHashes, hb.provider]; cases crypto <;> rfl, ?_⟩
  intro k
  rw [h2 k]
  cases i.asymmetricSigning with
  | nil => simp
  | cons a l => simp

/-- spdm-config-crypto.toml: the flags are bits 1, 2, 6, 7, 8, 9 and 14. -/
example : ∃ consts c, SpdmConfig.genConfig true cryptoToml = .ok consts ∧ SpdmConfig.toCfg true consts 32 = some c ∧
    Requester.configToGetCapabilities c = .ok ⟨12, 0x43C6⟩ ∧ Responder.configToCapabilities c = .ok ⟨12, 0x43C6⟩ ∧ c.numSlots = 5 :=
  ⟨_, _, rfl, rfl, by decide +kernel, by decide +kernel, rfl⟩

end Spdm
