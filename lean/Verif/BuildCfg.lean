import Verif.Basic
/-!
# Build-time configuration: build.rs, config.rs.template
-/
namespace Spdm

/-- `SpdmConfigError`, build.rs 16-41. -/
inductive SpdmConfigError
  | invalidNumCertChains
  | certChainDepthTooLarge
  | certChainBufferTooLarge
  | invalidAsymmetricSigningAlgorithm (s : String)
  | invalidCapability (s : String)
  | cryptoCapNotSupported (caps : List String)
  deriving DecidableEq, Repr

/-- `SpdmConfig` and its parts, build.rs 43-99, flattened. -/
structure SpdmConfig where
  numSlots : Nat
  certBufSize : Nat
  maxDepth : Nat
  transcriptBufSize : Nat
  capabilities : List String
  maxDigestSize : Nat
  asymmetricSigning : List String
  maxBlocks : Nat
  maxSize : Nat
  maxElements : Nat
  maxElementDataSize : Nat
  deriving DecidableEq, Repr

namespace SpdmConfig

/-- `CertChainConfig::validate`, build.rs 60-74. -/
def validateCertChains (i : SpdmConfig) : Except SpdmConfigError Unit :=
  if i.numSlots < 1 ∨ i.numSlots > 8 then .error .invalidNumCertChains
  else if i.certBufSize > 65536 then .error .certChainBufferTooLarge
  else if i.maxDepth > 24 then .error .certChainDepthTooLarge
  else .ok ()

/-- `max_signature_size`, build.rs 106-121. -/
def maxSignatureSize : List String → Except SpdmConfigError Nat
  | [] => .ok 64
  | a :: as =>
    match a with
    | "ECDSA_ECC_NIST_P256" => maxSignatureSize as
    | x => .error (.invalidAsymmetricSigningAlgorithm x)

/-- The loop of `validate_capabilities`, build.rs 133-141. -/
def checkCapabilities : List String → Except SpdmConfigError Unit
  | [] => .ok ()
  | a :: as =>
    match a with
    | "CERT_CAP" | "CHAL_CAP" | "ENCRYPT_CAP" | "MAC_CAP" | "MUT_AUTH_CAP" | "KEY_EX_CAP"
    | "KEY_UPD_CAP" => checkCapabilities as
    | x => .error (.invalidCapability x)

/-- `validate_capabilities`, build.rs 124-143; `cryptoRing` says whether the `crypto-ring` feature
(environment variable `CARGO_FEATURE_CRYPTO_RING`) is on. -/
def validateCapabilities (cryptoRing : Bool) (caps : List String) : Except SpdmConfigError Unit :=
  if !cryptoRing && !caps.isEmpty then .error (.cryptoCapNotSupported caps)
  else checkCapabilities caps

/-- A value put into the template by `gen_config`: a number or a list of names.  build.rs 160-175. -/
inductive Param
  | num (n : Nat)
  | names (l : List String)
  deriving DecidableEq, Repr

/-- `params`, build.rs 160-175 (without the last empty string, which only terminates the zip). -/
def params (i : SpdmConfig) (maxSig : Nat) : List Param :=
  [.num i.numSlots, .num i.certBufSize, .num i.maxDepth, .num i.transcriptBufSize,
   .num i.maxDigestSize, .num maxSig, .num i.maxElementDataSize, .num i.maxElements,
   .num i.maxBlocks, .num i.maxSize, .names i.capabilities, .names i.asymmetricSigning]

/-- The constants of config.rs.template 5-44 in the order of their `{}` placeholders. -/
def template : List String :=
  ["NUM_SLOTS", "MAX_CERT_CHAIN_SIZE", "MAX_CERT_CHAIN_DEPTH", "TRANSCRIPT_SIZE",
   "MAX_DIGEST_SIZE", "MAX_SIGNATURE_SIZE", "MAX_OPAQUE_ELEMENT_DATA_SIZE",
   "MAX_OPAQUE_ELEMENTS", "MAX_MEASUREMENT_BLOCKS", "MAX_MEASUREMENT_SIZE", "CAPABILITIES",
   "ALGORITHMS_ASYMMETRIC_SIGNING"]

/-- `gen_config`, build.rs 153-181.  The generated file is modelled by its constant definitions
(name and value) in order; the text between the placeholders is not modelled. -/
def genConfig (cryptoRing : Bool) (i : SpdmConfig) :
    Except SpdmConfigError (List (String × Param)) := do
  let maxSig ← maxSignatureSize i.asymmetricSigning
  validateCertChains i
  validateCapabilities cryptoRing i.capabilities
  pure (template.zip (i.params maxSig))

/-- A numeric constant of the generated file (src/config.rs includes it).  For example config.rs.template 5-44. -/
def constNum (consts : List (String × Param)) (name : String) : Option Nat :=
  match consts.lookup name with
  | some (.num n) => some n
  | _ => none

/-- A list constant of the generated file.  config.rs.template 36-44. -/
def constNames (consts : List (String × Param)) (name : String) : Option (List String) :=
  match consts.lookup name with
  | some (.names l) => some l
  | _ => none

/-- The constants as seen by the library (`crate::config`, src/config.rs), with the `crypto` feature
(build.rs 199-201, src/crypto/mod.rs 14-26). -/
def toCfg (cryptoRing : Bool) (consts : List (String × Param)) (nonceSize : Nat) : Option Cfg := do
  let numSlots ← constNum consts "NUM_SLOTS"
  let maxCertChainSize ← constNum consts "MAX_CERT_CHAIN_SIZE"
  let maxCertChainDepth ← constNum consts "MAX_CERT_CHAIN_DEPTH"
  let transcriptSize ← constNum consts "TRANSCRIPT_SIZE"
  let maxDigestSize ← constNum consts "MAX_DIGEST_SIZE"
  let maxSignatureSize ← constNum consts "MAX_SIGNATURE_SIZE"
  let maxOpaqueElementDataSize ← constNum consts "MAX_OPAQUE_ELEMENT_DATA_SIZE"
  let maxOpaqueElements ← constNum consts "MAX_OPAQUE_ELEMENTS"
  let maxMeasurementBlocks ← constNum consts "MAX_MEASUREMENT_BLOCKS"
  let maxMeasurementSize ← constNum consts "MAX_MEASUREMENT_SIZE"
  let capabilities ← constNames consts "CAPABILITIES"
  let asymSigning ← constNames consts "ALGORITHMS_ASYMMETRIC_SIGNING"
  pure { numSlots, maxCertChainSize, maxCertChainDepth, transcriptSize, maxDigestSize,
         maxSignatureSize, maxOpaqueElementDataSize, maxOpaqueElements, maxMeasurementBlocks,
         maxMeasurementSize, nonceSize, capabilities, asymSigning, provider := cryptoRing }

end SpdmConfig
end Spdm
