import Verif.Pki
/-!
# The crypto provider's own code: src/crypto/digest.rs (`impl_digests!`), src/crypto/ring/digest.rs, src/crypto/ring/signing.rs

The hash functions and key pairs of `ring` are parameters.
-/
namespace Spdm

/-- A hash implementation as `impl_digests!` uses it (`Sha256::new()`, `update`, `finalize` of the RustCrypto `Digest` trait), one for each algorithm.  src/crypto/digest.rs 65-94. -/
structure HashImpl where
  Ctx : Type
  init : UInt32 → Ctx
  update : Ctx → Bytes → Ctx
  finalize : Ctx → Bytes

/-- `ProvidedDigests`, src/crypto/ring/digest.rs 13-19: the variant is the algorithm. -/
structure ProvidedDigests (H : HashImpl) where
  algo : UInt32
  ctx : H.Ctx

namespace ProvidedDigests

/-- `TryFrom<BaseHashAlgo>`, src/crypto/ring/digest.rs 27-37. -/
def tryFrom (H : HashImpl) (algo : UInt32) : Option (ProvidedDigests H) :=
  if algo = BaseHashAlgo.sha256 then some ⟨algo, H.init algo⟩
  else if algo = BaseHashAlgo.sha384 then some ⟨algo, H.init algo⟩
  else if algo = BaseHashAlgo.sha512 then some ⟨algo, H.init algo⟩
  else none

/-- `update`, src/crypto/digest.rs 70-74. -/
def update {H : HashImpl} (d : ProvidedDigests H) (data : Bytes) : ProvidedDigests H := { d with ctx := H.update d.ctx data }

/-- `finalize`, src/crypto/digest.rs 76-84: `try_into().unwrap()` into a `DigestBuf` of at most `MAX_DIGEST_SIZE` bytes. -/
def finalize {H : HashImpl} (c : Cfg) (d : ProvidedDigests H) : Res Bytes :=
  if (H.finalize d.ctx).length ≤ c.maxDigestSize then .ok (H.finalize d.ctx) else .panic .unwrapNone

/-- `digest`, src/crypto/digest.rs 86-93. -/
def digest (H : HashImpl) (c : Cfg) (algo : UInt32) (data : Bytes) : Res Bytes :=
  match tryFrom H algo with
  | none => .panic .unwrapNone
  | some d => (d.update data).finalize c

end ProvidedDigests

/-- `spdm_to_ring`, src/crypto/ring/signing.rs 18-24. -/
def spdmToRing (algo : UInt32) : Res UInt32 :=
  if algo = BaseAsymAlgo.ecdsaP256 then .ok algo
  else if algo = BaseAsymAlgo.ecdsaP384 then .ok algo
  else .panic .unimplemented

/-- `new_signer`, src/crypto/ring/signing.rs 33-39, with `RingSigner::new`, 50-57: the algorithm the signer uses.  `keyOk` is `EcdsaKeyPair::from_pkcs8`. -/
def newSigner (keyOk : UInt32 → Bytes → Bool) (algo : UInt32) (key : Bytes) : Res UInt32 := do
  let a ← spdmToRing algo
  if keyOk a key then pure a else .err .sign

end Spdm
