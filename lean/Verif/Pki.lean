import Verif.Msgs.Header
import Verif.Msgs.Algorithms
/-!
# ECDSA signature re-encoding and the ring/webpki glue

src/crypto/pki.rs 75-182, src/crypto/ring/pki.rs 1-89, src/crypto/ring/digest.rs.

A sub-slice `&mut out[k..]` handed to a function is modelled by the whole buffer and the offset
`k`; an access outside the buffer panics in both.
-/
namespace Spdm

namespace Pki

/-- `DER_TAG_SEQUENCE`, src/crypto/pki.rs 46. -/
def derTagSequence : UInt8 := 0x30
/-- `DER_TAG_INTEGER`, src/crypto/pki.rs 47. -/
def derTagInteger : UInt8 := 0x02

/-- `get_start_and_length`, src/crypto/pki.rs 99-104. -/
def getStartAndLength (i : Bytes) : Res (Nat × Nat) :=
  match i.findIdx? (fun b => b != 0) with
  | none => .panic .unwrapNone
  | some start => do
    let b ← index i start
    let pad := if b &&& 0x80 ≠ 0 then 1 else 0
    pure (start, i.length - start + pad)

/-- `der_length`, src/crypto/pki.rs 174-182. -/
def derLength (size : Nat) : Nat :=
  if size < 128 then 1 else if size < 256 then 2 else 3

/-- `write_der_length`, src/crypto/pki.rs 125-141, on `&mut out[off..]`. -/
def writeDerLength (out : Bytes) (off length : Nat) : Res (Bytes × Nat) :=
  if length < 128 then do
    let out ← setIndex out off (UInt8.ofNat length)
    pure (out, 1)
  else if length < 256 then do
    let out ← setIndex out off 0x81
    let out ← setIndex out (off + 1) (UInt8.ofNat length)
    pure (out, 2)
  else if length < 65536 then do
    let out ← setIndex out off 0x82
    let out ← setIndex out (off + 1) (UInt8.ofNat (length / 256))
    let out ← setIndex out (off + 2) (UInt8.ofNat (length % 256))
    pure (out, 3)
  else .panic .assertion

/-- `out[off..][..bs.len()].copy_from_slice(bs)`, src/crypto/pki.rs 118. -/
def copyAt (out : Bytes) (off : Nat) (bs : Bytes) : Res Bytes :=
  if off + bs.length ≤ out.length then
    .ok (out.take off ++ bs ++ out.drop (off + bs.length))
  else .panic .indexOutOfBounds

/-- `integer_to_der`, src/crypto/pki.rs 109-120, on `&mut out[off..]`. -/
def integerToDer (out : Bytes) (off : Nat) (integer : Bytes) : Res (Bytes × Nat) := do
  let b ← index integer 0
  let pad := if b &&& 0x80 ≠ 0 then 1 else 0
  let out ← setIndex out off derTagInteger
  let (out, n) ← writeDerLength out (off + 1) (integer.length + pad)
  let written := 1 + n
  if pad = 1 then do
    let out ← setIndex out (off + written) 0
    let written := written + 1
    let out ← copyAt out (off + written) integer
    pure (out, written + integer.length)
  else do
    let out ← copyAt out (off + written) integer
    pure (out, written + integer.length)

/-- `bin_to_der`, src/crypto/pki.rs 75-95: the buffer afterwards and the number of bytes written. -/
def binToDer (signature out : Bytes) : Res (Bytes × Nat) := do
  let valueSize := signature.length / 2
  let r := signature.take valueSize
  let s := signature.drop valueSize
  let (rStart, rLen) ← getStartAndLength r
  let (sStart, sLen) ← getStartAndLength s
  let sigLen := 2 + rLen + sLen + derLength rLen + derLength sLen
  let out ← setIndex out 0 derTagSequence
  let (out, n) ← writeDerLength out 1 sigLen
  let written := 1 + n
  let (out, n) ← integerToDer out written (r.drop rStart)
  let written := written + n
  let (out, n) ← integerToDer out written (s.drop sStart)
  let written := written + n
  pure (out, written)

/-- `max_encoded_size`, src/crypto/pki.rs 154-170. -/
def maxEncodedSize (c : Cfg) : Nat :=
  let hashSize := c.maxSignatureSize / 2
  let perHash := derLength hashSize
  let bodySize := c.maxSignatureSize + 2 + 2 * 1 + perHash * 2
  1 + derLength bodySize + bodySize

end Pki

/-- The external cryptography: the ring hash functions and the webpki calls.  Nothing is assumed
about them here; theorems that need an assumption state it.  src/crypto/ring/digest.rs 1-40, src/crypto/ring/pki.rs 36-88. -/
structure Crypto where
  /-- ring_compat `Sha256`/`Sha384`/`Sha512` (src/crypto/ring/digest.rs 13-19), by algorithm bit -/
  hash : UInt32 → Bytes → Bytes
  /-- `webpki::EndEntityCert::try_from(cert).is_ok()`, src/crypto/ring/pki.rs 40 -/
  certOk : Bytes → Bool
  /-- `webpki::TrustAnchor::try_from_cert_der(root).is_ok()`, src/crypto/ring/pki.rs 66 -/
  anchorOk : Bytes → Bool
  /-- `verify_is_valid_tls_server_cert` of leaf under `[algo]`, root, intermediates, time,
      src/crypto/ring/pki.rs 80-87 -/
  chainOk : Bytes → UInt32 → Bytes → List Bytes → Nat → Bool
  /-- `webpki verify_signature` of leaf for `algo`, message and DER signature, src/crypto/ring/pki.rs 56 -/
  sigOk : Bytes → UInt32 → Bytes → Bytes → Bool

namespace Crypto

/-- `ProvidedDigests::supported_algorithms`, src/crypto/ring/digest.rs 22-24; without a provider
src/crypto/no_crypto_defaults.rs 39-41. -/
def supportedHashes (c : Cfg) : UInt32 :=
  if c.provider then BaseHashAlgo.sha256 ||| BaseHashAlgo.sha384 ||| BaseHashAlgo.sha512
  else BaseHashAlgo.sha256

/-- `ProvidedDigests::digest`, src/crypto/digest.rs 86-93 with src/crypto/ring/digest.rs 27-37: panics for
an algorithm ring does not provide, and when the digest exceeds `MAX_DIGEST_SIZE` (src/crypto/digest.rs 80);
always without a provider (src/crypto/no_crypto_defaults.rs 52-54). -/
def digest (c : Cfg) (cr : Crypto) (algo : UInt32) (data : Bytes) : Res Bytes :=
  if c.provider = false then .panic .unimplemented
  else if algo = BaseHashAlgo.sha256 ∨ algo = BaseHashAlgo.sha384 ∨ algo = BaseHashAlgo.sha512 then
    if (cr.hash algo data).length ≤ c.maxDigestSize then .ok (cr.hash algo data)
    else .panic .unwrapNone
  else .panic .unwrapNone

/-- `spdm_to_webpki`, src/crypto/ring/pki.rs 23-29. -/
def spdmToWebpki (algo : UInt32) : Res UInt32 :=
  if algo = BaseAsymAlgo.ecdsaP256 then .ok algo
  else if algo = BaseAsymAlgo.ecdsaP384 then .ok algo
  else .panic .unimplemented

/-- `new_end_entity_cert`, src/crypto/ring/pki.rs 11-15, 38-43 (`Error::InvalidCert` is `chain 0`); the stub
accepts everything (src/crypto/no_crypto_defaults.rs 64-68). -/
def newEndEntityCert (c : Cfg) (cr : Crypto) (leaf : Bytes) : Res Bytes :=
  if c.provider = false ∨ cr.certOk leaf then .ok leaf else .err (.chain 0)

/-- `verify_signature`, src/crypto/ring/pki.rs 47-57; the stub aborts (src/crypto/no_crypto_defaults.rs 75-77). -/
def verifySignature (c : Cfg) (cr : Crypto) (leaf : Bytes) (algo : UInt32) (msg sig : Bytes) :
    Res Bool :=
  if c.provider = false then .panic .unimplemented
  else do
    let algo ← spdmToWebpki algo
    let (der, size) ← Pki.binToDer sig (List.replicate (Pki.maxEncodedSize c) 0)
    let der ← sliceTo der size
    pure (cr.sigOk leaf algo msg der)

/-- `verify_chain_of_trust`, src/crypto/ring/pki.rs 59-88 (`ValidationFailed` is `chain 1`); the stub aborts
(src/crypto/no_crypto_defaults.rs 79-87). -/
def verifyChainOfTrust (c : Cfg) (cr : Crypto) (leaf : Bytes) (algo : UInt32) (inters : List Bytes)
    (root : Bytes) (time : Nat) : Res Unit :=
  if c.provider = false then .panic .unimplemented
  else if cr.anchorOk root then do
    let algo ← spdmToWebpki algo
    if cr.chainOk leaf algo root inters time then .ok () else .err (.chain 1)
  else .err (.chain 0)

end Crypto
end Spdm
