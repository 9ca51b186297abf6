import Verif.Msgs.Header
/-!
# GET_CERTIFICATE, CERTIFICATE and certificate chains: src/msgs/certificates.rs
-/
namespace Spdm

/-- `GetCertificate`, src/msgs/certificates.rs 20-24. -/
structure GetCertificate where
  slot : UInt8
  offset : UInt16
  length : UInt16
  deriving DecidableEq, Repr

namespace GetCertificate
/-- `write_body`, src/msgs/certificates.rs 35-40. -/
def writeBody (m : GetCertificate) : W Nat := do
  let _ ← Writer.put m.slot
  let _ ← Writer.putReserved 1
  let _ ← Writer.putU16 m.offset
  Writer.putU16 m.length

/-- `parse_body` as a reader action, src/msgs/certificates.rs 46-51. -/
def read : R GetCertificate := do
  let slot ← Reader.getByte
  Reader.skipReserved 1
  let offset ← Reader.getU16
  let length ← Reader.getU16
  pure ⟨slot, offset, length⟩

/-- `parse_body`, src/msgs/certificates.rs 44-52. -/
def parseBody (buf : Bytes) : Res GetCertificate := (read (Reader.new buf)).1
end GetCertificate

/-- `Certificate`, src/msgs/certificates.rs 57-62; `certChain` has `MAX_CERT_CHAIN_SIZE` bytes. -/
structure Certificate where
  slot : UInt8
  portionLength : UInt16
  remainderLength : UInt16
  certChain : Bytes
  deriving DecidableEq, Repr

namespace Certificate
/-- `write_body`, src/msgs/certificates.rs 73-79. -/
def writeBody (m : Certificate) : W Nat := do
  let _ ← Writer.put m.slot
  let _ ← Writer.putReserved 1
  let _ ← Writer.putU16 m.portionLength
  let _ ← Writer.putU16 m.remainderLength
  let s ← M.lift (sliceTo m.certChain m.portionLength.toNat)
  Writer.extend s

/-- `parse_body` as a reader action, src/msgs/certificates.rs 99-109. -/
def read (c : Cfg) : R Certificate := do
  let slot ← Reader.getByte
  Reader.skipReserved 1
  let portion ← Reader.getU16
  if portion.toNat > c.maxCertChainSize then M.fail .certTooLarge
  else
    let remainder ← Reader.getU16
    let s ← Reader.getSlice portion.toNat c.maxCertChainSize
    pure ⟨slot, portion, remainder, zeroPad c.maxCertChainSize s⟩

/-- `parse_body`, src/msgs/certificates.rs 95-110. -/
def parseBody (c : Cfg) (buf : Bytes) : Res Certificate := (read c (Reader.new buf)).1
end Certificate

/-- `CertificateChain`, src/msgs/certificates.rs 122-132.  The array `intermediate_certs` together with
`num_intermediate_certs` is modelled by the list of the valid entries, which is all that
the accessors (src/msgs/certificates.rs 199-201) and `PartialEq` (136-142) expose.  The count is a `u8`: with a
MAX_CERT_CHAIN_DEPTH above 255, which the build refuses (build.rs 68: at most 24), the 256th certificate would
overflow it; that case is left out here.  Verif/Buffers.lean has the array and the count, and C68 relates the two. -/
structure CertificateChain where
  rootHash : Bytes
  intermediateCerts : List Bytes
  leafCert : Bytes
  deriving DecidableEq, Repr

namespace CertificateChain

/-- `new`, src/msgs/certificates.rs 183-196. -/
def new (rootHash leafCert : Bytes) : CertificateChain := ⟨rootHash, [], leafCert⟩

/-- `append_intermediate_cert`, src/msgs/certificates.rs 208-218. -/
def appendIntermediateCert (c : Cfg) (ch : CertificateChain) (cert : Bytes) :
    Res CertificateChain :=
  if ch.intermediateCerts.length = c.maxCertChainDepth then .err .maxDepthExceeded
  else .ok { ch with intermediateCerts := ch.intermediateCerts ++ [cert] }

/-- The sum of src/msgs/certificates.rs 225-229. -/
def wireLength (ch : CertificateChain) : Nat :=
  4 + ch.rootHash.length
    + ch.intermediateCerts.foldl (fun acc x => acc + x.length) 0
    + ch.leafCert.length

/-- The loop of src/msgs/certificates.rs 236-238. -/
def writeCerts : List Bytes → W Nat
  | [] => Writer.offsetM
  | x :: xs => do
    let _ ← Writer.extend x
    writeCerts xs

/-- `write`, src/msgs/certificates.rs 221-241. -/
def write (ch : CertificateChain) : W Nat := do
  if ch.wireLength > 65535 then M.fail .maxSizeExceeded
  else
    let _ ← Writer.putU16 (UInt16.ofNat ch.wireLength)
    let _ ← Writer.putReserved 2
    let _ ← Writer.extend ch.rootHash
    let _ ← writeCerts ch.intermediateCerts
    let _ ← Writer.extend ch.leafCert
    Writer.offsetM

/-- `read_cert_size`, src/msgs/certificates.rs 302-331: (content length, header size). -/
def readCertSize : R (Nat × Nat) := do
  let tag ← Reader.getByte
  if tag ≠ 0x30 then M.die .assertion
  else
    let n ← Reader.getByte
    if n &&& 0x80 = 0 then pure (n.toNat, 2)
    else if n = 0x81 then
      let n ← Reader.getByte
      if n < 128 then M.fail .badDerEncoding
      else pure (n.toNat, 3)
    else if n = 0x82 then
      let high ← Reader.getByte
      let low ← Reader.getByte
      let n := (high.toNat <<< 8) ||| low.toNat
      if n < 256 then M.fail .badDerEncoding
      else pure (n, 4)
    else M.fail .badDerEncoding

/-- `&buf[i..j]`.  src/msgs/certificates.rs 258, 279. -/
def slice (buf : Bytes) (i j : Nat) : Res Bytes :=
  if i ≤ j ∧ j ≤ buf.length then .ok ((buf.drop i).take (j - i))
  else .panic .indexOutOfBounds

/-- The loop of src/msgs/certificates.rs 264-283.  Returns the intermediates found and the leaf
offset.  The fuel bounds the iterations; each consumes at least two bytes, so a fuel of
the buffer length suffices (proved: `parse` never runs out of it). -/
def parseLoop (c : Cfg) (buf : Bytes) : Nat → List Bytes → R (List Bytes × Nat)
  | 0, _ => M.die .unreachable
  | fuel + 1, certs => do
    let r ← M.get
    let offset := r.byteOffset
    let (length, headerSize) ← readCertSize
    let r ← M.get
    if length > r.remaining then M.fail .lengthMismatch
    else if length = r.remaining then pure (certs, offset)
    else if certs.length = c.maxCertChainDepth then M.fail .maxDepthExceeded
    else
      let cert ← M.lift (slice buf offset (offset + length + headerSize))
      Reader.skipIgnored length
      parseLoop c buf fuel (certs ++ [cert])

/-- `parse` as a reader action, src/msgs/certificates.rs 251-292. -/
def read (c : Cfg) (buf : Bytes) (digestSize : Nat) : R CertificateChain := do
  let length ← Reader.getU16
  if length.toNat ≠ buf.length then M.fail .lengthMismatch
  else
    Reader.skipReserved 2
    let r ← M.get
    let offset := r.byteOffset
    Reader.skipIgnored digestSize
    let rootHash ← M.lift (slice buf offset (offset + digestSize))
    let (certs, leafOffset) ← parseLoop c buf (buf.length + 1) []
    let leaf ← M.lift (sliceFrom buf leafOffset)
    pure ⟨rootHash, certs, leaf⟩

/-- `parse`, src/msgs/certificates.rs 246-293. -/
def parse (c : Cfg) (buf : Bytes) (digestSize : Nat) : Res CertificateChain :=
  (read c buf digestSize (Reader.new buf)).1

end CertificateChain
end Spdm
