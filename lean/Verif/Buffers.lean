import Verif.Msgs.Certificates
/-!
# The fixed-size representations: `DigestBuf`, `SignatureBuf` and `CertificateChain` as the arrays they are

The rest of the model works with the byte strings and lists these types expose.  Here are the types as they are in the code, an array and a
count; Props/Buffers.lean proves that nothing else of them can be observed.
-/
namespace Spdm

/-- `DigestBuf`, src/msgs/common.rs 356-360, and `SignatureBuf`, 436-440: the same code with another constant for the array length. -/
structure SizedBuf where
  size : Nat
  buf : Bytes
  deriving DecidableEq, Repr

namespace SizedBuf

/-- `DigestSize::try_from`, src/msgs/common.rs 343-353; `SignatureSize::try_from`, 423-433.  `max` is `MAX_DIGEST_SIZE`, `MAX_SIGNATURE_SIZE`. -/
def trySize (max x : Nat) : Res Nat := if x ≤ max then .ok x else .err .tooLarge

/-- `new`, src/msgs/common.rs 363-365, 443-445. -/
def new (max size : Nat) : SizedBuf := ⟨size, List.replicate max 0⟩

/-- `as_ref`, src/msgs/common.rs 381-385, 461-465. -/
def asRef (b : SizedBuf) : Res Bytes := sliceTo b.buf b.size

/-- `as_mut` with something written through it, src/msgs/common.rs 387-391, 467-471: the bytes `bs` replace the slice from its start
(`copy_from_slice`, or a prefix of it as `get_slice` does). -/
def store (b : SizedBuf) (bs : Bytes) : Res SizedBuf :=
  if b.size ≤ b.buf.length then
    if bs.length ≤ b.size then .ok { b with buf := bs ++ b.buf.drop bs.length } else .panic .copyLength
  else .panic .indexOutOfBounds

/-- `try_from(&[u8])`, src/msgs/common.rs 393-401, 473-481.  The checked size is that of `buf`, so that `copy_from_slice` finds equal lengths. -/
def tryFrom (max : Nat) (bs : Bytes) : Res SizedBuf := do
  let size ← trySize max bs.length
  (new max size).store bs

/-- `read`, src/msgs/common.rs 367-374, 447-454: `get_slice(size, as_mut())`; the destination slice has `size` bytes. -/
def read (max size : Nat) : R SizedBuf := do
  let b := new max size
  let dst ← M.lift b.asRef
  let s ← Reader.getSlice size dst.length
  M.lift (b.store s)

/-- `len`, src/msgs/common.rs 376-378, 456-458. -/
def len (b : SizedBuf) : Nat := b.size

/-- `eq`, src/msgs/common.rs 405-409, 485-489. -/
def eq (a b : SizedBuf) : Res Bool :=
  if a.size = b.size then do
    let x ← a.asRef
    let y ← b.asRef
    pure (x == y)
  else .ok false

end SizedBuf

/-- `CertificateChain`, src/msgs/certificates.rs 120-132, with the array and the count. -/
structure ArrChain where
  rootHash : Bytes
  leafCert : Bytes
  num : UInt8
  certs : List Bytes
  deriving DecidableEq, Repr

namespace ArrChain

/-- `new`, src/msgs/certificates.rs 183-196. -/
def new (c : Cfg) (rootHash leafCert : Bytes) : ArrChain := ⟨rootHash, leafCert, 0, List.replicate c.maxCertChainDepth leafCert⟩

/-- `intermediate_certs`, src/msgs/certificates.rs 199-201. -/
def intermediateCerts (ch : ArrChain) : Res (List Bytes) := if ch.num.toNat ≤ ch.certs.length then .ok (ch.certs.take ch.num.toNat) else .panic .indexOutOfBounds

/-- `append_intermediate_cert`, src/msgs/certificates.rs 208-218; `+= 1` on a `u8` with overflow checks. -/
def append (c : Cfg) (cert : Bytes) : M ArrChain Unit := fun ch =>
  if ch.num.toNat = c.maxCertChainDepth then (.err .maxDepthExceeded, ch)
  else if ch.num.toNat < ch.certs.length then
    let ch := { ch with certs := ch.certs.set ch.num.toNat cert }
    if ch.num.toNat + 1 < 256 then (.ok (), { ch with num := ch.num + 1 }) else (.panic .overflow, ch)
  else (.panic .indexOutOfBounds, ch)

/-- `eq`, src/msgs/certificates.rs 136-142. -/
def eq (a b : ArrChain) : Res Bool := do
  if a.rootHash ≠ b.rootHash then pure false
  else if a.leafCert ≠ b.leafCert then pure false
  else do
    let x ← a.intermediateCerts
    let y ← b.intermediateCerts
    pure (x == y)

/-- The fold of src/msgs/certificates.rs 227-228, `n` indices left, next `i`. -/
def sumLoop (certs : List Bytes) : Nat → Nat → Nat → Res Nat
  | 0, _, acc => .ok acc
  | n + 1, i, acc => do
    let x ← index certs i
    sumLoop certs n (i + 1) (acc + x.length)

/-- The loop of src/msgs/certificates.rs 236-238. -/
def writeLoop (certs : List Bytes) : Nat → Nat → W Unit
  | 0, _ => pure ()
  | n + 1, i => do
    let x ← M.lift (index certs i)
    let _ ← Writer.extend x
    writeLoop certs n (i + 1)

/-- `write`, src/msgs/certificates.rs 221-241. -/
def write (ch : ArrChain) : W Nat := do
  let sum ← M.lift (sumLoop ch.certs ch.num.toNat 0 0)
  let length := 4 + ch.rootHash.length + sum + ch.leafCert.length
  if length > 65535 then M.fail .maxSizeExceeded
  else
    let _ ← Writer.putU16 (UInt16.ofNat length)
    let _ ← Writer.putReserved 2
    let _ ← Writer.extend ch.rootHash
    writeLoop ch.certs ch.num.toNat 0
    let _ ← Writer.extend ch.leafCert
    Writer.offsetM

/-- The loop of src/msgs/certificates.rs 264-283 on the array; fuel as in `CertificateChain.parseLoop`. -/
def parseLoop (c : Cfg) (buf : Bytes) : Nat → UInt8 → List Bytes → R (UInt8 × List Bytes × Nat)
  | 0, _, _ => M.die .unreachable
  | fuel + 1, num, certs => do
    let r ← M.get
    let offset := r.byteOffset
    let (length, headerSize) ← CertificateChain.readCertSize
    let r ← M.get
    if length > r.remaining then M.fail .lengthMismatch
    else if length = r.remaining then pure (num, certs, offset)
    else if num.toNat = c.maxCertChainDepth then M.fail .maxDepthExceeded
    else
      let cert ← M.lift (CertificateChain.slice buf offset (offset + length + headerSize))
      let certs ← M.lift (setIndex certs num.toNat cert)
      let num ← M.lift (if num.toNat + 1 < 256 then .ok (num + 1) else .panic .overflow)
      Reader.skipIgnored length
      parseLoop c buf fuel num certs

/-- `parse`, src/msgs/certificates.rs 246-293. -/
def read (c : Cfg) (buf : Bytes) (digestSize : Nat) : R ArrChain := do
  let length ← Reader.getU16
  if length.toNat ≠ buf.length then M.fail .lengthMismatch
  else
    Reader.skipReserved 2
    let r ← M.get
    let offset := r.byteOffset
    Reader.skipIgnored digestSize
    let rootHash ← M.lift (CertificateChain.slice buf offset (offset + digestSize))
    let (num, certs, leafOffset) ← parseLoop c buf (buf.length + 1) 0 (List.replicate c.maxCertChainDepth buf)
    let leaf ← M.lift (sliceFrom buf leafOffset)
    pure ⟨rootHash, leaf, num, certs⟩

/-- `parse`, src/msgs/certificates.rs 246-293. -/
def parse (c : Cfg) (buf : Bytes) (digestSize : Nat) : Res ArrChain := (read c buf digestSize (Reader.new buf)).1

end ArrChain
end Spdm
