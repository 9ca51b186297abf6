import Verif.Pki
import Verif.Transcript
import Verif.Msgs.Certificates
import Verif.Msgs.Measurements
/-!
# Offsets and sizes as a machine computes them

Elsewhere in the model a `usize` is a natural number.  Here are the functions of the code that do arithmetic on one, with a `usize` of `bits` bits and every `+`, `-` and `*`
checked: an overflow panics, as in a build with overflow checks (in a build without them it wraps, so where nothing here panics both builds compute the same).  The arithmetic of
`Reader::get_bits` is on `u8`: the same operations with 8 bits.
-/
namespace Spdm
namespace Usize

/-- `a + b` on an unsigned integer of `bits` bits.  For example src/msgs/encoding.rs 29. -/
def add (bits a b : Nat) : Res Nat := if a + b < 2 ^ bits then .ok (a + b) else .panic .overflow
/-- `a - b` on unsigned integers.  For example src/msgs/encoding.rs 94. -/
def sub (a b : Nat) : Res Nat := if b ≤ a then .ok (a - b) else .panic .overflow
/-- `a * b` on an unsigned integer of `bits` bits.  For example src/msgs/algorithms.rs 529-535. -/
def mul (bits a b : Nat) : Res Nat := if a * b < 2 ^ bits then .ok (a * b) else .panic .overflow

/-! ## Writer -/

/-- `Writer::put`, src/msgs/encoding.rs 24-32. -/
def put (bits : Nat) (value : UInt8) : W Nat := fun w =>
  if w.isFull then (.err .bufferFull, w)
  else if w.offset < w.buf.length then
    match add bits w.offset 1 with
    | .ok o => (.ok o, { buf := w.buf.set w.offset value, offset := o })
    | .err e => (.err e, w)
    | .panic k => (.panic k, w)
  else (.panic .indexOutOfBounds, w)

/-- The loop of `put_reserved`, `put_u16`, `put_u24` and `put_u32`, src/msgs/encoding.rs 38-73. -/
def putAll (bits : Nat) : Bytes → W Nat
  | [] => Writer.offsetM
  | b :: bs => do let _ ← put bits b; putAll bits bs

/-- `Writer::extend`, src/msgs/encoding.rs 76-85, with `remaining`, 93-95. -/
def extend (bits : Nat) (bs : Bytes) : W Nat := fun w =>
  match sub w.buf.length w.offset with
  | .ok remaining =>
    if bs.length > remaining then (.err .bufferFull, w)
    else match add bits w.offset bs.length with
      | .ok e => (.ok e, { buf := w.buf.take w.offset ++ bs ++ w.buf.drop e, offset := e })
      | .err e => (.err e, w)
      | .panic k => (.panic k, w)
  | .err e => (.err e, w)
  | .panic k => (.panic k, w)

/-! ## Reader -/

/-- `Reader::get_byte`, src/msgs/encoding.rs 135-145. -/
def getByte (bits : Nat) : R UInt8 := fun r =>
  if !r.isAligned then (.err (.read .unaligned), r)
  else if r.isEmpty then (.err (.read .bufferEmpty), r)
  else match r.buf[r.byteOffset]?, add bits r.byteOffset 1 with
    | some b, .ok o => (.ok b, { r with byteOffset := o })
    | some _, .err e => (.err e, r)
    | some _, .panic k => (.panic k, r)
    | none, _ => (.panic .indexOutOfBounds, r)

/-- `skip_reserved`, src/msgs/encoding.rs 150-158. -/
def skipReserved (bits : Nat) : Nat → R Unit
  | 0 => pure ()
  | n + 1 => do
    let byte ← getByte bits
    if byte ≠ 0 then M.fail (.read .reservedByteNotZero)
    else skipReserved bits n

/-- `skip_ignored`, src/msgs/encoding.rs 162-167. -/
def skipIgnored (bits : Nat) : Nat → R Unit
  | 0 => pure ()
  | n + 1 => do
    let _ ← getByte bits
    skipIgnored bits n

/-- The body of `get_bits` after its two checks, src/msgs/encoding.rs 180-209: the value and the new position. -/
def bitsValue (bits count : Nat) (r : Reader) : Res (UInt8 × Reader) := do
  let newBit ← add 8 r.bitOffset count
  if newBit ≥ 8 then
    let newByte ← add bits r.byteOffset 1
    let newBit ← sub newBit 8
    if newByte = r.buf.length ∧ newBit ≠ 0 then .err (.read .bufferEmpty)
    else
      let b ← Reader.shr8 (← Reader.at? r r.byteOffset) r.bitOffset
      if newBit ≠ 0 then
        let lowBit ← sub 8 r.bitOffset
        let trailingZeros ← sub 8 newBit
        let rightShift ← sub trailingZeros lowBit
        let hi ← Reader.shr8 (← Reader.shl8 (← Reader.at? r newByte) trailingZeros) rightShift
        pure (b ||| hi, { r with byteOffset := newByte, bitOffset := newBit })
      else pure (b, { r with byteOffset := newByte, bitOffset := newBit })
  else
    let high ← add 8 r.bitOffset count
    let up ← sub 8 high
    let width ← sub high r.bitOffset
    let down ← sub 8 width
    let b ← Reader.shr8 (← Reader.shl8 (← Reader.at? r r.byteOffset) up) down
    pure (b, { r with bitOffset := high })

/-- `Reader::get_bits`, src/msgs/encoding.rs 173-210. -/
def getBits (bits count : Nat) : R UInt8 := fun r =>
  if r.isEmpty then (.err (.read .bufferEmpty), r)
  else if count > 7 then (.err (.read .tooManyBits), r)
  else match bitsValue bits count r with
    | .ok (b, r') => (.ok b, r')
    | .err e => (.err e, r)
    | .panic k => (.panic k, r)

/-- `Reader::get_bit`, src/msgs/encoding.rs 213-215. -/
def getBit (bits : Nat) : R UInt8 := getBits bits 1

/-- `Reader::remaining`, src/msgs/encoding.rs 298-300, then `pos + n` (src/msgs/encoding.rs 228, 254, 285) if `n` bytes are left: the bytes and the new offset. -/
def window (bits n : Nat) (r : Reader) : Res (Bytes × Nat) := do
  let remaining ← sub r.buf.length r.byteOffset
  if remaining < n then .err (.read .bufferEmpty)
  else
    let e ← add bits r.byteOffset n
    pure ((r.buf.drop r.byteOffset).take n, e)

/-- `Reader::get_u16`, src/msgs/encoding.rs 220-233. -/
def getU16 (bits : Nat) : R UInt16 := fun r =>
  if !r.isAligned then (.err (.read .unaligned), r)
  else match window bits 2 r with
    | .ok (s, e) => (.ok (UInt16.ofNat (Reader.fromLe s)), { r with byteOffset := e })
    | .err e => (.err e, r)
    | .panic k => (.panic k, r)

/-- `Reader::get_slice`, src/msgs/encoding.rs 240-257. -/
def getSlice (bits size cap : Nat) : R Bytes := fun r =>
  if !r.isAligned then (.err (.read .unaligned), r)
  else match window bits size r with
    | .ok (s, e) =>
      if size ≤ cap then (.ok s, { r with byteOffset := e }) else (.panic .indexOutOfBounds, { r with byteOffset := e })
    | .err e => (.err e, r)
    | .panic k => (.panic k, r)

/-- `Reader::get_u24`, src/msgs/encoding.rs 262-272: the conversion of line 271 fails for a value that is no `usize`. -/
def getU24 (bits : Nat) : R Nat := fun r =>
  if !r.isAligned then (.err (.read .unaligned), r)
  else (do
    let a ← getByte bits
    let b ← getByte bits
    let c ← getByte bits
    if Reader.fromLe [a, b, c] < 2 ^ bits then pure (Reader.fromLe [a, b, c]) else M.die .unwrapNone) r

/-- `Reader::get_u32`, src/msgs/encoding.rs 277-290. -/
def getU32 (bits : Nat) : R UInt32 := fun r =>
  if !r.isAligned then (.err (.read .unaligned), r)
  else match window bits 4 r with
    | .ok (s, e) => (.ok (UInt32.ofNat (Reader.fromLe s)), { r with byteOffset := e })
    | .err e => (.err e, r)
    | .panic k => (.panic k, r)

/-! ## Transcript -/

/-- `Transcript::extend`, src/transcript.rs 26-35: the sum is made before it is compared. -/
def log (bits : Nat) (bs : Bytes) : M Transcript Unit := fun t =>
  match add bits t.offset bs.length with
  | .ok e =>
    if e > t.buf.length then (.err .bufferFull, t)
    else (.ok (), { buf := t.buf.take t.offset ++ bs ++ t.buf.drop e, offset := e })
  | .err e => (.err e, t)
  | .panic k => (.panic k, t)

/-! ## Certificate chains -/

/-- The fold of src/msgs/certificates.rs 227-228. -/
def sumLengths (bits : Nat) : Nat → List Bytes → Res Nat
  | acc, [] => .ok acc
  | acc, x :: xs => do sumLengths bits (← add bits acc x.length) xs

/-- The length of a chain, src/msgs/certificates.rs 225-229. -/
def wireLength (bits : Nat) (ch : CertificateChain) : Res Nat := do
  let a ← add bits 4 ch.rootHash.length
  let i ← sumLengths bits 0 ch.intermediateCerts
  let b ← add bits a i
  add bits b ch.leafCert.length

/-- The loop of src/msgs/certificates.rs 236-238. -/
def writeCerts (bits : Nat) : List Bytes → W Nat
  | [] => Writer.offsetM
  | x :: xs => do
    let _ ← extend bits x
    writeCerts bits xs

/-- `CertificateChain::write`, src/msgs/certificates.rs 221-241. -/
def writeChain (bits : Nat) (ch : CertificateChain) : W Nat := do
  let length ← M.lift (wireLength bits ch)
  if length > 65535 then M.fail .maxSizeExceeded
  else
    let _ ← putAll bits (Writer.leBytes 2 (UInt16.ofNat length).toNat)
    let _ ← putAll bits (List.replicate 2 0)
    let _ ← extend bits ch.rootHash
    let _ ← writeCerts bits ch.intermediateCerts
    let _ ← extend bits ch.leafCert
    Writer.offsetM

/-- `read_cert_size`, src/msgs/certificates.rs 302-331. -/
def readCertSize (bits : Nat) : R (Nat × Nat) := do
  let tag ← getByte bits
  if tag ≠ 0x30 then M.die .assertion
  else
    let n ← getByte bits
    if n &&& 0x80 = 0 then pure (n.toNat, 2)
    else if n = 0x81 then
      let n ← getByte bits
      if n < 128 then M.fail .badDerEncoding
      else pure (n.toNat, 3)
    else if n = 0x82 then
      let high ← getByte bits
      let low ← getByte bits
      let n := (high.toNat <<< 8) ||| low.toNat
      if n < 256 then M.fail .badDerEncoding
      else pure (n, 4)
    else M.fail .badDerEncoding

/-- The loop of src/msgs/certificates.rs 264-283, with `remaining` (268, 271) and `offset + length + header_size` (277). -/
def parseLoop (bits : Nat) (c : Cfg) (buf : Bytes) : Nat → List Bytes → R (List Bytes × Nat)
  | 0, _ => M.die .unreachable
  | fuel + 1, certs => do
    let r ← M.get
    let offset := r.byteOffset
    let (length, headerSize) ← readCertSize bits
    let r ← M.get
    let remaining ← M.lift (sub r.buf.length r.byteOffset)
    if length > remaining then M.fail .lengthMismatch
    else if length = remaining then pure (certs, offset)
    else if certs.length = c.maxCertChainDepth then M.fail .maxDepthExceeded
    else
      let a ← M.lift (add bits offset length)
      let e ← M.lift (add bits a headerSize)
      let cert ← M.lift (CertificateChain.slice buf offset e)
      skipIgnored bits length
      parseLoop bits c buf fuel (certs ++ [cert])

/-- `CertificateChain::parse`, src/msgs/certificates.rs 246-293. -/
def readChain (bits : Nat) (c : Cfg) (buf : Bytes) (digestSize : Nat) : R CertificateChain := do
  let length ← getU16 bits
  if length.toNat ≠ buf.length then M.fail .lengthMismatch
  else
    skipReserved bits 2
    let r ← M.get
    let offset := r.byteOffset
    skipIgnored bits digestSize
    let e ← M.lift (add bits offset digestSize)
    let rootHash ← M.lift (CertificateChain.slice buf offset e)
    let (certs, leafOffset) ← parseLoop bits c buf (buf.length + 1) []
    let leaf ← M.lift (sliceFrom buf leafOffset)
    pure ⟨rootHash, certs, leaf⟩

/-! ## Sizes of measurements and opaque data -/

/-- `DmtfMeasurement::serialized_size`, src/msgs/measurements.rs 475-477, then `MeasurementBlock::serialized_size`, 546-548. -/
def blockSize (bits : Nat) (b : MeasurementBlock) : Res Nat := do
  add bits 4 (← add bits 3 b.measurement.value.bytes.length)

/-- The fold of src/msgs/measurements.rs 646-650. -/
def sumBlocks (bits : Nat) : Nat → List (Option MeasurementBlock) → Res Nat
  | acc, [] => .ok acc
  | _, none :: _ => .panic .unwrapNone
  | acc, some b :: bs => do sumBlocks bits (← add bits acc (← blockSize bits b)) bs

/-- `MeasurementBlocks::serialized_size`, src/msgs/measurements.rs 642-650. -/
def blocksSize (bits : Nat) (m : MeasurementBlocks) : Res Nat := do
  let s ← sliceTo m.blocks m.len
  sumBlocks bits 0 s

/-- `OpaqueElement::padding`, src/msgs/common.rs 157-164. -/
def padding (raw : Nat) : Res Nat := if raw % 4 = 0 then .ok 0 else sub 4 (raw % 4)

/-- `OpaqueElement::serialized_size`, src/msgs/common.rs 149-154. -/
def elementSize (bits : Nat) (e : OpaqueElement) : Res Nat := do
  let a ← add bits 4 e.registryId.vendorIdLen.toNat
  let raw ← add bits a e.dataLen.toNat
  add bits raw (← padding raw)

/-- The fold of src/msgs/common.rs 41-43. -/
def sumElements (bits : Nat) : Nat → List OpaqueElement → Res Nat
  | acc, [] => .ok acc
  | acc, e :: es => do sumElements bits (← add bits acc (← elementSize bits e)) es

/-- `OpaqueData::serialized_size`, src/msgs/common.rs 40-44. -/
def opaqueSize (bits : Nat) (d : OpaqueData) : Res Nat := do
  let es ← sliceTo d.elements d.totalElements.toNat
  add bits 4 (← sumElements bits 0 es)

/-- The padding of `OpaqueElement::write` and `read`, src/msgs/common.rs 180-181 and 196-197. -/
def elementPadding (bits : Nat) (vendorLen : UInt8) (dataLen : UInt16) : Res Nat := do
  let a ← add bits 4 vendorLen.toNat
  padding (← add bits a dataLen.toNat)

/-! ## Signatures -/

/-- `get_start_and_length`, src/crypto/pki.rs 99-104. -/
def startAndLength (bits : Nat) (i : Bytes) : Res (Nat × Nat) :=
  match i.findIdx? (fun b => b != 0) with
  | none => .panic .unwrapNone
  | some start => do
    let b ← index i start
    let pad := if b &&& 0x80 ≠ 0 then 1 else 0
    let l ← add bits (← sub i.length start) pad
    pure (start, l)

/-- The length of the encoded sequence, src/crypto/pki.rs 84: four additions from the left. -/
def sequenceLength (bits rLen sLen : Nat) : Res Nat := do
  let a ← add bits 2 rLen
  let a ← add bits a sLen
  let a ← add bits a (Pki.derLength rLen)
  add bits a (Pki.derLength sLen)

/-- `integer_to_der`, src/crypto/pki.rs 109-120, on `&mut out[off..]`: the additions of lines 113, 116 and 119.  (The offset of the sub-slice is no number of the code.) -/
def integerToDer (bits : Nat) (out : Bytes) (off : Nat) (integer : Bytes) : Res (Bytes × Nat) := do
  let b ← index integer 0
  let pad := if b &&& 0x80 ≠ 0 then 1 else 0
  let out ← setIndex out off Pki.derTagInteger
  let l ← add bits integer.length pad
  let (out, n) ← Pki.writeDerLength out (off + 1) l
  let written ← add bits 1 n
  if pad = 1 then do
    let out ← setIndex out (off + written) 0
    let written ← add bits written 1
    let out ← Pki.copyAt out (off + written) integer
    let w ← add bits written integer.length
    pure (out, w)
  else do
    let out ← Pki.copyAt out (off + written) integer
    let w ← add bits written integer.length
    pure (out, w)

/-- `bin_to_der`, src/crypto/pki.rs 75-95. -/
def binToDer (bits : Nat) (signature out : Bytes) : Res (Bytes × Nat) := do
  let valueSize := signature.length / 2
  let r := signature.take valueSize
  let s := signature.drop valueSize
  let (rStart, rLen) ← startAndLength bits r
  let (sStart, sLen) ← startAndLength bits s
  let sigLen ← sequenceLength bits rLen sLen
  let out ← setIndex out 0 Pki.derTagSequence
  let (out, n) ← Pki.writeDerLength out 1 sigLen
  let written ← add bits 1 n
  let (out, n) ← integerToDer bits out written (r.drop rStart)
  let written ← add bits written n
  let (out, n) ← integerToDer bits out written (s.drop sStart)
  let written ← add bits written n
  pure (out, written)

end Usize
end Spdm
