import Verif.Lemmas.Usize
import Verif.Props.Encoding
/-!
# Property C100: sizes and offsets do not overflow

Verif/Usize.lean has the arithmetic of the code with a `usize` of `bits` bits, where an overflow aborts.  The rest of the model computes with natural numbers.  Here: they agree on every
input that fits in memory.  Rust guarantees that a slice has at most `isize::MAX` bytes: `InMemory`.
-/
namespace Spdm

/-- A slice that a machine with a `usize` of `bits` bits can have: at most `isize::MAX` bytes. -/
def Spec.InMemory (bits : Nat) (bs : Bytes) : Prop := bs.length < 2 ^ (bits - 1)

namespace Usize
open Spec

theorem half {bits : Nat} (hb : 32 ≤ bits) : 2 * 2 ^ (bits - 1) = 2 ^ bits := by
  obtain ⟨k, rfl⟩ : ∃ k, bits = k + 1 := ⟨bits - 1, by omega⟩
  rw [Nat.pow_succ, Nat.add_sub_cancel]; omega

theorem half_ge {bits : Nat} (hb : 32 ≤ bits) : 2 ^ 31 ≤ 2 ^ (bits - 1) := Nat.pow_le_pow_right (by omega) (by omega)

end Usize
open Spec

/-! ## Writer, Reader and Transcript -/

/-- A call of `Writer` on the machine. -/
def WOp.machine (bits : Nat) : WOp → W Nat
  | put b => Usize.put bits b
  | putReserved n => Usize.putAll bits (List.replicate n 0)
  | putU16 n => Usize.putAll bits (Writer.leBytes 2 n.toNat)
  | putU24 n => Usize.putAll bits (Writer.leBytes 3 n)
  | putU32 n => Usize.putAll bits (Writer.leBytes 4 n.toNat)
  | extend bs => Usize.extend bits bs

/-- A history of calls of `Writer` on the machine. -/
def WOp.machineAll (bits : Nat) : List WOp → Writer → List (Res Nat) × Writer
  | [], w => ([], w)
  | op :: ops, w =>
    let r := op.machine bits w
    let rest := WOp.machineAll bits ops r.2
    (r.1 :: rest.1, rest.2)

theorem WOp.agree {bits : Nat} (op : WOp) : Usize.WAgree bits (op.machine bits) op.run := by
  cases op with
  | put b => exact Usize.WAgree.put b
  | putReserved n => exact Usize.WAgree.putAll _
  | putU16 n => exact Usize.WAgree.putAll _
  | putU24 n => exact Usize.WAgree.putAll _
  | putU32 n => exact Usize.WAgree.putAll _
  | extend bs => exact Usize.WAgree.extend bs

/-- **C100** No history of calls of a `Writer` over a buffer in memory overflows: all results and the buffer are those computed with unbounded numbers. -/
theorem c100_writer {bits : Nat} (hb : 32 ≤ bits) {buf : Bytes} (hm : InMemory bits buf) (ops : List WOp) :
    WOp.machineAll bits ops (Writer.new buf) = WOp.runAll ops (Writer.new buf) := by
  suffices h : ∀ w : Writer, Usize.WIn bits w → WOp.machineAll bits ops w = WOp.runAll ops w by
    refine h _ ⟨by simp [Writer.new], ?_⟩
    have := Usize.half hb; unfold InMemory at hm
    show buf.length < _; omega
  induction ops with
  | nil => intro w _; rfl
  | cons op ops ih =>
    intro w hw
    obtain ⟨e, h⟩ := op.agree w hw
    simp only [WOp.machineAll, WOp.runAll, e, ih _ h]

/-- A call of `Reader` on the machine. -/
def ROp.machine (bits : Nat) : ROp → R Unit
  | getByte => do let _ ← Usize.getByte bits
  | getBits n => do let _ ← Usize.getBits bits n
  | getBit => do let _ ← Usize.getBit bits
  | getU16 => do let _ ← Usize.getU16 bits
  | getU24 => do let _ ← Usize.getU24 bits
  | getU32 => do let _ ← Usize.getU32 bits
  | skipReserved n => Usize.skipReserved bits n
  | skipIgnored n => Usize.skipIgnored bits n
  | getSlice n cap => do let _ ← Usize.getSlice bits n cap

/-- The values read, not only the outcomes: each call agrees in both. -/
theorem c100_reads {bits : Nat} (hb : 32 ≤ bits) {buf : Bytes} (hm : InMemory bits buf) (off bit : Nat) (ho : off ≤ buf.length) (h8 : bit < 8) :
    let r : Reader := ⟨buf, off, bit⟩
    Usize.getByte bits r = Reader.getByte r ∧ Usize.getBit bits r = Reader.getBit r ∧ Usize.getU16 bits r = Reader.getU16 r ∧
    Usize.getU24 bits r = Reader.getU24 r ∧ Usize.getU32 bits r = Reader.getU32 r ∧ (∀ n, Usize.getBits bits n r = Reader.getBits n r) ∧
    (∀ n cap, Usize.getSlice bits n cap r = Reader.getSlice n cap r) := by
  have hr : Usize.RIn bits ⟨buf, off, bit⟩ := ⟨ho, h8, by have := Usize.half hb; unfold InMemory at hm; show buf.length < _; omega⟩
  exact ⟨(Usize.RAgree.getByte _ hr).1, (Usize.RAgree.getBits 1 _ hr).1, (Usize.RAgree.getU16 _ hr).1, (Usize.RAgree.getU24 (by omega) _ hr).1,
    (Usize.RAgree.getU32 _ hr).1, fun n => (Usize.RAgree.getBits n _ hr).1, fun n cap => (Usize.RAgree.getSlice n cap _ hr).1⟩

/-- A history of calls of `Reader` on the machine. -/
def ROp.machineAll (bits : Nat) : List ROp → Reader → List (Res Unit) × Reader
  | [], r => ([], r)
  | op :: ops, r =>
    let x := op.machine bits r
    let rest := ROp.machineAll bits ops x.2
    (x.1 :: rest.1, rest.2)

theorem ROp.agree {bits : Nat} (hb : 32 ≤ bits) (op : ROp) : Usize.RAgree bits (op.machine bits) op.run Usize.any := by
  have fin : ∀ {α : Type} {p q : R α} {P}, Usize.RAgree bits p q P → Usize.RAgree bits (p >>= fun _ => pure ()) (q >>= fun _ => pure ()) Usize.any :=
    fun h => h.bind fun _ => (Usize.RAgree.pure ()).toAny
  cases op with
  | getByte => exact fin Usize.RAgree.getByte
  | getBits n => exact fin (Usize.RAgree.getBits n)
  | getBit => exact fin (Usize.RAgree.getBits 1)
  | getU16 => exact fin Usize.RAgree.getU16
  | getU24 => exact fin (Usize.RAgree.getU24 (by omega))
  | getU32 => exact fin Usize.RAgree.getU32
  | skipReserved n => exact (Usize.RAgree.skipReserved n).toAny
  | skipIgnored n => exact (Usize.RAgree.skipIgnored n).toAny
  | getSlice n cap => exact fin (Usize.RAgree.getSlice n cap)

/-- **C100** No history of calls of a `Reader` over a buffer in memory overflows, not even one with calls that misuse it. -/
theorem c100_reader {bits : Nat} (hb : 32 ≤ bits) {buf : Bytes} (hm : InMemory bits buf) (ops : List ROp) :
    ROp.machineAll bits ops (Reader.new buf) = ROp.runAll ops (Reader.new buf) := by
  suffices h : ∀ r : Reader, Usize.RIn bits r → ROp.machineAll bits ops r = ROp.runAll ops r by
    refine h _ ⟨by simp [Reader.new], by simp [Reader.new], ?_⟩
    have := Usize.half hb; unfold InMemory at hm
    show buf.length < _; omega
  induction ops with
  | nil => intro w _; rfl
  | cons op ops ih =>
    intro r hr
    obtain ⟨e, h, _⟩ := op.agree hb r hr
    simp only [ROp.machineAll, ROp.runAll, e, ih _ h]

/-- On a machine with a 16-bit `usize` it is not so: a three-byte number need not fit, and `get_u24` aborts. -/
theorem c100_narrow : (Usize.getU24 16 (Reader.new [0, 0, 1])).1 = .panic .unwrapNone ∧ (Reader.getU24 (Reader.new [0, 0, 1])).1 = .ok 65536 := by decide

example : ROp.machineAll 32 [.getBits 3, .getByte, .getBits 5, .getSlice 2 4, .getU16] (Reader.new [1, 2, 3, 4]) =
    ([.ok (), .err (.read .unaligned), .ok (), .ok (), .err (.read .bufferEmpty)], ⟨[1, 2, 3, 4], 3, 0⟩) := by decide
/-- With offsets of two bits it overflows: the agreement is a matter of the sizes. -/
example : (WOp.machineAll 2 [.put 1, .put 2, .put 3, .put 4] (Writer.new [0, 0, 0, 0, 0])).1 = [.ok 1, .ok 2, .ok 3, .panic .overflow] := by decide

/-- A call of `Transcript` on the machine. -/
def TOp.machine (bits : Nat) : TOp → Transcript → Res Unit × Transcript
  | extend bs, t => Usize.log bits bs t
  | clear, t => (.ok (), t.clear)

/-- A history of calls of `Transcript` on the machine. -/
def TOp.machineAll (bits : Nat) : List TOp → Transcript → List (Res Unit) × Transcript
  | [], t => ([], t)
  | op :: ops, t =>
    let x := op.machine bits t
    let rest := TOp.machineAll bits ops x.2
    (x.1 :: rest.1, rest.2)

/-- **C100** No history of a transcript overflows, although it adds before it compares. -/
theorem c100_transcript {bits : Nat} (hb : 32 ≤ bits) (c : Cfg) (hc : c.transcriptSize < 2 ^ (bits - 1)) (ops : List TOp)
    (hm : ∀ bs, .extend bs ∈ ops → InMemory bits bs) : TOp.machineAll bits ops (Transcript.new c) = TOp.runAll ops (Transcript.new c) := by
  have h2 := Usize.half hb
  suffices h : ∀ t : Transcript, t.offset ≤ t.buf.length → t.buf.length = c.transcriptSize → TOp.machineAll bits ops t = TOp.runAll ops t from
    h _ (by simp [Transcript.new]) (by simp [Transcript.new])
  induction ops with
  | nil => intro t _ _; rfl
  | cons op ops ih =>
    intro t ht hl
    have ih := ih fun bs h => hm bs (by simp [h])
    cases op with
    | clear =>
      simp only [TOp.machineAll, TOp.runAll, TOp.machine, TOp.run]
      rw [ih t.clear (by simp [Transcript.clear]) (by simpa [Transcript.clear] using hl)]
    | extend bs =>
      have hbs : bs.length < 2 ^ (bits - 1) := hm bs (by simp)
      have e : Usize.log bits bs t = Transcript.extend bs t := by
        unfold Usize.log Transcript.extend
        rw [Usize.add_ok (by omega)]
      simp only [TOp.machineAll, TOp.runAll, TOp.machine, TOp.run, e]
      have g : (Transcript.extend bs t).2.offset ≤ (Transcript.extend bs t).2.buf.length ∧ (Transcript.extend bs t).2.buf.length = c.transcriptSize := by
        unfold Transcript.extend
        dsimp only
        split
        · exact ⟨ht, hl⟩
        · simp; omega
      rw [ih _ g.1 g.2]

/-! ## Certificate chains -/

/-- **C100** Writing a chain whose parts have together fewer bytes than there are addresses does not overflow. -/
theorem c100_chain_written {bits : Nat} (ch : CertificateChain) (w : Writer) (ho : w.offset ≤ w.buf.length) (hw : w.buf.length < 2 ^ bits)
    (hl : 4 + ch.rootHash.length + ch.intermediateCerts.flatten.length + ch.leafCert.length < 2 ^ bits) : Usize.writeChain bits ch w = ch.write w := by
  have e : Usize.wireLength bits ch = .ok ch.wireLength := by
    unfold Usize.wireLength
    rw [Usize.add_ok (by omega), Res.ok_bind, Usize.sumLengths_run _ _ (by omega), Res.ok_bind, Usize.add_ok (by omega), Res.ok_bind, Usize.add_ok (by omega)]
    unfold CertificateChain.wireLength
    rw [foldl_len, Nat.zero_add]
  have h : Usize.WAgree bits (if ch.wireLength > 65535 then M.fail .maxSizeExceeded else (do
      let _ ← Usize.putAll bits (Writer.leBytes 2 (UInt16.ofNat ch.wireLength).toNat)
      let _ ← Usize.putAll bits (List.replicate 2 0)
      let _ ← Usize.extend bits ch.rootHash
      let _ ← Usize.writeCerts bits ch.intermediateCerts
      let _ ← Usize.extend bits ch.leafCert
      Writer.offsetM)) ch.write := by
    unfold CertificateChain.write
    exact Usize.WAgree.ite (Usize.WAgree.fail _) ((Usize.WAgree.putAll _).bind fun _ => (Usize.WAgree.putAll _).bind fun _ => (Usize.WAgree.extend _).bind fun _ =>
      (Usize.WAgree.writeCerts _).bind fun _ => (Usize.WAgree.extend _).bind fun _ => Usize.WAgree.offsetM)
  rw [← (h w ⟨ho, hw⟩).1]
  unfold Usize.writeChain
  rw [e, M.run_bind_ok (M.run_lift _ _)]

/-- **C100** A chain can be in memory although the sum of the lengths of its parts overflows: writing it aborts (without overflow checks the sum wraps),
where MaxSizeExceeded is due.  Here with a root hash and a leaf of `isize::MAX` bytes, which may be the same bytes. -/
theorem c100_chain_sum_overflows {bits : Nat} (hb : 32 ≤ bits) : ∃ ch : CertificateChain, ch.intermediateCerts = [] ∧ InMemory bits ch.rootHash ∧ InMemory bits ch.leafCert ∧
    ∀ w : Writer, (Usize.writeChain bits ch w).1 = .panic .overflow ∧ (ch.write w).1 = .err .maxSizeExceeded := by
  have h2 := Usize.half hb; have h3 := Usize.half_ge hb
  let big : Bytes := List.replicate (2 ^ (bits - 1) - 1) 0
  have hl : big.length = 2 ^ (bits - 1) - 1 := by simp [big]
  refine ⟨⟨big, [], big⟩, rfl, ?_, ?_, fun w => ⟨?_, ?_⟩⟩
  · show big.length < _; omega
  · show big.length < _; omega
  · have e : Usize.wireLength bits ⟨big, [], big⟩ = .panic .overflow := by
      unfold Usize.wireLength
      dsimp only
      rw [hl, Usize.add_ok (by omega), Res.ok_bind]
      simp only [Usize.sumLengths, Res.ok_bind]
      rw [Usize.add_ok (by omega), Res.ok_bind]
      exact if_neg (by omega)
    unfold Usize.writeChain
    rw [e]
    rfl
  · unfold CertificateChain.write
    rw [if_pos (by simp only [CertificateChain.wireLength, hl, List.foldl_nil]; omega)]
    rfl

/-- **C100** Parsing a certificate chain in memory does not overflow, whatever the bytes claim about their sizes. -/
theorem c100_chain_parsed {bits : Nat} (hb : 32 ≤ bits) (c : Cfg) {buf : Bytes} (hm : InMemory bits buf) (digestSize : Nat) :
    (Usize.readChain bits c buf digestSize (Reader.new buf)).1 = CertificateChain.parse c buf digestSize := by
  have hr : Usize.RIn bits (Reader.new buf) :=
    ⟨by simp [Reader.new], by simp [Reader.new], by have := Usize.half hb; unfold InMemory at hm; show buf.length < _; omega⟩
  rw [(Usize.RAgree.readChain c buf digestSize _ hr).1]
  rfl

/-! ## Measurements, opaque data, signatures -/

/-- **C100** The sizes of measurement blocks do not overflow: at most 255 of them, as the count on the wire, with values shorter than 65536 bytes. -/
theorem c100_measurements {bits : Nat} (hb : 32 ≤ bits) {m : MeasurementBlocks} (hl : m.len < 256)
    (hv : ∀ b, some b ∈ m.blocks → b.measurement.value.bytes.length < 65536) : Usize.blocksSize bits m = m.serializedSize := by
  unfold Usize.blocksSize MeasurementBlocks.serializedSize
  rcases hs : sliceTo m.blocks m.len with s | e | k
  · have hs' : s = m.blocks.take m.len := by
      unfold sliceTo at hs
      split at hs
      · exact (Res.ok.inj hs).symm
      · cases hs
    rw [Res.ok_bind, Res.ok_bind, Usize.sumBlocks_run]
    · rcases MeasurementBlocks.sumSizes s with n | e | k
      · simp only [Res.ok_bind, Nat.zero_add]
      · rfl
      · rfl
    · intro b hmem
      have := hv b (by rw [hs'] at hmem; exact List.mem_of_mem_take hmem)
      unfold MeasurementBlock.serializedSize DmtfMeasurement.serializedSize; omega
    · have : s.length ≤ 255 := by rw [hs', List.length_take]; omega
      exact Usize.lt_bits (k := 32) (by omega) hb
  · rfl
  · rfl

/-- **C100** The size and the padding of opaque data do not overflow. -/
theorem c100_opaque {bits : Nat} (hb : 32 ≤ bits) (d : OpaqueData) : Usize.opaqueSize bits d = d.serializedSize ∧
    (∀ e : OpaqueElement, Usize.elementSize bits e = .ok e.serializedSize) ∧
    (∀ (v : UInt8) (n : UInt16), Usize.elementPadding bits v n = .ok (OpaqueElement.padding (4 + v.toNat + n.toNat))) := by
  refine ⟨?_, Usize.elementSize_run hb, fun v n => ?_⟩
  · unfold Usize.opaqueSize OpaqueData.serializedSize
    rcases hs : sliceTo d.elements d.totalElements.toNat with es | e | k
    · have hl : es.length ≤ 255 := by
        unfold sliceTo at hs
        split at hs
        · rw [← Res.ok.inj hs, List.length_take]; have := d.totalElements.toNat_lt; omega
        · cases hs
      have hf := Usize.foldl_size_le es
      have hf' : es.foldl (fun acc e => acc + e.serializedSize) 0 ≤ 255 * (65536 + 12) := Nat.le_trans hf (Nat.mul_le_mul_right _ hl)
      rw [Res.ok_bind, Res.ok_bind, Usize.sumElements_run hb _ _ (Usize.lt_bits (k := 32) (by omega) hb), Res.ok_bind, Nat.zero_add,
        Usize.add_ok (Usize.lt_bits (k := 32) (by omega) hb)]
      rfl
    · rfl
    · rfl
  · have := v.toNat_lt; have := n.toNat_lt
    unfold Usize.elementPadding
    rw [Usize.add_ok (Usize.lt_bits (k := 32) (by omega) hb), Res.ok_bind, Usize.add_ok (Usize.lt_bits (k := 32) (by omega) hb), Res.ok_bind, Usize.padding_run]

/-- **C100** The number of bytes of extended algorithms to skip, four for each of at most 255, does not overflow (algorithms.rs 321, 338, 356, 376, 502, 503). -/
theorem c100_extended {bits : Nat} (hb : 32 ≤ bits) (n : UInt8) : Usize.mul bits 4 n.toNat = .ok (4 * n.toNat) :=
  if_pos (Usize.lt_bits (k := 32) (by have := n.toNat_lt; omega) hb)

/-- **C100** Encoding a signature does not overflow, whatever its length and its bytes. -/
theorem c100_signature {bits : Nat} (hb : 32 ≤ bits) {signature : Bytes} (hm : InMemory bits signature) (out : Bytes) :
    Usize.binToDer bits signature out = Pki.binToDer signature out := by
  have := Usize.half hb; have := Usize.half_ge hb; unfold InMemory at hm
  exact Usize.binToDer_run (by omega)

example : Usize.binToDer 32 [1, 2, 200, 4] (List.replicate 12 0) = .ok ([0x30, 9, 2, 2, 1, 2, 2, 3, 0, 200, 4, 0], 11) := by decide
example : InMemory 32 (List.replicate 1000 7) := by show (List.replicate 1000 7).length < 2 ^ 31; rw [List.length_replicate]; omega
example : InMemory 64 [0x30, 0x82, 0xff, 0xff] := by simp [InMemory]

end Spdm
