import Verif.Spec
import Verif.Transcript
import Verif.Lemmas.Writer
import Verif.Lemmas.Reader
import Verif.Lemmas.Safe
/-! # Properties C01–C05: Writer, Reader, Transcript -/
namespace Spdm

theorem leBytes_eq (k n : Nat) : Writer.leBytes k n = Spec.le k n := by
  induction k generalizing n with
  | zero => rfl
  | succ k ih =>
    simp only [Writer.leBytes, ih, Spec.le, List.range_succ_eq_map, List.map_cons, List.map_map]
    congr 1
    · apply UInt8.toNat_inj.mp; simp
    · apply List.map_congr_left
      intro i _
      simp only [Function.comp]
      rw [Nat.div_div_eq_div_mul, Nat.pow_succ, Nat.mul_comm]

/-! ## C01 -/

/-- The calls a user of `Writer` can make. -/
inductive WOp
  | put (b : UInt8)
  | putReserved (n : Nat)
  | putU16 (n : UInt16)
  | putU24 (n : Nat)
  | putU32 (n : UInt32)
  | extend (bs : Bytes)

/-- Perform one call. -/
def WOp.run : WOp → W Nat
  | put b => Writer.put b
  | putReserved n => Writer.putReserved n
  | putU16 n => Writer.putU16 n
  | putU24 n => Writer.putU24 n
  | putU32 n => Writer.putU32 n
  | extend bs => Writer.extend bs

/-- Specification: the bytes a call stands for. -/
def WOp.bytes : WOp → Bytes
  | put b => [b]
  | putReserved n => Spec.zeros n
  | putU16 n => Spec.le 2 n.toNat
  | putU24 n => Spec.le 3 n
  | putU32 n => Spec.le 4 n.toNat
  | extend bs => bs

/-- Perform a history of calls; the caller may go on after a failed call.  All outcomes are kept. -/
def WOp.runAll : List WOp → Writer → List (Res Nat) × Writer
  | [], w => ([], w)
  | op :: ops, w =>
    let r := op.run w
    let rest := WOp.runAll ops r.2
    (r.1 :: rest.1, rest.2)

theorem WOp.writes (op : WOp) : Writes op.run id op.bytes := by
  cases op with
  | put b => exact Writes.put b
  | putReserved n => exact Writes.putReserved n
  | putU16 n => exact (Writes.putU16 n).congr (leBytes_eq _ _)
  | putU24 n => exact (Writes.putU24 n).congr (leBytes_eq _ _)
  | putU32 n => exact (Writes.putU32 n).congr (leBytes_eq _ _)
  | extend bs => exact Writes.extend bs

theorem putAll_err {bs : Bytes} {w w' : Writer} {e : Err}
    (h : Writer.putAll bs w = (.err e, w')) : e = .bufferFull := by
  induction bs generalizing w with
  | nil => simp [Writer.putAll, Writer.offsetM] at h
  | cons b bs ih =>
    simp only [Writer.putAll] at h
    cases hp : Writer.put b w with
    | mk x w1 =>
      cases x with
      | ok a => rw [M.run_bind_ok hp] at h; exact ih h
      | err e' =>
        rw [M.run_bind_err hp] at h
        unfold Writer.put at hp
        split at hp
        · simp at hp h; simp [← h.1, ← hp.1]
        · split at hp <;> simp at hp
      | panic k => rw [M.run_bind_panic hp] at h; simp at h

theorem WOp.run_err {op : WOp} {w w' : Writer} {e : Err} (h : op.run w = (.err e, w')) :
    e = .bufferFull := by
  cases op with
  | put b =>
    simp only [WOp.run, Writer.put] at h
    split at h
    · simp at h; exact h.1.symm
    · split at h <;> simp at h
  | putReserved n => exact putAll_err h
  | putU16 n => exact putAll_err h
  | putU24 n => exact putAll_err h
  | putU32 n => exact putAll_err h
  | extend bs =>
    simp only [WOp.run, Writer.extend] at h
    split at h
    · simp at h; exact h.1.symm
    · simp at h

/-- **C01**, one call: it appends exactly its bytes at the cursor and returns the new cursor when
they fit; otherwise it fails with `BufferFullError`, and has written at most a prefix of
them at the cursor, everything else being unchanged. -/
theorem c01_writer_call (op : WOp) (w : Writer) (hw : w.offset ≤ w.buf.length) :
    (w.offset + op.bytes.length ≤ w.buf.length →
      op.run w = (.ok (w.offset + op.bytes.length),
        { buf := w.buf.take w.offset ++ op.bytes ++ w.buf.drop (w.offset + op.bytes.length),
          offset := w.offset + op.bytes.length })) ∧
    (w.buf.length < w.offset + op.bytes.length →
      ∃ pre, pre <+: op.bytes ∧ w.offset + pre.length ≤ w.buf.length ∧
      op.run w = (.err .bufferFull,
        { buf := w.buf.take w.offset ++ pre ++ w.buf.drop (w.offset + pre.length),
          offset := w.offset + pre.length })) := by
  obtain ⟨h1, h2⟩ := WOp.writes op w hw
  unfold Writer.room at h1 h2
  constructor
  · intro h; exact h1 (by omega)
  · intro h
    obtain ⟨e, n, _, hn, h3⟩ := h2 (by omega)
    refine ⟨op.bytes.take n, List.take_prefix _ _, ?_, ?_⟩
    · simp only [List.length_take]; omega
    · rw [h3, WOp.run_err h3]; rfl

/-- **C01**, any history of calls: no call panics, the buffer keeps its size, the cursor stays inside and
never moves back, and what was before the initial cursor is untouched; and a history whose bytes all fit appends exactly
their concatenation. -/
theorem c01_writer_history (ops : List WOp) (w : Writer) (hw : w.offset ≤ w.buf.length) :
    let r := WOp.runAll ops w
    (∀ x ∈ r.1, x = .err .bufferFull ∨ ∃ n, x = .ok n ∧ n ≤ w.buf.length) ∧
    r.2.buf.length = w.buf.length ∧ w.offset ≤ r.2.offset ∧ r.2.offset ≤ w.buf.length ∧
    r.2.buf.take w.offset = w.buf.take w.offset ∧
    r.2.buf.drop r.2.offset = w.buf.drop r.2.offset ∧
    (w.offset + (ops.map fun op => op.bytes.length).sum ≤ w.buf.length →
      r.2.buf = w.buf.take w.offset ++ ops.flatMap (fun op => op.bytes) ++
        w.buf.drop (w.offset + (ops.map fun op => op.bytes.length).sum) ∧
      r.2.offset = w.offset + (ops.map fun op => op.bytes.length).sum ∧
      ∀ x ∈ r.1, x.isOk = true) := by
  induction ops generalizing w with
  | nil => simp [WOp.runAll, hw]
  | cons op ops ih =>
    obtain ⟨h1, h2⟩ := c01_writer_call op w hw
    -- the writer after the first call is an append of a prefix
    obtain ⟨x, pre, hx, hpre, hlen, hall⟩ : ∃ x pre,
        op.run w = (x, w.app pre) ∧ (x = .err .bufferFull ∨ ∃ n, x = .ok n ∧ n ≤ w.buf.length) ∧
        w.offset + pre.length ≤ w.buf.length ∧
        (w.offset + op.bytes.length ≤ w.buf.length → pre = op.bytes ∧ x.isOk = true) := by
      by_cases hf : w.offset + op.bytes.length ≤ w.buf.length
      · exact ⟨_, op.bytes, h1 hf, .inr ⟨_, rfl, hf⟩, hf, fun _ => ⟨rfl, rfl⟩⟩
      · obtain ⟨pre, _, hl, he⟩ := h2 (by omega)
        exact ⟨_, pre, he, .inl rfl, hl, fun h => absurd h hf⟩
    have hroom : pre.length ≤ w.room := by unfold Writer.room; omega
    have hlen' : (w.app pre).buf.length = w.buf.length := Writer.app_length hw hroom
    have htake : (w.app pre).buf.take (w.offset + pre.length) = w.buf.take w.offset ++ pre := by
      simp only [Writer.app]
      rw [List.take_append_of_le_length (by simp; omega), List.take_of_length_le (by simp)]
    obtain ⟨i1, i2, i3, i4, i5, i6, i7⟩ := ih (w.app pre) (by rw [hlen']; exact hlen)
    simp only [WOp.runAll, hx]
    generalize WOp.runAll ops (w.app pre) = r at *
    rw [hlen'] at i1 i2 i4 i7
    simp only [Writer.app_offset] at i3 i5 i7
    refine ⟨?_, i2, by omega, i4, ?_, ?_, ?_⟩
    · intro y hy
      rcases List.mem_cons.mp hy with rfl | hy
      · exact hpre
      · exact i1 y hy
    · have := congrArg (List.take w.offset) i5
      rw [List.take_take, List.take_take, Nat.min_eq_left (by omega)] at this
      rw [this]
      have := congrArg (List.take w.offset) htake
      rw [List.take_take, Nat.min_eq_left (by omega)] at this
      rw [this, List.take_append_of_le_length (by simp; omega), List.take_take]
      simp
    · rw [i6]
      simp only [Writer.app]
      have hl : (w.buf.take w.offset ++ pre).length = w.offset + pre.length := by simp; omega
      rw [List.drop_append, List.drop_of_length_le (by omega), hl]
      simp only [List.nil_append, List.drop_drop]
      congr 1; omega
    · intro hfit
      simp only [List.map_cons, List.sum_cons] at hfit ⊢
      obtain ⟨rfl, hok⟩ := hall (by omega)
      obtain ⟨j1, j2, j3⟩ := i7 (by omega)
      refine ⟨?_, ?_, ?_⟩
      · rw [j1, htake]
        have hl : (w.buf.take w.offset ++ op.bytes).length = w.offset + op.bytes.length := by
          simp; omega
        have hd : (w.app op.bytes).buf.drop (w.offset + op.bytes.length +
            (ops.map fun op => op.bytes.length).sum) = w.buf.drop (w.offset + (op.bytes.length +
            (ops.map fun op => op.bytes.length).sum)) := by
          simp only [Writer.app]
          rw [List.drop_append, List.drop_of_length_le (by omega), hl]
          simp only [List.nil_append, List.drop_drop]
          congr 1; omega
        rw [hd]
        simp only [List.flatMap_cons, List.append_assoc]
      · rw [j2]; omega
      · intro y hy
        rcases List.mem_cons.mp hy with rfl | hy
        · exact hok
        · exact j3 y hy

/-- The hypotheses are met: a u16 then three bytes into the middle of a 6-byte buffer; and
an overflowing call. -/
example : WOp.runAll [.putU16 0x0102, .extend [7, 8, 9], .put 1] ⟨[1, 1, 1, 1, 1, 1], 1⟩ =
    ([.ok 3, .ok 6, .err .bufferFull], ⟨[1, 2, 1, 7, 8, 9], 6⟩) := by decide

/-! ## C02 -/

/-- **C02** Integers are laid out little-endian and read back unchanged from any position,
whatever surrounds them. -/
theorem c02_integers_round_trip (n16 : UInt16) (n24 : Nat) (h24 : n24 < 2 ^ 24) (n32 : UInt32)
    (pre suf : Bytes) :
    -- layout: byte i is digit i in base 256
    (∀ buf : Bytes, 2 ≤ buf.length → Writer.putU16 n16 (Writer.new buf) =
      (.ok 2, { buf := Spec.le 2 n16.toNat ++ buf.drop 2, offset := 2 })) ∧
    (∀ buf : Bytes, 3 ≤ buf.length → Writer.putU24 n24 (Writer.new buf) =
      (.ok 3, { buf := Spec.le 3 n24 ++ buf.drop 3, offset := 3 })) ∧
    (∀ buf : Bytes, 4 ≤ buf.length → Writer.putU32 n32 (Writer.new buf) =
      (.ok 4, { buf := Spec.le 4 n32.toNat ++ buf.drop 4, offset := 4 })) ∧
    -- reading back
    Reader.getU16 ⟨pre ++ (Spec.le 2 n16.toNat ++ suf), pre.length, 0⟩ =
      (.ok n16, ⟨pre ++ (Spec.le 2 n16.toNat ++ suf), pre.length + 2, 0⟩) ∧
    Reader.getU24 ⟨pre ++ (Spec.le 3 n24 ++ suf), pre.length, 0⟩ =
      (.ok n24, ⟨pre ++ (Spec.le 3 n24 ++ suf), pre.length + 3, 0⟩) ∧
    Reader.getU32 ⟨pre ++ (Spec.le 4 n32.toNat ++ suf), pre.length, 0⟩ =
      (.ok n32, ⟨pre ++ (Spec.le 4 n32.toNat ++ suf), pre.length + 4, 0⟩) := by
  refine ⟨?_, ?_, ?_, ?_, ?_, ?_⟩
  · intro buf h
    have := (c01_writer_call (.putU16 n16) (Writer.new buf) (by simp [Writer.new])).1
      (by simpa [Writer.new, WOp.bytes, Spec.le] using h)
    simpa [WOp.run, WOp.bytes, Spec.le, Writer.new] using this
  · intro buf h
    have := (c01_writer_call (.putU24 n24) (Writer.new buf) (by simp [Writer.new])).1
      (by simpa [Writer.new, WOp.bytes, Spec.le] using h)
    simpa [WOp.run, WOp.bytes, Spec.le, Writer.new] using this
  · intro buf h
    have := (c01_writer_call (.putU32 n32) (Writer.new buf) (by simp [Writer.new])).1
      (by simpa [Writer.new, WOp.bytes, Spec.le] using h)
    simpa [WOp.run, WOp.bytes, Spec.le, Writer.new] using this
  · simpa [leBytes_eq, Spec.le] using (Reads.getU16 n16).congr (leBytes_eq _ _) pre suf
  · simpa [leBytes_eq, Spec.le] using (Reads.getU24 n24 h24).congr (leBytes_eq _ _) pre suf
  · simpa [leBytes_eq, Spec.le] using (Reads.getU32 n32).congr (leBytes_eq _ _) pre suf

example : Writer.putU24 0x123456 (Writer.new [0, 0, 0, 9]) = (.ok 3, ⟨[0x56, 0x34, 0x12, 9], 3⟩) ∧
    Reader.getU24 ⟨[1, 0x56, 0x34, 0x12, 9], 1, 0⟩ = (.ok 0x123456, ⟨[1, 0x56, 0x34, 0x12, 9], 4, 0⟩) := by
  decide

/-! ## C03 -/

/-- **C03** `get_bits n` returns the next `n` bits of the least-significant-bit-first bit
stream and advances by `n`, and fails without moving exactly when fewer than `n` are
left.  (The cursor is at bit `bitOffset` of byte `byteOffset`, inside the buffer or at its end.) -/
theorem c03_bit_stream (r : Reader) (n : Nat) (hin : r.byteOffset ≤ r.buf.length)
    (hbit : r.bitOffset < 8) (hend : r.byteOffset = r.buf.length → r.bitOffset = 0)
    (h1 : 1 ≤ n) (h7 : n ≤ 7) :
    let pos := 8 * r.byteOffset + r.bitOffset
    (pos + n ≤ 8 * r.buf.length →
      ∃ v r', Reader.getBits n r = (.ok v, r') ∧ r'.buf = r.buf ∧
        8 * r'.byteOffset + r'.bitOffset = pos + n ∧ r'.bitOffset < 8 ∧
        v.toNat = Spec.bitsVal (((Spec.bits r.buf).drop pos).take n)) ∧
    (8 * r.buf.length < pos + n → Reader.getBits n r = (.err (.read .bufferEmpty), r)) := by
  obtain ⟨g1, g2⟩ := getBits_spec r n ⟨hin, hbit, hend⟩ h1 h7
  refine ⟨fun h => ?_, g2⟩
  obtain ⟨v, r', e, b, hv, hp, hval⟩ := g1 h
  exact ⟨v, r', e, b, hp, hv.2.1, hval⟩

/-- A read across a byte boundary. -/
example : Reader.getBits 6 ⟨[0xA5, 0x3C], 0, 5⟩ = (.ok 0b100101, ⟨[0xA5, 0x3C], 1, 3⟩) := by decide

/-! ## C04 -/

/-- The calls a user of `Reader` can make; `getSlice` with a destination of `cap` bytes. -/
inductive ROp
  | getByte | getBits (n : Nat) | getBit | getU16 | getU24 | getU32
  | skipReserved (n : Nat) | skipIgnored (n : Nat) | getSlice (n cap : Nat)

/-- The documented use: a positive number of bits, a destination that is large enough. -/
def ROp.Ok : ROp → Prop
  | getBits n => 1 ≤ n
  | getSlice n cap => n ≤ cap
  | _ => True

/-- Perform one call, forgetting the value but keeping the outcome. -/
def ROp.run : ROp → R Unit
  | getByte => do let _ ← Reader.getByte
  | getBits n => do let _ ← Reader.getBits n
  | getBit => do let _ ← Reader.getBit
  | getU16 => do let _ ← Reader.getU16
  | getU24 => do let _ ← Reader.getU24
  | getU32 => do let _ ← Reader.getU32
  | skipReserved n => Reader.skipReserved n
  | skipIgnored n => Reader.skipIgnored n
  | getSlice n cap => do let _ ← Reader.getSlice n cap

/-- Perform a history of calls; the caller may go on after a failed call. -/
def ROp.runAll : List ROp → Reader → List (Res Unit) × Reader
  | [], r => ([], r)
  | op :: ops, r =>
    let x := op.run r
    let rest := ROp.runAll ops x.2
    (x.1 :: rest.1, rest.2)

theorem ROp.safe (op : ROp) (h : op.Ok) : Safe op.run := by
  cases op with
  | getByte => exact Safe.getByte.bind fun _ => Safe.pure _
  | getBits n => exact (Safe.getBits h).bind fun _ => Safe.pure _
  | getBit => exact Safe.getBit.bind fun _ => Safe.pure _
  | getU16 => exact Safe.getU16.bind fun _ => Safe.pure _
  | getU24 => exact Safe.getU24.bind fun _ => Safe.pure _
  | getU32 => exact Safe.getU32.bind fun _ => Safe.pure _
  | skipReserved n => exact Safe.skipReserved n
  | skipIgnored n => exact Safe.skipIgnored n
  | getSlice n cap => exact (Safe.getSlice h).bind fun _ => Safe.pure _

/-- **C04** From a fresh reader, no history of calls panics, and the cursor stays inside the
buffer, which is never changed. -/
theorem c04_reader_total (buf : Bytes) (ops : List ROp) (hops : ∀ op ∈ ops, op.Ok) :
    let r := ROp.runAll ops (Reader.new buf)
    (∀ x ∈ r.1, ∀ k, x ≠ .panic k) ∧ r.2.buf = buf ∧
      8 * r.2.byteOffset + r.2.bitOffset ≤ 8 * buf.length := by
  suffices h : ∀ r0 : Reader, r0.Valid → (∀ x ∈ (ROp.runAll ops r0).1, ∀ k, x ≠ .panic k) ∧
      (ROp.runAll ops r0).2.buf = r0.buf ∧ (ROp.runAll ops r0).2.Valid by
    obtain ⟨h1, h2, h3, h4, h5⟩ := h (Reader.new buf)
      ⟨by simp [Reader.new], by simp [Reader.new], by simp [Reader.new]⟩
    refine ⟨h1, h2, ?_⟩
    rw [h2] at h3 h5
    change _ ≤ buf.length at h3
    change _ = buf.length → _ at h5
    by_cases he : (ROp.runAll ops (Reader.new buf)).2.byteOffset = buf.length
    · have := h5 he; omega
    · omega
  induction ops with
  | nil => intro r0 h0; simp [ROp.runAll, h0]
  | cons op ops ih =>
    intro r0 h0
    obtain ⟨h1, h2, h3, _⟩ := ROp.safe op (hops op (by simp)) r0 h0
    obtain ⟨g1, g2, g3⟩ := ih (fun o ho => hops o (by simp [ho])) _ h3
    refine ⟨?_, g2.trans h2, g3⟩
    intro x hx k
    rcases List.mem_cons.mp hx with rfl | hx
    · intro he; rw [he] at h1; simp [Res.isPanic] at h1
    · exact g1 x hx k

example : ∀ op ∈ [ROp.getBits 3, .getByte, .getBits 5, .getSlice 2 4, .getBits 9, .getU16], op.Ok := by
  simp [ROp.Ok]
example : ROp.runAll [ROp.getBits 3, .getByte, .getBits 5, .getSlice 2 4, .getU16] (Reader.new [1, 2, 3, 4]) =
    ([.ok (), .err (.read .unaligned), .ok (), .ok (), .err (.read .bufferEmpty)],
      ⟨[1, 2, 3, 4], 3, 0⟩) := by decide

/-! ## C05 -/

/-- Calls on a transcript. -/
inductive TOp
  | extend (bs : Bytes)
  | clear

/-- Specification: a bounded log. The outcome says whether the call succeeded. -/
def Spec.logStep (cap : Nat) (log : Bytes) : TOp → Bool × Bytes
  | .extend bs => if (log ++ bs).length ≤ cap then (true, log ++ bs) else (false, log)
  | .clear => (true, [])

/-- Specification: a history of calls on the log. -/
def Spec.logRun (cap : Nat) : Bytes → List TOp → List Bool × Bytes
  | log, [] => ([], log)
  | log, op :: ops =>
    let s := Spec.logStep cap log op
    let rest := Spec.logRun cap s.2 ops
    (s.1 :: rest.1, rest.2)

/-- Perform one call on the model's transcript. -/
def TOp.run : TOp → Transcript → Res Unit × Transcript
  | extend bs, t => Transcript.extend bs t
  | clear, t => (.ok (), t.clear)

/-- Perform a history. -/
def TOp.runAll : List TOp → Transcript → List (Res Unit) × Transcript
  | [], t => ([], t)
  | op :: ops, t =>
    let x := op.run t
    let rest := TOp.runAll ops x.2
    (x.1 :: rest.1, rest.2)

/-- **C05** After any history of extends and clears from a new transcript, the content is that of
the bounded log, its length is reported and never exceeds the capacity, and each call
succeeds exactly when it does on the log, failing with `BufferFullError`. -/
theorem c05_transcript_log (c : Cfg) (ops : List TOp) :
    let r := TOp.runAll ops (Transcript.new c)
    let s := Spec.logRun c.transcriptSize [] ops
    r.2.get = s.2 ∧ r.2.len = s.2.length ∧ r.2.get.length ≤ c.transcriptSize ∧
      r.1 = s.1.map (fun ok => if ok then .ok () else .err .bufferFull) := by
  suffices h : ∀ t : Transcript, t.buf.length = c.transcriptSize → t.offset ≤ c.transcriptSize →
      let r := TOp.runAll ops t
      let s := Spec.logRun c.transcriptSize t.get ops
      r.2.get = s.2 ∧ r.2.offset = s.2.length ∧ r.2.buf.length = c.transcriptSize ∧
        r.2.offset ≤ c.transcriptSize ∧
        r.1 = s.1.map (fun ok => if ok then .ok () else .err .bufferFull) by
    obtain ⟨h1, h2, h3, h4, h5⟩ := h (Transcript.new c) (by simp [Transcript.new]) (by simp [Transcript.new])
    have e : (Transcript.new c).get = [] := by simp [Transcript.new, Transcript.get]
    rw [e] at h1 h2 h5
    refine ⟨h1, h2, ?_, h5⟩
    rw [h1]; omega
  induction ops with
  | nil =>
    intro t h1 h2
    refine ⟨rfl, ?_, h1, h2, rfl⟩
    simp [TOp.runAll, Spec.logRun, Transcript.get]; omega
  | cons op ops ih =>
    intro t h1 h2
    cases op with
    | clear =>
      obtain ⟨g1, g2, g3, g4, g5⟩ := ih t.clear h1 (by simp [Transcript.clear])
      have e : t.clear.get = [] := by simp [Transcript.clear, Transcript.get]
      rw [e] at g1 g2 g5
      exact ⟨g1, g2, g3, g4, by simp [TOp.runAll, TOp.run, Spec.logRun, Spec.logStep, g5]⟩
    | extend bs =>
      have hl : t.get.length = t.offset := by simp [Transcript.get]; omega
      by_cases hf : t.offset + bs.length ≤ c.transcriptSize
      · have hrun : TOp.run (.extend bs) t = (.ok (), { buf := t.buf.take t.offset ++ bs ++ t.buf.drop (t.offset + bs.length), offset := t.offset + bs.length }) := by
          simp only [TOp.run, Transcript.extend]
          rw [if_neg (by omega)]
        have hstep : Spec.logStep c.transcriptSize t.get (.extend bs) = (true, t.get ++ bs) := by
          simp only [Spec.logStep]
          rw [if_pos (by rw [List.length_append, hl]; exact hf)]
        obtain ⟨g1, g2, g3, g4, g5⟩ := ih { buf := t.buf.take t.offset ++ bs ++ t.buf.drop (t.offset + bs.length), offset := t.offset + bs.length } (by simp; omega) hf
        have e : Transcript.get { buf := t.buf.take t.offset ++ bs ++ t.buf.drop (t.offset + bs.length), offset := t.offset + bs.length } = t.get ++ bs := by
          simp only [Transcript.get]
          rw [List.take_append_of_le_length (by simp; omega), List.take_of_length_le (by simp)]
        rw [e] at g1 g2 g5
        simp only [TOp.runAll, hrun, Spec.logRun, hstep]
        exact ⟨g1, g2, g3, g4, by rw [g5]; simp⟩
      · have hrun : TOp.run (.extend bs) t = (.err .bufferFull, t) := by
          simp only [TOp.run, Transcript.extend]
          rw [if_pos (by omega)]
        have hstep : Spec.logStep c.transcriptSize t.get (.extend bs) = (false, t.get) := by
          simp only [Spec.logStep]
          rw [if_neg (by rw [List.length_append, hl]; omega)]
        obtain ⟨g1, g2, g3, g4, g5⟩ := ih t h1 h2
        simp only [TOp.runAll, hrun, Spec.logRun, hstep]
        exact ⟨g1, g2, g3, g4, by rw [g5]; simp⟩

example : Spec.logRun 4 [] [.extend [1, 2], .extend [3, 4, 5], .extend [6], .clear, .extend [7]] =
    ([true, false, true, true, true], [7]) := by decide

end Spdm
