import Verif.Making
import Verif.Props.Messages
import Verif.Props.Requester
/-!
# C94: messages made by the constructors; C95: the session object
-/
namespace Spdm
open Spec

section
variable {c : Cfg} {ss : Nat}

/-! ## C94 -/

/-- No blocks. -/
theorem blocks_default (c : Cfg) : BlocksWF c (MeasurementBlocks.dflt c) where
  alen := by simp [MeasurementBlocks.dflt]
  max := by simp [MeasurementBlocks.dflt]
  len := by simp [MeasurementBlocks.dflt]
  used := by intro i hi; simp [MeasurementBlocks.dflt] at hi
  unused := by
    intro i o h _
    simp only [MeasurementBlocks.dflt, List.getElem?_replicate] at h
    split at h
    · simpa using h.symm
    · simp at h

/-- **C94**, the number of measurements: for a slot of the build the constructor returns the message with exactly these values and no block; for any other it aborts. -/
theorem c94_num (total slot : UInt8) (cc : ContentChanged) (nonce : Bytes) (opq : OpaqueData) (sig : Option Bytes) :
    (slot.toNat < c.numSlots → ∃ m, Measurements.newWithNumMeasurements c total cc slot nonce opq sig = .ok m ∧ m.totalBlocks = total ∧ m.contentChanged = cc ∧ m.slotId = slot ∧
      m.nonce = nonce ∧ m.opaqueData = opq ∧ m.signature = sig ∧ Wire.blockList m.blocks = []) ∧
    (c.numSlots ≤ slot.toNat → ∃ k, Measurements.newWithNumMeasurements c total cc slot nonce opq sig = .panic k) := by
  constructor
  · intro h
    exact ⟨_, if_pos h, rfl, rfl, rfl, rfl, rfl, rfl, by simp [Wire.blockList, MeasurementBlocks.dflt]⟩
  · intro h
    exact ⟨_, if_neg (by omega)⟩

/-- **C94**, the measurements themselves: exactly these values and blocks, and a count of zero. -/
theorem c94_blocks (slot : UInt8) (cc : ContentChanged) (blocks : MeasurementBlocks) (nonce : Bytes) (opq : OpaqueData) (sig : Option Bytes) :
    (slot.toNat < c.numSlots → Measurements.newWithMeasurements c cc slot blocks nonce opq sig = .ok ⟨0, cc, slot, blocks, nonce, opq, sig⟩) ∧
    (c.numSlots ≤ slot.toNat → ∃ k, Measurements.newWithMeasurements c cc slot blocks nonce opq sig = .panic k) :=
  ⟨fun h => if_pos h, fun h => ⟨_, if_neg (by omega)⟩⟩

/-- **C94**, a raw measurement: accepted up to MAX_MEASUREMENT_SIZE bytes, and then a block of it is one that travels (C22); longer ones abort. -/
theorem c94_bit_stream (data : Bytes) :
    (data.length ≤ c.maxMeasurementSize → ∃ v, BitStream.new c data = .ok v ∧ v.bytes = data ∧
      ∀ index kind, data.length + 3 < 65536 → BlockWF c ⟨index, 1, ⟨.rawBitStream, kind, v⟩⟩) ∧
    (c.maxMeasurementSize < data.length → ∃ k, BitStream.new c data = .panic k) := by
  constructor
  · intro h
    exact ⟨_, if_pos h, rfl, fun index kind h16 => ⟨rfl, h, h16⟩⟩
  · intro h
    exact ⟨_, if_neg (by omega)⟩

/-- **C94**, what holds: a message with the number of measurements travels if that number is at most MAX_MEASUREMENT_BLOCKS, and it is signed or for slot 0. -/
theorem c94_num_travels_partial (total slot : UInt8) (cc : ContentChanged) (nonce : Bytes) (opq : OpaqueData) (sig : Option Bytes) (m : Measurements)
    (hm : Measurements.newWithNumMeasurements c total cc slot nonce opq sig = .ok m) (h8 : c.numSlots ≤ 8) (ht : total.toNat ≤ c.maxMeasurementBlocks)
    (hn : nonce.length = c.nonceSize) (ho : OpaqueDataWF c opq) (hol : (Wire.opaqueData opq).length ≤ 1024) (hsig : ∀ s, sig = some s → s.length = ss)
    (hslot : sig = none → slot = 0) :
    Travels .measurements m.writeBody (fun b => Measurements.parseBody c b sig.isSome ss) (Wire.measurements m) m := by
  have hs : slot.toNat < c.numSlots := by
    by_contra h
    unfold Measurements.newWithNumMeasurements at hm
    rw [if_neg h] at hm
    simp at hm
  unfold Measurements.newWithNumMeasurements at hm
  rw [if_pos hs, Res.ok.injEq] at hm
  subst hm
  refine c22_measurements_roundtrip_partial c ss _ ⟨ht, h8, hs, blocks_default c, hn, ho, Nat.lt_of_le_of_lt hol (by decide), hsig⟩ ⟨?_, ?_, hol, hslot⟩
  · simp [Wire.blockList, MeasurementBlocks.dflt]
  · simp [Wire.blockList, MeasurementBlocks.dflt]

/-- **C94**, what holds: a message with measurements travels if its blocks fit the reader's limit, and it is signed or for slot 0. -/
theorem c94_blocks_travel_partial (slot : UInt8) (cc : ContentChanged) (blocks : MeasurementBlocks) (nonce : Bytes) (opq : OpaqueData) (sig : Option Bytes) (m : Measurements)
    (hm : Measurements.newWithMeasurements c cc slot blocks nonce opq sig = .ok m) (h8 : c.numSlots ≤ 8) (hb : BlocksWF c blocks)
    (hbl : ((Wire.blockList blocks).flatMap Wire.measurementBlock).length ≤ c.maxMeasurementSize * c.maxMeasurementBlocks)
    (hb24 : ((Wire.blockList blocks).flatMap Wire.measurementBlock).length < 2 ^ 24)
    (hn : nonce.length = c.nonceSize) (ho : OpaqueDataWF c opq) (hol : (Wire.opaqueData opq).length ≤ 1024) (hsig : ∀ s, sig = some s → s.length = ss)
    (hslot : sig = none → slot = 0) :
    Travels .measurements m.writeBody (fun b => Measurements.parseBody c b sig.isSome ss) (Wire.measurements m) m := by
  have hs : slot.toNat < c.numSlots := by
    by_contra h
    unfold Measurements.newWithMeasurements at hm
    rw [if_neg h] at hm
    simp at hm
  unfold Measurements.newWithMeasurements at hm
  rw [if_pos hs, Res.ok.injEq] at hm
  subst hm
  exact c22_measurements_roundtrip_partial c ss _ ⟨by simp, h8, hs, hb, hn, ho, Nat.lt_of_le_of_lt hol (by decide), hsig⟩ ⟨hbl, hb24, hol, hslot⟩

/-- **C94** is false of the code: the constructor takes any number of available measurements, but a receiver refuses every number above its own MAX_MEASUREMENT_BLOCKS, although the
message holds no block at all. -/
theorem c94_number_refused (total slot : UInt8) (cc : ContentChanged) (nonce : Bytes) (opq : OpaqueData) (sig : Option Bytes) (m : Measurements)
    (hm : Measurements.newWithNumMeasurements c total cc slot nonce opq sig = .ok m) (ht : c.maxMeasurementBlocks < total.toNat) (signed : Bool) (suf : Bytes) :
    Measurements.parseBody c (Wire.measurements m ++ suf) signed ss = .err .maxBlocksExceeded := by
  have hs : slot.toNat < c.numSlots := by
    by_contra h
    unfold Measurements.newWithNumMeasurements at hm
    rw [if_neg h] at hm
    simp at hm
  unfold Measurements.newWithNumMeasurements at hm
  rw [if_pos hs, Res.ok.injEq] at hm
  subst hm
  simp only [Measurements.parseBody, Measurements.read]
  have hw : ∀ m : Measurements, ∃ rest, Wire.measurements m ++ suf = m.totalBlocks :: rest := by
    intro m
    exact ⟨_, rfl⟩
  obtain ⟨rest, hr⟩ := hw ⟨total, cc, slot, MeasurementBlocks.dflt c, nonce, opq, sig⟩
  rw [hr]
  have hg : Reader.getByte (Reader.new (total :: rest)) = (.ok total, ⟨total :: rest, 1, 0⟩) := by
    simp [Reader.getByte, Reader.new, Reader.isAligned, Reader.isEmpty]
  rw [M.run_bind_ok hg]
  simp only [gt_iff_lt, if_pos ht]
  rfl

/-- The demo build holds two blocks: a peer with three measurements cannot tell it so; two it can. -/
example : Measurements.newWithNumMeasurements demoCfg 3 .true 1 [1, 2, 3, 4] demoOpaque (some [7, 8, 9]) =
      .ok ⟨3, .true, 1, MeasurementBlocks.dflt demoCfg, [1, 2, 3, 4], demoOpaque, some [7, 8, 9]⟩ ∧
    Measurements.parseBody demoCfg (Wire.measurements ⟨3, .true, 1, MeasurementBlocks.dflt demoCfg, [1, 2, 3, 4], demoOpaque, some [7, 8, 9]⟩) true 3 = .err .maxBlocksExceeded := by
  refine ⟨rfl, ?_⟩
  simpa using c94_number_refused (c := demoCfg) (ss := 3) 3 1 .true [1, 2, 3, 4] demoOpaque (some [7, 8, 9]) _ rfl (by decide) true []
example : Travels .measurements (Measurements.mk 2 .true 1 (MeasurementBlocks.dflt demoCfg) [1, 2, 3, 4] demoOpaque (some [7, 8, 9])).writeBody
    (fun b => Measurements.parseBody demoCfg b true 3) (Wire.measurements ⟨2, .true, 1, MeasurementBlocks.dflt demoCfg, [1, 2, 3, 4], demoOpaque, some [7, 8, 9]⟩)
    ⟨2, .true, 1, MeasurementBlocks.dflt demoCfg, [1, 2, 3, 4], demoOpaque, some [7, 8, 9]⟩ :=
  c94_num_travels_partial (c := demoCfg) (ss := 3) 2 1 .true [1, 2, 3, 4] demoOpaque (some [7, 8, 9]) _ rfl (by decide) (by decide) rfl demoOpaque_wf (by decide)
    (by intro s h; cases h; rfl) (by simp)

/-- **C94**: a CHALLENGE made for any slot and hash type with a fresh nonce travels. -/
theorem c94_challenge (slot : UInt8) (t : MeasurementHashType) (nonce : Bytes) (hn : nonce.length = c.nonceSize) :
    Travels .challenge (Challenge.new slot t nonce).writeBody (Challenge.parseBody c) ([slot, Wire.hashType t] ++ nonce) ⟨slot, t, nonce⟩ :=
  c17_challenge_roundtrip c ⟨slot, t, nonce⟩ hn

/-! ## C95 -/

variable {cr : Crypto} {root : Bytes} {r : Requester} {es : List ReqEvent}

/-- **C95** is false of the code: a session can be begun at any time, whatever happened before; the session then holds the requester as it was. -/
theorem c95_any_time (_ : ReqRun c cr root es r) : ∃ s : RequesterSession, Requester.beginSession r = s ∧ s.data = r := ⟨_, rfl, rfl⟩

/-- **C95** is false of the code, witnesses: before anything was received, and after a failure. -/
theorem c95_witness : (∃ s : RequesterSession, (Requester.new demoCfg [1, 2, 3]).beginSession = s) ∧
    ReqRun demoCfg demoCrypto [1, 2, 3] [] (Requester.new demoCfg [1, 2, 3]) ∧
    ∃ es r, ReqRun demoCfg demoCrypto [1, 2, 3] es r ∧ failed es = true ∧ ∃ s : RequesterSession, r.beginSession = s ∧ s.data.state = some .error :=
  ⟨⟨_, rfl⟩, .new, _, _, ReqRun.of demoCfg demoCrypto [1, 2, 3] [.next demoReqEnv (zeros 20), .recv [0x10, 0x04, 0, 0, 0, 1, 0, 0x20]], by decide +kernel, _, rfl, by decide +kernel⟩

/-- **C95**, what holds: a session begun when `handle_msg` has just returned `true`, with both sides advertising CERT_CAP and CHAL_CAP, is one with an authenticated responder. -/
theorem c95_after_completion_partial (h8 : c.numSlots ≤ 8) {rsp : Bytes} (run : ReqRun c cr root (es ++ [.recv rsp (.ok true)]) r) (s : RequesterSession)
    (hs : r.beginSession = s) (h1 : (conversation (reqMsgs (es ++ [.recv rsp (.ok true)]))).both 1 = true) (h2 : (conversation (reqMsgs (es ++ [.recv rsp (.ok true)]))).both 2 = true) :
    s.data.state = some .newSession ∧ ∃ m0 m1 m2 m3 cert slot chain nonce sig, accepted es = [m0, m1, m2, m3, cert] ∧
      Authenticated c cr root (conversation (reqMsgs es)) cert rsp slot chain nonce sig := by
  have hpath := c41_history (es2 := []) run
  obtain ⟨r0, x, h0, he, hr⟩ := run.last
  cases x with
  | next env buf => simp [ReqCall.run] at he
  | recv m =>
    simp only [ReqCall.run, ReqEvent.recv.injEq] at he
    obtain ⟨rfl, he⟩ := he
    have hst : s.data.state = some .newSession := by
      obtain ⟨_, st, st', _, hb, _, hl'⟩ := req_recv h0 he.symm
      subst hs
      have : st' = .newSession := of_decide_eq_true hb.symm
      rw [← this]
      show r.state = _
      rw [hr]
      exact hl'.state
    refine ⟨hst, ?_⟩
    have hk : code rsp = some 0x03 := by
      unfold path at hpath
      rw [h1, h2] at hpath
      rw [accepted_append] at hpath
      have := congrArg List.getLast? hpath
      simpa [accepted] using this
    obtain ⟨_, h⟩ := c42_authenticated h8 h0 rsp hk true he.symm
    exact h

/-- The demo session ends this way. -/
example : ∃ rsp es, demoReqEvents 12 = es ++ [.recv rsp (.ok true)] ∧ (conversation (reqMsgs (demoReqEvents 12))).both 1 = true ∧ (conversation (reqMsgs (demoReqEvents 12))).both 2 = true :=
  ⟨demoReplies[5]?.getD [], (demoReqEvents 12).dropLast, by decide +kernel, by decide +kernel, by decide +kernel⟩

end
end Spdm
