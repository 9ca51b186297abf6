import Verif.Lemmas.Local
import Verif.Spec.Any
/-! Every message parser is local. -/
namespace Spdm

/-- Array-filling loops. -/
theorem local_array {α β : Type} {loop : Nat → Nat → List β → R (List β)} {item : R α} {f : α → β} {chk : α → Res Unit}
    (h0 : ∀ i es, loop 0 i es = pure es)
    (h1 : ∀ n i es, loop (n + 1) i es = item >>= fun e => M.lift (setIndex es i (f e)) >>= fun es => M.lift (chk e) >>= fun _ => loop n (i + 1) es)
    (hi : Local item) : ∀ n i es, Local (loop n i es) := by
  intro n
  induction n with
  | zero => intro i es; rw [h0]; exact Local.pure _
  | succ n ih =>
    intro i es
    rw [h1]
    exact hi.bind fun e => (Local.lift _).bind fun _ => (Local.lift _).bind fun _ => ih _ _

theorem local_array' {α β : Type} {loop : Nat → Nat → List β → R (List β)} {item : R α} {f : α → β}
    (h0 : ∀ i es, loop 0 i es = pure es)
    (h1 : ∀ n i es, loop (n + 1) i es = item >>= fun e => M.lift (setIndex es i (f e)) >>= fun es => loop n (i + 1) es)
    (hi : Local item) : ∀ n i es, Local (loop n i es) := by
  intro n
  induction n with
  | zero => intro i es; rw [h0]; exact Local.pure _
  | succ n ih =>
    intro i es
    rw [h1]
    exact hi.bind fun e => (Local.lift _).bind fun _ => ih _ _

macro "local_step" : tactic => `(tactic| with_reducible first
  | exact Local.pure _ | exact Local.fail _ | exact Local.die _ | exact Local.lift _
  | exact Local.getByte | exact Local.getU16 | exact Local.getU32 | exact Local.getU24
  | exact Local.getSlice _ _ | exact Local.skipReserved _ | exact Local.skipIgnored _ | exact Local.getBit
  | exact Local.getBits (by omega) (by omega)
  | refine Local.mapErr _ ?_
  | refine Local.ite (fun _ => ?_) (fun _ => ?_)
  | refine Local.bind ?_ (fun _ => ?_)
  | split)
macro "local_auto" : tactic => `(tactic| repeat' local_step)

theorem GetVersion.local : Local GetVersion.read := Local.skipReserved 2
theorem GetDigests.local : Local GetDigests.read := Local.skipReserved 2
theorem Version.local : Local Version.read := by
  have h := local_array' (loop := Version.readEntries) (item := Version.readEntry) (f := id) (by intros; rfl) (by intros; rfl) (by
    unfold Version.readEntry; local_auto)
  unfold Version.read
  local_auto
  exact h _ _ _
theorem GetCapabilities.local : Local GetCapabilities.read := by unfold GetCapabilities.read; local_auto
theorem Capabilities.local : Local Capabilities.read := by unfold Capabilities.read; local_auto
theorem GetCertificate.local : Local GetCertificate.read := by unfold GetCertificate.read; local_auto
theorem Certificate.local (c : Cfg) : Local (Certificate.read c) := by unfold Certificate.read; local_auto
theorem Nonce.local (c : Cfg) : Local (Nonce.read c) := Local.getSlice _ _
theorem Challenge.local (c : Cfg) : Local (Challenge.read c) := by unfold Challenge.read Nonce.read; local_auto
theorem VendorId.local (n : UInt8) : Local (VendorId.read n) := by unfold VendorId.read; local_auto
theorem ErrorMsg.local : Local ErrorMsg.read := by
  unfold ErrorMsg.read
  local_auto
  exact VendorId.local _
theorem GetMeasurements.local (c : Cfg) : Local (GetMeasurements.read c) := by
  unfold GetMeasurements.read Nonce.read
  local_auto
theorem AlgorithmRequest.local : Local AlgorithmRequest.read := by unfold AlgorithmRequest.read; local_auto
theorem NegotiateAlgorithms.local : Local NegotiateAlgorithms.read := by
  have h := local_array' (loop := NegotiateAlgorithms.readRequests) (f := id) (by intros; rfl) (by intros; rfl)
    (Local.mapErr NegotiateAlgorithms.wrapAlgorithmRequestError AlgorithmRequest.local)
  unfold NegotiateAlgorithms.read
  local_auto
  exact h _ _ _
theorem Algorithms.local : Local Algorithms.read := by
  have h := local_array (loop := Algorithms.readResponses) (f := id) (chk := Algorithms.ensureOnlyOneBitSet) (by intros; rfl) (by intros; rfl) AlgorithmRequest.local
  unfold Algorithms.read
  local_auto
  exact h _ _ _
theorem Digests.local (c : Cfg) (size : Nat) : Local (Digests.read c size) := by
  have h : ∀ n b ds, Local (Digests.readLoop c size n b ds) := by
    intro n
    induction n with
    | zero => intro b ds; exact Local.pure _
    | succ n ih =>
      intro b ds
      refine Local.ite (fun _ => (Local.getSlice _ _).bind fun _ => (Local.lift _).bind fun _ => Local.ite (fun _ => ih _ _) fun _ => Local.die _) fun _ => Local.pure _
  unfold Digests.read
  local_auto
  exact h _ _ _
theorem OpaqueElement.local (c : Cfg) : Local (OpaqueElement.read c) := by
  unfold OpaqueElement.read
  local_auto
  exact VendorId.local _
theorem OpaqueData.local (c : Cfg) : Local (OpaqueData.read c) := by
  have h := local_array' (loop := OpaqueData.readElements c) (f := id) (by intros; rfl) (by intros; rfl) (OpaqueElement.local c)
  unfold OpaqueData.read
  local_auto
  exact h _ _ _
theorem ChallengeAuth.local (c : Cfg) (ds ss : Nat) : Local (ChallengeAuth.read c ds ss) := by
  unfold ChallengeAuth.read Nonce.read
  local_auto
  exact OpaqueData.local c
theorem DmtfMeasurement.local (c : Cfg) : Local (DmtfMeasurement.read c) := by unfold DmtfMeasurement.read; local_auto
theorem MeasurementBlock.local (c : Cfg) : Local (MeasurementBlock.read c) := by
  unfold MeasurementBlock.read
  refine Local.getByte.bind fun ix => Local.getByte.bind fun _ => Local.ite (fun _ => Local.fail _) fun _ => Local.getU16.bind fun size => ?_
  exact Local.get_offset (f := fun o => DmtfMeasurement.read c >>= fun m => M.get >>= fun r =>
    if size.toNat ≠ r.byteOffset - o then M.fail .blockSizeMismatch else pure (⟨ix, measurementSpecDmtf, m⟩ : MeasurementBlock))
    fun o => (DmtfMeasurement.local c).bind fun m => Local.get_offset
      (f := fun o' => if size.toNat ≠ o' - o then M.fail .blockSizeMismatch else pure (⟨ix, measurementSpecDmtf, m⟩ : MeasurementBlock))
      fun o' => Local.ite (fun _ => Local.fail _) fun _ => Local.pure _
theorem MeasurementBlocks.local (c : Cfg) : Local (MeasurementBlocks.read c) := by
  have h := local_array' (loop := MeasurementBlocks.readLoop c) (f := some) (by intros; rfl) (by intros; rfl) (MeasurementBlock.local c)
  unfold MeasurementBlocks.read
  refine Local.getByte.bind fun num => Local.getU24.bind fun size => Local.ite (fun _ => Local.fail _) fun _ => ?_
  exact Local.get_offset (f := fun o => MeasurementBlocks.readLoop c num.toNat 0 (MeasurementBlocks.dflt c).blocks >>= fun bs => M.get >>= fun r =>
    if size ≠ r.byteOffset - o then M.fail .blocksSizeMismatch else pure (⟨num.toNat, bs⟩ : MeasurementBlocks))
    fun o => (h _ _ _).bind fun bs => Local.get_offset
      (f := fun o' => if size ≠ o' - o then M.fail .blocksSizeMismatch else pure (⟨num.toNat, bs⟩ : MeasurementBlocks))
      fun o' => Local.ite (fun _ => Local.fail _) fun _ => Local.pure _

/-- The reader of MEASUREMENTS with the discarded result of measurements.rs 828 kept. -/
def Measurements.readStrict (c : Cfg) (signatureRequested : Bool) (sigSize : Nat) : R Measurements := do
  let total ← Reader.getByte
  if total.toNat > c.maxMeasurementBlocks then M.fail .maxBlocksExceeded
  else
    let slot ← Reader.getBits 4
    if slot.toNat > c.numSlots then M.fail .maxSlotNumberExceeded
    else
      let ccb ← Reader.getBits 2
      let cc ← M.lift (ContentChanged.tryFrom ccb)
      let _ ← Reader.getBits 2
      let blocks ← MeasurementBlocks.read c
      let nonce ← Nonce.read c
      let olen ← Reader.getU16
      if olen.toNat > maxOpaqueDataSize then M.fail .maxOpaqueDataSizeExceeded
      else
        let od ← OpaqueData.read c
        if signatureRequested then
          let s ← Reader.getSlice sigSize sigSize
          pure ⟨total, cc, slot, blocks, nonce, od, some s⟩
        else pure ⟨total, cc, slot, blocks, nonce, od, none⟩

theorem Measurements.strict_local (c : Cfg) (sg : Bool) (ss : Nat) : Local (Measurements.readStrict c sg ss) := by
  unfold Measurements.readStrict Nonce.read
  local_auto
  · exact MeasurementBlocks.local c
  · exact OpaqueData.local c

theorem M.bind_congr {σ α β : Type} {p : M σ α} {f g : α → M σ β} {s : σ} (h : ∀ a s', p s = (.ok a, s') → f a s' = g a s') :
    (p >>= f) s = (p >>= g) s := by
  rcases hp : p s with ⟨r, s'⟩
  cases r with
  | ok a => rw [M.run_bind_ok hp, M.run_bind_ok hp]; exact h a s' hp
  | err e => rw [M.run_bind_err hp, M.run_bind_err hp]
  | panic k => rw [M.run_bind_panic hp, M.run_bind_panic hp]

theorem Measurements.read_eq_strict (c : Cfg) (sg : Bool) (ss : Nat) (buf : Bytes) :
    Measurements.read c sg ss (Reader.new buf) = Measurements.readStrict c sg ss (Reader.new buf) := by
  unfold Measurements.read Measurements.readStrict
  refine M.bind_congr fun total r1 h1 => ?_
  have e1 : r1 = ⟨buf, 1, 0⟩ ∧ 0 < buf.length := by
    unfold Reader.getByte at h1
    cases buf with
    | nil => simp [Reader.new, Reader.isAligned, Reader.isEmpty] at h1
    | cons a t => simp [Reader.new, Reader.isAligned, Reader.isEmpty] at h1; simp [h1.2]
  obtain ⟨rfl, hl⟩ := e1
  by_cases ht : total.toNat > c.maxMeasurementBlocks
  · rw [if_pos ht, if_pos ht]
  rw [if_neg ht, if_neg ht]
  refine M.bind_congr fun slot r2 h2 => ?_
  have v1 : Reader.Valid ⟨buf, 1, 0⟩ := ⟨by simp only; omega, by simp, by simp⟩
  have g2 := getBits_spec ⟨buf, 1, 0⟩ 4 v1 (by omega) (by omega)
  simp only [Reader.pos] at g2
  have e2 : r2 = ⟨buf, 1, 4⟩ ∧ 2 ≤ buf.length := by
    by_cases hf : 8 * 1 + 0 + 4 ≤ 8 * buf.length
    · obtain ⟨v, rr, e, hb, hv, hp, _⟩ := g2.1 hf
      rw [e] at h2
      simp only [Prod.mk.injEq, Res.ok.injEq] at h2
      obtain ⟨_, rfl⟩ := h2
      obtain ⟨b, o, bt⟩ := rr
      simp only at hb hp
      have := hv.2.1
      simp only at this
      refine ⟨?_, by omega⟩
      simp only [Reader.mk.injEq]
      exact ⟨hb, by omega, by omega⟩
    · rw [g2.2 (by omega)] at h2; simp at h2
  obtain ⟨rfl, hl2⟩ := e2
  by_cases hs : slot.toNat > c.numSlots
  · rw [if_pos hs, if_pos hs]
  rw [if_neg hs, if_neg hs]
  refine M.bind_congr fun ccb r3 h3 => ?_
  have v2 : Reader.Valid ⟨buf, 1, 4⟩ := ⟨by simp only; omega, by simp, by simp; omega⟩
  obtain ⟨v, rr, e, hb, hv, hp, _⟩ := (getBits_spec ⟨buf, 1, 4⟩ 2 v2 (by omega) (by omega)).1 (by simp only [Reader.pos]; omega)
  rw [e] at h3
  simp only [Prod.mk.injEq, Res.ok.injEq] at h3
  obtain ⟨_, rfl⟩ := h3
  refine M.bind_congr fun cc r4 h4 => ?_
  have e4 : r4 = rr := by simp only [M.run_lift, Prod.mk.injEq] at h4; exact h4.2.symm
  subst e4
  obtain ⟨w, rw', e', _⟩ := (getBits_spec r4 2 hv (by omega) (by omega)).1 (by
    simp only [Reader.pos] at hp ⊢; rw [hb]; show _ ≤ 8 * buf.length; omega)
  have ed : Measurements.dropResult (Reader.getBits 2) r4 = (.ok (), rw') := by simp [Measurements.dropResult, e']
  rw [M.run_bind_ok ed, M.run_bind_ok e']

/-- Every message parser is local. -/
theorem AnyMsg.parse_local (c : Cfg) (x : Ctx) (t : MsgType) {buf : Bytes} {m : AnyMsg} (h : AnyMsg.parse c x t buf = .ok m) :
    ∃ n, n ≤ buf.length ∧ (∀ buf', n ≤ buf'.length → buf'.take n = buf.take n → AnyMsg.parse c x t buf' = .ok m) ∧
      ∀ k, k < n → ∃ e, AnyMsg.parse c x t (buf.take k) = .err e := by
  have key : ∀ {α : Type} (p : R α) (f : α → AnyMsg), Local p → ((p (Reader.new buf)).1).map f = .ok m →
      ∃ n, n ≤ buf.length ∧ (∀ buf', n ≤ buf'.length → buf'.take n = buf.take n → ((p (Reader.new buf')).1).map f = .ok m) ∧
      ∀ k, k < n → ∃ e, ((p (Reader.new (buf.take k))).1).map f = .err e := by
    intro α p f hp h
    cases hr : (p (Reader.new buf)).1 with
    | ok a =>
      rw [hr] at h
      obtain ⟨n, h1, h2, h3⟩ := hp.parse hr
      refine ⟨n, h1, fun b' l e => by rw [h2 b' l e]; exact h, fun k hk => ?_⟩
      obtain ⟨e, he⟩ := h3 k hk
      exact ⟨e, by rw [he]; rfl⟩
    | err e => rw [hr] at h; simp [Res.map] at h
    | panic e => rw [hr] at h; simp [Res.map] at h
  cases t
  case getVersion => exact key _ _ GetVersion.local h
  case version => exact key _ _ Version.local h
  case getCapabilities => exact key _ _ GetCapabilities.local h
  case capabilities => exact key _ _ Capabilities.local h
  case negotiateAlgorithms => exact key _ _ NegotiateAlgorithms.local h
  case algorithms => exact key _ _ Algorithms.local h
  case getDigests => exact key _ _ GetDigests.local h
  case digests => exact key _ _ (Digests.local c _) h
  case getCertificate => exact key _ _ GetCertificate.local h
  case certificate => exact key _ _ (Certificate.local c) h
  case challenge => exact key _ _ (Challenge.local c) h
  case challengeAuth => exact key _ _ (ChallengeAuth.local c _ _) h
  case getMeasurements => exact key _ _ (GetMeasurements.local c) h
  case measurements =>
    have := key _ AnyMsg.measurements (Measurements.strict_local c x.sigRequested x.sigSize)
    simp only [← Measurements.read_eq_strict] at this
    exact this h
  case error => exact key _ _ ErrorMsg.local h

end Spdm
