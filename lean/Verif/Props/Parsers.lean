import Verif.Lemmas.LocalMsgs
import Verif.Props.Messages
/-!
# C23 to C26: reserved bytes, panics, truncation, unambiguity
-/
namespace Spdm
open Spec

/-! ## C23: reserved bytes -/

/-- Positions, in the body, of the bytes each message layout reserves (fixed positions; opaque data and certificate chains are treated below). -/
def Spec.reserved : MsgType → List Nat
  | .getVersion => [0, 1]
  | .version => [0, 1, 2]
  | .getCapabilities => [0, 1, 2, 4, 5]
  | .capabilities => [0, 1, 2, 4, 5]
  | .negotiateAlgorithms => [1, 5, 14, 15, 16, 17, 18, 19, 20, 21, 22, 23, 24, 25, 28, 29]
  | .algorithms => [1, 5, 18, 19, 20, 21, 22, 23, 24, 25, 26, 27, 28, 29, 30, 31, 32, 33]
  | .getDigests => [0, 1]
  | .digests => [0]
  | .getCertificate => [1]
  | .certificate => [1]
  | .challenge => []
  | .challengeAuth => []
  | .getMeasurements => []
  | .measurements => []
  | .error => []

theorem res_map_inv {α β : Type} {x : Res α} {f : α → β} {b : β} (h : x.map f = .ok b) : ∃ a, x = .ok a ∧ f a = b := by
  cases x with
  | ok a => exact ⟨a, rfl, by simpa [Res.map] using h⟩
  | err e => simp [Res.map] at h
  | panic k => simp [Res.map] at h

theorem le_two (n : Nat) : ∃ a b, Spec.le 2 n = [a, b] := ⟨_, _, by simp [Spec.le, List.range_succ]; exact ⟨rfl, rfl⟩⟩
theorem le_four (n : Nat) : ∃ a b c d, Spec.le 4 n = [a, b, c, d] := ⟨_, _, _, _, by simp [Spec.le, List.range_succ]; exact ⟨rfl, rfl, rfl, rfl⟩⟩

/-- **C23**: an accepted message has zero in every byte its layout reserves. -/
theorem c23_reserved_bytes_zero (c : Cfg) (x : Ctx) (t : MsgType) (buf : Bytes) (m : AnyMsg) (h : AnyMsg.parse c x t buf = .ok m) :
    ∀ i ∈ Spec.reserved t, buf[i]? = some 0 := by
  cases t
  case getVersion =>
    obtain ⟨a, ha, -⟩ := res_map_inv h
    obtain ⟨bs, rest, rfl, rfl⟩ := GetVersion.inverts.parse ha
    simp [Spec.reserved, Wire.getVersion, zeros, List.replicate_succ]
  case version =>
    obtain ⟨a, ha, -⟩ := res_map_inv h
    obtain ⟨bs, rest, rfl, cs, rfl, -⟩ := Version.inverts.parse ha
    simp [Spec.reserved, zeros, List.replicate_succ]
  case getCapabilities =>
    obtain ⟨a, ha, -⟩ := res_map_inv h
    obtain ⟨bs, rest, rfl, rfl, -⟩ := GetCapabilities.inverts.parse ha
    simp [Spec.reserved, Wire.getCapabilities, zeros, List.replicate_succ]
  case capabilities =>
    obtain ⟨a, ha, -⟩ := res_map_inv h
    obtain ⟨bs, rest, rfl, rfl, -⟩ := Capabilities.inverts.parse ha
    simp [Spec.reserved, Wire.capabilities, zeros, List.replicate_succ]
  case negotiateAlgorithms =>
    obtain ⟨a, ha, -⟩ := res_map_inv h
    obtain ⟨bs, rest, rfl, -, len, ea, eh, cs, rfl⟩ := NegotiateAlgorithms.inverts.parse ha
    obtain ⟨_, _, h1⟩ := le_two len
    obtain ⟨_, _, _, _, h2⟩ := le_four a.baseAsymAlgo.toNat
    obtain ⟨_, _, _, _, h3⟩ := le_four a.baseHashAlgo.toNat
    simp [Spec.reserved, zeros, List.replicate_succ, h1, h2, h3]
  case algorithms =>
    obtain ⟨a, ha, -⟩ := res_map_inv h
    obtain ⟨bs, rest, rfl, -, len, cs, rfl⟩ := Algorithms.inverts.parse ha
    obtain ⟨_, _, h1⟩ := le_two len
    obtain ⟨_, _, _, _, h2⟩ := le_four a.baseAsymAlgoSelected.toNat
    obtain ⟨_, _, _, _, h3⟩ := le_four a.baseHashAlgoSelected.toNat
    obtain ⟨_, _, _, _, h4⟩ := le_four a.measurementHashAlgoSelected.toNat
    simp [Spec.reserved, zeros, List.replicate_succ, h1, h2, h3, h4]
  case getDigests =>
    obtain ⟨a, ha, -⟩ := res_map_inv h
    obtain ⟨bs, rest, rfl, rfl⟩ := GetDigests.inverts.parse ha
    simp [Spec.reserved, Wire.getDigests, zeros, List.replicate_succ]
  case digests =>
    obtain ⟨a, ha, -⟩ := res_map_inv h
    obtain ⟨bs, rest, rfl, cs, rfl⟩ := (Digests.inverts c _).parse ha
    simp [Spec.reserved, zeros, List.replicate_succ]
  case getCertificate =>
    obtain ⟨a, ha, -⟩ := res_map_inv h
    obtain ⟨bs, rest, rfl, rfl⟩ := GetCertificate.inverts.parse ha
    simp [Spec.reserved, Wire.getCertificate, zeros, List.replicate_succ]
  case certificate =>
    obtain ⟨a, ha, -⟩ := res_map_inv h
    obtain ⟨bs, rest, rfl, rfl, -⟩ := (Certificate.inverts c).parse ha
    simp [Spec.reserved, Wire.certificate, zeros, List.replicate_succ]
  all_goals simp [Spec.reserved]

/-- Opaque data as it must be on the wire: a count, three reserved zero bytes, and elements padded with zeros to multiples of four bytes
(`Wire.opaqueData`), somewhere in the message at `pos`. -/
def Spec.OpaqueAt (c : Cfg) (buf : Bytes) (pos : Nat) : Prop :=
  ∃ d, OpaqueDataWF c d ∧ (buf.drop pos).take (Wire.opaqueData d).length = Wire.opaqueData d

/-- **C23**: the reserved bytes and the padding inside the opaque data of an accepted CHALLENGE_AUTH are zero. -/
theorem c23_challenge_auth_opaque (c : Cfg) (ds ss : Nat) (buf : Bytes) (m : ChallengeAuth) (h : ChallengeAuth.parseBody c buf ds ss = .ok m) :
    OpaqueAt c buf (4 + 2 * ds + c.nonceSize) := by
  obtain ⟨bs, rest, rfl, b, olen, rfl, -, -, -, h1, h2, h3, h4, -, -⟩ := (ChallengeAuth.inverts c ds ss).parse h
  refine ⟨m.opaqueData, h4, ?_⟩
  obtain ⟨p, q, hl⟩ := le_two olen
  rw [hl]
  have e : ([b, m.slotMask] ++ m.certChainHash ++ m.nonce ++ m.measurementSummaryHash ++ [p, q] ++ Wire.opaqueData m.opaqueData ++ m.signature ++ rest) =
    ([b, m.slotMask] ++ m.certChainHash ++ m.nonce ++ m.measurementSummaryHash ++ [p, q]) ++ (Wire.opaqueData m.opaqueData ++ (m.signature ++ rest)) := by simp
  rw [e, List.drop_left' (by simp; omega), List.take_left]

/-- **C23**: the same for MEASUREMENTS. -/
theorem c23_measurements_opaque (c : Cfg) (sg : Bool) (ss : Nat) (buf : Bytes) (m : Measurements) (h : Measurements.parseBody c buf sg ss = .ok m) :
    OpaqueAt c buf (4 + (Wire.measurementBlocks m.blocks).length + c.nonceSize) := by
  obtain ⟨bs, rest, rfl, b, olen, rfl, -, -, -, -, -, h1, h2, -, -⟩ := (Measurements.inverts c sg ss).parse h
  refine ⟨m.opaqueData, h2, ?_⟩
  obtain ⟨p, q, hl⟩ := le_two olen
  rw [hl]
  have e : ([m.totalBlocks, b] ++ Wire.measurementBlocks m.blocks ++ m.nonce ++ [p, q] ++ Wire.opaqueData m.opaqueData ++ m.signature.getD [] ++ rest) =
    ([m.totalBlocks, b] ++ Wire.measurementBlocks m.blocks ++ m.nonce ++ [p, q]) ++ (Wire.opaqueData m.opaqueData ++ (m.signature.getD [] ++ rest)) := by simp
  rw [e, List.drop_left' (by simp; omega), List.take_left]

/-- **C23**: the reserved bits of GET_MEASUREMENTS. -/
theorem c23_get_measurements_bits (c : Cfg) (hc : 0 < c.numSlots) (buf : Bytes) (m : GetMeasurements) (h : GetMeasurements.parseBody c buf = .ok m) :
    ∃ b, buf[0]? = some b ∧ b.toNat < 4 := by
  obtain ⟨bs, rest, rfl, rfl, -⟩ := (GetMeasurements.inverts c hc).parse h
  refine ⟨_, rfl, ?_⟩
  cases m.attributes.signatureRequested <;> cases m.attributes.rawBitStreamRequested <;> decide

/-- **C23**: the reserved bytes of a certificate chain. -/
theorem c23_chain_reserved (c : Cfg) (ds : Nat) (buf : Bytes) (ch : CertificateChain) (h : CertificateChain.parse c buf ds = .ok ch) :
    buf[2]? = some 0 ∧ buf[3]? = some 0 := by
  obtain ⟨-, rfl⟩ := CertificateChain.parse_inv h
  obtain ⟨p, q, hl⟩ := le_two (4 + (ch.rootHash ++ ch.intermediateCerts.flatten ++ ch.leafCert).length)
  rw [Wire.chain, hl]
  simp [zeros, List.replicate_succ]

/-- Beyond whole bytes: the reserved bits 4 to 6 of the first byte of CHALLENGE_AUTH are not enforced. -/
theorem c23_challenge_auth_bits_ignored :
    ∃ m, ChallengeAuth.parseBody demoCfg ([0x71, 3] ++ (Wire.challengeAuth (demoAuth false)).drop 2) 2 3 = .ok m :=
  ⟨demoAuth false, by decide +kernel⟩

example : AnyMsg.parse demoCfg ⟨32, 64, false⟩ .negotiateAlgorithms (Wire.negotiateAlgorithms demoOffer) = .ok (.negotiateAlgorithms demoOffer) := by
  decide +kernel
example : AnyMsg.parse demoCfg ⟨32, 64, false⟩ .getCertificate [1, 1, 0, 0, 0, 0] = .err (.read .reservedByteNotZero) := by decide

/-! ## C24: no panics -/

theorem map_np {α β : Type} {x : Res α} {f : α → β} (h : x.isPanic = false) : (x.map f).isPanic = false := by
  cases x <;> first | rfl | exact h

/-- **C24**, the part that holds for every configuration: thirteen of the fifteen parsers never panic. -/
theorem c24_no_panic_partial (c : Cfg) (hc : c.numSlots ≤ 8) (x : Ctx) (t : MsgType) (ht : t ≠ .challengeAuth ∧ t ≠ .measurements) (buf : Bytes) :
    (AnyMsg.parse c x t buf).isPanic = false := by
  cases t
  case getVersion => exact map_np (GetVersion.safe.parse buf)
  case version => exact map_np (Version.safe.parse buf)
  case getCapabilities => exact map_np (GetCapabilities.safe.parse buf)
  case capabilities => exact map_np (Capabilities.safe.parse buf)
  case negotiateAlgorithms => exact map_np (NegotiateAlgorithms.safe.parse buf)
  case algorithms => exact map_np (Algorithms.safe.parse buf)
  case getDigests => exact map_np (GetDigests.safe.parse buf)
  case digests => exact map_np ((Digests.safe c hc _).parse buf)
  case getCertificate => exact map_np (GetCertificate.safe.parse buf)
  case certificate => exact map_np ((Certificate.safe c).parse buf)
  case challenge => exact map_np ((Challenge.safe c).parse buf)
  case challengeAuth => simp at ht
  case getMeasurements => exact map_np ((GetMeasurements.safe c).parse buf)
  case measurements => simp at ht
  case error => exact map_np (ErrorMsg.safe.parse buf)

/-- **C24** for all fifteen parsers, when the fixed arrays are large enough for whatever the one- and two-byte counts can announce. -/
theorem c24_no_panic_large_arrays_partial (c : Cfg) (hc : c.numSlots ≤ 8) (h1 : 65535 ≤ c.maxOpaqueElementDataSize) (h2 : 255 ≤ c.maxOpaqueElements)
    (h3 : 255 ≤ c.maxMeasurementBlocks) (x : Ctx) (t : MsgType) (buf : Bytes) : (AnyMsg.parse c x t buf).isPanic = false := by
  by_cases ht : t ≠ .challengeAuth ∧ t ≠ .measurements
  · exact c24_no_panic_partial c hc x t ht buf
  · cases t
    case challengeAuth => exact map_np ((ChallengeAuth.safe c _ _ h1 h2).parse buf)
    case measurements => exact map_np ((Measurements.safe c _ _ h1 h2 h3).parse buf)
    all_goals simp at ht

/-- `p`, started aligned in front of `bs`, panics. -/
def Panics {α : Type} (p : R α) (bs : Bytes) : Prop :=
  ∀ pre suf : Bytes, (p ⟨pre ++ (bs ++ suf), pre.length, 0⟩).1.isPanic = true

theorem Reads.then_panics {α β : Type} {p : R α} {q : α → R β} {bs cs : Bytes} {a : α}
    (hp : Reads p bs a) (hq : Panics (q a) cs) : Panics (p >>= q) (bs ++ cs) := by
  intro pre suf
  have h1 := hp pre (cs ++ suf)
  have h2 := hq (pre ++ bs) suf
  rw [List.append_assoc, M.run_bind_ok h1]
  simpa using h2

theorem Panics.bind {α β : Type} {p : R α} {q : α → R β} {bs : Bytes} (hp : Panics p bs) : Panics (p >>= q) bs := by
  intro pre suf
  have h := hp pre suf
  rcases hr : p ⟨pre ++ (bs ++ suf), pre.length, 0⟩ with ⟨r, s⟩
  rw [hr] at h
  cases r with
  | ok a => simp [Res.isPanic] at h
  | err e => simp [Res.isPanic] at h
  | panic k => rw [M.run_bind_panic hr]; rfl

theorem Panics.congr {α : Type} {p : R α} {bs cs : Bytes} (hp : Panics p bs) (h : bs = cs) : Panics p cs := h ▸ hp

theorem Panics.parse {α : Type} {p : R α} {bs : Bytes} (hp : Panics p bs) (suf : Bytes) : (p (Reader.new (bs ++ suf))).1.isPanic = true := by
  have := hp [] suf
  simpa [Reader.new] using this

theorem Panics.getSlice {n cap : Nat} (h : cap < n) (bs : Bytes) (hl : bs.length = n) : Panics (Reader.getSlice n cap) bs := by
  intro pre suf
  subst hl
  have : ¬ bs.length ≤ cap := by omega
  simp [Reader.getSlice, Reader.isAligned, Reader.remaining, this, Res.isPanic]

/-- An opaque element announcing more data than the fixed array holds. -/
theorem OpaqueData.panics (c : Cfg) (n : UInt16) (h : c.maxOpaqueElementDataSize < n.toNat) :
    Panics (OpaqueData.read c) ([1] ++ zeros 3 ++ [0, 0] ++ le 2 n.toNat ++ zeros n.toNat) := by
  have he : Panics (OpaqueElement.read c) ([0, 0] ++ le 2 n.toNat ++ zeros n.toNat) := by
    refine ((Reads.getByte 0).then_panics (cs := [0] ++ (le 2 n.toNat ++ zeros n.toNat)) ?_).congr (by simp)
    exact (Reads.getByte 0).then_panics ((Reads.pure ()).then_panics (p := M.lift (OpaqueElement.ensureVendorIdLen 0 .dmtf)) (bs := [])
      ((Reads.pure VendorId.empty).then_panics (p := VendorId.read 0) (bs := []) ((Reads.le16 n).then_panics (Panics.bind (Panics.getSlice h _ (by simp [zeros]))))))
  refine ((Reads.getByte 1).then_panics ((Reads.zeros 3).then_panics (cs := [0, 0] ++ le 2 n.toNat ++ zeros n.toNat) ?_)).congr (by simp)
  exact Panics.bind (Panics.bind he)

/-- **C24** is false (1): whatever the configuration, unless it has room for 64 KiB per opaque element, a CHALLENGE_AUTH whose opaque element announces more data than
configured aborts the parser. -/
theorem c24_challenge_auth_panics (c : Cfg) (ds ss : Nat) (n : UInt16) (hn : c.maxOpaqueElementDataSize < n.toNat) (suf : Bytes) :
    (ChallengeAuth.parseBody c ([0, 0] ++ zeros ds ++ zeros c.nonceSize ++ zeros ds ++ [8, 0] ++ ([1] ++ zeros 3 ++ [0, 0] ++ le 2 n.toNat ++ zeros n.toNat) ++ suf)
      ds ss).isPanic = true := by
  have hb : ∀ {β : Type} (q : UInt8 → UInt8 → R β) (cs : Bytes), Panics (q 0 0) cs →
      Panics (Reader.getBits 4 >>= fun s => if s.toNat > c.numSlots then M.fail .maxOpaqueDataSizeExceeded else Reader.getBits 3 >>= fun _ => Reader.getBit >>= fun b => q s b) ([0] ++ cs) := by
    intro β q cs h pre suf
    have h1 := getBits_run pre (cs ++ suf) 0 0 4 (by omega) (by omega) (by omega)
    have h2 := getBits_run pre (cs ++ suf) 0 4 3 (by omega) (by omega) (by omega)
    have h3 := getBits_run pre (cs ++ suf) 0 7 1 (by omega) (by omega) (by omega)
    simp only [Nat.reduceAdd, Nat.reduceEqDiff, if_false, if_true, show bitField 0 0 4 = 0 by decide, show bitField 0 7 1 = 0 by decide] at h1 h2 h3
    simp only [List.cons_append, List.nil_append]
    rw [M.run_bind_ok h1, if_neg (by simp), M.run_bind_ok h2, M.run_bind_ok (m := Reader.getBit) h3]
    have := h (pre ++ [0]) suf
    rw [List.append_assoc, List.length_append] at this
    exact this
  have hz : ∀ k, (zeros k).length = k := by simp [zeros]
  have hP : Panics (ChallengeAuth.read c ds ss) ([0] ++ ([0] ++ (zeros ds ++ (zeros c.nonceSize ++ (zeros ds ++ (le 2 (8 : UInt16).toNat ++ ([1] ++ zeros 3 ++ [0, 0] ++ le 2 n.toNat ++ zeros n.toNat))))))) := by
    refine hb (fun s b => _) _ ((Reads.getByte 0).then_panics ((Reads.getSlice (zeros ds) (hz ds) (Nat.le_refl _)).then_panics
      ((Reads.getSlice (zeros c.nonceSize) (hz _) (Nat.le_refl _)).then_panics ((Reads.getSlice (zeros ds) (hz ds) (Nat.le_refl _)).then_panics
      ((Reads.le16 8).then_panics ?_)))))
    rw [if_neg (by simp [maxOpaqueDataSize])]
    exact Panics.bind (OpaqueData.panics c n hn)
  have := hP.parse suf
  rw [show le 2 (8 : UInt16).toNat = [8, 0] by decide] at this
  simpa [ChallengeAuth.parseBody] using this

/-- **C24** is false (2): one element more than configured. -/
theorem c24_opaque_count_panics :
    (ChallengeAuth.parseBody demoCfg ([0, 0] ++ zeros 32 ++ zeros 4 ++ zeros 32 ++ [16, 0] ++ ([3] ++ zeros 3 ++ zeros 12)) 32 64).isPanic = true := by
  decide +kernel

/-- **C24** is false (3): one measurement block more than configured. -/
theorem c24_block_count_panics :
    (Measurements.parseBody demoCfg ([2, 0] ++ ([3] ++ le 3 16) ++ [1, 1, 3, 0, 0, 0, 0] ++ [2, 1, 3, 0, 0, 0, 0] ++ [3, 1, 3, 0, 0, 0, 0]) false 0).isPanic = true := by
  decide +kernel

/-- **C24** is false (4): a certificate that does not start with 0x30 aborts chain parsing, for every configuration. -/
theorem c24_chain_tag_panics (c : Cfg) (root : Bytes) (tag : UInt8) (rest : Bytes) (ht : tag ≠ 0x30) (hl : 5 + root.length + rest.length < 65536) :
    (CertificateChain.parse c (le 2 (5 + root.length + rest.length) ++ zeros 2 ++ root ++ [tag] ++ rest) root.length).isPanic = true := by
  generalize hL : le 2 (5 + root.length + rest.length) = L
  have hLl : L.length = 2 := by rw [← hL]; simp
  generalize hB : L ++ zeros 2 ++ root ++ [tag] ++ rest = B
  have hlen : B.length = 5 + root.length + rest.length := by rw [← hB]; simp [zeros, hLl]; omega
  have h16 : ((UInt16.ofNat (5 + root.length + rest.length)).toNat) = 5 + root.length + rest.length := ofNat_toNat16 (by omega)
  have s1 : Reader.getU16 (Reader.new B) = (.ok (UInt16.ofNat (5 + root.length + rest.length)), ⟨B, 2, 0⟩) := by
    have := Reads.le16 (UInt16.ofNat (5 + root.length + rest.length)) [] (zeros 2 ++ (root ++ ([tag] ++ rest)))
    rw [h16, hL] at this
    simp only [← List.append_assoc, List.nil_append, List.length_nil, hLl, hB] at this
    exact this
  have s2 : Reader.skipReserved 2 ⟨B, 2, 0⟩ = (.ok (), ⟨B, 4, 0⟩) := by
    have := Reads.zeros 2 L (root ++ ([tag] ++ rest))
    simp only [← List.append_assoc, hB] at this
    simpa [hLl, zeros] using this
  have s3 : Reader.skipIgnored root.length ⟨B, 4, 0⟩ = (.ok (), ⟨B, 4 + root.length, 0⟩) := by
    have := Reads.skipIgnored root (L ++ zeros 2) ([tag] ++ rest)
    simp only [← List.append_assoc, hB] at this
    simpa [hLl, zeros] using this
  have s4 : CertificateChain.slice B 4 (4 + root.length) = .ok ((B.drop 4).take (4 + root.length - 4)) := by
    rw [CertificateChain.slice, if_pos ⟨by omega, by omega⟩]
  have s5 : Reader.getByte ⟨B, 4 + root.length, 0⟩ = (.ok tag, ⟨B, 4 + root.length + 1, 0⟩) := by
    have := Reads.getByte tag (L ++ zeros 2 ++ root) rest
    simp only [← List.append_assoc, hB] at this
    have hl : (L ++ zeros 2 ++ root).length = 4 + root.length := by simp [hLl, zeros]; omega
    rw [hl] at this
    exact this
  have s6 : CertificateChain.readCertSize ⟨B, 4 + root.length, 0⟩ = (.panic .assertion, ⟨B, 4 + root.length + 1, 0⟩) := by
    unfold CertificateChain.readCertSize
    rw [M.run_bind_ok s5, if_pos ht]
    rfl
  have s7 : CertificateChain.parseLoop c B (B.length + 1) [] ⟨B, 4 + root.length, 0⟩ = (.panic .assertion, ⟨B, 4 + root.length + 1, 0⟩) := by
    unfold CertificateChain.parseLoop
    rw [M.run_bind_ok (M.run_get _)]
    exact M.run_bind_panic s6
  unfold CertificateChain.parse CertificateChain.read
  rw [M.run_bind_ok s1, if_neg (by rw [h16, hlen]; simp), M.run_bind_ok s2, M.run_bind_ok (M.run_get _)]
  dsimp only
  rw [M.run_bind_ok s3, M.run_bind_ok (M.run_lift_ok s4), M.run_bind_panic s7]
  rfl

/-! ## C25: truncation -/

/-- **C25**: what a parser accepts it accepts because of its first `n` bytes: the same result on every byte string that starts with them, an error on every
shorter prefix. -/
theorem c25_truncation (c : Cfg) (x : Ctx) (t : MsgType) (buf : Bytes) (m : AnyMsg) (h : AnyMsg.parse c x t buf = .ok m) :
    ∃ n, n ≤ buf.length ∧ (∀ buf', n ≤ buf'.length → buf'.take n = buf.take n → AnyMsg.parse c x t buf' = .ok m) ∧
      ∀ k, k < n → ∃ e, AnyMsg.parse c x t (buf.take k) = .err e := AnyMsg.parse_local c x t h

theorem Local.cut {α : Type} {p : R α} {bs : Bytes} {a : α} (hp : Local p) (hr : Reads p bs a) (f : α → AnyMsg) {k : Nat} (hk : k < bs.length) :
    ∃ e, ((p (Reader.new (bs.take k))).1).map f = .err e := by
  have h := hr [] []
  simp only [List.nil_append, List.append_nil, List.length_nil, Nat.zero_add] at h
  obtain ⟨o, b, h1, h2, h3, h4, h5⟩ := hp bs 0 0 a _ ⟨by simp, by simp, by simp⟩ h
  simp only [Reader.mk.injEq, true_and] at h1
  obtain ⟨rfl, rfl⟩ := h1
  obtain ⟨e, r, he⟩ := h5 (bs.take k) (List.take_prefix _ _) ⟨by simp, by simp, by simp⟩ (by rw [List.length_take]; omega)
  exact ⟨e, by show Res.map f (p ⟨bs.take k, 0, 0⟩).1 = _; rw [he]; rfl⟩

/-- **C25** for written messages: every proper prefix of the body is refused.  (VERSION is left out: its writer always emits both array entries, its parser only reads
the announced ones.) -/
theorem c25_written_messages (c : Cfg) (x : Ctx) (m : AnyMsg) (h : MsgWF c x m) (hv : m.ty ≠ .version) (k : Nat) (hk : k < (Wire.body m).length) :
    ∃ e, AnyMsg.parse c x m.ty ((Wire.body m).take k) = .err e := by
  cases m with
  | getVersion => exact GetVersion.local.cut GetVersion.reads _ hk
  | version m => exact absurd rfl hv
  | getCapabilities m => exact GetCapabilities.local.cut (GetCapabilities.reads h) _ hk
  | capabilities m => exact Capabilities.local.cut (Capabilities.reads h) _ hk
  | negotiateAlgorithms m => exact NegotiateAlgorithms.local.cut (NegotiateAlgorithms.reads h) _ hk
  | algorithms m => exact Algorithms.local.cut (Algorithms.reads h) _ hk
  | getDigests => exact GetDigests.local.cut GetDigests.reads _ hk
  | digests m => exact (Digests.local c _).cut (Digests.reads h) _ hk
  | getCertificate m => exact GetCertificate.local.cut (GetCertificate.reads m) _ hk
  | certificate m => exact (Certificate.local c).cut (Certificate.reads h) _ hk
  | challenge m => exact (Challenge.local c).cut (Challenge.reads h) _ hk
  | challengeAuth m => exact (ChallengeAuth.local c _ _).cut (ChallengeAuth.reads h.1) _ hk
  | getMeasurements m => exact (GetMeasurements.local c).cut (GetMeasurements.reads h) _ hk
  | measurements m =>
    obtain ⟨h1, h2, h3⟩ := h
    have hr : Reads (Measurements.read c x.sigRequested x.sigSize) (Wire.measurements m) m := by rw [← h3]; exact Measurements.reads h1 h2
    have hl := hr [] []
    simp only [List.nil_append, List.append_nil, List.length_nil, Nat.zero_add] at hl
    obtain ⟨o, b, g1, g2, g3, g4, g5⟩ := Measurements.strict_local c x.sigRequested x.sigSize (Wire.measurements m) 0 0 m _ ⟨by simp, by simp, by simp⟩
      (by rw [← hl]; exact (Measurements.read_eq_strict c _ _ _).symm)
    simp only [Reader.mk.injEq, true_and] at g1
    obtain ⟨rfl, rfl⟩ := g1
    have hk' : k < (Wire.measurements m).length := hk
    obtain ⟨e, r, he⟩ := g5 ((Wire.measurements m).take k) (List.take_prefix _ _) ⟨by simp, by simp, by simp⟩ (by rw [List.length_take]; omega)
    refine ⟨e, ?_⟩
    show Res.map _ (Measurements.read c x.sigRequested x.sigSize (Reader.new ((Wire.measurements m).take k))).1 = _
    rw [Measurements.read_eq_strict]
    show Res.map _ (Measurements.readStrict c x.sigRequested x.sigSize ⟨(Wire.measurements m).take k, 0, 0⟩).1 = _
    rw [he]; rfl
  | error m => exact ErrorMsg.local.cut (ErrorMsg.reads h) _ hk

/-- **C25** for certificate chains, which end with the buffer: any truncation and any extension is refused with an error. -/
theorem c25_chain_truncation (c : Cfg) (ds : Nat) (buf : Bytes) (ch : CertificateChain) (h : CertificateChain.parse c buf ds = .ok ch) :
    (∀ k, k < buf.length → ∃ e, CertificateChain.parse c (buf.take k) ds = .err e) ∧
    (∀ suf, suf ≠ [] → ∃ e, CertificateChain.parse c (buf ++ suf) ds = .err e) := by
  obtain ⟨hwf, rfl⟩ := CertificateChain.parse_inv h
  have hsz := hwf.size
  generalize hL : (ch.rootHash ++ ch.intermediateCerts.flatten ++ ch.leafCert) = body at hsz
  have hw : Wire.chain ch = le 2 (UInt16.ofNat (4 + body.length)).toNat ++ (zeros 2 ++ body) := by
    rw [ofNat_toNat16 (by omega), ← hL]; simp [Wire.chain]
  have hlen : (Wire.chain ch).length = 4 + body.length := by rw [hw]; simp [zeros]; omega
  have key : ∀ buf' : Bytes, buf'.length ≠ 4 + body.length → (∃ suf, buf' = le 2 (UInt16.ofNat (4 + body.length)).toNat ++ suf) →
      ∃ e, CertificateChain.parse c buf' ds = .err e := by
    rintro buf' hne ⟨suf, rfl⟩
    have := Reads.le16 (UInt16.ofNat (4 + body.length)) [] suf
    simp only [List.nil_append, List.length_nil] at this
    refine ⟨.lengthMismatch, ?_⟩
    unfold CertificateChain.parse CertificateChain.read
    rw [M.run_bind_ok (s := Reader.new _) this, if_pos (by rw [ofNat_toNat16 (by omega)]; exact fun h => hne h.symm)]
    rfl
  constructor
  · intro k hk
    by_cases h2 : k < 2
    · refine ⟨.read .bufferEmpty, ?_⟩
      unfold CertificateChain.parse CertificateChain.read
      have : Reader.getU16 (Reader.new ((Wire.chain ch).take k)) = (.err (.read .bufferEmpty), Reader.new ((Wire.chain ch).take k)) := by
        unfold Reader.getU16
        rw [if_neg (by simp [Reader.new, Reader.isAligned]), if_pos (by simp [Reader.new, Reader.remaining]; omega)]
      rw [M.run_bind_err this]
    · refine key _ (by rw [List.length_take]; omega) ⟨((zeros 2 ++ body)).take (k - 2), ?_⟩
      rw [hw, List.take_append, List.take_of_length_le (by simp; omega)]
      simp
  · intro suf hs
    have : 0 < suf.length := List.length_pos_iff.mpr hs
    exact key _ (by rw [List.length_append, hlen]; omega) ⟨zeros 2 ++ body ++ suf, by rw [hw]; simp⟩

example : AnyMsg.parse demoCfg ⟨2, 3, false⟩ .challengeAuth (Wire.challengeAuth (demoAuth false)) = .ok (.challengeAuth (demoAuth false)) := by decide +kernel
example : ∃ e, AnyMsg.parse demoCfg ⟨2, 3, false⟩ .challengeAuth ((Wire.challengeAuth (demoAuth false)).take 20) = .err e := ⟨.read .bufferEmpty, by decide +kernel⟩

/-! ## C26: unambiguity -/

/-- **C26** for all messages that the code transmits faithfully: equal bytes mean equal messages, in particular messages of different types never have the same bytes. -/
theorem c26_unambiguous_partial (c : Cfg) (x : Ctx) (m m' : AnyMsg) (h : MsgWF c x m) (h' : MsgWF c x m') (buf buf' out out' : Bytes) (n n' : Nat)
    (hw : m.write c buf = (.ok n, out)) (hw' : m'.write c buf' = (.ok n', out')) (he : out.take n = out'.take n') : m = m' := by
  have key : ∀ (m : AnyMsg), MsgWF c x m → ∀ (buf out : Bytes) (n : Nat), m.write c buf = (.ok n, out) → out.take n = Wire.header m.ty ++ Wire.body m := by
    intro m h buf out n hw
    obtain ⟨t1, t2, _⟩ := any_travels h
    by_cases hl : 2 + (Wire.body m).length ≤ buf.length
    · have := t1 buf hl
      rw [AnyMsg.write, this] at hw
      simp only [Prod.mk.injEq, Res.ok.injEq] at hw
      obtain ⟨rfl, rfl⟩ := hw
      have hhl : (Wire.header m.ty).length = 2 := by cases m.ty <;> rfl
      rw [show 2 + (Wire.body m).length = (Wire.header m.ty ++ Wire.body m).length by simp [hhl], List.take_left]
    · obtain ⟨e, he⟩ := t2 buf (by omega)
      rw [AnyMsg.write] at hw
      rw [hw] at he
      simp at he
  rw [key m h _ _ _ hw, key m' h' _ _ _ hw'] at he
  have hl : ∀ t, (Wire.header t).length = 2 := by intro t; cases t <;> rfl
  obtain ⟨e1, e2⟩ := List.append_inj he (by rw [hl, hl])
  have ht : m.ty = m'.ty := header_code_inj _ _ (by rw [e1])
  have p1 := (any_travels h).2.2 []
  have p2 := (any_travels h').2.2 []
  rw [e2, ht] at p1
  rw [p1] at p2
  exact Res.ok.inj p2

/-- **C26** is false in general (1): a CHALLENGE_AUTH requesting mutual authentication for slot 1 has the same bytes as the plain one for slot 0. -/
theorem c26_ambiguous_mutual_auth :
    ChallengeAuthWF demoCfg 2 3 (demoAuth true) ∧ ChallengeAuthWF demoCfg 2 3 { demoAuth true with slot := 0, useMutualAuth := false } ∧
    (AnyMsg.challengeAuth (demoAuth true)).write demoCfg (zeros 64) = (AnyMsg.challengeAuth { demoAuth true with slot := 0, useMutualAuth := false }).write demoCfg (zeros 64) ∧
    ((AnyMsg.challengeAuth (demoAuth true)).write demoCfg (zeros 64)).1.isOk = true ∧
    demoAuth true ≠ { demoAuth true with slot := 0, useMutualAuth := false } :=
  ⟨demoAuth_wf true, ⟨by decide, by decide, rfl, rfl, rfl, demoOpaque_wf, by decide, rfl⟩, by decide +kernel, by decide +kernel, by decide⟩

/-- **C26** is false in general (2): an unsigned MEASUREMENTS does not transmit its slot. -/
theorem c26_ambiguous_unsigned_slot (b : MeasurementBlock) (hb : BlockWF demoCfg b) :
    MeasurementsWF demoCfg 3 (demoMeasurements b none) ∧ MeasurementsWF demoCfg 3 { demoMeasurements b none with slotId := 0 } ∧
    Wire.measurements (demoMeasurements b none) = Wire.measurements { demoMeasurements b none with slotId := 0 } ∧
    (demoMeasurements b none).writeBody = ({ demoMeasurements b none with slotId := 0 } : Measurements).writeBody ∧
    demoMeasurements b none ≠ { demoMeasurements b none with slotId := 0 } := by
  have h := demoMeasurements_wf b hb none (by simp)
  exact ⟨h, ⟨h.total, h.slots, by simp [demoCfg], h.blocks, h.nonce, h.opq, h.opqMax, h.sig⟩, rfl, rfl, by simp [demoMeasurements]⟩

example : MsgWF demoCfg ⟨2, 3, false⟩ (.challengeAuth (demoAuth false)) := ⟨demoAuth_wf false, rfl⟩

end Spdm
