import Verif.Spec.Handshake
import Verif.Lemmas.ReqCalls
import Verif.Lemmas.RspCalls
import Verif.Lemmas.RspRun
import Verif.Props.Config
import Verif.Props.Der
/-! The six exchanges of an honest handshake, one lemma for each side of each exchange. -/
namespace Spdm
open Spec

theorem Reads.parse_nil {α : Type} {p : R α} {bs : Bytes} {a : α} (h : Reads p bs a) : (p (Reader.new bs)).1 = .ok a := by simpa using h.parse []

/-! ### Requests -/

/-- `next_request` that writes and records `req`. -/
def Sends (c : Cfg) (env : Env) (buf : Bytes) (r : Requester) (req : Bytes) (st : ReqState) (T : Bytes) : Prop :=
  ∃ r1, Requester.nextRequest c env buf r = (.ok req, r1) ∧ RKept r r1 ∧ r1.state = some st ∧ r1.transcript.get = T

variable {c : Cfg} {cr : Crypto} {env : Env} {buf : Bytes} {r : Requester}

theorem send_version (hs : r.state = some .version) (hb : 4 ≤ buf.length) (ht : 4 ≤ r.transcript.buf.length) :
    Sends c env buf r (Wire.header .getVersion ++ Wire.getVersion) .version (Wire.header .getVersion ++ Wire.getVersion) := by
  have hl : (Wire.header .getVersion ++ Wire.getVersion).length = 4 := by decide
  obtain ⟨t, e, g, w, cp⟩ := Requester.extend_run (r := { r with transcript := r.transcript.clear }) (bs := Wire.header .getVersion ++ Wire.getVersion)
    (Transcript.clear_wf _) (by simp only [Transcript.clear_get, Transcript.clear_buf, hl, List.length_nil]; omega)
  refine ⟨{ r with transcript := t }, ?_, ⟨w, cp, rfl⟩, hs, by simpa using g⟩
  simp only [Requester.nextRequest, hs, Requester.writeReq]
  rw [lift_run (writeTo_run (GetVersion.writes) (by simp [Wire.getVersion, zeros]; omega))]
  rw [M.run_bind_ok (m := Requester.clear) rfl, M.run_bind_ok e]
  rw [← hs]; rfl

theorem send_capabilities {v : VersionEntry} {ct : Option UInt8} {cap : Option UInt32} {m : GetCapabilities} (hm : Requester.configToGetCapabilities c = .ok m)
    (hw : r.transcript.WF) (hs : r.state = some (.capabilities v ct cap)) (hb : 12 ≤ buf.length) (ht : r.transcript.get.length + 12 ≤ r.transcript.buf.length) :
    Sends c env buf r (Wire.header .getCapabilities ++ Wire.getCapabilities m) (.capabilities v (some m.ctExponent) (some m.flags))
      (r.transcript.get ++ (Wire.header .getCapabilities ++ Wire.getCapabilities m)) := by
  have hl : (Wire.getCapabilities m).length = 10 := by simp [Wire.getCapabilities, zeros, le_length]
  obtain ⟨t, e, g, w, cp⟩ := Requester.extend_run (r := r) (bs := Wire.header .getCapabilities ++ Wire.getCapabilities m)
    hw (by simp only [List.length_append, header_length, hl]; omega)
  refine ⟨{ r with transcript := t, state := some (.capabilities v (some m.ctExponent) (some m.flags)) }, ?_, ⟨w, cp, rfl⟩, rfl, by simpa using g⟩
  simp only [Requester.nextRequest, hs, Requester.writeReq]
  rw [lift_run hm, lift_run (writeTo_run (GetCapabilities.writes m) (by omega)), M.run_bind_ok e]
  rfl

theorem send_algorithms {v : VersionEntry} {caps : Caps} {o : Option NegotiateAlgorithms} {m : NegotiateAlgorithms} (hm : Requester.configToNegotiateAlgorithms c = .ok m)
    (hl : (Wire.negotiateAlgorithms m).length = 46)
    (hw : r.transcript.WF) (hs : r.state = some (.algorithms v caps o)) (hb : 48 ≤ buf.length) (ht : r.transcript.get.length + 48 ≤ r.transcript.buf.length) :
    Sends c env buf r (Wire.header .negotiateAlgorithms ++ Wire.negotiateAlgorithms m) (.algorithms v caps (some m))
      (r.transcript.get ++ (Wire.header .negotiateAlgorithms ++ Wire.negotiateAlgorithms m)) := by
  obtain ⟨t, e, g, w, cp⟩ := Requester.extend_run (r := { r with state := some (.algorithms v caps (some m)) }) (bs := Wire.header .negotiateAlgorithms ++ Wire.negotiateAlgorithms m)
    (by exact hw) (by simp only [List.length_append, header_length, hl]; omega)
  obtain ⟨h1, h2, _, _⟩ := offer_wf hm
  refine ⟨{ r with transcript := t, state := some (.algorithms v caps (some m)) }, ?_, ⟨w, cp, rfl⟩, rfl, by simpa using g⟩
  simp only [Requester.nextRequest, hs, Requester.writeReq]
  rw [lift_run hm, lift_run (writeTo_run (NegotiateAlgorithms.writes (by rw [h1]; rfl) (by rw [h2]; decide)) (by omega)),
    M.run_bind_ok (m := Requester.setState _) rfl, M.run_bind_ok e]
  rfl

theorem send_digests {v : VersionEntry} {caps : Caps} {a : Algorithms}
    (hw : r.transcript.WF) (hs : r.state = some (.idAuth v caps a none)) (hb : 4 ≤ buf.length) (ht : r.transcript.get.length + 4 ≤ r.transcript.buf.length) :
    Sends c env buf r (Wire.header .getDigests ++ Wire.getDigests) (.idAuth v caps a none)
      (r.transcript.get ++ (Wire.header .getDigests ++ Wire.getDigests)) := by
  have hl : (Wire.header .getDigests ++ Wire.getDigests).length = 4 := by decide
  obtain ⟨t, e, g, w, cp⟩ := Requester.extend_run (r := r) (bs := Wire.header .getDigests ++ Wire.getDigests) hw (by rw [hl]; omega)
  refine ⟨{ r with transcript := t }, ?_, ⟨w, cp, rfl⟩, hs, by simpa using g⟩
  simp only [Requester.nextRequest, hs, Requester.writeReq]
  rw [lift_run (writeTo_run (GetDigests.writes) (by simp [Wire.getDigests, zeros]; omega)), M.run_bind_ok e]
  rw [← hs]; rfl

theorem send_certificate {v : VersionEntry} {caps : Caps} {a : Algorithms} {d : Digests} (h0 : 0 < c.numSlots)
    (hw : r.transcript.WF) (hs : r.state = some (.idAuth v caps a (some d))) (hb : 8 ≤ buf.length) (ht : r.transcript.get.length + 8 ≤ r.transcript.buf.length) :
    Sends c env buf r (Wire.header .getCertificate ++ Wire.getCertificate ⟨0, 0, UInt16.ofNat c.maxCertChainSize⟩) (.idAuth v caps a (some d))
      (r.transcript.get ++ (Wire.header .getCertificate ++ Wire.getCertificate ⟨0, 0, UInt16.ofNat c.maxCertChainSize⟩)) := by
  have hl : (Wire.getCertificate ⟨0, 0, UInt16.ofNat c.maxCertChainSize⟩).length = 6 := by simp [Wire.getCertificate, zeros, le_length]
  obtain ⟨t, e, g, w, cp⟩ := Requester.extend_run (r := r) (bs := Wire.header .getCertificate ++ Wire.getCertificate ⟨0, 0, UInt16.ofNat c.maxCertChainSize⟩) hw
    (by simp only [List.length_append, header_length, hl]; omega)
  refine ⟨{ r with transcript := t }, ?_, ⟨w, cp, rfl⟩, hs, by simpa using g⟩
  simp only [Requester.nextRequest, hs, Requester.writeReq]
  rw [if_neg (by omega), lift_run (writeTo_run (GetCertificate.writes _) (by omega)), M.run_bind_ok e]
  rw [← hs]; rfl

theorem send_challenge {s : ReqChallenge} (hn : env.nonce.length = c.nonceSize)
    (hw : r.transcript.WF) (hs : r.state = some (.challenge s)) (hb : 4 + c.nonceSize ≤ buf.length) (ht : r.transcript.get.length + (4 + c.nonceSize) ≤ r.transcript.buf.length) :
    Sends c env buf r (Wire.header .challenge ++ Wire.challenge ⟨s.certSlot, .none, env.nonce⟩) (.challenge { s with nonce := some env.nonce })
      (r.transcript.get ++ (Wire.header .challenge ++ Wire.challenge ⟨s.certSlot, .none, env.nonce⟩)) := by
  have hl : (Wire.challenge ⟨s.certSlot, .none, env.nonce⟩).length = 2 + c.nonceSize := by simp [Wire.challenge, hn]; omega
  obtain ⟨t, e, g, w, cp⟩ := Requester.extend_run (r := { r with state := some (.challenge { s with nonce := some env.nonce }) })
    (bs := Wire.header .challenge ++ Wire.challenge ⟨s.certSlot, .none, env.nonce⟩) (by exact hw)
    (by simp only [List.length_append, header_length, hl]; omega)
  refine ⟨{ r with transcript := t, state := some (.challenge { s with nonce := some env.nonce }) }, ?_, ⟨w, cp, rfl⟩, rfl, by simpa using g⟩
  simp only [Requester.nextRequest, hs, Requester.writeReq]
  rw [M.run_bind_ok (m := Requester.setState _) rfl, lift_run (writeTo_run (Challenge.writes _) (by omega)), M.run_bind_ok e]
  rfl

/-! ### Responses -/

/-- `handle_msg` that accepts and records `rsp`. -/
def Accepts (c : Cfg) (cr : Crypto) (r : Requester) (rsp : Bytes) (done : Bool) (st : ReqState) (T : Bytes) : Prop :=
  ∃ r1, Requester.handleMsg c cr rsp r = (.ok done, r1) ∧ RKept r r1 ∧ r1.state = some st ∧ r1.transcript.get = T

theorem accepts_of {st st' : ReqState} {rsp T : Bytes} {r1 : Requester} (hs : r.state = some st)
    (h : Requester.handle c cr st rsp { r with state := none } = (.ok st', r1)) (hk : RKept r r1) (hT : r1.transcript.get = T) :
    Accepts c cr r rsp (st' = .newSession) st' T := by
  refine ⟨{ r1 with state := some st' }, ?_, ⟨hk.wf, hk.cap, hk.root⟩, rfl, hT⟩
  simp only [Requester.handleMsg, hs, h]

theorem accept_version (hw : r.transcript.WF) (hs : r.state = some .version) (ht : r.transcript.get.length + 10 ≤ r.transcript.buf.length) :
    Accepts c cr r (Wire.header .version ++ Wire.version ⟨2, supportedVersions⟩) false (.capabilities ⟨1, 1, 0, 0⟩ none none)
      (r.transcript.get ++ (Wire.header .version ++ Wire.version ⟨2, supportedVersions⟩)) := by
  have hl : (Wire.header .version ++ Wire.version ⟨2, supportedVersions⟩).length = 10 := by decide
  obtain ⟨t, e, g, w, cp⟩ := Requester.extend_run (r := { r with state := none }) (bs := Wire.header .version ++ Wire.version ⟨2, supportedVersions⟩)
    (by exact hw) (by rw [hl]; exact ht)
  refine accepts_of hs (r1 := { r with transcript := t, state := none }) (st' := .capabilities ⟨1, 1, 0, 0⟩ none none) ?_ ⟨w, cp, rfl⟩ g
  unfold Requester.handle
  simp only
  rw [lift_run (expect_ok (t := .version) (by rw [hl]; omega) (List.take_left' (header_length _))), lift_run (split_body _ _),
    lift_run (x := Version.parseBody _) (a := ⟨2, supportedVersions⟩) (by have := Version.reads default_wf []; rw [List.append_nil] at this; exact this)]
  rw [lift_run (x := Requester.findMaxMatchingVersion ⟨2, supportedVersions⟩) (a := some ⟨1, 1, 0, 0⟩) (by decide)]
  simp only
  rw [M.run_bind_ok e]
  rfl

theorem accept_capabilities {v : VersionEntry} {ct : UInt8} {cap : UInt32} {m : Capabilities} (hm : OnlyBits rspFlagBit m.flags.toNat)
    (hw : r.transcript.WF) (hs : r.state = some (.capabilities v (some ct) (some cap))) (ht : r.transcript.get.length + 12 ≤ r.transcript.buf.length) :
    Accepts c cr r (Wire.header .capabilities ++ Wire.capabilities m) false (.algorithms v ⟨ct, cap, m.ctExponent, m.flags⟩ none)
      (r.transcript.get ++ (Wire.header .capabilities ++ Wire.capabilities m)) := by
  have hl : (Wire.header .capabilities ++ Wire.capabilities m).length = 12 := by simp [Wire.capabilities, zeros, le_length, header_length]
  obtain ⟨t, e, g, w, cp⟩ := Requester.extend_run (r := { r with state := none }) (bs := Wire.header .capabilities ++ Wire.capabilities m)
    (by exact hw) (by rw [hl]; exact ht)
  refine accepts_of hs (r1 := { r with transcript := t, state := none }) (st' := .algorithms v ⟨ct, cap, m.ctExponent, m.flags⟩ none) ?_ ⟨w, cp, rfl⟩ g
  unfold Requester.handle
  simp only
  rw [lift_run (expect_ok (t := .capabilities) (by rw [hl]; omega) (List.take_left' (header_length _))), lift_run (split_body _ _),
    lift_run (x := Capabilities.parseBody _) (a := m) (Capabilities.reads hm).parse_nil, M.run_bind_ok e]
  rfl

theorem accept_algorithms {v : VersionEntry} {caps : Caps} {m : NegotiateAlgorithms} {a : Algorithms} (ha : AlgorithmsWF a)
    (hv : Requester.ensureValidAlgorithmsSelected (some m) a = .ok ()) (hl : (Wire.algorithms a).length = 50)
    (hw : r.transcript.WF) (hs : r.state = some (.algorithms v caps (some m))) (ht : r.transcript.get.length + 52 ≤ r.transcript.buf.length) :
    Accepts c cr r (Wire.header .algorithms ++ Wire.algorithms a) (! Requester.bothHave caps ReqFlags.certCap RspFlags.certCap)
      (if Requester.bothHave caps ReqFlags.certCap RspFlags.certCap then .idAuth v caps a none else .newSession)
      (r.transcript.get ++ (Wire.header .algorithms ++ Wire.algorithms a)) := by
  have hl2 : (Wire.header .algorithms ++ Wire.algorithms a).length = 52 := by rw [List.length_append, header_length, hl]
  obtain ⟨t, e, g, w, cp⟩ := Requester.extend_run (r := { r with state := none }) (bs := Wire.header .algorithms ++ Wire.algorithms a)
    (by exact hw) (by rw [hl2]; exact ht)
  have key := accepts_of (c := c) (cr := cr) hs (rsp := Wire.header .algorithms ++ Wire.algorithms a) (r1 := { r with transcript := t, state := none })
    (st' := if Requester.bothHave caps ReqFlags.certCap RspFlags.certCap then .idAuth v caps a none else .newSession) (by
      unfold Requester.handle
      simp only
      rw [lift_run (expect_ok (t := .algorithms) (by rw [hl2]; omega) (List.take_left' (header_length _))), lift_run (split_body _ _),
        lift_run (x := Algorithms.parseBody _) (a := a) (Algorithms.reads ha).parse_nil, lift_run hv, M.run_bind_ok e]
      rfl) ⟨w, cp, rfl⟩ g
  have hd : (! Requester.bothHave caps ReqFlags.certCap RspFlags.certCap) = decide ((if Requester.bothHave caps ReqFlags.certCap RspFlags.certCap then ReqState.idAuth v caps a none else .newSession) = .newSession) := by
    cases Requester.bothHave caps ReqFlags.certCap RspFlags.certCap <;> simp
  rw [hd]
  exact key

theorem accept_digests {v : VersionEntry} {caps : Caps} {a : Algorithms} {d : Digests} {size : Nat} (hz : BaseHashAlgo.getDigestSize c a.baseHashAlgoSelected = .ok size)
    (hd : DigestsWF c size d) (hw : r.transcript.WF) (hs : r.state = some (.idAuth v caps a none))
    (ht : r.transcript.get.length + (2 + (Wire.digests d).length) ≤ r.transcript.buf.length) :
    Accepts c cr r (Wire.header .digests ++ Wire.digests d) false (.idAuth v caps a (some d))
      (r.transcript.get ++ (Wire.header .digests ++ Wire.digests d)) := by
  have hl : 2 ≤ (Wire.digests d).length := by simp [Wire.digests, zeros]
  obtain ⟨t, e, g, w, cp⟩ := Requester.extend_run (r := { r with state := none }) (bs := Wire.header .digests ++ Wire.digests d)
    (by exact hw) (by rw [List.length_append, header_length]; exact ht)
  refine accepts_of hs (r1 := { r with transcript := t, state := none }) (st' := .idAuth v caps a (some d)) ?_ ⟨w, cp, rfl⟩ g
  unfold Requester.handle
  simp only
  rw [lift_run (expect_ok (t := .digests) (by rw [List.length_append, header_length]; omega) (List.take_left' (header_length _))), lift_run hz, lift_run (split_body _ _),
    lift_run (x := Digests.parseBody _ _ _) (a := d) (Digests.reads hd).parse_nil, M.run_bind_ok e]
  rfl

theorem accept_certificate {v : VersionEntry} {caps : Caps} {a : Algorithms} {d : Digests} {m : Certificate}
    (hm : CertificateWF c m) (hw : r.transcript.WF) (hs : r.state = some (.idAuth v caps a (some d)))
    (ht : r.transcript.get.length + (2 + (Wire.certificate m).length) ≤ r.transcript.buf.length) :
    Accepts c cr r (Wire.header .certificate ++ Wire.certificate m) (! Requester.bothHave caps ReqFlags.chalCap RspFlags.chalCap)
      (if Requester.bothHave caps ReqFlags.chalCap RspFlags.chalCap then .challenge ⟨v, caps, a, m.slot, m.certChain, m.portionLength, none⟩ else .newSession)
      (r.transcript.get ++ (Wire.header .certificate ++ Wire.certificate m)) := by
  have hl : 2 ≤ (Wire.certificate m).length := by simp [Wire.certificate, zeros]
  obtain ⟨t, e, g, w, cp⟩ := Requester.extend_run (r := { r with state := none }) (bs := Wire.header .certificate ++ Wire.certificate m)
    (by exact hw) (by rw [List.length_append, header_length]; exact ht)
  have key := accepts_of (c := c) (cr := cr) hs (rsp := Wire.header .certificate ++ Wire.certificate m) (r1 := { r with transcript := t, state := none })
    (st' := if Requester.bothHave caps ReqFlags.chalCap RspFlags.chalCap then .challenge ⟨v, caps, a, m.slot, m.certChain, m.portionLength, none⟩ else .newSession) (by
      unfold Requester.handle
      simp only
      rw [lift_run (expect_ok (t := .certificate) (by rw [List.length_append, header_length]; omega) (List.take_left' (header_length _))), lift_run (split_body _ _),
        lift_run (x := Certificate.parseBody _ _) (a := m) (Certificate.reads hm).parse_nil, M.run_bind_ok e]
      rfl) ⟨w, cp, rfl⟩ g
  have hd : (! Requester.bothHave caps ReqFlags.chalCap RspFlags.chalCap) = decide ((if Requester.bothHave caps ReqFlags.chalCap RspFlags.chalCap then
      ReqState.challenge ⟨v, caps, a, m.slot, m.certChain, m.portionLength, none⟩ else .newSession) = .newSession) := by
    cases Requester.bothHave caps ReqFlags.chalCap RspFlags.chalCap <;> simp
  rw [hd]
  exact key

/-! ### The last response -/

theorem digestSize_sha256 (hd : 32 ≤ c.maxDigestSize) : BaseHashAlgo.getDigestSize c 1 = .ok 32 := getDigestSize_ok.mpr ⟨0, rfl, rfl, hd⟩
theorem sigSize_p256 (hs : 64 ≤ c.maxSignatureSize) : BaseAsymAlgo.getSignatureSize c 16 = .ok 64 := getSignatureSize_ok.mpr ⟨4, rfl, rfl, hs⟩

theorem verify_run (hp : c.provider = true) {s : ReqChallenge} {ch : CertificateChain} {m2 sig root : Bytes} (hz : s.certChainSize.toNat ≤ s.certChain.length)
    (hc : s.certChain.take s.certChainSize.toNat = Wire.chain ch) (hw : ChainWF c 32 ch) (ha : s.algorithms.baseAsymAlgoSelected = 16) (hmax : c.maxSignatureSize = 64)
    (hleaf : cr.certOk ch.leafCert = true) (hanchor : cr.anchorOk root = true) (htrust : cr.chainOk ch.leafCert 16 root ch.intermediateCerts 1638316800 = true)
    (hl : sig.length = 64) (h1 : rawR sig ≠ 0) (h2 : rawS sig ≠ 0)
    (hsig : ∀ der, IsDerSignature der (rawR sig) (rawS sig) → cr.sigOk ch.leafCert 16 m2 der = true) :
    Requester.verifyCertChainAndSignature c cr s 32 m2 sig root = .ok () := by
  unfold Requester.verifyCertChainAndSignature
  rw [sliceTo_ok hz, Res.ok_bind, hc, CertificateChain.parse_chain hw, Res.ok_bind]
  simp only [Crypto.newEndEntityCert, hp, hleaf, or_true, Bool.true_eq_false, if_false, if_true, Res.ok_bind, Crypto.verifyChainOfTrust, hanchor, ha]
  have hal : Crypto.spdmToWebpki 16 = .ok 16 := rfl
  rw [hal, Res.ok_bind]
  simp only [Requester.unixTime, htrust, if_true, Res.ok_bind, Crypto.verifySignature, hp, Bool.true_eq_false, if_false, hal]
  obtain ⟨out, n, e1, e2, e3⟩ := c51_der_of_raw c (sig := sig) (by omega) (by omega) (by omega) (by omega) (by omega) h1 h2
  simp only [zeros] at e1
  rw [e1]
  simp only [Res.ok_bind]
  rw [sliceTo_ok e2, Res.ok_bind]
  simp [hsig _ e3]

theorem auth_wire (c : Cfg) {mask : UInt8} {mu : Bool} {d n sig : Bytes} :
    authMsg 0 mask mu d n 32 ++ sig = Wire.header .challengeAuth ++ Wire.challengeAuth ⟨0, mask, false, d, n, zeros 32, OpaqueData.dflt c, sig⟩ := by
  have hb : authByte 0 mu = 0 := by cases mu <;> rfl
  have hlen : (Wire.opaqueData (OpaqueData.dflt c)).length = 4 := by rw [dflt_opaque_wire]; simp [zeros]
  simp only [authMsg, Wire.challengeAuth, hb, hlen]
  rw [dflt_opaque_wire]
  simp

theorem accept_challenge (hp : c.provider = true) {s : ReqChallenge} {ch : CertificateChain} {mask : UInt8} {mu : Bool} {n sig : Bytes} (h8 : 0 < c.numSlots ∧ c.numSlots ≤ 8)
    (hd : 32 ≤ c.maxDigestSize) (hmax : c.maxSignatureSize = 64) (hn : n.length = c.nonceSize)
    (hslot : s.certSlot = 0) (hh : s.algorithms.baseHashAlgoSelected = 1) (ha : s.algorithms.baseAsymAlgoSelected = 16)
    (hz : s.certChainSize.toNat ≤ s.certChain.length) (hc : s.certChain.take s.certChainSize.toNat = Wire.chain ch) (hwf : ChainWF c 32 ch)
    (hmask : mask.toNat.testBit 0 = true) (hhash : ∀ m, (cr.hash 1 m).length = 32)
    (hleaf : cr.certOk ch.leafCert = true) (hanchor : cr.anchorOk r.rootCert = true) (htrust : cr.chainOk ch.leafCert 16 r.rootCert ch.intermediateCerts 1638316800 = true)
    (hl : sig.length = 64) (h1 : rawR sig ≠ 0) (h2 : rawS sig ≠ 0)
    (hsig : ∀ der, IsDerSignature der (rawR sig) (rawS sig) →
      cr.sigOk ch.leafCert 16 (cr.hash 1 (r.transcript.get ++ authMsg 0 mask mu (cr.hash 1 (Wire.chain ch)) n 32)) der = true)
    (hw : r.transcript.WF) (hs : r.state = some (.challenge s)) (ht : r.transcript.get.length + (74 + c.nonceSize) ≤ r.transcript.buf.length) :
    Accepts c cr r (authMsg 0 mask mu (cr.hash 1 (Wire.chain ch)) n 32 ++ sig) true .newSession
      (r.transcript.get ++ authMsg 0 mask mu (cr.hash 1 (Wire.chain ch)) n 32) := by
  have hal : (authMsg 0 mask mu (cr.hash 1 (Wire.chain ch)) n 32).length = 74 + c.nonceSize := by rw [authMsg_length, hhash, hn]; omega
  have hring : RingHash 1 := .inl rfl
  obtain ⟨t, e, g, w, cp⟩ := Requester.extend_run (r := { r with state := none }) (bs := authMsg 0 mask mu (cr.hash 1 (Wire.chain ch)) n 32)
    (by exact hw) (by rw [hal]; exact ht)
  have hnew : (ReqState.newSession = ReqState.newSession) = True := by simp
  have key := accepts_of (c := c) (cr := cr) hs (rsp := authMsg 0 mask mu (cr.hash 1 (Wire.chain ch)) n 32 ++ sig) (r1 := { r with transcript := t, state := none })
    (st' := .newSession) (by
      have htk : (authMsg 0 mask mu (cr.hash 1 (Wire.chain ch)) n 32 ++ sig).take 2 = Wire.header .challengeAuth := by
        rw [auth_wire c]; exact List.take_left' (header_length _)
      have hlen : (authMsg 0 mask mu (cr.hash 1 (Wire.chain ch)) n 32 ++ sig).length = 138 + c.nonceSize := by rw [List.length_append, hal, hl]; omega
      have hmw : ChallengeAuthWF c 32 64 ⟨0, mask, false, cr.hash 1 (Wire.chain ch), n, zeros 32, OpaqueData.dflt c, sig⟩ :=
        ⟨h8.2, h8.1, hhash _, hn, by simp [zeros], dflt_opaque c, by simp only; rw [dflt_opaque_wire]; simp [zeros], hl⟩
      have hsf : sliceFrom (authMsg 0 mask mu (cr.hash 1 (Wire.chain ch)) n 32 ++ sig) headerSize =
          .ok (Wire.challengeAuth ⟨0, mask, false, cr.hash 1 (Wire.chain ch), n, zeros 32, OpaqueData.dflt c, sig⟩) := by rw [auth_wire c]; exact split_body _ _
      unfold Requester.handle
      simp only
      have hch : Requester.challengeHandle c cr s (authMsg 0 mask mu (cr.hash 1 (Wire.chain ch)) n 32 ++ sig) { r with state := none } =
          (.ok (), { r with transcript := t, state := none }) := by
        unfold Requester.challengeHandle
        rw [lift_run (expect_ok (by omega) htk), hh, ha, lift_run (digestSize_sha256 hd), lift_run (sigSize_p256 (by omega)), lift_run hsf,
          lift_run (x := ChallengeAuth.parseBody _ _ _ _) (ChallengeAuth.reads hmw).parse_nil]
        have hck : Requester.checkSlot s.certSlot ⟨0, mask, false, cr.hash 1 (Wire.chain ch), n, zeros 32, OpaqueData.dflt c, sig⟩ = .ok () := by
          unfold Requester.checkSlot
          rw [hslot, if_neg (by simp), if_pos (by simp)]
          have hb : Requester.slotBit 0 = .ok 1 := rfl
          simp only [hb, Res.ok_bind]
          rw [if_neg]
          have : ∀ x : UInt8, x.toNat.testBit 0 = true → ¬ (x &&& 1 = 0) := forall_u8 (by decide +kernel)
          exact this _ hmask
        rw [lift_run hck, lift_run (sliceTo_ok hz), hc, lift_run (digest_run hp hring (by rw [hhash]; exact hd))]
        rw [if_neg (by simp)]
        rw [lift_run (x := Responder.subChecked _ _) (a := 74 + c.nonceSize) (by unfold Responder.subChecked; rw [hlen, if_pos (by omega)]; congr 1; omega)]
        rw [lift_run (sliceTo_ok (by omega))]
        rw [List.take_left' hal, M.run_bind_ok e]
        rw [M.run_bind_ok (m := M.get) rfl]
        simp only
        rw [lift_run (digest_run hp hring (by rw [hhash]; exact hd))]
        rw [M.run_lift, verify_run hp hz hc hwf ha hmax hleaf hanchor htrust hl h1 h2 (by rw [g]; exact hsig)]
      rw [M.run_bind_ok hch]
      rfl) ⟨w, cp, rfl⟩ g
  simpa using key

/-! ### The responder's side -/

/-- `handle_msg` that answers `req` with `rsp`. -/
def Replies (c : Cfg) (cr : Crypto) (env : Env) (slots : List (Option FilledSlot)) (req buf : Bytes) (r : Responder) (rsp : Bytes) (st : RspState) (T : Bytes) : Prop :=
  ∃ r1, Responder.handleMsg c cr env req buf r = (.ok ⟨rsp, none⟩, r1) ∧ RspKept c slots r1 ∧ r1.state = some st ∧ r1.transcript.get = T

variable {slots : List (Option FilledSlot)} {q : Responder}

theorem reply_version {st : RspState} (hl : slots.length = c.numSlots) (h8 : c.numSlots ≤ 8) (hk : RspKept c slots q) (hs : q.state = some st) (hlive : st ≠ .error)
    (hb : 10 ≤ buf.length) (ht : 14 ≤ c.transcriptSize) :
    Replies c cr env slots (Wire.header .getVersion ++ Wire.getVersion) buf q (Wire.header .version ++ Wire.version ⟨2, supportedVersions⟩) .capabilities
      ((Wire.header .getVersion ++ Wire.getVersion) ++ (Wire.header .version ++ Wire.version ⟨2, supportedVersions⟩)) := by
  obtain ⟨n, h', hv⟩ := versionHandle_run (body := Wire.getVersion) (GetVersion.reads).parse_nil (by decide) (h := ⟨buf, q.transcript, q.signed⟩) hb
    (by simp only [hk.cap, Wire.getVersion, zeros, List.length_replicate]; omega)
  have hd : Responder.dispatch c cr env slots st (Wire.header .getVersion ++ Wire.getVersion) ⟨buf, q.transcript, q.signed⟩ = (.ok (n, .capabilities), h') := by
    have hp : MsgType.getVersion.parseHeader (Wire.header .getVersion ++ Wire.getVersion) = .ok true := by decide
    cases st with
    | error => exact absurd rfl hlive
    | version => exact hv
    | capabilities => simp only [Responder.dispatch, Responder.capabilitiesHandle, Responder.resetOnGetVersion, hp]; exact hv
    | algorithms caps => simp only [Responder.dispatch, Responder.algorithmsHandle, Responder.resetOnGetVersion, hp]; exact hv
    | idAuth ng => simp only [Responder.dispatch, Responder.idAuthHandle, Responder.resetOnGetVersion, hp]; exact hv
    | challenge ng => simp only [Responder.dispatch, Responder.challengeHandle, Responder.resetOnGetVersion, hp]; exact hv
  obtain ⟨out, r', sg, e, k, s, step⟩ := call_accepts hl h8 hk hs hd
  generalize hT : r'.transcript.get = T' at step
  generalize hst : RspState.capabilities = st' at step
  cases step with
  | getVersion _ _ => exact ⟨r', e, k, s, hT⟩
  | getCapabilities => cases hst
  | negotiate => cases hst
  | getDigests => cases hst
  | getCertificate => cases hst
  | challenge => cases hst

theorem reply_capabilities (hl : slots.length = c.numSlots) (h8 : c.numSlots ≤ 8) (hk : RspKept c slots q) (hs : q.state = some .capabilities)
    {m : GetCapabilities} (hm : OnlyBits reqFlagBit m.flags.toNat) {a : Capabilities} (hr : Responder.configToCapabilities c = .ok a)
    (hb : 12 ≤ buf.length) (ht : q.transcript.get.length + 24 ≤ c.transcriptSize) :
    Replies c cr env slots (Wire.header .getCapabilities ++ Wire.getCapabilities m) buf q (Wire.header .capabilities ++ Wire.capabilities a)
      (.algorithms ⟨m.ctExponent, m.flags, a.ctExponent, a.flags⟩)
      (q.transcript.get ++ (Wire.header .getCapabilities ++ Wire.getCapabilities m) ++ (Wire.header .capabilities ++ Wire.capabilities a)) := by
  obtain ⟨n, h', hv⟩ := capabilities_run (c := c) hm (tail := []) hr (h := ⟨buf, q.transcript, q.signed⟩) hk.wf hb (by simp only [hk.cap, List.length_nil]; omega)
  rw [List.append_nil] at hv
  obtain ⟨out, r', sg, e, k, s, step⟩ := call_accepts (cr := cr) (env := env) hl h8 hk hs hv
  generalize hT : r'.transcript.get = T' at step
  generalize hst : RspState.algorithms _ = st' at step
  cases step with
  | getVersion _ hreq => cases hst
  | @getCapabilities _ _ tail m' a' hreq hm' hr' =>
    rw [hr] at hr'
    simp only [Res.ok.injEq] at hr'
    subst hr'
    rw [← hst]
    exact ⟨r', e, k, s, hT⟩

theorem reply_algorithms (hl : slots.length = c.numSlots) (h8 : c.numSlots ≤ 8) (hk : RspKept c slots q) {caps : Caps} (hs : q.state = some (.algorithms caps))
    {m : NegotiateAlgorithms} (hm : NegotiateWF m) (h0 : NonEmptyOffer m) (hn : m.numAlgorithmRequests = 4) {a : Algorithms} (ha : Responder.chooseAlgorithms m = .ok a)
    (hlen : (Wire.negotiateAlgorithms m).length = 46)
    (hb : 52 ≤ buf.length) (ht : q.transcript.get.length + 100 ≤ c.transcriptSize) :
    Replies c cr env slots (Wire.header .negotiateAlgorithms ++ Wire.negotiateAlgorithms m) buf q (Wire.header .algorithms ++ Wire.algorithms a)
      (.idAuth ⟨caps, a⟩)
      (q.transcript.get ++ (Wire.header .negotiateAlgorithms ++ Wire.negotiateAlgorithms m) ++ (Wire.header .algorithms ++ Wire.algorithms a)) := by
  have hn4 : m.numAlgorithmRequests.toNat = 4 := by rw [hn]; rfl
  have hdrop : (Wire.header .negotiateAlgorithms ++ Wire.negotiateAlgorithms m).drop 2 = Wire.negotiateAlgorithms m := List.drop_left' (header_length _)
  obtain ⟨n, h', a', ha', hv⟩ := algorithms_run (caps := caps) hm h0 (req := Wire.header .negotiateAlgorithms ++ Wire.negotiateAlgorithms m)
    (by rw [List.length_append, header_length, hlen]; omega) (List.take_left' (header_length _)) (by rw [hdrop]; exact (NegotiateAlgorithms.reads hm).parse_nil)
    (h := ⟨buf, q.transcript, q.signed⟩) hk.wf (by simp only; omega) (by simp only [hk.cap, List.length_append, header_length, hlen]; omega)
  rw [ha] at ha'
  simp only [Res.ok.injEq] at ha'
  subst ha'
  obtain ⟨out, r', sg, e, k, s, step⟩ := call_accepts (c := c) (cr := cr) (env := env) hl h8 hk hs hv
  generalize hT : r'.transcript.get = T' at step
  generalize hst : RspState.idAuth _ = st' at step
  cases step with
  | getVersion _ hreq => cases hst
  | negotiate hreq hp hm' ha' =>
    simp only [RspState.idAuth.injEq, Negotiated.mk.injEq, true_and] at hst
    subst hst
    exact ⟨r', e, k, s, hT⟩

theorem reply_digests (hp : c.provider = true) (hl : slots.length = c.numSlots) (h8 : c.numSlots ≤ 8) (hk : RspKept c slots q) {ng : Negotiated} (hs : q.state = some (.idAuth ng))
    (h1 : ng.algorithms.baseHashAlgoSelected = 1) (hd : 32 ≤ c.maxDigestSize) (hhash : ∀ m, (cr.hash 1 m).length = 32)
    (hfit : ∀ s, some s ∈ slots → (Wire.chain s.certChain).length ≤ c.maxCertChainSize ∧ (Wire.chain s.certChain).length ≤ 65535)
    (hb : 4 + (digestBytes cr 1 (chainsOf slots)).length ≤ buf.length)
    (ht : q.transcript.get.length + 4 + (4 + (digestBytes cr 1 (chainsOf slots)).length) ≤ c.transcriptSize) :
    ∃ d, DigestsWF c 32 d ∧ (Wire.digests d).length = 2 + (digestBytes cr 1 (chainsOf slots)).length ∧
      Replies c cr env slots (Wire.header .getDigests ++ Wire.getDigests) buf q (Wire.header .digests ++ Wire.digests d) (.idAuth ng)
      (q.transcript.get ++ (Wire.header .getDigests ++ Wire.getDigests) ++ (Wire.header .digests ++ Wire.digests d)) := by
  have hq : (Wire.header .getDigests ++ Wire.getDigests).length = 4 := by decide
  obtain ⟨n, h', hv⟩ := getDigests_run (c := c) (cr := cr) (slots := slots) (ng := ng) hl h8 (req := Wire.header .getDigests ++ Wire.getDigests) (by decide) (by decide)
    (by
      intro ch hch
      simp only [chainsOf, List.mem_map] at hch
      obtain ⟨o, ho, hoc⟩ := hch
      cases o with
      | none => simp at hoc
      | some s =>
        simp only [Option.map_some, Option.some.injEq] at hoc
        subst hoc
        rw [h1]
        exact ⟨hp, .inl rfl, (hfit s ho).1, (hfit s ho).2, by rw [hhash]; exact hd⟩)
    (h := ⟨buf, q.transcript, q.signed⟩) hk.wf (by rw [h1]; exact hb) (by rw [h1]; simp only [hk.cap, hq]; omega)
  obtain ⟨out, r', sg, e, k, s, step⟩ := call_accepts (c := c) (cr := cr) (env := env) hl h8 hk hs hv
  generalize hT : r'.transcript.get = T' at step
  generalize hst : RspState.idAuth _ = st' at step
  generalize hreq0 : Wire.header .getDigests ++ Wire.getDigests = req at step
  cases step with
  | getVersion _ hreq => cases hst
  | @getDigests n' _ _ d h3 hreq hd' =>
    simp only [RspState.idAuth.injEq] at hst
    subst hst
    rw [h1] at hd'
    refine ⟨d, ⟨h8, hd'.len, ?_, ?_⟩, ?_, r', by rw [← hreq0]; exact e, k, s, ?_⟩
    · intro i hi
      rw [hd'.mask i hi, hd'.hash i]
      constructor
      · rintro ⟨ch, hch⟩; rw [hch]; exact ⟨_, rfl⟩
      · rintro ⟨x, hx⟩
        cases hx2 : (chainsOf slots)[i]? with
        | none => rw [hx2] at hx; simp at hx
        | some o =>
          cases o with
          | none => rw [hx2] at hx; simp at hx
          | some ch => exact ⟨ch, rfl⟩
    · intro x hx
      obtain ⟨i, hi⟩ := List.mem_iff_getElem?.mp hx
      rw [hd'.hash i] at hi
      cases hx2 : (chainsOf slots)[i]? with
      | none => rw [hx2] at hi; simp at hi
      | some o =>
        cases o with
        | none => rw [hx2] at hi; simp at hi
        | some ch => rw [hx2] at hi; simp only [Option.map_some, Option.some.injEq] at hi; rw [← hi]; exact hhash _
    · rw [digests_layout hd', List.length_append]; rfl
    · exact hT
  | challenge => cases hst

theorem reply_certificate (hl : slots.length = c.numSlots) (h8 : c.numSlots ≤ 8) (hk : RspKept c slots q) {ng : Negotiated} (hs : q.state = some (.idAuth ng))
    {slot : FilledSlot} (h0 : slots[0]? = some (some slot)) {len : UInt16}
    (hfit : (Wire.chain slot.certChain).length ≤ c.maxCertChainSize ∧ (Wire.chain slot.certChain).length ≤ 65535)
    (hb : 8 + (Wire.chain slot.certChain).length ≤ buf.length)
    (ht : q.transcript.get.length + 8 + (8 + (Wire.chain slot.certChain).length) ≤ c.transcriptSize) :
    Replies c cr env slots (Wire.header .getCertificate ++ Wire.getCertificate ⟨0, 0, len⟩) buf q
      (Wire.header .certificate ++ Wire.certificate ⟨0, UInt16.ofNat (Wire.chain slot.certChain).length, 0, Wire.chain slot.certChain⟩) (.challenge ng)
      (q.transcript.get ++ (Wire.header .getCertificate ++ Wire.getCertificate ⟨0, 0, len⟩) ++
        (Wire.header .certificate ++ Wire.certificate ⟨0, UInt16.ofNat (Wire.chain slot.certChain).length, 0, Wire.chain slot.certChain⟩)) := by
  have hc0 : (chainsOf slots)[0]? = some (some slot.certChain) := by simp [chainsOf, h0]
  have hserved : servedChain (chainsOf slots) (0 : UInt8).toNat = Wire.chain slot.certChain := by
    unfold servedChain; rw [show (0 : UInt8).toNat = 0 from rfl, hc0]
  have hlt : 0 < c.numSlots := by have := (List.getElem?_eq_some_iff.mp h0).1; omega
  obtain ⟨n, h', hv⟩ := getCertificate_run (c := c) (cr := cr) hl (ng := ng) (m := ⟨0, 0, len⟩) (tail := []) (by exact hlt)
    (by simp only [hserved]; exact hfit.1) (by simp only [hserved]; exact hfit.2) (h := ⟨buf, q.transcript, q.signed⟩) hk.wf
    (by simp only [hserved]; exact hb) (by simp only [hserved, hk.cap, List.length_nil]; omega)
  rw [List.append_nil] at hv
  obtain ⟨out, r', sg, e, k, s, step⟩ := call_accepts (c := c) (cr := cr) (env := env) hl h8 hk hs hv
  generalize hT : r'.transcript.get = T' at step
  generalize hst : RspState.challenge _ = st' at step
  generalize hst0 : RspState.idAuth ng = st0 at step
  generalize hreq0 : Wire.header .getCertificate ++ Wire.getCertificate ⟨0, 0, len⟩ = req at step
  cases step with
  | getVersion _ hreq => cases hst
  | getCapabilities => cases hst
  | negotiate => cases hst
  | getDigests => cases hst
  | @getCertificate n' _ _ tail chain m' hreq hs' hc' =>
    rw [← hreq0, List.append_assoc] at hreq
    have hslot : m'.slot = 0 := by
      have := congrArg (fun b : Bytes => b[2]?) hreq
      simpa [Wire.header, Wire.getCertificate] using this.symm
    rw [hslot] at hc' e hT
    rw [show (0 : UInt8).toNat = 0 from rfl, hc0] at hc'
    rcases hc' with ⟨h, _⟩ | ⟨ch, h, rfl, _⟩
    · simp at h
    · simp only [Option.some.injEq] at h
      subst h
      rw [← hst]
      exact ⟨r', by rw [← hreq0]; exact e, k, s, hT⟩
  | challenge => cases hst0

theorem reply_challenge (hp : c.provider = true) (hl : slots.length = c.numSlots) (h8 : c.numSlots ≤ 8) (hk : RspKept c slots q) {ng : Negotiated} (hs : q.state = some (.challenge ng))
    {slot : FilledSlot} (h0 : slots[0]? = some (some slot)) {nonce : Bytes} (hn : nonce.length = c.nonceSize) (hn' : env.nonce.length = c.nonceSize)
    (h1 : ng.algorithms.baseHashAlgoSelected = 1) (h2 : ng.algorithms.baseAsymAlgoSelected = 16) (hd : 32 ≤ c.maxDigestSize) (hmax : c.maxSignatureSize = 64)
    (hhash : ∀ m, (cr.hash 1 m).length = 32)
    (hfit : (Wire.chain slot.certChain).length ≤ c.maxCertChainSize ∧ (Wire.chain slot.certChain).length ≤ 65535)
    (hsign : ∀ msg, ∃ sig, slot.sign env.seed msg = some sig ∧ sig.length = 64)
    (hb : 138 + c.nonceSize ≤ buf.length)
    (ht : q.transcript.get.length + (4 + c.nonceSize) + (74 + c.nonceSize) ≤ c.transcriptSize) :
    ∃ mask mu sig, mask.toNat.testBit 0 = true ∧
      slot.sign env.seed (cr.hash 1 (q.transcript.get ++ (Wire.header .challenge ++ Wire.challenge ⟨0, .none, nonce⟩) ++
        authMsg 0 mask mu (cr.hash 1 (Wire.chain slot.certChain)) env.nonce 32)) = some sig ∧
      Replies c cr env slots (Wire.header .challenge ++ Wire.challenge ⟨0, .none, nonce⟩) buf q
        (authMsg 0 mask mu (cr.hash 1 (Wire.chain slot.certChain)) env.nonce 32 ++ sig) (.challenge ng)
        (q.transcript.get ++ (Wire.header .challenge ++ Wire.challenge ⟨0, .none, nonce⟩) ++
          authMsg 0 mask mu (cr.hash 1 (Wire.chain slot.certChain)) env.nonce 32) := by
  have hds := digestSize_sha256 hd
  have hss := sigSize_p256 (c := c) (by omega)
  obtain ⟨n, h', hv⟩ := challenge_run (c := c) (cr := cr) (env := env) hl h8 (ng := ng) (m := ⟨0, .none, nonce⟩) (tail := []) hn (by rw [h1]; exact hds) (by rw [h2]; exact hss)
    (slot := slot) (by exact h0) (by rw [h1]; exact ⟨hp, .inl rfl, hfit.1, hfit.2, by rw [hhash]; exact hd⟩) (by rw [h1]; intro m; rw [hhash]; exact hd) hsign
    (h := ⟨buf, q.transcript, q.signed⟩) hk.wf (by rw [h1, hhash, hn']; simp only; omega) (by rw [h1, hhash, hn']; simp only [hk.cap, List.length_nil]; omega)
  rw [List.append_nil] at hv
  obtain ⟨out, r', sg, e, k, s, step⟩ := call_accepts (c := c) (cr := cr) (env := env) hl h8 hk hs hv
  generalize hT : r'.transcript.get = T' at step
  generalize hst : RspState.challenge ng = st' at step
  generalize hreq0 : Wire.header .challenge ++ Wire.challenge ⟨0, .none, nonce⟩ = req at step
  cases step with
  | getVersion _ hreq => cases hst
  | getDigests => cases hst
  | @challenge n' _ _ tail sig auth m' slot' mask ds ss hreq hnn hds' hss' hslot' hlt hch hmask ring hauth hsig hsl =>
    simp only [RspState.challenge.injEq] at hst
    subst hst
    rw [← hreq0, List.append_assoc] at hreq
    have hslot : m'.slot = 0 := by
      have := congrArg (fun b : Bytes => b[2]?) hreq
      simpa [Wire.header, Wire.challenge] using this.symm
    rw [hslot, show (0 : UInt8).toNat = 0 from rfl, h0] at hslot'
    simp only [Option.some.injEq] at hslot'
    subst hslot'
    rw [h1, hds] at hds'
    simp only [Res.ok.injEq] at hds'
    subst hds'
    rw [h1, hslot] at hauth
    rw [h1, hauth] at hsig
    rw [hauth] at e hT
    refine ⟨mask, _, sig, (hmask 0 (by omega)).mpr ⟨slot, h0⟩, hsig, r', by rw [← hreq0]; exact e, k, s, hT⟩

end Spdm
