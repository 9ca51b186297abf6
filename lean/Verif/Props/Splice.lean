import Verif.Spec.Splice
import Verif.Props.Downgrade
/-! C125: what a man in the middle can make both sides believe. -/
namespace Spdm
open Spec
namespace Splice

variable {c c' : Cfg} {cr cr' : Crypto} {root : Bytes} {slots : List (Option FilledSlot)} {slot : FilledSlot} {q : Responder} {es : List RspEvent} {i i' : SpdmConfig} {n : Nat}

theorem version_reply : versionReply = Wire.header .version ++ Wire.version ⟨2, supportedVersions⟩ := by decide +kernel

/-- GET_VERSION with something behind it. -/
theorem reply_version_tail {env : Env} {buf tail : Bytes} {st : RspState} (hl : slots.length = c.numSlots) (h8 : c.numSlots ≤ 8) (hk : RspKept c slots q) (hs : q.state = some st) (hlive : st ≠ .error)
    (hb : 10 ≤ buf.length) (ht : 14 + tail.length ≤ c.transcriptSize) :
    Replies c cr env slots (Wire.header .getVersion ++ Wire.getVersion ++ tail) buf q (Wire.header .version ++ Wire.version ⟨2, supportedVersions⟩) .capabilities
      ((Wire.header .getVersion ++ Wire.getVersion ++ tail) ++ (Wire.header .version ++ Wire.version ⟨2, supportedVersions⟩)) := by
  obtain ⟨n, h', hv⟩ := versionHandle_run (body := Wire.getVersion ++ tail) ((GetVersion.reads).parse tail) (by simp [Wire.getVersion, zeros]) (h := ⟨buf, q.transcript, q.signed⟩) hb
    (by simp only [hk.cap, Wire.getVersion, zeros, List.length_append, List.length_replicate]; omega)
  rw [← List.append_assoc] at hv
  have hd : Responder.dispatch c cr env slots st (Wire.header .getVersion ++ Wire.getVersion ++ tail) ⟨buf, q.transcript, q.signed⟩ = (.ok (n, .capabilities), h') := by
    have hp : MsgType.getVersion.parseHeader (Wire.header .getVersion ++ Wire.getVersion ++ tail) = .ok true := by
      rw [List.append_assoc, header_append (by simp [Wire.getVersion, zeros])]
      simp
    cases st with
    | error => exact absurd rfl hlive
    | version => exact hv
    | capabilities => simp only [Responder.dispatch, Responder.capabilitiesHandle, Responder.resetOnGetVersion, hp]; exact hv
    | algorithms caps => simp only [Responder.dispatch, Responder.algorithmsHandle, Responder.resetOnGetVersion, hp]; exact hv
    | idAuth n => simp only [Responder.dispatch, Responder.idAuthHandle, Responder.resetOnGetVersion, hp]; exact hv
    | challenge n => simp only [Responder.dispatch, Responder.challengeHandle, Responder.resetOnGetVersion, hp]; exact hv
  obtain ⟨out, r', sg, e, k, s, step⟩ := call_accepts (cr := cr) (env := env) hl h8 hk hs hd
  generalize hT : r'.transcript.get = T' at step
  generalize hst : RspState.capabilities = st' at step
  cases step with
  | getVersion _ hreq => exact ⟨r', e, k, s, hT⟩
  | _ => cases hst

/-- ALGORITHMS with something behind it. -/
theorem accept_algorithms_tail {r : Requester} {tail : Bytes} {v : VersionEntry} {caps : Caps} {m : NegotiateAlgorithms} {a : Algorithms} (ha : AlgorithmsWF a)
    (hv : Requester.ensureValidAlgorithmsSelected (some m) a = .ok ()) (hl : (Wire.algorithms a).length = 50)
    (hw : r.transcript.WF) (hs : r.state = some (.algorithms v caps (some m))) (ht : r.transcript.get.length + (52 + tail.length) ≤ r.transcript.buf.length) :
    Accepts c cr r (Wire.header .algorithms ++ Wire.algorithms a ++ tail) (! Requester.bothHave caps ReqFlags.certCap RspFlags.certCap)
      (if Requester.bothHave caps ReqFlags.certCap RspFlags.certCap then .idAuth v caps a none else .newSession)
      (r.transcript.get ++ (Wire.header .algorithms ++ Wire.algorithms a ++ tail)) := by
  have hl2 : (Wire.header .algorithms ++ Wire.algorithms a ++ tail).length = 52 + tail.length := by rw [List.length_append, List.length_append, header_length, hl]
  obtain ⟨t, e, g, w, cp⟩ := Requester.extend_run (r := { r with state := none }) (bs := Wire.header .algorithms ++ Wire.algorithms a ++ tail)
    (by exact hw) (by rw [hl2]; exact ht)
  have key := accepts_of (c := c) (cr := cr) hs (rsp := Wire.header .algorithms ++ Wire.algorithms a ++ tail) (r1 := { r with transcript := t, state := none })
    (st' := if Requester.bothHave caps ReqFlags.certCap RspFlags.certCap then .idAuth v caps a none else .newSession) (by
      unfold Requester.handle
      simp only
      rw [List.append_assoc] at e hl2 ⊢
      rw [lift_run (expect_ok (t := .algorithms) (by rw [hl2]; omega) (List.take_left' (header_length _))), lift_run (split_body _ _),
        lift_run (x := Algorithms.parseBody _) (a := a) ((Algorithms.reads ha).parse tail), lift_run hv, M.run_bind_ok e]
      rfl) ⟨w, cp, rfl⟩ g
  have hd : (! Requester.bothHave caps ReqFlags.certCap RspFlags.certCap) = decide ((if Requester.bothHave caps ReqFlags.certCap RspFlags.certCap then ReqState.idAuth v caps a none else .newSession) = .newSession) := by
    cases Requester.bothHave caps ReqFlags.certCap RspFlags.certCap <;> simp
  rw [hd]
  exact key

theorem flat_length (l : List AlgorithmRequest) : (l.flatMap Wire.alg).length = 4 * l.length := by
  induction l with
  | nil => rfl
  | cons x xs ih => rw [List.flatMap_cons, List.length_append, ih]; simp [Wire.alg, le_length]; omega

theorem algorithms_length {a : Algorithms} (hl : a.algorithmResponses.length = 4) (h4 : a.numAlgorithmResponses = 4) : (Wire.algorithms a).length = 50 := by
  simp only [Wire.algorithms, List.length_append, flat_length, List.length_take, le_length, zeros, List.length_replicate, List.length_cons, List.length_nil, h4, hl]
  decide

theorem negotiate_length {m : NegotiateAlgorithms} (hl : m.algorithmRequests.length = 4) (h4 : m.numAlgorithmRequests = 4) : (Wire.negotiateAlgorithms m).length = 46 := by
  simp only [Wire.negotiateAlgorithms, List.length_append, flat_length, List.length_take, le_length, zeros, List.length_replicate, List.length_cons, List.length_nil, h4, hl]
  decide

/-- The three exchanges after the negotiation, whatever was negotiated apart from SHA-256 and ECDSA P-256. -/
theorem authenticate {N : Nat} (hon : HonestPair c c' cr cr' root slots slot) (hp : c.provider = true) (hp' : c'.provider = true) (h8 : 0 < c.numSlots ∧ c.numSlots ≤ 8) (h8' : c'.numSlots ≤ 8)
    (hmax : c.maxSignatureSize = 64) (hmax' : c'.maxSignatureSize = 64) (hn : c.nonceSize = n) (hn' : c'.nonceSize = n) {v : VersionEntry} {caps caps' : Caps} {a a' : Algorithms}
    (hchal : Requester.bothHave caps ReqFlags.chalCap RspFlags.chalCap = true) (hh : a.baseHashAlgoSelected = 1) (hs : a.baseAsymAlgoSelected = 16)
    (hh' : a'.baseHashAlgoSelected = 1) (hs' : a'.baseAsymAlgoSelected = 16) {x y z : Round} (hz : z.reqEnv.nonce.length = n ∧ z.rspEnv.nonce.length = n)
    (bx : 4 ≤ x.reqBuf.length ∧ 4 + (digestsOf (cr.hash 1) slots).length ≤ x.rspBuf.length) (by' : 8 ≤ y.reqBuf.length ∧ 8 + (Wire.chain slot.certChain).length ≤ y.rspBuf.length)
    (bz : 4 + n ≤ z.reqBuf.length ∧ 138 + n ≤ z.rspBuf.length) (ht : N + 102 + (digestsOf (cr.hash 1) slots).length + (Wire.chain slot.certChain).length + 2 * n ≤ c.transcriptSize)
    (ht' : N + 102 + (digestsOf (cr.hash 1) slots).length + (Wire.chain slot.certChain).length + 2 * n ≤ c'.transcriptSize)
    {e : Requester × Responder} (he : PairEnds c c' root slots (.idAuth v caps a none) (.idAuth ⟨caps', a'⟩) N e) :
    ∃ e', talk c c' cr cr' [x, y, z] e = some ([false, false, true], e') ∧ e'.1.transcript.get = e'.2.transcript.get := by
  generalize hD : (digestsOf (cr.hash 1) slots).length = D at *
  generalize hS : (Wire.chain slot.certChain).length = S at *
  have ld : (Wire.header .getDigests ++ Wire.getDigests).length = 4 := by decide
  have hdb : (digestBytes cr' 1 (chainsOf slots)).length = D := by rw [digestBytes_slots, same_hash hon, hD]
  have hfit0 := hon.fits slot (List.mem_of_getElem? hon.filled)
  have hrec := hon.received
  rw [hS] at hfit0 hrec
  have hp16 : (UInt16.ofNat (Wire.chain slot.certChain).length).toNat = (Wire.chain slot.certChain).length := ofNat_toNat16 (by rw [hS]; have := hfit0.2; omega)
  have lcert : (Wire.certificate ⟨0, UInt16.ofNat (Wire.chain slot.certChain).length, 0, Wire.chain slot.certChain⟩).length = 6 + S := by
    simp only [Wire.certificate, hp16, List.length_append, le_length, zeros, List.length_replicate, List.length_take, List.length_cons, List.length_nil]
    omega
  have lgc : (Wire.header .getCertificate ++ Wire.getCertificate ⟨0, 0, UInt16.ofNat c.maxCertChainSize⟩).length = 8 := by simp [Wire.getCertificate, zeros, le_length, header_length]
  have hpad : (Wire.chain slot.certChain ++ zeros (c.maxCertChainSize - (Wire.chain slot.certChain).length)).length = c.maxCertChainSize := by
    simp only [List.length_append, zeros, List.length_replicate]
    omega
  have hcw : CertificateWF c ⟨0, UInt16.ofNat (Wire.chain slot.certChain).length, 0, Wire.chain slot.certChain ++ zeros (c.maxCertChainSize - (Wire.chain slot.certChain).length)⟩ :=
    ⟨hpad, by simp only [hp16]; exact hon.received, by simp only [hp16]; exact List.drop_left' rfl⟩
  have hceq : Wire.certificate ⟨0, UInt16.ofNat (Wire.chain slot.certChain).length, 0, Wire.chain slot.certChain⟩ =
      Wire.certificate ⟨0, UInt16.ofNat (Wire.chain slot.certChain).length, 0, Wire.chain slot.certChain ++ zeros (c.maxCertChainSize - (Wire.chain slot.certChain).length)⟩ := by
    simp only [Wire.certificate, hp16]
    rw [List.take_left' rfl, List.take_of_length_le (by simp)]
  -- DIGESTS
  have hlen := he.len
  have hcp := he.cap
  have hlen' : e.2.transcript.get.length = N := by rw [← he.same]; exact hlen
  obtain ⟨d, hd1, hd2, hrep⟩ := reply_digests (c := c') (cr := cr') (env := x.rspEnv) (buf := x.rspBuf) hp' hon.number h8' he.kept he.state' hh' hon.digest'
    (fun m => by rw [hon.hash' m]; exact hon.hash m) hon.fits (by rw [hdb]; exact bx.2) (by rw [hdb, hlen']; omega)
  obtain ⟨d', hd'⟩ := Digests.parse_other (c := c) h8.2 hd1
  obtain ⟨e1, p1, he1⟩ := pair_exchange_run (cr := cr) (n := N + 8 + D) (b := false) (st1 := .idAuth v caps a (some d')) he.root he.cap
    (send_digests he.wf he.state bx.1 (by omega)) hrep
    (fun r1 hw hcp hrt hs hT => by
      have := accept_digests_any (c := c) (cr := cr) (a := a) (size := 32) (by rw [hh]; exact digestSize_sha256 hon.digest) (by rw [hd2]; omega) hd' hw hs
        (by rw [hT, List.length_append, hlen, hcp, ld, hd2]; omega)
      rw [hT, he.same] at this
      exact this) (by rw [List.length_append, List.length_append, hlen', ld, List.length_append, header_length, hd2]; omega)
  -- CERTIFICATE
  have hlen := he1.len
  have hcp := he1.cap
  have hlen' : e1.2.transcript.get.length = N + 8 + D := by rw [← he1.same]; exact hlen
  obtain ⟨e2, p2, he2⟩ := pair_exchange_run (x := y) (cr := cr) (cr' := cr') (n := N + 24 + D + S) (b := false)
    (st1 := .challenge ⟨v, caps, a, 0, Wire.chain slot.certChain ++ zeros (c.maxCertChainSize - (Wire.chain slot.certChain).length), UInt16.ofNat (Wire.chain slot.certChain).length, none⟩) he1.root he1.cap
    (send_certificate h8.1 he1.wf he1.state by'.1 (by omega))
    (reply_certificate hon.number h8' he1.kept he1.state' hon.filled (by rw [hS]; exact hfit0) (by omega) (by omega))
    (fun r1 hw hcp hrt hs hT => by
      have := accept_certificate (c := c) (cr := cr) hcw hw hs (by rw [hT, List.length_append, hlen, hcp, lgc, ← hceq, lcert]; omega)
      rw [hT, he1.same, ← hceq, hchal] at this
      exact this) (by rw [List.length_append, List.length_append, hlen', lgc, List.length_append, header_length, lcert]; omega)
  -- CHALLENGE
  have hlen := he2.len
  have hcp := he2.cap
  have hlen' : e2.2.transcript.get.length = N + 24 + D + S := by rw [← he2.same]; exact hlen
  have lch : (Wire.header .challenge ++ Wire.challenge ⟨0, .none, z.reqEnv.nonce⟩).length = 4 + n := by simp [Wire.challenge, hz.1, header_length]; omega
  obtain ⟨mask, mu, sig, m1, m2, m3⟩ := reply_challenge (c := c') (cr := cr') (env := z.rspEnv) (buf := z.rspBuf) hp' hon.number h8' he2.kept he2.state' hon.filled (nonce := z.reqEnv.nonce)
    (hz.1.trans hn'.symm) (hz.2.trans hn'.symm) hh' hs' hon.digest' hmax' (fun m => by rw [hon.hash' m]; exact hon.hash m) (by rw [hS]; exact hfit0)
    (fun msg => by obtain ⟨sig, g1, g2, _⟩ := hon.sign z.rspEnv.seed msg; exact ⟨sig, g1, g2⟩) (by omega) (by omega)
  rw [same_hash hon] at m2 m3
  obtain ⟨sig', g1, g2, g3, g4, g5⟩ := hon.sign z.rspEnv.seed (cr.hash 1 (e2.2.transcript.get ++ (Wire.header .challenge ++ Wire.challenge ⟨0, .none, z.reqEnv.nonce⟩) ++
      authMsg 0 mask mu (cr.hash 1 (Wire.chain slot.certChain)) z.rspEnv.nonce 32))
  rw [m2] at g1
  simp only [Option.some.injEq] at g1
  subst g1
  obtain ⟨e3, p3, he3⟩ := pair_exchange_run (x := z) (cr := cr) (b := true) (st1 := .newSession) he2.root he2.cap
    (send_challenge (hz.1.trans hn.symm) he2.wf he2.state (by omega) (by omega)) m3
    (fun r1 hw hcp hrt hst hT => by
      have := accept_challenge (c := c) (cr := cr) (ch := slot.certChain) (mask := mask) (mu := mu) (n := z.rspEnv.nonce) (sig := sig) (r := r1) hp h8 hon.digest hmax
        (hz.2.trans hn.symm) rfl hh hs
        (by simp only [hp16, hpad]; exact hon.received) (by simp only [hp16]; exact List.take_left' rfl) hon.chain m1 hon.hash hon.leaf (by rw [hrt]; exact hon.anchor) (by rw [hrt]; exact hon.trust)
        g2 g3 g4 (by rw [hT, he2.same]; exact g5) hw hst (by rw [hT, List.length_append, hlen, hcp, lch]; omega)
      rw [hT, he2.same] at this
      exact this) rfl
  exact ⟨e3, by simp only [talk, p1, p2, p3], he3.same⟩

end Splice
open Splice

section
variable {c c' : Cfg} {cr cr' : Crypto} {root : Bytes} {slots : List (Option FilledSlot)} {slot : FilledSlot} {q : Responder} {es : List RspEvent} {i i' : SpdmConfig} {n : Nat}

/-- **C125, negation.** Take any two builds of valid configurations, both honest, the requester with CERT_CAP, CHAL_CAP and a signing algorithm, the responder new or after any conversation
without a failure, and room enough everywhere.  Whatever plausible things he wants them to believe, a man in the middle without any key gets them there: after his part the requester holds
the capabilities and algorithms he chose for it, the responder those he chose for the responder, and then he steps aside and they authenticate: the requester verifies a genuine
signature of the responder and completes, and both have the same transcript. -/
theorem c125_negotiation_unprotected (hv : ValidConfig true i) (hb : Built true i n c) (hv' : ValidConfig true i') (hb' : Built true i' n c') (hsig : i.asymmetricSigning ≠ [])
    (hcert : "CERT_CAP" ∈ i.capabilities) (hchal : "CHAL_CAP" ∈ i.capabilities) (hon : HonestPair c c' cr cr' root slots slot) (run : RspRun c' cr' slots es q) (ha : alive es = true)
    {offer : NegotiateAlgorithms} (ho : Requester.configToNegotiateAlgorithms c = .ok offer) {heard : Capabilities} {told : Algorithms} {asked : GetCapabilities} {offered : NegotiateAlgorithms} {chosen : Algorithms}
    (lie : Plausible offer heard told asked offered chosen) {x y z u v w : Round} (hn : w.reqEnv.nonce.length = n ∧ w.rspEnv.nonce.length = n)
    (bx : 4 ≤ x.reqBuf.length ∧ 10 ≤ x.rspBuf.length) (by' : 12 ≤ y.reqBuf.length ∧ 12 ≤ y.rspBuf.length) (bz : 48 ≤ z.reqBuf.length ∧ 52 ≤ z.rspBuf.length)
    (bu : 4 ≤ u.reqBuf.length ∧ 4 + (digestsOf (cr.hash 1) slots).length ≤ u.rspBuf.length) (bv : 8 ≤ v.reqBuf.length ∧ 8 + (Wire.chain slot.certChain).length ≤ v.rspBuf.length)
    (bw : 4 + n ≤ w.reqBuf.length ∧ 138 + n ≤ w.rspBuf.length) (ht : 374 + (digestsOf (cr.hash 1) slots).length + (Wire.chain slot.certChain).length + 2 * n ≤ i.transcriptBufSize)
    (ht' : 374 + (digestsOf (cr.hash 1) slots).length + (Wire.chain slot.certChain).length + 2 * n ≤ i'.transcriptBufSize) :
    ∃ fq fr ends ends',
      splice ⟨Wire.header .capabilities ++ Wire.capabilities heard, Wire.header .algorithms ++ Wire.algorithms told, Wire.header .getCapabilities ++ Wire.getCapabilities asked,
        Wire.header .negotiateAlgorithms ++ Wire.negotiateAlgorithms offered⟩ c c' cr cr' x y z (Requester.new c root, q) = some ends ∧
      ends.1.state = some (.idAuth ⟨1, 1, 0, 0⟩ ⟨12, fq, heard.ctExponent, heard.flags⟩ told none) ∧
      ends.2.state = some (.idAuth ⟨⟨asked.ctExponent, asked.flags, 12, fr⟩, chosen⟩) ∧
      talk c c' cr cr' [u, v, w] ends = some ([false, false, true], ends') ∧ ends'.1.transcript.get = ends'.2.transcript.get := by
  have h8 : 0 < c.numSlots ∧ c.numSlots ≤ 8 := by rw [hb.numSlots]; exact hv.slots
  have h8' : c'.numSlots ≤ 8 := by rw [hb'.numSlots]; exact hv'.slots.2
  obtain ⟨_, _, hoffer⟩ := Downgrade.built_facts hv hb
  have hoffer := hoffer hsig
  obtain rfl : offer = configuredOffer true := by rw [hoffer] at ho; cases ho; rfl
  obtain ⟨⟨fq, hfq, bq⟩, _⟩ := c54_capabilities true i n c hv hb
  obtain ⟨_, ⟨fr, hfr, hbr⟩, _⟩ := Downgrade.built_facts hv' hb'
  have hq1 : fq.toNat.testBit 1 = true := (bq 1).mpr ⟨_, hcert, by simp [capabilityBits]⟩
  have hq2 : fq.toNat.testBit 2 = true := (bq 2).mpr ⟨_, hchal, by simp [capabilityBits]⟩
  have hc1 : Requester.bothHave ⟨12, fq, heard.ctExponent, heard.flags⟩ ReqFlags.certCap RspFlags.certCap = true := by rw [bothHave_cert]; simp only [hq1, lie.cert]; rfl
  have hc2 : Requester.bothHave ⟨12, fq, heard.ctExponent, heard.flags⟩ ReqFlags.chalCap RspFlags.chalCap = true := by rw [bothHave_chal]; simp only [hq2, lie.chal]; rfl
  rw [← hb.transcriptSize] at ht
  rw [← hb'.transcriptSize] at ht'
  have lv : (Wire.header .getVersion ++ Wire.getVersion).length = 4 := by decide
  have lv' : (Wire.header .version ++ Wire.version ⟨2, supportedVersions⟩).length = 10 := by decide
  have lc : ∀ m, (Wire.header .getCapabilities ++ Wire.getCapabilities m).length = 12 := by intro m; simp [Wire.getCapabilities, zeros, le_length, header_length]
  have lc' : ∀ m, (Wire.header .capabilities ++ Wire.capabilities m).length = 12 := by intro m; simp [Wire.capabilities, zeros, le_length, header_length]
  have la : (Wire.header .negotiateAlgorithms ++ Wire.negotiateAlgorithms (configuredOffer true)).length = 48 := by decide +kernel
  have la0 : (Wire.negotiateAlgorithms (configuredOffer true)).length = 46 := by decide +kernel
  have lt0 := algorithms_length lie.selection.len lie.four
  have lo0 := negotiate_length lie.offer.len lie.four'
  have lk0 := algorithms_length lie.answer.len (lie.answer.num.trans lie.four')
  have lt : (Wire.header .algorithms ++ Wire.algorithms told).length = 52 := by rw [List.length_append, header_length, lt0]
  have lo : (Wire.header .negotiateAlgorithms ++ Wire.negotiateAlgorithms offered).length = 48 := by rw [List.length_append, header_length, lo0]
  have lk : (Wire.header .algorithms ++ Wire.algorithms chosen).length = 52 := by rw [List.length_append, header_length, lk0]
  have hnew : (Requester.new c root).transcript.buf.length = c.transcriptSize := by simp [Requester.new, Transcript.new]
  have hchoose : Responder.chooseAlgorithms offered = .ok chosen := by
    obtain ⟨a, h⟩ := chooseAlgorithms_ok lie.offer lie.something
    rw [h, answers_unique (chooseAlgorithms_inv lie.offer h) lie.answer]
  -- the requester talks to him
  obtain ⟨r0, a0, k0, s0, t0⟩ := send_version (c := c) (env := x.reqEnv) (buf := x.reqBuf) (r := Requester.new c root) rfl bx.1 (by rw [hnew]; omega)
  obtain ⟨r1, a1, k1, s1, t1⟩ := accept_version (c := c) (cr := cr) k0.wf s0 (by rw [t0, lv, k0.cap, hnew]; omega)
  obtain ⟨r2, a2, k2, s2, t2⟩ := send_capabilities (env := y.reqEnv) (buf := y.reqBuf) hfq k1.wf s1 by'.1 (by rw [t1, t0, List.length_append, lv, lv', k1.cap, k0.cap, hnew]; omega)
  obtain ⟨r3, a3, k3, s3, t3⟩ := accept_capabilities (c := c) (cr := cr) (m := heard) lie.flags k2.wf s2
    (by rw [t2, t1, t0, List.length_append, List.length_append, lv, lv', lc, k2.cap, k1.cap, k0.cap, hnew]; omega)
  obtain ⟨r4, a4, k4, s4, t4⟩ := send_algorithms (env := z.reqEnv) (buf := z.reqBuf) hoffer la0 k3.wf s3 bz.1
    (by rw [t3, t2, t1, t0, List.length_append, List.length_append, List.length_append, lv, lv', lc, lc', k3.cap, k2.cap, k1.cap, k0.cap, hnew]; omega)
  -- the responder talks to him
  have wv : Wire.getVersion.length = 2 := by decide
  have wv' : (Wire.version ⟨2, supportedVersions⟩).length = 8 := by decide
  have wc : ∀ m, (Wire.getCapabilities m).length = 10 := by intro m; simp [Wire.getCapabilities, zeros, le_length]
  have wc' : ∀ m, (Wire.capabilities m).length = 10 := by intro m; simp [Wire.capabilities, zeros, le_length]
  obtain ⟨st', hlive⟩ := run_live hon.number h8' run ha
  obtain ⟨q0, b0, j0, u0, v0⟩ := reply_version_tail (c := c') (cr := cr') (env := x.rspEnv) (buf := x.rspBuf)
    (tail := versionReply ++ (Wire.header .getCapabilities ++ Wire.getCapabilities ⟨12, fq⟩) ++ (Wire.header .capabilities ++ Wire.capabilities heard) ++
      (Wire.header .negotiateAlgorithms ++ Wire.negotiateAlgorithms (configuredOffer true)) ++ (Wire.header .algorithms ++ Wire.algorithms told))
    hon.number h8' hlive.toRspKept hlive.state hlive.mat.live bx.2
    (by simp only [version_reply, List.length_append, header_length, wv', wc, wc', la0, lt0]; omega)
  have l0 : q0.transcript.get.length = 148 := by rw [v0]; simp only [version_reply, List.length_append, header_length, wv, wv', wc, wc', la0, lt0]
  obtain ⟨q1, b1, j1, u1, v1⟩ := reply_capabilities (c := c') (cr := cr') (env := y.rspEnv) (buf := y.rspBuf) hon.number h8' j0 u0 (m := asked) lie.flags' hfr by'.2 (by omega)
  have l1 : q1.transcript.get.length = 172 := by rw [v1, List.length_append, List.length_append, l0, lc, lc']
  obtain ⟨q2, b2, j2, u2, v2⟩ := reply_algorithms (c := c') (cr := cr') (env := z.rspEnv) (buf := z.rspBuf) hon.number h8' j1 u1 lie.offer lie.something lie.four' hchoose lo0 bz.2 (by omega)
  have l2 : q2.transcript.get.length = 272 := by rw [v2, List.length_append, List.length_append, l1, lo, lk]
  -- all of that comes with ALGORITHMS
  have l4 : r4.transcript.get.length = 86 := by rw [t4, t3, t2, t1, t0]; simp only [List.length_append, header_length, wv, wv', wc, wc', la0]
  obtain ⟨r5, a5, k5, s5, t5⟩ := accept_algorithms_tail (c := c) (cr := cr) (r := r4)
    (tail := (Wire.header .version ++ Wire.version ⟨2, supportedVersions⟩) ++ (Wire.header .getCapabilities ++ Wire.getCapabilities asked) ++
      (Wire.header .capabilities ++ Wire.capabilities ⟨12, fr⟩) ++ (Wire.header .negotiateAlgorithms ++ Wire.negotiateAlgorithms offered) ++
      (Wire.header .algorithms ++ Wire.algorithms chosen))
    lie.selection (selected_valid hoffer lie.selection lie.selected) lt0 k4.wf s4
    (by rw [l4, k4.cap, k3.cap, k2.cap, k1.cap, k0.cap, hnew]; simp only [List.length_append, header_length, wv', wc, wc', lo0, lk0]; omega)
  rw [hc1, if_pos rfl] at s5
  have same : r5.transcript.get = q2.transcript.get := by
    rw [t5, t4, t3, t2, t1, t0, v2, v1, v0, version_reply]
    simp only [List.append_assoc]
  have hends : splice ⟨Wire.header .capabilities ++ Wire.capabilities heard, Wire.header .algorithms ++ Wire.algorithms told, Wire.header .getCapabilities ++ Wire.getCapabilities asked,
        Wire.header .negotiateAlgorithms ++ Wire.negotiateAlgorithms offered⟩ c c' cr cr' x y z (Requester.new c root, q) = some (r5, q2) := by
    simp only [← version_reply, ← List.append_assoc] at a1 b0 a5
    simp only [splice, asks, hears, serves, Option.bind_some, ← List.append_assoc, a0, a1, a2, a3, a4, b0, b1, b2, a5]
  obtain ⟨e', p, sm⟩ := authenticate (x := u) (y := v) (z := w) (e := (r5, q2)) (N := 272) hon hb.provider hb'.provider h8 h8' hb.maxSignatureSize hb'.maxSignatureSize hb.nonceSize hb'.nonceSize hc2
    lie.hash lie.asym lie.hash' lie.asym' hn bu bv bw (by omega) (by omega)
    ⟨k5.wf, by rw [k5.cap, k4.cap, k3.cap, k2.cap, k1.cap, k0.cap, hnew], by rw [k5.root, k4.root, k3.root, k2.root, k1.root, k0.root]; rfl, s5, j2, u2, same, by rw [same, l2]⟩
  exact ⟨fq, fr, (r5, q2), e', hends, s5, u2, p, sm⟩

/-! ### A man in the middle at work -/

/-- The requester is to believe in ENCRYPT_CAP and no time for cryptography, in SHA-512 for the measurements, ... -/
def demoHeard : Capabilities := ⟨0, 0x46⟩
/-- ... and in the second algorithm of each kind. -/
def demoTold : Algorithms := ⟨1, 4, 16, 1, 4, [⟨.dhe, 0x10⟩, ⟨.aead, 4⟩, ⟨.reqBaseAsym, 0x80⟩, ⟨.keySchedule, 1⟩]⟩
/-- The responder is to believe that the requester has no capabilities at all, ... -/
def demoAsked : GetCapabilities := ⟨7, 0⟩
/-- ... no measurement specification, and offers algorithms that the requester does not offer. -/
def demoOffered : NegotiateAlgorithms := ⟨0, 16, 1, 4, [⟨.dhe, 1⟩, ⟨.aead, 1⟩, ⟨.reqBaseAsym, 1⟩, ⟨.keySchedule, 1⟩]⟩
def demoChosen : Algorithms := ⟨0, 1, 16, 1, 4, [⟨.dhe, 1⟩, ⟨.aead, 1⟩, ⟨.reqBaseAsym, 1⟩, ⟨.keySchedule, 1⟩]⟩

theorem demo_plausible : Plausible (configuredOffer true) demoHeard demoTold demoAsked demoOffered demoChosen where
  flags := by
    intro j hj
    by_contra h
    rw [Nat.testBit_lt_two_pow (Nat.lt_of_lt_of_le (show demoHeard.flags.toNat < 2 ^ 17 by decide) (Nat.pow_le_pow_right (by decide) (by unfold rspFlagBit at h; omega)))] at hj
    cases hj
  cert := by decide
  chal := by decide
  selection := {
    len := rfl, num := by decide, unused := by
      intro j a h hj
      have := (List.getElem?_eq_some_iff.mp h).1
      simp [demoTold] at this hj
      omega
    bits := by
      intro j a h hj
      match j, h with
      | 0, h => cases h; exact ⟨4, by decide, rfl⟩
      | 1, h => cases h; exact ⟨2, by decide, rfl⟩
      | 2, h => cases h; exact ⟨7, by decide, rfl⟩
      | 3, h => cases h; exact ⟨0, by decide, rfl⟩
      | j + 4, h => cases h
    spec := ⟨0, by decide, rfl⟩, mhash := ⟨2, by decide, rfl⟩, asym := ⟨4, by decide, rfl⟩, hash := ⟨0, by decide, rfl⟩ }
  selected := {
    spec := rfl, mhash := ⟨2, by decide, rfl⟩, asym := ⟨4, by decide, rfl⟩, hash := ⟨0, by decide, rfl⟩
    algs := by
      intro j a h hj
      match j, h with
      | 0, h => cases h; exact ⟨⟨.dhe, 0x12⟩, by decide, rfl, 4, by decide, rfl⟩
      | 1, h => cases h; exact ⟨⟨.aead, 6⟩, by decide, rfl, 2, by decide, rfl⟩
      | 2, h => cases h; exact ⟨⟨.reqBaseAsym, 0x90⟩, by decide, rfl, 7, by decide, rfl⟩
      | 3, h => cases h; exact ⟨⟨.keySchedule, 1⟩, by decide, rfl, 0, by decide, rfl⟩
      | j + 4, h => cases h }
  four := rfl
  hash := rfl
  asym := rfl
  flags' := by intro j hj; simp [demoAsked] at hj
  offer := {
    len := rfl, num := by decide, unused := by
      intro j a h hj
      have := (List.getElem?_eq_some_iff.mp h).1
      simp [demoOffered] at this hj
      omega
    bits := by decide, spec := by decide, asym := by decide, hash := by decide }
  something := {
    asym := by decide, hash := by decide, algs := by
      intro j a h hj
      match j, h with
      | 0, h => cases h; decide
      | 1, h => cases h; decide
      | 2, h => cases h; decide
      | 3, h => cases h; decide
      | j + 4, h => cases h }
  four' := rfl
  answer := chooseAlgorithms_inv {
    len := rfl, num := by decide, unused := by
      intro j a h hj
      have := (List.getElem?_eq_some_iff.mp h).1
      simp [demoOffered] at this hj
      omega
    bits := by decide, spec := by decide, asym := by decide, hash := by decide } (by decide +kernel)
  hash' := rfl
  asym' := rfl

/-- The two builds of C97, with the same small buffers: the requester has CERT_CAP and CHAL_CAP, the responder these and MAC_CAP, and left alone they agree on other algorithms. -/
example : ∃ fq fr ends ends',
    splice ⟨Wire.header .capabilities ++ Wire.capabilities demoHeard, Wire.header .algorithms ++ Wire.algorithms demoTold, Wire.header .getCapabilities ++ Wire.getCapabilities demoAsked,
      Wire.header .negotiateAlgorithms ++ Wire.negotiateAlgorithms demoOffered⟩ honestCfg otherCfg honestCrypto honestCrypto
      (tightRounds[0]'(by decide)) (tightRounds[1]'(by decide)) (tightRounds[2]'(by decide)) (Requester.new honestCfg [1, 2, 3], Responder.new otherCfg [some honestSlot]) = some ends ∧
    ends.1.state = some (.idAuth ⟨1, 1, 0, 0⟩ ⟨12, fq, 0, 0x46⟩ demoTold none) ∧
    ends.2.state = some (.idAuth ⟨⟨7, 0, 12, fr⟩, demoChosen⟩) ∧
    talk honestCfg otherCfg honestCrypto honestCrypto (tightRounds.drop 3) ends = some ([false, false, true], ends') ∧ ends'.1.transcript.get = ends'.2.transcript.get :=
  c125_negotiation_unprotected honestConfig_valid honestConfig_built otherConfig_valid otherConfig_built (by decide) (by decide) (by decide) honest_pair_demo .new rfl
    (offer := configuredOffer true) (by decide +kernel) demo_plausible (by decide +kernel) (by decide +kernel) (by decide +kernel) (by decide +kernel) (by decide +kernel) (by decide +kernel)
    (by decide +kernel) (by decide +kernel) (by decide +kernel)

example : demoTold ≠ honestAnswer ∧ demoChosen ≠ honestAnswer := by decide +kernel

end
end Spdm
