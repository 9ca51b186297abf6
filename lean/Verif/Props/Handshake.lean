import Verif.Lemmas.Handshake
import Verif.Props.Responder
import Verif.Props.Der
import Verif.DemoSession
/-!
# The honest handshake (C49)
-/
namespace Spdm
open Spec

variable {c : Cfg} {cr : Crypto} {root : Bytes} {slots : List (Option FilledSlot)} {slot : FilledSlot} {x : Round} {r : Requester} {q : Responder}

/-- Both endpoints in use, with the same transcript of `n` bytes. -/
structure Ends (c : Cfg) (root : Bytes) (slots : List (Option FilledSlot)) (st : ReqState) (st' : RspState) (n : Nat) (ends : Requester × Responder) : Prop where
  wf : ends.1.transcript.WF
  cap : ends.1.transcript.buf.length = c.transcriptSize
  root : ends.1.rootCert = root
  state : ends.1.state = some st
  kept : RspKept c slots ends.2
  state' : ends.2.state = some st'
  same : ends.1.transcript.get = ends.2.transcript.get
  len : ends.1.transcript.get.length = n

theorem exchange_run {ends : Requester × Responder} {st st1 : ReqState} {st2 : RspState} {req rsp T1 T2 : Bytes} {b : Bool} {n : Nat}
    (hw : ends.1.rootCert = root) (hcap : ends.1.transcript.buf.length = c.transcriptSize)
    (h1 : Sends c x.reqEnv x.reqBuf ends.1 req st T1) (h2 : Replies c cr x.rspEnv slots req x.rspBuf ends.2 rsp st2 T2)
    (h3 : ∀ r1, r1.transcript.WF → r1.transcript.buf.length = c.transcriptSize → r1.rootCert = root → r1.state = some st → r1.transcript.get = T1 → Accepts c cr r1 rsp b st1 T2) (hn : T2.length = n) :
    ∃ ends', exchange c c cr cr x ends = some (b, ends') ∧ Ends c root slots st1 st2 n ends' := by
  obtain ⟨r1, e1, k1, s1, t1⟩ := h1
  obtain ⟨q1, e2, k2, s2, t2⟩ := h2
  obtain ⟨r2, e3, k3, s3, t3⟩ := h3 r1 k1.wf (k1.cap.trans hcap) (k1.root.trans hw) s1 t1
  refine ⟨(r2, q1), by simp only [exchange, e1, e2, e3], ⟨k3.wf, k3.cap.trans (k1.cap.trans hcap), k3.root.trans (k1.root.trans hw), s3, k2, s2, by simp only [t3, t2], by simp only [t3, hn]⟩⟩

/-- The offer and its answer: SHA-256 and ECDSA P-256. -/
def honestOffer : NegotiateAlgorithms := ⟨1, 16, 7, 4, [⟨.dhe, 0x12⟩, ⟨.aead, 6⟩, ⟨.reqBaseAsym, 0x90⟩, ⟨.keySchedule, 1⟩]⟩
def honestAnswer : Algorithms := ⟨1, 1, 16, 1, 4, [⟨.dhe, 2⟩, ⟨.aead, 2⟩, ⟨.reqBaseAsym, 0x10⟩, ⟨.keySchedule, 1⟩]⟩

theorem honest_choice : Responder.chooseAlgorithms honestOffer = .ok honestAnswer := by decide +kernel
theorem honest_valid : Requester.ensureValidAlgorithmsSelected (some honestOffer) honestAnswer = .ok () := by decide +kernel

theorem honestOffer_wf : NegotiateWF honestOffer where
  len := rfl
  num := by decide
  unused := by
    intro i a h hi
    have := (List.getElem?_eq_some_iff.mp h).1
    simp [honestOffer] at this hi
    omega
  bits := by decide
  spec := by decide
  asym := by decide
  hash := by decide

theorem honestOffer_nonempty : NonEmptyOffer honestOffer where
  asym := by decide
  hash := by decide
  algs := by
    intro i a h _
    have : ∀ a ∈ honestOffer.algorithmRequests, a.supported.toNat ≠ 0 := by decide
    exact this a (List.mem_of_getElem? h)

theorem honestAnswer_wf : AlgorithmsWF honestAnswer :=
  answers_wf honestOffer_wf rfl (chooseAlgorithms_inv honestOffer_wf honest_choice)

theorem talk_cons {xs : List Round} {ends e1 e2 : Requester × Responder} {b : Bool} {bs : List Bool} (h : exchange c c cr cr x ends = some (b, e1))
    (ht : talk c c cr cr xs e1 = some (bs, e2)) : talk c c cr cr (x :: xs) ends = some (b :: bs, e2) := by
  simp only [talk, h, ht]

/-- **C49.** With a valid configuration that has a signing algorithm, honest parties, room in all buffers and nonces of the configured size,
a new requester talking to a responder that has not failed (new, or after any conversation) completes in exactly the number of exchanges its
capabilities call for; every call of every exchange succeeds. -/
theorem c49_honest_handshake {i : SpdmConfig} {nonceSize : Nat} {es : List RspEvent} (hv : ValidConfig true i) (hb : Built true i nonceSize c) (hsig : i.asymmetricSigning ≠ [])
    (hon : Honest c cr root slots slot) (run : RspRun c cr slots es q) (ha : alive es = true)
    (htr : 240 + (digestsOf (cr.hash 1) slots).length + (Wire.chain slot.certChain).length + 2 * c.nonceSize ≤ c.transcriptSize)
    (rounds : List Round) (hn : rounds.length = exchangesNeeded i.capabilities) (hroom : ∀ x ∈ rounds, Room c cr slots slot x) :
    ∃ ends, talk c c cr cr rounds (Requester.new c root, q) =
      some (List.replicate (exchangesNeeded i.capabilities - 1) false ++ [true], ends) := by
  have hl := hon.number
  have h8 : c.numSlots ≤ 8 := by rw [hb.numSlots]; exact hv.slots.2
  have h0 : 0 < c.numSlots := by have := (List.getElem?_eq_some_iff.mp hon.filled).1; omega
  obtain ⟨st', hlive⟩ := run_live hl h8 run ha
  obtain ⟨⟨fq, hfq, bq⟩, fr, hfr, br⟩ := c54_capabilities true i nonceSize c hv hb
  obtain ⟨asym, hoffer, basym⟩ := c54_algorithms true i nonceSize c hv hb
  have hasym : asym = 16 := by
    rw [← UInt32.toNat_inj]
    apply Nat.eq_of_testBit_eq
    intro k
    rw [show (16 : UInt32).toNat = 2 ^ 4 from rfl, Nat.testBit_two_pow, Bool.eq_iff_iff, basym k]
    simp only [decide_eq_true_eq]
    constructor
    · rintro ⟨rfl, _⟩; rfl
    · rintro rfl; exact ⟨rfl, hsig⟩
  subst hasym
  change Requester.configToNegotiateAlgorithms c = .ok honestOffer at hoffer
  have hlim : ∀ k, (∃ a ∈ i.capabilities, (a, k) ∈ capabilityBits) → reqFlagBit k ∧ rspFlagBit k := by
    rintro k ⟨a, _, hk⟩
    simp only [capabilityBits, List.mem_cons, Prod.mk.injEq, List.not_mem_nil, or_false] at hk
    unfold reqFlagBit rspFlagBit
    omega
  have hbq : OnlyBits reqFlagBit fq.toNat := fun k hk => (hlim k ((bq k).mp hk)).1
  have hbr : OnlyBits rspFlagBit fr.toNat := fun k hk => (hlim k ((br k).mp hk)).2
  -- the capability bits of both sides are the configured ones
  have hcap : ∀ (name : String) (k : Nat), (name, k) ∈ capabilityBits → (∀ a, (a, k) ∈ capabilityBits → a = name) →
      (fq.toNat.testBit k && fr.toNat.testBit k) = decide (name ∈ i.capabilities) := by
    intro name k hk huniq
    have : ∀ w : UInt32, (w.toNat.testBit k = true ↔ ∃ a ∈ i.capabilities, (a, k) ∈ capabilityBits) → w.toNat.testBit k = decide (name ∈ i.capabilities) := by
      intro w hw
      rw [Bool.eq_iff_iff, hw, decide_eq_true_eq]
      constructor
      · rintro ⟨a, ha, hak⟩; rw [← huniq a hak]; exact ha
      · intro h; exact ⟨name, h, hk⟩
    rw [this fq (bq k), this fr (br k), Bool.and_self]
  have hcert := hcap "CERT_CAP" 1 (by simp [capabilityBits]) (by intro a h; simp [capabilityBits] at h; exact h)
  have hchal := hcap "CHAL_CAP" 2 (by simp [capabilityBits]) (by intro a h; simp [capabilityBits] at h; exact h)
  have hmax := hb.maxSignatureSize
  have hfit0 := hon.fits slot (List.mem_of_getElem? hon.filled)
  have lv : (Wire.header .getVersion ++ Wire.getVersion).length = 4 := by decide
  have lv' : (Wire.header .version ++ Wire.version ⟨2, supportedVersions⟩).length = 10 := by decide
  have lc : (Wire.header .getCapabilities ++ Wire.getCapabilities ⟨12, fq⟩).length = 12 := by simp [Wire.getCapabilities, zeros, le_length, header_length]
  have lc' : (Wire.header .capabilities ++ Wire.capabilities ⟨12, fr⟩).length = 12 := by simp [Wire.capabilities, zeros, le_length, header_length]
  have la : (Wire.negotiateAlgorithms honestOffer).length = 46 := by decide +kernel
  have la' : (Wire.algorithms honestAnswer).length = 50 := by decide +kernel
  have ld : (Wire.header .getDigests ++ Wire.getDigests).length = 4 := by decide
  have hdb : (digestBytes cr 1 (chainsOf slots)).length = (digestsOf (cr.hash 1) slots).length := by rw [digestBytes_slots]
  -- the exchanges
  have s1 : ∀ x, Room c cr slots slot x → ∃ e, exchange c c cr cr x (Requester.new c root, q) = some (false, e) ∧
      Ends c root slots (.capabilities ⟨1, 1, 0, 0⟩ none none) .capabilities 14 e := by
    intro x hx
    have := hx.negotiate; have := hx.algorithms
    have hnew : (Requester.new c root).transcript.buf.length = c.transcriptSize := by simp [Requester.new, Transcript.new]
    exact exchange_run rfl hnew
      (send_version rfl (by omega) (by show 4 ≤ (Requester.new c root).transcript.buf.length; rw [hnew]; omega))
      (reply_version hl h8 hlive.toRspKept hlive.state hlive.mat.live (by omega) (by omega))
      (fun r1 hw hcp hrt hs hT => by have := accept_version (c := c) (cr := cr) hw hs (by rw [hT, lv, hcp]; omega); rw [hT] at this; exact this) (by simp only [List.length_append] at *; omega)
  have s2 : ∀ x, Room c cr slots slot x → ∀ e, Ends c root slots (.capabilities ⟨1, 1, 0, 0⟩ none none) .capabilities 14 e →
      ∃ e', exchange c c cr cr x e = some (false, e') ∧ Ends c root slots (.algorithms ⟨1, 1, 0, 0⟩ ⟨12, fq, 12, fr⟩ none) (.algorithms ⟨12, fq, 12, fr⟩) 38 e' := by
    intro x hx e he
    have := hx.negotiate; have := hx.algorithms
    have hlen := he.len; have hcp := he.cap
    have hlen' : e.2.transcript.get.length = 14 := by rw [← he.same]; exact hlen
    refine exchange_run he.root he.cap
      (send_capabilities hfq he.wf he.state (by omega) (by omega))
      (reply_capabilities hl h8 he.kept he.state' (m := ⟨12, fq⟩) hbq hfr (by omega) (by omega))
      (fun r1 hw hcp hrt hs hT => ?_) (by rw [List.length_append, List.length_append, hlen', lc, lc'])
    have := accept_capabilities (c := c) (cr := cr) (m := ⟨12, fr⟩) hbr hw hs (by rw [hT, List.length_append, hlen, lc, hcp]; omega)
    rw [hT, he.same] at this
    exact this
  have s3 : ∀ x, Room c cr slots slot x → ∀ e, Ends c root slots (.algorithms ⟨1, 1, 0, 0⟩ ⟨12, fq, 12, fr⟩ none) (.algorithms ⟨12, fq, 12, fr⟩) 38 e →
      ∃ e', exchange c c cr cr x e = some (! decide ("CERT_CAP" ∈ i.capabilities), e') ∧
        Ends c root slots (if "CERT_CAP" ∈ i.capabilities then .idAuth ⟨1, 1, 0, 0⟩ ⟨12, fq, 12, fr⟩ honestAnswer none else .newSession)
          (.idAuth ⟨⟨12, fq, 12, fr⟩, honestAnswer⟩) 138 e' := by
    intro x hx e he
    have := hx.negotiate; have := hx.algorithms
    have hlen := he.len; have hcp := he.cap
    have hlen' : e.2.transcript.get.length = 38 := by rw [← he.same]; exact hlen
    refine exchange_run he.root he.cap
      (send_algorithms hoffer la he.wf he.state (by omega) (by omega))
      (reply_algorithms hl h8 he.kept he.state' honestOffer_wf honestOffer_nonempty rfl honest_choice la (by omega) (by omega))
      (fun r1 hw hcp hrt hs hT => ?_) (by simp only [List.length_append, hlen', header_length, la, la'])
    have := accept_algorithms (c := c) (cr := cr) honestAnswer_wf honest_valid la' hw hs (by rw [hT, List.length_append, hlen, hcp, List.length_append, header_length, la]; omega)
    rw [hT, he.same, bothHave_cert, hcert] at this
    simpa using this
  have s4 : ∀ x, Room c cr slots slot x → ∀ e, Ends c root slots (.idAuth ⟨1, 1, 0, 0⟩ ⟨12, fq, 12, fr⟩ honestAnswer none) (.idAuth ⟨⟨12, fq, 12, fr⟩, honestAnswer⟩) 138 e →
      ∃ e' d, exchange c c cr cr x e = some (false, e') ∧
        Ends c root slots (.idAuth ⟨1, 1, 0, 0⟩ ⟨12, fq, 12, fr⟩ honestAnswer (some d)) (.idAuth ⟨⟨12, fq, 12, fr⟩, honestAnswer⟩) (146 + (digestsOf (cr.hash 1) slots).length) e' := by
    intro x hx e he
    have := hx.negotiate; have := hx.digests
    have hlen := he.len; have hcp := he.cap
    have hlen' : e.2.transcript.get.length = 138 := by rw [← he.same]; exact hlen
    obtain ⟨d, hd1, hd2, hrep⟩ := reply_digests (env := x.rspEnv) (buf := x.rspBuf) hb.provider hl h8 he.kept he.state' rfl hon.digest hon.hash hon.fits (by omega) (by omega)
    obtain ⟨e', p1, p2⟩ := exchange_run (n := 146 + (digestsOf (cr.hash 1) slots).length) (b := false) (st1 := .idAuth ⟨1, 1, 0, 0⟩ ⟨12, fq, 12, fr⟩ honestAnswer (some d)) he.root he.cap
      (send_digests he.wf he.state (by omega) (by omega)) hrep
      (fun r1 hw hcp hrt hs hT => by
        have := accept_digests (c := c) (cr := cr) (digestSize_sha256 hon.digest) hd1 hw hs (by rw [hT, List.length_append, hlen, hcp, ld, hd2]; omega)
        rw [hT, he.same] at this
        exact this) (by rw [List.length_append, List.length_append, hlen', ld, List.length_append, header_length, hd2]; omega)
    exact ⟨e', d, p1, p2⟩
  -- the certificate as the requester stores it
  have hp16 : (UInt16.ofNat (Wire.chain slot.certChain).length).toNat = (Wire.chain slot.certChain).length := ofNat_toNat16 (by have := hfit0.2; omega)
  have lcert : (Wire.certificate ⟨0, UInt16.ofNat (Wire.chain slot.certChain).length, 0, Wire.chain slot.certChain⟩).length = 6 + (Wire.chain slot.certChain).length := by
    simp only [Wire.certificate, hp16, List.length_append, le_length, zeros, List.length_replicate, List.length_take, List.length_cons, List.length_nil]
    omega
  have lgc : (Wire.header .getCertificate ++ Wire.getCertificate ⟨0, 0, UInt16.ofNat c.maxCertChainSize⟩).length = 8 := by simp [Wire.getCertificate, zeros, le_length, header_length]
  have hpad : (Wire.chain slot.certChain ++ zeros (c.maxCertChainSize - (Wire.chain slot.certChain).length)).length = c.maxCertChainSize := by
    have := hfit0.1
    simp only [List.length_append, zeros, List.length_replicate]
    omega
  have hcw : CertificateWF c ⟨0, UInt16.ofNat (Wire.chain slot.certChain).length, 0, Wire.chain slot.certChain ++ zeros (c.maxCertChainSize - (Wire.chain slot.certChain).length)⟩ :=
    ⟨hpad, by simp only [hp16]; exact hfit0.1, by simp only [hp16]; exact List.drop_left' rfl⟩
  have hceq : Wire.certificate ⟨0, UInt16.ofNat (Wire.chain slot.certChain).length, 0, Wire.chain slot.certChain⟩ =
      Wire.certificate ⟨0, UInt16.ofNat (Wire.chain slot.certChain).length, 0, Wire.chain slot.certChain ++ zeros (c.maxCertChainSize - (Wire.chain slot.certChain).length)⟩ := by
    simp only [Wire.certificate, hp16]
    rw [List.take_left' rfl, List.take_of_length_le (by simp)]
  have s5 : ∀ x, Room c cr slots slot x → ∀ e d, Ends c root slots (.idAuth ⟨1, 1, 0, 0⟩ ⟨12, fq, 12, fr⟩ honestAnswer (some d)) (.idAuth ⟨⟨12, fq, 12, fr⟩, honestAnswer⟩)
        (146 + (digestsOf (cr.hash 1) slots).length) e →
      ∃ e', exchange c c cr cr x e = some (! decide ("CHAL_CAP" ∈ i.capabilities), e') ∧
        Ends c root slots (if "CHAL_CAP" ∈ i.capabilities then .challenge ⟨⟨1, 1, 0, 0⟩, ⟨12, fq, 12, fr⟩, honestAnswer, 0,
            Wire.chain slot.certChain ++ zeros (c.maxCertChainSize - (Wire.chain slot.certChain).length), UInt16.ofNat (Wire.chain slot.certChain).length, none⟩ else .newSession)
          (.challenge ⟨⟨12, fq, 12, fr⟩, honestAnswer⟩) (162 + (digestsOf (cr.hash 1) slots).length + (Wire.chain slot.certChain).length) e' := by
    intro x hx e d he
    have := hx.negotiate; have := hx.certificate
    have hlen := he.len; have hcp := he.cap
    have hlen' : e.2.transcript.get.length = 146 + (digestsOf (cr.hash 1) slots).length := by rw [← he.same]; exact hlen
    refine exchange_run he.root he.cap (send_certificate h0 he.wf he.state (by omega) (by omega))
      (reply_certificate hl h8 he.kept he.state' hon.filled hfit0 (by omega) (by omega))
      (fun r1 hw hcp hrt hs hT => ?_) (by rw [List.length_append, List.length_append, hlen', lgc, List.length_append, header_length, lcert]; omega)
    have := accept_certificate (c := c) (cr := cr) hcw hw hs (by rw [hT, List.length_append, hlen, hcp, lgc, ← hceq, lcert]; omega)
    rw [hT, he.same, bothHave_chal, hchal, ← hceq] at this
    simpa using this
  have s6 : ∀ x, Room c cr slots slot x → ∀ e, Ends c root slots (.challenge ⟨⟨1, 1, 0, 0⟩, ⟨12, fq, 12, fr⟩, honestAnswer, 0,
            Wire.chain slot.certChain ++ zeros (c.maxCertChainSize - (Wire.chain slot.certChain).length), UInt16.ofNat (Wire.chain slot.certChain).length, none⟩)
          (.challenge ⟨⟨12, fq, 12, fr⟩, honestAnswer⟩) (162 + (digestsOf (cr.hash 1) slots).length + (Wire.chain slot.certChain).length) e →
      ∃ e', exchange c c cr cr x e = some (true, e') := by
    intro x hx e he
    have := hx.challenge; have := hx.auth
    have hlen := he.len; have hcp := he.cap
    have hlen' : e.2.transcript.get.length = 162 + (digestsOf (cr.hash 1) slots).length + (Wire.chain slot.certChain).length := by rw [← he.same]; exact hlen
    have lch : (Wire.header .challenge ++ Wire.challenge ⟨0, .none, x.reqEnv.nonce⟩).length = 4 + c.nonceSize := by simp [Wire.challenge, hx.reqNonce, header_length]; omega
    obtain ⟨mask, mu, sig, m1, m2, m3⟩ := reply_challenge (env := x.rspEnv) (buf := x.rspBuf) hb.provider hl h8 he.kept he.state' hon.filled (nonce := x.reqEnv.nonce) hx.reqNonce hx.rspNonce rfl rfl hon.digest hmax hon.hash hfit0
      (fun msg => by obtain ⟨sig, g1, g2, _⟩ := hon.sign x.rspEnv.seed msg; exact ⟨sig, g1, g2⟩) (by omega) (by omega)
    obtain ⟨sig', g1, g2, g3, g4, g5⟩ := hon.sign x.rspEnv.seed (cr.hash 1 (e.2.transcript.get ++ (Wire.header .challenge ++ Wire.challenge ⟨0, .none, x.reqEnv.nonce⟩) ++
        authMsg 0 mask mu (cr.hash 1 (Wire.chain slot.certChain)) x.rspEnv.nonce 32))
    rw [m2] at g1
    simp only [Option.some.injEq] at g1
    subst g1
    obtain ⟨e', p1, _⟩ := exchange_run (b := true) (st1 := .newSession) he.root he.cap (send_challenge hx.reqNonce he.wf he.state (by omega) (by omega)) m3
      (fun r1 hw hcp hrt hs hT => by
        have := accept_challenge (c := c) (cr := cr) (ch := slot.certChain) (mask := mask) (mu := mu) (n := x.rspEnv.nonce) (sig := sig) (r := r1) hb.provider ⟨h0, h8⟩ hon.digest hmax hx.rspNonce rfl rfl rfl
          (by simp only [hp16, hpad]; exact hfit0.1) (by simp only [hp16]; exact List.take_left' rfl) hon.chain m1 hon.hash hon.leaf (by rw [hrt]; exact hon.anchor) (by rw [hrt]; exact hon.trust)
          g2 g3 g4 (by rw [hT, he.same]; exact g5) hw hs (by rw [hT, List.length_append, hlen, hcp, lch]; omega)
        rw [hT, he.same] at this
        exact this) rfl
    exact ⟨e', p1⟩
  -- put together
  have room : ∀ {y ys}, rounds = y ++ ys → ∀ x ∈ y, Room c cr slots slot x := by
    intro y ys e x hx; exact hroom x (by rw [e]; exact List.mem_append_left _ hx)
  unfold exchangesNeeded at hn ⊢
  by_cases h1 : "CERT_CAP" ∈ i.capabilities
  · by_cases h2 : "CHAL_CAP" ∈ i.capabilities
    · simp only [h1, h2, if_true, decide_true, Bool.not_true] at hn s3 s5 ⊢
      obtain ⟨x1, x2, x3, x4, x5, x6, rfl⟩ : ∃ x1 x2 x3 x4 x5 x6, rounds = [x1, x2, x3, x4, x5, x6] := by
        match rounds, hn with
        | [x1, x2, x3, x4, x5, x6], _ => exact ⟨x1, x2, x3, x4, x5, x6, rfl⟩
      obtain ⟨e1, a1, b1⟩ := s1 x1 (hroom x1 (by simp))
      obtain ⟨e2, a2, b2⟩ := s2 x2 (hroom x2 (by simp)) e1 b1
      obtain ⟨e3, a3, b3⟩ := s3 x3 (hroom x3 (by simp)) e2 b2
      obtain ⟨e4, d, a4, b4⟩ := s4 x4 (hroom x4 (by simp)) e3 b3
      obtain ⟨e5, a5, b5⟩ := s5 x5 (hroom x5 (by simp)) e4 d b4
      obtain ⟨e6, a6⟩ := s6 x6 (hroom x6 (by simp)) e5 b5
      exact ⟨e6, talk_cons a1 (talk_cons a2 (talk_cons a3 (talk_cons a4 (talk_cons a5 (talk_cons a6 rfl)))))⟩
    · simp only [h1, h2, if_true, if_false, decide_true, decide_false, Bool.not_true, Bool.not_false] at hn s3 s5 ⊢
      obtain ⟨x1, x2, x3, x4, x5, rfl⟩ : ∃ x1 x2 x3 x4 x5, rounds = [x1, x2, x3, x4, x5] := by
        match rounds, hn with
        | [x1, x2, x3, x4, x5], _ => exact ⟨x1, x2, x3, x4, x5, rfl⟩
      obtain ⟨e1, a1, b1⟩ := s1 x1 (hroom x1 (by simp))
      obtain ⟨e2, a2, b2⟩ := s2 x2 (hroom x2 (by simp)) e1 b1
      obtain ⟨e3, a3, b3⟩ := s3 x3 (hroom x3 (by simp)) e2 b2
      obtain ⟨e4, d, a4, b4⟩ := s4 x4 (hroom x4 (by simp)) e3 b3
      obtain ⟨e5, a5, b5⟩ := s5 x5 (hroom x5 (by simp)) e4 d b4
      exact ⟨e5, talk_cons a1 (talk_cons a2 (talk_cons a3 (talk_cons a4 (talk_cons a5 rfl))))⟩
  · simp only [h1, if_false, decide_false, Bool.not_false] at hn s3 ⊢
    obtain ⟨x1, x2, x3, rfl⟩ : ∃ x1 x2 x3, rounds = [x1, x2, x3] := by
      match rounds, hn with
      | [x1, x2, x3], _ => exact ⟨x1, x2, x3, rfl⟩
    obtain ⟨e1, a1, b1⟩ := s1 x1 (hroom x1 (by simp))
    obtain ⟨e2, a2, b2⟩ := s2 x2 (hroom x2 (by simp)) e1 b1
    obtain ⟨e3, a3, b3⟩ := s3 x3 (hroom x3 (by simp)) e2 b2
    exact ⟨e3, talk_cons a1 (talk_cons a2 (talk_cons a3 rfl))⟩

/-! ### The hypotheses are met: the demo session with 64 byte signatures -/

/-- The configuration of the example. -/
def honestConfig : SpdmConfig :=
  { numSlots := 2, certBufSize := 64, maxDepth := 2, transcriptBufSize := 512
    capabilities := ["CERT_CAP", "CHAL_CAP"]
    maxDigestSize := 64, asymmetricSigning := ["ECDSA_ECC_NIST_P256"], maxBlocks := 2, maxSize := 8
    maxElements := 2, maxElementDataSize := 8 }

def honestCfg : Cfg := { demoCfg with maxSignatureSize := 64 }

def honestSlot : FilledSlot := ⟨0x10, 1, demoSessionChain, fun _ m => some (demoSign (demoHash m))⟩

/-- A verifier for signatures over the hash of the message. -/
def honestCrypto : Crypto :=
  { demoCrypto with
    sigOk := fun leaf _ msg der => leaf == [0x30, 2, 6, 7] &&
      match Pki.binToDer (demoSign (demoHash msg)) (zeros 200) with
      | .ok (out, n) => out.take n == der
      | _ => false }

theorem honestConfig_valid : ValidConfig true honestConfig :=
  ⟨by decide, by decide, by decide, by decide, by
    intro a ha
    simp only [honestConfig, List.mem_cons, List.not_mem_nil, or_false] at ha
    rcases ha with rfl | rfl
    · exact ⟨1, by simp [capabilityBits]⟩
    · exact ⟨2, by simp [capabilityBits]⟩, by decide⟩

theorem honestConfig_built : Built true honestConfig 4 honestCfg := ⟨rfl, rfl, rfl, rfl, rfl, rfl, rfl, rfl, rfl, rfl, rfl, rfl, rfl, rfl⟩

theorem demoHash_length (m : Bytes) : (demoHash m).length = 32 := by simp [demoHash]

theorem honest_demo : Honest honestCfg honestCrypto [1, 2, 3] [some honestSlot, none] honestSlot where
  number := rfl
  filled := rfl
  fits := by
    intro s hs
    simp only [List.mem_cons, Option.some.injEq, reduceCtorEq, List.not_mem_nil, or_false] at hs
    subst hs
    decide +kernel
  chain := ⟨by decide +kernel, by decide +kernel, by
    intro x hx
    have : x = [0x30, 1, 5] := by simpa [honestSlot, demoSessionChain] using hx
    exact ⟨[5], by decide, this⟩, ⟨[6, 7], by decide, rfl⟩, by decide +kernel⟩
  digest := by decide
  hash := demoHash_length
  leaf := by decide
  anchor := by decide
  trust := by decide
  sign := by
    intro seed msg
    have hr : rawR (demoSign (demoHash msg)) ≠ 0 ∧ rawS (demoSign (demoHash msg)) ≠ 0 := by
      have h32 := demoHash_length msg
      have : (demoSign (demoHash msg)).length / 2 = 32 := by simp [demoSign, h32]
      have hz : beVal (demoHash msg) ≠ 0 := by
        rw [Ne, beVal_zero]
        intro h
        exact absurd (h 0x11 (by simp [demoHash])) (by decide)
      unfold rawR rawS
      rw [this]
      unfold demoSign
      rw [List.take_left' h32, List.drop_left' h32]
      exact ⟨hz, hz⟩
    refine ⟨demoSign (demoHash msg), rfl, by simp [demoSign, demoHash_length], hr.1, hr.2, ?_⟩
    intro der hder
    have hlen : (demoSign (demoHash msg)).length = 64 := by simp [demoSign, demoHash_length]
    obtain ⟨out, n, h1, _, h3⟩ := binToDer_run (out := zeros 200) hr.1 hr.2 (by omega) (by
      intro a b ha hb
      rw [hlen] at ha hb
      have : ∀ k : Nat, k < 128 → Pki.derLength k = 1 := by intro k hk; simp [Pki.derLength]; omega
      rw [this a (by omega), this b (by omega), this _ (by omega)]
      rw [zeros, List.length_replicate]; omega)
    have h4 := c51_der_canonical h3 hder
    have : honestCrypto.sigOk honestSlot.certChain.leafCert 16 msg der = (([0x30, 2, 6, 7] : Bytes) == [0x30, 2, 6, 7] &&
        match Pki.binToDer (demoSign (demoHash msg)) (zeros 200) with | .ok (out, n) => out.take n == der | _ => false) := rfl
    rw [this, h1]
    simp [h4]

/-- Six exchanges complete the demo handshake. -/
example : ∃ ends, talk honestCfg honestCfg honestCrypto honestCrypto (List.replicate 6 ⟨demoReqEnv, demoEnv, zeros 200, zeros 200⟩)
    (Requester.new honestCfg [1, 2, 3], Responder.new honestCfg [some honestSlot, none]) = some ([false, false, false, false, false, true], ends) :=
  c49_honest_handshake honestConfig_valid honestConfig_built (by decide) honest_demo .new rfl (by decide +kernel) _ (by decide +kernel) (by
    intro x hx
    rw [List.eq_of_mem_replicate hx]
    exact ⟨rfl, rfl, by decide +kernel, by decide +kernel, by decide +kernel, by decide +kernel, by decide +kernel, by decide +kernel⟩)

end Spdm
