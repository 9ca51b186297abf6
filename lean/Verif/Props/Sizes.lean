import Verif.Props.Config
import Verif.Props.Requester
import Verif.Props.Handshake
import Verif.Props.Responder
/-!
# What the requester needs to write a request, and what the requests say: C75, C77
-/
namespace Spdm
open Spec

variable {c : Cfg} {cr : Crypto} {root : Bytes} {es : List ReqEvent} {r : Requester} {crypto : Bool} {i : SpdmConfig} {nonceSize : Nat}

theorem offer_length {m : NegotiateAlgorithms} (h : Requester.configToNegotiateAlgorithms c = .ok m) : (Wire.negotiateAlgorithms m).length = 46 := by
  obtain ⟨h1, h2, _, _⟩ := offer_wf h
  simp only [Wire.negotiateAlgorithms, h1, h2, List.length_append, le_length, zeros, List.length_replicate, List.length_cons, List.length_nil]
  rfl

/-! ## C75: what it takes to write a request -/

/-- The sizes of the requests, by the number of responses accepted so far. -/
def requestSizes (nonceSize : Nat) : List Nat := [4, 12, 48, 4, 8, 4 + nonceSize]

/-- **C75.** Take a configuration the build accepts and any history without a failed response, in which the handshake is not complete.  Then
`next_request` writes the next request exactly if the buffer holds it and the transcript has room for it; the requests are 4, 12, 48, 4, 8 and
`4 + NONCE_SIZE` bytes long, and nothing is written past that.  (For GET_VERSION the transcript starts over.) -/
theorem c75_written_iff_fits (hv : ValidConfig crypto i) (hb : Built crypto i nonceSize c) (run : ReqRun c cr root es r) (hf : failed es = false)
    (hp : (accepted es).length < (path (conversation (reqMsgs es))).length) (env : Env) (hn : env.nonce.length = nonceSize) (buf : Bytes) :
    ∃ need, (requestSizes nonceSize)[(accepted es).length]? = some need ∧
      ((∃ out, (Requester.nextRequest c env buf r).1 = .ok out) ↔
        need ≤ buf.length ∧ (if accepted es = [] then 0 else (conversation (reqMsgs es)).text.length) + need ≤ i.transcriptBufSize) ∧
      ∀ out, (Requester.nextRequest c env buf r).1 = .ok out → out.length = need := by
  obtain ⟨st, hl⟩ := req_live' run hf
  obtain ⟨⟨gf, hg, _⟩, _⟩ := c54_capabilities crypto i nonceSize c hv hb
  obtain ⟨na, hneg, _⟩ := c54_algorithms crypto i nonceSize c hv hb
  have hcap : r.transcript.buf.length = i.transcriptBufSize := by rw [hl.cap, hb.transcriptSize]
  have hns : env.nonce.length = c.nonceSize := by rw [hn, hb.nonceSize]
  have h0 : 0 < c.numSlots := by rw [hb.numSlots]; exact hv.slots.1
  have hm := hl.mat
  -- a written request satisfies the bounds
  have back : ∀ {out : Bytes}, (Requester.nextRequest c env buf r).1 = .ok out →
      ∃ st', out.length ≤ buf.length ∧ ReqSend c env st (conversation (reqMsgs es)).text out (Requester.nextRequest c env buf r).2.transcript.get st' ∧
        (Requester.nextRequest c env buf r).2.transcript.get.length ≤ i.transcriptBufSize := by
    intro out hok
    obtain ⟨_, st1, st', hl1, hlen, hsend, _, _, hl2⟩ := req_next run hok
    have : st1 = st := Option.some.inj (hl1.state.symm.trans hl.state)
    subst this
    refine ⟨st', hlen, hsend, ?_⟩
    rw [Transcript.get_length hl2.wf, ← hb.transcriptSize, ← hl2.cap]
    exact hl2.wf
  -- the two directions from the size of the message
  have close : ∀ {need base : Nat} {msg : Bytes} {T : Bytes} {st' : ReqState}, msg.length = need →
      (need ≤ buf.length → base + need ≤ i.transcriptBufSize → Sends c env buf r msg st' T) →
      (∀ out, (Requester.nextRequest c env buf r).1 = .ok out → out.length = need ∧ base + need ≤ i.transcriptBufSize ∧ need ≤ buf.length) →
      (((∃ out, (Requester.nextRequest c env buf r).1 = .ok out) ↔ need ≤ buf.length ∧ base + need ≤ i.transcriptBufSize) ∧
        ∀ out, (Requester.nextRequest c env buf r).1 = .ok out → out.length = need) := by
    intro need base msg T st' _ hs hback
    refine ⟨⟨fun ⟨out, ho⟩ => ⟨(hback out ho).2.2, (hback out ho).2.1⟩, fun ⟨h1, h2⟩ => ?_⟩, fun out ho => (hback out ho).1⟩
    obtain ⟨r1, e, _⟩ := hs h1 h2
    exact ⟨msg, by rw [e]⟩
  have htext := hl.text
  generalize conversation (reqMsgs es) = l at hm back htext hp ⊢
  generalize accepted es = acc at hm hp ⊢
  have hst := hl.state
  cases hm with
  | version hx =>
    refine ⟨4, rfl, ?_⟩
    rw [if_pos rfl]
    refine close (msg := Wire.header .getVersion ++ Wire.getVersion) rfl (fun h1 h2 => send_version hst h1 (by omega)) fun out ho => ?_
    obtain ⟨st', h1, h2, h3⟩ := back ho
    generalize (Requester.nextRequest c env buf r).2.transcript.get = T at h2 h3
    cases h2
    have : (Wire.header .getVersion ++ Wire.getVersion).length = 4 := rfl
    omega
  | capabilities =>
    refine ⟨12, rfl, ?_⟩
    rw [if_neg (by simp)]
    have hlen : ∀ m, (Wire.header .getCapabilities ++ Wire.getCapabilities m).length = 12 := by
      intro m; simp [Wire.getCapabilities, zeros, le_length, header_length]
    refine close (hlen _) (fun h1 h2 => send_capabilities hg hl.wf hst h1 (by rw [htext, hcap]; exact h2)) fun out ho => ?_
    obtain ⟨st', h1, h2, h3⟩ := back ho
    generalize (Requester.nextRequest c env buf r).2.transcript.get = T at h2 h3
    cases h2
    rw [hlen] at h1
    rw [List.length_append, hlen] at h3
    exact ⟨hlen _, h3, h1⟩
  | algorithms =>
    refine ⟨48, rfl, ?_⟩
    rw [if_neg (by simp)]
    have hlen : ∀ {m}, Requester.configToNegotiateAlgorithms c = .ok m → (Wire.header .negotiateAlgorithms ++ Wire.negotiateAlgorithms m).length = 48 := by
      intro m hm; rw [List.length_append, offer_length hm, header_length]
    refine close (hlen hneg) (fun h1 h2 => send_algorithms hneg (offer_length hneg) hl.wf hst h1 (by rw [htext, hcap]; exact h2)) fun out ho => ?_
    obtain ⟨st', h1, h2, h3⟩ := back ho
    generalize (Requester.nextRequest c env buf r).2.transcript.get = T at h2 h3
    cases h2 with
    | algorithms hm =>
      rw [hlen hm] at h1
      rw [List.length_append, hlen hm] at h3
      exact ⟨hlen hm, h3, h1⟩
  | digests =>
    refine ⟨4, rfl, ?_⟩
    rw [if_neg (by simp)]
    have hlen : (Wire.header .getDigests ++ Wire.getDigests).length = 4 := rfl
    refine close hlen (fun h1 h2 => send_digests hl.wf hst h1 (by rw [htext, hcap]; exact h2)) fun out ho => ?_
    obtain ⟨st', h1, h2, h3⟩ := back ho
    generalize (Requester.nextRequest c env buf r).2.transcript.get = T at h2 h3
    cases h2
    rw [hlen] at h1
    rw [List.length_append, hlen] at h3
    exact ⟨hlen, h3, h1⟩
  | certificate =>
    refine ⟨8, rfl, ?_⟩
    rw [if_neg (by simp)]
    have hlen : (Wire.header .getCertificate ++ Wire.getCertificate ⟨0, 0, UInt16.ofNat c.maxCertChainSize⟩).length = 8 := by
      simp [Wire.getCertificate, zeros, le_length, header_length]
    refine close hlen (fun h1 h2 => send_certificate h0 hl.wf hst h1 (by rw [htext, hcap]; exact h2)) fun out ho => ?_
    obtain ⟨st', h1, h2, h3⟩ := back ho
    generalize (Requester.nextRequest c env buf r).2.transcript.get = T at h2 h3
    cases h2
    rw [hlen] at h1
    rw [List.length_append, hlen] at h3
    exact ⟨hlen, h3, h1⟩
  | @challenge _ _ _ _ _ _ _ s =>
    refine ⟨4 + nonceSize, rfl, ?_⟩
    rw [if_neg (by simp)]
    have hlen : (Wire.header .challenge ++ Wire.challenge ⟨s.certSlot, .none, env.nonce⟩).length = 4 + nonceSize := by
      simp [Wire.challenge, header_length, hn]; omega
    refine close hlen (fun h1 h2 => send_challenge hns hl.wf hst (by rw [hb.nonceSize]; exact h1) (by rw [htext, hcap, hb.nonceSize]; exact h2)) fun out ho => ?_
    obtain ⟨st', h1, h2, h3⟩ := back ho
    generalize (Requester.nextRequest c env buf r).2.transcript.get = T at h2 h3
    cases h2
    rw [hlen] at h1
    rw [List.length_append, hlen] at h3
    exact ⟨hlen, h3, h1⟩
  | done h =>
    have := congrArg List.length h
    simp only [List.length_map] at this
    omega

/-- A session under the build's configuration: the first request and its response were exchanged.  With 12 bytes GET_CAPABILITIES is written, with 11
it is not. -/
example : let calls : List ReqCall := demoReqCalls 2
    let es := reqBehaviour honestCfg honestCrypto (Requester.new honestCfg [1, 2, 3]) calls
    let r := reqAfter honestCfg honestCrypto (Requester.new honestCfg [1, 2, 3]) calls
    failed es = false ∧ (accepted es).length = 1 ∧ (path (conversation (reqMsgs es))).length = 3 ∧
    (Requester.nextRequest honestCfg demoReqEnv (zeros 12) r).1.isOk = true ∧ (Requester.nextRequest honestCfg demoReqEnv (zeros 11) r).1.isOk = false := by decide +kernel

/-! ## C77: the endpoints say what they were configured for -/

/-- The bits a list of capability names stands for. -/
def CapabilityWord (names : List String) (w : Nat) : Prop := ∀ k, w.testBit k = true ↔ ∃ a ∈ names, (a, k) ∈ capabilityBits

/-- **C77**, requester.  Under a configuration the build accepts, whatever the history: every GET_VERSION, GET_CAPABILITIES, NEGOTIATE_ALGORITHMS, GET_DIGESTS and
GET_CERTIFICATE that is written has exactly these bytes.  The capability word has the bits of the configured names and no others; the signature word has bit 4 (P-256)
exactly if signing is configured; SHA-256, 384 and 512 are offered with the ring provider, SHA-256 without. -/
theorem c77_requests (hv : ValidConfig crypto i) (hb : Built crypto i nonceSize c) (run : ReqRun c cr root es r) (env : Env) (buf out : Bytes)
    (hok : (Requester.nextRequest c env buf r).1 = .ok out) :
    (code out = some 0x84 → out = [0x10, 0x84, 0, 0]) ∧
    (code out = some 0xE1 → ∃ w, CapabilityWord i.capabilities w ∧ w < 2 ^ 32 ∧ out = [0x11, 0xE1, 0, 0, 0, 12, 0, 0] ++ le 4 w) ∧
    (code out = some 0xE3 → out = [0x11, 0xE3, 4, 0, 48, 0, 1, 0, if i.asymmetricSigning = [] then 0 else 0x10, 0, 0, 0, if crypto then 7 else 1, 0, 0, 0] ++ zeros 16 ++
      [2, 0x20, 0x12, 0, 3, 0x20, 6, 0, 4, 0x20, 0x90, 0, 5, 0x20, 1, 0]) ∧
    (code out = some 0x81 → out = [0x11, 0x81, 0, 0]) ∧
    (code out = some 0x82 → out = [0x11, 0x82, 0, 0, 0, 0] ++ le 2 i.certBufSize) := by
  obtain ⟨⟨gf, hg, hgw⟩, _⟩ := c54_capabilities crypto i nonceSize c hv hb
  obtain ⟨na, hneg, hnw⟩ := c54_algorithms crypto i nonceSize c hv hb
  obtain ⟨_, st, st', hl, hlen, hsend, _, _, _⟩ := req_next run hok
  generalize (Requester.nextRequest c env buf r).2.transcript.get = T at hsend
  cases hsend with
  | version => exact ⟨fun _ => rfl, by simp [code, Wire.header, Wire.getVersion], by simp [code, Wire.header, Wire.getVersion], by simp [code, Wire.header, Wire.getVersion], by simp [code, Wire.header, Wire.getVersion]⟩
  | capabilities hm =>
    rw [hg] at hm
    cases hm
    refine ⟨?_, fun _ => ⟨gf.toNat, hgw, gf.toNat_lt, by simp [Wire.header, Wire.getCapabilities, zeros]⟩, ?_, ?_, ?_⟩ <;> (rw [code_header]; simp [Wire.header])
  | algorithms hm =>
    rw [hneg] at hm
    cases hm
    refine ⟨?_, ?_, fun _ => ?_, ?_, ?_⟩
    · rw [code_header]; simp [Wire.header]
    · rw [code_header]; simp [Wire.header]
    · have hna : na = if i.asymmetricSigning = [] then 0 else 0x10 := by
        apply UInt32.toNat_inj.mp
        apply Nat.eq_of_testBit_eq
        intro k
        have := hnw k
        split
        · rename_i h0
          cases hx : na.toNat.testBit k
          · simp
          · exact absurd h0 (this.mp hx).2
        · rename_i h0
          have hk : (16 : UInt32).toNat.testBit k = decide (k = 4) := by
            show Nat.testBit 16 k = _
            rw [show (16 : Nat) = 2 ^ 4 from rfl, Nat.testBit_two_pow]
            exact decide_eq_decide.mpr eq_comm
          show _ = (16 : UInt32).toNat.testBit k
          rw [hk]
          by_cases h4 : k = 4
          · simp only [h4, decide_true]; subst h4; exact this.mpr ⟨rfl, h0⟩
          · simp only [h4, decide_false]
            cases hx : na.toNat.testBit k
            · rfl
            · exact absurd (this.mp hx).1 h4
      rw [hna]
      by_cases h0 : i.asymmetricSigning = [] <;> cases crypto <;> simp only [h0, if_true, if_false] <;> rfl
    · rw [code_header]; simp [Wire.header]
    · rw [code_header]; simp [Wire.header]
  | digests => exact ⟨by simp [code, Wire.header, Wire.getDigests], by simp [code, Wire.header, Wire.getDigests], by simp [code, Wire.header, Wire.getDigests], fun _ => rfl, by simp [code, Wire.header, Wire.getDigests]⟩
  | certificate h0 =>
    refine ⟨?_, ?_, ?_, ?_, fun _ => ?_⟩
    · rw [code_header]; simp [Wire.header]
    · rw [code_header]; simp [Wire.header]
    · rw [code_header]; simp [Wire.header]
    · rw [code_header]; simp [Wire.header]
    · rw [hb.maxCertChainSize]
      have hle : le 2 (UInt16.ofNat i.certBufSize).toNat = le 2 i.certBufSize := by
        simp [le, List.range_succ]
        constructor <;> (apply UInt8.toNat_inj.mp; simp <;> omega)
      simp only [Wire.header, Wire.getCertificate, zeros, hle]
      rfl
  | challenge => refine ⟨?_, ?_, ?_, ?_, ?_⟩ <;> (rw [code_header]; simp [Wire.header])

/-- **C77**, responder: every VERSION and CAPABILITIES it sends. -/
theorem c77_responses {slots : List (Option FilledSlot)} (hl : slots.length = c.numSlots) (hv : ValidConfig crypto i) (hb : Built crypto i nonceSize c) {es : List RspEvent} {r : Responder}
    (run : RspRun c cr slots es r) (env : Env) (req buf out : Bytes) (hok : (Responder.handleMsg c cr env req buf r).1 = .ok ⟨out, none⟩) :
    (code req = some 0x84 → out = [0x10, 0x04, 0, 0, 0, 2, 0, 0x10, 0, 0x11]) ∧
    (code req = some 0xE1 → ∃ w, CapabilityWord i.capabilities w ∧ w < 2 ^ 32 ∧ out = [0x11, 0x61, 0, 0, 0, 12, 0, 0] ++ le 4 w) := by
  have h8 : c.numSlots ≤ 8 := by rw [hb.numSlots]; exact hv.slots.2
  obtain ⟨_, ⟨gf, hg, hgw⟩⟩ := c54_capabilities crypto i nonceSize c hv hb
  obtain ⟨st, st', sg, hlive, _, step, _, _⟩ := run_step hl h8 run (run_alive hl h8 run hok) hok
  generalize (Responder.handleMsg c cr env req buf r).2.transcript.get = T at step
  cases step with
  | getVersion _ hreq => exact ⟨fun _ => by decide, by rw [hreq, List.append_assoc, code_header]; simp [Wire.header]⟩
  | getCapabilities hreq _ hr =>
    rw [hg] at hr
    cases hr
    exact ⟨by rw [hreq, List.append_assoc, code_header]; simp [Wire.header], fun _ => ⟨gf.toNat, hgw, gf.toNat_lt, by simp [Wire.header, Wire.capabilities, zeros]⟩⟩
  | negotiate hreq => exact ⟨by rw [code_of_take hreq]; simp [Wire.header], by rw [code_of_take hreq]; simp [Wire.header]⟩
  | getDigests _ hreq => exact ⟨by rw [code_of_take hreq]; simp [Wire.header], by rw [code_of_take hreq]; simp [Wire.header]⟩
  | getCertificate hreq => exact ⟨by rw [hreq, List.append_assoc, code_header]; simp [Wire.header], by rw [hreq, List.append_assoc, code_header]; simp [Wire.header]⟩
  | challenge hreq => exact ⟨by rw [hreq, List.append_assoc, code_header]; simp [Wire.header], by rw [hreq, List.append_assoc, code_header]; simp [Wire.header]⟩

/-- Under the configuration of C49's example: the word is 6. -/
example : ValidConfig true honestConfig ∧ Built true honestConfig 4 honestCfg ∧
    (Requester.nextRequest honestCfg demoReqEnv (zeros 200) (reqAfter honestCfg honestCrypto (Requester.new honestCfg [1, 2, 3]) (demoReqCalls 2))).1 =
      .ok ([0x11, 0xE1, 0, 0, 0, 12, 0, 0] ++ le 4 6) ∧
    (Responder.handleMsg honestCfg honestCrypto demoEnv demoGetCapabilities (zeros 200) (after honestCfg honestCrypto (Responder.new honestCfg [some honestSlot, none]) (demoCalls 1))).1 =
      .ok ⟨[0x11, 0x61, 0, 0, 0, 12, 0, 0] ++ le 4 6, none⟩ := ⟨honestConfig_valid, honestConfig_built, by decide +kernel, by decide +kernel⟩

end Spdm
