import Verif.Lemmas.Auth
import Verif.DemoSession
/-!
# The requester (C41 to C46)

Histories `ReqRun c cr root es r` are all sequences `es` of `next_request` and `handle_msg` calls, with their results, from a fresh requester,
in any interleaving and with any response bytes; `accepted es` are the responses for which `handle_msg` returned `Ok`; `reqMsgs es` the
requests written and the responses accepted.
-/
namespace Spdm
open Spec

variable {c : Cfg} {cr : Crypto} {root : Bytes} {es : List ReqEvent} {r : Requester}

/-! ## C41: completion -/

/-- A live requester's accepted responses are a prefix of the path, all of it exactly when it has completed. -/
theorem path_of {acc : List Bytes} {l : Log} {st : ReqState} (h : StMatch c acc l st) :
    (st = .newSession → acc.map code = (path l).map some) ∧ (st ≠ .newSession → acc.length < (path l).length) := by
  cases h with
  | done h => exact ⟨fun _ => h, fun hn => absurd rfl hn⟩
  | version => exact ⟨fun h => by simp at h, fun _ => by simp [path]⟩
  | capabilities => exact ⟨fun h => by simp at h, fun _ => by simp [path]⟩
  | algorithms => exact ⟨fun h => by simp at h, fun _ => by simp [path]⟩
  | digests _ _ _ _ hb => exact ⟨fun h => by simp at h, fun _ => by simp [path, hb]⟩
  | certificate _ _ _ _ hb => exact ⟨fun h => by simp at h, fun _ => by simp [path, hb]⟩
  | challenge _ _ _ _ hb hb2 => exact ⟨fun h => by simp at h, fun _ => by simp [path, hb, hb2]⟩

/-- **C41.** `handle_msg` returns whether the handshake is complete, and it says so exactly when the responses accepted so far, in order, are
VERSION, CAPABILITIES, ALGORITHMS and, if both sides advertise CERT_CAP, DIGESTS and CERTIFICATE and, if both sides also advertise CHAL_CAP,
CHALLENGE_AUTH (which C42 shows to be verified). -/
theorem c41_completion (run : ReqRun c cr root es r) (rsp : Bytes) (b : Bool) (hok : (Requester.handleMsg c cr rsp r).1 = .ok b) :
    b = true ↔ (accepted es ++ [rsp]).map code = (path (conversation (reqMsgs es ++ [rsp]))).map some := by
  obtain ⟨hf, st, st', hl, hb, hrecv, hl'⟩ := req_recv run hok
  have hm := hl'.mat
  rw [accepted_append, reqMsgs_append] at hm
  obtain ⟨p1, p2⟩ := path_of hm
  subst hb
  constructor
  · intro h
    exact p1 (of_decide_eq_true h)
  · intro h
    by_cases hn : st' = .newSession
    · exact decide_eq_true hn
    · have := p2 hn
      have h' := congrArg List.length h
      simp only [List.length_map] at h'
      simp only [accepted, List.filterMap_cons, List.filterMap_nil, reqMsgs, ReqEvent.msg] at this
      simp only [accepted, reqMsgs] at h'
      omega

/-- **C41**, over histories: wherever completion is reported, the responses accepted up to there are the whole path. -/
theorem c41_history {es1 es2 : List ReqEvent} {rsp : Bytes} (run : ReqRun c cr root (es1 ++ .recv rsp (.ok true) :: es2) r) :
    (accepted (es1 ++ [.recv rsp (.ok true)])).map code = (path (conversation (reqMsgs (es1 ++ [.recv rsp (.ok true)])))).map some := by
  obtain ⟨r1, calls, h1, h2, _⟩ := run.split
  rcases calls with _ | ⟨x, xs⟩
  · simp [reqBehaviour] at h2
  · simp only [reqBehaviour, List.cons.injEq] at h2
    cases x with
    | next env buf => simp [ReqCall.run] at h2
    | recv rsp' =>
      simp only [ReqCall.run, ReqEvent.recv.injEq] at h2
      obtain ⟨⟨rfl, h3⟩, _⟩ := h2
      rw [accepted_append, reqMsgs_append]
      exact (c41_completion h1 rsp true h3.symm).mp rfl

/-- After completion the requester writes no request and accepts no response: `next_request` reports InitializationComplete. -/
theorem c41_complete_is_final {es1 es2 : List ReqEvent} {rsp : Bytes} (run : ReqRun c cr root (es1 ++ .recv rsp (.ok true) :: es2) r) :
    ∀ e ∈ es2, (∃ env buf, e = .next env buf (.err .initializationComplete)) ∨ (∃ env buf k, e = .next env buf (.panic k)) ∨ (∃ m k, e = .recv m (.panic k)) := by
  rw [show es1 ++ .recv rsp (.ok true) :: es2 = (es1 ++ [.recv rsp (.ok true)]) ++ es2 by simp] at run
  obtain ⟨r1, calls, h1, h2, _⟩ := run.split
  obtain ⟨r0, x, h0, he, hr⟩ := h1.last
  have hst : r1.state = some .newSession := by
    cases x with
    | next env buf => simp [ReqCall.run] at he
    | recv m =>
      simp only [ReqCall.run, ReqEvent.recv.injEq] at he
      obtain ⟨rfl, he⟩ := he
      obtain ⟨_, st, st', _, hb, _, hl'⟩ := req_recv h0 he.symm
      rw [hr]
      simp only [ReqCall.run]
      rw [hl'.state, of_decide_eq_true hb.symm]
  subst h2
  clear run hr he h0 h1
  have key : ∀ (calls : List ReqCall) (r1 : Requester), (r1.state = some .newSession ∨ r1.state = none) → ∀ e ∈ reqBehaviour c cr r1 calls,
      (∃ env buf, e = .next env buf (.err .initializationComplete)) ∨ (∃ env buf k, e = .next env buf (.panic k)) ∨ (∃ m k, e = .recv m (.panic k)) := by
    intro calls
    induction calls with
    | nil => intro r1 _ e he; simp [reqBehaviour] at he
    | cons x xs ih =>
      intro r1 hst e he
      simp only [reqBehaviour, List.mem_cons] at he
      cases x with
      | next env buf =>
        rcases hst with hst | hst
        · have hn : Requester.nextRequest c env buf r1 = (.err .initializationComplete, r1) := by simp [Requester.nextRequest, hst]
          simp only [ReqCall.run, hn] at he
          rcases he with rfl | he
          · exact .inl ⟨_, _, rfl⟩
          · exact ih r1 (.inl hst) e he
        · have hn : Requester.nextRequest c env buf r1 = (.panic .unwrapNone, r1) := by simp [Requester.nextRequest, hst]
          simp only [ReqCall.run, hn] at he
          rcases he with rfl | he
          · exact .inr (.inl ⟨_, _, _, rfl⟩)
          · exact ih r1 (.inr hst) e he
      | recv m =>
        rcases hst with hst | hst
        · have hn : Requester.handleMsg c cr m r1 = (.panic .unimplemented, { r1 with state := none }) := by simp [Requester.handleMsg, hst, Requester.handle]
          simp only [ReqCall.run, hn] at he
          rcases he with rfl | he
          · exact .inr (.inr ⟨_, _, rfl⟩)
          · exact ih _ (.inr rfl) e he
        · have hn : Requester.handleMsg c cr m r1 = (.panic .unwrapNone, r1) := by simp [Requester.handleMsg, hst]
          simp only [ReqCall.run, hn] at he
          rcases he with rfl | he
          · exact .inr (.inr ⟨_, _, rfl⟩)
          · exact ih r1 (.inr hst) e he
  exact key calls r1 (.inl hst)

/-- The demonstration session completes with the sixth response and not before. -/
example : (Requester.handleMsg demoCfg demoCrypto (demoReplies[5]?.getD []) (demoRequester 11)).1 = .ok true ∧
    (Requester.handleMsg demoCfg demoCrypto (demoReplies[4]?.getD []) (demoRequester 9)).1 = .ok false ∧
    path (conversation (reqMsgs (demoReqEvents 12))) = [0x04, 0x61, 0x63, 0x01, 0x02, 0x03] := by decide +kernel

/-! ## C42: authentication -/

/-- **C42.** Whatever happened before, an accepted CHALLENGE_AUTH is about the slot of the accepted CERTIFICATE, carries the hash of the chain
received in it, the chain verifies up to the configured root and the signature verifies under its leaf over the hash of the transcript of the
whole conversation (`Authenticated`). -/
theorem c42_authenticated (h8 : c.numSlots ≤ 8) (run : ReqRun c cr root es r) (rsp : Bytes) (hk : code rsp = some 0x03) (b : Bool)
    (hok : (Requester.handleMsg c cr rsp r).1 = .ok b) :
    b = true ∧ ∃ m0 m1 m2 m3 cert slot chain nonce sig, accepted es = [m0, m1, m2, m3, cert] ∧
      Authenticated c cr root (conversation (reqMsgs es)) cert rsp slot chain nonce sig := by
  obtain ⟨hf, st, st', hl, hb, hrecv, hl'⟩ := req_recv run hok
  have hm := hl.mat
  generalize hacc : accepted es = acc at hm
  generalize (Requester.handleMsg c cr rsp r).2.transcript.get = tr' at hrecv
  have hst : ∃ s, st = .challenge s := by
    cases hrecv with
    | version h3 hh => rw [code_of_take hh] at hk; simp [Wire.header] at hk
    | capabilities hr => rw [hr, List.append_assoc, code_header] at hk; simp [Wire.header] at hk
    | algorithms h3 hh => rw [code_of_take hh] at hk; simp [Wire.header] at hk
    | digests h3 hh => rw [code_of_take hh] at hk; simp [Wire.header] at hk
    | certificate hr => rw [hr, List.append_assoc, code_header] at hk; simp [Wire.header] at hk
    | challenge => exact ⟨_, rfl⟩
  obtain ⟨s, rfl⟩ := hst
  have hacc5 : ∃ m0 m1 m2 m3 m4, acc = [m0, m1, m2, m3, m4] := by
    generalize conversation (reqMsgs es) = l at hm
    cases hm with
    | challenge => exact ⟨_, _, _, _, _, rfl⟩
  obtain ⟨m0, m1, m2, m3, m4, rfl⟩ := hacc5
  obtain ⟨chain, nonce, sig, hau, hn⟩ := hrecv.authenticated h8 hm
  exact ⟨by rw [hb, hn]; rfl, m0, m1, m2, m3, m4, s.certSlot, chain, nonce, sig, rfl, hau⟩

/-- **C42**, freshness: if the requester wrote a CHALLENGE before, that message names the authenticated slot, ends in the nonce drawn for it,
and is part of the transcript whose signature was verified. -/
theorem c42_fresh (h8 : c.numSlots ≤ 8) {es1 es2 : List ReqEvent} {env : Env} {buf out : Bytes}
    (run : ReqRun c cr root (es1 ++ .next env buf (.ok out) :: es2) r) (hout : code out = some 0x83) (rsp : Bytes) (hk : code rsp = some 0x03) (b : Bool)
    (hok : (Requester.handleMsg c cr rsp r).1 = .ok b) :
    ∃ cert slot chain nonce sig pre post, (accepted (es1 ++ .next env buf (.ok out) :: es2))[4]? = some cert ∧
      Authenticated c cr root (conversation (reqMsgs (es1 ++ .next env buf (.ok out) :: es2))) cert rsp slot chain nonce sig ∧
      out = [0x11, 0x83, slot, 0] ++ env.nonce ∧
      (conversation (reqMsgs (es1 ++ .next env buf (.ok out) :: es2))).text = pre ++ out ++ post := by
  obtain ⟨_, m0, m1, m2, m3, cert, slot, chain, nonce, sig, hacc, hau⟩ := c42_authenticated h8 run rsp hk b hok
  obtain ⟨r1, calls, h1, h2, _⟩ := run.split
  have hx : (Requester.nextRequest c env buf r1).1 = .ok out := by
    rcases calls with _ | ⟨x, xs⟩
    · simp [reqBehaviour] at h2
    · simp only [reqBehaviour, List.cons.injEq] at h2
      cases x with
      | recv _ => simp [ReqCall.run] at h2
      | next env' buf' =>
        simp only [ReqCall.run, ReqEvent.next.injEq] at h2
        obtain ⟨⟨rfl, rfl, h3⟩, _⟩ := h2
        exact h3.symm
  obtain ⟨hf, st, st', hl, _, hsend, _, _, hl'⟩ := req_next h1 hx
  have hm := hl.mat
  generalize hacc1 : accepted es1 = acc at hm
  generalize (Requester.nextRequest c env buf r1).2.transcript.get = tr' at hsend
  -- the CHALLENGE was written in the challenge state
  have hst : ∃ s, st = .challenge s ∧ out = Wire.header .challenge ++ Wire.challenge ⟨s.certSlot, .none, env.nonce⟩ ∧ tr' = (conversation (reqMsgs es1)).text ++ out := by
    cases hsend with
    | version => rw [code_header] at hout; simp [Wire.header] at hout
    | capabilities => rw [code_header] at hout; simp [Wire.header] at hout
    | algorithms => rw [code_header] at hout; simp [Wire.header] at hout
    | digests => rw [code_header] at hout; simp [Wire.header] at hout
    | certificate => rw [code_header] at hout; simp [Wire.header] at hout
    | challenge => exact ⟨_, rfl, rfl, rfl⟩
  obtain ⟨s, rfl, hout2, _⟩ := hst
  have hacc' := hacc
  rw [accepted_append, hacc1] at hacc'
  generalize hlog : conversation (reqMsgs es1) = l at hm
  cases hm with
  | @challenge _ n0 n1 n2 n3 n4 tail _ ct h0 h1' h2' hw hb hb2 h3 h4 hcw hs hc hz =>
    simp only [List.cons_append, List.nil_append, List.cons.injEq] at hacc'
    obtain ⟨_, _, _, _, hcert, _⟩ := hacc'
    have hslot : s.certSlot = slot := by
      obtain ⟨rem, ctail, hce⟩ := hau.certificate
      rw [← hcert, h4] at hce
      have := congrArg (fun z : Bytes => z[2]?) hce
      simp [Wire.header, Wire.certificate] at this
      rw [hs, this]
    -- the transcript only grows afterwards
    have hmsgs : reqMsgs (es1 ++ .next env buf (.ok out) :: es2) = reqMsgs es1 ++ ([out] ++ reqMsgs es2) := by
      rw [reqMsgs_append]; rfl
    have hno : ∀ m ∈ reqMsgs es2, code m ≠ some 0x84 := by
      have run' : ReqRun c cr root ((es1 ++ [.next env buf (.ok out)]) ++ es2) r := by simpa using run
      refine no_version_after run' ?_
      rw [accepted_append, hacc1]; simp
    have hadd : (conversation (reqMsgs es1 ++ [out])).text = (conversation (reqMsgs es1)).text ++ out := by
      rw [conversation_snoc, add_plain hout (by decide)]
    obtain ⟨post, hpost⟩ := text_prefix (conversation (reqMsgs es1 ++ [out])) (reqMsgs es2) hno
    refine ⟨cert, slot, chain, nonce, sig, (conversation (reqMsgs es1)).text, post, by rw [hacc]; rfl, hau, ?_, ?_⟩
    · rw [hout2, hslot]; simp [Wire.header, Wire.challenge, Wire.hashType]
    · rw [hmsgs, ← List.append_assoc, conversation, List.foldl_append, ← conversation, hpost, hadd]

/-- The hypotheses hold of the demonstration session, whose CHALLENGE carries the nonce 5 6 7 8. -/
example : (Requester.handleMsg demoCfg demoCrypto (demoReplies[5]?.getD []) (demoRequester 11)).1 = .ok true ∧ code (demoReplies[5]?.getD []) = some 0x03 ∧
    demoReqEvents 11 = demoReqEvents 10 ++ [.next demoReqEnv (zeros 200) (.ok [0x11, 0x83, 0, 0, 5, 6, 7, 8])] ∧
    (conversation (reqMsgs (demoReqEvents 11))).text.drop 237 = [0x11, 0x83, 0, 0, 5, 6, 7, 8] := by decide +kernel

/-! ## C43: failure is final -/

/-- **C43.** Once `handle_msg` has failed, no request is written and no response accepted any more, whatever calls follow. -/
theorem c43_failure_final {es1 es2 : List ReqEvent} (run : ReqRun c cr root (es1 ++ es2) r) (hf : failed es1 = true) : ∀ e ∈ es2, e.msg = none := by
  induction es2 using List.reverseRecOn generalizing r with
  | nil => intro e he; simp at he
  | append_singleton es2 e ih =>
    rw [← List.append_assoc] at run
    obtain ⟨r1, x, hr, he, _⟩ := run.last
    intro e' he'
    rw [List.mem_append] at he'
    rcases he' with he' | he'
    · exact ih hr e' he'
    · simp only [List.mem_singleton] at he'
      subst he'
      have hf' : failed (es1 ++ es2) = true := by rw [failed_append, hf]; rfl
      cases x with
      | next env buf =>
        simp only [ReqCall.run] at he
        rcases hx : (Requester.nextRequest c env buf r1).1 with out | er | k <;> rw [hx] at he <;> subst he <;> simp [ReqEvent.msg]
        have := (req_next hr hx).1
        rw [hf'] at this; simp at this
      | recv rsp =>
        simp only [ReqCall.run] at he
        rcases hx : (Requester.handleMsg c cr rsp r1).1 with b | er | k <;> rw [hx] at he <;> subst he <;> simp [ReqEvent.msg]
        have := (req_recv hr hx).1
        rw [hf'] at this; simp at this

/-- In particular it never completes. -/
theorem c43_never_completes {es1 es2 : List ReqEvent} (run : ReqRun c cr root (es1 ++ es2) r) (hf : failed es1 = true) (rsp : Bytes) :
    (.recv rsp (.ok true)) ∉ es2 := by
  intro h
  have := c43_failure_final run hf _ h
  simp [ReqEvent.msg] at this

/-- A failing history: VERSION without a common version, then the honest VERSION. -/
example : reqBehaviour demoCfg demoCrypto (Requester.new demoCfg [1, 2, 3]) [.next demoReqEnv (zeros 20), .recv [0x10, 0x04, 0, 0, 0, 1, 0, 0x20], .recv (demoReplies[0]?.getD []), .next demoReqEnv (zeros 20)] =
    [.next demoReqEnv (zeros 20) (.ok [0x10, 0x84, 0, 0]), .recv [0x10, 0x04, 0, 0, 0, 1, 0, 0x20] (.err .noSupportedVersions),
     .recv (demoReplies[0]?.getD []) (.panic .unimplemented), .next demoReqEnv (zeros 20) (.panic .unwrapNone)] := by decide +kernel

/-! ## C44: the transcript -/

/-- **C44.** As long as no response was rejected, the transcript is that of the conversation: the requests written and the responses accepted
since the last GET_VERSION, in order, CHALLENGE_AUTH without its signature. -/
theorem c44_transcript_exact (run : ReqRun c cr root es r) (hf : failed es = false) : r.transcript.get = (conversation (reqMsgs es)).text := by
  obtain ⟨st, hl⟩ := req_live' run hf
  exact hl.text

example : (demoRequester 12).transcript.get.length = 4 + 10 + 12 + 12 + 48 + 52 + 4 + 36 + 8 + 51 + 8 + (142 - 64) ∧ failed (demoReqEvents 12) = false := by decide +kernel

/-! ## C45: which phases -/

/-- **C45.** After an accepted ALGORITHMS response the handshake is complete exactly if CERT_CAP is not advertised by both sides; after an accepted
CERTIFICATE response exactly if CHAL_CAP is not.  It is never complete after VERSION, CAPABILITIES or DIGESTS, always after CHALLENGE_AUTH. -/
theorem c45_gates (run : ReqRun c cr root es r) (rsp : Bytes) (b : Bool) (hok : (Requester.handleMsg c cr rsp r).1 = .ok b) :
    let l := conversation (reqMsgs es)
    (code rsp = some 0x04 → b = false) ∧ (code rsp = some 0x61 → b = false) ∧ (code rsp = some 0x63 → b = !l.both 1) ∧
    (code rsp = some 0x01 → b = false) ∧ (code rsp = some 0x02 → b = !l.both 2) ∧ (code rsp = some 0x03 → b = true) := by
  obtain ⟨hf, st, st', hl, hb, hrecv, hl'⟩ := req_recv run hok
  have hm := hl.mat
  generalize conversation (reqMsgs es) = l at hm hrecv
  generalize accepted es = acc at hm
  generalize (Requester.handleMsg c cr rsp r).2.transcript.get = tr' at hrecv
  subst hb
  cases hrecv with
  | version h3 hh => rw [code_of_take hh]; simp [Wire.header]
  | capabilities hr => rw [hr, List.append_assoc, code_header]; simp [Wire.header]
  | algorithms h3 hh =>
    rw [code_of_take hh]
    cases hm with
    | algorithms h0 h1 hq hp' ho =>
      have hb : ∀ caps : Caps, l.reqCaps = caps.requesterCap.toNat → l.rspCaps = caps.responderCap.toNat →
          Requester.bothHave caps ReqFlags.certCap RspFlags.certCap = l.both 1 := by
        intro caps hq hp; rw [bothHave_cert, Log.both, hq, hp]
      rw [hb _ hq hp']
      cases hb1 : l.both 1 <;> simp [Wire.header, hb1]
  | digests h3 hh => rw [code_of_take hh]; simp [Wire.header]
  | certificate hr =>
    rw [hr, List.append_assoc, code_header]
    cases hm with
    | certificate h0 h1 h2 hw hb h3 =>
      have hb : ∀ caps : Caps, l.reqCaps = caps.requesterCap.toNat → l.rspCaps = caps.responderCap.toNat →
          Requester.bothHave caps ReqFlags.chalCap RspFlags.chalCap = l.both 2 := by
        intro caps hq hp; rw [bothHave_chal, Log.both, hq, hp]
      rw [hb _ hw.req hw.rsp]
      cases hb1 : l.both 2 <;> simp [Wire.header, hb1]
  | challenge h3 hh => rw [code_of_take hh]; simp [Wire.header]

/-- **C45**, the requests: every request written asks for the next response of the path (which depends on the capabilities of both sides only). -/
theorem c45_requests (run : ReqRun c cr root es r) (env : Env) (buf out : Bytes) (hok : (Requester.nextRequest c env buf r).1 = .ok out) :
    code out = requestCodes[(accepted es).length]? ∧ (accepted es).length < (path (conversation (reqMsgs es))).length := by
  obtain ⟨_, _, _, _, _, _, h1, h2, _⟩ := req_next run hok
  exact ⟨h1.symm, h2⟩

/-- A responder without CERT_CAP: completion after ALGORITHMS.  With CERT_CAP only: after CERTIFICATE. -/
example :
    let caps (f : UInt8) : Bytes := [0x11, 0x61, 0, 0, 0, 12, 0, 0, f, 0, 0, 0]
    let run (f : UInt8) (n : Nat) := (reqBehaviour demoCfg demoCrypto (Requester.new demoCfg [1, 2, 3])
      ((demoReqAll.take 3 ++ [ReqCall.recv (caps f)] ++ demoReqAll.drop 4).take n)).map fun e => match e with | .recv _ res => some res | _ => none
    run 0 6 = [none, some (.ok false), none, some (.ok false), none, some (.ok true)] ∧
    run 2 10 = [none, some (.ok false), none, some (.ok false), none, some (.ok false), none, some (.ok false), none, some (.ok true)] := by decide +kernel

/-! ## C46: the slot -/

/-- **C46 is false.** The requester asks for the certificate of slot 0 and accepts an answer for slot 1 (`demoCfg` has two slots); its CHALLENGE is
then for slot 1. -/
theorem c46_other_slot_accepted : ∃ rsp, (demoReqEvents 9)[8]? = some (.next demoReqEnv (zeros 200) (.ok [0x11, 0x82, 0, 0, 0, 0, 64, 0])) ∧
    rsp.take 4 = [0x11, 0x02, 1, 0] ∧ (Requester.handleMsg demoCfg demoCrypto rsp (demoRequester 9)).1 = .ok false ∧
    (Requester.nextRequest demoCfg demoReqEnv (zeros 200) (Requester.handleMsg demoCfg demoCrypto rsp (demoRequester 9)).2).1 = .ok [0x11, 0x83, 1, 0, 5, 6, 7, 8] :=
  ⟨[0x11, 0x02, 1, 0] ++ (demoReplies[4]?.getD []).drop 4, by decide +kernel, by decide +kernel, by decide +kernel, by decide +kernel⟩

/-- What holds: the slot named in the CHALLENGE, and authenticated by the CHALLENGE_AUTH (C42), is that of the CERTIFICATE accepted. -/
theorem c46_certificate_slot_partial (run : ReqRun c cr root es r) (env : Env) (buf out : Bytes) (hok : (Requester.nextRequest c env buf r).1 = .ok out)
    (hk : code out = some 0x83) : ∃ cert slot, (accepted es)[4]? = some cert ∧ cert[2]? = some slot ∧ out = [0x11, 0x83, slot, 0] ++ env.nonce := by
  obtain ⟨hf, st, st', hl, _, hsend, _, _, _⟩ := req_next run hok
  have hm := hl.mat
  generalize accepted es = acc at hm ⊢
  generalize conversation (reqMsgs es) = l at hm hsend
  generalize (Requester.nextRequest c env buf r).2.transcript.get = tr' at hsend
  cases hsend with
  | version => rw [code_header] at hk; simp [Wire.header] at hk
  | capabilities => rw [code_header] at hk; simp [Wire.header] at hk
  | algorithms => rw [code_header] at hk; simp [Wire.header] at hk
  | digests => rw [code_header] at hk; simp [Wire.header] at hk
  | certificate => rw [code_header] at hk; simp [Wire.header] at hk
  | challenge =>
    cases hm with
    | @challenge _ n0 n1 n2 n3 n4 tail s ct h0 h1 h2 hw hb hb2 h3 h4 hcw hs hc hz =>
      exact ⟨n4, ct.slot, rfl, by rw [h4]; simp [Wire.header, Wire.certificate], by rw [hs]; simp [Wire.header, Wire.challenge, Wire.hashType]⟩

end Spdm
