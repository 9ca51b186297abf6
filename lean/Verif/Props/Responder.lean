import Verif.Lemmas.RspCalls
import Verif.DemoSession
/-!
# The responder: C32 to C40

`RspRun c cr slots es r` (Spec/Session.lean) is a history of API calls from `Responder::new` that ends in the responder `r`; `es` lists the
calls with their results.  Every theorem quantifies over all histories, requests, response buffers, nonces, signers and hash functions.
The type of the slots array in Rust is `[Option<FilledSlot>; NUM_SLOTS]` and the build rejects more than 8 slots (C53): these are the two
hypotheses `hl` and `h8`.
-/
namespace Spdm
open Spec

variable {c : Cfg} {cr : Crypto} {slots : List (Option FilledSlot)} {es : List RspEvent} {r : Responder}

/-! ## C32: protocol order -/

/-- **C32**: in every history the accepted requests are in protocol order. -/
theorem c32_protocol_order (hl : slots.length = c.numSlots) (h8 : c.numSlots ≤ 8) (run : RspRun c cr slots es r) :
    InOrder ((exchanges es).map Prod.fst) := by
  induction run with
  | new => intro pre x post h; simp [exchanges] at h
  | @reset es r _ ih => intro pre x post h; simp [exchanges_snoc, addExchange] at h
  | @call es r env req buf run ih =>
    rw [exchanges_snoc]
    rcases hres : (Responder.handleMsg c cr env req buf r).1 with ⟨out, _ | e⟩ | e | k
    · have ha := run_alive hl h8 run hres
      obtain ⟨st, st', sg, hlive, _, step, _, _⟩ := run_step hl h8 run ha hres
      obtain ⟨_, _, k, hk, hal⟩ := step_match hlive.mat step
      simp only [addExchange, List.map_append, List.map_cons, List.map_nil]
      intro pre x post h
      rcases List.eq_nil_or_concat post with rfl | ⟨post', y, rfl⟩
      · obtain ⟨h1, h2⟩ := List.append_inj' h rfl
        simp only [List.cons.injEq, and_true] at h2
        subst h2
        refine ⟨k, hk, ?_⟩
        rw [← h1]
        have : (List.map Prod.fst (exchanges es)).getLast?.bind code = lastReq es := by
          simp only [lastReq, List.getLast?_map]
          cases (exchanges es).getLast? <;> rfl
        rw [this]
        exact hal
      · rw [List.concat_eq_append, ← List.cons_append, ← List.append_assoc] at h
        obtain ⟨h1, h2⟩ := List.append_inj' h rfl
        exact ih pre x post' h1
    · exact ih
    · exact ih
    · exact ih

/-- **C32**, the requests out of order: whatever has been accepted so far, a request of at least three bytes whose code may not come next
is answered with ERROR UnexpectedRequest and the responder stops in the error state. -/
theorem c32_out_of_order_refused (hl : slots.length = c.numSlots) (h8 : c.numSlots ≤ 8) (run : RspRun c cr slots es r) (ha : alive es = true)
    (env : Env) (req buf : Bytes) (k : UInt8) (h3 : 3 ≤ req.length) (hk : code req = some k) (hno : allowed (lastReq es) k = false) :
    (∃ x g, (Responder.handleMsg c cr env req buf r).1 = .ok ⟨errorReply buf [0x04, 0], some (.unexpectedMsg x g)⟩) ∧
    (Responder.handleMsg c cr env req buf r).2.state = some .error := by
  obtain ⟨st, hlive⟩ := run_live hl h8 run ha
  obtain ⟨x, g, hd⟩ := dispatch_refuses (c := c) (cr := cr) (slots := slots) (env := env) hlive.mat h3 hk hno ⟨buf, r.transcript, r.signed⟩
  obtain ⟨h1, h2⟩ := call_refuses hl h8 hlive.toRspKept hlive.state (congrArg Prod.fst hd)
  exact ⟨⟨x, g, h1⟩, h2⟩

/-- **C32** for every request that is accepted, whatever its length: it is one that may come next. -/
theorem c32_accepted_allowed (hl : slots.length = c.numSlots) (h8 : c.numSlots ≤ 8) (run : RspRun c cr slots es r) (env : Env) (req buf out : Bytes)
    (hok : (Responder.handleMsg c cr env req buf r).1 = .ok ⟨out, none⟩) : ∃ k, code req = some k ∧ allowed (lastReq es) k = true := by
  obtain ⟨st, st', sg, hlive, _, step, _, _⟩ := run_step hl h8 run (run_alive hl h8 run hok) hok
  exact (step_match hlive.mat step).2.2

example : ((exchanges (demoEvents 6)).map (fun x => code x.1)) = [some 0x84, some 0xE1, some 0xE3, some 0x81, some 0x82, some 0x83] := by decide +kernel
example : alive (demoEvents 3) = true ∧ code demoChallenge = some 0x83 ∧ allowed (lastReq (demoEvents 3)) 0x83 = false := by decide +kernel

/-! ## C33: GET_VERSION restarts -/

/-- **C33**: from a GET_VERSION on, whatever its bytes, no sequence of calls can tell a responder in use from a fresh one. -/
theorem c33_get_version_restarts (hl : slots.length = c.numSlots) (h8 : c.numSlots ≤ 8) (run : RspRun c cr slots es r) (ha : alive es = true)
    (env : Env) (req buf : Bytes) (hk : code req = some 0x84) (calls : List RspCall) :
    behaviour c cr r (.call env req buf :: calls) = behaviour c cr (Responder.new c slots) (.call env req buf :: calls) := by
  obtain ⟨st, hlive⟩ := run_live hl h8 run ha
  obtain ⟨h1, h2, _⟩ := rsim_getVersion (cr := cr) (env := env) (buf := buf) hl h8 hlive.toRspKept hlive.state hlive.mat.live hk
  simp only [behaviour, RspCall.run]
  rw [h1, rsim_behaviour h2]

/-- **C33**, state and transcript: if the GET_VERSION is accepted, the next state and the transcript are those of a fresh responder. -/
theorem c33_get_version_state (hl : slots.length = c.numSlots) (h8 : c.numSlots ≤ 8) (run : RspRun c cr slots es r) (ha : alive es = true)
    (env : Env) (req buf out : Bytes) (hk : code req = some 0x84) (hok : (Responder.handleMsg c cr env req buf r).1 = .ok ⟨out, none⟩) :
    (Responder.handleMsg c cr env req buf r).2.state = (Responder.handleMsg c cr env req buf (Responder.new c slots)).2.state ∧
    (Responder.handleMsg c cr env req buf r).2.transcript.get = (Responder.handleMsg c cr env req buf (Responder.new c slots)).2.transcript.get ∧
    (Responder.handleMsg c cr env req buf r).2.transcript.get = req ++ out := by
  obtain ⟨st, hlive⟩ := run_live hl h8 run ha
  obtain ⟨_, h2, h3⟩ := rsim_getVersion (cr := cr) (env := env) (buf := buf) hl h8 hlive.toRspKept hlive.state hlive.mat.live hk
  refine ⟨h2.state, h3 out hok, ?_⟩
  obtain ⟨st, st', sg, hlive, _, step, _, _⟩ := run_step hl h8 run ha hok
  obtain ⟨t1, _⟩ := step_match hlive.mat step
  rw [t1]
  have ha1 : (conversation (rspMsgs es)).add req = { Log.empty with text := req } := by simp only [Log.add, hk]
  rw [ha1]
  have : code out = some 0x04 := by
    generalize (Responder.handleMsg c cr env req buf r).2.transcript.get = tr' at step
    cases step with
    | getVersion => exact code_header _ _
    | getCapabilities hreq => rw [hreq, List.append_assoc, code_header] at hk; simp [Wire.header] at hk
    | negotiate hreq => rw [code_of_take hreq] at hk; simp [Wire.header] at hk
    | getDigests _ hreq => rw [code_of_take hreq] at hk; simp [Wire.header] at hk
    | getCertificate hreq => rw [hreq, List.append_assoc, code_header] at hk; simp [Wire.header] at hk
    | challenge hreq => rw [hreq, List.append_assoc, code_header] at hk; simp [Wire.header] at hk
  rw [add_plain this (by decide)]

/-- A GET_VERSION in the challenge state is accepted. -/
example : (Responder.handleMsg demoCfg demoCrypto demoEnv demoGetVersion (zeros 200) (demoResponder 6)).1 = .ok ⟨[0x10, 0x04, 0, 0, 0, 2, 0, 0x10, 0, 0x11], none⟩ := by
  decide +kernel

/-! ## C34: errors -/

/-- **C34**: every call reports its outcome as a response with or without an error (never as a bare `Err`), or aborts; when an error is
reported the response is the ERROR message assigned to it, or nothing if the buffer is too small for it, and the responder is in the error
state. -/
theorem c34_errors_uniform (hl : slots.length = c.numSlots) (h8 : c.numSlots ≤ 8) (run : RspRun c cr slots es r) (env : Env) (req buf : Bytes) :
    (∀ e, (Responder.handleMsg c cr env req buf r).1 ≠ .err e) ∧
    (∀ out e, (Responder.handleMsg c cr env req buf r).1 = .ok ⟨out, some e⟩ →
      out = errorReply buf (errorBytes e) ∧ (Responder.handleMsg c cr env req buf r).2.state = some .error) := by
  rcases rspRun_inv hl h8 run with ⟨_, st, hlive⟩ | ⟨_, _, hd⟩
  · have ho := call_outcome (cr := cr) (env := env) (req := req) (buf := buf) hl h8 hlive.toRspKept hlive.state
    generalize (Responder.handleMsg c cr env req buf r).1 = x at ho ⊢
    generalize (Responder.handleMsg c cr env req buf r).2 = r' at ho ⊢
    cases ho with
    | ok => exact ⟨by simp, by simp⟩
    | err hk hs he =>
      refine ⟨by simp, ?_⟩
      intro out e h
      simp only [Res.ok.injEq, Responder.Output.mk.injEq, Option.some.injEq] at h
      obtain ⟨rfl, rfl⟩ := h
      exact ⟨by rw [errorBytes_eq], hs⟩
    | panic => exact ⟨by simp, by simp⟩
  · obtain ⟨k, hp⟩ := dead_call (c := c) (cr := cr) (env := env) (req := req) (buf := buf) hd
    rw [hp]
    exact ⟨by simp, by simp⟩

/-- **C34**, finality: after a failure every call aborts, whatever it is, until `reset`. -/
theorem c34_errors_final (hl : slots.length = c.numSlots) (h8 : c.numSlots ≤ 8) (run : RspRun c cr slots es r) (ha : alive es = false)
    (env : Env) (req buf : Bytes) : ∃ k, (Responder.handleMsg c cr env req buf r).1 = .panic k := by
  obtain ⟨_, hd⟩ := run_dead hl h8 run ha
  obtain ⟨k, hp⟩ := dead_call (c := c) (cr := cr) (env := env) (req := req) (buf := buf) hd
  exact ⟨k, by rw [hp]⟩

/-- **C34**, recovery: after `reset`, in whatever state the responder is, no sequence of calls can tell it from a fresh one. -/
theorem c34_reset_restarts (hl : slots.length = c.numSlots) (h8 : c.numSlots ≤ 8) (run : RspRun c cr slots es r) (calls : List RspCall) :
    behaviour c cr r.reset calls = behaviour c cr (Responder.new c slots) calls :=
  rsim_behaviour (rsim_fresh (run_kept hl h8 run)) calls

/-- A CHALLENGE after GET_VERSION fails, the next call aborts, and `reset` brings the responder back. -/
example : behaviour demoCfg demoCrypto (Responder.new demoCfg demoSlots) [demoCall demoGetVersion, demoCall demoChallenge, demoCall demoGetVersion, .reset, demoCall demoGetVersion] =
    [.call demoEnv demoGetVersion (zeros 200) (.ok ⟨[0x10, 0x04, 0, 0, 0, 2, 0, 0x10, 0, 0x11], none⟩),
     .call demoEnv demoChallenge (zeros 200) (.ok ⟨[0x12, 0x7F, 4, 0], some (.unexpectedMsg 0xE1 0x11)⟩),
     .call demoEnv demoGetVersion (zeros 200) (.panic .unimplemented), .reset,
     .call demoEnv demoGetVersion (zeros 200) (.ok ⟨[0x10, 0x04, 0, 0, 0, 2, 0, 0x10, 0, 0x11], none⟩)] := by decide +kernel

/-! ## C35: transcript -/

/-- **C35**: as long as no call has failed, the transcript is the text of the conversation: the accepted requests and their responses since
the last GET_VERSION, in order, CHALLENGE_AUTH without its signature. -/
theorem c35_transcript_exact (hl : slots.length = c.numSlots) (h8 : c.numSlots ≤ 8) (run : RspRun c cr slots es r) (ha : alive es = true) :
    r.transcript.get = (conversation (rspMsgs es)).text := by
  obtain ⟨st, hlive⟩ := run_live hl h8 run ha
  exact hlive.text

example : (demoResponder 6).transcript.get.length = 4 + 10 + 12 + 12 + 48 + 52 + 4 + 36 + 8 + 51 + 8 + (142 - 64) := by decide +kernel

/-! ## C36: signatures -/

/-- A CHALLENGE that is accepted has a nonce behind its two slot and type bytes. -/
theorem challenge_third {m : Challenge} {tail : Bytes} : (Wire.header .challenge ++ Wire.challenge m ++ tail)[2]? = some m.slot := by
  simp [Wire.header, Wire.challenge]

theorem words_hash {l : Log} {caps : Caps} {a : Algorithms} (hw : Words l caps a) : UInt32.ofNat l.hash = a.baseHashAlgoSelected := by
  rw [hw.hash]; simp

theorem authMsg_part {l : Log} {n : Negotiated} (hw : Words l n.caps n.algorithms) {slot mask : UInt8} {d nc : Bytes} {ds : Nat}
    (hds : BaseHashAlgo.getDigestSize c n.algorithms.baseHashAlgoSelected = .ok ds) :
    authMsg slot mask (Responder.useMutualAuth n.caps) d nc ds = authPart l slot mask d nc := by
  have h1 : sizeFor digestSizes l.hash = ds := by rw [hw.hash]; exact getDigestSize_sizeFor hds
  have h2 : Responder.useMutualAuth n.caps = l.both 8 := by
    unfold Responder.useMutualAuth
    rw [contains_bit (k := 8) rfl, contains_bit (k := 8) rfl, Log.both, hw.req, hw.rsp]
  simp only [authMsg, authPart, h1, h2, authByte, Wire.header]
  simp [Spec.le, zeros, List.range_succ]

/-- **C36**: an accepted CHALLENGE is answered with a CHALLENGE_AUTH and a signature by the signer of the slot the request names, over the
hash, with the negotiated algorithm, of the conversation so far, the CHALLENGE and the CHALLENGE_AUTH up to the signature; the signature
has the length of the negotiated algorithm. -/
theorem c36_signature_covers_transcript (hl : slots.length = c.numSlots) (h8 : c.numSlots ≤ 8) (run : RspRun c cr slots es r)
    (env : Env) (req buf out : Bytes) (hk : code req = some 0x83) (hok : (Responder.handleMsg c cr env req buf r).1 = .ok ⟨out, none⟩) :
    ∃ i slot mask sig, req[2]? = some i ∧ slots[i.toNat]? = some (some slot) ∧ MaskOf slots mask ∧
      let l := conversation (rspMsgs es)
      let hash := cr.hash (UInt32.ofNat l.hash)
      let auth := authPart l i mask (hash (Wire.chain slot.certChain)) env.nonce
      out = auth ++ sig ∧ slot.sign env.seed (hash (l.text ++ req ++ auth)) = some sig ∧ sig.length = sizeFor signatureSizes l.asym ∧
      (Responder.handleMsg c cr env req buf r).2.signed = r.signed ++ [(i.toNat, hash (l.text ++ req ++ auth))] := by
  obtain ⟨st, st', sg, hlive, _, step, hsg, _⟩ := run_step hl h8 run (run_alive hl h8 run hok) hok
  have hm := hlive.mat
  generalize lastReq es = p at hm
  generalize (Responder.handleMsg c cr env req buf r).2.transcript.get = tr' at step
  cases step with
  | getVersion _ hreq => rw [hreq, List.append_assoc, code_header] at hk; simp [Wire.header] at hk
  | getCapabilities hreq => rw [hreq, List.append_assoc, code_header] at hk; simp [Wire.header] at hk
  | negotiate hreq => rw [code_of_take hreq] at hk; simp [Wire.header] at hk
  | getDigests _ hreq => rw [code_of_take hreq] at hk; simp [Wire.header] at hk
  | getCertificate hreq => rw [hreq, List.append_assoc, code_header] at hk; simp [Wire.header] at hk
  | @challenge n _ _ tail sig auth m slot mask ds ss hreq hn hds hss hs hlt hch hmask ring hauth hsig hsl =>
    cases hm with
    | challenge _ hw =>
      refine ⟨m.slot, slot, mask, sig, by rw [hreq]; exact challenge_third, hs, hmask, ?_⟩
      simp only
      rw [words_hash hw, ← authMsg_part hw hds, ← hauth]
      refine ⟨rfl, hsig, ?_, hsg⟩
      rw [hsl, hw.asym, getSignatureSize_sizeFor hss]

/-- **C36**, nothing else is signed: whatever a call does — accept, refuse or abort — the signer is called at most once, only on a
CHALLENGE that follows a GET_CERTIFICATE or a CHALLENGE, and only over that hash. -/
theorem c36_only_challenge_signs (hl : slots.length = c.numSlots) (h8 : c.numSlots ≤ 8) (run : RspRun c cr slots es r) (env : Env) (req buf : Bytes) :
    (Responder.handleMsg c cr env req buf r).2.signed = r.signed ∨
    (alive es = true ∧ (lastReq es = some 0x82 ∨ lastReq es = some 0x83) ∧ code req = some 0x83 ∧
      ∃ i slot mask, req[2]? = some i ∧ slots[i.toNat]? = some (some slot) ∧ MaskOf slots mask ∧
      let l := conversation (rspMsgs es)
      let hash := cr.hash (UInt32.ofNat l.hash)
      (Responder.handleMsg c cr env req buf r).2.signed =
        r.signed ++ [(i.toNat, hash (l.text ++ req ++ authPart l i mask (hash (Wire.chain slot.certChain)) env.nonce))]) := by
  rcases rspRun_inv hl h8 run with ⟨ha, st, hlive⟩ | ⟨ha, hkept, hd⟩
  · rw [call_signed hl h8 hlive.toRspKept hlive.state]
    have hm := hlive.mat
    by_cases hst : ∀ n, st ≠ .challenge n
    · exact .inl (dispatch_quiet c cr env slots hst req ⟨buf, r.transcript, r.signed⟩).1
    · obtain ⟨n, rfl⟩ : ∃ n, st = .challenge n := by by_contra hc; exact hst fun n hn => hc ⟨n, hn⟩
      generalize hlr : lastReq es = p at hm
      cases hm with
      | @challenge _ k _ hkk hw =>
        rcases challenge_signs (cr := cr) (env := env) (ng := n) (req := req) (h := ⟨buf, r.transcript, r.signed⟩) hl h8 hlive.wf with h | ⟨call, h1, h2⟩
        · exact .inl h
        · right
          obtain ⟨m, tail, slot, mask, ds, hreq, hn, hs, hmask, hds, hcall⟩ := h2.ex
          refine ⟨ha, by rcases hkk with rfl | rfl <;> simp, by rw [hreq, List.append_assoc, code_header]; rfl, m.slot, slot, mask,
            by rw [hreq]; exact challenge_third, hs, hmask, ?_⟩
          simp only [Responder.dispatch]
          rw [h1, hcall, words_hash hw, ← authMsg_part hw hds]
          simp only [hlive.text]
  · left
    obtain ⟨k, hp⟩ := dead_call (c := c) (cr := cr) (env := env) (req := req) (buf := buf) hd
    rw [hp]

/-- **C36** over whole histories: everything a responder ever signed is the hash of the transcript of the conversation at one of its
CHALLENGE calls. -/
theorem c36_every_signature (hl : slots.length = c.numSlots) (h8 : c.numSlots ≤ 8) (run : RspRun c cr slots es r) :
    ∀ x ∈ r.signed, ∃ es1 env req buf res es2 i slot mask, es = es1 ++ .call env req buf res :: es2 ∧ alive es1 = true ∧ (lastReq es1 = some 0x82 ∨ lastReq es1 = some 0x83) ∧ code req = some 0x83 ∧
      req[2]? = some i ∧ slots[i.toNat]? = some (some slot) ∧ MaskOf slots mask ∧
      let l := conversation (rspMsgs es1)
      let hash := cr.hash (UInt32.ofNat l.hash)
      x = (i.toNat, hash (l.text ++ req ++ authPart l i mask (hash (Wire.chain slot.certChain)) env.nonce)) := by
  induction run with
  | new => intro x hx; simp [Responder.new] at hx
  | @reset es r _ ih =>
    intro x hx
    obtain ⟨es1, env, req, buf, res, es2, i, slot, mask, h1, h2⟩ := ih x hx
    exact ⟨es1, env, req, buf, res, es2 ++ [.reset], i, slot, mask, by rw [h1]; simp, h2⟩
  | @call es r env req buf run ih =>
    intro x hx
    have lift : x ∈ r.signed → ∃ es1 env' req' buf' res es2 i slot mask, es ++ [.call env req buf (Responder.handleMsg c cr env req buf r).1] = es1 ++ .call env' req' buf' res :: es2 ∧
        alive es1 = true ∧ (lastReq es1 = some 0x82 ∨ lastReq es1 = some 0x83) ∧ code req' = some 0x83 ∧
        req'[2]? = some i ∧ slots[i.toNat]? = some (some slot) ∧ MaskOf slots mask ∧
        let l := conversation (rspMsgs es1)
        let hash := cr.hash (UInt32.ofNat l.hash)
        x = (i.toNat, hash (l.text ++ req' ++ authPart l i mask (hash (Wire.chain slot.certChain)) env'.nonce)) := by
      intro hx
      obtain ⟨es1, env', req', buf', res, es2, i, slot, mask, h1, h2⟩ := ih x hx
      exact ⟨es1, env', req', buf', res, es2 ++ [.call env req buf (Responder.handleMsg c cr env req buf r).1], i, slot, mask, by
        have := congrArg (· ++ [RspEvent.call env req buf (Responder.handleMsg c cr env req buf r).1]) h1
        simpa using this, h2⟩
    rcases c36_only_challenge_signs hl h8 run env req buf with h | ⟨ha, hlr, hk, i, slot, mask, h1, h2, h3, h4⟩
    · rw [h] at hx; exact lift hx
    · simp only at h4
      rw [h4, List.mem_append] at hx
      rcases hx with hx | hx
      · exact lift hx
      · simp only [List.mem_singleton] at hx
        exact ⟨es, env, req, buf, _, [], i, slot, mask, rfl, ha, hlr, hk, h1, h2, h3, hx⟩

/-- The demo session signs once. -/
example : (demoResponder 5).signed = [] ∧ (demoResponder 6).signed = [(0, demoHash (demoResponder 6).transcript.get)] := by decide +kernel

/-! ## C37, C38: certificates -/

/-- **C37**: an accepted GET_CERTIFICATE names a configured slot and is answered with its number and its whole serialised chain, nothing for an
empty slot. -/
theorem c37_certificate_of_slot (hl : slots.length = c.numSlots) (h8 : c.numSlots ≤ 8) (run : RspRun c cr slots es r)
    (env : Env) (req buf out : Bytes) (hk : code req = some 0x82) (hok : (Responder.handleMsg c cr env req buf r).1 = .ok ⟨out, none⟩) :
    ∃ i slot, req[2]? = some i ∧ slots[i.toNat]? = some slot ∧ (chainBytes slot).length ≤ 65535 ∧
      out = [0x11, 0x02, i, 0] ++ le 2 (chainBytes slot).length ++ [0, 0] ++ chainBytes slot := by
  obtain ⟨st, st', sg, hlive, _, step, hsg, _⟩ := run_step hl h8 run (run_alive hl h8 run hok) hok
  generalize (Responder.handleMsg c cr env req buf r).2.transcript.get = tr' at step
  cases step with
  | getVersion _ hreq => rw [hreq, List.append_assoc, code_header] at hk; simp [Wire.header] at hk
  | getCapabilities hreq => rw [hreq, List.append_assoc, code_header] at hk; simp [Wire.header] at hk
  | negotiate hreq => rw [code_of_take hreq] at hk; simp [Wire.header] at hk
  | getDigests _ hreq => rw [code_of_take hreq] at hk; simp [Wire.header] at hk
  | challenge hreq => rw [hreq, List.append_assoc, code_header] at hk; simp [Wire.header] at hk
  | @getCertificate n _ _ tail chain m hreq hs hc =>
    have hlt : m.slot.toNat < slots.length := by omega
    have hsl : slots[m.slot.toNat]? = some slots[m.slot.toNat] := List.getElem?_eq_getElem hlt
    have hcb : chainBytes slots[m.slot.toNat] = chain ∧ chain.length ≤ 65535 := by
      rw [List.getElem?_map, hsl] at hc
      rcases hx : slots[m.slot.toNat] with _ | s
      · rw [hx] at hc
        simp only [Option.map_some, Option.map_none] at hc
        rcases hc with ⟨_, rfl⟩ | ⟨ch, hch, _⟩
        · exact ⟨rfl, by simp⟩
        · simp at hch
      · rw [hx] at hc
        simp only [Option.map_some] at hc
        rcases hc with ⟨hn, _⟩ | ⟨ch, hch, rfl, h65, _⟩
        · simp at hn
        · simp only [Option.some.injEq] at hch
          subst hch
          exact ⟨rfl, h65⟩
    refine ⟨m.slot, slots[m.slot.toNat], by rw [hreq]; simp [Wire.header, Wire.getCertificate], hsl, by rw [hcb.1]; exact hcb.2, ?_⟩
    rw [hcb.1]
    have h16 : (UInt16.ofNat chain.length).toNat = chain.length := ofNat_toNat16 (by omega)
    simp only [Wire.certificate, Wire.header, h16]
    simp [Spec.le, zeros, List.range_succ]

/-- **C37**, slots beyond the configured ones: the request is refused with ERROR InvalidRequest. -/
theorem c37_unknown_slot_refused (hl : slots.length = c.numSlots) (h8 : c.numSlots ≤ 8) (run : RspRun c cr slots es r) (ha : alive es = true)
    (hlast : lastReq es = some 0xE3 ∨ lastReq es = some 0x81) (env : Env) (i : UInt8) (offset length : UInt16) (tail buf : Bytes) (hi : c.numSlots ≤ i.toNat) :
    (Responder.handleMsg c cr env ([0x11, 0x82, i, 0] ++ le 2 offset.toNat ++ le 2 length.toNat ++ tail) buf r).1 = .ok ⟨errorReply buf [0x01, 0], some .invalidSlot⟩ ∧
    (Responder.handleMsg c cr env ([0x11, 0x82, i, 0] ++ le 2 offset.toNat ++ le 2 length.toNat ++ tail) buf r).2.state = some .error := by
  obtain ⟨st, hlive⟩ := run_live hl h8 run ha
  have hm := hlive.mat
  generalize lastReq es = p at hm hlast
  have hreq : [0x11, 0x82, i, 0] ++ le 2 offset.toNat ++ le 2 length.toNat ++ tail = Wire.header .getCertificate ++ (Wire.getCertificate ⟨i, offset, length⟩ ++ tail) := by
    simp [Wire.header, Wire.getCertificate, zeros]
  rw [hreq]
  cases hm with
  | version => simp at hlast
  | capabilities => simp at hlast
  | algorithms => simp at hlast
  | challenge hk => rcases hk with rfl | rfl <;> simp at hlast
  | @idAuth _ _ n hk hw =>
    refine call_refuses (e := .invalidSlot) hl h8 hlive.toRspKept hlive.state ?_
    have hq : (Wire.getCertificate ⟨i, offset, length⟩).length = 6 := by simp [Wire.getCertificate, zeros, le_length]
    have h3 : 3 ≤ (Wire.header .getCertificate ++ (Wire.getCertificate ⟨i, offset, length⟩ ++ tail)).length := by simp [header_length, hq]; omega
    have htk : (Wire.header .getCertificate ++ (Wire.getCertificate ⟨i, offset, length⟩ ++ tail)).take 2 = Wire.header .getCertificate := List.take_left' (by rw [header_length])
    simp only [Responder.dispatch]
    unfold Responder.idAuthHandle
    rw [resetOnGetVersion_other (t := .getCertificate) (by decide) h3 htk]
    rw [lift_run (header_run h3 htk .getDigests)]
    simp only [show decide (MsgType.getDigests = MsgType.getCertificate) = false from rfl, Bool.false_eq_true, if_false]
    rw [lift_run (expect_ok h3 htk)]
    unfold Responder.handleGetCertificate
    rw [lift_run (split_body _ _), lift_run (x := GetCertificate.parseBody (Wire.getCertificate ⟨i, offset, length⟩ ++ tail)) (a := ⟨i, offset, length⟩) ((GetCertificate.reads _).parse tail)]
    rw [if_pos (by simpa using hi)]
    rfl

/-- **C37**, availability: a GET_CERTIFICATE for a configured slot, after the algorithms are agreed and with room in the buffers, is served. -/
theorem c37_certificate_served (hl : slots.length = c.numSlots) (h8 : c.numSlots ≤ 8) (run : RspRun c cr slots es r) (ha : alive es = true)
    (hlast : lastReq es = some 0xE3 ∨ lastReq es = some 0x81) (env : Env) (i : UInt8) (offset length : UInt16) (tail buf : Bytes) (slot : Option FilledSlot)
    (hi : slots[i.toNat]? = some slot) (hfit : (chainBytes slot).length ≤ c.maxCertChainSize) (hmax : (chainBytes slot).length ≤ 65535)
    (hbuf : 8 + (chainBytes slot).length ≤ buf.length)
    (htr : (conversation (rspMsgs es)).text.length + (8 + tail.length) + (8 + (chainBytes slot).length) ≤ c.transcriptSize) :
    ∃ out, (Responder.handleMsg c cr env ([0x11, 0x82, i, 0] ++ le 2 offset.toNat ++ le 2 length.toNat ++ tail) buf r).1 = .ok ⟨out, none⟩ := by
  obtain ⟨st, hlive⟩ := run_live hl h8 run ha
  have hm := hlive.mat
  generalize lastReq es = p at hm hlast
  have hreq : [0x11, 0x82, i, 0] ++ le 2 offset.toNat ++ le 2 length.toNat ++ tail = Wire.header .getCertificate ++ Wire.getCertificate ⟨i, offset, length⟩ ++ tail := by
    simp [Wire.header, Wire.getCertificate, zeros]
  rw [hreq]
  have hsv : servedChain (chainsOf slots) i.toNat = chainBytes slot := by
    unfold servedChain
    rw [List.getElem?_map, hi]
    cases slot <;> rfl
  cases hm with
  | version => simp at hlast
  | capabilities => simp at hlast
  | algorithms => simp at hlast
  | challenge hk => rcases hk with rfl | rfl <;> simp at hlast
  | @idAuth _ _ n hk hw =>
    obtain ⟨m, h', hd⟩ := getCertificate_run (c := c) (cr := cr) (slots := slots) (ng := n) (m := ⟨i, offset, length⟩) (tail := tail) hl
      (by have := (List.getElem?_eq_some_iff.mp hi).1; simp only; omega) (by rw [hsv]; exact hfit) (by rw [hsv]; exact hmax)
      (h := ⟨buf, r.transcript, r.signed⟩) hlive.wf (by rw [hsv]; exact hbuf) (by rw [hsv]; simp only [hlive.text, hlive.cap]; exact htr)
    obtain ⟨out, r', sg, hh, _⟩ := call_accepts (env := env) hl h8 hlive.toRspKept hlive.state hd
    exact ⟨out, by rw [hh]⟩

example : (Responder.handleMsg demoCfg demoCrypto demoEnv demoGetCertificate (zeros 200) (demoResponder 4)).1 =
    .ok ⟨[0x11, 0x02, 0, 0, 43, 0, 0, 0] ++ ([43, 0, 0, 0] ++ List.replicate 32 9 ++ [0x30, 1, 5] ++ [0x30, 2, 6, 7]), none⟩ := by decide +kernel
example : lastReq (demoEvents 4) = some 0x81 ∧ (conversation (rspMsgs (demoEvents 4))).text.length = 178 := by decide +kernel

/-- **C38** is false of the code: the requested offset and length have no influence on the portion sent.  Two GET_CERTIFICATE requests for
the same slot that differ in offset and length alone get the same response, in every history. -/
theorem c38_offset_length_ignored (hl : slots.length = c.numSlots) (h8 : c.numSlots ≤ 8) (run : RspRun c cr slots es r)
    (env env' : Env) (req req' buf buf' out out' : Bytes) (hk : code req = some 0x82) (hk' : code req' = some 0x82) (hs : req[2]? = req'[2]?)
    (hok : (Responder.handleMsg c cr env req buf r).1 = .ok ⟨out, none⟩) (hok' : (Responder.handleMsg c cr env' req' buf' r).1 = .ok ⟨out', none⟩) :
    out = out' := by
  obtain ⟨i, slot, h1, h2, _, h3⟩ := c37_certificate_of_slot hl h8 run env req buf out hk hok
  obtain ⟨i', slot', h1', h2', _, h3'⟩ := c37_certificate_of_slot hl h8 run env' req' buf' out' hk' hok'
  rw [h1, h1'] at hs
  simp only [Option.some.injEq] at hs
  subst hs
  rw [h2] at h2'
  simp only [Option.some.injEq] at h2'
  subst h2'
  rw [h3, h3']

/-- **C38** is false of the code, a witness: one byte is asked for, 43 bytes are sent. -/
theorem c38_length_exceeded : ∃ out, (Responder.handleMsg demoCfg demoCrypto demoEnv [0x11, 0x82, 0, 0, 0, 0, 1, 0] (zeros 200) (demoResponder 4)).1 = .ok ⟨out, none⟩ ∧
    (field out 4 2 = [43, 0]) :=
  ⟨[0x11, 0x02, 0, 0, 43, 0, 0, 0] ++ ([43, 0, 0, 0] ++ List.replicate 32 9 ++ [0x30, 1, 5] ++ [0x30, 2, 6, 7]), by decide +kernel, by decide⟩

/-- **C38** for the requests it holds of: asked for offset 0 and at least the length of the chain, the portion is what was asked for.  Missing:
every other offset and length (false, see above). -/
theorem c38_whole_chain_partial (hl : slots.length = c.numSlots) (h8 : c.numSlots ≤ 8) (run : RspRun c cr slots es r)
    (env : Env) (req buf out : Bytes) (hk : code req = some 0x82) (hok : (Responder.handleMsg c cr env req buf r).1 = .ok ⟨out, none⟩)
    (i : UInt8) (slot : Option FilledSlot) (hi : req[2]? = some i) (hsl : slots[i.toNat]? = some slot) (hoff : field req 4 2 = [0, 0])
    (hlen : (chainBytes slot).length ≤ leVal (field req 6 2)) :
    out.drop 8 = ((chainBytes slot).drop (leVal (field req 4 2))).take (leVal (field req 6 2)) := by
  obtain ⟨i', slot', h1, h2, _, h3⟩ := c37_certificate_of_slot hl h8 run env req buf out hk hok
  rw [hi] at h1
  simp only [Option.some.injEq] at h1
  subst h1
  rw [hsl] at h2
  simp only [Option.some.injEq] at h2
  subst h2
  rw [hoff, h3]
  simp only [leVal]
  rw [List.drop_left' (by simp [le_length])]
  simp only [Nat.mul_zero, Nat.add_zero, UInt8.toNat_zero, List.drop_zero]
  rw [List.take_of_length_le hlen]

example : field demoGetCertificate 4 2 = [0, 0] ∧ leVal (field demoGetCertificate 6 2) = 64 := by decide

/-! ## C39: digests -/

theorem digestBytes_slots (a : UInt32) (slots : List (Option FilledSlot)) : digestBytes cr a (chainsOf slots) = digestsOf (cr.hash a) slots := by
  induction slots with
  | nil => rfl
  | cons x xs ih =>
    simp only [digestBytes, digestsOf, chainsOf, List.map_cons, List.flatMap_cons] at ih ⊢
    rw [ih]
    cases x <;> rfl

/-- **C39**: an accepted GET_DIGESTS is answered with the mask of the filled slots and, by increasing slot number, the hashes of their
serialised chains with the negotiated algorithm. -/
theorem c39_digests_of_slots (hl : slots.length = c.numSlots) (h8 : c.numSlots ≤ 8) (run : RspRun c cr slots es r)
    (env : Env) (req buf out : Bytes) (hk : code req = some 0x81) (hok : (Responder.handleMsg c cr env req buf r).1 = .ok ⟨out, none⟩) :
    ∃ mask, MaskOf slots mask ∧
      out = [0x11, 0x01, 0, mask] ++ digestsOf (cr.hash (UInt32.ofNat (conversation (rspMsgs es)).hash)) slots := by
  obtain ⟨st, st', sg, hlive, _, step, hsg, _⟩ := run_step hl h8 run (run_alive hl h8 run hok) hok
  have hm := hlive.mat
  generalize lastReq es = p at hm
  generalize (Responder.handleMsg c cr env req buf r).2.transcript.get = tr' at step
  cases step with
  | getVersion _ hreq => rw [hreq, List.append_assoc, code_header] at hk; simp [Wire.header] at hk
  | getCapabilities hreq => rw [hreq, List.append_assoc, code_header] at hk; simp [Wire.header] at hk
  | negotiate hreq => rw [code_of_take hreq] at hk; simp [Wire.header] at hk
  | getCertificate hreq => rw [hreq, List.append_assoc, code_header] at hk; simp [Wire.header] at hk
  | challenge hreq => rw [hreq, List.append_assoc, code_header] at hk; simp [Wire.header] at hk
  | @getDigests n _ _ d h3 hreq hd =>
    cases hm with
    | idAuth _ hw =>
      refine ⟨d.slotMask, ?_, ?_⟩
      · intro i hi
        rw [hd.mask i hi, List.getElem?_map]
        rcases slots[i]? with _ | _ | s <;> simp
      · rw [digests_layout hd, words_hash hw]
        rw [digestBytes_slots]
        rfl

/-- **C39**, availability: with a crypto provider, after the algorithms are agreed with a SHA-2 hash, with chains and digests that fit and room in the buffers, any
GET_DIGESTS is answered. -/
theorem c39_digests_served (hl : slots.length = c.numSlots) (h8 : c.numSlots ≤ 8) (run : RspRun c cr slots es r) (ha : alive es = true) (hp : c.provider = true)
    (hlast : lastReq es = some 0xE3 ∨ lastReq es = some 0x81) (env : Env) (rest buf : Bytes) (h1 : 1 ≤ rest.length)
    (hhash : (conversation (rspMsgs es)).hash = 1 ∨ (conversation (rspMsgs es)).hash = 2 ∨ (conversation (rspMsgs es)).hash = 4)
    (hchain : ∀ s, some s ∈ slots → (Wire.chain s.certChain).length ≤ c.maxCertChainSize ∧ (Wire.chain s.certChain).length ≤ 65535 ∧
      (cr.hash (UInt32.ofNat (conversation (rspMsgs es)).hash) (Wire.chain s.certChain)).length ≤ c.maxDigestSize)
    (hbuf : 4 + (digestsOf (cr.hash (UInt32.ofNat (conversation (rspMsgs es)).hash)) slots).length ≤ buf.length)
    (htr : (conversation (rspMsgs es)).text.length + (2 + rest.length) + (4 + (digestsOf (cr.hash (UInt32.ofNat (conversation (rspMsgs es)).hash)) slots).length)
      ≤ c.transcriptSize) :
    ∃ out, (Responder.handleMsg c cr env ([0x11, 0x81] ++ rest) buf r).1 = .ok ⟨out, none⟩ := by
  obtain ⟨st, hlive⟩ := run_live hl h8 run ha
  have hm := hlive.mat
  generalize lastReq es = p at hm hlast
  cases hm with
  | version => simp at hlast
  | capabilities => simp at hlast
  | algorithms => simp at hlast
  | challenge hk => rcases hk with rfl | rfl <;> simp at hlast
  | @idAuth _ _ n hk hw =>
    have hwh := words_hash hw
    rw [hwh, ← digestBytes_slots] at hbuf htr
    have hring : RingHash n.algorithms.baseHashAlgoSelected := by unfold RingHash; rw [← hw.hash]; exact hhash
    obtain ⟨m, h', hd⟩ := getDigests_run (c := c) (cr := cr) (slots := slots) (ng := n) (req := [0x11, 0x81] ++ rest) hl h8 (by simp; omega) rfl
      (fun ch hch => by
        simp only [List.mem_map] at hch
        obtain ⟨o, ho, hoc⟩ := hch
        cases o with
        | none => simp at hoc
        | some s =>
          simp only [Option.map_some, Option.some.injEq] at hoc
          subst hoc
          obtain ⟨q1, q2, q3⟩ := hchain s ho
          rw [hwh] at q3
          exact ⟨hp, hring, q1, q2, q3⟩)
      (h := ⟨buf, r.transcript, r.signed⟩) hlive.wf hbuf
      (by simp only [hlive.text, hlive.cap]; simp only [List.length_append, List.length_cons, List.length_nil]; exact htr)
    obtain ⟨out, r', sg, hh, _⟩ := call_accepts (env := env) hl h8 hlive.toRspKept hlive.state hd
    exact ⟨out, by rw [hh]⟩

example : (Responder.handleMsg demoCfg demoCrypto demoEnv demoGetDigests (zeros 200) (demoResponder 3)).1 =
    .ok ⟨[0x11, 0x01, 0, 1] ++ demoHash (Wire.chain demoSessionChain), none⟩ := by decide +kernel

/-! ## C40: challenges to unavailable slots -/

/-- **C40**: a CHALLENGE naming a slot that is empty or not configured is never accepted, and nothing is signed. -/
theorem c40_unavailable_slot_refused (hl : slots.length = c.numSlots) (h8 : c.numSlots ≤ 8) (run : RspRun c cr slots es r)
    (env : Env) (req buf : Bytes) (i : UInt8) (hk : code req = some 0x83) (hi : req[2]? = some i) (hno : ∀ s, slots[i.toNat]? ≠ some (some s)) :
    (∀ out, (Responder.handleMsg c cr env req buf r).1 ≠ .ok ⟨out, none⟩) ∧ (Responder.handleMsg c cr env req buf r).2.signed = r.signed := by
  constructor
  · intro out hok
    obtain ⟨i', slot, mask, sig, h1, h2, _⟩ := c36_signature_covers_transcript hl h8 run env req buf out hk hok
    rw [hi] at h1
    simp only [Option.some.injEq] at h1
    subst h1
    exact hno slot h2
  · rcases c36_only_challenge_signs hl h8 run env req buf with h | ⟨_, _, _, i', slot, mask, h1, h2, _⟩
    · exact h
    · rw [hi] at h1
      simp only [Option.some.injEq] at h1
      subst h1
      exact absurd h2 (hno slot)

/-- **C40**, the error: when the algorithms agreed on are single ones with sizes within the configured maxima, a well-formed CHALLENGE for
an unavailable slot is answered with ERROR InvalidRequest. -/
theorem c40_unavailable_slot_error (hl : slots.length = c.numSlots) (h8 : c.numSlots ≤ 8) (run : RspRun c cr slots es r) (ha : alive es = true)
    (hlast : lastReq es = some 0x82 ∨ lastReq es = some 0x83) (env : Env) (i : UInt8) (t : MeasurementHashType) (nonce tail buf : Bytes) (hn : nonce.length = c.nonceSize)
    (hh : ∃ (k n : Nat), (conversation (rspMsgs es)).hash = 2 ^ k ∧ digestSizes[k]? = some n ∧ n ≤ c.maxDigestSize)
    (hs : ∃ (k n : Nat), (conversation (rspMsgs es)).asym = 2 ^ k ∧ signatureSizes[k]? = some n ∧ n ≤ c.maxSignatureSize)
    (hno : ∀ s, slots[i.toNat]? ≠ some (some s)) :
    (Responder.handleMsg c cr env ([0x11, 0x83, i, Wire.hashType t] ++ nonce ++ tail) buf r).1 = .ok ⟨errorReply buf [0x01, 0], some .invalidSlot⟩ ∧
    (Responder.handleMsg c cr env ([0x11, 0x83, i, Wire.hashType t] ++ nonce ++ tail) buf r).2.state = some .error := by
  obtain ⟨st, hlive⟩ := run_live hl h8 run ha
  have hm := hlive.mat
  generalize lastReq es = p at hm hlast
  have hreq : [0x11, 0x83, i, Wire.hashType t] ++ nonce ++ tail = Wire.header .challenge ++ (Wire.challenge ⟨i, t, nonce⟩ ++ tail) := by
    simp [Wire.header, Wire.challenge]
  rw [hreq]
  cases hm with
  | version => simp at hlast
  | capabilities => simp at hlast
  | algorithms => simp at hlast
  | idAuth hk => rcases hk with rfl | rfl <;> simp at hlast
  | @challenge _ _ n hk hw =>
    refine call_refuses (e := .invalidSlot) hl h8 hlive.toRspKept hlive.state ?_
    have h3 : 3 ≤ (Wire.header .challenge ++ (Wire.challenge ⟨i, t, nonce⟩ ++ tail)).length := by simp [header_length, Wire.challenge]; omega
    have htk : (Wire.header .challenge ++ (Wire.challenge ⟨i, t, nonce⟩ ++ tail)).take 2 = Wire.header .challenge := List.take_left' (by rw [header_length])
    obtain ⟨kd, nd, hd1, hd2, hd3⟩ := hh
    obtain ⟨ks, ns, hs1, hs2, hs3⟩ := hs
    rw [hw.hash] at hd1
    rw [hw.asym] at hs1
    have hds := getDigestSize_ok.mpr ⟨kd, hd1, hd2, hd3⟩
    have hss := getSignatureSize_ok.mpr ⟨ks, hs1, hs2, hs3⟩
    simp only [Responder.dispatch]
    unfold Responder.challengeHandle
    rw [resetOnGetVersion_other (t := .challenge) (by decide) h3 htk]
    rw [lift_run (expect_ok h3 htk), lift_run hds, lift_run hss, lift_run (split_body _ _),
      lift_run (x := Challenge.parseBody c (Wire.challenge ⟨i, t, nonce⟩ ++ tail)) (a := ⟨i, t, nonce⟩) ((Challenge.reads hn).parse tail)]
    have hsa : Responder.slotAt slots i.toNat = .err .invalidSlot := by
      unfold Responder.slotAt
      rcases hx : slots[i.toNat]? with _ | _ | s
      · rfl
      · rfl
      · exact absurd hx (hno s)
    exact congrArg Prod.fst (lift_fail hsa)

example : (Responder.handleMsg demoCfg demoCrypto demoEnv [0x11, 0x83, 1, 0, 5, 6, 7, 8] (zeros 200) (demoResponder 5)).1 = .ok ⟨[0x12, 0x7F, 1, 0], some .invalidSlot⟩ := by
  decide +kernel

end Spdm
