import Verif.Props.Noise
import Verif.Props.Calls
/-! C128: messages of one's own kind are refused. -/
namespace Spdm
open Spec

variable {c c' : Cfg} {cr cr' : Crypto} {root root' : Bytes} {slots slots' : List (Option FilledSlot)} {es es' : List ReqEvent} {fs fs' : List RspEvent}
  {r r' : Requester} {p p' : Responder}

/-- What a requester writes: at least four bytes, version 1.0 or 1.1, code of a request. -/
theorem sent_kind (run : ReqRun c cr root es r) {env : Env} {buf out : Bytes} (h : .next env buf (.ok out) ∈ es) :
    4 ≤ out.length ∧ (out[0]? = some 0x10 ∨ out[0]? = some 0x11) ∧ ∃ k ∈ requestCodes, code out = some k := by
  obtain ⟨es1, es2, rfl⟩ := List.append_of_mem h
  rw [show es1 ++ .next env buf (.ok out) :: es2 = (es1 ++ [.next env buf (.ok out)]) ++ es2 by simp] at run
  obtain ⟨r1, _, h1, _, _⟩ := run.split
  obtain ⟨r0, x, h0, hx, _⟩ := h1.last
  cases x with
  | recv rsp => simp [ReqCall.run] at hx
  | next env' buf' =>
    simp only [ReqCall.run, ReqEvent.next.injEq] at hx
    obtain ⟨rfl, rfl, hx⟩ := hx
    obtain ⟨_, st, st', _, _, hs, _⟩ := req_next h0 hx.symm
    generalize (Requester.nextRequest c env buf r0).2.transcript.get = tr' at hs
    cases hs <;> simp [code, Wire.header, Wire.getVersion, Wire.getCapabilities, Wire.negotiateAlgorithms, Wire.getDigests, Wire.getCertificate, Wire.challenge, requestCodes, zeros, Spec.le]

/-- What a responder hands out: nothing, or at least four bytes with the code of a response or of ERROR. -/
theorem answered_kind (hl : slots.length = c.numSlots) (h8 : c.numSlots ≤ 8) (run : RspRun c cr slots fs p) {env : Env} {req buf out : Bytes} {e : Option Err}
    (h : .call env req buf (.ok ⟨out, e⟩) ∈ fs) : out = [] ∨ 3 ≤ out.length ∧ ∃ k ∈ ([0x04, 0x61, 0x63, 0x01, 0x02, 0x03, 0x7F] : List UInt8), code out = some k := by
  obtain ⟨fs1, fs2, rfl⟩ := List.append_of_mem h
  rw [show fs1 ++ .call env req buf (.ok ⟨out, e⟩) :: fs2 = (fs1 ++ [.call env req buf (.ok ⟨out, e⟩)]) ++ fs2 by simp] at run
  obtain ⟨p1, h1⟩ := run.initial
  obtain ⟨p0, h0, hres, _⟩ := h1.last
  rcases e with _ | e
  · right
    refine ⟨?_, ?_⟩
    · obtain ⟨st, st', sg, hlive, _, step, hsg, _⟩ := run_step hl h8 h0 (run_alive hl h8 h0 hres.symm) hres.symm
      generalize (Responder.handleMsg c cr env req buf p0).2.transcript.get = tr' at step
      cases step with
      | challenge hreq hn hds hss hs hlt hch hmask ring hauth => rw [hauth]; simp [authMsg, Wire.header]
      | _ => simp [Wire.header, Wire.version, Wire.capabilities, Wire.algorithms, Wire.digests, Wire.certificate, zeros, Spec.le]
    · obtain ⟨k, hk, hc', hc⟩ := step_codes hl h8 h0 hres.symm
      refine ⟨k &&& 0x7F, ?_, hc⟩
      clear hc hc'
      revert k
      simp only [requestCodes]
      decide
  · rw [((c34_errors_uniform hl h8 h0 env req buf).2 out e hres.symm).1, errorReply]
    split
    · right
      refine ⟨?_, 0x7F, by decide, code_header ..⟩
      have : 2 ≤ (errorBytes e).length := by unfold errorBytes; split <;> simp
      simp [Wire.header]
      omega
    · exact .inl rfl

/-- **C128**, requesters.  Whatever a requester has written - this one or another one, of whatever configuration and history - is never accepted as a response.  While the requester is waiting for a response,
it is refused with UnexpectedMsgCode, which names the response awaited and the version byte, nothing is recorded, and the requester is in the error state. -/
theorem c128_requests_no_responses (run' : ReqRun c' cr' root' es' r') {env : Env} {buf out : Bytes} (h : .next env buf (.ok out) ∈ es') (run : ReqRun c cr root es r) :
    (∀ b, (Requester.handleMsg c cr out r).1 ≠ .ok b) ∧
    (failed es = false → ∀ k, (path (conversation (reqMsgs es)))[(accepted es).length]? = some k →
      ∃ v, (v = 0x10 ∨ v = 0x11) ∧ Requester.handleMsg c cr out r = (.err (.unexpectedMsg k v), { r with state := some .error })) := by
  obtain ⟨h4, hv, k0, hk0, hc⟩ := sent_kind run' h
  constructor
  · intro b hok
    have run2 : ReqRun c cr root (es ++ [.recv out (.ok b)]) (Requester.handleMsg c cr out r).2 := by have := ReqRun.recv out run; rwa [hok] at this
    have := recv_codes run2 (List.mem_append_right _ (List.mem_singleton_self _))
    rw [hc] at this
    revert this
    simp only [Option.some.injEq, List.mem_cons, List.not_mem_nil, or_false]
    clear hc
    revert k0
    simp only [requestCodes]
    decide
  · intro hf k hk
    have hne : code out ≠ some k := by
      rw [hc]
      have hk' : k ∈ ([0x04, 0x61, 0x63, 0x01, 0x02, 0x03] : List UInt8) := by
        have := List.mem_of_getElem? hk
        unfold path at this
        split at this
        · split at this <;> simp at this ⊢ <;> tauto
        · simp at this ⊢; tauto
      simp only [ne_eq, Option.some.injEq]
      clear hc hk
      revert k
      revert k0
      simp only [requestCodes]
      decide
    rcases hv with hv | hv
    · exact ⟨_, .inl rfl, c64_unexpected_refused run hf out (by omega) k _ hk hne hv⟩
    · exact ⟨_, .inr rfl, c64_unexpected_refused run hf out (by omega) k _ hk hne hv⟩

/-- **C128**, responders.  Whatever a responder has answered - a response or an ERROR, this responder or another one - is never accepted as a request.  While the responder is in use it is refused with
ERROR(UnexpectedRequest) and nothing is signed. -/
theorem c128_responses_no_requests (hl' : slots'.length = c'.numSlots) (h8' : c'.numSlots ≤ 8) (run' : RspRun c' cr' slots' fs' p') {env' : Env} {req buf' out : Bytes} {e : Option Err}
    (h : .call env' req buf' (.ok ⟨out, e⟩) ∈ fs') (hl : slots.length = c.numSlots) (h8 : c.numSlots ≤ 8) (run : RspRun c cr slots fs p) (env : Env) (buf : Bytes) :
    (∀ rsp, (Responder.handleMsg c cr env out buf p).1 ≠ .ok ⟨rsp, none⟩) ∧
    (alive fs = true → out ≠ [] → (∃ x g, (Responder.handleMsg c cr env out buf p).1 = .ok ⟨errorReply buf [0x04, 0], some (.unexpectedMsg x g)⟩) ∧
      (Responder.handleMsg c cr env out buf p).2.state = some .error ∧ (Responder.handleMsg c cr env out buf p).2.signed = p.signed) := by
  have hno : ∀ k ∈ ([0x04, 0x61, 0x63, 0x01, 0x02, 0x03, 0x7F] : List UInt8), ∀ last, allowed last k = false := by
    intro k hk last
    simp only [List.mem_cons, List.not_mem_nil, or_false] at hk
    unfold allowed
    rcases hk with rfl | rfl | rfl | rfl | rfl | rfl | rfl <;> split <;> rfl
  rcases answered_kind hl' h8' run' h with rfl | ⟨h3, k, hk, hc⟩
  · refine ⟨fun rsp hok => ?_, fun _ h => absurd rfl h⟩
    obtain ⟨k, hk, _⟩ := c32_accepted_allowed hl h8 run env [] buf rsp hok
    simp [code] at hk
  · refine ⟨fun rsp hok => ?_, fun ha _ => ?_⟩
    · obtain ⟨k', hk', hal⟩ := c32_accepted_allowed hl h8 run env out buf rsp hok
      rw [hc] at hk'
      simp only [Option.some.injEq] at hk'
      subst hk'
      rw [hno k hk] at hal
      exact absurd hal (by simp)
    · obtain ⟨q1, q2⟩ := c32_out_of_order_refused hl h8 run ha env out buf k h3 hc (hno k hk _)
      refine ⟨q1, q2, ?_⟩
      rcases c36_only_challenge_signs hl h8 run env out buf with hs | ⟨_, _, h83, _⟩
      · exact hs
      · rw [hc] at h83
        simp only [Option.some.injEq] at h83
        subst h83
        exact absurd hk (by decide)

/-- **C128**, a mirror: a requester that hears nothing but what requesters write - its own requests, or those of another requester it has been connected to - accepts nothing and never completes. -/
theorem c128_mirrored_requester (run : ReqRun c cr root es r)
    (hm : ∀ rsp res, .recv rsp res ∈ es → ∃ (c' : Cfg) (cr' : Crypto) (root' : Bytes) (es' : List ReqEvent) (r' : Requester) (env : Env) (buf : Bytes),
      ReqRun c' cr' root' es' r' ∧ .next env buf (.ok rsp) ∈ es') : accepted es = [] ∧ ∀ rsp b, .recv rsp (.ok b) ∉ es := by
  have key : ∀ rsp b, .recv rsp (.ok b) ∉ es := by
    intro rsp b h
    obtain ⟨c', cr', root', es', r', env, buf, run', hw⟩ := hm rsp _ h
    obtain ⟨_, _, k, hk, hc⟩ := sent_kind run' hw
    have := recv_codes run h
    rw [hc] at this
    simp only [Option.some.injEq, List.mem_cons, List.not_mem_nil, or_false] at this
    clear hc
    revert this
    revert k
    simp only [requestCodes]
    decide
  refine ⟨?_, key⟩
  unfold accepted
  rw [List.filterMap_eq_nil_iff]
  intro e he
  cases e with
  | next env buf res => rfl
  | recv rsp res =>
    cases res with
    | ok b => exact absurd he (key rsp b)
    | err x => rfl
    | panic k => rfl

/-- **C128**, two responders: a responder that is sent nothing but what responders answer accepts nothing and signs nothing. -/
theorem c128_mirrored_responder (hl : slots.length = c.numSlots) (h8 : c.numSlots ≤ 8) (run : RspRun c cr slots fs p)
    (hm : ∀ env req buf res, .call env req buf res ∈ fs → ∃ (c' : Cfg) (cr' : Crypto) (slots' : List (Option FilledSlot)) (fs' : List RspEvent) (p' : Responder) (env' : Env) (req' buf' : Bytes) (e : Option Err),
      slots'.length = c'.numSlots ∧ c'.numSlots ≤ 8 ∧ RspRun c' cr' slots' fs' p' ∧ .call env' req' buf' (.ok ⟨req, e⟩) ∈ fs') :
    exchanges fs = [] ∧ p.signed = [] := by
  induction run with
  | new => exact ⟨rfl, rfl⟩
  | @reset es r _ ih =>
    obtain ⟨_, h2⟩ := ih fun env req buf res h => hm env req buf res (List.mem_append_left _ h)
    exact ⟨by rw [exchanges_snoc]; rfl, h2⟩
  | @call es r env req buf run ih =>
    obtain ⟨h1, h2⟩ := ih fun env req buf res h => hm env req buf res (List.mem_append_left _ h)
    obtain ⟨c', cr', slots', fs', p', env', req', buf', e, hl', h8', run', hc⟩ := hm env req buf _ (List.mem_append_right _ (List.mem_singleton_self _))
    obtain ⟨hno, _⟩ := c128_responses_no_requests hl' h8' run' hc hl h8 run env buf
    constructor
    · rw [exchanges_snoc, h1]
      rcases hres : (Responder.handleMsg c cr env req buf r).1 with ⟨out, _ | x⟩ | x | k
      · exact absurd hres (hno out)
      · rfl
      · rfl
      · rfl
    · rcases c36_only_challenge_signs hl h8 run env req buf with hs | ⟨_, _, h83, _⟩
      · rw [hs, h2]
      · rcases answered_kind hl' h8' run' hc with rfl | ⟨_, k, hk, hc'⟩
        · simp [code] at h83
        · rw [hc'] at h83
          simp only [Option.some.injEq] at h83
          subst h83
          exact absurd hk (by decide)

/-- In the session: the CHALLENGE the requester has written, and the CHALLENGE_AUTH the responder has answered, are there, and both ends are in use. -/
example : .next demoReqEnv (zeros 200) (.ok demoChallenge) ∈ demoReqEvents 11 ∧ failed (demoReqEvents 11) = false ∧
    (path (conversation (reqMsgs (demoReqEvents 11))))[(accepted (demoReqEvents 11)).length]? = some 0x03 ∧
    (Requester.handleMsg demoCfg demoCrypto demoChallenge (demoRequester 11)).1 = .err (.unexpectedMsg 0x03 0x11) := by decide +kernel

example : .call demoEnv demoChallenge (zeros 200) (.ok ⟨demoReplies[5]?.getD [], none⟩) ∈ demoEvents 6 ∧ alive (demoEvents 6) = true ∧ demoReplies[5]?.getD [] ≠ [] ∧
    (Responder.handleMsg demoCfg demoCrypto demoEnv (demoReplies[5]?.getD []) (zeros 200) (demoResponder 6)).1 = .ok ⟨[0x12, 0x7F, 4, 0], some (.unexpectedMsg 0x83 0x11)⟩ := by decide +kernel

/-- A requester connected to itself. -/
example : reqBehaviour demoCfg demoCrypto (Requester.new demoCfg [1, 2, 3]) [.next demoReqEnv (zeros 200), .recv demoGetVersion] =
    [.next demoReqEnv (zeros 200) (.ok demoGetVersion), .recv demoGetVersion (.err (.unexpectedMsg 0x04 0x10))] := by decide +kernel

end Spdm
