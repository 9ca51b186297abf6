import Verif.Spec.Pair
import Verif.Lemmas.ReqCalls
import Verif.Lemmas.RspCalls
import Verif.DemoSession
/-!
# Both endpoints (C48)
-/
namespace Spdm
open Spec

theorem Spec.RspRun.last {c : Cfg} {cr : Crypto} {slots : List (Option FilledSlot)} {es : List RspEvent} {r : Responder} {env : Env} {req buf : Bytes}
    {res : Res Responder.Output} (h : RspRun c cr slots (es ++ [.call env req buf res]) r) :
    ∃ r1, RspRun c cr slots es r1 ∧ res = (Responder.handleMsg c cr env req buf r1).1 ∧ r = (Responder.handleMsg c cr env req buf r1).2 := by
  generalize hes : es ++ [.call env req buf res] = es0 at h
  cases h with
  | new => simp at hes
  | @call es1 r1 env1 req1 buf1 h =>
    obtain ⟨rfl, h2⟩ := List.append_inj' hes rfl
    simp only [List.cons.injEq, RspEvent.call.injEq, and_true] at h2
    obtain ⟨rfl, rfl, rfl, rfl⟩ := h2
    exact ⟨r1, h, rfl, rfl⟩
  | @reset es1 r1 h =>
    obtain ⟨_, h2⟩ := List.append_inj' hes rfl
    simp at h2

variable {c c' : Cfg} {cr cr' : Crypto} {root : Bytes} {slots : List (Option FilledSlot)} {es : List ReqEvent} {es' : List RspEvent} {r : Requester} {r' : Responder}

theorem delivered_not_failed (h : Delivered es es') : failed es = false := by
  induction h with
  | start => rfl
  | vain env buf res _ _ ih => rw [failed_append, ih]; rfl
  | exchange env env' buf buf' req rsp b _ ih => rw [failed_append, ih]; rfl

theorem delivered_log (hl : slots.length = c'.numSlots) (h8 : c'.numSlots ≤ 8) (h : Delivered es es') (hr : ReqRun c cr root es r) (hr' : RspRun c' cr' slots es' r')
    (hne : accepted es ≠ []) : alive es' = true ∧ conversation (reqMsgs es) = conversation (rspMsgs es') := by
  induction h generalizing r r' with
  | start => exact absurd rfl hne
  | vain env buf res _ hres ih =>
    obtain ⟨r1, _, hr1, _, _⟩ := hr.last
    have h0 : accepted [ReqEvent.next env buf res] = [] := rfl
    have h1 : reqMsgs [ReqEvent.next env buf res] = [] := by
      cases res with
      | ok o => simp [Res.isOk] at hres
      | err e => rfl
      | panic k => rfl
    rw [accepted_append, h0, List.append_nil] at hne
    rw [reqMsgs_append, h1, List.append_nil]
    exact ih hr1 hr' hne
  | @exchange es es' env env' buf buf' req rsp b _ ih =>
    obtain ⟨r1', hr1', hres', hrr⟩ := hr'.last
    rw [show es ++ [ReqEvent.next env buf (.ok req), .recv rsp (.ok b)] = (es ++ [.next env buf (.ok req)]) ++ [.recv rsp (.ok b)] by simp] at hr
    obtain ⟨r2, _, hr2, _, _⟩ := hr.last
    obtain ⟨r1, x, hr1, hx, _⟩ := hr2.last
    have ha := run_alive hl h8 hr1' hres'.symm
    refine ⟨by rw [alive_snoc]; exact ha, ?_⟩
    have e1 : reqMsgs (es ++ [ReqEvent.next env buf (.ok req), .recv rsp (.ok b)]) = reqMsgs es ++ [req, rsp] := by
      rw [reqMsgs_append]; rfl
    rw [e1, rspMsgs_ok]
    have key : (conversation (reqMsgs es)).add req = (conversation (rspMsgs es')).add req := by
      by_cases hn : accepted es = []
      · cases x with
        | recv m => simp [ReqCall.run] at hx
        | next env1 buf1 =>
          simp only [ReqCall.run, ReqEvent.next.injEq] at hx
          obtain ⟨rfl, rfl, hx⟩ := hx
          obtain ⟨_, _, _, _, _, _, h1, _, _⟩ := req_next hr1 hx.symm
          rw [hn] at h1
          have hcode : code req = some 0x84 := by rw [← h1]; rfl
          simp only [Log.add, hcode]
      · rw [(ih hr1 hr1' hn).2]
    simp only [conversation, List.foldl_append, List.foldl_cons, List.foldl_nil] at key ⊢
    rw [key]

/-- **C48.** After every exchange over a link that delivers every message unmodified the two transcripts are equal, byte for byte — also if the two
endpoints were built from different configurations and use different providers, and whatever the responder did before the conversation. -/
theorem c48_transcripts_agree (hl : slots.length = c'.numSlots) (h8 : c'.numSlots ≤ 8) (h : Delivered es es') (hr : ReqRun c cr root es r)
    (hr' : RspRun c' cr' slots es' r') (hne : accepted es ≠ []) : r.transcript.get = r'.transcript.get := by
  obtain ⟨ha, hc⟩ := delivered_log hl h8 h hr hr' hne
  obtain ⟨st, h1⟩ := req_live' hr (delivered_not_failed h)
  obtain ⟨st', h2⟩ := run_live hl h8 hr' ha
  rw [h1.text, h2.text, hc]

/-- Exchanges that succeed are such a link. -/
theorem talk_delivered {xs : List Round} {bs : List Bool} {r1 : Requester} {r1' : Responder} (h : talk c c' cr cr' xs (r, r') = some (bs, (r1, r1')))
    (hr : ReqRun c cr root es r) (hr' : RspRun c' cr' slots es' r') (hd : Delivered es es') :
    ∃ es1 es1', ReqRun c cr root (es ++ es1) r1 ∧ RspRun c' cr' slots (es' ++ es1') r1' ∧ Delivered (es ++ es1) (es' ++ es1') ∧ (accepted es1).length = xs.length := by
  induction xs generalizing es es' r r' bs with
  | nil =>
    simp only [talk, Option.some.injEq, Prod.mk.injEq] at h
    obtain ⟨_, rfl, rfl⟩ := h
    exact ⟨[], [], by simpa using hr, by simpa using hr', by simpa using hd, rfl⟩
  | cons x xs ih =>
    rcases h1 : Requester.nextRequest c x.reqEnv x.reqBuf r with ⟨req | _ | _, ra⟩ <;> simp only [talk, exchange, h1, reduceCtorEq] at h
    rcases h2 : Responder.handleMsg c' cr' x.rspEnv req x.rspBuf r' with ⟨⟨rsp, _ | _⟩ | _ | _, rb⟩ <;> simp only [h2, reduceCtorEq] at h
    rcases h3 : Requester.handleMsg c cr rsp ra with ⟨b | _ | _, rc⟩ <;> simp only [h3, reduceCtorEq] at h
    rcases h4 : talk c c' cr cr' xs (rc, rb) with _ | ⟨bs', r2, r2'⟩ <;> simp only [h4, reduceCtorEq, Option.some.injEq, Prod.mk.injEq] at h
    obtain ⟨_, rfl, rfl⟩ := h
    have a1 := ReqRun.next x.reqEnv x.reqBuf hr
    rw [h1] at a1
    have a2 := ReqRun.recv rsp a1
    simp only [h3, List.append_assoc, List.singleton_append] at a2
    have a3 := RspRun.call x.rspEnv req x.rspBuf hr'
    rw [h2] at a3
    obtain ⟨es1, es1', p1, p2, p3, p4⟩ := ih h4 a2 a3 (.exchange x.reqEnv x.rspEnv x.reqBuf x.rspBuf req rsp b hd)
    refine ⟨_, _, by rwa [List.append_assoc] at p1, by rwa [List.append_assoc] at p2, by rwa [List.append_assoc, List.append_assoc] at p3, ?_⟩
    rw [accepted_append, List.length_append, p4]
    simp [accepted]; omega

/-- Such a link: the six exchanges of the session, with a responder that had been used before. -/
example : ∃ es es' r r', ReqRun demoCfg demoCrypto [1, 2, 3] es r ∧ RspRun demoCfg demoCrypto demoSlots es' r' ∧ Delivered es es' ∧ (accepted es).length = 6 := by
  have h : (talk demoCfg demoCfg demoCrypto demoCrypto (List.replicate 6 ⟨demoReqEnv, demoEnv, zeros 200, zeros 200⟩) (Requester.new demoCfg [1, 2, 3], demoResponder 3)).isSome = true := by
    decide +kernel
  obtain ⟨⟨bs, r, r'⟩, h⟩ := Option.isSome_iff_exists.mp h
  obtain ⟨es1, es1', h1, h2, h3, h4⟩ := talk_delivered h .new (demo_run 3) (.start _)
  exact ⟨_, _, _, _, h1, h2, h3, by simpa using h4⟩

end Spdm
