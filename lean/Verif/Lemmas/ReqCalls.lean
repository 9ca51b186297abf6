import Mathlib.Data.List.Induction
import Verif.Lemmas.ReqInv
import Verif.Spec.Replay
/-! Consequences of the requester invariant. -/
namespace Spdm
open Spec

variable {c : Cfg} {cr : Crypto} {root : Bytes} {es : List ReqEvent} {r : Requester}

theorem reqAfter_append (r : Requester) (xs ys : List ReqCall) : reqAfter c cr r (xs ++ ys) = reqAfter c cr (reqAfter c cr r xs) ys := by
  induction xs generalizing r with
  | nil => rfl
  | cons x xs ih => exact ih _

theorem reqBehaviour_append (r : Requester) (xs ys : List ReqCall) :
    reqBehaviour c cr r (xs ++ ys) = reqBehaviour c cr r xs ++ reqBehaviour c cr (reqAfter c cr r xs) ys := by
  induction xs generalizing r with
  | nil => rfl
  | cons x xs ih => simp only [List.cons_append, reqBehaviour, reqAfter, ih]

/-- A history is the behaviour of its calls. -/
theorem Spec.ReqRun.calls (h : ReqRun c cr root es r) : ∃ calls, es = reqBehaviour c cr (Requester.new c root) calls ∧ r = reqAfter c cr (Requester.new c root) calls := by
  induction h with
  | new => exact ⟨[], rfl, rfl⟩
  | @next es r env buf _ ih =>
    obtain ⟨xs, h1, h2⟩ := ih
    exact ⟨xs ++ [.next env buf], by rw [reqBehaviour_append, ← h1, ← h2]; rfl, by rw [reqAfter_append, ← h2]; rfl⟩
  | @recv es r rsp _ ih =>
    obtain ⟨xs, h1, h2⟩ := ih
    exact ⟨xs ++ [.recv rsp], by rw [reqBehaviour_append, ← h1, ← h2]; rfl, by rw [reqAfter_append, ← h2]; rfl⟩

theorem reqBehaviour_length (r : Requester) (xs : List ReqCall) : (reqBehaviour c cr r xs).length = xs.length := by
  induction xs generalizing r with
  | nil => rfl
  | cons x xs ih => simp [reqBehaviour, ih]

/-- A history can be cut anywhere. -/
theorem Spec.ReqRun.split {es1 es2 : List ReqEvent} (h : ReqRun c cr root (es1 ++ es2) r) :
    ∃ r1 calls, ReqRun c cr root es1 r1 ∧ es2 = reqBehaviour c cr r1 calls ∧ r = reqAfter c cr r1 calls := by
  obtain ⟨xs, h1, h2⟩ := h.calls
  have hl : es1.length ≤ xs.length := by
    have := congrArg List.length h1
    rw [reqBehaviour_length] at this
    simp at this; omega
  have hx : xs = xs.take es1.length ++ xs.drop es1.length := (List.take_append_drop _ _).symm
  rw [hx, reqBehaviour_append] at h1
  obtain ⟨e1, e2⟩ := List.append_inj h1 (by rw [reqBehaviour_length]; simp; omega)
  refine ⟨_, xs.drop es1.length, ?_, e2, ?_⟩
  · have := ReqRun.of c cr root (xs.take es1.length)
    rwa [← e1] at this
  · rw [h2, ← reqAfter_append, ← hx]

theorem failed_append (es1 es2 : List ReqEvent) : failed (es1 ++ es2) = (failed es1 || failed es2) := by
  simp [failed, List.any_append]

theorem accepted_append (es1 es2 : List ReqEvent) : accepted (es1 ++ es2) = accepted es1 ++ accepted es2 := by simp [accepted]

theorem reqMsgs_append (es1 es2 : List ReqEvent) : reqMsgs (es1 ++ es2) = reqMsgs es1 ++ reqMsgs es2 := by simp [reqMsgs]

theorem req_live' (h : ReqRun c cr root es r) (hf : failed es = false) : ∃ st, ReqLive c root es r st := by
  rcases reqRun_inv h with ⟨_, h⟩ | ⟨h, _⟩
  · exact h
  · rw [hf] at h; simp at h

/-- An accepted response: the requester had not failed, and the step it made. -/
theorem req_recv (h : ReqRun c cr root es r) {rsp : Bytes} {b : Bool} (hok : (Requester.handleMsg c cr rsp r).1 = .ok b) :
    failed es = false ∧ ∃ st st', ReqLive c root es r st ∧ b = decide (st' = .newSession) ∧
      ReqRecv c cr root st (conversation (reqMsgs es)).text rsp (Requester.handleMsg c cr rsp r).2.transcript.get st' ∧
      ReqLive c root (es ++ [.recv rsp (.ok b)]) (Requester.handleMsg c cr rsp r).2 st' := by
  rcases reqRun_inv h with ⟨hf, st, hl⟩ | ⟨_, hd⟩
  · refine ⟨hf, ?_⟩
    rcases hp : Requester.handleMsg c cr rsp r with ⟨x, r'⟩
    rw [hp] at hok
    simp only at hok
    subst hok
    rcases recv_refines hl.state hl.wf hp with ⟨st', hb, hs', hk, hrecv⟩ | ⟨hx, _⟩
    · simp only [Res.ok.injEq] at hb
      rw [hl.text, hl.root] at hrecv
      refine ⟨st, st', hl, hb, hrecv, ?_⟩
      have h' := ReqRun.recv rsp h
      rw [hp] at h'
      have hf' : failed (es ++ [.recv rsp (.ok b)]) = false := by rw [failed_append, hf]; simp [failed]
      obtain ⟨st'', hl'⟩ := req_live' h' hf'
      have : st'' = st' := Option.some.inj (hl'.state.symm.trans hs')
      rw [← this]
      exact hl'
    · simp [Res.isOk] at hx
  · rcases hd with hd | hd
    · simp [Requester.handleMsg, hd, Requester.handle] at hok
    · simp [Requester.handleMsg, hd] at hok

/-- A request written. -/
theorem req_next (h : ReqRun c cr root es r) {env : Env} {buf out : Bytes} (hok : (Requester.nextRequest c env buf r).1 = .ok out) :
    failed es = false ∧ ∃ st st', ReqLive c root es r st ∧ out.length ≤ buf.length ∧
      ReqSend c env st (conversation (reqMsgs es)).text out (Requester.nextRequest c env buf r).2.transcript.get st' ∧
      requestCodes[(accepted es).length]? = code out ∧ (accepted es).length < (path (conversation (reqMsgs es))).length ∧
      ReqLive c root (es ++ [.next env buf (.ok out)]) (Requester.nextRequest c env buf r).2 st' := by
  rcases reqRun_inv h with ⟨hf, st, hl⟩ | ⟨_, hd⟩
  · refine ⟨hf, ?_⟩
    rcases hp : Requester.nextRequest c env buf r with ⟨x, r'⟩
    rw [hp] at hok
    simp only at hok
    subst hok
    obtain ⟨hk, hx⟩ := next_refines hl.state hl.wf hp
    rcases hx with ⟨out', st', ho, hlen, hs', hsend⟩ | ⟨hx, _⟩
    · simp only [Res.ok.injEq] at ho
      subst ho
      rw [hl.text] at hsend
      have hcap : r'.transcript.get.length ≤ c.transcriptSize := by
        rw [Transcript.get_length hk.wf, ← hl.cap, ← hk.cap]; exact hk.wf
      obtain ⟨_, _, t3, t4⟩ := send_match hl.mat hsend hcap
      refine ⟨st, st', hl, hlen, hsend, t3, t4, ?_⟩
      have h' := ReqRun.next env buf h
      rw [hp] at h'
      have hf' : failed (es ++ [.next env buf (.ok out)]) = false := by rw [failed_append, hf]; simp [failed]
      obtain ⟨st'', hl'⟩ := req_live' h' hf'
      have : st'' = st' := Option.some.inj (hl'.state.symm.trans hs')
      rw [← this]
      exact hl'
    · simp [Res.isOk] at hx
  · rcases hd with hd | hd
    · simp [Requester.nextRequest, hd, Requester.writeReq] at hok
    · simp [Requester.nextRequest, hd] at hok

/-- Cut before the last event. -/
theorem Spec.ReqRun.last {e : ReqEvent} (h : ReqRun c cr root (es ++ [e]) r) :
    ∃ r1 x, ReqRun c cr root es r1 ∧ e = (ReqCall.run c cr r1 x).1 ∧ r = (ReqCall.run c cr r1 x).2 := by
  obtain ⟨r1, calls, h1, h2, h3⟩ := h.split
  rcases calls with _ | ⟨x, _ | ⟨y, ys⟩⟩
  · simp [reqBehaviour] at h2
  · simp only [reqBehaviour, List.cons.injEq, and_true] at h2
    exact ⟨r1, x, h1, h2, h3⟩
  · simp [reqBehaviour] at h2

/-- The code of an accepted response. -/
theorem ReqRecv.code {st st' : ReqState} {tr tr' rsp : Bytes} (h : ReqRecv c cr root st tr rsp tr' st') :
    ∃ k, Spec.code rsp = some k ∧ k ∈ ([0x04, 0x61, 0x63, 0x01, 0x02, 0x03] : List UInt8) := by
  cases h with
  | version h3 hh => exact ⟨_, code_of_take hh, by decide⟩
  | capabilities hr => rw [hr, List.append_assoc]; exact ⟨_, code_header _ _, by decide⟩
  | algorithms h3 hh => exact ⟨_, code_of_take hh, by decide⟩
  | digests h3 hh => exact ⟨_, code_of_take hh, by decide⟩
  | certificate hr => rw [hr, List.append_assoc]; exact ⟨_, code_header _ _, by decide⟩
  | challenge h3 hh => exact ⟨_, code_of_take hh, by decide⟩

/-- After the first accepted response no GET_VERSION is written or accepted. -/
theorem no_version_after {es1 es2 : List ReqEvent} (h : ReqRun c cr root (es1 ++ es2) r) (h1 : 1 ≤ (accepted es1).length) :
    ∀ m ∈ reqMsgs es2, code m ≠ some 0x84 := by
  induction es2 using List.reverseRecOn generalizing r with
  | nil => intro m hm; simp [reqMsgs] at hm
  | append_singleton es2 e ih =>
    rw [← List.append_assoc] at h
    obtain ⟨r1, x, hr, he, _⟩ := h.last
    intro m hm
    rw [reqMsgs_append, List.mem_append] at hm
    rcases hm with hm | hm
    · exact ih hr m hm
    · simp only [reqMsgs, List.filterMap_cons, List.filterMap_nil] at hm
      cases x with
      | next env buf =>
        simp only [ReqCall.run] at he
        rcases hx : (Requester.nextRequest c env buf r1).1 with out | er | k <;> rw [hx] at he <;> subst he <;> simp [ReqEvent.msg] at hm
        subst hm
        obtain ⟨_, st, st', _, _, _, hc, _⟩ := req_next hr hx
        rw [← hc]
        intro h84
        have hl : (accepted (es1 ++ es2)).length = 0 ∨ 1 ≤ (accepted (es1 ++ es2)).length := by omega
        rw [accepted_append, List.length_append] at h84
        have : ∀ n, 1 ≤ n → requestCodes[n]? ≠ some 0x84 := by
          intro n hn
          rcases n with _ | _ | _ | _ | _ | _ | n <;> simp_all [requestCodes]
        exact this _ (by omega) h84
      | recv rsp =>
        simp only [ReqCall.run] at he
        rcases hx : (Requester.handleMsg c cr rsp r1).1 with b | er | k <;> rw [hx] at he <;> subst he <;> simp [ReqEvent.msg] at hm
        subst hm
        obtain ⟨_, st, st', _, _, hrecv, _⟩ := req_recv hr hx
        obtain ⟨k, hk, hk2⟩ := hrecv.code
        rw [hk]
        intro h84
        simp only [Option.some.injEq] at h84
        subst h84
        revert hk2; decide

/-- Messages other than GET_VERSION extend the transcript. -/
theorem text_prefix (l : Log) (msgs : List Bytes) (h : ∀ m ∈ msgs, code m ≠ some 0x84) : ∃ more, (msgs.foldl Log.add l).text = l.text ++ more := by
  induction msgs generalizing l with
  | nil => exact ⟨[], by simp⟩
  | cons m msgs ih =>
    have h1 : ∃ more, (l.add m).text = l.text ++ more := by
      have hm := h m (by simp)
      unfold Log.add
      split
      · rename_i hc; exact absurd hc hm
      all_goals exact ⟨_, rfl⟩
    obtain ⟨a, ha⟩ := h1
    obtain ⟨b, hb⟩ := ih (l.add m) (fun x hx => h x (by simp [hx]))
    exact ⟨a ++ b, by rw [List.foldl_cons, hb, ha, List.append_assoc]⟩

end Spdm
