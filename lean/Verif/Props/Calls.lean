import Verif.Props.Requester
import Verif.Props.ReqAborts
/-!
# How the requester's two calls interact: C61 to C64
-/
namespace Spdm
open Spec

variable {c : Cfg} {cr : Crypto} {root : Bytes} {es : List ReqEvent} {r : Requester}

/-! ## C61: responses nobody asked for -/

/-- `next_request` was called after the last accepted response of `es`, and returned `res`. -/
def CalledSince (es : List ReqEvent) (P : Res Bytes → Prop) : Prop :=
  ∃ es1 env buf res es2, es = es1 ++ .next env buf res :: es2 ∧ accepted es2 = [] ∧ P res

theorem CalledSince.snoc {P : Res Bytes → Prop} {e : ReqEvent} (h : CalledSince es P) (he : accepted [e] = []) : CalledSince (es ++ [e]) P := by
  obtain ⟨es1, env, buf, res, es2, rfl, h2, h3⟩ := h
  exact ⟨es1, env, buf, res, es2 ++ [e], by simp, by rw [accepted_append, h2, he]; rfl, h3⟩

theorem asked_inv (run : ReqRun c cr root es r) :
    (∀ v ct cap, r.state = some (.capabilities v ct (some cap)) → CalledSince es fun res => ∃ out, res = .ok out ∧ code out = some 0xE1) ∧
    (∀ v caps m, r.state = some (.algorithms v caps (some m)) → CalledSince es fun res => (∃ out, res = .ok out ∧ code out = some 0xE3) ∨ res.isOk = false) := by
  induction run with
  | new => constructor <;> (intros; simp_all [Requester.new])
  | @next es r env buf run ih =>
    rcases reqRun_inv run with ⟨hf, st, hl⟩ | ⟨_, h | h⟩
    · rcases hp : Requester.nextRequest c env buf r with ⟨x, r'⟩
      obtain ⟨_, ⟨out, st', rfl, _, hs', hsend⟩ | ⟨hx, st', hs', hidle, _⟩⟩ := next_refines hl.state hl.wf hp
      · simp only [hs', Option.some.injEq]
        generalize r.transcript.get = tr at hsend
        generalize r'.transcript.get = tr' at hsend
        cases hsend with
        | version => constructor <;> (intros; simp_all)
        | capabilities hm =>
          refine ⟨fun _ _ _ _ => ⟨es, env, buf, _, [], rfl, rfl, _, rfl, code_header _ _⟩, by intros; simp_all⟩
        | algorithms hm =>
          refine ⟨by intros; simp_all, fun _ _ _ _ => ⟨es, env, buf, _, [], rfl, rfl, .inl ⟨_, rfl, code_header _ _⟩⟩⟩
        | digests => constructor <;> (intros; simp_all)
        | certificate => constructor <;> (intros; simp_all)
        | challenge => constructor <;> (intros; simp_all)
      · simp only [hs', Option.some.injEq]
        cases hidle with
        | same => exact ⟨fun v ct cap h => (ih.1 v ct cap (by rw [hl.state, h])).snoc rfl, fun v caps m h => (ih.2 v caps m (by rw [hl.state, h])).snoc rfl⟩
        | algorithms hm => exact ⟨by intros; simp_all, fun _ _ _ _ => ⟨es, env, buf, x, [], rfl, rfl, .inr hx⟩⟩
        | challenge => constructor <;> (intros; simp_all)
    · constructor <;> (intros; simp_all [Requester.nextRequest, Requester.writeReq])
    · constructor <;> (intros; simp_all [Requester.nextRequest])
  | @recv es r rsp run ih =>
    rcases hx : (Requester.handleMsg c cr rsp r).1 with b | e | k
    · obtain ⟨hf, st, st', hl, hb, hrecv, hl'⟩ := req_recv run hx
      rw [hl'.state]
      generalize (Requester.handleMsg c cr rsp r).2.transcript.get = tr' at hrecv
      cases hrecv with
      | version => constructor <;> (intros; simp_all)
      | capabilities => constructor <;> (intros; simp_all)
      | algorithms => split <;> constructor <;> (intros; simp_all)
      | digests => constructor <;> (intros; simp_all)
      | certificate => split <;> constructor <;> (intros; simp_all)
      | challenge => constructor <;> (intros; simp_all)
    all_goals
      rcases hp : Requester.handleMsg c cr rsp r with ⟨x, r'⟩
      rw [hp] at hx
      simp only at hx
      subst hx
      have hf : failed (es ++ [.recv rsp (Requester.handleMsg c cr rsp r).1]) = true := by rw [failed_append, hp]; simp [failed]
      rcases reqRun_inv (run.recv rsp) with ⟨hf', _⟩ | ⟨_, h | h⟩
      · rw [hf] at hf'; simp at hf'
      · rw [hp] at h; constructor <;> (intros; simp_all)
      · rw [hp] at h; constructor <;> (intros; simp_all)

/-- **C61**, the part that holds: CAPABILITIES is accepted only if GET_CAPABILITIES was written since the last accepted response, and ALGORITHMS only if
`next_request` was at least called since then. -/
theorem c61_asked_partial (run : ReqRun c cr root es r) (rsp : Bytes) (b : Bool) (hok : (Requester.handleMsg c cr rsp r).1 = .ok b) :
    (code rsp = some 0x61 → CalledSince es fun res => ∃ out, res = .ok out ∧ code out = some 0xE1) ∧
    (code rsp = some 0x63 → CalledSince es fun res => (∃ out, res = .ok out ∧ code out = some 0xE3) ∨ res.isOk = false) := by
  obtain ⟨hf, st, st', hl, hb, hrecv, hl'⟩ := req_recv run hok
  generalize (Requester.handleMsg c cr rsp r).2.transcript.get = tr' at hrecv
  have hinv := asked_inv run
  rw [hl.state] at hinv
  cases hrecv with
  | version h3 hh => rw [code_of_take hh]; simp [Wire.header]
  | capabilities hr =>
    refine ⟨fun _ => hinv.1 _ _ _ rfl, ?_⟩
    rw [hr, List.append_assoc, code_header]; simp [Wire.header]
  | algorithms h3 hh =>
    refine ⟨?_, fun _ => hinv.2 _ _ _ rfl⟩
    rw [code_of_take hh]; simp [Wire.header]
  | digests h3 hh => rw [code_of_take hh]; simp [Wire.header]
  | certificate hr => rw [hr, List.append_assoc, code_header]; simp [Wire.header]
  | challenge h3 hh => rw [code_of_take hh]; simp [Wire.header]

/-- The demo session meets the hypotheses at the second and third response. -/
example : (Requester.handleMsg demoCfg demoCrypto (demoReplies[1]?.getD []) (demoRequester 3)).1 = .ok false ∧ code (demoReplies[1]?.getD []) = some 0x61 ∧
    (Requester.handleMsg demoCfg demoCrypto (demoReplies[2]?.getD []) (demoRequester 5)).1 = .ok false ∧ code (demoReplies[2]?.getD []) = some 0x63 := by decide +kernel

/-- The calls of an application that only asks when it must: it sends GET_CAPABILITIES and NEGOTIATE_ALGORITHMS and nothing else. -/
def lazyCalls : List ReqCall :=
  [.recv (demoReplies[0]?.getD []), .next demoReqEnv (zeros 200), .recv (demoReplies[1]?.getD []), .next demoReqEnv (zeros 200), .recv (demoReplies[2]?.getD []),
   .recv (demoReplies[3]?.getD []), .recv (demoReplies[4]?.getD [])]

def lazyRequester : Requester := reqAfter demoCfg demoCrypto (Requester.new demoCfg [1, 2, 3]) lazyCalls

/-- A CHALLENGE_AUTH for it: the demo responder's, with a signature over the transcript of that requester. -/
def lazyAuth : Bytes :=
  let m := (demoReplies[5]?.getD []).take 78
  m ++ demoSign (demoHash (lazyRequester.transcript.get ++ m))

/-- **C61** is false of the code: VERSION, DIGESTS, CERTIFICATE and CHALLENGE_AUTH are accepted although nothing was asked, and the requester completes its
authentication without ever having sent a CHALLENGE - hence without any nonce of its own in the signed transcript. -/
theorem c61_completes_without_challenge :
    (reqBehaviour demoCfg demoCrypto (Requester.new demoCfg [1, 2, 3]) (lazyCalls ++ [.recv lazyAuth])).map (fun e => match e with | .recv _ res => some res | _ => none) =
      [some (.ok false), none, some (.ok false), none, some (.ok false), some (.ok false), some (.ok false), some (.ok true)] ∧
    (reqMsgs (reqBehaviour demoCfg demoCrypto (Requester.new demoCfg [1, 2, 3]) (lazyCalls ++ [.recv lazyAuth]))).map code =
      [some 0x04, some 0xE1, some 0x61, some 0xE3, some 0x63, some 0x01, some 0x02, some 0x03] := by decide +kernel

/-- **C61** is false of the code: the requester accepts ALGORITHMS although `next_request` failed and no NEGOTIATE_ALGORITHMS was written - here
because the transcript was full.  (The offer is stored before the transcript is extended, requester/algorithms.rs 51-55.) -/
theorem c61_algorithms_after_failed_request :
    let c := { demoCfg with transcriptSize := 4 + 10 + 12 + 12 + 40 }
    let rsp : Bytes := [0x11, 0x63, 0, 0, 36, 0, 1, 0, 1, 0, 0, 0, 0x10, 0, 0, 0, 1, 0, 0, 0] ++ zeros 16
    (reqBehaviour c demoCrypto (Requester.new c [1, 2, 3])
        (demoReqCalls 4 ++ [.next demoReqEnv (zeros 200), .recv rsp])).drop 4 =
      [.next demoReqEnv (zeros 200) (.err .bufferFull), .recv rsp (.ok false)] := by decide +kernel

/-! ## C62: a failed request can be retried -/

theorem next_of_state {st : ReqState} (hs : r.state = some st) (hn : st ≠ .newSession) (env : Env) (buf : Bytes) :
    Requester.nextRequest c env buf r = Requester.writeReq c env st buf r := by
  unfold Requester.nextRequest
  rw [hs]
  cases st <;> simp_all

/-- The parts of a requester that only `next_request` itself overwrites: the transcript before GET_VERSION, the stored offer, the stored nonce. -/
inductive Benign : Requester → Requester → Prop
  | same (q : Requester) : Benign q q
  | cleared {q : Requester} (h : q.state = some .version) : Benign q { q with transcript := q.transcript.clear }
  | offer {q : Requester} {v : VersionEntry} {caps : Caps} {o : Option NegotiateAlgorithms} {m : NegotiateAlgorithms} (h : q.state = some (.algorithms v caps o)) :
      Benign q { q with state := some (.algorithms v caps (some m)) }
  | nonce {q : Requester} {s : ReqChallenge} {n : Bytes} (h : q.state = some (.challenge s)) : Benign q { q with state := some (.challenge { s with nonce := some n }) }

/-- A lifted step followed by something: what holds of the state before, and of the state after the continuation fails, holds after a failure. -/
theorem lift_fails {σ α β : Type} {P : σ → Prop} {x : Res α} {f : α → M σ β} {s : σ} (hx : ((M.lift x >>= f) s).1.isOk = false) (hs : P s)
    (hf : ∀ a, (f a s).1.isOk = false → P (f a s).2) : P ((M.lift x >>= f) s).2 := by
  cases x with
  | ok a => exact hf a hx
  | err e => exact hs
  | panic k => exact hs

/-- Two runs of a lifted step that only differ in the state: alike if the continuations are. -/
theorem lift_alike {σ α β : Type} {x : Res α} {f : α → M σ β} {s s' : σ} (hf : ∀ a, f a s' = f a s) :
    ((M.lift x >>= f) s').1 = ((M.lift x >>= f) s).1 ∧ (((M.lift x >>= f) s).1.isOk = true → ((M.lift x >>= f) s').2 = ((M.lift x >>= f) s).2) := by
  cases x with
  | ok a =>
    have h := hf a
    exact ⟨congrArg Prod.fst h, fun _ => congrArg Prod.snd h⟩
  | err e => exact ⟨rfl, fun h => Bool.noConfusion h⟩
  | panic k => exact ⟨rfl, fun h => Bool.noConfusion h⟩

theorem lift_alike2 {σ α β γ : Type} {x : Res α} {y : α → Res β} {f : α → β → M σ γ} {s s' : σ} (hf : ∀ a b, f a b s' = f a b s) :
    ((M.lift x >>= fun a => M.lift (y a) >>= f a) s').1 = ((M.lift x >>= fun a => M.lift (y a) >>= f a) s).1 ∧
    (((M.lift x >>= fun a => M.lift (y a) >>= f a) s).1.isOk = true →
      ((M.lift x >>= fun a => M.lift (y a) >>= f a) s').2 = ((M.lift x >>= fun a => M.lift (y a) >>= f a) s).2) := by
  cases x with
  | ok a => exact lift_alike (x := y a) (f := f a) (hf a)
  | err e => exact ⟨rfl, fun h => Bool.noConfusion h⟩
  | panic k => exact ⟨rfl, fun h => Bool.noConfusion h⟩

/-- Recording and continuing with something that succeeds fails without changing anything. -/
theorem record_fails {α : Type} {out : Bytes} {q : Requester} {f : Unit → M Requester α} (hf : ∀ u q, (f u q).1.isOk = true)
    (hx : ((Requester.extend out >>= f) q).1.isOk = false) : ((Requester.extend out >>= f) q).2 = q := by
  by_cases h : q.transcript.offset + out.length > q.transcript.buf.length
  · have he : Requester.extend out q = (.err .bufferFull, q) := by
      unfold Requester.extend Transcript.extend
      rw [if_pos h]
    rw [M.run_bind_err he]
  · obtain ⟨q', he⟩ : ∃ q', Requester.extend out q = (.ok (), q') := by
      unfold Requester.extend Transcript.extend
      rw [if_neg h]
      exact ⟨_, rfl⟩
    rw [M.run_bind_ok he, hf] at hx
    exact Bool.noConfusion hx

/-- What a failed `next_request` leaves behind. -/
theorem failed_next_benign (env : Env) (buf : Bytes) (hx : (Requester.nextRequest c env buf r).1.isOk = false) : Benign r (Requester.nextRequest c env buf r).2 := by
  have rec1 : ∀ (out : Bytes) (q : Requester), ((Requester.extend out >>= fun _ => pure out : M Requester Bytes) q).1.isOk = false →
      ((Requester.extend out >>= fun _ => pure out : M Requester Bytes) q).2 = q := fun out q h => record_fails (fun _ _ => rfl) h
  rcases hs : r.state with _ | st
  · simp only [Requester.nextRequest, hs]; exact .same r
  by_cases hn : st = .newSession
  · subst hn; simp only [Requester.nextRequest, hs]; exact .same r
  rw [next_of_state hs hn] at hx ⊢
  cases st with
  | version =>
    simp only [Requester.writeReq] at hx ⊢
    refine lift_fails hx (.same r) fun out hx => ?_
    rw [M.run_bind_ok (m := Requester.clear) (a := ()) (s' := { r with transcript := r.transcript.clear }) rfl] at hx ⊢
    rw [rec1 _ _ hx]
    exact .cleared hs
  | capabilities v ct cap =>
    simp only [Requester.writeReq] at hx ⊢
    refine lift_fails hx (.same r) fun m hx => lift_fails hx (.same r) fun out hx => ?_
    rw [record_fails (fun _ _ => rfl) hx]
    exact .same r
  | algorithms v caps o =>
    simp only [Requester.writeReq] at hx ⊢
    refine lift_fails hx (.same r) fun m hx => lift_fails hx (.same r) fun out hx => ?_
    rw [M.run_bind_ok (m := Requester.setState _) (a := ()) (s' := { r with state := some (.algorithms v caps (some m)) }) rfl] at hx ⊢
    rw [rec1 _ _ hx]
    exact .offer hs
  | idAuth v caps a o =>
    cases o with
    | none =>
      simp only [Requester.writeReq] at hx ⊢
      refine lift_fails hx (.same r) fun out hx => ?_
      rw [rec1 _ _ hx]; exact .same r
    | some d =>
      simp only [Requester.writeReq] at hx ⊢
      by_cases h0 : 0 < c.numSlots
      · rw [if_neg (not_not.mpr h0)] at hx ⊢
        refine lift_fails hx (.same r) fun out hx => ?_
        rw [rec1 _ _ hx]; exact .same r
      · rw [if_pos h0]; exact .same r
  | challenge s =>
    simp only [Requester.writeReq] at hx ⊢
    rw [M.run_bind_ok (m := Requester.setState _) (a := ()) (s' := { r with state := some (.challenge { s with nonce := some env.nonce }) }) rfl] at hx ⊢
    refine lift_fails hx (.nonce hs) fun out hx => ?_
    rw [rec1 _ _ hx]; exact .nonce hs
  | error => exact .same r
  | newSession => exact absurd rfl hn

/-- And what it leaves behind does not matter to the next call. -/
theorem benign_next {q q' : Requester} (h : Benign q q') (env : Env) (buf : Bytes) :
    (Requester.nextRequest c env buf q').1 = (Requester.nextRequest c env buf q).1 ∧
    ((Requester.nextRequest c env buf q).1.isOk = true → (Requester.nextRequest c env buf q').2 = (Requester.nextRequest c env buf q).2) := by
  cases h with
  | same => exact ⟨rfl, fun _ => rfl⟩
  | cleared h =>
    rw [next_of_state (r := { q with transcript := q.transcript.clear }) h (by simp), next_of_state h (by simp)]
    simp only [Requester.writeReq]
    exact lift_alike fun out => rfl
  | @offer v caps o m h =>
    rw [next_of_state (r := { q with state := some (.algorithms v caps (some m)) }) rfl (by simp), next_of_state h (by simp)]
    simp only [Requester.writeReq]
    exact lift_alike2 fun m out => rfl
  | @nonce s n h =>
    rw [next_of_state (r := { q with state := some (.challenge { s with nonce := some n }) }) rfl (by simp), next_of_state h (by simp)]
    exact ⟨rfl, fun _ => rfl⟩

/-- **C62.** A `next_request` that fails can be retried: the next call gives what it would have given without the failed one, and if it succeeds the
requester is in the very state it would have been in. -/
theorem c62_failed_request_retry (env : Env) (buf : Bytes) (hx : (Requester.nextRequest c env buf r).1.isOk = false) (env2 : Env) (buf2 : Bytes) :
    (Requester.nextRequest c env2 buf2 (Requester.nextRequest c env buf r).2).1 = (Requester.nextRequest c env2 buf2 r).1 ∧
    ((Requester.nextRequest c env2 buf2 r).1.isOk = true →
      (Requester.nextRequest c env2 buf2 (Requester.nextRequest c env buf r).2).2 = (Requester.nextRequest c env2 buf2 r).2) :=
  benign_next (failed_next_benign env buf hx) env2 buf2

/-- **C62.** So a failed call followed by a successful one is, for everything that follows, as if the failed one had not happened; and it does not change
the transcript. -/
theorem c62_failed_request_invisible (run : ReqRun c cr root es r) (hf : failed es = false) (env : Env) (buf : Bytes)
    (hx : (Requester.nextRequest c env buf r).1.isOk = false) :
    (Requester.nextRequest c env buf r).2.transcript.get = r.transcript.get ∧
    ∀ env2 buf2 out calls, (Requester.nextRequest c env2 buf2 r).1 = .ok out →
      reqBehaviour c cr (Requester.nextRequest c env buf r).2 (.next env2 buf2 :: calls) = reqBehaviour c cr r (.next env2 buf2 :: calls) := by
  constructor
  · have h1 := c44_transcript_exact run hf
    have run' := run.next env buf
    have h2 := c44_transcript_exact run' (by rw [failed_append, hf]; simp [failed])
    have h3 : reqMsgs (es ++ [.next env buf (Requester.nextRequest c env buf r).1]) = reqMsgs es := by
      rw [reqMsgs_append]
      rcases hy : (Requester.nextRequest c env buf r).1 with out | e | k
      · rw [hy] at hx; simp [Res.isOk] at hx
      · rw [show reqMsgs [.next env buf (.err e)] = [] from rfl, List.append_nil]
      · rw [show reqMsgs [.next env buf (.panic k)] = [] from rfl, List.append_nil]
    rw [h2, h3, h1]
  · intro env2 buf2 out calls hok
    obtain ⟨h1, h2⟩ := c62_failed_request_retry env buf hx env2 buf2
    simp only [reqBehaviour, ReqCall.run]
    rw [h1, h2 (by rw [hok]; rfl)]

/-- In the demo session: a buffer of five bytes is too small for NEGOTIATE_ALGORITHMS; the retry succeeds. -/
example : (Requester.nextRequest demoCfg demoReqEnv (zeros 5) (demoRequester 4)).1 = .err .bufferFull ∧ failed (demoReqEvents 4) = false ∧
    ((Requester.nextRequest demoCfg demoReqEnv (zeros 200) (Requester.nextRequest demoCfg demoReqEnv (zeros 5) (demoRequester 4)).2).1).isOk = true := by decide +kernel

/-! ## C63: sending a request again -/

/-- **C63**, the part that holds: GET_VERSION can be sent again; the second one leaves the same transcript and state as the first. -/
theorem c63_get_version_again_partial (run : ReqRun c cr root es r) (h0 : accepted es = []) (env env2 : Env) (buf buf2 out out2 : Bytes)
    (h1 : (Requester.nextRequest c env buf r).1 = .ok out) (h2 : (Requester.nextRequest c env2 buf2 (Requester.nextRequest c env buf r).2).1 = .ok out2) :
    out2 = out ∧ code out = some 0x84 ∧
    (Requester.nextRequest c env2 buf2 (Requester.nextRequest c env buf r).2).2.transcript.get = (Requester.nextRequest c env buf r).2.transcript.get ∧
    (Requester.nextRequest c env2 buf2 (Requester.nextRequest c env buf r).2).2.state = (Requester.nextRequest c env buf r).2.state := by
  obtain ⟨hf, st, st', hl, _, hs, _, _, hl'⟩ := req_next run h1
  have run2 := run.next env buf
  rw [h1] at run2
  obtain ⟨_, st2, st2', hl2, _, hs2, _, _, hl2'⟩ := req_next run2 h2
  have hst : st = .version := by
    have := hl.mat
    rw [h0] at this
    generalize conversation (reqMsgs es) = l at this
    generalize hA : ([] : List Bytes) = A at this
    cases this with
    | version => rfl
    | done h => subst hA; simp [path] at h
    | _ => simp at hA
  subst hst
  have hst2 : st2 = st' := Option.some.inj (hl2.state.symm.trans hl'.state)
  subst hst2
  rw [hl2'.state, hl2.state]
  generalize (Requester.nextRequest c env2 buf2 (Requester.nextRequest c env buf r).2).2.transcript.get = tr2 at hs2 ⊢
  generalize (Requester.nextRequest c env buf r).2.transcript.get = tr1 at hs ⊢
  generalize (conversation (reqMsgs es)).text = t0 at hs
  generalize (conversation (reqMsgs (es ++ [.next env buf (.ok out)]))).text = t1 at hs2
  cases hs
  cases hs2
  exact ⟨rfl, code_header _ _, rfl, rfl⟩

/-- **C63** is false of the code: any other request that is written again before a response was accepted is recorded again, so that the transcript
contains it twice. -/
theorem c63_recorded_twice (run : ReqRun c cr root es r) (h0 : accepted es ≠ []) (env env2 : Env) (buf buf2 out out2 : Bytes)
    (h1 : (Requester.nextRequest c env buf r).1 = .ok out) (h2 : (Requester.nextRequest c env2 buf2 (Requester.nextRequest c env buf r).2).1 = .ok out2) :
    code out2 = code out ∧ (Requester.nextRequest c env2 buf2 (Requester.nextRequest c env buf r).2).2.transcript.get = r.transcript.get ++ out ++ out2 := by
  have plain : ∀ {st st' : ReqState} {tr o tr' : Bytes} {e : Env}, ReqSend c e st tr o tr' st' → code o ≠ some 0x84 → tr' = tr ++ o := by
    intro st st' tr o tr' e h hc
    cases h with
    | version => exact absurd (code_header _ _) hc
    | _ => rfl
  have hne : ∀ k, 1 ≤ k → requestCodes[k]? ≠ some 0x84 := by
    intro n hn
    rcases n with _ | _ | _ | _ | _ | _ | n <;> simp_all [requestCodes]
  have h1' : 1 ≤ (accepted es).length := by
    rcases hz : accepted es with _ | ⟨_, _⟩
    · exact absurd hz h0
    · simp
  obtain ⟨hf, st, st', hl, _, hs, hc, _, hl'⟩ := req_next run h1
  have run2 := run.next env buf
  rw [h1] at run2
  obtain ⟨_, st2, st2', hl2, _, hs2, hc2, _, hl2'⟩ := req_next run2 h2
  have hacc : accepted (es ++ [.next env buf (.ok out)]) = accepted es := by simp [accepted]
  rw [hacc] at hc2
  refine ⟨by rw [← hc, ← hc2], ?_⟩
  have e1 := plain hs (by rw [← hc]; exact hne _ h1')
  have e2 := plain hs2 (by rw [← hc2]; exact hne _ h1')
  rw [e2, ← hl2.text, e1, hl.text]

/-- **C63** is false of the code: the demo session completes; if GET_CAPABILITIES was written twice - say because the first one was lost - the same
responder's CHALLENGE_AUTH, signed over what the responder saw, is refused. -/
theorem c63_retransmission_breaks_authentication :
    (reqBehaviour demoCfg demoCrypto (Requester.new demoCfg [1, 2, 3]) demoReqAll).getLast? = some (.recv (demoReplies[5]?.getD []) (.ok true)) ∧
    (reqBehaviour demoCfg demoCrypto (Requester.new demoCfg [1, 2, 3]) (demoReqAll.take 2 ++ [.next demoReqEnv (zeros 200)] ++ demoReqAll.drop 2)).getLast? =
      some (.recv (demoReplies[5]?.getD []) (.err .invalidSignature)) := by decide +kernel

/-! ## C64: unexpected responses -/

theorem expect_unexpected {t : MsgType} {buf : Bytes} {b0 : UInt8} (h3 : 3 ≤ buf.length) (hb : buf[0]? = some b0) (hc : code buf ≠ some t.spdmCode) :
    Responder.expect t buf = .err (.unexpectedMsg t.spdmCode b0) := by
  obtain ⟨x, y, z, rest, rfl⟩ : ∃ x y z rest, buf = x :: y :: z :: rest := by
    rcases buf with _ | ⟨x, _ | ⟨y, _ | ⟨z, rest⟩⟩⟩
    · simp at h3
    · simp at h3
    · simp at h3
    · exact ⟨x, y, z, rest, rfl⟩
  simp only [List.getElem?_cons_zero, Option.some.injEq] at hb
  subst hb
  have hy : y ≠ t.spdmCode := fun h => hc (by simp [code, h])
  simp [Responder.expect, MsgType.parseHeader, index, hy]

/-- **C64.** A response of at least three bytes whose code is not that of the response awaited is refused with UnexpectedMsgCode - whatever else it
contains, an ERROR message in particular - nothing is recorded of it, and the requester is in the error state.  (The code reported as received is the
first byte of the response, which is the protocol version, not the code.) -/
theorem c64_unexpected_refused (run : ReqRun c cr root es r) (hf : failed es = false) (rsp : Bytes) (h3 : 3 ≤ rsp.length) (k b0 : UInt8)
    (hk : (path (conversation (reqMsgs es)))[(accepted es).length]? = some k) (hc : code rsp ≠ some k) (hb : rsp[0]? = some b0) :
    Requester.handleMsg c cr rsp r = (.err (.unexpectedMsg k b0), { r with state := some .error }) := by
  obtain ⟨st, hl⟩ := req_live' run hf
  have key : ∀ t : MsgType, t.spdmCode = k → ∀ {α : Type} (f : Unit → M Requester α),
      (M.lift (Responder.expect t rsp) >>= f) { r with state := none } = (.err (.unexpectedMsg k b0), { r with state := none }) := by
    intro t ht α f
    have := expect_unexpected (t := t) h3 hb (by rw [ht]; exact hc)
    rw [this, ht]; rfl
  have hh : Requester.handle c cr st rsp { r with state := none } = (.err (.unexpectedMsg k b0), { r with state := none }) := by
    have hm := hl.mat
    generalize accepted es = acc at hm hk
    generalize conversation (reqMsgs es) = l at hm hk
    cases hm with
    | version => simp only [Requester.handle]; exact key _ (by simpa [path, MsgType.spdmCode] using hk) _
    | capabilities => simp only [Requester.handle]; exact key _ (by simpa [path, MsgType.spdmCode] using hk) _
    | algorithms => simp only [Requester.handle]; exact key _ (by simpa [path, MsgType.spdmCode] using hk) _
    | digests _ _ _ _ hb1 => simp only [Requester.handle]; exact key _ (by simpa [path, hb1, MsgType.spdmCode] using hk) _
    | certificate _ _ _ _ hb1 => simp only [Requester.handle]; exact key _ (by simpa [path, hb1, MsgType.spdmCode] using hk) _
    | challenge _ _ _ _ hb1 hb2 =>
      simp only [Requester.handle, Requester.challengeHandle]
      rw [M.run_bind_err (key _ (by simpa [path, hb1, hb2, MsgType.spdmCode] using hk) _)]
    | done h =>
      have := congrArg List.length h
      simp only [List.length_map] at this
      rw [this] at hk
      simp at hk
  unfold Requester.handleMsg
  rw [hl.state]
  simp only [hh]

/-- The demo session, awaiting ALGORITHMS: an ERROR (Busy) response ends it. -/
example : failed (demoReqEvents 5) = false ∧ (path (conversation (reqMsgs (demoReqEvents 5))))[(accepted (demoReqEvents 5)).length]? = some 0x63 ∧
    (Requester.handleMsg demoCfg demoCrypto [0x11, 0x7F, 0x03, 0] (demoRequester 5)).1 = .err (.unexpectedMsg 0x63 0x11) := by decide +kernel

end Spdm
