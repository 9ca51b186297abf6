import Verif.Spec.Partner
import Verif.Props.Relay
/-! C121: one signature, one session, in time. -/
namespace Spdm
open Spec

variable {N : Network}

theorem since_mem {ms : List Bytes} {x : Bytes} : x ∈ sinceVersion ms → x ∈ ms := by
  induction ms using List.reverseRecOn with
  | nil => intro h; simp [sinceVersion] at h
  | append_singleton ms m ih =>
    intro h
    rw [sinceVersion_snoc] at h
    split at h
    · simp only [List.mem_singleton] at h
      simp [h]
    · rcases List.mem_append.mp h with h | h
      · exact List.mem_append_left _ (ih h)
      · exact List.mem_append_right _ h

theorem take_snoc {α : Type} {l : List α} {n : Nat} {x : α} (h : l[n]? = some x) : l.take n ++ [x] = l.take (n + 1) := by
  rw [List.take_add_one, h]
  rfl

theorem take_mem {α : Type} {l : List α} {n : Nat} {x : α} (h : x ∈ l.take n) : ∃ w, w < n ∧ l[w]? = some x := by
  obtain ⟨w, hw⟩ := List.mem_iff_getElem?.mp h
  rw [List.getElem?_take] at hw
  split at hw
  · exact ⟨w, by assumption, hw⟩
  · cases hw

/-- A requester writes its nonce behind the four bytes of a CHALLENGE. -/
theorem challenge_carries {i : Nat} {t : List NetEvent} (h : Happens N t) {env : Env} {buf out : Bytes} (hm : .req i (.next env buf (.ok out)) ∈ t) (hk : code out = some 0x83) :
    ∃ slot : UInt8, out = [0x11, 0x83, slot, 0] ++ env.nonce := by
  obtain ⟨r, run⟩ := h.req i
  obtain ⟨es1, es2, he⟩ := List.append_of_mem (mem_reqOf hm)
  rw [he] at run
  obtain ⟨r1, calls, h1, h2, _⟩ := run.split
  cases calls with
  | nil => simp [reqBehaviour] at h2
  | cons x xs =>
    cases x with
    | recv rsp => simp [reqBehaviour, ReqCall.run] at h2
    | next env' buf' =>
      simp only [reqBehaviour, ReqCall.run, List.cons.injEq, ReqEvent.next.injEq] at h2
      obtain ⟨⟨rfl, rfl, h3⟩, _⟩ := h2
      obtain ⟨_, slot, _, _, h4⟩ := c46_certificate_slot_partial h1 _ _ _ h3.symm hk
      exact ⟨slot, h4⟩

/-- The CHALLENGE of the partner is one the requester wrote. -/
theorem partner_challenge {t : List NetEvent} {q i : Nat} {ms : List Bytes} {req : Bytes} (h : Happens N t) (hreq : code req = some 0x83)
    (he : sinceVersion (reqMsgs (reqOf i (t.take q))) = sinceVersion (ms ++ [req])) :
    ∃ w, w < q ∧ ∃ env buf, t[w]? = some (.req i (.next env buf (.ok req))) := by
  have h1 : req ∈ reqMsgs (reqOf i (t.take q)) := since_mem (he ▸ last_since ms req)
  simp only [reqMsgs, List.mem_filterMap] at h1
  obtain ⟨e, h2, h3⟩ := h1
  have h0 : Happens N (t.take q) := Happens.initial (u := t.drop q) (by rw [List.take_append_drop]; exact h)
  obtain ⟨r, run⟩ := h0.req i
  cases e with
  | next env buf res =>
    cases res with
    | ok out =>
      simp only [ReqEvent.msg, Option.some.injEq] at h3
      subst h3
      obtain ⟨w, hw, hw'⟩ := take_mem (reqOf_mem h2)
      exact ⟨w, hw, env, buf, hw'⟩
    | err e => simp [ReqEvent.msg] at h3
    | panic k => simp [ReqEvent.msg] at h3
  | recv rsp res =>
    cases res with
    | ok b =>
      simp only [ReqEvent.msg, Option.some.injEq] at h3
      subst h3
      have := recv_codes run h2
      rw [hreq] at this
      simp at this
    | err e => simp [ReqEvent.msg] at h3
    | panic k => simp [ReqEvent.msg] at h3

theorem in_time_relayed {t : List NetEvent} (h : InTime t) (q : Nat) : Relayed (t.take q) := by
  constructor
  · intro i rsp res hm
    obtain ⟨w, hw, hw'⟩ := take_mem hm
    obtain ⟨p, hp, k, env, req, buf, err, hp'⟩ := h.responses _ _ _ _ hw'
    exact ⟨k, env, req, buf, err, List.mem_iff_getElem?.mpr ⟨p, by rw [List.getElem?_take, if_pos (by omega)]; exact hp'⟩⟩
  · intro k env req buf res hm
    obtain ⟨w, hw, hw'⟩ := take_mem hm
    obtain ⟨p, hp, i, env', buf', hp'⟩ := h.requests _ _ _ _ _ _ hw'
    exact ⟨i, env', buf', List.mem_iff_getElem?.mpr ⟨p, by rw [List.getElem?_take, if_pos (by omega)]; exact hp'⟩⟩

/-- **C121, in time.**  Any number of requesters and responders on a network that makes no messages, fresh nonces, and nobody forges signatures.  Whenever a requester accepts a CHALLENGE_AUTH,
it had written a CHALLENGE, and after that and before the acceptance a responder signed what it accepts, in a session of the very same twelve messages.  Or the transcript collides with one signed before. -/
theorem c121_signed_in_time {t : List NetEvent} {q i n : Nat} {rsp : Bytes} (h : Happens N t) (hnet : InTime t) (hfresh : FreshNonces t) (hacc : AcceptsAuth t q i rsp)
    (hq : ∀ i, (N.requester i).Usual) (hp : ∀ k, (N.responder k).Usual) (hu : Unforgeable N i (t.take q))
    (hn : ∀ i env buf res, .req i (.next env buf res) ∈ t → env.nonce.length = n) (hn' : ∀ k env req buf res, .rsp k (.call env req buf res) ∈ t → env.nonce.length = n) :
    CollidesBefore N t q i rsp ∨ ∃ w p nonce, w < p ∧ p < q ∧ Challenges t w i nonce ∧ Partner N t q i rsp p := by
  obtain ⟨b, hacc, hk⟩ := hacc
  have hcut := take_snoc hacc
  have h1 : Happens N (t.take q ++ [.req i (.recv rsp (.ok b))]) := by
    rw [hcut]
    exact Happens.initial (u := t.drop (q + 1)) (by rw [List.take_append_drop]; exact h)
  obtain ⟨cert, slot, chain, nonce, sig, _, _, k, ta, tb, env, req, buf, res, auth, j, s, ht, hal, hcr, _, hst, hcase⟩ :=
    c120_one_responder h1 hk hq hp hu (hcut ▸ in_time_relayed hnet (q + 1)) (fun i env buf res hm => hn i env buf res (List.mem_of_mem_take hm))
      (fun k env req buf res hm => hn' k env req buf res (List.mem_of_mem_take hm))
  have hq' : q < t.length := (List.getElem?_eq_some_iff.mp hacc).1
  have hlen : ta.length < q := by
    have := congrArg List.length ht
    simp at this
    omega
  have hta : t.take ta.length = ta := by
    have := congrArg (List.take ta.length) ht
    rwa [List.take_take, Nat.min_eq_left (Nat.le_of_lt hlen), List.take_left' rfl] at this
  have hpos : t[ta.length]? = some (.rsp k (.call env req buf res)) := by
    have : (t.take q)[ta.length]? = some (.rsp k (.call env req buf res)) := by rw [ht]; simp
    rwa [List.getElem?_take, if_pos hlen] at this
  rcases hcase with hc | ⟨hc1, hc2, hc3⟩
  · exact .inl ⟨ta.length, k, env, req, buf, res, j, s, _, hlen, hpos, by rw [hta]; exact hal, hcr, by rw [hta]; exact hst, hc.1, hc.2⟩
  · refine .inr ?_
    obtain ⟨w, hw, env1, buf1, hw1⟩ := partner_challenge h hcr hc2
    obtain ⟨w2, hw2, i2, env2, buf2, hw3⟩ := hnet.requests _ _ _ _ _ _ hpos
    obtain ⟨s1, e1⟩ := challenge_carries h (List.mem_of_getElem? hw1) hcr
    obtain ⟨s2, e2⟩ := challenge_carries h (List.mem_of_getElem? hw3) hcr
    have hnn : env2.nonce = env1.nonce := by
      have := congrArg (List.drop 4) (e1.symm.trans e2)
      simpa using this.symm
    have heq : w = w2 := hfresh w w2 i i2 env1.nonce ⟨_, _, _, hw1, hcr, rfl⟩ ⟨_, _, _, hw3, hcr, hnn⟩
    subst heq
    exact ⟨w, ta.length, env1.nonce, hw2, hlen, ⟨_, _, _, hw1, hcr, rfl⟩, k, env, req, buf, res, auth, j, s, hpos, by rw [hta]; exact hal, hcr, by rw [hta]; exact hst, hc1, by rw [hta]; exact hc2, hc3⟩

/-- **C121, injective.**  With fresh nonces, no call of a responder is the partner of two acceptances, of the same requester or of different ones: a signature authenticates one session of one
requester. -/
theorem c121_one_session {t : List NetEvent} {q q' i i' p : Nat} {rsp rsp' : Bytes} (h : Happens N t) (hfresh : FreshNonces t) (hacc : AcceptsAuth t q i rsp) (hacc' : AcceptsAuth t q' i' rsp')
    (hq : ∀ i, (N.requester i).cfg.numSlots ≤ 8) (hp : Partner N t q i rsp p) (hp' : Partner N t q' i' rsp' p) : q = q' ∧ i = i' ∧ rsp = rsp' := by
  obtain ⟨k, env, req, buf, res, auth, j, s, h1, h2, h3, h4, h5, h6, h7⟩ := hp
  obtain ⟨k', env', req', buf', res', auth', j', s', h1', h2', h3', h4', h5', h6', h7'⟩ := hp'
  rw [h1, Option.some.injEq, NetEvent.rsp.injEq, RspEvent.call.injEq] at h1'
  obtain ⟨rfl, rfl, rfl, rfl, rfl⟩ := h1'
  obtain ⟨w, hw, env1, buf1, hw1⟩ := partner_challenge h h3 h6
  obtain ⟨w2, hw2, env2, buf2, hw3⟩ := partner_challenge h h3 h6'
  obtain ⟨s1, e1⟩ := challenge_carries h (List.mem_of_getElem? hw1) h3
  obtain ⟨s2, e2⟩ := challenge_carries h (List.mem_of_getElem? hw3) h3
  have hnn : env2.nonce = env1.nonce := by
    have := congrArg (List.drop 4) (e1.symm.trans e2)
    simpa using this.symm
  have heq : w = w2 := hfresh w w2 i i' env1.nonce ⟨_, _, _, hw1, h3, rfl⟩ ⟨_, _, _, hw3, h3, hnn⟩
  subst heq
  rw [hw1, Option.some.injEq, NetEvent.req.injEq] at hw3
  obtain ⟨rfl, _⟩ := hw3
  obtain ⟨b, ha, hk⟩ := hacc
  obtain ⟨b', ha', hk'⟩ := hacc'
  have key : ∀ {q q' : Nat} {rsp rsp' : Bytes} {b b' : Bool}, t[q]? = some (.req i (.recv rsp (.ok b))) → code rsp = some 0x03 → t[q']? = some (.req i (.recv rsp' (.ok b'))) → ¬ q < q' := by
    intro q q' rsp rsp' b b' ha hk ha' hlt
    have hc := take_snoc ha
    have h8 : Happens N (t.take q ++ [.req i (.recv rsp (.ok b))]) := by
      rw [hc]
      exact Happens.initial (u := t.drop (q + 1)) (by rw [List.take_append_drop]; exact h)
    obtain ⟨r, run, hok⟩ := happens_recv h8
    have hb := (c42_authenticated (hq i) run rsp hk b hok).1
    subst hb
    obtain ⟨r2, run2⟩ := h.req i
    have hmem : NetEvent.req i (.recv rsp' (.ok b')) ∈ t.drop (q + 1) := List.mem_iff_getElem?.mpr ⟨q' - (q + 1), by rw [List.getElem?_drop, show q + 1 + (q' - (q + 1)) = q' by omega]; exact ha'⟩
    have hsplit : reqOf i t = reqOf i (t.take q) ++ .recv rsp (.ok true) :: reqOf i (t.drop (q + 1)) := by
      conv => lhs; rw [← List.take_append_drop (q + 1) t, ← hc]
      rw [reqOf_append, reqOf_append, reqOf_self]
      simp
    rw [hsplit] at run2
    rcases c41_complete_is_final run2 _ (mem_reqOf hmem) with ⟨_, _, h9⟩ | ⟨_, _, _, h9⟩ | ⟨_, _, h9⟩ <;> cases h9
  have hqq : q = q' := by
    have := key ha hk ha'
    have := key ha' hk' ha
    omega
  subst hqq
  rw [ha, Option.some.injEq, NetEvent.req.injEq, ReqEvent.recv.injEq] at ha'
  exact ⟨rfl, rfl, ha'.2.1⟩

/-! ### Two requesters, one after the other, with one responder -/

/-- The calls of the responder: two sessions; the second CHALLENGE has another nonce. -/
def twinCalls : List RspCall := demoCalls 6 ++ demoCalls 5 ++ [demoCall [0x11, 0x83, 0, 0, 9, 9, 9, 9]]

def twinEvents : List RspEvent := behaviour demoCfg demoCrypto (Responder.new demoCfg demoSlots) twinCalls

def twinResponder : Responder := after demoCfg demoCrypto (Responder.new demoCfg demoSlots) twinCalls

/-- A verifier that accepts only what the responder signed in the two sessions. -/
def twinKey : Crypto :=
  { demoCrypto with sigOk := fun leaf a m der => demoCrypto.sigOk leaf a m der && twinResponder.signed.any fun x => x.2 == m }

/-- Requester 0 accepts only what was signed in the first session. -/
def twinNetwork : Network where
  requester i := ⟨demoCfg, if i = 0 then demoCryptoKey else twinKey, [1, 2, 3]⟩
  responder _ := ⟨demoCfg, demoCrypto, demoSlots⟩

/-- The calls of requester 1. -/
def twinReq : List ReqEvent :=
  reqBehaviour demoCfg twinKey (Requester.new demoCfg [1, 2, 3]) ((twinEvents.drop 6).flatMap fun e => match e with
    | .call _ _ _ (.ok ⟨out, none⟩) => [.next ⟨[9, 9, 9, 9], 0⟩ (zeros 200), .recv out]
    | _ => [])

/-- Requester 0 and responder 0, then requester 1 and responder 0. -/
def twinTrace : List NetEvent :=
  ((List.range 6).flatMap fun n => (demoNetReq[2 * n]?.toList.map (.req 0)) ++ (twinEvents[n]?.toList.map (.rsp 0)) ++ (demoNetReq[2 * n + 1]?.toList.map (.req 0))) ++
  (List.range 6).flatMap fun n => (twinReq[2 * n]?.toList.map (.req 1)) ++ (twinEvents[6 + n]?.toList.map (.rsp 0)) ++ (twinReq[2 * n + 1]?.toList.map (.req 1))

/-- The endpoints of the trace. -/
def NetEvent.inTwin : NetEvent → Bool
  | .req i _ => i == 0 || i == 1
  | .rsp k _ => k == 0

theorem twinTrace_in : ∀ e ∈ twinTrace, NetEvent.inTwin e = true := List.all_eq_true.mp (by decide +kernel)

theorem twinTrace_happens : Happens twinNetwork twinTrace := by
  constructor
  · intro i
    by_cases hi : i = 0
    · subst hi
      rw [show reqOf 0 twinTrace = demoNetReq by decide +kernel]
      exact ⟨_, ReqRun.of _ _ _ _⟩
    by_cases hi1 : i = 1
    · subst hi1
      rw [show reqOf 1 twinTrace = twinReq by decide +kernel]
      exact ⟨_, ReqRun.of _ _ _ _⟩
    · rw [show reqOf i twinTrace = [] by
        refine List.filterMap_eq_nil_iff.mpr fun e he => ?_
        have := twinTrace_in e he
        cases e with
        | req j x =>
          simp only [NetEvent.inTwin, Bool.or_eq_true, beq_iff_eq] at this
          have hj : j ≠ i := by omega
          simp [hj]
        | rsp j x => rfl]
      exact ⟨_, .new⟩
  · intro k
    by_cases hk : k = 0
    · subst hk
      rw [show rspOf 0 twinTrace = twinEvents by decide +kernel]
      exact ⟨_, RspRun.of _ _ _ _⟩
    · rw [show rspOf k twinTrace = [] by
        refine List.filterMap_eq_nil_iff.mpr fun e he => ?_
        have := twinTrace_in e he
        cases e with
        | rsp j x =>
          simp only [NetEvent.inTwin, beq_iff_eq] at this
          have hj : j ≠ k := by omega
          simp [hj]
        | req j x => rfl]
      exact ⟨_, .new⟩

/-- `InTime` as a check. -/
def inTime (t : List NetEvent) : Bool :=
  (List.range t.length).all fun q => match t[q]? with
    | some (.req _ (.recv rsp _)) => (List.range q).any fun p => match t[p]? with | some (.rsp _ (.call _ _ _ (.ok ⟨out, _⟩))) => out == rsp | _ => false
    | some (.rsp _ (.call _ req _ _)) => (List.range q).any fun p => match t[p]? with | some (.req _ (.next _ _ (.ok out))) => out == req | _ => false
    | _ => true

theorem inTime_sound {t : List NetEvent} (h : inTime t = true) : InTime t := by
  unfold inTime at h
  simp only [List.all_eq_true, List.mem_range] at h
  refine ⟨fun q i rsp res hm => ?_, fun q k env req buf res hm => ?_⟩
  · have := h q (List.getElem?_eq_some_iff.mp hm).1
    simp only [hm] at this
    obtain ⟨p, hp, h'⟩ := List.any_eq_true.mp this
    split at h'
    · rename_i he
      rw [beq_iff_eq] at h'
      subst h'
      exact ⟨p, List.mem_range.mp hp, _, _, _, _, _, he⟩
    · simp at h'
  · have := h q (List.getElem?_eq_some_iff.mp hm).1
    simp only [hm] at this
    obtain ⟨p, hp, h'⟩ := List.any_eq_true.mp this
    split at h'
    · rename_i he
      rw [beq_iff_eq] at h'
      subst h'
      exact ⟨p, List.mem_range.mp hp, _, _, _, he⟩
    · simp at h'

/-- The nonce, if the event writes a CHALLENGE. -/
def challengeAt : Option NetEvent → Option Bytes
  | some (.req _ (.next env _ (.ok out))) => if code out = some 0x83 then some env.nonce else none
  | _ => none

/-- When the CHALLENGEs are written, and with which nonce. -/
def challengesOf (t : List NetEvent) : List (Nat × Bytes) :=
  (List.range t.length).filterMap fun w => (challengeAt t[w]?).map fun nonce => (w, nonce)

theorem challenges_mem {t : List NetEvent} {w i : Nat} {nonce : Bytes} (h : Challenges t w i nonce) : (w, nonce) ∈ challengesOf t := by
  obtain ⟨env, buf, out, h1, h2, rfl⟩ := h
  refine List.mem_filterMap.mpr ⟨w, List.mem_range.mpr (List.getElem?_eq_some_iff.mp h1).1, ?_⟩
  simp [h1, h2, challengeAt]

theorem twin_fresh : FreshNonces twinTrace := by
  intro w w' i i' nonce h h'
  have e : challengesOf twinTrace = [(15, [5, 6, 7, 8]), (33, [9, 9, 9, 9])] := by decide +kernel
  have m := challenges_mem h
  have m' := challenges_mem h'
  rw [e] at m m'
  simp only [List.mem_cons, Prod.mk.injEq, List.not_mem_nil, or_false] at m m'
  rcases m with ⟨rfl, rfl⟩ | ⟨rfl, rfl⟩ <;> rcases m' with ⟨rfl, h⟩ | ⟨rfl, h⟩ <;> first | rfl | simp at h

theorem twin_unforgeable (q i : Nat) (h : q = 17 ∧ i = 0 ∨ q = 35 ∧ i = 1) : Unforgeable twinNetwork i (twinTrace.take q) := by
  intro leaf inters a m der _ hs
  rcases h with ⟨rfl, rfl⟩ | ⟨rfl, rfl⟩
  · have h' : demoCryptoKey.sigOk leaf a m der = true := hs
    simp only [demoCryptoKey, demoCrypto, Bool.and_eq_true, List.any_eq_true, beq_iff_eq] at h'
    obtain ⟨⟨hl, _⟩, ⟨i, x⟩, hm, rfl⟩ := h'
    refine ⟨0, 0, ⟨0x10, 1, demoSessionChain, fun _ m => some (demoSign m)⟩, rfl, hl.symm, demoResponder 6, ?_, ?_⟩
    · rw [show rspOf 0 (twinTrace.take 17) = demoEvents 6 by decide +kernel]
      exact RspRun.of _ _ _ _
    · have : (demoResponder 6).signed.map Prod.fst = [0] := by decide +kernel
      have hi : i ∈ (demoResponder 6).signed.map Prod.fst := List.mem_map.mpr ⟨_, hm, rfl⟩
      rw [this] at hi
      simp only [List.mem_singleton] at hi
      subst hi
      exact hm
  · have h' : twinKey.sigOk leaf a m der = true := hs
    simp only [twinKey, demoCrypto, Bool.and_eq_true, List.any_eq_true, beq_iff_eq] at h'
    obtain ⟨⟨hl, _⟩, ⟨i, x⟩, hm, rfl⟩ := h'
    refine ⟨0, 0, ⟨0x10, 1, demoSessionChain, fun _ m => some (demoSign m)⟩, rfl, hl.symm, twinResponder, ?_, ?_⟩
    · rw [show rspOf 0 (twinTrace.take 35) = twinEvents by decide +kernel]
      exact RspRun.of _ _ _ _
    · have : twinResponder.signed.map Prod.fst = [0, 0] := by decide +kernel
      have hi : i ∈ twinResponder.signed.map Prod.fst := List.mem_map.mpr ⟨_, hm, rfl⟩
      rw [this] at hi
      simp only [List.mem_cons, List.not_mem_nil, or_false, or_self] at hi
      subst hi
      exact hm

/-- The premises of C121 hold of the two sessions. -/
example : Happens twinNetwork twinTrace ∧ InTime twinTrace ∧ FreshNonces twinTrace ∧
    (∃ rsp, AcceptsAuth twinTrace 17 0 rsp) ∧ (∃ rsp, AcceptsAuth twinTrace 35 1 rsp) ∧
    Unforgeable twinNetwork 0 (twinTrace.take 17) ∧ Unforgeable twinNetwork 1 (twinTrace.take 35) ∧
    (∀ i, (twinNetwork.requester i).Usual) ∧ (∀ k, (twinNetwork.responder k).Usual) ∧
    (∀ i env buf res, .req i (.next env buf res) ∈ twinTrace → env.nonce.length = 4) ∧ ∀ k env req buf res, .rsp k (.call env req buf res) ∈ twinTrace → env.nonce.length = 4 := by
  refine ⟨twinTrace_happens, inTime_sound (by decide +kernel), twin_fresh, ⟨demoReplies[5]?.getD [], true, by decide +kernel, by decide +kernel⟩,
    ⟨((accepted twinReq)[5]?).getD [], true, by decide +kernel, by decide +kernel⟩, twin_unforgeable _ _ (.inl ⟨rfl, rfl⟩), twin_unforgeable _ _ (.inr ⟨rfl, rfl⟩),
    fun _ => ⟨show 2 ≤ 8 by decide, show ∀ a ∈ demoCfg.asymSigning, a = "ECDSA_ECC_NIST_P256" by decide⟩,
    fun k => ⟨demo_proper k, show 0 < 2 by decide, ?_, fun m => by simp [twinNetwork, demoCrypto, demoHash]⟩, ?_, ?_⟩
  · intro a ha
    simp only [twinNetwork, demoCfg, List.mem_cons, List.not_mem_nil, or_false] at ha
    rcases ha with rfl | rfl
    · exact ⟨1, by decide⟩
    · exact ⟨2, by decide⟩
  · have h : (twinTrace.all fun e => match e with | .req _ (.next env _ _) => env.nonce.length == 4 | _ => true) = true := by decide +kernel
    intro i env buf res hm
    simpa using List.all_eq_true.mp h _ hm
  · have h : (twinTrace.all fun e => match e with | .rsp _ (.call env _ _ _) => env.nonce.length == 4 | _ => true) = true := by decide +kernel
    intro k env req buf res hm
    simpa using List.all_eq_true.mp h _ hm

end Spdm
