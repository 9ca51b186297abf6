import Verif.Props.Tamper
import Verif.Spec.Network
/-!
# C114: authentication is recent, in any network
-/
namespace Spdm
open Spec

variable {N : Network}

theorem reqOf_append (i : Nat) (t u : List NetEvent) : reqOf i (t ++ u) = reqOf i t ++ reqOf i u := by simp [reqOf]

theorem rspOf_append (k : Nat) (t u : List NetEvent) : rspOf k (t ++ u) = rspOf k t ++ rspOf k u := by simp [rspOf]

theorem reqOf_self (i : Nat) (e : ReqEvent) : reqOf i [.req i e] = [e] := by simp [reqOf]

/-- What happened before is a trace of its own. -/
theorem Spec.Happens.initial {t u : List NetEvent} (h : Happens N (t ++ u)) : Happens N t := by
  constructor
  · intro i
    obtain ⟨r, hr⟩ := h.req i
    rw [reqOf_append] at hr
    obtain ⟨r1, _, h1, _⟩ := hr.split
    exact ⟨r1, h1⟩
  · intro k
    obtain ⟨r, hr⟩ := h.rsp k
    rw [rspOf_append] at hr
    exact hr.initial

/-- An event of one responder has a place in the trace. -/
theorem rspOf_split {k : Nat} {t : List NetEvent} : ∀ {es1 es2 : List RspEvent} {e : RspEvent}, rspOf k t = es1 ++ e :: es2 →
    ∃ ta tb, t = ta ++ .rsp k e :: tb ∧ rspOf k ta = es1 := by
  induction t with
  | nil => intro es1 es2 e h; simp [rspOf] at h
  | cons x t ih =>
    intro es1 es2 e h
    have hc : rspOf k (x :: t) = rspOf k [x] ++ rspOf k t := rspOf_append k [x] t
    rw [hc] at h
    cases x with
    | req i y =>
      obtain ⟨ta, tb, h1, h2⟩ := ih (es1 := es1) (es2 := es2) (e := e) (by simpa [rspOf] using h)
      exact ⟨.req i y :: ta, tb, by simp [h1], by simpa [rspOf] using h2⟩
    | rsp j y =>
      by_cases hj : j = k
      · subst hj
        have hy : rspOf j [.rsp j y] = [y] := by simp [rspOf]
        rw [hy] at h
        cases es1 with
        | nil =>
          simp only [List.cons_append, List.nil_append, List.cons.injEq] at h
          exact ⟨[], t, by simp [h.1], by simp [rspOf]⟩
        | cons z zs =>
          simp only [List.cons_append, List.nil_append, List.cons.injEq] at h
          obtain ⟨ta, tb, h1, h2⟩ := ih h.2
          refine ⟨.rsp j y :: ta, tb, by simp [h1], ?_⟩
          rw [show NetEvent.rsp j y :: ta = [.rsp j y] ++ ta from rfl, rspOf_append, hy, h2, h.1]
          rfl
      · obtain ⟨ta, tb, h1, h2⟩ := ih (es1 := es1) (es2 := es2) (e := e) (by simpa [rspOf, hj] using h)
        exact ⟨.rsp j y :: ta, tb, by simp [h1], by simpa [rspOf, hj] using h2⟩

/-- The last call of a requester in a trace. -/
theorem happens_recv {i : Nat} {t : List NetEvent} {rsp : Bytes} {b : Bool} (h : Happens N (t ++ [.req i (.recv rsp (.ok b))])) :
    ∃ r, ReqRun (N.requester i).cfg (N.requester i).crypto (N.requester i).root (reqOf i t) r ∧
      (Requester.handleMsg (N.requester i).cfg (N.requester i).crypto rsp r).1 = .ok b := by
  obtain ⟨r, hr⟩ := h.req i
  rw [reqOf_append, reqOf_self] at hr
  obtain ⟨r1, calls, h1, h2, _⟩ := hr.split
  refine ⟨r1, h1, ?_⟩
  rcases calls with _ | ⟨x, xs⟩
  · simp [reqBehaviour] at h2
  · simp only [reqBehaviour, List.cons.injEq] at h2
    cases x with
    | next _ _ => simp [ReqCall.run] at h2
    | recv rsp' =>
      simp only [ReqCall.run, ReqEvent.recv.injEq] at h2
      obtain ⟨⟨rfl, h3⟩, _⟩ := h2
      exact h3.symm

/-- **C114**, who and what: in any network, when a requester accepts a CHALLENGE_AUTH, some responder has handled a CHALLENGE before, with the accepted
leaf certificate in the slot it was asked for, and at that call it signed, byte for byte, the transcript the requester ends with — or the two transcripts
collide. -/
theorem c114_signer {i : Nat} {t : List NetEvent} {rsp : Bytes} {b : Bool} (h : Happens N (t ++ [.req i (.recv rsp (.ok b))])) (hk : code rsp = some 0x03)
    (h8 : (N.requester i).cfg.numSlots ≤ 8) (hp : ∀ k, (N.responder k).Proper) (hu : Unforgeable N i t) :
    ∃ cert slot chain nonce sig, (accepted (reqOf i t))[4]? = some cert ∧
      Authenticated (N.requester i).cfg (N.requester i).crypto (N.requester i).root (conversation (reqMsgs (reqOf i t))) cert rsp slot chain nonce sig ∧
    ∃ k ta tb env req buf res j s text, t = ta ++ .rsp k (.call env req buf res) :: tb ∧ alive (rspOf k ta) = true ∧ code req = some 0x83 ∧
      s.certChain.leafCert = chain.leafCert ∧ SignedText (N.responder k) (rspOf k ta) env req j s text ∧
      ((conversation (reqMsgs (reqOf i t) ++ [rsp])).text = text ∨
        Collides ((N.requester i).crypto.hash (UInt32.ofNat (conversation (reqMsgs (reqOf i t))).hash))
          ((N.responder k).crypto.hash (UInt32.ofNat (conversation (rspMsgs (rspOf k ta))).hash)) (conversation (reqMsgs (reqOf i t) ++ [rsp])).text text) := by
  obtain ⟨r, run, hok⟩ := happens_recv h
  obtain ⟨_, m0, m1, m2, m3, cert, slot, chain, nonce, sig, hacc, hau⟩ := c42_authenticated h8 run rsp hk b hok
  obtain ⟨der, _, hsig⟩ := hau.signature
  obtain ⟨k, j, s, hs, hleaf, r', run', hm⟩ := hu _ _ _ _ _ hau.trust hsig
  obtain ⟨es1, env, req, buf, res, es2, q, s', mask, h1, h2, _, h3, h4, h5, h6, h7⟩ := c36_every_signature (hp k).1 (hp k).2 run' _ hm
  simp only [Prod.mk.injEq] at h7
  obtain ⟨hj, h7⟩ := h7
  obtain ⟨ta, tb, ht, hta⟩ := rspOf_split h1
  subst hta
  rw [← hj, hs] at h5
  simp only [Option.some.injEq] at h5
  subst h5
  have hx : (conversation (reqMsgs (reqOf i t) ++ [rsp])).text = (conversation (reqMsgs (reqOf i t))).text ++ rsp.take (rsp.length - sig.length) := by
    rw [conversation_snoc]
    simp only [Log.add, hk]
    rw [hau.sigSize]
  refine ⟨cert, slot, chain, nonce, sig, by simp [hacc], hau, k, ta, tb, env, req, buf, res, j, s, _, ht, h2, h3, hleaf, ⟨q, mask, h4, hj.symm, hs, h6, rfl⟩, ?_⟩
  rw [hx]
  by_cases he : (conversation (reqMsgs (reqOf i t))).text ++ rsp.take (rsp.length - sig.length) = (conversation (rspMsgs (rspOf k ta))).text ++ req ++
      authPart (conversation (rspMsgs (rspOf k ta))) q mask ((N.responder k).crypto.hash (UInt32.ofNat (conversation (rspMsgs (rspOf k ta))).hash) (Wire.chain s.certChain)) env.nonce
  · exact .inl he
  · exact .inr ⟨he, h7⟩

/-- **C114**, when: if moreover the nonce of the requester's CHALLENGE is in nothing a responder signed before the CHALLENGE was written, then the
signature was made after the CHALLENGE was written and before the CHALLENGE_AUTH was accepted. -/
theorem c114_recent {i : Nat} {t0 t1 : List NetEvent} {env : Env} {buf out rsp : Bytes} {b : Bool}
    (h : Happens N (t0 ++ .req i (.next env buf (.ok out)) :: t1 ++ [.req i (.recv rsp (.ok b))])) (hout : code out = some 0x83) (hk : code rsp = some 0x03)
    (h8 : (N.requester i).cfg.numSlots ≤ 8) (hp : ∀ k, (N.responder k).Proper) (hu : Unforgeable N i (t0 ++ .req i (.next env buf (.ok out)) :: t1))
    (hfresh : ∀ k ta tb env' req' buf' res j s text, t0 = ta ++ .rsp k (.call env' req' buf' res) :: tb →
      alive (rspOf k ta) = true → code req' = some 0x83 → SignedText (N.responder k) (rspOf k ta) env' req' j s text → ¬ env.nonce <:+: text) :
    ∃ cert slot chain nonce sig, (accepted (reqOf i (t0 ++ .req i (.next env buf (.ok out)) :: t1)))[4]? = some cert ∧
      Authenticated (N.requester i).cfg (N.requester i).crypto (N.requester i).root
        (conversation (reqMsgs (reqOf i (t0 ++ .req i (.next env buf (.ok out)) :: t1)))) cert rsp slot chain nonce sig ∧
      out = [0x11, 0x83, slot, 0] ++ env.nonce ∧
    ((∃ k ta tb env' req' buf' res j s, t1 = ta ++ .rsp k (.call env' req' buf' res) :: tb ∧
        alive (rspOf k (t0 ++ .req i (.next env buf (.ok out)) :: ta)) = true ∧ code req' = some 0x83 ∧ s.certChain.leafCert = chain.leafCert ∧
        SignedText (N.responder k) (rspOf k (t0 ++ .req i (.next env buf (.ok out)) :: ta)) env' req' j s
          (conversation (reqMsgs (reqOf i (t0 ++ .req i (.next env buf (.ok out)) :: t1)) ++ [rsp])).text) ∨
      ∃ k ta tb env' req' buf' res j s text, t0 ++ .req i (.next env buf (.ok out)) :: t1 = ta ++ .rsp k (.call env' req' buf' res) :: tb ∧
        SignedText (N.responder k) (rspOf k ta) env' req' j s text ∧
        Collides ((N.requester i).crypto.hash (UInt32.ofNat (conversation (reqMsgs (reqOf i (t0 ++ .req i (.next env buf (.ok out)) :: t1)))).hash))
          ((N.responder k).crypto.hash (UInt32.ofNat (conversation (rspMsgs (rspOf k ta))).hash))
          (conversation (reqMsgs (reqOf i (t0 ++ .req i (.next env buf (.ok out)) :: t1)) ++ [rsp])).text text) := by
  obtain ⟨cert, slot, chain, nonce, sig, hacc, hau, k, ta, tb, env', req', buf', res, j, s, text, ht, ha, hc, hleaf, hs, he⟩ := c114_signer h hk h8 hp hu
  obtain ⟨r, run, hok⟩ := happens_recv h
  have hsplit : reqOf i (t0 ++ .req i (.next env buf (.ok out)) :: t1) = reqOf i t0 ++ .next env buf (.ok out) :: reqOf i t1 := by
    rw [show NetEvent.req i (.next env buf (.ok out)) :: t1 = [.req i (.next env buf (.ok out))] ++ t1 from rfl, reqOf_append, reqOf_append, reqOf_self]
    rfl
  have run2 := run
  rw [hsplit] at run2
  obtain ⟨cert', slot', chain', nonce', sig', pre, post, hacc', hau', ho, hpre⟩ := c42_fresh h8 run2 hout rsp hk b hok
  rw [← hsplit] at hacc' hau' hpre
  have hcert : cert' = cert := by rw [hacc] at hacc'; simpa using hacc'.symm
  subst hcert
  have hslot : slot' = slot := by
    obtain ⟨rem, tail, e⟩ := hau.certificate
    obtain ⟨rem', tail', e'⟩ := hau'.certificate
    have h1 := congrArg (fun l : Bytes => l[2]?) e
    have h2 := congrArg (fun l : Bytes => l[2]?) e'
    simp at h1 h2
    rw [h1] at h2
    simpa using h2.symm
  subst hslot
  refine ⟨cert', slot', chain, nonce, sig, hacc, hau, ho, ?_⟩
  rcases he with he | he
  · left
    -- the nonce is in the text, so the call is not in `t0`
    have hin : env.nonce <:+: text := by
      obtain ⟨x, hx⟩ : ∃ x, text = pre ++ out ++ post ++ x := by
        rw [← he, conversation_snoc]
        simp only [Log.add, hk, hpre]
        exact ⟨_, rfl⟩
      rw [hx, ho]
      exact ⟨pre ++ [0x11, 0x83, slot', 0], post ++ x, by simp⟩
    rcases List.append_eq_append_iff.mp ht with ⟨u, hu1, hu2⟩ | ⟨u, hu1, hu2⟩
    · -- `ta = t0 ++ u`
      cases u with
      | nil => simp at hu2
      | cons x u =>
        simp only [List.cons_append, List.cons.injEq] at hu2
        obtain ⟨rfl, hu2⟩ := hu2
        subst hu1
        rw [← he] at hs
        exact ⟨k, u, tb, env', req', buf', res, j, s, hu2, ha, hc, hleaf, hs⟩
    · cases u with
      | nil => simp at hu2
      | cons x u =>
        simp only [List.cons_append, List.cons.injEq] at hu2
        obtain ⟨rfl, _⟩ := hu2
        exact absurd hin (hfresh k ta u env' req' buf' res j s text hu1 ha hc hs)
  · exact .inr ⟨k, ta, tb, env', req', buf', res, j, s, text, ht, hs, he⟩

/-! ### The demo session as a trace -/

/-- Every requester and every responder is the one of the demo session; the verifier accepts only what that responder signed. -/
def demoNetwork : Network where
  requester _ := ⟨demoCfg, demoCryptoKey, [1, 2, 3]⟩
  responder _ := ⟨demoCfg, demoCrypto, demoSlots⟩

/-- The calls of requester 0. -/
def demoNetReq : List ReqEvent := reqBehaviour demoCfg demoCryptoKey (Requester.new demoCfg [1, 2, 3]) (demoReqCalls 12)

/-- The calls of responder 1: a handshake with a CHALLENGE of another nonce. -/
def demoEarlier : List RspCall := demoCalls 5 ++ [demoCall [0x11, 0x83, 0, 0, 9, 9, 9, 9]]

/-- The events of responder 1. -/
def demoEarlierEvents : List RspEvent := behaviour demoCfg demoCrypto (Responder.new demoCfg demoSlots) demoEarlier

/-- Requester 0 asks, responder 0 answers, requester 0 receives, six times.  Responder 1 was busy before. -/
def demoTrace : List NetEvent :=
  demoEarlierEvents.map (.rsp 1) ++
    (List.range 6).flatMap fun n => (demoNetReq[2 * n]?.toList.map (.req 0)) ++ ((demoEvents 6)[n]?.toList.map (.rsp 0)) ++ (demoNetReq[2 * n + 1]?.toList.map (.req 0))

/-- The event is of requester 0 or of responder 0 or 1. -/
def NetEvent.inDemo : NetEvent → Bool
  | .req i _ => i == 0
  | .rsp k _ => k == 0 || k == 1

theorem demoTrace_in : ∀ e ∈ demoTrace, NetEvent.inDemo e = true := List.all_eq_true.mp (by decide +kernel)

theorem demoTrace_happens : Happens demoNetwork demoTrace := by
  constructor
  · intro i
    by_cases hi : i = 0
    · subst hi
      rw [show reqOf 0 demoTrace = demoNetReq by decide +kernel]
      exact ⟨_, ReqRun.of _ _ _ _⟩
    · rw [show reqOf i demoTrace = [] by
        refine List.filterMap_eq_nil_iff.mpr fun e he => ?_
        have := demoTrace_in e he
        cases e with
        | req j x => simp only [NetEvent.inDemo, beq_iff_eq] at this; subst this; simp [Ne.symm hi]
        | rsp j x => rfl]
      exact ⟨_, .new⟩
  · intro k
    by_cases hk : k = 0
    · subst hk
      rw [show rspOf 0 demoTrace = demoEvents 6 by decide +kernel]
      exact ⟨_, RspRun.of _ _ _ _⟩
    by_cases hk1 : k = 1
    · subst hk1
      rw [show rspOf 1 demoTrace = demoEarlierEvents by decide +kernel]
      exact ⟨_, RspRun.of _ _ _ _⟩
    · rw [show rspOf k demoTrace = [] by
        refine List.filterMap_eq_nil_iff.mpr fun e he => ?_
        have := demoTrace_in e he
        cases e with
        | rsp j x =>
          simp only [NetEvent.inDemo, Bool.or_eq_true, beq_iff_eq] at this
          have hj : j ≠ k := by omega
          simp [hj]
        | req j x => rfl]
      exact ⟨_, .new⟩

/-- The trace up to the CHALLENGE. -/
def demoBefore : List NetEvent := demoTrace.take 21

/-- Between CHALLENGE and acceptance: the call of responder 0. -/
def demoBetween : List NetEvent := [.rsp 0 ((demoEvents 6)[5]?.getD .reset)]

theorem demoTrace_cut : demoTrace = demoBefore ++ .req 0 (.next demoReqEnv (zeros 200) (.ok demoChallenge)) :: demoBetween ++
    [.req 0 (.recv (demoReplies[5]?.getD []) (.ok true))] := by decide +kernel

theorem demo_unforgeable : Unforgeable demoNetwork 0 (demoBefore ++ .req 0 (.next demoReqEnv (zeros 200) (.ok demoChallenge)) :: demoBetween) := by
  intro leaf inters a m der _ h
  have h' : demoCryptoKey.sigOk leaf a m der = true := h
  simp only [demoCryptoKey, demoCrypto, Bool.and_eq_true, List.any_eq_true, beq_iff_eq] at h'
  obtain ⟨⟨hl, _⟩, ⟨i, x⟩, hm, rfl⟩ := h'
  refine ⟨0, 0, ⟨0x10, 1, demoSessionChain, fun _ m => some (demoSign m)⟩, rfl, hl.symm, demoResponder 6, ?_, ?_⟩
  · rw [show rspOf 0 (demoBefore ++ .req 0 (.next demoReqEnv (zeros 200) (.ok demoChallenge)) :: demoBetween) = demoEvents 6 by decide +kernel]
    exact RspRun.of _ _ _ _
  · have : (demoResponder 6).signed.map Prod.fst = [0] := by decide +kernel
    have hi : i ∈ (demoResponder 6).signed.map Prod.fst := List.mem_map.mpr ⟨_, hm, rfl⟩
    rw [this] at hi
    simp only [List.mem_singleton] at hi
    subst hi
    exact hm

theorem demo_proper : ∀ k, (demoNetwork.responder k).Proper := fun _ => ⟨rfl, show 2 ≤ 8 by decide⟩

/-- The request of a responder's call. -/
def NetEvent.request : Option NetEvent → Option Bytes
  | some (.rsp _ (.call _ req _ _)) => some req
  | _ => none

/-- The result of a responder's call. -/
def callResult : Option RspEvent → Res Responder.Output
  | some (.call _ _ _ res) => res
  | _ => .panic .assertion

/-- The only CHALLENGE a responder handled before. -/
def demoEarlyChallenge : NetEvent := .rsp 1 (demoEarlierEvents[5]?.getD .reset)

theorem demo_fresh : ∀ k ta tb env' req' buf' res j s text, demoBefore = ta ++ .rsp k (.call env' req' buf' res) :: tb →
    alive (rspOf k ta) = true → code req' = some 0x83 → SignedText (demoNetwork.responder k) (rspOf k ta) env' req' j s text → ¬ demoReqEnv.nonce <:+: text := by
  intro k ta tb env' req' buf' res j s text h _ hc hs
  have hget : demoBefore[ta.length]? = some (.rsp k (.call env' req' buf' res)) := by rw [h]; simp
  have hlen : ta.length < 21 := by
    have := congrArg List.length h
    rw [show demoBefore.length = 21 by decide +kernel] at this
    simp at this; omega
  have hall : ∀ n, n < 21 → n ≠ 5 → (NetEvent.request demoBefore[n]?).bind code ≠ some 0x83 := by decide +kernel
  have h5 : ta.length = 5 := by
    refine Classical.byContradiction fun hn => ?_
    have := hall _ hlen hn
    rw [hget] at this
    exact this hc
  have hta : ta = demoBefore.take 5 := by rw [h, ← h5]; simp
  rw [h5, show demoBefore[5]? = some demoEarlyChallenge by decide +kernel] at hget
  have he : demoEarlyChallenge = .rsp 1 (.call demoEnv [0x11, 0x83, 0, 0, 9, 9, 9, 9] (zeros 200) (callResult demoEarlierEvents[5]?)) := by
    decide +kernel
  rw [he] at hget
  simp only [Option.some.injEq, NetEvent.rsp.injEq, RspEvent.call.injEq] at hget
  obtain ⟨rfl, rfl, rfl, rfl, _⟩ := hget
  obtain ⟨b, mask, hb, hbj, hsl, hm, rfl⟩ := hs
  simp only [List.getElem?_cons_succ, List.getElem?_cons_zero, Option.some.injEq] at hb
  subst hb
  subst hbj
  simp only [demoNetwork, demoSlots] at hsl
  simp at hsl
  subst hsl
  have hmask : MaskOf demoSlots 1 := by
    have hall : ∀ i : Fin 8, ((1 : UInt8).toNat.testBit i.val = true ↔ i.val = 0) := by decide
    intro i hi
    rw [hall ⟨i, hi⟩]
    match i, hi with
    | 0, _ => simp [demoSlots]
    | 1, _ => simp [demoSlots]
    | i + 2, hi => simp [demoSlots]
  cases mask_unique hm hmask
  subst hta
  decide +kernel

/-- All premises of the two theorems hold in the demo network; the responder signed between CHALLENGE and acceptance. -/
example : Happens demoNetwork (demoBefore ++ .req 0 (.next demoReqEnv (zeros 200) (.ok demoChallenge)) :: demoBetween ++
    [.req 0 (.recv (demoReplies[5]?.getD []) (.ok true))]) ∧ code (demoReplies[5]?.getD []) = some 0x03 :=
  ⟨demoTrace_cut ▸ demoTrace_happens, by decide +kernel⟩

end Spdm
