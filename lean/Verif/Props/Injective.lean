import Verif.Props.Tamper
/-!
# C101: one signature, one session
-/
namespace Spdm
open Spec

variable {c c' : Cfg} {cr cr' : Crypto} {root : Bytes} {slots : List (Option FilledSlot)} {es : List ReqEvent} {es' : List RspEvent}
  {r : Requester} {r' : Responder}

/-- A message with the code of CHALLENGE in a requester's conversation is one it wrote, with the nonce it drew for it. -/
theorem challenge_written (run : ReqRun c cr root es r) {m : Bytes} (hm : m ∈ reqMsgs es) (hk : code m = some 0x83) :
    ∃ env buf slot, .next env buf (.ok m) ∈ es ∧ m = [0x11, 0x83, slot, 0] ++ env.nonce := by
  simp only [reqMsgs, List.mem_filterMap] at hm
  obtain ⟨e, he, hem⟩ := hm
  obtain ⟨es1, es2, rfl⟩ := List.append_of_mem he
  rw [show es1 ++ e :: es2 = (es1 ++ [e]) ++ es2 by simp] at run
  obtain ⟨r1, _, h1, _, _⟩ := run.split
  obtain ⟨r0, x, h0, hx, _⟩ := h1.last
  cases x with
  | next env buf =>
    simp only [ReqCall.run] at hx
    subst hx
    have hok : (Requester.nextRequest c env buf r0).1 = .ok m := by
      rcases hp : (Requester.nextRequest c env buf r0).1 with y | y | y <;> rw [hp] at hem <;> simp_all [ReqEvent.msg]
    obtain ⟨_, slot, _, _, hs⟩ := c46_certificate_slot_partial h0 env buf m hok hk
    rw [hok]
    exact ⟨env, buf, slot, by simp, hs⟩
  | recv rsp =>
    simp only [ReqCall.run] at hx
    subst hx
    exfalso
    rcases hp : (Requester.handleMsg c cr rsp r0).1 with b | y | y
    · rw [hp] at hem
      simp only [ReqEvent.msg, Option.some.injEq] at hem
      subst hem
      obtain ⟨_, st, st', _, _, hrecv, _⟩ := req_recv h0 hp
      have := hrecv.code
      rw [hk] at this
      revert this
      cases st <;> simp
    · rw [hp] at hem; simp [ReqEvent.msg] at hem
    · rw [hp] at hem; simp [ReqEvent.msg] at hem

/-- The last but one message, if the last two are no GET_VERSION. -/
theorem since_two {ms : List Bytes} {a b : Bytes} (ha : code a ≠ some 0x84) (hb : code b ≠ some 0x84) :
    records Log.empty (sinceVersion (ms ++ [a, b])) =
      records Log.empty (sinceVersion ms) ++ [recorded (conversation ms) a, recorded (conversation (ms ++ [a])) b] := by
  rw [show ms ++ [a, b] = (ms ++ [a]) ++ [b] by simp, sinceVersion_snoc, if_neg hb, records_snoc, sinceVersion_snoc, if_neg ha, records_snoc]
  have e1 : (sinceVersion ms).foldl Log.add Log.empty = conversation ms := conversation_since ms
  have e2 : (sinceVersion ms ++ [a]).foldl Log.add Log.empty = conversation (ms ++ [a]) := by
    rw [List.foldl_append, e1]; simp [conversation, List.foldl_append]
  rw [e1, e2, List.append_assoc]
  rfl

/-- **C101**, what holds of one session: under the premises of C57 (the key is only the responder's, no message has bytes behind its end, no
CHALLENGE went unanswered), the responder answered the very CHALLENGE the requester wrote, with the nonce the requester drew for it; or the two
transcripts are a collision of the negotiated hash functions. -/
theorem c101_challenge_answered_partial (hl : slots.length = c'.numSlots) (h8' : c'.numSlots ≤ 8) (h8 : c.numSlots ≤ 8) (run : ReqRun c cr root es r)
    (run' : RspRun c' cr' slots es' r')
    (hkey : ∀ leaf inters a m der, cr.chainOk leaf a root inters 1638316800 = true → cr.sigOk leaf a m der = true → ∃ i, (i, m) ∈ r'.signed)
    (rsp : Bytes) (hk : code rsp = some 0x03) (b : Bool) (hok : (Requester.handleMsg c cr rsp r).1 = .ok b) (n : Nat)
    (hreq : NoTrailing n (sinceVersion (reqMsgs es ++ [rsp])))
    (hrsp : ∀ es1 env req buf res es2, es' = es1 ++ .call env req buf res :: es2 → code req = some 0x83 →
      ∃ out, res = .ok ⟨out, none⟩ ∧ NoTrailing n (sinceVersion (rspMsgs es1 ++ [req, out]))) :
    ∃ es1 env req buf out es2, es' = es1 ++ .call env req buf (.ok ⟨out, none⟩) :: es2 ∧ code req = some 0x83 ∧
      ((∃ env' buf' slot, .next env' buf' (.ok req) ∈ es ∧ req = [0x11, 0x83, slot, 0] ++ env'.nonce) ∨
      Collides (cr.hash (UInt32.ofNat (conversation (reqMsgs es)).hash)) (cr'.hash (UInt32.ofNat (conversation (rspMsgs es1)).hash))
        (conversation (reqMsgs es ++ [rsp])).text (conversation (rspMsgs es1 ++ [req, out])).text) := by
  obtain ⟨es1, env, req, buf, out, es2, h1, h2, h3⟩ := c57_agreement_partial hl h8' h8 run run' hkey rsp hk b hok n hreq hrsp
  refine ⟨es1, env, req, buf, out, es2, h1, h2, ?_⟩
  rcases h3 with ⟨_, h3⟩ | h3
  · left
    have hout : code out = some 0x03 := by
      have hr2 : ∃ r2, RspRun c' cr' slots (es1 ++ [.call env req buf (.ok ⟨out, none⟩)]) r2 := by
        apply Spec.RspRun.initial (es2 := es2) (r' := r')
        rw [h1] at run'
        simpa using run'
      obtain ⟨r2, hr2⟩ := hr2
      obtain ⟨r1, hr1, hres, _⟩ := hr2.last
      obtain ⟨j', s', mask', sig', g1, g2, g3, g4, g5, g6, _⟩ := c36_signature_covers_transcript hl h8' hr1 env req buf out h2 hres.symm
      rw [g4]; simp [authPart, code]
    rw [since_two (by rw [h2]; decide) (by rw [hout]; decide)] at h3
    have hrq : recorded (conversation (rspMsgs es1)) req = req := by simp [recorded, h2]
    rw [hrq] at h3
    rcases List.eq_nil_or_concat (reqMsgs es) with he | ⟨ms, m, he⟩
    · rw [he, List.nil_append] at h3
      have : (records Log.empty (sinceVersion [rsp])).length = 1 := by
        rw [show sinceVersion [rsp] = [rsp] by simp [sinceVersion]]; rfl
      rw [h3] at this
      simp at this
    · rw [List.concat_eq_append] at he
      have hcm : code m ≠ some 0x84 := by
        intro hc
        rw [he, sinceVersion_snoc, if_neg (by rw [hk]; decide), sinceVersion_snoc, if_pos hc] at h3
        simp only [List.cons_append, List.nil_append, records] at h3
        have hlen := congrArg List.length h3
        have hnil : records Log.empty (sinceVersion (rspMsgs es1)) = [] := by
          simp at hlen; exact hlen
        rw [hnil] at h3
        simp only [List.nil_append, List.cons.injEq] at h3
        have : m = req := by rw [← h3.1]; simp [recorded, hc]
        rw [this, h2] at hc
        cases hc
      rw [he, show ms ++ [m] ++ [rsp] = ms ++ [m, rsp] by simp, since_two hcm (by rw [hk]; decide)] at h3
      have h4 := (List.append_inj' h3 rfl).2
      simp only [List.cons.injEq] at h4
      have hm : m = req := by
        obtain ⟨s, hs⟩ := recorded_prefix (conversation ms) m
        rw [h4.1] at hs
        have h2l : 2 ≤ req.length := by
          have := h2; unfold code at this
          exact (List.getElem?_eq_some_iff.mp this).1
        have hcm' : code m = some 0x83 := by rw [code_prefix hs h2l, h2]
        rw [← h4.1]; simp [recorded, hcm']
      subst hm
      exact challenge_written run (by rw [he]; simp) h2
  · exact .inr h3

/-- **C101**, what holds of many sessions: any number of requesters, each with its own configuration, verifier and root, complete their handshakes
against what one responder signed, under the premises of C57.  If no two of them drew the same nonce for a CHALLENGE and no two transcripts collide,
then each session has a call of its own among the answered CHALLENGEs of the responder: nobody completes on somebody else's signature. -/
theorem c101_one_signature_one_session_partial {k : Nat} {c : Fin k → Cfg} {cr : Fin k → Crypto} {root : Fin k → Bytes} {es : Fin k → List ReqEvent}
    {r : Fin k → Requester} (hl : slots.length = c'.numSlots) (h8' : c'.numSlots ≤ 8) (h8 : ∀ i, (c i).numSlots ≤ 8)
    (run : ∀ i, ReqRun (c i) (cr i) (root i) (es i) (r i)) (run' : RspRun c' cr' slots es' r')
    (hkey : ∀ i leaf inters a m der, (cr i).chainOk leaf a (root i) inters 1638316800 = true → (cr i).sigOk leaf a m der = true → ∃ j, (j, m) ∈ r'.signed)
    (rsp : Fin k → Bytes) (hk : ∀ i, code (rsp i) = some 0x03) (b : Fin k → Bool) (hok : ∀ i, (Requester.handleMsg (c i) (cr i) (rsp i) (r i)).1 = .ok (b i)) (n : Nat)
    (hreq : ∀ i, NoTrailing n (sinceVersion (reqMsgs (es i) ++ [rsp i])))
    (hrsp : ∀ es1 env req buf res es2, es' = es1 ++ .call env req buf res :: es2 → code req = some 0x83 →
      ∃ out, res = .ok ⟨out, none⟩ ∧ NoTrailing n (sinceVersion (rspMsgs es1 ++ [req, out])))
    (fresh : ∀ i j, i ≠ j → ∀ env buf out env' buf' out', .next env buf (.ok out) ∈ es i → .next env' buf' (.ok out') ∈ es j → code out = some 0x83 →
      code out' = some 0x83 → env.nonce ≠ env'.nonce)
    (nocoll : ∀ i es1 env req buf out es2, es' = es1 ++ .call env req buf (.ok ⟨out, none⟩) :: es2 → code req = some 0x83 →
      ¬ Collides ((cr i).hash (UInt32.ofNat (conversation (reqMsgs (es i))).hash)) (cr'.hash (UInt32.ofNat (conversation (rspMsgs es1)).hash))
        (conversation (reqMsgs (es i) ++ [rsp i])).text (conversation (rspMsgs es1 ++ [req, out])).text) :
    ∃ pos : Fin k → Nat, (∀ i j, pos i = pos j → i = j) ∧
      ∀ i, ∃ env req buf out, es'[pos i]? = some (.call env req buf (.ok ⟨out, none⟩)) ∧ code req = some 0x83 := by
  have h : ∀ i, ∃ (p : Nat) (env : Env) (req buf out : Bytes), es'[p]? = some (RspEvent.call env req buf (.ok ⟨out, none⟩)) ∧ code req = some 0x83 ∧
      ∃ env' buf' slot, ReqEvent.next env' buf' (.ok req) ∈ es i ∧ req = [0x11, 0x83, slot, 0] ++ env'.nonce := by
    intro i
    obtain ⟨es1, env, req, buf, out, es2, h1, h2, h3⟩ :=
      c101_challenge_answered_partial hl h8' (h8 i) (run i) run' (hkey i) (rsp i) (hk i) (b i) (hok i) n (hreq i) hrsp
    refine ⟨es1.length, env, req, buf, out, by rw [h1]; simp, h2, ?_⟩
    exact h3.resolve_right (nocoll i es1 env req buf out es2 h1 h2)
  choose pos env req buf out hp hc env' buf' slot hn hs using h
  refine ⟨pos, fun i j hij => ?_, fun i => ⟨env i, req i, buf i, out i, hp i, hc i⟩⟩
  by_cases e : i = j
  · exact e
  · exfalso
    have hq := hp i
    rw [hij, hp j] at hq
    simp only [Option.some.injEq, RspEvent.call.injEq] at hq
    refine fresh i j e _ _ _ _ _ _ (hn i) (hn j) (hc i) (hc j) ?_
    have := hs i
    rw [← hq.2.1, hs j] at this
    simp only [List.cons_append, List.nil_append, List.cons.injEq] at this
    exact this.2.2.2.2.symm

/-! ### Two sessions that meet the premises -/

/-- The requester with the other nonce. -/
def sharedEnvB : Env := ⟨[9, 9, 9, 9], 0⟩

def sharedChallengeB : Bytes := [0x11, 0x83, 0, 0, 9, 9, 9, 9]

/-- Two handshakes one after the other, with different nonces in the CHALLENGEs. -/
def twiceRequests : List Bytes := demoRequests ++ (demoRequests.take 5 ++ [sharedChallengeB])

def twiceEvents : List RspEvent := behaviour demoCfg demoCrypto (Responder.new demoCfg demoSlots) (twiceRequests.map demoCall)

def twiceResponder : Responder := after demoCfg demoCrypto (Responder.new demoCfg demoSlots) (twiceRequests.map demoCall)

def answers (es : List RspEvent) : List Bytes := es.filterMap fun e => match e with | .call _ _ _ (.ok ⟨out, none⟩) => some out | _ => none

/-- A verifier that accepts only what that responder signed. -/
def twiceCrypto : Crypto :=
  { demoCrypto with sigOk := fun leaf a m der => demoCrypto.sigOk leaf a m der && twiceResponder.signed.any fun x => x.2 == m }

/-- Calls of a requester that draws `env` and receives `rs`. -/
def asks (env : Env) (rs : List Bytes) : List ReqCall := rs.flatMap fun rsp => [.next env (zeros 200), .recv rsp]

/-- The requester of handshake `i`, up to its CHALLENGE. -/
def twiceCalls : Fin 2 → List ReqCall
  | 0 => (asks demoReqEnv ((answers twiceEvents).take 6)).take 11
  | 1 => (asks sharedEnvB ((answers twiceEvents).drop 6)).take 11

def twiceReqEvents (i : Fin 2) : List ReqEvent := reqBehaviour demoCfg twiceCrypto (Requester.new demoCfg [1, 2, 3]) (twiceCalls i)

def twiceRequester (i : Fin 2) : Requester := reqAfter demoCfg twiceCrypto (Requester.new demoCfg [1, 2, 3]) (twiceCalls i)

/-- The CHALLENGE_AUTH of handshake `i`. -/
def twiceAuth (i : Fin 2) : Bytes := ((answers twiceEvents)[5 + 6 * i.val]?).getD []

/-- What the two theorems ask of the calls of the responder, as a check: every CHALLENGE was answered, without trailing bytes. -/
def answeredExactly (n : Nat) (es : List RspEvent) : Bool :=
  (List.range es.length).all fun i =>
    match es[i]? with
    | some (.call _ req _ res) => code req != some 0x83 ||
      match res with
      | .ok ⟨out, none⟩ => noTrailing n Log.empty (sinceVersion (rspMsgs (es.take i) ++ [req, out]))
      | _ => false
    | _ => true

theorem answeredExactly_sound {n : Nat} {es' : List RspEvent} (h : answeredExactly n es' = true) :
    ∀ es1 env req buf res es2, es' = es1 ++ .call env req buf res :: es2 → code req = some 0x83 →
      ∃ out, res = .ok ⟨out, none⟩ ∧ NoTrailing n (sinceVersion (rspMsgs es1 ++ [req, out])) := by
  intro es1 env req buf res es2 e hc
  subst e
  simp only [answeredExactly, List.all_eq_true, List.mem_range] at h
  have := h es1.length (by simp)
  simp only [List.getElem?_append_right (Nat.le_refl _), Nat.sub_self, List.getElem?_cons_zero, List.take_left', hc, bne_self_eq_false, Bool.false_or] at this
  split at this
  · exact ⟨_, rfl, noTrailing_sound this⟩
  · cases this

/-- The nonces drawn for the CHALLENGEs of a history. -/
def challengeNonces (es : List ReqEvent) : List Bytes :=
  es.filterMap fun e => match e with | .next env _ (.ok out) => if code out = some 0x83 then some env.nonce else none | _ => none

theorem mem_challengeNonces {es : List ReqEvent} {env : Env} {buf out : Bytes} (h : .next env buf (.ok out) ∈ es) (hc : code out = some 0x83) :
    env.nonce ∈ challengeNonces es := by
  simp only [challengeNonces, List.mem_filterMap]
  exact ⟨_, h, by simp [hc]⟩

/-- The transcripts at the answered CHALLENGEs, with the hash values. -/
def signedTranscripts (cr : Crypto) (es : List RspEvent) : List (Bytes × Bytes) :=
  (List.range es.length).filterMap fun (i : Nat) =>
    match (es[i]? : Option RspEvent) with
    | some (.call _ req _ (.ok ⟨out, none⟩)) =>
      some ((conversation (rspMsgs (es.take i) ++ [req, out])).text,
        cr.hash (UInt32.ofNat (conversation (rspMsgs (es.take i))).hash) (conversation (rspMsgs (es.take i) ++ [req, out])).text)
    | _ => none

theorem mem_signedTranscripts {cr : Crypto} {es1 es2 : List RspEvent} {env : Env} {req buf out : Bytes} :
    ((conversation (rspMsgs es1 ++ [req, out])).text, cr.hash (UInt32.ofNat (conversation (rspMsgs es1)).hash) (conversation (rspMsgs es1 ++ [req, out])).text) ∈
      signedTranscripts cr (es1 ++ .call env req buf (.ok ⟨out, none⟩) :: es2) := by
  simp only [signedTranscripts, List.mem_filterMap, List.mem_range]
  refine ⟨es1.length, by simp, ?_⟩
  simp

/-- Both theorems apply to the two handshakes: both requesters complete, with different nonces, and the responder signed twice. -/
example : ∃ pos : Fin 2 → Nat, (∀ i j, pos i = pos j → i = j) ∧
    ∀ i, ∃ env req buf out, twiceEvents[pos i]? = some (.call env req buf (.ok ⟨out, none⟩)) ∧ code req = some 0x83 := by
  refine c101_one_signature_one_session_partial (c := fun _ => demoCfg) (cr := fun _ => twiceCrypto) (root := fun _ => [1, 2, 3]) (es := twiceReqEvents) (r := twiceRequester)
    (c' := demoCfg) (cr' := demoCrypto) (slots := demoSlots) (r' := twiceResponder) rfl (by decide) (fun _ => by decide) (fun i => ReqRun.of _ _ _ _) (RspRun.of _ _ _ _) ?_ twiceAuth
    (by decide +kernel) (fun _ => true) (by decide +kernel) 4 (fun i => noTrailing_sound ?_) (answeredExactly_sound (by decide +kernel)) ?_ ?_
  · intro i leaf inters a m der _ h
    simp only [twiceCrypto, Bool.and_eq_true, List.any_eq_true, beq_iff_eq] at h
    obtain ⟨_, ⟨j, x⟩, hm, rfl⟩ := h
    exact ⟨j, hm⟩
  · revert i; decide +kernel
  · intro i j hij env buf out env' buf' out' h h' hc hc' he
    have h1 := mem_challengeNonces h hc
    have h2 := mem_challengeNonces h' hc'
    rw [← he] at h2
    have : ∀ i j : Fin 2, i ≠ j → ∀ x ∈ challengeNonces (twiceReqEvents i), x ∉ challengeNonces (twiceReqEvents j) := by decide +kernel
    exact this i j hij _ h1 h2
  · intro i es1 env req buf out es2 e _ hcol
    have hm := mem_signedTranscripts (cr := demoCrypto) (es1 := es1) (es2 := es2) (env := env) (req := req) (buf := buf) (out := out)
    rw [← e] at hm
    have : ∀ i : Fin 2, ∀ x ∈ signedTranscripts demoCrypto twiceEvents, x.1 = (conversation (reqMsgs (twiceReqEvents i) ++ [twiceAuth i])).text ∨
        twiceCrypto.hash (UInt32.ofNat (conversation (reqMsgs (twiceReqEvents i))).hash) (conversation (reqMsgs (twiceReqEvents i) ++ [twiceAuth i])).text ≠ x.2 := by decide +kernel
    rcases this i _ hm with h | h
    · exact hcol.1 h.symm
    · exact h hcol.2

/-! ### One signature, two sessions -/

/-- The configuration of the session, with room for 128 bytes of opaque data. -/
def sharedCfg : Cfg := { demoCfg with maxOpaqueElementDataSize := 128 }

/-- A CHALLENGE_AUTH up to the middle of its opaque data: one element of 88 bytes, of which two are here. -/
def sharedAuth : Bytes :=
  [0x11, 0x03, 0, 1] ++ demoHash (Wire.chain demoSessionChain) ++ [1, 2, 3, 4] ++ zeros 32 ++ le 2 96 ++ [1, 0, 0, 0] ++ ([0, 0] ++ le 2 88) ++ [0, 0]

/-- What the network hands to the responder: behind the CHALLENGE of the first requester it puts its own start of a CHALLENGE_AUTH and the CHALLENGE of the second. -/
def sharedRequests : List Bytes := demoRequests.take 5 ++ [demoChallenge ++ sharedAuth ++ sharedChallengeB]

def sharedEvents : List RspEvent := behaviour sharedCfg demoCrypto (Responder.new sharedCfg demoSlots) (sharedRequests.map demoCall)

def sharedResponder : Responder := after sharedCfg demoCrypto (Responder.new sharedCfg demoSlots) (sharedRequests.map demoCall)

/-- What it hands to the first requester: the second CHALLENGE and the responder's CHALLENGE_AUTH are the rest of the opaque data. -/
def sharedRepliesA : List Bytes := (answers sharedEvents).take 5 ++ [sharedAuth ++ sharedChallengeB ++ ((answers sharedEvents)[5]?).getD []]

/-- And to the second: the first CHALLENGE and the start of a CHALLENGE_AUTH are behind the CERTIFICATE. -/
def sharedRepliesB : List Bytes :=
  (answers sharedEvents).take 4 ++ [((answers sharedEvents)[4]?).getD [] ++ demoChallenge ++ sharedAuth, ((answers sharedEvents)[5]?).getD []]

def sharedReqEvents (env : Env) (rs : List Bytes) : List ReqEvent := reqBehaviour sharedCfg demoCrypto (Requester.new sharedCfg [1, 2, 3]) (asks env rs)

def sharedRequester (env : Env) (rs : List Bytes) : Requester := reqAfter sharedCfg demoCrypto (Requester.new sharedCfg [1, 2, 3]) (asks env rs)

/-- **C101 is false of the code.**  The responder handles one CHALLENGE and signs once; two requesters with different nonces, that both wrote a CHALLENGE
and read everything the library has them read, complete with that one signature, each with a transcript that is byte for byte the one signed.  (Trailing
bytes of CHALLENGE and CERTIFICATE are ignored but recorded, and the opaque data of CHALLENGE_AUTH may be anything.) -/
theorem c101_one_signature_two_sessions :
    sharedResponder.signed.length = 1 ∧ alive sharedEvents = true ∧
    (∃ es1 rsp, sharedReqEvents demoReqEnv sharedRepliesA = es1 ++ [.next demoReqEnv (zeros 200) (.ok ([0x11, 0x83, 0, 0] ++ [5, 6, 7, 8])), .recv rsp (.ok true)]) ∧
    (∃ es1 rsp, sharedReqEvents sharedEnvB sharedRepliesB = es1 ++ [.next sharedEnvB (zeros 200) (.ok ([0x11, 0x83, 0, 0] ++ [9, 9, 9, 9])), .recv rsp (.ok true)]) ∧
    ReqRun sharedCfg demoCrypto [1, 2, 3] (sharedReqEvents demoReqEnv sharedRepliesA) (sharedRequester demoReqEnv sharedRepliesA) ∧
    ReqRun sharedCfg demoCrypto [1, 2, 3] (sharedReqEvents sharedEnvB sharedRepliesB) (sharedRequester sharedEnvB sharedRepliesB) ∧
    RspRun sharedCfg demoCrypto demoSlots sharedEvents sharedResponder ∧
    (sharedRequester demoReqEnv sharedRepliesA).transcript.get = sharedResponder.transcript.get ∧
    (sharedRequester sharedEnvB sharedRepliesB).transcript.get = sharedResponder.transcript.get :=
  ⟨by decide +kernel, by decide +kernel, ⟨(sharedReqEvents demoReqEnv sharedRepliesA).take 10, sharedRepliesA[5]?.getD [], by decide +kernel⟩,
    ⟨(sharedReqEvents sharedEnvB sharedRepliesB).take 10, sharedRepliesB[5]?.getD [], by decide +kernel⟩, ReqRun.of _ _ _ _, ReqRun.of _ _ _ _, RspRun.of _ _ _ _,
    by decide +kernel, by decide +kernel⟩

end Spdm
