import Verif.Props.Lossy
import Verif.Props.Interop
/-! C117: recovering from lost messages. -/
namespace Spdm
open Spec

variable {c c' : Cfg} {cr cr' : Crypto} {root : Bytes} {slots : List (Option FilledSlot)} {es : List ReqEvent} {es' : List RspEvent} {r : Requester} {r' : Responder}

/-- Only GET_VERSION comes before the last GET_VERSION. -/
theorem since_suffix (run : ReqRun c cr root es r) : (accepted es = [] → ∀ m ∈ reqMsgs es, code m = some 0x84) ∧
    ∃ pre, reqMsgs es = pre ++ sinceVersion (reqMsgs es) ∧ ∀ m ∈ pre, code m = some 0x84 := by
  have same : ∀ {es : List ReqEvent} {e : ReqEvent}, e.msg = none → accepted (es ++ [e]) = accepted es ∧ reqMsgs (es ++ [e]) = reqMsgs es := by
    intro es e he
    refine ⟨?_, by rw [reqMsgs_snoc, he]; simp⟩
    rw [accepted_append]
    rcases e with ⟨_, _, _⟩ | ⟨_, _ | _ | _⟩
    · simp [accepted]
    · simp [ReqEvent.msg] at he
    · simp [accepted]
    · simp [accepted]
  induction run with
  | new => exact ⟨by simp [reqMsgs], [], rfl, by simp⟩
  | @next es r env buf run ih =>
    obtain ⟨ih1, pre, ih2, ih3⟩ := ih
    rcases hp : (Requester.nextRequest c env buf r).1 with out | er | k
    · obtain ⟨_, st, st', _, _, _, hidx, _⟩ := req_next run hp
      have h1 : reqMsgs (es ++ [.next env buf (.ok out)]) = reqMsgs es ++ [out] := by rw [reqMsgs_append]; rfl
      have h2 : accepted (es ++ [.next env buf (.ok out)]) = accepted es := by rw [accepted_append]; simp [accepted]
      rw [h1, h2]
      constructor
      · intro h0 m hm
        simp only [List.mem_append, List.mem_singleton] at hm
        rcases hm with hm | rfl
        · exact ih1 h0 m hm
        · rw [h0] at hidx
          exact hidx.symm
      · rw [sinceVersion_snoc]
        split
        · rename_i h84
          refine ⟨reqMsgs es, rfl, ih1 ?_⟩
          rw [h84] at hidx
          rcases ha : accepted es with _ | ⟨x, t⟩
          · rfl
          · rw [ha] at hidx
            rcases t with _ | ⟨_, _ | ⟨_, _ | ⟨_, _ | ⟨_, _ | ⟨_, t⟩⟩⟩⟩⟩ <;> simp [requestCodes] at hidx
        · exact ⟨pre, by rw [← List.append_assoc, ← ih2], ih3⟩
    · obtain ⟨e1, e2⟩ := same (es := es) (e := .next env buf (.err er)) rfl
      rw [e1, e2]
      exact ⟨ih1, pre, ih2, ih3⟩
    · obtain ⟨e1, e2⟩ := same (es := es) (e := .next env buf (.panic k)) rfl
      rw [e1, e2]
      exact ⟨ih1, pre, ih2, ih3⟩
  | @recv es r rsp run ih =>
    obtain ⟨ih1, pre, ih2, ih3⟩ := ih
    rcases hp : (Requester.handleMsg c cr rsp r).1 with b | er | k
    · obtain ⟨_, st, st', _, _, hrecv, _⟩ := req_recv run hp
      have h1 : reqMsgs (es ++ [.recv rsp (.ok b)]) = reqMsgs es ++ [rsp] := by rw [reqMsgs_append]; rfl
      have h2 : accepted (es ++ [.recv rsp (.ok b)]) = accepted es ++ [rsp] := by rw [accepted_append]; rfl
      have h84 : code rsp ≠ some 0x84 := by
        have hcode := recv_code hrecv
        intro h
        rw [h] at hcode
        simp at hcode
      rw [h1, h2, sinceVersion_snoc, if_neg h84]
      exact ⟨by simp, pre, by rw [← List.append_assoc, ← ih2], ih3⟩
    · obtain ⟨e1, e2⟩ := same (es := es) (e := .recv rsp (.err er)) rfl
      rw [e1, e2]
      exact ⟨ih1, pre, ih2, ih3⟩
    · obtain ⟨e1, e2⟩ := same (es := es) (e := .recv rsp (.panic k)) rfl
      rw [e1, e2]
      exact ⟨ih1, pre, ih2, ih3⟩

/-- **C117 is false of the code.**  Both endpoints record a request every time it is written or handled, so asking again makes the two transcripts differ for good.  Let the
network lose, delay, repeat and reorder, but not make messages, and let nobody forge signatures.  If the requester has written two requests of the same code other
than GET_VERSION, it accepts no CHALLENGE_AUTH, unless the two transcripts are a collision of the hash function. -/
theorem c117_asking_again_fails (h0' : 0 < c'.numSlots) (hl : slots.length = c'.numSlots) (h8' : c'.numSlots ≤ 8) (h8 : c.numSlots ≤ 8)
    (hcap : ∀ a ∈ c'.capabilities, ∃ k, (a, k) ∈ capabilityBits) (hh : ∀ m, (cr'.hash 1 m).length = 32) (run : ReqRun c cr root es r) (run' : RspRun c' cr' slots es' r')
    (hkey : ∀ leaf inters a m der, cr.chainOk leaf a root inters 1638316800 = true → cr.sigOk leaf a m der = true → ∃ i, (i, m) ∈ r'.signed)
    (rsp : Bytes) (hk : code rsp = some 0x03) (b : Bool) (hok : (Requester.handleMsg c cr rsp r).1 = .ok b) (hnet : Unaltered (es ++ [.recv rsp (.ok b)]) es') (n : Nat)
    (hn : ∀ env buf res, .next env buf res ∈ es → env.nonce.length = n) (hn' : ∀ env req buf res, .call env req buf res ∈ es' → env.nonce.length = n)
    (k : UInt8) (h84 : k ≠ 0x84) (htwice : 2 ≤ (codes (reqMsgs es)).count (some k)) :
    ∃ es1 env req buf res es2 auth, es' = es1 ++ .call env req buf res :: es2 ∧ alive es1 = true ∧ code req = some 0x83 ∧ AuthFor cr' slots es1 env req auth ∧
      Collides (cr.hash 1) (cr'.hash 1) (conversation (reqMsgs es ++ [rsp])).text ((conversation (rspMsgs es1)).text ++ req ++ auth) := by
  obtain ⟨es1, env, req, buf, res, es2, auth, h1, h2, h83, hau, h | ⟨h, _⟩⟩ := c116_one_clean_run h0' hl h8' h8 hcap hh run run' hkey rsp hk b hok hnet n hn hn'
  · exact ⟨es1, env, req, buf, res, es2, auth, h1, h2, h83, hau, h⟩
  · exfalso
    have hn84 : code rsp ≠ some 0x84 := by rw [hk]; decide
    rw [sinceVersion_snoc, if_neg hn84] at h
    have hc : (codes (sinceVersion (reqMsgs es) ++ [rsp])).count (some k) ≤ 1 := by
      rw [h]
      exact List.nodup_iff_count.mp (by decide) _
    obtain ⟨_, pre, hpre, h84'⟩ := since_suffix run
    rw [hpre] at htwice
    have hz : (codes pre).count (some k) = 0 := by
      rw [List.count_eq_zero]
      intro hm
      simp only [codes, List.mem_map] at hm
      obtain ⟨m, hm, hk'⟩ := hm
      rw [h84' m hm, Option.some.injEq] at hk'
      exact h84 hk'.symm
    simp only [codes, List.map_append, List.count_append] at htwice hc hz
    omega

/-- **C117**, what holds: as long as nothing has been accepted or refused, that is for the first exchange, any number of lost requests and lost responses are recovered by asking
again.  After any history in which the requester has only written, and the responder, whatever it handled, has not failed, the two complete as if nothing had happened
(C97). -/
theorem c117_first_exchange_partial {i i' : SpdmConfig} {n : Nat} {slot : FilledSlot} {q : Responder} (hv : ValidConfig true i) (hb : Built true i n c) (hv' : ValidConfig true i')
    (hb' : Built true i' n c') (hsig : i.asymmetricSigning ≠ []) (hon : HonestPair c c' cr cr' root slots slot) (run : ReqRun c cr root es r) (hacc : accepted es = []) (hf : failed es = false)
    (run' : RspRun c' cr' slots es' q) (ha : alive es' = true) (rounds : List Round)
    (hn : rounds.length = exchangesNeeded (common i.capabilities i'.capabilities)) (hx : ∀ x ∈ rounds, x.reqEnv.nonce.length = n ∧ x.rspEnv.nonce.length = n)
    (hroom : EnoughRoom c c' n (digestsOf (cr.hash 1) slots).length (Wire.chain slot.certChain).length rounds) :
    ∃ ends, talk c c' cr cr' rounds (r, q) = some (List.replicate (rounds.length - 1) false ++ [true], ends) := by
  obtain ⟨st, hlive⟩ := req_live' run hf
  have hst : st = .version := by
    have hm := hlive.mat
    rw [hacc] at hm
    cases hm with
    | version => rfl
    | done h => simp [path] at h
  exact (interop_from (by rw [hlive.state, hst]) hlive.wf hlive.cap hlive.root hv hb hv' hb' hsig hon run' ha rounds hn hx).1 hroom

/-- A requester whose GET_DIGESTS was lost, and which asks again: all goes well on both sides, but CHALLENGE_AUTH is refused. -/
def againCalls : List ReqCall :=
  demoReqCalls 6 ++ [.next demoReqEnv (zeros 200)] ++ (demoReqAll.drop 6)

example : (codes (reqMsgs (reqBehaviour demoCfg demoCrypto (Requester.new demoCfg [1, 2, 3]) againCalls))).count (some 0x81) = 2 ∧
    (reqBehaviour demoCfg demoCrypto (Requester.new demoCfg [1, 2, 3]) againCalls).filterMap (fun e => match e with | .recv _ res => some res.isOk | _ => none) =
      [true, true, true, true, true, false] := by decide +kernel

/-- A requester that has asked for the version three times, of a responder that has answered twice and gone further with somebody else. -/
example : ReqRun honestCfg honestCrypto [1, 2, 3] (reqBehaviour honestCfg honestCrypto (Requester.new honestCfg [1, 2, 3]) (List.replicate 3 (.next demoReqEnv (zeros 200))))
      (reqAfter honestCfg honestCrypto (Requester.new honestCfg [1, 2, 3]) (List.replicate 3 (.next demoReqEnv (zeros 200)))) ∧
    accepted (reqBehaviour honestCfg honestCrypto (Requester.new honestCfg [1, 2, 3]) (List.replicate 3 (.next demoReqEnv (zeros 200)))) = [] ∧
    failed (reqBehaviour honestCfg honestCrypto (Requester.new honestCfg [1, 2, 3]) (List.replicate 3 (.next demoReqEnv (zeros 200)))) = false ∧
    alive (behaviour otherCfg honestCrypto (Responder.new otherCfg [some honestSlot]) ([demoGetVersion, demoGetVersion, demoGetCapabilities].map demoCall)) = true ∧
    HonestPair honestCfg otherCfg honestCrypto honestCrypto [1, 2, 3] [some honestSlot] honestSlot :=
  ⟨ReqRun.of _ _ _ _, by decide +kernel, by decide +kernel, by decide +kernel, honest_pair_demo⟩

end Spdm
