import Verif.Props.Requester
import Verif.Props.Responder
import Verif.Lemmas.Exact
import Verif.Props.Pair
import Verif.Spec.Signed
/-!
# Tampering (C50, C57)
-/
namespace Spdm
open Spec

variable {c c' : Cfg} {cr cr' : Crypto} {root : Bytes} {slots : List (Option FilledSlot)} {es : List ReqEvent} {es' : List RspEvent} {r : Requester} {r' : Responder}

theorem Spec.RspRun.initial {es1 es2 : List RspEvent} (h : RspRun c cr slots (es1 ++ es2) r') : ∃ r1, RspRun c cr slots es1 r1 := by
  induction es2 using List.reverseRecOn generalizing r' with
  | nil => exact ⟨r', by simpa using h⟩
  | append_singleton es2 e ih =>
    rw [← List.append_assoc] at h
    generalize hes : es1 ++ es2 ++ [e] = es0 at h
    cases h with
    | new => simp at hes
    | call env req buf h =>
      obtain ⟨rfl, _⟩ := List.append_inj' hes rfl
      exact ih h
    | reset h =>
      obtain ⟨rfl, _⟩ := List.append_inj' hes rfl
      exact ih h

theorem mask_unique {mask mask' : UInt8} (h : MaskOf slots mask) (h' : MaskOf slots mask') : mask = mask' := by
  apply UInt8.toNat_inj.mp
  apply Nat.eq_of_testBit_eq
  intro i
  by_cases hi : i < 8
  · have := (h i hi).trans (h' i hi).symm
    exact Bool.eq_iff_iff.mpr this
  · have hp : ∀ m : UInt8, m.toNat.testBit i = false := fun m =>
      Nat.testBit_lt_two_pow (lt_of_lt_of_le m.toNat_lt (Nat.pow_le_pow_right (by decide) (by omega)))
    rw [hp, hp]

/-- `m` and `m'` are different inputs with the same hash.  The theorems below name both inputs: they are the two transcripts.  (That some collision
exists is no restriction at all: a hash has more inputs than values.) -/
def Collides (h h' : Bytes → Bytes) (m m' : Bytes) : Prop := m ≠ m' ∧ h m = h' m'

/-- **C50.** Let the network be arbitrary: the two histories are unrelated.  Suppose that what verifies under a leaf certificate for which
the requester's root vouches was signed by the responder (nobody else has the key, signatures cannot be forged).  If the requester accepts a
CHALLENGE_AUTH, then the responder handled a CHALLENGE at whose signing its transcript — its conversation, the CHALLENGE and the CHALLENGE_AUTH up
to the signature — was, byte for byte, the transcript the requester ends with; or these two transcripts are a collision of the negotiated hash functions. -/
theorem c50_tampering_detected (hl : slots.length = c'.numSlots) (h8' : c'.numSlots ≤ 8) (h8 : c.numSlots ≤ 8) (run : ReqRun c cr root es r)
    (run' : RspRun c' cr' slots es' r')
    (hkey : ∀ leaf inters a m der, cr.chainOk leaf a root inters 1638316800 = true → cr.sigOk leaf a m der = true → ∃ i, (i, m) ∈ r'.signed)
    (rsp : Bytes) (hk : code rsp = some 0x03) (b : Bool) (hok : (Requester.handleMsg c cr rsp r).1 = .ok b) :
    ∃ es1 env req buf res es2 auth, es' = es1 ++ .call env req buf res :: es2 ∧ alive es1 = true ∧ (lastReq es1 = some 0x82 ∨ lastReq es1 = some 0x83) ∧
      code req = some 0x83 ∧ AuthFor cr' slots es1 env req auth ∧
      (∀ out, res = .ok ⟨out, none⟩ → (conversation (rspMsgs es1)).text ++ req ++ auth = (conversation (rspMsgs es1 ++ [req, out])).text) ∧
      ((Requester.handleMsg c cr rsp r).2.transcript.get = (conversation (rspMsgs es1)).text ++ req ++ auth ∨
        Collides (cr.hash (UInt32.ofNat (conversation (reqMsgs es)).hash)) (cr'.hash (UInt32.ofNat (conversation (rspMsgs es1)).hash))
          (Requester.handleMsg c cr rsp r).2.transcript.get ((conversation (rspMsgs es1)).text ++ req ++ auth)) := by
  obtain ⟨_, m0, m1, m2, m3, cert, slot, chain, nonce, sig, hacc, hau⟩ := c42_authenticated h8 run rsp hk b hok
  obtain ⟨hf, st, st', hlive, hb, hrecv, hlive'⟩ := req_recv run hok
  obtain ⟨der, _, hsig⟩ := hau.signature
  obtain ⟨i, hi⟩ := hkey _ _ _ _ _ hau.trust hsig
  obtain ⟨es1, env, req, buf, res, es2, j, s, mask, h1, h2, hlr, h3, h4, h5, h6, h7⟩ := c36_every_signature hl h8' run' _ hi
  refine ⟨es1, env, req, buf, res, es2, authPart (conversation (rspMsgs es1)) j mask (cr'.hash (UInt32.ofNat (conversation (rspMsgs es1)).hash) (Wire.chain s.certChain)) env.nonce,
    h1, h2, hlr, h3, ⟨j, mask, s, h4, h5, h6, rfl⟩, ?_, ?_⟩
  rotate_left
  · have ht := hlive'.text
    rw [reqMsgs_append, show reqMsgs [ReqEvent.recv rsp (.ok b)] = [rsp] from rfl, conversation_snoc] at ht
    have ht' : (Requester.handleMsg c cr rsp r).2.transcript.get = (conversation (reqMsgs es)).text ++ rsp.take (rsp.length - sig.length) := by
      rw [ht]
      simp only [Log.add, hk]
      rw [hau.sigSize]
    rw [ht']
    simp only [Prod.mk.injEq] at h7
    by_cases he : (conversation (reqMsgs es)).text ++ rsp.take (rsp.length - sig.length) =
        (conversation (rspMsgs es1)).text ++ req ++ authPart (conversation (rspMsgs es1)) j mask (cr'.hash (UInt32.ofNat (conversation (rspMsgs es1)).hash) (Wire.chain s.certChain)) env.nonce
    · exact .inl he
    · exact .inr ⟨he, h7.2⟩
  · intro out hout
    subst hout
    have hr2 : ∃ r2, RspRun c' cr' slots (es1 ++ [.call env req buf (.ok ⟨out, none⟩)]) r2 := by
      apply Spec.RspRun.initial (es2 := es2) (r' := r')
      rw [h1] at run'
      simpa using run'
    obtain ⟨r2, hr2⟩ := hr2
    obtain ⟨r1, hr1, hres, _⟩ := hr2.last
    obtain ⟨j', s', mask', sig', g1, g2, g3, g4, g5, g6, _⟩ := c36_signature_covers_transcript hl h8' hr1 env req buf out h3 hres.symm
    rw [g1] at h4
    cases h4
    rw [g2] at h5
    cases h5
    cases mask_unique g3 h6
    rw [conversation_snoc2, add_plain h3 (by decide)]
    have hc : code out = some 0x03 := by rw [g4]; simp [authPart, code]
    simp only [Log.add, hc]
    rw [← g6, g4, List.length_append, Nat.add_sub_cancel, List.take_left' rfl]

/-- A verifier that accepts only what the responder of the session signed. -/
def demoCryptoKey : Crypto :=
  { demoCrypto with sigOk := fun leaf a m der => demoCrypto.sigOk leaf a m der && (demoResponder 6).signed.any fun x => x.2 == m }

/-- The premises of C50 hold in the session. -/
example : (∀ leaf inters a m der, demoCryptoKey.chainOk leaf a [1, 2, 3] inters 1638316800 = true → demoCryptoKey.sigOk leaf a m der = true → ∃ i, (i, m) ∈ (demoResponder 6).signed) ∧
    (Requester.handleMsg demoCfg demoCryptoKey (demoReplies[5]?.getD []) (reqAfter demoCfg demoCryptoKey (Requester.new demoCfg [1, 2, 3]) (demoReqCalls 11))).1 = .ok true := by
  refine ⟨fun leaf inters a m der _ h => ?_, by decide +kernel⟩
  simp only [demoCryptoKey, Bool.and_eq_true, List.any_eq_true, beq_iff_eq] at h
  obtain ⟨_, ⟨i, x⟩, hm, rfl⟩ := h
  exact ⟨i, hm⟩

/-! ## C57: agreement -/

/-- A CAPABILITIES response that also advertises ENCRYPT_CAP (bit 6), which the responder does not have. -/
def forgedCapabilities : Bytes := [0x11, 0x61, 0, 0, 0, 12, 0, 0, 0x46, 0, 0, 0]

/-- What the network hands to the responder: the forged response is appended to GET_CAPABILITIES. -/
def splicedRequests : List Bytes := [demoGetVersion, demoGetCapabilities ++ forgedCapabilities, demoNegotiate, demoGetDigests, demoGetCertificate, demoChallenge]

def splicedEvents : List RspEvent := behaviour demoCfg demoCrypto (Responder.new demoCfg demoSlots) (splicedRequests.map demoCall)

/-- What the network hands to the requester: the forged response is put before the responder's CAPABILITIES. -/
def splicedReplies : List Bytes :=
  match splicedEvents.filterMap fun e => match e with | .call _ _ _ (.ok ⟨out, none⟩) => some out | _ => none with
  | v :: caps :: rest => v :: (forgedCapabilities ++ caps) :: rest
  | _ => []

def splicedReqEvents : List ReqEvent :=
  reqBehaviour demoCfg demoCrypto (Requester.new demoCfg [1, 2, 3]) (splicedReplies.flatMap fun rsp => [.next demoReqEnv (zeros 200), .recv rsp])

/-- **C57 is false of the code.**  Trailing bytes of a message are ignored but recorded in the transcript, so a man in the middle can move the
boundary between a request and its response: the requester completes, with a signature of the responder over the very transcript both have — and
believes that the responder has capabilities 0x46 where the responder said 0x06. -/
theorem c57_capabilities_spliced : ∃ es1 rsp r, splicedReqEvents = es1 ++ [.recv rsp (.ok true)] ∧ ReqRun demoCfg demoCrypto [1, 2, 3] splicedReqEvents r ∧
    r.transcript.get = (after demoCfg demoCrypto (Responder.new demoCfg demoSlots) (splicedRequests.map demoCall)).transcript.get ∧
    alive splicedEvents = true ∧ (conversation (reqMsgs splicedReqEvents)).rspCaps = 0x46 ∧ (conversation (rspMsgs splicedEvents)).rspCaps = 0x06 :=
  ⟨splicedReqEvents.take 11, splicedReplies[5]?.getD [], _, by decide +kernel, ReqRun.of _ _ _ _, by decide +kernel, by decide +kernel, by decide +kernel, by decide +kernel⟩

/-- **C57**, what holds: under the premises of C50, if moreover no message of the two conversations has bytes behind its end and the CHALLENGE was
answered, then both endpoints recorded the same messages, and agree on both capability words, the hash and the signature algorithm. -/
theorem c57_agreement_partial (hl : slots.length = c'.numSlots) (h8' : c'.numSlots ≤ 8) (h8 : c.numSlots ≤ 8) (run : ReqRun c cr root es r)
    (run' : RspRun c' cr' slots es' r')
    (hkey : ∀ leaf inters a m der, cr.chainOk leaf a root inters 1638316800 = true → cr.sigOk leaf a m der = true → ∃ i, (i, m) ∈ r'.signed)
    (rsp : Bytes) (hk : code rsp = some 0x03) (b : Bool) (hok : (Requester.handleMsg c cr rsp r).1 = .ok b) (n : Nat)
    (hreq : NoTrailing n (sinceVersion (reqMsgs es ++ [rsp])))
    (hrsp : ∀ es1 env req buf res es2, es' = es1 ++ .call env req buf res :: es2 → code req = some 0x83 →
      ∃ out, res = .ok ⟨out, none⟩ ∧ NoTrailing n (sinceVersion (rspMsgs es1 ++ [req, out]))) :
    ∃ es1 env req buf out es2, es' = es1 ++ .call env req buf (.ok ⟨out, none⟩) :: es2 ∧ code req = some 0x83 ∧
      (conversation (reqMsgs es ++ [rsp]) = conversation (rspMsgs es1 ++ [req, out]) ∧
        records Log.empty (sinceVersion (reqMsgs es ++ [rsp])) = records Log.empty (sinceVersion (rspMsgs es1 ++ [req, out])) ∨
      Collides (cr.hash (UInt32.ofNat (conversation (reqMsgs es)).hash)) (cr'.hash (UInt32.ofNat (conversation (rspMsgs es1)).hash))
        (conversation (reqMsgs es ++ [rsp])).text (conversation (rspMsgs es1 ++ [req, out])).text) := by
  obtain ⟨es1, env, req, buf, res, es2, auth, h1, h2, _, h3, _, h4, h5⟩ := c50_tampering_detected hl h8' h8 run run' hkey rsp hk b hok
  obtain ⟨out, rfl, hx⟩ := hrsp es1 env req buf res es2 h1 h3
  obtain ⟨hf, st, st', hlive, hb, hrecv, hlive'⟩ := req_recv run hok
  have ht := hlive'.text
  rw [reqMsgs_append, show reqMsgs [ReqEvent.recv rsp (.ok b)] = [rsp] from rfl] at ht
  refine ⟨es1, env, req, buf, out, es2, h1, h3, ?_⟩
  rcases h5 with h5 | h5
  · left
    rw [h5, h4 out rfl] at ht
    obtain ⟨a, e⟩ := noTrailing_unique hreq hx ht.symm
    exact ⟨e, a⟩
  · right
    rw [h4 out rfl, ht] at h5
    exact h5

/-- `NoTrailing` as a check. -/
def noTrailing (n : Nat) (l : Log) : List Bytes → Bool
  | [] => true
  | m :: ms => wireLength n l m == some (recorded l m).length && noTrailing n (l.add m) ms

theorem noTrailing_sound {n : Nat} {l : Log} {ms : List Bytes} (h : noTrailing n l ms = true) : ExactFrom n l ms := by
  induction ms generalizing l with
  | nil => intro pre m post hp; simp at hp
  | cons x xs ih =>
    simp only [noTrailing, Bool.and_eq_true, beq_iff_eq] at h
    intro pre m post hp
    cases pre with
    | nil => simp only [List.nil_append, List.cons.injEq] at hp; obtain ⟨rfl, _⟩ := hp; exact h.1
    | cons y ys =>
      simp only [List.cons_append, List.cons.injEq] at hp
      obtain ⟨rfl, hp⟩ := hp
      exact ih h.2 ys m post hp

/-- Both sides of the session are without trailing bytes; the spliced one is not. -/
example : NoTrailing 4 (sinceVersion (reqMsgs (demoReqEvents 12))) ∧ NoTrailing 4 (sinceVersion (rspMsgs (demoEvents 6))) ∧
    noTrailing 4 Log.empty (sinceVersion (reqMsgs splicedReqEvents)) = false :=
  ⟨noTrailing_sound (by decide +kernel), noTrailing_sound (by decide +kernel), by decide +kernel⟩

end Spdm
