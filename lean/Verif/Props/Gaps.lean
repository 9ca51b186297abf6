import Verif.Props.Tamper
import Verif.Props.Calls
import Verif.Props.Config
import Verif.Props.ReqAborts
/-!
# What authentication does not check, and what it does: C69 to C74
-/
namespace Spdm
open Spec

variable {c c' : Cfg} {cr cr' : Crypto} {root : Bytes} {slots : List (Option FilledSlot)}

/-! ## Sessions with a peer that holds the leaf's key but departs from the protocol -/

/-- The five responses before CHALLENGE_AUTH, with the requests in between, and the CHALLENGE. -/
def gapCalls (replies : List Bytes) : List ReqCall := (replies.flatMap fun rsp => [.next demoReqEnv (zeros 200), .recv rsp]) ++ [.next demoReqEnv (zeros 200)]

/-- The CHALLENGE_AUTH that the holder of the leaf's key sends after `replies`: the demo responder's with the hash of the chain it sent, signed over the
transcript of that conversation. -/
def gapAuth (replies : List Bytes) : Bytes :=
  let r := reqAfter demoCfg demoCrypto (Requester.new demoCfg [1, 2, 3]) (gapCalls replies)
  let m := [0x11, 0x03, 0, 1] ++ demoHash ((replies[4]?.getD []).drop 8) ++ ((demoReplies[5]?.getD []).drop 36).take 42
  m ++ demoSign (demoHash (r.transcript.get ++ m))

/-- The history of such a session. -/
def gapEvents (replies : List Bytes) : List ReqEvent :=
  reqBehaviour demoCfg demoCrypto (Requester.new demoCfg [1, 2, 3]) (gapCalls replies ++ [.recv (gapAuth replies)])

theorem gap_run (replies : List Bytes) : ∃ r, ReqRun demoCfg demoCrypto [1, 2, 3] (gapEvents replies) r := ⟨_, ReqRun.of _ _ _ _⟩

/-- What a CERTIFICATE message carries. -/
theorem carriedChain_of (i : UInt8) (bs rem tail : Bytes) (hl : bs.length < 65536) (hr : rem.length = 2) :
    carriedChain ([0x11, 0x02, i, 0] ++ le 2 bs.length ++ rem ++ bs ++ tail) = bs := by
  have h1 : ([0x11, 0x02, i, 0] ++ le 2 bs.length ++ rem ++ bs ++ tail : Bytes) = [0x11, 0x02, i, 0] ++ (le 2 bs.length ++ (rem ++ bs ++ tail)) := by simp
  have h2 : ([0x11, 0x02, i, 0] ++ le 2 bs.length ++ rem ++ bs ++ tail : Bytes) = ([0x11, 0x02, i, 0] ++ le 2 bs.length ++ rem) ++ (bs ++ tail) := by simp
  have h3 : leVal (field ([0x11, 0x02, i, 0] ++ le 2 bs.length ++ rem ++ bs ++ tail) 4 2) = bs.length := by
    unfold field
    rw [h1, show List.drop 4 ([0x11, 0x02, i, 0] ++ (le 2 bs.length ++ (rem ++ bs ++ tail)) : Bytes) = le 2 bs.length ++ (rem ++ bs ++ tail) from rfl, List.take_left' (by rw [le_length])]
    exact leVal_two _ hl
  unfold carriedChain
  rw [h3, h2, List.drop_left' (by simp [le_length, hr]), List.take_left' rfl]

/-! ## C69: DIGESTS and the chain -/

/-- The demo session with another digest in DIGESTS. -/
def gapDigests : List Bytes :=
  [demoReplies[0]?.getD [], demoReplies[1]?.getD [], demoReplies[2]?.getD [], [0x11, 0x01, 0, 1] ++ List.replicate 32 0xEE, demoReplies[4]?.getD []]

/-- **C69 is false of the code.** The requester completes although the digest in DIGESTS is not the hash of the chain in CERTIFICATE: the digests
are parsed and never compared with anything. -/
theorem c69_digest_not_compared : ∃ es1 auth, gapEvents gapDigests = es1 ++ [.recv auth (.ok true)] ∧
    (accepted es1)[3]? = some ([0x11, 0x01, 0, 1] ++ List.replicate 32 0xEE) ∧
    ∃ cert, (accepted es1)[4]? = some cert ∧ cert.take 4 = [0x11, 0x02, 0, 0] ∧ demoHash (carriedChain cert) ≠ List.replicate 32 0xEE :=
  ⟨(gapEvents gapDigests).take 11, gapAuth gapDigests, by decide +kernel, by decide +kernel, demoReplies[4]?.getD [], by decide +kernel, by decide +kernel, by decide +kernel⟩

/-- **C69**, what holds: an honest responder's messages agree.  Whatever its history, in sessions with the same hash algorithm the DIGESTS entry
of slot `i` (after those of the filled slots below), the chain served for slot `i`, and the chain hash of CHALLENGE_AUTH for slot `i` belong to
each other. -/
theorem c69_honest_messages_agree_partial (hl : slots.length = c.numSlots) (h8 : c.numSlots ≤ 8) {es1 es2 es3 : List RspEvent} {r1 r2 r3 : Responder}
    (run1 : RspRun c cr slots es1 r1) (run2 : RspRun c cr slots es2 r2) (run3 : RspRun c cr slots es3 r3)
    (h12 : (conversation (rspMsgs es1)).hash = (conversation (rspMsgs es3)).hash)
    (env : Env) (q1 q2 q3 b1 b2 b3 digests cert auth : Bytes) (i : UInt8)
    (k1 : code q1 = some 0x81) (k2 : code q2 = some 0x82) (k3 : code q3 = some 0x83) (i2 : q2[2]? = some i) (i3 : q3[2]? = some i)
    (ok1 : (Responder.handleMsg c cr env q1 b1 r1).1 = .ok ⟨digests, none⟩) (ok2 : (Responder.handleMsg c cr env q2 b2 r2).1 = .ok ⟨cert, none⟩)
    (ok3 : (Responder.handleMsg c cr env q3 b3 r3).1 = .ok ⟨auth, none⟩) :
    ∃ (below above : Bytes) (mask b : UInt8) (rest : Bytes), below = digestsOf (cr.hash (UInt32.ofNat (conversation (rspMsgs es3)).hash)) (slots.take i.toNat) ∧
      above = digestsOf (cr.hash (UInt32.ofNat (conversation (rspMsgs es3)).hash)) (slots.drop (i.toNat + 1)) ∧ MaskOf slots mask ∧
      mask.toNat.testBit i.toNat = true ∧ b = (if (conversation (rspMsgs es3)).both 8 then 0 else i) ∧
      digests = [0x11, 0x01, 0, mask] ++ below ++ cr.hash (UInt32.ofNat (conversation (rspMsgs es3)).hash) (carriedChain cert) ++ above ∧
      auth = [0x11, 0x03, b, mask] ++ cr.hash (UInt32.ofNat (conversation (rspMsgs es3)).hash) (carriedChain cert) ++ rest := by
  obtain ⟨mask, hm, hd⟩ := c39_digests_of_slots hl h8 run1 env q1 b1 digests k1 ok1
  obtain ⟨j, slot, hj, hsl, hlen, hc⟩ := c37_certificate_of_slot hl h8 run2 env q2 b2 cert k2 ok2
  obtain ⟨n, fs, mask', sig, hn, hfs, hm', hau, _⟩ := c36_signature_covers_transcript hl h8 run3 env q3 b3 auth k3 ok3
  rw [i2] at hj; rw [i3] at hn
  cases hj; cases hn
  rw [hfs] at hsl
  obtain rfl : some fs = slot := Option.some.inj hsl
  have hilt : i.toNat < slots.length := (List.getElem?_eq_some_iff.mp hfs).1
  have hmm : mask = mask' := by
    apply UInt8.toNat_inj.mp
    apply Nat.eq_of_testBit_eq
    intro t
    by_cases ht : t < 8
    · have := hm t ht; have := hm' t ht
      cases h1 : mask.toNat.testBit t <;> cases h2 : mask'.toNat.testBit t <;> simp_all
    · have e : ∀ x : UInt8, x.toNat.testBit t = false := fun x =>
        Nat.testBit_lt_two_pow (Nat.lt_of_lt_of_le x.toNat_lt (by show 2 ^ 8 ≤ 2 ^ t; exact Nat.pow_le_pow_right (by omega) (by omega)))
      rw [e, e]
  subst hmm
  have hcarried : carriedChain cert = Wire.chain fs.certChain := by
    rw [hc]
    have := carriedChain_of i (Wire.chain fs.certChain) [0, 0] [] (by simpa [chainBytes] using Nat.lt_succ_of_le hlen) rfl
    simpa [chainBytes] using this
  refine ⟨_, digestsOf (cr.hash (UInt32.ofNat (conversation (rspMsgs es3)).hash)) (slots.drop (i.toNat + 1)), mask, if (conversation (rspMsgs es3)).both 8 then 0 else i,
    env.nonce ++ zeros (sizeFor digestSizes (conversation (rspMsgs es3)).hash) ++ [4, 0, 0, 0, 0, 0] ++ sig, rfl, rfl, hm, (hm i.toNat (by omega)).mpr ⟨fs, hfs⟩, rfl, ?_, ?_⟩
  · rw [hd, h12, hcarried]
    have hsplit : slots = slots.take i.toNat ++ some fs :: slots.drop (i.toNat + 1) := by
      have hge : slots[i.toNat] = some fs := (List.getElem?_eq_some_iff.mp hfs).2
      rw [← hge, List.getElem_cons_drop, List.take_append_drop]
    conv_lhs => rw [hsplit]
    simp only [digestsOf, List.flatMap_append, List.flatMap_cons, List.append_assoc]
  · rw [hau, hcarried]
    simp only [authPart, List.append_assoc]

/-- The demo session: DIGESTS, CERTIFICATE and CHALLENGE of slot 0. -/
example : (demoReplies[3]?.getD []) = [0x11, 0x01, 0, 1] ++ demoHash (carriedChain (demoReplies[4]?.getD [])) ∧
    (demoReplies[5]?.getD []).take 36 = [0x11, 0x03, 0, 1] ++ demoHash (carriedChain (demoReplies[4]?.getD [])) := by decide +kernel

/-! ## C70: the root hash of the chain -/

/-- The demo session with a chain whose root hash is arbitrary. -/
def gapRoot : List Bytes :=
  [demoReplies[0]?.getD [], demoReplies[1]?.getD [], demoReplies[2]?.getD [], demoReplies[3]?.getD [],
   [0x11, 0x02, 0, 0, 43, 0, 0, 0] ++ Wire.chain ⟨List.replicate 32 0xEE, [[0x30, 1, 5]], [0x30, 2, 6, 7]⟩]

/-- **C70 is false of the code.** The requester completes although the root hash in the chain is not the hash of its root certificate `[1, 2, 3]`. -/
theorem c70_root_hash_unchecked : ∃ es1 auth, gapEvents gapRoot = es1 ++ [.recv auth (.ok true)] ∧
    ∃ cert, (accepted es1)[4]? = some cert ∧ ((carriedChain cert).drop 4).take 32 = List.replicate 32 0xEE ∧ demoHash [1, 2, 3] ≠ List.replicate 32 0xEE :=
  ⟨(gapEvents gapRoot).take 11, gapAuth gapRoot, by decide +kernel, gapRoot[4]?.getD [], by decide +kernel, by decide +kernel, by decide +kernel⟩

/-- **C70**, what holds: whatever the root hash says, the path to which the chain was verified ends in the configured root certificate. -/
theorem c70_configured_root_partial (h8 : c.numSlots ≤ 8) {es : List ReqEvent} {r : Requester} (run : ReqRun c cr root es r) (rsp : Bytes) (hk : code rsp = some 0x03) (b : Bool)
    (hok : (Requester.handleMsg c cr rsp r).1 = .ok b) :
    ∃ cert chain, (accepted es)[4]? = some cert ∧ carriedChain cert = Wire.chain chain ∧ cr.anchorOk root = true ∧
      cr.chainOk chain.leafCert (UInt32.ofNat (conversation (reqMsgs es)).asym) root chain.intermediateCerts 1638316800 = true := by
  obtain ⟨_, m0, m1, m2, m3, cert, slot, chain, nonce, sig, hacc, hau⟩ := c42_authenticated h8 run rsp hk b hok
  refine ⟨cert, chain, by rw [hacc]; rfl, ?_, hau.anchor, hau.trust⟩
  obtain ⟨rem, tail, hc⟩ := hau.certificate
  rw [hc]
  exact carriedChain_of _ _ _ _ hau.chainSize (le_length _ _)

/-! ## C71: a chain announced as incomplete -/

/-- The demo session with a CERTIFICATE that announces 256 more bytes of the chain. -/
def gapRemainder : List Bytes :=
  [demoReplies[0]?.getD [], demoReplies[1]?.getD [], demoReplies[2]?.getD [], demoReplies[3]?.getD [],
   ((demoReplies[4]?.getD []).take 6) ++ [0, 1] ++ (demoReplies[4]?.getD []).drop 8]

/-- **C71 is false of the code.** The requester completes although the CERTIFICATE says that 256 bytes of the chain are still to be fetched; it
never asks for them. -/
theorem c71_remainder_ignored : ∃ es1 auth, gapEvents gapRemainder = es1 ++ [.recv auth (.ok true)] ∧
    ∃ cert, (accepted es1)[4]? = some cert ∧ leVal (field cert 6 2) = 256 ∧ ((reqMsgs es1).filterMap code).count 0x82 = 1 :=
  ⟨(gapEvents gapRemainder).take 11, gapAuth gapRemainder, by decide +kernel, gapRemainder[4]?.getD [], by decide +kernel, by decide +kernel, by decide +kernel⟩

/-- **C71**, what holds: with an honest responder nothing remains.  Every CERTIFICATE it sends carries the whole chain of the slot, announces its
length and a remainder of 0. -/
theorem c71_honest_remainder_partial (hl : slots.length = c.numSlots) (h8 : c.numSlots ≤ 8) {es : List RspEvent} {r : Responder}
    (run : RspRun c cr slots es r) (env : Env) (req buf cert : Bytes) (hk : code req = some 0x82)
    (hok : (Responder.handleMsg c cr env req buf r).1 = .ok ⟨cert, none⟩) :
    leVal (field cert 6 2) = 0 ∧ ∃ i slot, req[2]? = some i ∧ slots[i.toNat]? = some slot ∧ carriedChain cert = chainBytes slot := by
  obtain ⟨i, slot, hi, hsl, hlen, hc⟩ := c37_certificate_of_slot hl h8 run env req buf cert hk hok
  refine ⟨?_, i, slot, hi, hsl, ?_⟩
  · rw [hc, show ([0x11, 0x02, i, 0] ++ le 2 (chainBytes slot).length ++ [0, 0] ++ chainBytes slot : Bytes) =
        ([0x11, 0x02, i, 0] ++ le 2 (chainBytes slot).length) ++ ([0, 0] ++ chainBytes slot) by simp]
    unfold field
    rw [List.drop_left' (by simp [le_length])]
    rfl
  · rw [hc]
    have := carriedChain_of i (chainBytes slot) [0, 0] [] (Nat.lt_succ_of_le hlen) rfl
    simpa using this

/-- The demo session: GET_CERTIFICATE of slot 0. -/
example : (Responder.handleMsg demoCfg demoCrypto demoEnv demoGetCertificate (zeros 200) (demoResponder 4)).1 = .ok ⟨demoReplies[4]?.getD [], none⟩ ∧
    code demoGetCertificate = some 0x82 := by decide +kernel

/-! ## C72: capabilities that were not advertised -/

/-- A responder without any capability. -/
def gapNoCaps : Cfg := { demoCfg with capabilities := [] }

/-- Its history in a session with the six requests of the demo session. -/
def gapNoCapsEvents : List RspEvent := behaviour gapNoCaps demoCrypto (Responder.new gapNoCaps demoSlots) (demoCalls 6)

/-- **C72 is false of the code.** A responder whose CAPABILITIES announces neither CERT_CAP nor CHAL_CAP (all flags are 0) answers GET_DIGESTS,
GET_CERTIFICATE and CHALLENGE all the same. -/
theorem c72_unadvertised_served : (∃ r, RspRun gapNoCaps demoCrypto demoSlots gapNoCapsEvents r) ∧ alive gapNoCapsEvents = true ∧
    (conversation (rspMsgs gapNoCapsEvents)).rspCaps = 0 ∧
    (rspMsgs gapNoCapsEvents).filterMap code = [0x84, 0x04, 0xE1, 0x61, 0xE3, 0x63, 0x81, 0x01, 0x82, 0x02, 0x83, 0x03] :=
  ⟨⟨_, RspRun.of _ _ _ _⟩, by decide +kernel, by decide +kernel, by decide +kernel⟩

/-- **C72**, what holds: the requester does not ask for what was not advertised.  It writes GET_DIGESTS and GET_CERTIFICATE only if both CAPABILITIES
messages announced CERT_CAP, CHALLENGE only if they announced CHAL_CAP as well. -/
theorem c72_requester_asks_advertised_partial {es : List ReqEvent} {r : Requester} (run : ReqRun c cr root es r) (env : Env) (buf out : Bytes)
    (hok : (Requester.nextRequest c env buf r).1 = .ok out) :
    let l := conversation (reqMsgs es)
    (code out = some 0x81 ∨ code out = some 0x82 → l.both 1 = true) ∧ (code out = some 0x83 → l.both 1 = true ∧ l.both 2 = true) := by
  obtain ⟨h1, h2⟩ := c45_requests run env buf out hok
  simp only [h1]
  generalize (accepted es).length = n at h2
  generalize conversation (reqMsgs es) = l at h2
  simp only [path] at h2
  have hn : n < 6 := by
    refine Nat.lt_of_lt_of_le h2 ?_
    split
    · split <;> simp
    · simp
  cases b1 : l.both 1 <;> cases b2 : l.both 2 <;> simp only [b1, b2] at h2 ⊢ <;>
    (rcases n with _ | _ | _ | _ | _ | _ | n <;> simp [requestCodes] at h2 ⊢)

/-- In the demo session all three are written. -/
example : (Requester.nextRequest demoCfg demoReqEnv (zeros 200) (demoRequester 6)).1 = .ok demoGetDigests ∧
    (Requester.nextRequest demoCfg demoReqEnv (zeros 200) (demoRequester 10)).1 = .ok demoChallenge := by decide +kernel

/-! ## C73: when certificates are valid -/

/-- The demo verifier, for certificates that expired one second after midnight of 1 December 2021. -/
def gapExpired : Crypto :=
  { demoCrypto with chainOk := fun leaf a root inters t => demoCrypto.chainOk leaf a root inters t && decide (t ≤ 1638316800) }

/-- **C73 is false of the code.** The requester completes with a chain that was valid up to 2021-12-01 00:00:00 and is not at any later time. -/
theorem c73_expired_accepted : (∀ leaf a root inters t, 1638316800 < t → gapExpired.chainOk leaf a root inters t = false) ∧
    (reqBehaviour demoCfg gapExpired (Requester.new demoCfg [1, 2, 3]) (demoReqCalls 12)).getLast? = some (.recv (demoReplies[5]?.getD []) (.ok true)) := by
  refine ⟨fun leaf a root inters t ht => ?_, by decide +kernel⟩
  have : decide (t ≤ 1638316800) = false := by simp; omega
  simp only [gapExpired, this, Bool.and_false]

/-- Two verifiers that agree on everything but the validity of chains at times other than 2021-12-01 00:00:00 UTC. -/
structure SameThen (cr cr' : Crypto) : Prop where
  hash : cr.hash = cr'.hash
  certOk : cr.certOk = cr'.certOk
  anchorOk : cr.anchorOk = cr'.anchorOk
  sigOk : cr.sigOk = cr'.sigOk
  then_ : ∀ leaf a root inters, cr.chainOk leaf a root inters 1638316800 = cr'.chainOk leaf a root inters 1638316800

theorem SameThen.handleMsg (h : SameThen cr cr') (rsp : Bytes) (r : Requester) : Requester.handleMsg c cr rsp r = Requester.handleMsg c cr' rsp r := by
  have hd : ∀ a m, cr.digest c a m = cr'.digest c a m := by intro a m; unfold Crypto.digest; rw [h.hash]
  have hv : ∀ s n m sg rt, Requester.verifyCertChainAndSignature c cr s n m sg rt = Requester.verifyCertChainAndSignature c cr' s n m sg rt := by
    intro s n m sg rt
    have e1 : ∀ leaf, cr.newEndEntityCert c leaf = cr'.newEndEntityCert c leaf := by intro leaf; unfold Crypto.newEndEntityCert; rw [h.certOk]
    have e2 : ∀ leaf a i rt, cr.verifyChainOfTrust c leaf a i rt Requester.unixTime = cr'.verifyChainOfTrust c leaf a i rt Requester.unixTime := by
      intro leaf a i rt
      unfold Crypto.verifyChainOfTrust
      rw [h.anchorOk]
      have e4 : ∀ a, cr.chainOk leaf a rt i Requester.unixTime = cr'.chainOk leaf a rt i Requester.unixTime := fun a => h.then_ leaf a rt i
      split
      · rfl
      · split
        · congr 1; funext a; rw [e4]
        · rfl
    have e3 : ∀ leaf a m sg, cr.verifySignature c leaf a m sg = cr'.verifySignature c leaf a m sg := by
      intro leaf a m sg; unfold Crypto.verifySignature; rw [h.sigOk]
    simp only [Requester.verifyCertChainAndSignature, e1, e2, e3]
  have hc : ∀ s b, Requester.challengeHandle c cr s b = Requester.challengeHandle c cr' s b := by
    intro s b
    simp only [Requester.challengeHandle, hd, hv]
  have hh : ∀ st b, Requester.handle c cr st b = Requester.handle c cr' st b := by
    intro st b
    unfold Requester.handle
    simp only [hc]
  simp only [Requester.handleMsg, hh]

/-- **C73**, what holds: validity is judged at one fixed moment.  Verifiers that agree on the validity of chains at 2021-12-01 00:00:00 UTC (and on
everything without a date) give the same results in every history, whatever they say about other times. -/
theorem c73_fixed_time_partial (h : SameThen cr cr') (calls : List ReqCall) :
    reqBehaviour c cr (Requester.new c root) calls = reqBehaviour c cr' (Requester.new c root) calls := by
  generalize Requester.new c root = r
  induction calls generalizing r with
  | nil => rfl
  | cons x xs ih =>
    cases x with
    | next env buf => simp only [reqBehaviour, ReqCall.run]; rw [ih]
    | recv m => simp only [reqBehaviour, ReqCall.run, SameThen.handleMsg (c := c) h]; rw [ih]

/-- The verifier that judges at that time only, and the one that never accepts at another time. -/
example : SameThen demoCrypto gapExpired := ⟨rfl, rfl, rfl, rfl, fun _ _ _ _ => by simp [gapExpired]⟩

/-! ## C74: replay -/

/-- **C74.** No replay.  Let the network be arbitrary and suppose, as in C50, that what verifies under a leaf for which the root vouches was signed by
the responder.  If the requester wrote the CHALLENGE `out` and later accepts a CHALLENGE_AUTH, then the bytes of `out`, with the nonce drawn for it,
occur in the transcript that the responder signed (or that transcript and the requester's are a hash collision): a signature made in a session that did
not contain these bytes is not accepted. -/
theorem c74_no_replay {slots : List (Option FilledSlot)} (hl : slots.length = c'.numSlots) (h8' : c'.numSlots ≤ 8) (h8 : c.numSlots ≤ 8)
    {es1 es2 : List ReqEvent} {r : Requester} {env : Env} {buf out : Bytes} (run : ReqRun c cr root (es1 ++ .next env buf (.ok out) :: es2) r) (hout : code out = some 0x83)
    {es' : List RspEvent} {r' : Responder} (run' : RspRun c' cr' slots es' r')
    (hkey : ∀ leaf inters a m der, cr.chainOk leaf a root inters 1638316800 = true → cr.sigOk leaf a m der = true → ∃ i, (i, m) ∈ r'.signed)
    (rsp : Bytes) (hk : code rsp = some 0x03) (b : Bool) (hok : (Requester.handleMsg c cr rsp r).1 = .ok b) :
    (∃ slot, out = [0x11, 0x83, slot, 0] ++ env.nonce) ∧
    ∃ ea env' req' buf' res eb auth, es' = ea ++ .call env' req' buf' res :: eb ∧ alive ea = true ∧ code req' = some 0x83 ∧ AuthFor cr' slots ea env' req' auth ∧
      (out <:+: (conversation (rspMsgs ea)).text ++ req' ++ auth ∨
        Collides (cr.hash (UInt32.ofNat (conversation (reqMsgs (es1 ++ .next env buf (.ok out) :: es2))).hash)) (cr'.hash (UInt32.ofNat (conversation (rspMsgs ea)).hash))
          (Requester.handleMsg c cr rsp r).2.transcript.get ((conversation (rspMsgs ea)).text ++ req' ++ auth)) := by
  obtain ⟨cert, slot, chain, nonce, sig, pre, post, _, _, ho, ht⟩ := c42_fresh h8 run hout rsp hk b hok
  obtain ⟨ea, env', req', buf', res, eb, auth, h1, h2, _, h3, h4, _, h5⟩ := c50_tampering_detected hl h8' h8 run run' hkey rsp hk b hok
  refine ⟨⟨slot, ho⟩, ea, env', req', buf', res, eb, auth, h1, h2, h3, h4, ?_⟩
  rcases h5 with h5 | h5
  · left
    obtain ⟨_, st, st', _, _, _, hlive'⟩ := req_recv run hok
    have hx := hlive'.text
    rw [reqMsgs_append, show reqMsgs [ReqEvent.recv rsp (.ok b)] = [rsp] from rfl, conversation_snoc, h5] at hx
    rw [hx]
    simp only [Log.add, hk, ht]
    exact ⟨pre, post ++ rsp.take (rsp.length - sizeFor signatureSizes (conversation (reqMsgs (es1 ++ .next env buf (.ok out) :: es2))).asym), by simp⟩
  · exact .inr h5

/-- The demo session: the CHALLENGE is the eleventh call. -/
example : (demoReqEvents 11)[10]? = some (.next demoReqEnv (zeros 200) (.ok demoChallenge)) ∧ code demoChallenge = some 0x83 := by decide +kernel

end Spdm
