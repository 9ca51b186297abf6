import Verif.Lemmas.Calm
import Verif.Spec.Aborts
import Verif.DemoSession
/-!
# Aborts of the endpoints: C58

A panic stops the whole program that embeds the endpoint; the model records it as the result `.panic` (the state of the endpoint is then
gone, see C34).  `hl` and `h8` as in Props/Responder.lean.
-/
namespace Spdm
open Spec

section responder
variable {c : Cfg} {cr : Crypto} {slots : List (Option FilledSlot)} {es : List RspEvent} {r : Responder}

theorem call_calm {st : RspState} (hl : slots.length = c.numSlots) (h8 : c.numSlots ≤ 8) (hk : RspKept c slots r) (hs : r.state = some st) {env : Env}
    {req buf : Bytes} (hc : Calm (Responder.dispatch c cr env slots st req) ⟨buf, r.transcript, r.signed⟩) :
    ∃ out e, (Responder.handleMsg c cr env req buf r).1 = .ok ⟨out, e⟩ := by
  rcases hd : Responder.dispatch c cr env slots st req ⟨buf, r.transcript, r.signed⟩ with ⟨x, h'⟩
  unfold Calm at hc
  rw [hd] at hc
  cases x with
  | ok v =>
    obtain ⟨n, st'⟩ := v
    obtain ⟨out, r', sg, hx, _⟩ := call_accepts (env := env) (cr := cr) hl h8 hk hs hd
    exact ⟨out, none, by rw [hx]⟩
  | err e => exact ⟨_, some e, (call_refuses hl h8 hk hs (congrArg Prod.fst hd)).1⟩
  | panic k => simp [Res.isPanic] at hc

theorem call_aborts {st : RspState} (hk : RspKept c slots r) (hs : r.state = some st) {env : Env} {req buf : Bytes} {k : PanicKind} {h' : HState}
    (hd : Responder.dispatch c cr env slots st req ⟨buf, r.transcript, r.signed⟩ = (.panic k, h')) :
    (Responder.handleMsg c cr env req buf r).1 = .panic k := by
  simp only [Responder.handleMsg, hs, hk.slots, (handle_cases hd).2.2 k rfl]

theorem code_take {t : MsgType} {req : Bytes} (h : req.take 2 = Wire.header t) : code req = (Wire.header t)[1]? := by
  unfold code
  rw [← h, List.getElem?_take_of_lt (by omega)]

theorem hashReady_of {l : Log} {caps : Caps} {a : Algorithms} (hw : Words l caps a) (h : HashUsable c cr l.hash) : HashReady c cr a.baseHashAlgoSelected where
  provider := h.provider
  ring := by have := h.known; rw [hw.hash] at this; exact this
  fits msg := by have := h.fits msg; rwa [hw.hash, UInt32.ofNat_toNat] at this

theorem digestSize_of {l : Log} {caps : Caps} {a : Algorithms} (hw : Words l caps a) (h : HashUsable c cr l.hash) :
    ∃ ds, BaseHashAlgo.getDigestSize c a.baseHashAlgoSelected = .ok ds := by
  have hs := h.size
  have hk := h.known
  rw [hw.hash] at hs hk
  rcases hk with hk | hk | hk <;> rw [hk] at hs
  · exact ⟨32, getDigestSize_ok.mpr ⟨0, hk, rfl, hs⟩⟩
  · exact ⟨48, getDigestSize_ok.mpr ⟨1, hk, rfl, hs⟩⟩
  · exact ⟨64, getDigestSize_ok.mpr ⟨2, hk, rfl, hs⟩⟩

/-- **C58**, the part that holds: a responder that has not failed answers or refuses, without aborting, every request of at least three
bytes that offers something in every algorithm mask, provided that GET_DIGESTS and CHALLENGE come after the selection of algorithms the
build supports and that the signers respect the signature length.  Missing are exactly these cases, where C58 is false (the theorems below
and `c29_empty_offer_aborts`). -/
theorem c58_no_abort_partial (hl : slots.length = c.numSlots) (h8 : c.numSlots ≤ 8) (run : RspRun c cr slots es r) (ha : alive es = true)
    (env : Env) (req buf : Bytes) (hreq : Answerable c cr slots env (conversation (rspMsgs es)) req) :
    ∃ out e, (Responder.handleMsg c cr env req buf r).1 = .ok ⟨out, e⟩ := by
  obtain ⟨st, hlive⟩ := run_live hl h8 run ha
  refine call_calm hl h8 hlive.toRspKept hlive.state ?_
  have hm := hlive.mat
  have hw := hlive.wf
  generalize conversation (rspMsgs es) = l at hreq hm
  generalize lastReq es = k at hm
  cases hm with
  | version => exact versionHandle_calm hreq.long _
  | capabilities => exact capabilitiesHandle_calm hreq.long hw
  | algorithms => exact algorithmsHandle_calm hreq.long (fun m h hp => hreq.offer (code_take h) m hp) hw
  | idAuth _ hwd => exact idAuthHandle_calm hl h8 hreq.long (fun h hf => hashReady_of hwd (hreq.digests (code_take h) hf)) hw
  | challenge _ hwd =>
    refine challengeHandle_calm hl h8 hreq.long (fun h => ?_) hw
    obtain ⟨h1, ⟨i, n, h2, h3, h4⟩, h5⟩ := hreq.challenge (code_take h)
    obtain ⟨ds, hds⟩ := digestSize_of hwd h1
    rw [hwd.asym] at h2 h5
    have hss := getSignatureSize_ok.mpr ⟨i, h2, h3, h4⟩
    refine ⟨ds, n, hds, hss, fun _ => hashReady_of hwd h1, fun s data sig hs hsg => ?_⟩
    rw [h5 s data sig hs (by rw [hwd.hash, UInt32.ofNat_toNat]; exact hsg), getSignatureSize_sizeFor hss]

/-- The demo session meets the hypotheses at every step, whatever CHALLENGE is sent last: here an unknown slot, which is refused. -/
example : alive (demoEvents 5) = true ∧
    Answerable demoCfg demoCrypto demoSlots demoEnv (conversation (rspMsgs (demoEvents 5))) [0x11, 0x83, 1, 0, 5, 6, 7, 8] ∧
    (Responder.handleMsg demoCfg demoCrypto demoEnv [0x11, 0x83, 1, 0, 5, 6, 7, 8] (zeros 200) (demoResponder 5)).1 = .ok ⟨[0x12, 0x7F, 1, 0], some .invalidSlot⟩ := by
  have hlog : (conversation (rspMsgs (demoEvents 5))).hash = 1 ∧ (conversation (rspMsgs (demoEvents 5))).asym = 16 := by decide +kernel
  refine ⟨by decide +kernel, ⟨by simp, by simp [code], by simp [code], fun _ => ⟨?_, ?_, ?_⟩⟩, by decide +kernel⟩
  · rw [hlog.1]
    exact ⟨rfl, .inl rfl, by decide, fun msg => by simp [demoCrypto, demoHash, demoCfg]⟩
  · rw [hlog.2]
    exact ⟨4, 64, rfl, rfl, by decide⟩
  · rw [hlog.1, hlog.2]
    intro s data sig hs hsg
    simp only [demoSlots, List.mem_cons, Option.some.injEq, List.not_mem_nil, or_false, reduceCtorEq] at hs
    subst hs
    simp only [Option.some.injEq] at hsg
    subst hsg
    rw [show sizeFor signatureSizes 16 = 64 by decide]
    simp [demoSign, demoCrypto, demoHash]

/-- **C58** is false of the code: whatever has been exchanged, a request of fewer than three bytes aborts a responder that has not failed. -/
theorem c58_short_request_aborts (hl : slots.length = c.numSlots) (h8 : c.numSlots ≤ 8) (run : RspRun c cr slots es r) (ha : alive es = true)
    (env : Env) (req buf : Bytes) (hs : req.length < 3) : (Responder.handleMsg c cr env req buf r).1 = .panic .assertion := by
  obtain ⟨st, hlive⟩ := run_live hl h8 run ha
  have hp : MsgType.getVersion.parseHeader req = .panic .assertion := by
    unfold MsgType.parseHeader
    rw [if_pos (by omega)]
  refine call_aborts (h' := ⟨buf, r.transcript, r.signed⟩) hlive.toRspKept hlive.state ?_
  have hv : ∀ h, Responder.versionHandle req h = (.panic .assertion, h) := by
    intro h; unfold Responder.versionHandle; rw [hp]; rfl
  have hr : ∀ rest h, Responder.resetOnGetVersion req rest h = (.panic .assertion, h) := by
    intro rest h; unfold Responder.resetOnGetVersion; rw [hp]; rfl
  have hm := hlive.mat
  generalize lastReq es = k at hm
  cases hm <;> simp only [Responder.dispatch, Responder.capabilitiesHandle, Responder.algorithmsHandle, Responder.idAuthHandle, Responder.challengeHandle, hv, hr]

/-- A single byte, in the middle of the demo session. -/
example : (Responder.handleMsg demoCfg demoCrypto demoEnv [0x11] (zeros 200) (demoResponder 4)).1 = .panic .assertion := by decide +kernel

theorem lift_panic {σ α β : Type} {x : Res α} {k : PanicKind} {f : α → M σ β} {s : σ} (h : x = .panic k) : (M.lift x >>= f) s = (.panic k, s) := by
  rw [M.run_bind_panic (m := M.lift x) (k := k) (s' := s) (by rw [M.run_lift, h])]

theorem hashLoop_aborts {algo : UInt32} {chains : List (Option CertificateChain)} (hh : c.provider = false ∨ ¬ RingHash algo)
    (hfit : ∀ ch, some ch ∈ chains → (Wire.chain ch).length ≤ c.maxCertChainSize ∧ (Wire.chain ch).length ≤ 65535)
    (n i : Nat) (ds : List (Option Bytes)) (hn : i + n = chains.length) (hex : ∃ j, i ≤ j ∧ ∃ ch, chains[j]? = some (some ch)) :
    ∃ k, Responder.hashLoop c cr algo chains n i (List.replicate c.maxCertChainSize 0) ds = .panic k := by
  induction n generalizing i with
  | zero =>
    obtain ⟨j, hj, ch, hch⟩ := hex
    have := (List.getElem?_eq_some_iff.mp hch).1
    omega
  | succ n ih =>
    have hi : i < chains.length := by omega
    simp only [Responder.hashLoop, index_ok hi, Res.ok_bind]
    cases hc : chains[i] with
    | none =>
      refine ih (i + 1) (by omega) ?_
      obtain ⟨j, hj, ch, hch⟩ := hex
      refine ⟨j, ?_, ch, hch⟩
      rcases Nat.lt_or_ge i j with h | h
      · omega
      · have : j = i := by omega
        subst this
        rw [List.getElem?_eq_getElem hi, hc] at hch
        simp at hch
    | some ch =>
      obtain ⟨h1, h2⟩ := hfit ch (by rw [← hc]; exact List.getElem_mem hi)
      simp only
      rw [writeChain_run h2 (by simpa using h1)]
      simp only [Res.ok_bind]
      rw [sliceTo_ok (by simp), List.take_left' rfl, Res.ok_bind]
      by_cases hp : c.provider = true
      · rw [digest_panic hp (hh.resolve_left (by simp [hp]))]
        exact ⟨_, rfl⟩
      · unfold Crypto.digest
        rw [if_pos (by simpa using hp)]
        exact ⟨_, rfl⟩

/-- **C58** is false of the code: the responder selects hash algorithms it cannot compute.  Whenever the selected hash is not one of SHA-256,
SHA-384 and SHA-512, or there is no crypto provider, GET_DIGESTS aborts a responder with a filled slot. -/
theorem c58_unusable_hash_aborts (hl : slots.length = c.numSlots) (h8 : c.numSlots ≤ 8) (run : RspRun c cr slots es r) (ha : alive es = true)
    (hlast : lastReq es = some 0xE3 ∨ lastReq es = some 0x81)
    (hh : c.provider = false ∨ (conversation (rspMsgs es)).hash ∉ [1, 2, 4]) (hf : AnyFilled slots)
    (hfit : ∀ s, some s ∈ slots → (Wire.chain s.certChain).length ≤ c.maxCertChainSize ∧ (Wire.chain s.certChain).length ≤ 65535)
    (env : Env) (req buf : Bytes) (h3 : 3 ≤ req.length) (hr : req.take 2 = [0x11, 0x81]) :
    ∃ k, (Responder.handleMsg c cr env req buf r).1 = .panic k := by
  obtain ⟨st, hlive⟩ := run_live hl h8 run ha
  obtain ⟨n, rfl, hw⟩ : ∃ n, st = .idAuth n ∧ Words (conversation (rspMsgs es)) n.caps n.algorithms := by
    have hm := hlive.mat
    generalize lastReq es = k at hm hlast
    cases hm with
    | idAuth _ hw => exact ⟨_, rfl, hw⟩
    | challenge hk _ => rcases hlast with h | h <;> rcases hk with rfl | rfl <;> simp at h
    | version => simp at hlast
    | capabilities => simp at hlast
    | algorithms => simp at hlast
  have hl' : (chainsOf slots).length = c.numSlots := by simpa using hl
  obtain ⟨mask, hm, _⟩ := createSlotMask_run hl' h8
  have hmem : ∀ ch, some ch ∈ chainsOf slots → ∃ s, some s ∈ slots ∧ ch = s.certChain := by
    intro ch hch
    simp only [chainsOf, List.mem_map] at hch
    obtain ⟨o, ho, he⟩ := hch
    cases o with
    | none => simp at he
    | some s => exact ⟨s, ho, by simpa using he.symm⟩
  obtain ⟨k, hk⟩ := hashLoop_aborts (cr := cr) (algo := n.algorithms.baseHashAlgoSelected) (chains := chainsOf slots)
    (by
      refine hh.imp id fun h hr => h ?_
      rw [hw.hash]
      rcases hr with h | h | h <;> simp [h])
    (by intro ch hch; obtain ⟨s, h1, rfl⟩ := hmem ch hch; exact hfit s h1) c.numSlots 0 (List.replicate c.numSlots none) (by omega)
    (by
      obtain ⟨s, hs⟩ := hf
      obtain ⟨j, hj⟩ := List.mem_iff_getElem?.mp hs
      exact ⟨j, by omega, s.certChain, by simp [chainsOf, hj]⟩)
  refine ⟨k, call_aborts (h' := ⟨buf, r.transcript, r.signed⟩) hlive.toRspKept hlive.state ?_⟩
  simp only [Responder.dispatch]
  unfold Responder.idAuthHandle
  rw [resetOnGetVersion_other (t := .getDigests) (by decide) h3 hr, lift_run (header_run (t := .getDigests) h3 hr .getDigests)]
  simp only [decide_true, if_true]
  unfold Responder.handleGetDigests
  rw [lift_run hm, M.run_bind_panic (k := k)]
  rw [M.run_lift]
  unfold Responder.hashCertChains
  rw [hk]

/-- A peer that only offers SHA3-256 (bit 3): the offer is accepted, then GET_DIGESTS aborts. -/
def sha3Calls : List RspCall := [demoGetVersion, demoGetCapabilities, [0x11, 0xE3] ++ Wire.negotiateAlgorithms { demoSessionOffer with baseHashAlgo := 8 }].map demoCall
example : alive (behaviour demoCfg demoCrypto (Responder.new demoCfg demoSlots) sha3Calls) = true ∧
    (conversation (rspMsgs (behaviour demoCfg demoCrypto (Responder.new demoCfg demoSlots) sha3Calls))).hash = 8 ∧
    (Responder.handleMsg demoCfg demoCrypto demoEnv demoGetDigests (zeros 200) (after demoCfg demoCrypto (Responder.new demoCfg demoSlots) sha3Calls)).1 = .panic .unwrapNone := by
  decide +kernel

/-- **C58** is false of the code: the responder selects signature algorithms whose signatures do not fit its buffers.  Whenever the
signatures of the selected algorithm are longer than MAX_SIGNATURE_SIZE, every CHALLENGE aborts. -/
theorem c58_large_signature_aborts (hl : slots.length = c.numSlots) (h8 : c.numSlots ≤ 8) (run : RspRun c cr slots es r) (ha : alive es = true)
    (hlast : lastReq es = some 0x82 ∨ lastReq es = some 0x83)
    (hbig : ¬ SignatureUsable c (conversation (rspMsgs es)).asym)
    (env : Env) (req buf : Bytes) (h3 : 3 ≤ req.length) (hr : req.take 2 = [0x11, 0x83]) :
    ∃ k, (Responder.handleMsg c cr env req buf r).1 = .panic k := by
  obtain ⟨st, hlive⟩ := run_live hl h8 run ha
  obtain ⟨n, rfl, hw⟩ : ∃ n, st = .challenge n ∧ Words (conversation (rspMsgs es)) n.caps n.algorithms := by
    have hm := hlive.mat
    generalize lastReq es = k at hm hlast
    cases hm with
    | challenge _ hw => exact ⟨_, rfl, hw⟩
    | idAuth hk _ => rcases hlast with h | h <;> rcases hk with rfl | rfl <;> simp at h
    | version => simp at hlast
    | capabilities => simp at hlast
    | algorithms => simp at hlast
  have hd : ∃ k, Responder.dispatch c cr env slots (.challenge n) req ⟨buf, r.transcript, r.signed⟩ = (.panic k, ⟨buf, r.transcript, r.signed⟩) := by
    simp only [Responder.dispatch]
    unfold Responder.challengeHandle
    rw [resetOnGetVersion_other (t := .challenge) (by decide) h3 hr, lift_run (expect_ok (t := .challenge) h3 hr)]
    have hds : ∀ e, BaseHashAlgo.getDigestSize c n.algorithms.baseHashAlgoSelected ≠ .err e := by
      intro e; unfold BaseHashAlgo.getDigestSize BaseHashAlgo.checkedDigestSize; repeat' split
      all_goals simp
    have hss : ∀ e, BaseAsymAlgo.getSignatureSize c n.algorithms.baseAsymAlgoSelected ≠ .err e := by
      intro e; unfold BaseAsymAlgo.getSignatureSize BaseAsymAlgo.checkedSignatureSize; repeat' split
      all_goals simp
    rcases h1 : BaseHashAlgo.getDigestSize c n.algorithms.baseHashAlgoSelected with ds | e | k
    · rw [lift_run rfl]
      rcases h2 : BaseAsymAlgo.getSignatureSize c n.algorithms.baseAsymAlgoSelected with ss | e | k
      · obtain ⟨i, g1, g2, g3⟩ := getSignatureSize_ok.mp h2
        exact absurd ⟨i, ss, by rw [hw.asym, g1], g2, g3⟩ hbig
      · exact absurd h2 (hss e)
      · exact ⟨k, lift_panic rfl⟩
    · exact absurd h1 (hds e)
    · exact ⟨k, lift_panic rfl⟩
  obtain ⟨k, hd⟩ := hd
  exact ⟨k, call_aborts hlive.toRspKept hlive.state hd⟩

/-- A peer that only offers RSASSA-2048 (bit 0): the offer is accepted and the certificate served, then CHALLENGE aborts. -/
def rsaCalls : List RspCall := [demoGetVersion, demoGetCapabilities, [0x11, 0xE3] ++ Wire.negotiateAlgorithms { demoSessionOffer with baseAsymAlgo := 1 },
  demoGetCertificate].map demoCall
example : alive (behaviour demoCfg demoCrypto (Responder.new demoCfg demoSlots) rsaCalls) = true ∧
    lastReq (behaviour demoCfg demoCrypto (Responder.new demoCfg demoSlots) rsaCalls) = some 0x82 ∧
    (conversation (rspMsgs (behaviour demoCfg demoCrypto (Responder.new demoCfg demoSlots) rsaCalls))).asym = 1 ∧
    (Responder.handleMsg demoCfg demoCrypto demoEnv demoChallenge (zeros 200) (after demoCfg demoCrypto (Responder.new demoCfg demoSlots) rsaCalls)).1 = .panic .unwrapNone := by
  decide +kernel

/-- **C58**, a signer that returns a signature of the wrong length (here 63 bytes for P-256) aborts the responder. -/
theorem c58_wrong_signature_length_aborts :
    (Responder.handleMsg demoCfg demoCrypto demoEnv demoChallenge (zeros 200)
      (after demoCfg demoCrypto (Responder.new demoCfg [some ⟨0x10, 1, demoSessionChain, fun _ m => some ((demoSign m).drop 1)⟩, none]) (demoCalls 5))).1 = .panic .copyLength := by
  decide +kernel

end responder
end Spdm
