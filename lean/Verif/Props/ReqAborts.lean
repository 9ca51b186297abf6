import Verif.Lemmas.ReqCalm
import Verif.Props.Config
import Verif.Props.Aborts
import Verif.DemoSession
/-!
# Aborts of the requester: C59
-/
namespace Spdm
open Spec

variable {c : Cfg} {cr : Crypto} {root : Bytes} {es : List ReqEvent} {r : Requester}

theorem recv_calm {st : ReqState} {rsp : Bytes} (hs : r.state = some st) (hc : Calm (Requester.handle c cr st rsp) { r with state := none }) :
    (∃ b, (Requester.handleMsg c cr rsp r).1 = .ok b) ∨ ∃ e, (Requester.handleMsg c cr rsp r).1 = .err e := by
  unfold Calm at hc
  unfold Requester.handleMsg
  rw [hs]
  rcases hp : Requester.handle c cr st rsp { r with state := none } with ⟨st' | e | k, r'⟩
  · exact .inl ⟨_, by simp only [hp]; rfl⟩
  · exact .inr ⟨e, by simp only [hp]⟩
  · rw [hp] at hc; simp [Res.isPanic] at hc

theorem recv_panic {st : ReqState} {rsp : Bytes} {k : PanicKind} {r' : Requester} (hs : r.state = some st)
    (hp : Requester.handle c cr st rsp { r with state := none } = (.panic k, r')) : (Requester.handleMsg c cr rsp r).1 = .panic k := by
  unfold Requester.handleMsg
  rw [hs]
  simp only [hp]

theorem leVal_two (n : Nat) (h : n < 2 ^ 16) : leVal (Spec.le 2 n) = n := by
  simp [Spec.le, leVal, List.range_succ]
  omega

/-- The chain stored is the chain served. -/
theorem served_chain {m : Certificate} (hw : CertificateWF c m) (tail : Bytes) :
    carriedChain (Wire.header .certificate ++ Wire.certificate m ++ tail) = m.certChain.take m.portionLength.toNat := by
  unfold carriedChain
  have h1 : Wire.header .certificate ++ Wire.certificate m ++ tail = ([0x11, 0x02, m.slot, 0] : Bytes) ++ Spec.le 2 m.portionLength.toNat ++
      (Spec.le 2 m.remainderLength.toNat ++ m.certChain.take m.portionLength.toNat ++ tail) := by
    simp [Wire.header, Wire.certificate, zeros]
  rw [h1, field_at (i := 4) rfl (le_length _ _), leVal_two _ m.portionLength.toNat_lt]
  have h2 : ([0x11, 0x02, m.slot, 0] : Bytes) ++ Spec.le 2 m.portionLength.toNat ++ (Spec.le 2 m.remainderLength.toNat ++ m.certChain.take m.portionLength.toNat ++ tail) =
      (([0x11, 0x02, m.slot, 0] : Bytes) ++ Spec.le 2 m.portionLength.toNat ++ Spec.le 2 m.remainderLength.toNat) ++ (m.certChain.take m.portionLength.toNat ++ tail) := by simp
  rw [h2, List.drop_left' (by simp [le_length]), List.take_left' (by rw [List.length_take, hw.len]; have := hw.portion; omega)]

/-- **C59**, the part that holds: a requester that has sent a request and has not failed accepts or refuses, without aborting, every response of
at least three bytes, provided that the digests of the selected hash fit the build when DIGESTS arrives, and that a CHALLENGE_AUTH meets
`AuthReceivable`. -/
theorem c59_no_abort_partial (h8 : c.numSlots ≤ 8) (run : ReqRun c cr root es r) (hf : failed es = false) (rsp : Bytes) (hr : Receivable c cr es rsp) :
    (∃ b, (Requester.handleMsg c cr rsp r).1 = .ok b) ∨ ∃ e, (Requester.handleMsg c cr rsp r).1 = .err e := by
  obtain ⟨st, hl⟩ := req_live' run hf
  obtain ⟨st', hst, hrd⟩ := pending_ready run hf hr.asked
  rw [hl.state, Option.some.injEq] at hst
  subst hst
  refine recv_calm hl.state ?_
  have hw : ({ r with state := none } : Requester).transcript.WF := hl.wf
  have hm := hl.mat
  have hd := hr.digests
  have ha := hr.auth
  generalize accepted es = acc at hm ha
  generalize conversation (reqMsgs es) = l at hm hd ha
  cases hm with
  | version => exact versionRecv_calm hr.long hw
  | @capabilities _ m0 e ct cap =>
    obtain ⟨h1, h2⟩ := hrd
    obtain ⟨ct, rfl⟩ := Option.isSome_iff_exists.mp h1
    obtain ⟨cap, rfl⟩ := Option.isSome_iff_exists.mp h2
    exact capabilitiesRecv_calm hr.long hw
  | algorithms _ _ _ _ ho =>
    obtain ⟨o, rfl⟩ := Option.isSome_iff_exists.mp (show Option.isSome _ = true from hrd)
    exact algorithmsRecv_calm (ho o rfl) hr.long hw
  | @digests _ m0 m1 m2 e caps a h0 h1 h2 hwd =>
    refine digestsRecv_calm h8 (fun hh => ?_) hr.long hw
    have hsz := hd (code_of_take hh)
    obtain ⟨i, hi, hp⟩ := h2.2.2.1.hash
    rw [hwd.hash, hp, sizeFor_pow] at hsz
    have hi6 : i < digestSizes.length := hi
    rw [List.getElem?_eq_getElem hi6] at hsz
    exact ⟨digestSizes[i], getDigestSize_ok.mpr ⟨i, hp, List.getElem?_eq_getElem hi6, hsz⟩⟩
  | certificate => exact certificateRecv_calm hr.long hw
  | @challenge _ m0 m1 m2 m3 m4 tail s cert h0 h1 h2 hwd hb hb2 h3 h4 hcw hs hc hz =>
    simp only [Requester.handle]
    refine Calm.bind ?_ fun _ _ _ => Calm.pure _ _
    by_cases hk : code rsp = some 0x03
    · obtain ⟨g1, ⟨i, n, g2, g3, g4⟩, g5, g6, ⟨g7, g8, g9, g10⟩⟩ := ha hk m4 rfl
      have g1' := g1
      obtain ⟨p1, p2, p3, p4⟩ := g1
      obtain ⟨j, hj, hp⟩ := h2.2.2.1.hash
      have hj6 : j < digestSizes.length := hj
      have hds : BaseHashAlgo.getDigestSize c s.algorithms.baseHashAlgoSelected = .ok digestSizes[j] := by
        refine getDigestSize_ok.mpr ⟨j, hp, List.getElem?_eq_getElem hj6, ?_⟩
        rw [hwd.hash, hp, sizeFor_pow, List.getElem?_eq_getElem hj6] at p3
        exact p3
      have hss : BaseAsymAlgo.getSignatureSize c s.algorithms.baseAsymAlgoSelected = .ok n := getSignatureSize_ok.mpr ⟨i, by rw [← hwd.asym]; exact g2, g3, g4⟩
      have e1 : sizeFor digestSizes l.hash = digestSizes[j] := by rw [hwd.hash]; exact getDigestSize_sizeFor hds
      have e2 : sizeFor signatureSizes l.asym = n := by rw [hwd.asym]; exact getSignatureSize_sizeFor hss
      rw [e1, e2] at g7 g10
      rw [e1, h4, served_chain hcw, ← hc, ← hz] at g9
      refine challengeRecv_calm h8 hds hss ⟨p1, ?_, ?_⟩ ?_ g6 g7 g8 ?_ g9 g10 hr.long hw
      · rw [hwd.hash] at p2; exact p2
      · intro msg
        have := p4 msg
        rwa [hwd.hash, UInt32.ofNat_toNat] at this
      · rw [hwd.asym] at g5
        rcases g5 with h | h
        · left; exact UInt32.toNat_inj.mp (by rw [h]; rfl)
        · right; exact UInt32.toNat_inj.mp (by rw [h]; rfl)
      · rw [hc, hz, hcw.len]; exact hcw.portion
    · unfold Requester.challengeHandle
      refine Calm.bind_lift (expect_calm _ hr.long) fun _ he => ?_
      exact absurd (code_of_take (expect_ok_inv he).2) hk
  | done => exact absurd hrd (by simp [Ready])

theorem ok_all {α : Type} {x : Res α} {P : α → Prop} [DecidablePred P] (h : (match x with | .ok m => decide (P m) | _ => true) = true) : ∀ m, x = .ok m → P m := by
  rintro m rfl
  simpa using h

/-- The demo session's last step meets the hypotheses, with a response whose signature has been tampered with: it is refused. -/
def demoTampered : Bytes := (demoReplies[5]?.getD []).take 80 ++ List.replicate 62 7
example : failed (demoReqEvents 11) = false ∧ Receivable demoCfg demoCrypto (demoReqEvents 11) demoTampered ∧
    (Requester.handleMsg demoCfg demoCrypto demoTampered (demoRequester 11)).1 = .err .invalidSignature := by
  have hlog : (conversation (reqMsgs (demoReqEvents 11))).hash = 1 ∧ (conversation (reqMsgs (demoReqEvents 11))).asym = 16 := by decide +kernel
  refine ⟨by decide +kernel, ⟨by decide +kernel, by decide +kernel, fun _ => by rw [hlog.1]; decide, fun _ cert hcert => ?_⟩, by decide +kernel⟩
  have hc : (accepted (demoReqEvents 11))[4]? = some (demoReplies[4]?.getD []) := by decide +kernel
  rw [hc, Option.some.injEq] at hcert
  subst hcert
  have e1 : sizeFor digestSizes (conversation (reqMsgs (demoReqEvents 11))).hash = 32 := by rw [hlog.1]; decide
  have e2 : sizeFor signatureSizes (conversation (reqMsgs (demoReqEvents 11))).asym = 64 := by rw [hlog.2]; decide
  refine ⟨?_, by rw [hlog.2]; exact ⟨4, 64, rfl, rfl, by decide⟩, .inl hlog.2, by unfold EncoderFits; decide, ?_⟩
  · rw [hlog.1]
    exact ⟨rfl, .inl rfl, by decide, fun msg => by simp [demoCrypto, demoHash, demoCfg]⟩
  · rw [e1, e2]
    refine ⟨by decide +kernel, ?_, by decide +kernel, ok_all (by decide +kernel)⟩
    intro b hb
    have : demoTampered[2]? = some 0 := by decide +kernel
    rw [this, Option.some.injEq] at hb
    subst hb
    decide

/-- With a configuration the build accepts, the algorithms a requester agrees on are ones it can use. -/
theorem built_algorithms {i : SpdmConfig} {nonceSize : Nat} (hv : ValidConfig true i) (hb : Built true i nonceSize c) {m : Bytes} {a : Algorithms} (ha : AlgOf c m a) :
    (a.baseHashAlgoSelected.toNat = 1 ∨ a.baseHashAlgoSelected.toNat = 2 ∨ a.baseHashAlgoSelected.toNat = 4) ∧ a.baseAsymAlgoSelected.toNat = 16 := by
  obtain ⟨_, _, hwf, o, ho, hens⟩ := ha
  obtain ⟨asym, h1, h2⟩ := c54_algorithms true i nonceSize c hv hb
  simp only [if_true] at h1
  rw [ho, Res.ok.injEq] at h1
  subst h1
  unfold Requester.ensureValidAlgorithmsSelected at hens
  simp only at hens
  split at hens
  · simp at hens
  split at hens
  · simp at hens
  rename_i hasym
  split at hens
  · simp at hens
  rename_i hhash
  constructor
  · obtain ⟨j, hj, hp⟩ := hwf.hash
    have : a.baseHashAlgoSelected = UInt32.ofNat (2 ^ j) := (u32_eq (by interval_cases j <;> decide)).mpr hp
    rw [this] at hhash hp
    rw [this]
    interval_cases j <;> revert hhash <;> decide
  · obtain ⟨j, hj, hp⟩ := hwf.asym
    have hne : ¬ (asym.toNat &&& 2 ^ j = 0) := by
      intro h0
      apply hasym
      apply UInt32.toNat_inj.mp
      rw [UInt32.toNat_and, hp, h0]
      rfl
    rw [and_pow_ne, h2] at hne
    rw [hp, hne.1]

theorem digest_le_64 (n : Nat) : sizeFor digestSizes n ≤ 64 := by
  unfold sizeFor
  rcases h : digestSizes[Nat.log2 n]? with _ | k
  · simp
  · have := List.mem_of_getElem? h
    simp only [digestSizes, List.mem_cons, List.not_mem_nil, or_false] at this
    simp only [Option.getD_some]
    omega

/-- **C59** for the configurations the build accepts, with the crypto provider and room for 64 byte digests: what can still abort a requester
that has sent a request is a response of fewer than three bytes, and a CHALLENGE_AUTH that does not meet `AuthData`. -/
theorem c59_built_no_abort_partial {i : SpdmConfig} {nonceSize : Nat} (hv : ValidConfig true i) (hb : Built true i nonceSize c) (hd : 64 ≤ i.maxDigestSize)
    (hcr : ∀ a msg, (cr.hash a msg).length ≤ 64) (run : ReqRun c cr root es r) (hf : failed es = false) (hp : pending es = true) (rsp : Bytes) (h3 : 3 ≤ rsp.length)
    (ha : code rsp = some 0x03 → ∀ cert, (accepted es)[4]? = some cert → AuthData c (sizeFor digestSizes (conversation (reqMsgs es)).hash) 64 cert rsp) :
    (∃ b, (Requester.handleMsg c cr rsp r).1 = .ok b) ∨ ∃ e, (Requester.handleMsg c cr rsp r).1 = .err e := by
  have hmd : 64 ≤ c.maxDigestSize := by rw [hb.maxDigestSize]; exact hd
  refine c59_no_abort_partial (by rw [hb.numSlots]; exact hv.slots.2) run hf rsp ⟨h3, hp, fun _ => ?_, fun hk cert hcert => ?_⟩
  · exact Nat.le_trans (digest_le_64 _) hmd
  · have hdat := ha hk cert hcert
    obtain ⟨st, hl⟩ := req_live' run hf
    obtain ⟨st', hst, hrd⟩ := pending_ready run hf hp
    rw [hl.state, Option.some.injEq] at hst
    subst hst
    have hm := hl.mat
    generalize accepted es = acc at hm hcert
    generalize conversation (reqMsgs es) = l at hm hdat ⊢
    cases hm with
    | version => simp at hcert
    | capabilities => simp at hcert
    | algorithms => simp at hcert
    | digests => simp at hcert
    | certificate => simp at hcert
    | done => exact absurd hrd (by simp [Ready])
    | challenge h0 h1 h2 hwd =>
      obtain ⟨g1, g2⟩ := built_algorithms hv hb h2
      rw [← hwd.hash] at g1
      rw [← hwd.asym] at g2
      refine ⟨⟨hb.provider, g1, Nat.le_trans (digest_le_64 _) hmd, fun msg => Nat.le_trans (hcr _ _) hmd⟩, ⟨4, 64, g2, rfl, by rw [hb.maxSignatureSize]⟩, .inl g2, ?_, ?_⟩
      · unfold EncoderFits; rw [hb.maxSignatureSize]; decide
      · rw [g2]; exact hdat

/-- spdm-config-crypto.toml is such a configuration. -/
example : ValidConfig true cryptoToml ∧ 64 ≤ cryptoToml.maxDigestSize ∧ ∃ consts c, SpdmConfig.genConfig true cryptoToml = .ok consts ∧
    SpdmConfig.toCfg true consts 32 = some c ∧ Built true cryptoToml 32 c :=
  ⟨(c53_accepts_valid true cryptoToml).mp ⟨_, rfl⟩, by decide, _, _, rfl, rfl, by constructor <;> rfl⟩

/-- **C59**, requests: a requester that has not failed always gets its next request or an error. -/
theorem c59_next_no_abort (h0 : 0 < c.numSlots) (run : ReqRun c cr root es r) (hf : failed es = false) (env : Env) (buf : Bytes) :
    (∃ out, (Requester.nextRequest c env buf r).1 = .ok out) ∨ ∃ e, (Requester.nextRequest c env buf r).1 = .err e := by
  obtain ⟨st, hl⟩ := req_live' run hf
  have hne : st ≠ .error := by
    rintro rfl
    have := hl.mat
    generalize accepted es = acc at this
    cases this
  by_cases hn : st = .newSession
  · subst hn
    right
    exact ⟨.initializationComplete, by simp only [Requester.nextRequest, hl.state]⟩
  · have hc := writeReq_calm (env := env) (buf := buf) (c := c) h0 hl.wf hne hn
    have heq : Requester.nextRequest c env buf r = Requester.writeReq c env st buf r := by
      unfold Requester.nextRequest
      rw [hl.state]
      cases st <;> simp_all
    unfold Calm at hc
    rw [heq]
    rcases hx : (Requester.writeReq c env st buf r).1 with out | e | k
    · exact .inl ⟨out, rfl⟩
    · exact .inr ⟨e, rfl⟩
    · rw [hx] at hc; simp [Res.isPanic] at hc

/-! ### Negations -/

/-- **C59** is false of the code: a response of fewer than three bytes aborts every requester that has not completed or failed. -/
theorem c59_short_response_aborts (run : ReqRun c cr root es r) (hf : failed es = false) (rsp : Bytes) (hs : rsp.length < 3) :
    ∃ k, (Requester.handleMsg c cr rsp r).1 = .panic k := by
  obtain ⟨st, hl⟩ := req_live' run hf
  have hp : ∀ t, Responder.expect t rsp = .panic .assertion := by
    intro t
    unfold Responder.expect MsgType.parseHeader
    rw [if_pos (by omega)]
  have key : ∃ k, Requester.handle c cr st rsp { r with state := none } = (.panic k, { r with state := none }) := by
    have hm := hl.mat
    generalize accepted es = acc at hm
    cases hm <;> simp only [Requester.handle, Requester.challengeHandle, hp]
    case done => exact ⟨_, rfl⟩
    case challenge => exact ⟨_, M.run_bind_panic (lift_panic rfl)⟩
    all_goals exact ⟨_, lift_panic rfl⟩
  obtain ⟨k, hk⟩ := key
  exact ⟨k, recv_panic hl.state hk⟩

/-- Right after VERSION was accepted the requester has not sent its capabilities; the next thing it must do is ask for more. -/
theorem after_recv {m : Bytes} {b : Bool} (run : ReqRun c cr root (es ++ [.recv m (.ok b)]) r) :
    ∃ st st' r0, ReqRun c cr root es r0 ∧ ReqLive c root es r0 st ∧ r.state = some st' ∧ r.transcript.WF ∧ r.transcript.buf.length = c.transcriptSize ∧
      ReqRecv c cr root st (conversation (reqMsgs es)).text m r.transcript.get st' := by
  obtain ⟨r0, x, hr0, he, rfl⟩ := run.last
  cases x with
  | next env buf => simp [ReqCall.run] at he
  | recv rsp =>
    simp only [ReqCall.run, ReqEvent.recv.injEq] at he
    obtain ⟨rfl, he⟩ := he
    obtain ⟨_, st, st', h1, _, h3, h4⟩ := req_recv hr0 he.symm
    exact ⟨st, st', r0, hr0, h1, h4.state, h4.wf, h4.cap, h3⟩

/-- **C59** is false of the code: a CAPABILITIES response that arrives before GET_CAPABILITIES was sent aborts the requester. -/
theorem c59_unsolicited_capabilities_aborts {m : Bytes} {b : Bool} (run : ReqRun c cr root (es ++ [.recv m (.ok b)]) r) (hm : code m = some 0x04)
    (caps : Capabilities) (hw : OnlyBits rspFlagBit caps.flags.toNat) (tail : Bytes) (hroom : r.transcript.get.length + 12 + tail.length ≤ c.transcriptSize) :
    (Requester.handleMsg c cr ([0x11, 0x61] ++ Wire.capabilities caps ++ tail) r).1 = .panic .unwrapNone := by
  obtain ⟨st, st', r0, _, _, hst, hwf, hcap, hrecv⟩ := after_recv run
  generalize r.transcript.get = tr at hrecv
  have h12 : (Wire.header .capabilities ++ Wire.capabilities caps ++ tail).length = 12 + tail.length := by
    simp [header_length, Wire.capabilities, zeros, le_length]; omega
  have : ∃ e, st' = .capabilities e none none := by
    cases hrecv with
    | version => exact ⟨_, rfl⟩
    | capabilities hr => rw [hr, List.append_assoc, code_header] at hm; simp [Wire.header] at hm
    | algorithms h3 hh => rw [code_of_take hh] at hm; simp [Wire.header] at hm
    | digests h3 hh => rw [code_of_take hh] at hm; simp [Wire.header] at hm
    | certificate hr => rw [hr, List.append_assoc, code_header] at hm; simp [Wire.header] at hm
    | challenge h3 hh => rw [code_of_take hh] at hm; simp [Wire.header] at hm
  obtain ⟨e, rfl⟩ := this
  change (Requester.handleMsg c cr (Wire.header .capabilities ++ Wire.capabilities caps ++ tail) r).1 = _
  obtain ⟨t, hx, _⟩ := Requester.extend_run (r := { r with state := none }) (bs := Wire.header .capabilities ++ Wire.capabilities caps ++ tail) hwf (by
    rw [h12]; show r.transcript.get.length + _ ≤ r.transcript.buf.length; omega)
  refine recv_panic (k := .unwrapNone) (r' := { r with state := none, transcript := t }) hst ?_
  simp only [Requester.handle]
  rw [List.append_assoc] at h12 hx ⊢
  rw [lift_run (expect_ok (t := .capabilities) (by omega) (List.take_left' (header_length _))),
    lift_run (split_body _ _), lift_run (x := Capabilities.parseBody _) (a := caps) ((Capabilities.reads hw).parse tail), M.run_bind_ok hx]
  exact lift_panic rfl

/-- **C59** is false of the code: an ALGORITHMS response that arrives before NEGOTIATE_ALGORITHMS was sent aborts the requester. -/
theorem c59_unsolicited_algorithms_aborts {m : Bytes} {b : Bool} (run : ReqRun c cr root (es ++ [.recv m (.ok b)]) r) (hm : code m = some 0x61)
    (a : Algorithms) (hw : AlgorithmsWF a) (tail : Bytes) :
    (Requester.handleMsg c cr ([0x11, 0x63] ++ Wire.algorithms a ++ tail) r).1 = .panic .unwrapNone := by
  obtain ⟨st, st', r0, _, _, hst, hwf, hcap, hrecv⟩ := after_recv run
  generalize r.transcript.get = tr at hrecv
  have : ∃ e caps, st' = .algorithms e caps none := by
    cases hrecv with
    | version h3 hh => rw [code_of_take hh] at hm; simp [Wire.header] at hm
    | capabilities hr => exact ⟨_, _, rfl⟩
    | algorithms h3 hh => rw [code_of_take hh] at hm; simp [Wire.header] at hm
    | digests h3 hh => rw [code_of_take hh] at hm; simp [Wire.header] at hm
    | certificate hr => rw [hr, List.append_assoc, code_header] at hm; simp [Wire.header] at hm
    | challenge h3 hh => rw [code_of_take hh] at hm; simp [Wire.header] at hm
  obtain ⟨e, caps, rfl⟩ := this
  change (Requester.handleMsg c cr (Wire.header .algorithms ++ Wire.algorithms a ++ tail) r).1 = _
  refine recv_panic (k := .unwrapNone) (r' := { r with state := none }) hst ?_
  have h3 : 3 ≤ (Wire.header .algorithms ++ (Wire.algorithms a ++ tail)).length := by
    simp [header_length, Wire.algorithms, zeros, le_length]; omega
  simp only [Requester.handle]
  rw [List.append_assoc, lift_run (expect_ok (t := .algorithms) h3 (List.take_left' (header_length _))),
    lift_run (split_body _ _), lift_run (x := Algorithms.parseBody _) (a := a) ((Algorithms.reads hw).parse tail)]
  exact lift_panic rfl

/-- In the demo session: CAPABILITIES straight after VERSION, and ALGORITHMS straight after CAPABILITIES. -/
example :
    let run := fun calls => (reqBehaviour demoCfg demoCrypto (Requester.new demoCfg [1, 2, 3]) calls).map fun e => match e with | .recv _ res => some res | _ => none
    run [.next demoReqEnv (zeros 200), .recv (demoReplies[0]?.getD []), .recv (demoReplies[1]?.getD [])] = [none, some (.ok false), some (.panic .unwrapNone)] ∧
    run ((demoReqCalls 4) ++ [.recv (demoReplies[2]?.getD [])]) = [none, some (.ok false), none, some (.ok false), some (.panic .unwrapNone)] ∧
    run ((demoReqCalls 12) ++ [.recv (demoReplies[5]?.getD [])]) =
      [none, some (.ok false), none, some (.ok false), none, some (.ok false), none, some (.ok false), none, some (.ok false), none, some (.ok true), some (.panic .unimplemented)] := by
  decide +kernel

/-- **C59** is false of the code: any message that arrives after completion aborts. -/
theorem c59_completed_aborts {m : Bytes} (run : ReqRun c cr root (es ++ [.recv m (.ok true)]) r) (rsp : Bytes) :
    (Requester.handleMsg c cr rsp r).1 = .panic .unimplemented := by
  obtain ⟨r0, x, hr0, he, rfl⟩ := run.last
  cases x with
  | next env buf => simp [ReqCall.run] at he
  | recv rsp0 =>
    simp only [ReqCall.run, ReqEvent.recv.injEq] at he
    obtain ⟨rfl, he⟩ := he
    obtain ⟨_, st, st', h1, h2, h3, h4⟩ := req_recv hr0 he.symm
    have : st' = .newSession := by simpa using h2.symm
    subst this
    exact recv_panic (r' := { (ReqCall.run c cr r0 (.recv m)).2 with state := none }) h4.state rfl

end Spdm
