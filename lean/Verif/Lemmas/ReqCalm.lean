import Verif.Lemmas.Calm
import Verif.Lemmas.ReqCalls
import Verif.Lemmas.Auth
import Verif.Spec.Aborts
import Verif.Props.Der
/-! Calls of the requester that do not abort. -/
namespace Spdm
open Spec

/-- A state that has sent what the response needs. -/
def Ready : ReqState → Prop
  | .capabilities _ ct cap => ct.isSome ∧ cap.isSome
  | .algorithms _ _ o => o.isSome
  | .newSession => False
  | .error => False
  | _ => True

theorem pending_snoc (es : List ReqEvent) (e : ReqEvent) :
    pending (es ++ [e]) = match e with | .next _ _ (.ok _) => true | .recv _ (.ok _) => false | _ => pending es := by
  unfold pending
  rw [List.foldl_append]
  rfl

theorem send_ready {c : Cfg} {env : Env} {st st' : ReqState} {tr out tr' : Bytes} (h : ReqSend c env st tr out tr' st') : Ready st' := by
  cases h <;> simp [Ready]

theorem idle_ready {c : Cfg} {env : Env} {st st' : ReqState} (h : Idle c env st st') (hr : Ready st) : Ready st' := by
  cases h with
  | same => exact hr
  | algorithms => simp [Ready]
  | challenge => simp [Ready]

theorem pending_ready {c : Cfg} {cr : Crypto} {root : Bytes} {es : List ReqEvent} {r : Requester} (h : ReqRun c cr root es r) (hf : failed es = false)
    (hp : pending es = true) : ∃ st, r.state = some st ∧ Ready st := by
  induction h with
  | new => simp [pending] at hp
  | @next es r env buf run ih =>
    have hf' : failed es = false := by rw [failed_append] at hf; simpa using (Bool.or_eq_false_iff.mp hf).1
    obtain ⟨st, hl⟩ := req_live' run hf'
    rcases hx : Requester.nextRequest c env buf r with ⟨x, r'⟩
    obtain ⟨hk, h⟩ := next_refines hl.state hl.wf hx
    rcases h with ⟨out, st', rfl, hlen, hs', hsend⟩ | ⟨hno, st', hs', hidle, ht⟩
    · exact ⟨st', hs', send_ready hsend⟩
    · rw [hx, pending_snoc] at hp
      have hp' : pending es = true := by
        cases x with
        | ok a => simp [Res.isOk] at hno
        | err e => exact hp
        | panic k => exact hp
      obtain ⟨st0, h0, hr⟩ := ih hf' hp'
      rw [hl.state, Option.some.injEq] at h0
      subst h0
      exact ⟨st', hs', idle_ready hidle hr⟩
  | @recv es r rsp run ih =>
    rw [failed_append] at hf
    obtain ⟨hf1, hf2⟩ := Bool.or_eq_false_iff.mp hf
    rcases hx : Requester.handleMsg c cr rsp r with ⟨x, r'⟩
    rw [hx] at hf2 hp
    rw [pending_snoc] at hp
    cases x with
    | ok a => simp at hp
    | err e => simp [failed] at hf2
    | panic k => simp [failed] at hf2

theorem Requester.extend_calm {r : Requester} (hw : r.transcript.WF) (bs : Bytes) : Calm (Requester.extend bs) r := by
  unfold Calm
  by_cases hr : r.transcript.get.length + bs.length ≤ r.transcript.buf.length
  · obtain ⟨t, hx, _⟩ := Requester.extend_run (r := r) hw hr
    rw [hx]; rfl
  · simp only [Requester.extend, Transcript.extend_full hw (by omega : r.transcript.buf.length < r.transcript.get.length + bs.length), Res.isPanic]

theorem extendPure_calm {r : Requester} (hw : r.transcript.WF) (bs : Bytes) (st : ReqState) :
    Calm (do Requester.extend bs; pure st : M Requester ReqState) r :=
  Calm.bind (Requester.extend_calm hw bs) fun _ _ _ => Calm.pure _ _

theorem versionRecv_calm {c : Cfg} {cr : Crypto} {rsp : Bytes} {r : Requester} (h3 : 3 ≤ rsp.length) (hw : r.transcript.WF) :
    Calm (Requester.handle c cr .version rsp) r := by
  simp only [Requester.handle]
  refine Calm.bind_lift (expect_calm _ h3) fun _ _ => Calm.bind_lift (sliceFrom_calm h3) fun body _ => Calm.bind_lift (Version.safe.parse body) fun v hv => ?_
  have hwf := Version.parse_wf hv
  obtain ⟨o, ho, _⟩ := findMax_run v (by have := hwf.len; have := hwf.num; omega)
  refine Calm.bind_lift (by rw [ho]; rfl) fun e _ => ?_
  cases e with
  | none => exact Calm.fail _ _
  | some e => exact extendPure_calm hw _ _

theorem capabilitiesRecv_calm {c : Cfg} {cr : Crypto} {rsp : Bytes} {r : Requester} {v : VersionEntry} {ct : UInt8} {cap : UInt32} (h3 : 3 ≤ rsp.length)
    (hw : r.transcript.WF) : Calm (Requester.handle c cr (.capabilities v (some ct) (some cap)) rsp) r := by
  simp only [Requester.handle, Requester.unwrap]
  refine Calm.bind_lift (expect_calm _ h3) fun _ _ => Calm.bind_lift (sliceFrom_calm h3) fun body _ => Calm.bind_lift (Capabilities.safe.parse body) fun m _ => ?_
  exact Calm.bind (Requester.extend_calm hw _) fun _ _ _ => Calm.bind_lift rfl fun _ _ => Calm.bind_lift rfl fun _ _ => Calm.pure _ _

theorem ensureResponseLoop_calm {reqs : List AlgorithmRequest} {rsp : AlgorithmRequest} (n i : Nat) (h : i + n ≤ reqs.length) :
    (Requester.ensureResponseLoop reqs rsp n i).isPanic = false := by
  induction n generalizing i with
  | zero => rfl
  | succ n ih =>
    simp only [Requester.ensureResponseLoop]
    refine Calm.res_bind (index_calm (by omega)) fun a _ => ?_
    split
    · rfl
    · exact ih _ (by omega)

theorem ensureResponses_calm {m : NegotiateAlgorithms} (hm : m.numAlgorithmRequests.toNat ≤ m.algorithmRequests.length) {rsps : List AlgorithmRequest} (n i : Nat)
    (h : i + n ≤ rsps.length) : (Requester.ensureResponses m rsps n i).isPanic = false := by
  induction n generalizing i with
  | zero => rfl
  | succ n ih =>
    simp only [Requester.ensureResponses]
    exact Calm.res_bind (index_calm (by omega)) fun a _ => Calm.res_bind (ensureResponseLoop_calm _ _ (by omega)) fun _ _ => ih _ (by omega)

theorem algorithmsRecv_calm {c : Cfg} {cr : Crypto} {rsp : Bytes} {r : Requester} {v : VersionEntry} {caps : Caps} {m : NegotiateAlgorithms}
    (hm : Requester.configToNegotiateAlgorithms c = .ok m) (h3 : 3 ≤ rsp.length) (hw : r.transcript.WF) :
    Calm (Requester.handle c cr (.algorithms v caps (some m)) rsp) r := by
  simp only [Requester.handle]
  refine Calm.bind_lift (expect_calm _ h3) fun _ _ => Calm.bind_lift (sliceFrom_calm h3) fun body _ => Calm.bind_lift (Algorithms.safe.parse body) fun a ha => ?_
  obtain ⟨bs, tail, hr, hwf, len, cs, hbs⟩ := Algorithms.inverts.parse ha
  refine Calm.bind_lift ?_ fun _ _ => extendPure_calm hw _ _
  unfold Requester.ensureValidAlgorithmsSelected
  simp only
  repeat' split
  all_goals first | rfl | skip
  obtain ⟨h1, h2, _⟩ := offer_wf hm
  refine ensureResponses_calm (by rw [h1, h2]; decide) _ _ ?_
  have := hwf.len
  have := hwf.num
  omega

theorem digestsRecv_calm {c : Cfg} {cr : Crypto} {rsp : Bytes} {r : Requester} {v : VersionEntry} {caps : Caps} {a : Algorithms} (h8 : c.numSlots ≤ 8)
    (hsz : rsp.take 2 = Wire.header .digests → ∃ ds, BaseHashAlgo.getDigestSize c a.baseHashAlgoSelected = .ok ds)
    (h3 : 3 ≤ rsp.length) (hw : r.transcript.WF) : Calm (Requester.handle c cr (.idAuth v caps a none) rsp) r := by
  simp only [Requester.handle]
  refine Calm.bind_lift (expect_calm _ h3) fun _ he => ?_
  obtain ⟨_, hh⟩ := expect_ok_inv he
  obtain ⟨ds, hds⟩ := hsz hh
  refine Calm.bind_lift (by rw [hds]; rfl) fun _ _ => Calm.bind_lift (sliceFrom_calm h3) fun body _ => Calm.bind_lift ((Digests.safe c h8 _).parse body) fun d _ => ?_
  exact extendPure_calm hw _ _

theorem certificateRecv_calm {c : Cfg} {cr : Crypto} {rsp : Bytes} {r : Requester} {v : VersionEntry} {caps : Caps} {a : Algorithms} {d : Digests}
    (h3 : 3 ≤ rsp.length) (hw : r.transcript.WF) : Calm (Requester.handle c cr (.idAuth v caps a (some d)) rsp) r := by
  simp only [Requester.handle]
  exact Calm.bind_lift (expect_calm _ h3) fun _ he => Calm.bind_lift (sliceFrom_calm h3) fun body _ => Calm.bind_lift ((Certificate.safe c).parse body) fun d _ =>
    extendPure_calm hw _ _

theorem checkSlot_calm {slot : UInt8} {m : ChallengeAuth} (h : m.slot.toNat < 8) : (Requester.checkSlot slot m).isPanic = false := by
  unfold Requester.checkSlot
  repeat' split
  all_goals first | rfl | skip
  unfold Requester.slotBit
  rw [if_pos h]
  simp only [Res.ok_bind]
  split <;> rfl

theorem chain_calm {c : Cfg} {cr : Crypto} {leaf root : Bytes} {algo : UInt32} {inters : List Bytes} {time : Nat} (hp : c.provider = true)
    (ha : algo = 0x10 ∨ algo = 0x80) : (cr.verifyChainOfTrust c leaf algo inters root time).isPanic = false := by
  unfold Crypto.verifyChainOfTrust
  have hs : Crypto.spdmToWebpki algo = .ok algo := by rcases ha with rfl | rfl <;> rfl
  rw [if_neg (by simp [hp]), hs]
  simp only [Res.ok_bind]
  repeat' split
  all_goals rfl

theorem challengeRecv_calm {c : Cfg} {cr : Crypto} {rsp : Bytes} {r : Requester} {s : ReqChallenge} {ds ss : Nat} (h8 : c.numSlots ≤ 8)
    (hds : BaseHashAlgo.getDigestSize c s.algorithms.baseHashAlgoSelected = .ok ds) (hss : BaseAsymAlgo.getSignatureSize c s.algorithms.baseAsymAlgoSelected = .ok ss)
    (hh : HashReady c cr s.algorithms.baseHashAlgoSelected)
    (ha : s.algorithms.baseAsymAlgoSelected = 0x10 ∨ s.algorithms.baseAsymAlgoSelected = 0x80) (hfit : EncoderFits c)
    (hp : (ChallengeAuth.parseBody c (rsp.drop 2) ds ss).isPanic = false) (hslot : ∀ b, rsp[2]? = some b → b.toNat % 16 ≠ 8)
    (hcs : s.certChainSize.toNat ≤ s.certChain.length)
    (hch : (CertificateChain.parse c (s.certChain.take s.certChainSize.toNat) ds).isPanic = false)
    (hv : ∀ m, ChallengeAuth.parseBody c (rsp.drop 2) ds ss = .ok m → rawR m.signature ≠ 0 ∧ rawS m.signature ≠ 0)
    (h3 : 3 ≤ rsp.length) (hw : r.transcript.WF) : Calm (Requester.challengeHandle c cr s rsp) r := by
  unfold Requester.challengeHandle
  refine Calm.bind_lift (expect_calm _ h3) fun _ he => ?_
  refine Calm.bind_lift (by rw [hds]; rfl) fun ds' e1 => ?_
  rw [hds, Res.ok.injEq] at e1; subst e1
  refine Calm.bind_lift (by rw [hss]; rfl) fun ss' e1 => ?_
  rw [hss, Res.ok.injEq] at e1; subst e1
  refine Calm.bind_lift (sliceFrom_calm h3) fun body hb => ?_
  obtain ⟨_, rfl⟩ := sliceFrom_inv hb
  refine Calm.bind_lift hp fun m hm => ?_
  obtain ⟨bs, rest, hbody, b, olen, hbs, hs0, -, hsl, -, -, -, -, hsig, -⟩ := (ChallengeAuth.inverts c ds ss).parse hm
  change rsp.drop 2 = bs ++ rest at hbody
  have hb2 : rsp[2]? = some b := by
    have : rsp[2]? = (rsp.drop 2)[0]? := by simp
    rw [this, hbody, hbs]; simp
  have hmslot : m.slot.toNat < 8 := by
    have h1 := hslot b hb2
    have h2 : m.slot.toNat = b.toNat % 16 := by rw [hs0, bitField_toNat _ _ _ (by omega)]; simp
    omega
  have hlen : ss ≤ rsp.length := by
    have := congrArg List.length hbody
    rw [hbs] at this
    simp at this; omega
  refine Calm.bind_lift (checkSlot_calm hmslot) fun _ _ => Calm.bind_lift (by rw [sliceTo_ok hcs]; rfl) fun cb hcb => ?_
  rw [sliceTo_ok hcs, Res.ok.injEq] at hcb; subst hcb
  refine Calm.bind_lift (by rw [hh.digest]; rfl) fun dg _ => ?_
  split
  · exact Calm.fail _ _
  refine Calm.bind_lift (by unfold Responder.subChecked; rw [if_pos hlen]; rfl) fun st hst => ?_
  obtain ⟨_, rfl⟩ := subChecked_inv hst
  refine Calm.bind_lift (by rw [sliceTo_ok (by omega)]; rfl) fun m2 _ => ?_
  refine Calm.bind (Requester.extend_calm hw _) fun _ r1 e1 => Calm.bind (by rfl) fun r2 r3 _ => ?_
  refine Calm.bind_lift (by rw [hh.digest]; rfl) fun mh _ => Calm.lift ?_ _
  unfold Requester.verifyCertChainAndSignature
  refine Calm.res_bind (by rw [sliceTo_ok hcs]; rfl) fun cb hcb => ?_
  rw [sliceTo_ok hcs, Res.ok.injEq] at hcb; subst hcb
  refine Calm.res_bind hch fun chain _ => Calm.res_bind ?_ fun leaf _ => Calm.res_bind (chain_calm hh.provider ha) fun _ _ => Calm.res_bind ?_ fun ok _ => ?_
  · unfold Crypto.newEndEntityCert; split <;> rfl
  · obtain ⟨hr, hs⟩ := hv m hm
    obtain ⟨g1, g2, g3, g4⟩ := hfit
    have hsz : m.signature.length ≤ c.maxSignatureSize := by
      obtain ⟨i, _, _, h⟩ := getSignatureSize_ok.mp hss
      omega
    obtain ⟨der, _, h⟩ := c52_nonzero_halves_partial c cr leaf mh (algo := s.algorithms.baseAsymAlgoSelected) hh.provider ha hsz g1 g2 g3 g4 hr hs
    rw [h]; rfl
  · split <;> rfl

/-! ### Requests -/

theorem writeTo_calm {t : MsgType} {body : W Nat} {layout : Bytes} (hw : Writes body id layout) (buf : Bytes) :
    (Requester.writeTo t body buf).isPanic = false := by
  by_cases hr : 2 + layout.length ≤ buf.length
  · rw [writeTo_run hw hr]; rfl
  · obtain ⟨e, out, he, _, hx⟩ := write_full (t := t) hw (buf := buf) (by omega)
    unfold Requester.writeTo
    rw [hx]; rfl

theorem reqFlags_calm (s : String) : (ReqFlags.fromStr s).isPanic = false := by unfold ReqFlags.fromStr; split <;> rfl
theorem baseAsym_calm (s : String) : (BaseAsymAlgo.fromStr s).isPanic = false := by unfold BaseAsymAlgo.fromStr; split <;> rfl

theorem send_calm {t : MsgType} {body : W Nat} {layout buf : Bytes} (hw : Writes body id layout) {f : Bytes → M Requester Bytes} {r : Requester}
    (hf : ∀ out, Calm (f out) r) : Calm (M.lift (Requester.writeTo t body buf) >>= f) r :=
  Calm.bind_lift (writeTo_calm hw buf) fun out _ => hf out

theorem setState_inv {s : ReqState} {r r' : Requester} {u : Unit} (e : Requester.setState s r = (.ok u, r')) : r'.transcript = r.transcript := by
  simp only [Requester.setState, Prod.mk.injEq] at e
  rw [← e.2]

theorem extendOut_calm {r : Requester} (hw : r.transcript.WF) (bs : Bytes) : Calm (do Requester.extend bs; pure bs : M Requester Bytes) r :=
  Calm.bind (Requester.extend_calm hw bs) fun _ _ _ => Calm.pure _ _

theorem writeReq_calm {c : Cfg} {env : Env} {st : ReqState} {buf : Bytes} {r : Requester} (h0 : 0 < c.numSlots) (hw : r.transcript.WF)
    (he : st ≠ .error) (hn : st ≠ .newSession) : Calm (Requester.writeReq c env st buf) r := by
  cases st with
  | version =>
    simp only [Requester.writeReq]
    refine send_calm GetVersion.writes fun out => Calm.bind (by rfl) fun _ r1 e1 => ?_
    have : r1.transcript.WF := by
      simp only [Requester.clear, Prod.mk.injEq] at e1
      rw [← e1.2]; exact Transcript.clear_wf _
    exact extendOut_calm this _
  | capabilities v ct cap =>
    simp only [Requester.writeReq]
    refine Calm.bind_lift ?_ fun m _ => send_calm (GetCapabilities.writes m) fun out => ?_
    · exact Calm.res_bind (parseFlags_calm reqFlags_calm _ _) fun _ _ => rfl
    · exact Calm.bind (Requester.extend_calm hw _) fun _ _ _ => Calm.bind (by rfl) fun _ _ _ => Calm.pure _ _
  | algorithms v caps o =>
    simp only [Requester.writeReq]
    refine Calm.bind_lift ?_ fun m hm => ?_
    · exact Calm.res_bind (parseFlags_calm baseAsym_calm _ _) fun _ _ => rfl
    obtain ⟨o1, o2, _⟩ := offer_wf hm
    refine send_calm (NegotiateAlgorithms.writes (m := m) (by rw [o1]; rfl) (by rw [o2]; decide)) fun out => ?_
    exact Calm.bind (by rfl) fun _ r1 e1 => extendOut_calm (by rw [setState_inv e1]; exact hw) _
  | idAuth v caps a o =>
    cases o with
    | none => simp only [Requester.writeReq]; exact send_calm GetDigests.writes fun out => extendOut_calm hw _
    | some d =>
      simp only [Requester.writeReq]
      rw [if_neg (not_not.mpr h0)]
      exact send_calm (GetCertificate.writes _) fun out => extendOut_calm hw _
  | challenge s =>
    simp only [Requester.writeReq]
    exact Calm.bind (by rfl) fun _ r1 e1 => send_calm (Challenge.writes _) fun out => extendOut_calm (by rw [setState_inv e1]; exact hw) _
  | error => simp at he
  | newSession => simp at hn

end Spdm
