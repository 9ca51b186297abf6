import Verif.Lemmas.ErrMachine
import Verif.Spec.Errors
import Verif.Props.BitNames
import Verif.Props.Sizes
import Verif.Props.Faults2
/-! C106: the error values a requester returns. -/
namespace Spdm
open Spec

/-! ### Errors of programs with the callers' errors -/

/-- Every error of `t` at `s` satisfies `S`. -/
def TErrAt {ε σ α : Type} (S : ε → Prop) (t : TM ε σ α) (s : σ) : Prop := ∀ d, (t s).1 = .err d → S d

namespace TErrAt
variable {ε δ σ α β : Type} {S : ε → Prop} {s : σ}

theorem pure (a : α) : TErrAt S (Pure.pure a : TM ε σ α) s := by
  intro d h
  have h' : (TM.pure a s : Out ε α × σ).1 = .err d := h
  simp [TM.pure] at h'
theorem die (k : PanicKind) : TErrAt S (TM.die k : TM ε σ α) s := by intro d h; simp [TM.die] at h
theorem fail {d : ε} (h : S d) : TErrAt S (TM.fail d : TM ε σ α) s := by
  intro d' h'
  simp only [TM.fail, Out.err.injEq] at h'
  exact h' ▸ h
theorem bind {t : TM ε σ α} {q : α → TM ε σ β} (ht : TErrAt S t s) (hq : ∀ a s', t s = (.ok a, s') → TErrAt S (q a) s') : TErrAt S (t >>= q) s := by
  intro d h
  have h' : (TM.bind t q s).1 = .err d := h
  simp only [TM.bind] at h'
  rcases hx : t s with ⟨x, s'⟩
  rw [hx] at h'
  cases x with
  | ok a => exact hq a s' hx d h'
  | err e =>
    simp only [Out.err.injEq] at h'
    exact ht d (by rw [hx, h'])
  | panic k => simp at h'
theorem of {f : Err → ε} {m : M σ α} (h : ∀ e, (m s).1 = .err e → S (f e)) : TErrAt S (TM.of f m) s := by
  intro d hd
  simp only [TM.of] at hd
  rcases hx : m s with ⟨x, s'⟩
  rw [hx] at hd h
  cases x with
  | ok a => simp at hd
  | err e => simp only [Out.err.injEq] at hd; exact hd ▸ h e rfl
  | panic k => simp at hd
/-- A call that keeps the state. -/
theorem ofLift {f : Err → ε} {x : Res α} {q : α → TM ε σ β} (h : ∀ e, x = .err e → S (f e)) (hq : ∀ a, x = .ok a → TErrAt S (q a) s) : TErrAt S (TM.of f (M.lift x) >>= q) s := by
  refine bind (of h) fun a s' ha => ?_
  cases x with
  | ok b =>
    simp only [TM.of, M.lift, Prod.mk.injEq, Out.ok.injEq] at ha
    obtain ⟨rfl, rfl⟩ := ha
    exact hq b rfl
  | err e => simp [TM.of, M.lift] at ha
  | panic k => simp [TM.of, M.lift] at ha
theorem viaLift {f : δ → ε} {x : Out δ α} {q : α → TM ε σ β} (h : ∀ e, x = .err e → S (f e)) (hq : ∀ a, x = .ok a → TErrAt S (q a) s) :
    TErrAt S (TM.via f (TM.lift x) >>= q) s := by
  refine bind (fun d hd => ?_) fun a s' ha => ?_
  · cases x with
    | ok b => simp [TM.via, TM.lift] at hd
    | err e => simp only [TM.via, TM.lift, Out.err.injEq] at hd; exact hd ▸ h e rfl
    | panic k => simp [TM.via, TM.lift] at hd
  · cases x with
    | ok b =>
      simp only [TM.via, TM.lift, Prod.mk.injEq, Out.ok.injEq] at ha
      obtain ⟨rfl, rfl⟩ := ha
      exact hq b rfl
    | err e => simp [TM.via, TM.lift] at ha
    | panic k => simp [TM.via, TM.lift] at ha
theorem ite {c : Prop} [Decidable c] {p q : TM ε σ α} (hp : TErrAt S p s) (hq : TErrAt S q s) : TErrAt S (if c then p else q) s := by
  by_cases h : c
  · simp only [if_pos h]; exact hp
  · simp only [if_neg h]; exact hq
theorem mono {T : ε → Prop} {t : TM ε σ α} (h : TErrAt T t s) (ht : ∀ d, T d → S d) : TErrAt S t s := fun d hd => ht d (h d hd)
end TErrAt

variable {c : Cfg} {cr : Crypto} {root : Bytes} {offer : NegotiateAlgorithms} {acc : List Bytes} {l : Log} {cap : Nat} {rsp : Bytes} {es : List ReqEvent} {r : Requester}

/-! ### What each state can return -/

/-- The values that are possible after the accepted responses `acc`, with what is known about the response. -/
inductive Possible (c : Cfg) (acc : List Bytes) (l : Log) (rsp : Bytes) : Nat → RequesterError → Prop
  | header (n : Nat) : Possible c acc l rsp n (headerError n rsp)
  | full (n : Nat) : Possible c acc l rsp n .bufferFull
  | version (e : ParseVersionError) (h : Faults.First (Faults.version (rsp.drop 2)) (.error e)) : Possible c acc l rsp 0 (.parseVersion e)
  | unsupported (v : Version) (h : Means c l rsp (.version v)) : Possible c acc l rsp 0 (.noSupportedVersions v)
  | capabilities (e : ParseCapabilitiesError) (h : Faults.First (Faults.capabilities (rsp.drop 2)) (.error e)) : Possible c acc l rsp 1 .parseCapabilities
  | algorithms (e : ParseAlgorithmsError) (h : Faults.First (Faults.algorithms (rsp.drop 2)) (.error e)) : Possible c acc l rsp 2 (.parseAlgorithms e)
  | selection : Possible c acc l rsp 2 .selectedAlgorithmNotRequested
  | digests (e : ReadError) (h : Faults.First (Faults.digests c (sizeFor digestSizes l.hash) (rsp.drop 2)) (.error e)) : Possible c acc l rsp 3 (.read e)
  | certificate (e : ParseCertificateError) (h : Faults.First (Faults.certificate c (rsp.drop 2)) (.error e)) : Possible c acc l rsp 4 (.parseCert e)
  | auth (e : ParseChallengeAuthError) (hx : Faults.First (Faults.challengeAuth c (sizeFor digestSizes l.hash) (sizeFor signatureSizes l.asym) (rsp.drop 2)) (.error e))
      (h : ¬ ∃ m, Means c l rsp m) : Possible c acc l rsp 5 (.parseChallengeAuth e)
  | slot : Possible c acc l rsp 5 (.challengeAuth .incorrectSlot)
  | mask : Possible c acc l rsp 5 (.challengeAuth .slotNotInMask)
  | digest : Possible c acc l rsp 5 (.challengeAuth .digestMismatch)
  | chain (e : ParseCertificateChainError) (cert : Bytes) (hc : acc[4]? = some cert)
      (hx : Faults.First (Faults.chain c (sizeFor digestSizes l.hash) (carriedChain cert)) (.error e)) (h : ∃ m, Means c l rsp m) : Possible c acc l rsp 5 (.parseCertChain e)
  | trust : Possible c acc l rsp 5 .invalidCert
  | signature : Possible c acc l rsp 5 (.challengeAuth .invalidSignature)

theorem first_of_err {ε α : Type} {f : Err → ε} {x : Res α} {cs : Faults.Checks ε} {e : Err} (h : Faults.Outcome cs (Out.of f x)) (he : x = .err e) :
    Faults.First cs (.error (f e)) := by subst he; exact h

theorem first_of_errT {ε α : Type} {x : Out ε α} {cs : Faults.Checks ε} {e : ε} (h : Faults.Outcome cs x) (he : x = .err e) :
    Faults.First cs (.error e) := by subst he; exact h

/-- The error of `expect`, exactly. -/
theorem expect_value {t : MsgType} {n : Nat} (hn : responseHeader n = Wire.header t) {e : Err} (he : Responder.expect t rsp = .err e) : Requester.expectErr e = headerError n rsp := by
  have hh : Wire.header t = [t.spdmVersion, t.spdmCode] := by cases t <;> rfl
  unfold headerError
  rw [hn, hh]
  match rsp with
  | [] => simp [Responder.expect, MsgType.parseHeader] at he
  | [_] => simp [Responder.expect, MsgType.parseHeader] at he
  | [_, _] => simp [Responder.expect, MsgType.parseHeader] at he
  | b0 :: b1 :: b2 :: rest =>
    simp only [Responder.expect, MsgType.parseHeader, List.getElem?_cons_zero, List.getElem?_cons_succ, List.length_cons] at he
    rw [if_neg (by omega)] at he
    by_cases h1 : b1 = t.spdmCode
    · rw [if_neg (by simpa using h1)] at he
      by_cases h0 : b0 = t.spdmVersion
      · rw [if_pos h0] at he; simp at he
      · rw [if_neg h0] at he
        simp only [Res.err.injEq] at he
        subst he
        simp [h1, Requester.expectErr]
    · rw [if_pos h1] at he
      simp only [Spdm.index, List.getElem?_cons_zero] at he
      have he' : Err.unexpectedMsg t.spdmCode b0 = e := by simpa using he
      subst he'
      simp [h1, Requester.expectErr]

section handlers
variable (h0 : 0 < c.numSlots) (h8 : c.numSlots ≤ 8)

theorem sliceFrom_T {S : RequesterError → Prop} {β : Type} {q : Bytes → TM RequesterError Requester β} (hq : TErrAt S (q (rsp.drop 2)) r) :
    TErrAt S (Requester.quiet (M.lift (sliceFrom rsp headerSize)) >>= q) r :=
  .ofLift (fun e he => ((RErrIn.sliceFrom (S := fun _ => False) _ _) e he).elim) fun a ha => by
    obtain ⟨_, rfl⟩ := sliceFrom_inv ha
    exact hq

theorem quiet_T {S : RequesterError → Prop} {α β : Type} {x : Res α} (hx : RErrIn (fun _ => False) x) {q : α → TM RequesterError Requester β} (hq : ∀ a, x = .ok a → TErrAt S (q a) r) :
    TErrAt S (Requester.quiet (M.lift x) >>= q) r := .ofLift (fun e he => (hx e he).elim) hq

theorem extend_T {S : RequesterError → Prop} {β : Type} {b : Bytes} (hS : S .bufferFull) {q : Unit → TM RequesterError Requester β} (hq : ∀ s, TErrAt S (q ()) s) :
    TErrAt S (Requester.extendT b >>= q) r := .bind (.of fun _ _ => hS) fun _ s _ => hq s

theorem expect_T {t : MsgType} {n : Nat} (hn : responseHeader n = Wire.header t) {β : Type} {q : Unit → TM RequesterError Requester β}
    (hq : rsp.take 2 = Wire.header t → TErrAt (Possible c acc l rsp n) (q ()) r) : TErrAt (Possible c acc l rsp n) (TM.of Requester.expectErr (M.lift (Responder.expect t rsp)) >>= q) r :=
  .ofLift (fun e he => by rw [expect_value hn he]; exact .header n) fun _ ha => hq (expect_ok_inv ha).2

include h0 h8

theorem handleT_possible {st : ReqState} (hmat : StMatch c acc l st) : TErrAt (Possible c acc l rsp acc.length) (Requester.handleT c cr st rsp) r := by
  unfold Requester.handleT
  cases hmat with
  | version =>
    refine expect_T (n := 0) rfl fun hh => sliceFrom_T (.ofLift (fun e he => .version _ (first_of_err (c108_version _) he)) fun v hv => quiet_T (findMax_errs v) fun o _ => ?_)
    cases o with
    | none => exact .fail (.unsupported v (by rw [means_iff h0 h8 hh]; exact congrArg (Res.map AnyMsg.version) hv))
    | some e => exact extend_T (.full 0) fun _ => .pure _
  | capabilities =>
    refine expect_T (n := 1) rfl fun hh => sliceFrom_T (.ofLift (fun e he => .capabilities _ (first_of_err (c108_capabilities _) he)) fun v hv => extend_T (.full 1) fun _ => ?_)
    exact quiet_T (unwrap_errs _) fun _ _ => quiet_T (unwrap_errs _) fun _ _ => .pure _
  | algorithms =>
    refine expect_T (n := 2) rfl fun hh => sliceFrom_T (.viaLift (fun e he => .algorithms e (first_of_errT (c108_algorithms _) he)) fun a ha => ?_)
    exact .bind (.of fun _ _ => .selection) fun _ _ _ => extend_T (.full 2) fun _ => .pure _
  | digests _ _ _ hw =>
    refine expect_T (n := 3) rfl fun hh => quiet_T (digestSize_errs _ _) fun n hds => sliceFrom_T (.ofLift (fun e he => ?_) fun d _ => extend_T (.full 3) fun _ => .pure _)
    obtain ⟨x, rfl⟩ := Digests.parseBody_errs _ _ _ e he
    have hds' : sizeFor digestSizes l.hash = n := by rw [hw.hash]; exact getDigestSize_sizeFor hds
    subst hds'
    exact .digests x (first_of_err (c108_digests h8 _ _) he)
  | certificate =>
    exact expect_T (n := 4) rfl fun hh => sliceFrom_T (.ofLift (fun e he => .certificate _ (first_of_err (c108_certificate c _) he)) fun d _ => extend_T (.full 4) fun _ => .pure _)
  | @challenge _ m0 m1 m2 m3 m4 tail s cert _ _ _ hwd _ _ _ h4 hcw _ hc hz =>
    refine .bind ?_ fun _ _ _ => .pure _
    unfold Requester.challengeHandleT
    refine expect_T (n := 5) rfl fun hh => quiet_T (digestSize_errs _ _) fun ds hds => quiet_T (signatureSize_errs _ _) fun ss hss => sliceFrom_T ?_
    have hds' : sizeFor digestSizes l.hash = ds := by rw [hwd.hash]; exact getDigestSize_sizeFor hds
    have hss' : sizeFor signatureSizes l.asym = ss := by rw [hwd.asym]; exact getSignatureSize_sizeFor hss
    have hsame : Same (fun e d => e = ParseChallengeAuthError.flat d) (ChallengeAuth.parseBody c (rsp.drop 2) ds ss) (ChallengeAuth.parseBodyT c (rsp.drop 2) ds ss) :=
      (ChallengeAuth.readT_agrees c ds ss).run (Reader.new (rsp.drop 2))
    have hp : AnyMsg.parse c ⟨sizeFor digestSizes l.hash, sizeFor signatureSizes l.asym, false⟩ .challengeAuth (rsp.drop 2) =
        (ChallengeAuth.parseBody c (rsp.drop 2) ds ss).map AnyMsg.challengeAuth := by rw [hds', hss']; rfl
    refine .viaLift (fun e he => ?_) fun m hm => ?_
    · refine .auth e (by rw [hds', hss']; exact first_of_errT (c108_challengeAuth c _ _ _) he) (no_means h0 h8 hh ?_)
      rw [hp]
      rw [he] at hsame
      generalize ChallengeAuth.parseBody c (rsp.drop 2) ds ss = x at hsame
      cases hsame
      rfl
    · have hmean : ∃ m, Means c l rsp m := by
        refine ⟨.challengeAuth m, (means_iff h0 h8 hh).mpr ?_⟩
        rw [hp]
        rw [hm] at hsame
        generalize ChallengeAuth.parseBody c (rsp.drop 2) ds ss = x at hsame
        cases hsame
        rfl
      refine .bind ?_ fun _ _ _ => ?_
      · unfold Requester.checkSlotT
        refine .ite (.fail .slot) (.ite (quiet_T (slotBit_errs _) fun b _ => .ite (.fail .mask) (.pure _)) (.pure _))
      · refine quiet_T (RErrIn.sliceTo _ _) fun _ _ => quiet_T (digest_errs _ _ _ _) fun _ _ => .ite (.fail .digest) ?_
        refine quiet_T (subChecked_errs _ _) fun _ _ => quiet_T (RErrIn.sliceTo _ _) fun _ _ => extend_T (.full 5) fun _ => ?_
        refine .bind (fun d hd => by simp [TM.get] at hd) fun _ _ _ => quiet_T (digest_errs _ _ _ _) fun _ _ => ?_
        unfold Requester.verifyT
        refine quiet_T (RErrIn.sliceTo _ _) fun cb hcb => .ofLift (fun e he => .chain _ m4 rfl ?_ hmean) fun ch _ => .ofLift (fun e he => .trust) fun leaf _ => .ofLift (fun e he => .trust) fun _ _ => ?_
        · subst h4
          have hcarr := served_chain (c := c) hcw (tail := tail)
          rw [← hc, ← hz, ← (sliceTo_inv hcb).2] at hcarr
          rw [hcarr, hds']
          exact first_of_err (c108_chain c _ _) he
        · exact quiet_T (verifySig_errs _ _ _ _ _ _) fun ok _ => .ite (.pure _) (.fail .signature)
  | done => exact .die _

end handlers

/-! ### From the first failure to the value -/

theorem Spec.Reports.of {ps : List (Prop × Complaint)} {qs : List (RequesterError → Prop)} {k : Complaint} {d : RequesterError} (h : FirstFailed ps k)
    (hq : ∀ i p, ps[i]? = some (p, k) → ¬ p → (∀ (j : Nat) (q : Prop × Complaint), j < i → ps[j]? = some q → q.1) → ∃ Q, qs[i]? = some Q ∧ Q d)
    (hl : qs.length = ps.length) : Reports (ps.map (·.1)) qs d := by
  induction h generalizing qs with
  | @here p k ps hn =>
    obtain ⟨Q, h1, h2⟩ := hq 0 p rfl hn (fun j q hj => absurd hj (by omega))
    cases qs with
    | nil => simp at h1
    | cons q qs =>
      simp only [List.getElem?_cons_zero, Option.some.injEq] at h1
      subst h1
      exact .here hn h2
  | @later p k k' ps hp _ ih =>
    cases qs with
    | nil => simp at hl
    | cons q qs =>
      refine .later hp (ih (fun i p' h1 h2 h3 => ?_) (by simpa using hl))
      obtain ⟨Q, g1, g2⟩ := hq (i + 1) p' (by simpa using h1) h2 (fun j q hj hq' => by
        cases j with
        | zero => simp only [List.getElem?_cons_zero, Option.some.injEq] at hq'; subst hq'; exact hp
        | succ j => exact h3 j q (by omega) (by simpa using hq'))
      exact ⟨Q, by simpa using g1, g2⟩

/-- What the value complains about. -/
def complaintOf : RequesterError → Complaint
  | .unexpectedMsgCode _ _ => .header
  | .parseHeader => .header
  | .noSupportedVersions _ => .version
  | .selectedAlgorithmNotRequested => .selection
  | .challengeAuth .incorrectSlot => .slot
  | .challengeAuth .slotNotInMask => .mask
  | .challengeAuth .digestMismatch => .digest
  | .challengeAuth .invalidSignature => .signature
  | .bufferFull => .room
  | .invalidCert => .trust
  | .challengeAuth (.pki _) => .trust
  | _ => .encoding

theorem complaint_same {e : Err} {d : RequesterError} (h : ReqSame e d) : complaint e = complaintOf d := by
  have req : ∀ x : ParseAlgorithmRequestError, complaint x.flat = .encoding := by intro x; cases x <;> rfl
  have vid : ∀ x : ParseVendorIdError, complaint x.flat = .encoding := by intro x; cases x <;> rfl
  have elem : ∀ x : ParseOpaqueElementError, complaint x.flat = .encoding := by
    intro x; cases x with
    | parseVendorId e => exact vid e
    | _ => rfl
  have opq : ∀ x : ParseOpaqueDataError, complaint x.flat = .encoding := by
    intro x; cases x with
    | parseOpaqueElement e => exact elem e
    | _ => rfl
  have auth : ∀ x : ParseChallengeAuthError, complaint x.flat = .encoding := by
    intro x; cases x with
    | parseOpaqueData e => exact opq e
    | _ => rfl
  have algs : ∀ x : ParseAlgorithmsError, complaint x.flat = .encoding := by
    intro x; cases x with
    | algorithmsRequest e => exact req e
    | algorithmsResponse e => cases e <;> rfl
    | _ => rfl
  cases d with
  | selectedAlgorithmNotRequested => obtain ⟨n, rfl⟩ := h; rfl
  | invalidCert => obtain ⟨n, rfl⟩ := h; rfl
  | parseCapabilities => rcases h with ⟨x, rfl⟩ | rfl <;> rfl
  | challengeAuth x =>
    have h' : e = x.flat := h
    subst h'
    cases x with
    | parseChallengeAuth y => exact auth y
    | _ => rfl
  | parseCert x => have h' : e = x.flat := h; subst h'; cases x <;> rfl
  | parseAlgorithms x => have h' : e = x.flat := h; subst h'; exact algs x
  | parseChallengeAuth x => have h' : e = x.flat := h; subst h'; exact auth x
  | parseVersion x => have h' : e = x.flat := h; subst h'; cases x <;> rfl
  | parseCertChain x => have h' : e = x.flat := h; subst h'; cases x <;> rfl
  | _ => have h' : e = _ := h; subst h'; rfl

theorem complaintOf_header (n : Nat) : complaintOf (headerError n rsp) = .header := by unfold headerError; split <;> rfl

/-- The value is one of those for the first check that fails. -/
theorem reports_of {d : RequesterError} (hp : Possible c acc l rsp acc.length d) (h : FirstFailed (checks c cr root offer acc l cap rsp) (complaintOf d)) :
    Reports ((checks c cr root offer acc l cap rsp).map (·.1)) (reported c acc l rsp) d := by
  refine .of h (fun i p hi hn hb => ?_) rfl
  have h1 : 1 < i → ∃ m, Means c l rsp m := fun hj => hb 1 _ hj rfl
  unfold checks at hi
  match i with
  | 0 | 1 | 2 | 3 | 4 | 5 | 6 | 7 | 8 | 9 | 10 =>
    refine ⟨_, rfl, ?_⟩
    simp only [List.getElem?_cons_zero, List.getElem?_cons_succ, Option.some.injEq, Prod.mk.injEq] at hi
    obtain ⟨hp1, hk⟩ := hi
    generalize hlen : acc.length = n at hp
    cases hp
    case header => have hk' := hk.trans (complaintOf_header _); first | exact absurd hk' (by decide) | rfl
    all_goals first
      | (simp [complaintOf] at hk; done)
      | rfl
      | exact ⟨_, rfl⟩
      | (exact ⟨_, ‹_›, rfl⟩)
      | (exact ⟨_, rfl, ‹_›⟩)
      | (exact ⟨rfl, _, ‹_›⟩)
      | (exact ⟨_, _, ‹_›, rfl, ‹_›⟩)
      | (rename_i hmean; exact absurd (h1 (by omega)) hmean)
      | (exact absurd (hp1 ▸ fun m cert _ h4 => by rw [List.getElem?_eq_none (by omega)] at h4; cases h4) hn)
      | (rename_i hmean; exact absurd hmean (by rw [hp1]; exact hn))
  | n + 11 => simp at hi

/-- C106: the `RequesterError` that `handle_msg` returns is one of the values for the first check that fails. -/
theorem c106_reason (h0 : 0 < c.numSlots) (h8 : c.numSlots ≤ 8) (ho : Requester.configToNegotiateAlgorithms c = .ok offer) (h : ReqRun c cr root es r) (hf : failed es = false)
    {d : RequesterError} (hd : (Requester.handleMsgT c cr rsp r).1 = .err d) :
    Reports ((checks c cr root offer (accepted es) (conversation (reqMsgs es)) c.transcriptSize rsp).map (·.1)) (reported c (accepted es) (conversation (reqMsgs es)) rsp) d := by
  obtain ⟨hs, _⟩ := Requester.handleMsg_agrees c cr rsp r
  rw [hd] at hs
  generalize hx : (Requester.handleMsg c cr rsp r).1 = x at hs
  cases hs with
  | @err e _ hsame =>
    have h1 := c88_reason h0 h8 ho h hf hx
    rw [complaint_same hsame] at h1
    refine reports_of ?_ h1
    obtain ⟨st, hl⟩ := req_live' h hf
    unfold Requester.handleMsgT at hd
    rw [hl.state] at hd
    simp only at hd
    have key := handleT_possible (r := { r with state := none }) (cr := cr) (rsp := rsp) h0 h8 hl.mat
    rcases hy : Requester.handleT c cr st rsp { r with state := none } with ⟨y | y | y, r'⟩
    · rw [hy] at hd; simp at hd
    · rw [hy] at hd
      simp only [Out.err.injEq] at hd
      rw [← hd]
      exact key y (by rw [hy])
    · rw [hy] at hd; simp at hd


/-! ### When a value is returned at all -/

theorem FirstFailed.some_fails {ps : List (Prop × Complaint)} {k : Complaint} (h : FirstFailed ps k) : ∃ p ∈ ps, ¬ p.1 := by
  induction h with
  | here h => exact ⟨_, .head _, h⟩
  | later _ _ ih => obtain ⟨p, h1, h2⟩ := ih; exact ⟨p, .tail _ h1, h2⟩

theorem FirstFailed.exists {ps : List (Prop × Complaint)} (h : ∃ p ∈ ps, ¬ p.1) : ∃ k, FirstFailed ps k := by
  induction ps with
  | nil => obtain ⟨p, h1, _⟩ := h; cases h1
  | cons x xs ih =>
    obtain ⟨p, k⟩ := x
    by_cases hp : p
    · obtain ⟨q, h1, h2⟩ := h
      rcases List.mem_cons.mp h1 with rfl | h1
      · exact absurd hp h2
      · obtain ⟨k', h'⟩ := ih ⟨q, h1, h2⟩
        exact ⟨k', .later hp h'⟩
    · exact ⟨k, .here hp⟩

/-- The machine with the callers' errors accepts what the flat one accepts, aborts when it aborts, fails when it fails with the same error, and goes on in the same state. -/
structure SameCall {α : Type} (x : Res α × Requester) (y : Out RequesterError α × Requester) : Prop where
  ok : ∀ a, y.1 = .ok a ↔ x.1 = .ok a
  panic : ∀ k, y.1 = .panic k ↔ x.1 = .panic k
  err : ∀ d, y.1 = .err d → ∃ e, x.1 = .err e ∧ ReqSame e d
  err' : ∀ e, x.1 = .err e → ∃ d, y.1 = .err d ∧ ReqSame e d
  state : y.2 = x.2

theorem SameCall.of {α : Type} {m : M Requester α} {t : TM RequesterError Requester α} (h : Agrees ReqSame m t) (r : Requester) : SameCall (m r) (t r) := by
  obtain ⟨h1, h2⟩ := h r
  generalize (m r).1 = x at h1
  rcases hm : m r with ⟨mx, ms⟩
  rcases ht : t r with ⟨tx, ts⟩
  obtain ⟨h1, h2⟩ := h r
  rw [hm, ht] at h1 h2
  dsimp only at h1 h2
  subst h2
  cases h1 with
  | ok a => exact ⟨fun b => by simp, fun k => by simp, fun d hd => by simp at hd, fun e he => by simp at he, rfl⟩
  | err hs => exact ⟨fun b => by simp, fun k => by simp, fun d hd => by simp at hd; exact ⟨_, rfl, hd ▸ hs⟩, fun e he => by simp at he; exact ⟨_, rfl, he ▸ hs⟩, rfl⟩
  | panic k => exact ⟨fun b => by simp, fun k => by simp, fun d hd => by simp at hd, fun e he => by simp at he, rfl⟩

/-- C106: the values of `handle_msg` aside, every theorem about the requester holds for the machine with the callers' errors: it does the same. -/
theorem c106_same_handle (c : Cfg) (cr : Crypto) (rsp : Bytes) (r : Requester) : SameCall (Requester.handleMsg c cr rsp r) (Requester.handleMsgT c cr rsp r) :=
  .of (Requester.handleMsg_agrees c cr rsp) r

/-- C106: and so for `next_request`. -/
theorem c106_same_next (c : Cfg) (env : Env) (buf : Bytes) (r : Requester) : SameCall (Requester.nextRequest c env buf r) (Requester.nextRequestT c env buf r) :=
  .of (Requester.nextRequest_agrees c env buf) r

/-- C106: an error is returned exactly if a check fails and the call does not abort. -/
theorem c106_iff (h0 : 0 < c.numSlots) (h8 : c.numSlots ≤ 8) (henc : EncoderFits c) (ho : Requester.configToNegotiateAlgorithms c = .ok offer) (h : ReqRun c cr root es r)
    (hf : failed es = false) (rsp : Bytes) :
    (∃ d, (Requester.handleMsgT c cr rsp r).1 = .err d) ↔
      (∃ p ∈ checks c cr root offer (accepted es) (conversation (reqMsgs es)) c.transcriptSize rsp, ¬ p.1) ∧
        ¬ ResponseAborts c cr root (pending es) (offerMade es) (accepted es) (conversation (reqMsgs es)) rsp := by
  have hs := c106_same_handle c cr rsp r
  constructor
  · rintro ⟨d, hd⟩
    obtain ⟨e, he, _⟩ := hs.err d hd
    obtain ⟨h1, h2⟩ := (c88_iff h0 h8 henc ho h hf rsp (complaint e)).mp ⟨e, he, rfl⟩
    exact ⟨h1.some_fails, h2⟩
  · rintro ⟨h1, h2⟩
    obtain ⟨k, hk⟩ := FirstFailed.exists h1
    obtain ⟨e, he, _⟩ := (c88_iff h0 h8 henc ho h hf rsp k).mpr ⟨hk, h2⟩
    obtain ⟨d, hd, _⟩ := hs.err' e he
    exact ⟨d, hd⟩

/-- C106 under a configuration the build accepts. -/
theorem c106_built {crypto : Bool} {i : SpdmConfig} {nonceSize : Nat} (hv : ValidConfig crypto i) (hb : Built crypto i nonceSize c) (h : ReqRun c cr root es r)
    (hf : failed es = false) (rsp : Bytes) :
    ((∃ d, (Requester.handleMsgT c cr rsp r).1 = .err d) ↔
      (∃ p ∈ checks c cr root (builtOffer crypto i) (accepted es) (conversation (reqMsgs es)) i.transcriptBufSize rsp, ¬ p.1) ∧
        ¬ ResponseAborts c cr root (pending es) (offerMade es) (accepted es) (conversation (reqMsgs es)) rsp) ∧
    ∀ d, (Requester.handleMsgT c cr rsp r).1 = .err d →
      Reports ((checks c cr root (builtOffer crypto i) (accepted es) (conversation (reqMsgs es)) i.transcriptBufSize rsp).map (·.1))
        (reported c (accepted es) (conversation (reqMsgs es)) rsp) d := by
  have h0 : 0 < c.numSlots := by rw [hb.numSlots]; exact hv.slots.1
  have h8 : c.numSlots ≤ 8 := by rw [hb.numSlots]; exact hv.slots.2
  rw [← hb.transcriptSize]
  exact ⟨c106_iff h0 h8 (by unfold EncoderFits; rw [hb.maxSignatureSize]; decide) (built_offer hv hb) h hf rsp, fun d hd => c106_reason h0 h8 (built_offer hv hb) h hf hd⟩

theorem Spec.Reports.one {ps : List Prop} {qs : List (RequesterError → Prop)} {d : RequesterError} (h : Reports ps qs d) : ∃ Q ∈ qs, Q d := by
  induction h with
  | here _ h => exact ⟨_, .head _, h⟩
  | later _ _ ih => obtain ⟨Q, h1, h2⟩ := ih; exact ⟨Q, .tail _ h1, h2⟩

/-- C106: six kinds of `RequesterError` are never returned by `handle_msg`, among them two of the six `ChallengeAuth` ones: a CHALLENGE_AUTH that cannot be decoded is
reported as `ParseChallengeAuth` and a certificate that is not trusted as `InvalidCert`, not inside `ChallengeAuth`. -/
theorem c106_never (h0 : 0 < c.numSlots) (h8 : c.numSlots ≤ 8) (ho : Requester.configToNegotiateAlgorithms c = .ok offer) (h : ReqRun c cr root es r) (hf : failed es = false)
    {d : RequesterError} (hd : (Requester.handleMsgT c cr rsp r).1 = .err d) :
    (∀ e, d ≠ .challengeAuth (.parseChallengeAuth e)) ∧ (∀ e, d ≠ .challengeAuth (.pki e)) ∧ d ≠ .parseBaseAsymAlgo ∧ d ≠ .parseBaseHashAlgo ∧ d ≠ .parseCapability ∧
      d ≠ .initializationComplete := by
  obtain ⟨Q, hQ, hq⟩ := (c106_reason h0 h8 ho h hf hd).one
  have hu : ∀ n d, Undecodable c (conversation (reqMsgs es)) rsp n d → (∀ e, d ≠ .challengeAuth e) ∧ d ≠ .parseBaseAsymAlgo ∧ d ≠ .parseBaseHashAlgo ∧ d ≠ .parseCapability ∧ d ≠ .initializationComplete := by
    intro n d hd
    match n with
    | 1 => obtain ⟨rfl, _⟩ := hd; simp
    | 0 | 2 | 3 | 4 | n + 5 => obtain ⟨e, rfl, _⟩ := hd; simp
  simp only [reported, List.mem_cons, List.not_mem_nil, or_false] at hQ
  rcases hQ with rfl | rfl | rfl | rfl | rfl | rfl | rfl | rfl | rfl | rfl | rfl
  · subst hq; unfold headerError; split <;> simp
  · obtain ⟨g1, g2⟩ := hu _ _ hq; exact ⟨fun e => g1 _, fun e => g1 _, g2⟩
  · obtain ⟨v, _, rfl⟩ := hq; simp
  · subst hq; simp
  · subst hq; simp
  · subst hq; simp
  · subst hq; simp
  · subst hq; simp
  · obtain ⟨e, cert, _, rfl, _⟩ := hq; simp
  · subst hq; simp
  · subst hq; simp

/-! ### `next_request` -/

theorem parseFlags_named {f : String → Res UInt32} {l : List String} (h : ∀ s ∈ l, ∃ v, f s = .ok v) (a : UInt32) : ∃ v, Responder.parseFlags f l a = .ok v := by
  induction l generalizing a with
  | nil => exact ⟨_, rfl⟩
  | cons s l ih =>
    obtain ⟨v, hv⟩ := h s (.head _)
    unfold Responder.parseFlags
    rw [hv]
    exact ih (fun s hs => h s (.tail _ hs)) _

/-- C106: what `next_request` returns instead of a request: `InitializationComplete` exactly when the session is complete; else `BufferFull`, or the error for a configured name that
does not exist, of a capability (for GET_CAPABILITIES) or an algorithm (for NEGOTIATE_ALGORITHMS). -/
theorem c106_next (h : ReqRun c cr root es r) (hf : failed es = false) (env : Env) (buf : Bytes) {d : RequesterError} (hd : (Requester.nextRequestT c env buf r).1 = .err d) :
    (d = .initializationComplete ∧ (accepted es).length = (path (conversation (reqMsgs es))).length) ∨
    (accepted es).length < (path (conversation (reqMsgs es))).length ∧
      (d = .bufferFull ∨
       d = .parseCapability ∧ (accepted es).length = 1 ∧ (∃ s ∈ c.capabilities, ∀ k, (s, k) ∉ reqFlagNames) ∨
       d = .parseBaseAsymAlgo ∧ (accepted es).length = 2 ∧ ∃ s ∈ c.asymSigning, ∀ k, (s, k) ∉ asymNames) := by
  obtain ⟨st, hl⟩ := req_live' h hf
  have hmat := hl.mat
  unfold Requester.nextRequestT at hd
  rw [hl.state] at hd
  generalize accepted es = acc at hmat ⊢
  generalize conversation (reqMsgs es) = l at hmat ⊢
  have p3 : 3 ≤ (path l).length := by unfold path; simp
  have p5 : l.both 1 = true → 5 ≤ (path l).length := fun hb => by unfold path; simp [hb]
  have p6 : l.both 1 = true → l.both 2 = true → 6 ≤ (path l).length := fun hb hb2 => by unfold path; simp [hb, hb2]
  have hw : ∀ {t : MsgType} {body : W Nat} {q : Bytes → TM RequesterError Requester Bytes}, (∀ out s, TErrAt (· = .bufferFull) (q out) s) → ∀ s,
      TErrAt (· = .bufferFull) (Requester.writeToT t body buf >>= q) s := fun hq s => .bind (.of fun _ _ => rfl) fun out s _ => hq out s
  have hx : ∀ {out : Bytes} {β : Type} {q : Unit → TM RequesterError Requester β}, (∀ s, TErrAt (· = .bufferFull) (q ()) s) → ∀ s,
      TErrAt (· = .bufferFull) (Requester.extendT out >>= q) s := fun hq s => .bind (.of fun _ _ => rfl) fun _ s _ => hq s
  have hset : ∀ {st' : ReqState} {β : Type} {q : Unit → TM RequesterError Requester β}, (∀ s, TErrAt (· = .bufferFull) (q ()) s) → ∀ s,
      TErrAt (· = .bufferFull) (Requester.quiet (Requester.setState st') >>= q) s := fun hq s => .bind (.of fun e he => by simp [Requester.setState] at he) fun _ s _ => hq s
  cases hmat with
  | version =>
    have key : TErrAt (· = .bufferFull) (Requester.writeReqT c env .version buf) r := by
      unfold Requester.writeReqT
      exact hw (fun out s => .bind (.of fun e he => by simp [Requester.clear] at he) fun _ s _ => hx (q := fun _ => Pure.pure out) (fun _ => .pure _) s) r
    exact .inr ⟨by simpa using Nat.lt_of_lt_of_le (by decide : 0 < 3) p3, .inl (key d hd)⟩
  | capabilities =>
    refine .inr ⟨by simp only [List.length_cons, List.length_nil]; omega, ?_⟩
    have key : ∀ v1 v2 v3, TErrAt (fun d => d = .bufferFull ∨ d = .parseCapability ∧ ∃ s ∈ c.capabilities, ∀ k, (s, k) ∉ reqFlagNames) (Requester.writeReqT c env (.capabilities v1 v2 v3) buf) r := by
      intro v1 v2 v3
      unfold Requester.writeReqT
      refine .ofLift (fun e he => .inr ⟨rfl, ?_⟩) fun m _ => (hw (fun out s => hx (fun s => hset (q := fun _ => Pure.pure out) (fun _ => .pure _) s) s) r).mono fun d h => .inl h
      refine Classical.byContradiction fun hn => ?_
      have : ∀ s ∈ c.capabilities, ∃ v, ReqFlags.fromStr s = .ok v := by
        intro s hs
        rcases c93_reqFlags s with ⟨k, w, _, h1, _⟩ | ⟨h1, _⟩
        · exact ⟨w, h1⟩
        · exact absurd ⟨s, hs, h1⟩ hn
      obtain ⟨v, hv⟩ := parseFlags_named this 0
      unfold Requester.configToGetCapabilities at he
      rw [hv] at he
      simp at he
    rcases key _ _ _ d hd with h1 | ⟨h1, h2⟩
    · exact .inl h1
    · exact .inr (.inl ⟨h1, rfl, h2⟩)
  | algorithms =>
    refine .inr ⟨by simp only [List.length_cons, List.length_nil]; omega, ?_⟩
    have key : ∀ v1 v2 v3, TErrAt (fun d => d = .bufferFull ∨ d = .parseBaseAsymAlgo ∧ ∃ s ∈ c.asymSigning, ∀ k, (s, k) ∉ asymNames) (Requester.writeReqT c env (.algorithms v1 v2 v3) buf) r := by
      intro v1 v2 v3
      unfold Requester.writeReqT
      refine .ofLift (fun e he => .inr ⟨rfl, ?_⟩) fun m _ => (hw (fun out s => hset (fun s => hx (q := fun _ => Pure.pure out) (fun _ => .pure _) s) s) r).mono fun d h => .inl h
      refine Classical.byContradiction fun hn => ?_
      have : ∀ s ∈ c.asymSigning, ∃ v, BaseAsymAlgo.fromStr s = .ok v := by
        intro s hs
        rcases c93_asym s with ⟨k, w, _, h1, _⟩ | ⟨h1, _⟩
        · exact ⟨w, h1⟩
        · exact absurd ⟨s, hs, h1⟩ hn
      obtain ⟨v, hv⟩ := parseFlags_named this 0
      unfold Requester.configToNegotiateAlgorithms at he
      rw [hv] at he
      simp at he
    rcases key _ _ _ d hd with h1 | ⟨h1, h2⟩
    · exact .inl h1
    · exact .inr (.inr ⟨h1, rfl, h2⟩)
  | digests _ _ _ _ hb =>
    have key : ∀ v1 v2 v3, TErrAt (· = .bufferFull) (Requester.writeReqT c env (.idAuth v1 v2 v3 none) buf) r := by
      intro v1 v2 v3
      unfold Requester.writeReqT
      exact hw (fun out s => hx (q := fun _ => Pure.pure out) (fun _ => .pure _) s) r
    have := p5 hb
    exact .inr ⟨by simp only [List.length_cons, List.length_nil]; omega, .inl (key _ _ _ d hd)⟩
  | certificate _ _ _ _ hb =>
    have key : ∀ v1 v2 v3 v4, TErrAt (· = .bufferFull) (Requester.writeReqT c env (.idAuth v1 v2 v3 (some v4)) buf) r := by
      intro v1 v2 v3 v4
      unfold Requester.writeReqT
      exact .ite (.die _) (hw (fun out s => hx (q := fun _ => Pure.pure out) (fun _ => .pure _) s) r)
    have := p5 hb
    exact .inr ⟨by simp only [List.length_cons, List.length_nil]; omega, .inl (key _ _ _ _ d hd)⟩
  | challenge _ _ _ _ hb hb2 =>
    have key : ∀ v1, TErrAt (· = .bufferFull) (Requester.writeReqT c env (.challenge v1) buf) r := by
      intro v1
      unfold Requester.writeReqT
      exact hset (fun s => hw (fun out s => hx (q := fun _ => Pure.pure out) (fun _ => .pure _) s) s) r
    have := p6 hb hb2
    exact .inr ⟨by simp only [List.length_cons, List.length_nil]; omega, .inl (key _ d hd)⟩
  | done hp =>
    simp only [Out.err.injEq] at hd
    exact .inl ⟨hd.symm, by simpa using congrArg List.length hp⟩

/-- C106 under a configuration the build accepts: a complete session returns `InitializationComplete`, and a session that is not complete the next request or, exactly if the buffer or
the transcript has no room for it, `BufferFull`. -/
theorem c106_built_next {crypto : Bool} {i : SpdmConfig} {nonceSize : Nat} (hv : ValidConfig crypto i) (hb : Built crypto i nonceSize c) (h : ReqRun c cr root es r) (hf : failed es = false)
    (env : Env) (hn : env.nonce.length = nonceSize) (buf : Bytes) :
    ((accepted es).length = (path (conversation (reqMsgs es))).length → (Requester.nextRequestT c env buf r).1 = .err .initializationComplete) ∧
    ((accepted es).length < (path (conversation (reqMsgs es))).length → ∃ need, (requestSizes nonceSize)[(accepted es).length]? = some need ∧
      ((Requester.nextRequestT c env buf r).1 = .err .bufferFull ↔
        ¬ (need ≤ buf.length ∧ (if accepted es = [] then 0 else (conversation (reqMsgs es)).text.length) + need ≤ i.transcriptBufSize)) ∧
      ∀ d, (Requester.nextRequestT c env buf r).1 = .err d → d = .bufferFull) := by
  have hs := c106_same_next c env buf r
  have h0 : 0 < c.numSlots := by rw [hb.numSlots]; exact hv.slots.1
  have hnames : ∀ (s : String), s ∈ c.capabilities → ∃ k, (s, k) ∈ reqFlagNames := by
    intro s hs
    rw [hb.capabilities] at hs
    obtain ⟨k, hk⟩ := hv.names s hs
    refine ⟨k, ?_⟩
    simp only [capabilityBits, List.mem_cons, List.not_mem_nil, or_false, Prod.mk.injEq] at hk
    rcases hk with ⟨rfl, rfl⟩ | ⟨rfl, rfl⟩ | ⟨rfl, rfl⟩ | ⟨rfl, rfl⟩ | ⟨rfl, rfl⟩ | ⟨rfl, rfl⟩ | ⟨rfl, rfl⟩ <;> simp [reqFlagNames]
  have hasym : ∀ (s : String), s ∈ c.asymSigning → ∃ k, (s, k) ∈ asymNames := by
    intro s hs
    rw [hb.asymSigning] at hs
    rw [hv.signing s hs]
    exact ⟨4, by simp [asymNames]⟩
  have ex : (∃ out, (Requester.nextRequestT c env buf r).1 = .ok out) ∨ ∃ d, (Requester.nextRequestT c env buf r).1 = .err d := by
    rcases c59_next_no_abort h0 h hf env buf with ⟨out, ho⟩ | ⟨e, he⟩
    · exact .inl ⟨out, (hs.ok out).mpr ho⟩
    · obtain ⟨d, hd, _⟩ := hs.err' e he; exact .inr ⟨d, hd⟩
  constructor
  · intro hl
    rcases ex with ⟨out, ho⟩ | ⟨d, hd⟩
    · obtain ⟨_, _, _, _, _, _, _, hlt, _⟩ := req_next h ((hs.ok out).mp ho)
      omega
    · rcases c106_next h hf env buf hd with ⟨rfl, _⟩ | ⟨hlt, _⟩
      · exact hd
      · omega
  · intro hlt
    obtain ⟨need, h1, h2, _⟩ := c75_written_iff_fits hv hb h hf hlt env hn buf
    have only : ∀ d, (Requester.nextRequestT c env buf r).1 = .err d → d = .bufferFull := by
      intro d hd
      rcases c106_next h hf env buf hd with ⟨_, hl⟩ | ⟨_, h | ⟨_, _, s, hs, hk⟩ | ⟨_, _, s, hs, hk⟩⟩
      · omega
      · exact h
      · obtain ⟨k, h⟩ := hnames s hs; exact absurd h (hk k)
      · obtain ⟨k, h⟩ := hasym s hs; exact absurd h (hk k)
    refine ⟨need, h1, ?_, only⟩
    rw [← h2]
    constructor
    · rintro hd ⟨out, ho⟩
      rw [(hs.ok out).mpr ho] at hd
      simp at hd
    · intro hno
      rcases ex with ⟨out, ho⟩ | ⟨d, hd⟩
      · exact absurd ⟨out, (hs.ok out).mp ho⟩ hno
      · rw [hd, only d hd]

/-! ### C106 at work: every value occurs in the demo session -/

/-- What the requester of the demo session returns for `rsp` after `n` calls. -/
def demoValue (cr : Crypto) (n : Nat) (rsp : Bytes) : Option RequesterError :=
  match (Requester.handleMsgT demoCfg cr rsp (reqAfter demoCfg cr (Requester.new demoCfg [1, 2, 3]) (demoReqCalls n))).1 with
  | .err d => some d
  | _ => none

/-- CAPABILITIES instead of VERSION: `got` is 0x11, the version of the message. -/
example : demoValue demoCrypto 1 [0x11, 0x61, 0] = some (.unexpectedMsgCode 0x04 0x11) := by decide +kernel
/-- Version 1.1 of VERSION. -/
example : demoValue demoCrypto 1 [0x11, 0x04, 0] = some .parseHeader := by decide +kernel
example : demoValue demoCrypto 1 [0x10, 0x04, 0, 0] = some (.parseVersion (.read .bufferEmpty)) := by decide +kernel
example : demoValue demoCrypto 1 [0x10, 0x04, 0, 0, 0, 200] = some (.parseVersion .tooManyVersionsReceived) := by decide +kernel
/-- A CAPABILITIES that ends early is reported like one with unknown flags. -/
example : demoValue demoCrypto 3 [0x11, 0x61, 0] = some .parseCapabilities ∧ demoValue demoCrypto 3 [0x11, 0x61, 0, 0, 0, 0, 0, 0, 255, 255, 255, 255] = some .parseCapabilities := by
  decide +kernel
/-- An algorithm that was not offered. -/
example : demoValue demoCrypto 5 ((demoReplies.getD 2 []).set 12 128) = some .selectedAlgorithmNotRequested := by decide +kernel
/-- Two hash algorithms. -/
example : demoValue demoCrypto 5 ((demoReplies.getD 2 []).set 16 3) = some (.parseAlgorithms .moreThanOneBaseHashAlgoSelected) := by decide +kernel
example : demoValue demoCrypto 7 [0x11, 0x01, 0, 1] = some (.read .bufferEmpty) := by decide +kernel
/-- A portion of 65 bytes: the buffer has 64. -/
example : demoValue demoCrypto 9 ([0x11, 0x02, 0, 0, 65, 0, 0, 0] ++ zeros 65) = some (.parseCert .tooLarge) := by decide +kernel
example : demoValue demoCrypto 11 ((demoReplies.getD 5 []).take 20) = some (.parseChallengeAuth (.read .bufferEmpty)) := by decide +kernel
/-- A slot that does not exist (of two, the fourth) is reported as too much opaque data. -/
example : demoValue demoCrypto 11 ((demoReplies.getD 5 []).set 2 3) = some (.parseChallengeAuth .maxOpaqueDataSizeExceeded) := by decide +kernel
example : demoValue demoCrypto 11 ((demoReplies.getD 5 []).set 2 1) = some (.challengeAuth .incorrectSlot) := by decide +kernel
example : demoValue demoCrypto 11 ((demoReplies.getD 5 []).set 3 2) = some (.challengeAuth .slotNotInMask) := by decide +kernel
example : demoValue demoCrypto 11 ((demoReplies.getD 5 []).set 4 99) = some (.challengeAuth .digestMismatch) := by decide +kernel
example : demoValue demoCrypto 11 (demoReplies.getD 5 [] ++ zeros 500) = some .bufferFull := by decide +kernel
example : demoValue { demoCrypto with chainOk := fun _ _ _ _ _ => false } 11 (demoReplies.getD 5 []) = some .invalidCert := by decide +kernel
example : demoValue demoCrypto 11 ((demoReplies.getD 5 []).set 140 99) = some (.challengeAuth .invalidSignature) := by decide +kernel
/-- Only version 2.0 listed: the error carries the message. -/
example : (demoValue demoCrypto 1 [0x10, 0x04, 0, 0, 0, 1, 0, 0x20]).map (fun d => match d with | .noSupportedVersions v => some v.numEntries | _ => none) = some (some 1) := by decide +kernel

/-- `c106_reason` applies to each of them. -/
theorem demo_reports (cr : Crypto) (n : Nat) (rsp : Bytes) {d : RequesterError} (hf : failed (reqBehaviour demoCfg cr (Requester.new demoCfg [1, 2, 3]) (demoReqCalls n)) = false)
    (hd : demoValue cr n rsp = some d) :
    Reports ((demoChecks cr n rsp).map (·.1)) (reported demoCfg (accepted (reqBehaviour demoCfg cr (Requester.new demoCfg [1, 2, 3]) (demoReqCalls n)))
      (conversation (reqMsgs (reqBehaviour demoCfg cr (Requester.new demoCfg [1, 2, 3]) (demoReqCalls n)))) rsp) d := by
  unfold demoValue at hd
  rcases hx : (Requester.handleMsgT demoCfg cr rsp (reqAfter demoCfg cr (Requester.new demoCfg [1, 2, 3]) (demoReqCalls n))).1 with b | e | p
  · rw [hx] at hd; simp at hd
  · rw [hx] at hd
    simp only [Option.some.injEq] at hd
    rw [← hd]
    exact c106_reason (by decide) (by decide) demo_offer (ReqRun.of _ _ _ _) hf hx
  · rw [hx] at hd; simp at hd

/-- The requests: too small a buffer, a completed session, and a capability that does not exist. -/
example : (Requester.nextRequestT demoCfg demoReqEnv (zeros 3) (demoRequester 0)).1 = .err .bufferFull ∧
    (Requester.nextRequestT demoCfg demoReqEnv (zeros 200) (demoRequester 12)).1 = .err .initializationComplete := by decide +kernel
example : (Requester.nextRequestT { demoCfg with capabilities := ["CERT"] } demoReqEnv (zeros 200)
    (reqAfter { demoCfg with capabilities := ["CERT"] } demoCrypto (Requester.new demoCfg [1, 2, 3]) (demoReqCalls 2))).1 = .err .parseCapability := by decide +kernel
example : (Requester.nextRequestT { demoCfg with asymSigning := ["RSA"] } demoReqEnv (zeros 200)
    (reqAfter { demoCfg with asymSigning := ["RSA"] } demoCrypto (Requester.new demoCfg [1, 2, 3]) (demoReqCalls 4))).1 = .err .parseBaseAsymAlgo := by decide +kernel

end Spdm
