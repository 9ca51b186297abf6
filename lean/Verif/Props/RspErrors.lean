import Verif.Props.Errors
/-! C107: the error values a responder returns. -/
namespace Spdm
open Spec

variable {c : Cfg} {cr : Crypto} {env : Env} {slots : List (Option FilledSlot)} {es : List RspEvent} {r : Responder}

/-! ### What each state can return -/

/-- The values that are possible, with what is known about the request. -/
inductive Happens (c : Cfg) (slots : List (Option FilledSlot)) (req : Bytes) : ResponderError → Prop
  | header : Happens c slots req .parseHeader
  | code (x g : UInt8) : Happens c slots req (.unexpectedMsgCode x g)
  | malformed {k : UInt8} {d : ResponderError} (hk : Spec.code req = some k) (hd : FirstWrong c req k d) (hw : ¬ WellFormed c req) : Happens c slots req d
  | slot (hw : WellFormed c req) (hm : SlotMissing c slots req) : Happens c slots req .invalidSlot
  | full (hw : WellFormed c req) : Happens c slots req .bufferFull
  | chain {i : Nat} {s : FilledSlot} {e : WriteCertificateChainError} (hw : WellFormed c req) (hs : slots[i]? = some (some s)) (ht : TooLarge c s.certChain e)
      (hk : Spec.code req = some 0x81 ∨ (Spec.code req = some 0x82 ∨ Spec.code req = some 0x83) ∧ ∃ b : UInt8, req[2]? = some b ∧ b.toNat = i) : Happens c slots req (.writeCertChain e)
  | name (hw : WellFormed c req) (hk : Spec.code req = some 0xE1) : Happens c slots req .parseCapability
  | auth {e : WriteChallengeAuthError} (hw : WellFormed c req) (hm : ¬ SlotMissing c slots req) (hk : Spec.code req = some 0x83)
      (he : e = .bufferFull ∨ e = .writeOpaqueElement .bufferFull) : Happens c slots req (.writeChallengeAuth e)
  | sign (hw : WellFormed c req) (hk : Spec.code req = some 0x83) : Happens c slots req .signingFailed

theorem writeChain_too_large {ch : CertificateChain} {buf : Bytes} {e : Err} (hb : buf.length = c.maxCertChainSize) (h : (Responder.writeChain ch buf).1 = .err e) :
    TooLarge c ch (.from e) := by
  have hw : (Wire.chain ch).length = ch.wireLength := by
    rw [CertificateChain.wireLength_eq, Wire.chain]; simp [zeros]; omega
  have h' : (ch.write (Writer.new buf)).1 = .err e := by simpa [Responder.writeChain] using h
  by_cases hl : (Wire.chain ch).length ≤ 65535
  · have hr : ¬ (Wire.chain ch).length ≤ buf.length := fun hr => by rw [writeChain_run hl hr] at h; simp at h
    have hc : ∀ xs, ErrIn Full (CertificateChain.writeCerts xs) := by
      intro xs
      induction xs with
      | nil => exact offsetM_errs
      | cons x xs ih => exact (wextend_errs _).bind fun _ => ih
    have hF : ErrIn Full ch.write := by
      unfold CertificateChain.write
      rw [if_neg (by omega)]
      exact (putAll_errs _).bind fun _ => (putAll_errs _).bind fun _ => (wextend_errs _).bind fun _ => (hc _).bind fun _ => (wextend_errs _).bind fun _ => offsetM_errs
    have he : e = .bufferFull := hF _ e h'
    rw [he]
    exact .inr ⟨rfl, hl, by omega⟩
  · unfold CertificateChain.write at h'
    rw [if_pos (by omega)] at h'
    have he : Err.maxSizeExceeded = e := by simpa [M.fail] using h'
    rw [← he]
    exact .inl ⟨rfl, by omega⟩

theorem hashLoop_too_large {algo : UInt32} {chains : List (Option CertificateChain)} {e : Err} (n i : Nat) (buf : Bytes) (ds : List (Option Bytes)) (hb : buf.length = c.maxCertChainSize)
    (h : Responder.hashLoop c cr algo chains n i buf ds = .err e) : ∃ (j : Nat) (ch : CertificateChain), chains[j]? = some (some ch) ∧ TooLarge c ch (.from e) := by
  induction n generalizing i buf ds with
  | zero => simp [Responder.hashLoop] at h
  | succ n ih =>
    unfold Responder.hashLoop at h
    rcases hi : index chains i with ch | e' | k
    · rw [hi] at h
      simp only [Res.ok_bind] at h
      cases ch with
      | none => exact ih _ _ _ hb h
      | some ch =>
        simp only at h
        rcases hw : Responder.writeChain ch buf with ⟨n' | e' | k, buf'⟩
        · rw [hw] at h
          simp only [Res.ok_bind] at h
          obtain ⟨_, _, _, hlen, _⟩ := writeChain_inv hw
          rcases hs : sliceTo buf' n' with data | e' | k
          · rw [hs] at h
            simp only [Res.ok_bind] at h
            rcases hd : cr.digest c algo data with d | e' | k
            · rw [hd] at h
              simp only [Res.ok_bind] at h
              rcases hx : setIndex ds i (some d) with ds' | e' | k
              · rw [hx] at h
                exact ih _ _ _ (by rw [hlen, hb]) h
              · exact (RErrIn.setIndex (S := fun _ => False) _ _ _ e' hx).elim
              · rw [hx] at h; simp at h
            · exact (digest_errs (S := fun _ => False) _ _ _ _ e' hd).elim
            · rw [hd] at h; simp at h
          · exact (RErrIn.sliceTo (S := fun _ => False) _ _ e' hs).elim
          · rw [hs] at h; simp at h
        · have := writeChain_too_large (ch := ch) hb (e := e') (by rw [hw])
          rw [hw] at h
          have he : e' = e := by simpa using h
          subst he
          exact ⟨i, ch, index_inv hi, this⟩
        · rw [hw] at h; simp at h
    · exact (RErrIn.index (S := fun _ => False) _ _ e' hi).elim
    · rw [hi] at h; simp at h

theorem chainDigest_too_large {algo : UInt32} {ch : CertificateChain} {e : Err} (h : Responder.chainDigest c cr algo ch = .err e) : TooLarge c ch (.from e) := by
  unfold Responder.chainDigest at h
  rcases hw : Responder.writeChain ch (List.replicate c.maxCertChainSize 0) with ⟨n' | e' | k, buf'⟩
  · rw [hw] at h
    simp only [Res.ok_bind] at h
    exact (RErrIn.bind (S := fun _ => False) (.sliceTo buf' n') (fun _ => digest_errs _ _ _ _) e h).elim
  · have := writeChain_too_large (c := c) (ch := ch) (buf := List.replicate c.maxCertChainSize 0) (by simp) (e := e') (by rw [hw])
    rw [hw] at h
    have he : e' = e := by simpa using h
    exact he ▸ this
  · rw [hw] at h; simp at h

theorem certPortion_too_large {chains : List (Option CertificateChain)} {i : UInt8} {e : Err} (h : Responder.certPortion c chains i = .err e) :
    ∃ ch, chains[i.toNat]? = some (some ch) ∧ TooLarge c ch (.from e) := by
  unfold Responder.certPortion at h
  rcases hi : index chains i.toNat with ch | e' | k
  · rw [hi] at h
    simp only [Res.ok_bind] at h
    cases ch with
    | none => simp at h
    | some ch =>
      simp only at h
      rcases hw : Responder.writeChain ch (List.replicate c.maxCertChainSize 0) with ⟨n' | e' | k, buf'⟩
      · rw [hw] at h; simp at h
      · have := writeChain_too_large (c := c) (ch := ch) (buf := List.replicate c.maxCertChainSize 0) (by simp) (e := e') (by rw [hw])
        rw [hw] at h
        have he : e' = e := by simpa using h
        exact ⟨ch, index_inv hi, he ▸ this⟩
      · rw [hw] at h; simp at h
  · exact (RErrIn.index (S := fun _ => False) _ _ e' hi).elim
  · rw [hi] at h; simp at h

theorem chooseAlgorithms_errs {S : Err → Prop} (a : NegotiateAlgorithms) : RErrIn S (Responder.chooseAlgorithms a) := by
  have hfb : ∀ (w m b : Nat), RErrIn S (Responder.firstBit w m b) := fun w m b => .ite (.ite (.ok _) (.panic _)) (.panic _)
  have hcr : ∀ (n i : Nat) (rs : List AlgorithmRequest), RErrIn S (Responder.chooseResponses a.algorithmRequests n i rs) := by
    intro n
    induction n with
    | zero => intro i rs; exact .ok _
    | succ n ih => intro i rs; exact .bind (.index _ _) fun _ => .bind (hfb _ _ _) fun _ => .bind (.setIndex _ _ _) fun _ => ih _ _
  exact .bind (hfb _ _ _) fun _ => .bind (hfb _ _ _) fun _ => .bind (hcr _ _ _) fun _ => .ok _

section handlers
variable {req : Bytes} {h : HState}

theorem quiet_H {S : ResponderError → Prop} {α β : Type} {m : H α} (hm : ErrIn (fun _ => False) m) {q : α → TM ResponderError HState β} (hq : ∀ a h', m h = (.ok a, h') → TErrAt S (q a) h') :
    TErrAt S (Responder.quiet m >>= q) h :=
  .bind (.of fun e he => (hm h e he).elim) fun a s' ha => hq a s' (by
    simp only [Responder.quiet, TM.of] at ha
    rcases hx : m h with ⟨x | x | x, t⟩ <;> rw [hx] at ha <;> simp at ha
    obtain ⟨rfl, rfl⟩ := ha
    rfl)

theorem quiet_L {S : ResponderError → Prop} {α β : Type} {x : Res α} (hx : RErrIn (fun _ => False) x) {q : α → TM ResponderError HState β} (hq : ∀ a, x = .ok a → TErrAt S (q a) h) :
    TErrAt S (Responder.quiet (M.lift x) >>= q) h := .ofLift (fun e he => (hx e he).elim) hq

theorem full_H {S : ResponderError → Prop} {α β : Type} {m : H α} (hS : S .bufferFull) {q : α → TM ResponderError HState β} (hq : ∀ a h', TErrAt S (q a) h') :
    TErrAt S (Responder.full m >>= q) h := .bind (.of fun _ _ => hS) fun a s _ => hq a s

theorem sliceFrom_H {S : ResponderError → Prop} {β : Type} {q : Bytes → TM ResponderError HState β} (hq : TErrAt S (q (req.drop 2)) h) :
    TErrAt S (Responder.quiet (M.lift (sliceFrom req headerSize)) >>= q) h :=
  quiet_L (RErrIn.sliceFrom _ _) fun a ha => by
    obtain ⟨_, rfl⟩ := sliceFrom_inv ha
    exact hq

/-- The end of most handlers. -/
theorem reply_H {S : ResponderError → Prop} {t : MsgType} {body : W Nat} {st : RspState} (hS : S .bufferFull) : TErrAt S (do
    let size ← Responder.full (H.write t body)
    let out ← Responder.quiet (H.rspTo size)
    Responder.full (H.extend out)
    Pure.pure (size, st)) h :=
  full_H hS fun _ _ => quiet_H (rspTo_errs _) fun _ _ _ => full_H hS fun _ _ => .pure _

theorem expect_H {t : MsgType} {β : Type} {q : Unit → TM ResponderError HState β} (hq : req.take 2 = Wire.header t → TErrAt (Happens c slots req) (q ()) h) :
    TErrAt (Happens c slots req) (TM.of Responder.expectErr (M.lift (Responder.expect t req)) >>= q) h :=
  .ofLift (fun e he => by
    rcases expect_errs t req e he with rfl | ⟨x, g, rfl⟩
    · exact .header
    · exact .code x g) fun _ ha => hq (expect_ok_inv ha).2

variable (h0 : 0 < c.numSlots) (h8 : c.numSlots ≤ 8)
include h0 h8

theorem handleGetVersion_H (hh : req.take 2 = Wire.header .getVersion) : TErrAt (Happens c slots req) (Responder.handleGetVersionT req) h := by
  have hcode := code_of_header hh
  unfold Responder.handleGetVersionT
  refine sliceFrom_H (.ofLift (fun e he => ?_) fun a ha => ?_)
  · obtain ⟨x, rfl⟩ := GetVersion.parseBody_errs _ e he
    exact .malformed hcode (.getVersion (first_of_err (c108_getVersion _) he)) (not_wellFormed h0 h8 hh (by decide) (by simp only [AnyMsg.parse, he]; rfl))
  · obtain ⟨hwf, _⟩ := wellFormed_of h0 h8 (c := c) (t := .getVersion) (m := .getVersion) hh (by simp only [AnyMsg.parse, ha]; rfl)
    exact quiet_H hclear_errs fun _ _ _ => full_H (.full hwf) fun _ _ => reply_H (.full hwf)

theorem versionHandle_H : TErrAt (Happens c slots req) (Responder.versionHandleT req) h := by
  unfold Responder.versionHandleT
  rcases hd : MsgType.getVersion.parseHeader req with b | e | k
  · cases b with
    | true => exact handleGetVersion_H h0 h8 (parseHeader_true hd).2
    | false => exact quiet_L (RErrIn.index _ _) fun g _ => .fail (.code _ _)
  · exact .fail .header
  · exact .die _

theorem reset_H {rest : TM ResponderError HState (Nat × RspState)} (hr : TErrAt (Happens c slots req) rest h) : TErrAt (Happens c slots req) (Responder.resetOnGetVersionT req rest) h := by
  unfold Responder.resetOnGetVersionT
  rcases hd : MsgType.getVersion.parseHeader req with b | e | k
  · cases b with
    | true => exact versionHandle_H h0 h8
    | false => exact hr
  · exact .fail .header
  · exact .die _

theorem capabilitiesHandle_H : TErrAt (Happens c slots req) (Responder.capabilitiesHandleT c req) h := by
  unfold Responder.capabilitiesHandleT
  refine reset_H h0 h8 (expect_H fun hh => sliceFrom_H (.ofLift (fun e he => ?_) fun a ha => ?_))
  · exact .malformed (code_of_header hh) (.getCapabilities (first_of_err (c108_getCapabilities _) he)) (not_wellFormed h0 h8 hh (by decide) (by simp only [AnyMsg.parse, he]; rfl))
  · obtain ⟨hwf, _⟩ := wellFormed_of h0 h8 (c := c) (t := .getCapabilities) (m := .getCapabilities a) hh (by simp only [AnyMsg.parse, ha]; rfl)
    exact full_H (.full hwf) fun _ _ => .ofLift (fun _ _ => .name hwf (code_of_header hh)) fun m _ => reply_H (.full hwf)

theorem algorithmsHandle_H (caps : Caps) : TErrAt (Happens c slots req) (Responder.algorithmsHandleT caps req) h := by
  unfold Responder.algorithmsHandleT
  refine reset_H h0 h8 (expect_H fun hh => sliceFrom_H (.ofLift (fun e he => ?_) fun a ha => ?_))
  · exact .malformed (code_of_header hh) (.negotiateAlgorithms (first_of_err (c108_negotiateAlgorithms _) he)) (not_wellFormed h0 h8 hh (by decide) (by simp only [AnyMsg.parse, he]; rfl))
  · obtain ⟨hwf, _⟩ := wellFormed_of h0 h8 (c := c) (t := .negotiateAlgorithms) (m := .negotiateAlgorithms a) hh (by simp only [AnyMsg.parse, ha]; rfl)
    exact full_H (.full hwf) fun _ _ => quiet_L (chooseAlgorithms_errs a) fun m _ => reply_H (.full hwf)

theorem idAuthHandle_H (n : Negotiated) : TErrAt (Happens c slots req) (Responder.idAuthHandleT c cr n (slots.map (fun s => s.map (·.certChain))) req) h := by
  have back : ∀ {j : Nat} {ch : CertificateChain}, (slots.map (fun s => s.map (·.certChain)))[j]? = some (some ch) → ∃ s, slots[j]? = some (some s) ∧ s.certChain = ch := by
    intro j ch hj
    rw [List.getElem?_map] at hj
    rcases hs : slots[j]? with _ | _ | s <;> rw [hs] at hj <;> simp at hj
    exact ⟨s, rfl, hj⟩
  unfold Responder.idAuthHandleT
  refine reset_H h0 h8 (.ofLift (fun e he => ?_) fun b hb => ?_)
  · rw [Responder.header_errs _ _ e he]; exact .header
  cases b with
  | true =>
    have hh := (parseHeader_true hb).2
    have hwf : WellFormed c req := .inl ⟨req.drop 2, by rw [← show req.take 2 = [0x11, 0x81] from hh, List.take_append_drop]⟩
    simp only [if_pos]
    unfold Responder.handleGetDigestsT
    refine quiet_L (slotMask_errs _ _) fun mask _ => .ofLift (fun e he => ?_) fun ds _ => ?_
    · obtain ⟨j, ch, h1, h2⟩ := hashLoop_too_large _ _ _ _ (by simp) he
      obtain ⟨s, hs, rfl⟩ := back h1
      exact .chain hwf hs h2 (.inl (code_of_header hh))
    · exact full_H (.full hwf) fun _ _ => full_H (.full hwf) fun _ _ => quiet_H (rspTo_errs _) fun _ _ _ => full_H (.full hwf) fun _ _ => .pure _
  | false =>
    simp only [Bool.false_eq_true, if_false]
    refine expect_H fun hh => ?_
    unfold Responder.handleGetCertificateT
    refine sliceFrom_H (.ofLift (fun e he => ?_) fun a ha => ?_)
    · obtain ⟨x, rfl⟩ := GetCertificate.parseBody_errs _ e he
      exact .malformed (code_of_header hh) (.getCertificate (first_of_err (c108_getCertificate _) he)) (not_wellFormed h0 h8 hh (by decide) (by simp only [AnyMsg.parse, he]; rfl))
    · obtain ⟨hwf, bs, tail, hr, hd⟩ := wellFormed_of h0 h8 (c := c) (t := .getCertificate) (m := .getCertificate a) hh (by simp only [AnyMsg.parse, ha]; rfl)
      have hs : req[2]? = some a.slot := by
        simp only [Denotes] at hd
        rw [hr, hd]; simp [Wire.header, Wire.getCertificate]
      by_cases hge : a.slot.toNat ≥ c.numSlots
      · simp only [if_pos hge]
        exact .fail (.slot hwf ⟨_, hs, .inl ⟨code_of_header hh, hge⟩⟩)
      · simp only [if_neg hge]
        refine .ofLift (fun e he => ?_) fun cp _ => ?_
        · obtain ⟨ch, h1, h2⟩ := certPortion_too_large he
          obtain ⟨s, hs', rfl⟩ := back h1
          exact .chain hwf hs' h2 (.inr ⟨.inl (code_of_header hh), _, hs, rfl⟩)
        · exact full_H (.full hwf) fun _ _ => full_H (.full hwf) fun _ _ => quiet_H (rspTo_errs _) fun _ _ _ => full_H (.full hwf) fun _ _ => .pure _

theorem challengeHandle_H (hl : slots.length = c.numSlots) (n : Negotiated) : TErrAt (Happens c slots req) (Responder.challengeHandleT c cr env n slots req) h := by
  unfold Responder.challengeHandleT
  refine reset_H h0 h8 (expect_H fun hh => quiet_L (digestSize_errs _ _) fun ds _ => quiet_L (signatureSize_errs _ _) fun ss _ => sliceFrom_H (.ofLift (fun e he => ?_) fun a ha => ?_))
  · exact .malformed (code_of_header hh) (.challenge (first_of_err (c108_challenge c _) he)) (not_wellFormed h0 h8 hh (by decide) (by simp only [AnyMsg.parse, he]; rfl))
  have hcode := code_of_header hh
  obtain ⟨hwf, bs, tail, hr, hd⟩ := wellFormed_of h0 h8 (c := c) (t := .challenge) (m := .challenge a) hh (by simp only [AnyMsg.parse, ha]; rfl)
  have hs : req[2]? = some a.slot := by
    simp only [Denotes] at hd
    rw [hr, hd.2]; simp [Wire.header, Wire.challenge]
  refine .ofLift (fun e he => ?_) fun s hslot => ?_
  · unfold Responder.slotAt at he
    split at he
    · simp at he
    · rename_i hno
      exact .slot hwf ⟨_, hs, .inr ⟨hcode, fun s hs => hno s hs⟩⟩
  have hsl := slotAt_inv hslot
  have hmiss : ¬ SlotMissing c slots req := by
    rintro ⟨i, hi, ⟨hc, _⟩ | ⟨_, hm⟩⟩
    · rw [hcode] at hc; exact absurd hc (by decide)
    · rw [hs, Option.some.injEq] at hi
      subst hi
      exact hm _ hsl
  have hlt : a.slot.toNat < c.numSlots := by
    rw [← hl]
    by_contra hc
    rw [List.getElem?_eq_none (by omega)] at hsl; simp at hsl
  refine .ofLift (fun e he => .chain hwf hsl (chainDigest_too_large he) (.inr ⟨.inr hcode, _, hs, rfl⟩)) fun d _ => full_H (.full hwf) fun _ _ => ?_
  refine quiet_L (slotMask_errs _ _) fun mask _ => quiet_L (by unfold ChallengeAuth.new; exact .ite (.ok _) (.panic _)) fun auth hauth => ?_
  obtain ⟨rfl, _⟩ := authNew_inv hauth
  refine .bind (.of fun e he => ?_) fun size h2 _ => ?_
  · rcases hwrite_auth hlt rfl he with rfl | ⟨rfl, _, _⟩
    · exact .auth hwf hmiss hcode (.inl rfl)
    · exact .auth hwf hmiss hcode (.inr rfl)
  refine quiet_L (subChecked_errs _ _) fun start _ => quiet_H (rspTo_errs _) fun out _ _ => full_H (.full hwf) fun _ _ => quiet_H transcript_errs fun t _ _ => ?_
  refine quiet_L (digest_errs _ _ _ _) fun m1 _ => .bind (.of fun _ _ => .sign hwf hcode) fun sig _ _ => quiet_H ?_ fun _ _ _ => .pure _
  intro s e he
  unfold Responder.patchRsp at he
  split at he
  · split at he <;> simp at he
  · simp at he

theorem dispatch_H (hl : slots.length = c.numSlots) {st : RspState} : TErrAt (Happens c slots req) (Responder.dispatchT c cr env slots st req) h := by
  cases st with
  | version => exact versionHandle_H h0 h8
  | capabilities => exact capabilitiesHandle_H h0 h8
  | algorithms caps => exact algorithmsHandle_H h0 h8 caps
  | idAuth n => exact idAuthHandle_H h0 h8 n
  | challenge n => exact challengeHandle_H h0 h8 hl n
  | error => exact .die _

end handlers

/-! ### C107 -/

/-- The responder with the callers' errors does what the flat one does: it sends the same bytes, returns the same error, aborts when it aborts, and goes on in the same state. -/
theorem c107_same (c : Cfg) (cr : Crypto) (env : Env) (req buf : Bytes) (r : Responder) :
    (∀ out, (Responder.handleMsgT c cr env req buf r).1 = .ok ⟨out, none⟩ ↔ (Responder.handleMsg c cr env req buf r).1 = .ok ⟨out, none⟩) ∧
    (∀ out e, (Responder.handleMsg c cr env req buf r).1 = .ok ⟨out, some e⟩ ↔ ∃ d, (Responder.handleMsgT c cr env req buf r).1 = .ok ⟨out, some d⟩ ∧ d.flat = e) ∧
    (∀ k, (Responder.handleMsgT c cr env req buf r).1 = .panic k ↔ (Responder.handleMsg c cr env req buf r).1 = .panic k) ∧
    (Responder.handleMsgT c cr env req buf r).2 = (Responder.handleMsg c cr env req buf r).2 := by
  obtain ⟨h1, h2⟩ := Responder.handleMsg_agrees c cr env req buf r
  refine ⟨fun out => ?_, fun out e => ?_, fun k => ?_, h2.symm⟩
  all_goals
    generalize (Responder.handleMsg c cr env req buf r).1 = x at h1
    generalize (Responder.handleMsgT c cr env req buf r).1 = y at h1
    cases h1 with
    | @ok o t hs =>
      obtain ⟨g1, g2⟩ := hs
      obtain ⟨o1, o2⟩ := o
      obtain ⟨t1, t2⟩ := t
      dsimp only at g1 g2
      subst g1 g2
      cases t2 <;> simp
    | err => simp
    | panic k => simp

theorem errorFor_flat (d : ResponderError) : errorBytes d.flat = errorFor d := by
  have R : ∀ e : ReadError, e = .bufferEmpty ∨ e = .reservedByteNotZero ∨ e = .unaligned ∨ e = .tooManyBits ∨ e = .typeConversionFailed := by intro e; cases e <;> simp
  rcases d with _ | e | _ | _ | _ | _ | (_ | _) | (_ | _ | _ | _ | _ | e | (_ | _ | _ | e)) | (_ | e) | _ | (_ | e) | (_ | _ | _ | (_ | _)) <;>
    first
    | rfl
    | (rcases R e with rfl | rfl | rfl | rfl | rfl <;> rfl)

variable (h0 : 0 < c.numSlots) (h8 : c.numSlots ≤ 8) (hl : slots.length = c.numSlots) (hn : ∀ a ∈ c.capabilities, ∃ k, (a, k) ∈ capabilityBits)
  (run : RspRun c cr slots es r) {req buf out : Bytes} {d : ResponderError} (hd : (Responder.handleMsgT c cr env req buf r).1 = .ok ⟨out, some d⟩)
include hl h8 run hd

/-- **C107**, on the wire: the bytes that go out with a returned error are those of `errorFor`, under the header of an ERROR, if there is room for them. -/
theorem c107_sent : out = if 2 + (errorFor d).length ≤ buf.length then [0x12, 0x7F] ++ errorFor d else [] := by
  have he := ((c107_same c cr env req buf r).2.1 out d.flat).2 ⟨d, hd, rfl⟩
  rw [← errorFor_flat]
  exact c86_sent h8 hl run he

include h0

theorem happens : Happens c slots req d := by
  have he := ((c107_same c cr env req buf r).2.1 out d.flat).2 ⟨d, hd, rfl⟩
  obtain ⟨st, hlive⟩ := run_live hl h8 run (run_alive hl h8 run he)
  have hD := dispatch_H (cr := cr) (env := env) (req := req) (h := ⟨buf, r.transcript, r.signed⟩) h0 h8 hl (st := st)
  rw [Responder.handleMsgT, hlive.state] at hd
  simp only [Responder.handleT, hlive.slots] at hd
  rcases hx : Responder.dispatchT c cr env slots st req ⟨buf, r.transcript, r.signed⟩ with ⟨⟨size, st'⟩ | e | k, h'⟩
  · rw [hx] at hd
    simp only at hd
    rcases hs : sliceTo h'.rsp size with o | e | k <;> rw [hs] at hd <;> simp at hd
  · rw [hx] at hd
    simp only at hd
    rcases hw : H.write .error (Responder.errorOf e).writeBody h' with ⟨n | e' | k, h''⟩ <;> rw [hw] at hd <;> simp only at hd
    · rcases hs : sliceTo h''.rsp n with o | e' | k <;> rw [hs] at hd <;> simp at hd
      rw [← hd.2]
      exact hD e (by rw [hx])
    · simp at hd
      rw [← hd.2]
      exact hD e (by rw [hx])
    · simp at hd
  · rw [hx] at hd; simp at hd

include hn

/-- **C107**: the error a responder returns says why it refused the request, and is one of four kinds.
* The request may not come now: `ParseHeader` if its code may and only the version is wrong, else `UnexpectedMsgCode`, which tells a code that may come and the first byte of the request.
* It may come and is no valid encoding: the error of the parser for its code, for the first thing that is wrong in its body.
* It is valid and asks for a slot that is not there: `InvalidSlot`.
* It is in order and the responder is `Unable` to answer: no room, a chain too large, or the signer declines. -/
theorem c107_reason :
    (¬ Awaited (lastReq es) req ∧
      (d = .parseHeader ∧ (∃ k, code req = some k ∧ allowed (lastReq es) k = true) ∨
       ∃ x b0, d = .unexpectedMsgCode x b0 ∧ req[0]? = some b0 ∧ allowed (lastReq es) x = true ∧ ∀ k, code req = some k → allowed (lastReq es) k = false)) ∨
    (Awaited (lastReq es) req ∧ ¬ WellFormed c req ∧ ∃ k, code req = some k ∧ FirstWrong c req k d) ∨
    (Awaited (lastReq es) req ∧ WellFormed c req ∧ SlotMissing c slots req ∧ d = .invalidSlot) ∨
    (Awaited (lastReq es) req ∧ WellFormed c req ∧ ¬ SlotMissing c slots req ∧ Unable c cr env slots (conversation (rspMsgs es)) req buf.length d) := by
  have hH := happens h0 h8 hl run hd
  have hR := refusal h0 h8 hl hn run (((c107_same c cr env req buf r).2.1 out d.flat).2 ⟨d, hd, rfl⟩)
  clear hd
  rcases hR with ⟨h1, h2, h3⟩ | ⟨h1, h2, h3⟩ | ⟨h1, h2, h3, h4⟩ | ⟨h1, h2, h3, h4⟩ | ⟨h1, h2, h3, hi, hs, h4⟩
  · refine .inl ⟨h1, ?_⟩
    rw [errorFor_flat] at h2
    have hc : d = .parseHeader ∨ ∃ x g, d = .unexpectedMsgCode x g := by
      clear h3 hH
      unfold errorFor at h2
      split at h2
      · exact .inl rfl
      · exact .inr ⟨_, _, rfl⟩
      all_goals first
        | exact absurd h2 (by decide)
        | (split at h2 <;> exact absurd h2 (by decide))
    rcases hc with rfl | ⟨x, g, rfl⟩
    · rcases h3 with ⟨_, k, hk⟩ | ⟨x, b0, h, _⟩
      · exact .inl ⟨rfl, k, hk⟩
      · simp [ResponderError.flat] at h
    · rcases h3 with ⟨h, _⟩ | ⟨x', b0, h, hk⟩
      · simp [ResponderError.flat] at h
      · simp only [ResponderError.flat, Err.unexpectedMsg.injEq] at h
        obtain ⟨rfl, rfl⟩ := h
        exact .inr ⟨_, _, rfl, hk⟩
  · refine .inr (.inl ⟨h1, h2, ?_⟩)
    rw [errorFor_flat] at h3
    cases hH with
    | header => exact absurd h3 (by simp [errorFor])
    | code x g => exact absurd h3 (by simp [errorFor])
    | malformed hk hd _ => exact ⟨_, hk, hd⟩
    | slot hw | full hw | chain hw | name hw | auth hw | sign hw => exact absurd hw h2
  · refine .inr (.inr (.inl ⟨h1, h2, h3, ?_⟩))
    rw [errorFor_flat] at h4
    cases hH with
    | header => exact absurd h4 (by simp [errorFor])
    | code x g => exact absurd h4 (by simp [errorFor])
    | malformed _ _ hw => exact absurd h2 hw
    | slot => rfl
    | full => exact absurd h4 (by simp [errorFor])
    | chain => exact absurd h4 (by simp [errorFor])
    | name => exact absurd h4 (by simp [errorFor])
    | auth _ hm => exact absurd h3 hm
    | sign => exact absurd h4 (by simp [errorFor])
  · refine .inr (.inr (.inr ⟨h1, h2, h3, ?_⟩))
    rw [errorFor_flat] at h4
    cases hH with
    | header => exact absurd h4 (by simp [errorFor])
    | code x g => exact absurd h4 (by simp [errorFor])
    | malformed _ _ hw => exact absurd h2 hw
    | slot _ hm => exact absurd hm h3
    | full => exact .full
    | chain _ hs ht hk => exact .chain hs ht hk
    | name => exact absurd h4 (by simp [errorFor])
    | auth _ _ _ he => rcases he with rfl | rfl <;> exact absurd h4 (by simp [errorFor])
    | sign => exact absurd h4 (by simp [errorFor])
  · have hm : ¬ SlotMissing c slots req := by
      rintro ⟨j, hj, ⟨hc, _⟩ | ⟨_, hm⟩⟩
      · rw [h3] at hc; exact absurd hc (by decide)
      · rw [hi, Option.some.injEq] at hj
        subst hj
        exact hm _ hs
    refine .inr (.inr (.inr ⟨h1, h2, hm, ?_⟩))
    rw [errorFor_flat] at h4
    cases hH with
    | header => exact absurd h4 (by simp [errorFor])
    | code x g => exact absurd h4 (by simp [errorFor])
    | malformed _ _ hw => exact absurd h2 hw
    | slot _ hm' => exact absurd hm' hm
    | full => exact .full
    | chain _ hs ht hk => exact .chain hs ht hk
    | name _ hk => rw [h3] at hk; exact absurd hk (by decide)
    | auth _ _ _ he =>
      rcases he with rfl | rfl
      · exact .auth h3
      · rcases h4 with h4 | ⟨_, h4⟩ | ⟨h4, _⟩
        · exact absurd h4 (by simp [errorFor])
        · exact .opaqueData h3 hi hs h4
        · exact absurd h4 (by simp [errorFor])
    | sign =>
      rcases h4 with h4 | ⟨h4, _⟩ | ⟨_, mask, hmask, h4⟩
      · exact absurd h4 (by simp [errorFor])
      · exact absurd h4 (by simp [errorFor])
      · exact .sign h3 hi hs hmask h4

omit h0 h8 hl hn run hd in
theorem Spec.FirstWrong.malformed {k : UInt8} (h : FirstWrong c req k d) : Malformed k d := by
  cases h <;> simp [Malformed]

/-- C107, which error means what: the kinds of the errors tell the four reasons apart. -/
theorem c107_kinds :
    ((d = .parseHeader ∨ ∃ x g, d = .unexpectedMsgCode x g) ↔ ¬ Awaited (lastReq es) req) ∧
    ((∃ k, Malformed k d) ↔ Awaited (lastReq es) req ∧ ¬ WellFormed c req) ∧
    (d = .invalidSlot ↔ Awaited (lastReq es) req ∧ WellFormed c req ∧ SlotMissing c slots req) := by
  have hM : ∀ k, Malformed k d → d ≠ .parseHeader ∧ (∀ x g, d ≠ .unexpectedMsgCode x g) ∧ d ≠ .invalidSlot := by
    rintro k (⟨_, e, rfl⟩ | ⟨_, e, rfl⟩ | ⟨_, e, rfl⟩ | ⟨_, e, rfl⟩) <;> simp
  have hU : Unable c cr env slots (conversation (rspMsgs es)) req buf.length d →
      d ≠ .parseHeader ∧ (∀ x g, d ≠ .unexpectedMsgCode x g) ∧ d ≠ .invalidSlot ∧ ∀ k, ¬ Malformed k d := by
    intro h
    cases h <;> simp [Malformed]
  rcases c107_reason h0 h8 hl hn run hd with ⟨h1, h2⟩ | ⟨h1, h2, k, _, h3'⟩ | ⟨h1, h2, h3, h4⟩ | ⟨h1, h2, h3, h4⟩
  · have : d = .parseHeader ∨ ∃ x g, d = .unexpectedMsgCode x g := by
      rcases h2 with ⟨h, _⟩ | ⟨x, g, h, _⟩
      · exact .inl h
      · exact .inr ⟨x, g, h⟩
    refine ⟨⟨fun _ => h1, fun _ => this⟩, ⟨fun ⟨k, hk⟩ => ?_, fun h => absurd h.1 h1⟩, ⟨fun h => ?_, fun h => absurd h.1 h1⟩⟩
    · obtain ⟨g1, g2, _⟩ := hM k hk
      rcases this with h | ⟨x, g, h⟩
      · exact absurd h g1
      · exact absurd h (g2 x g)
    · rw [h] at this; simp at this
  · have h3 := h3'.malformed
    obtain ⟨g1, g2, g3⟩ := hM k h3
    exact ⟨⟨fun h => (h.elim g1 fun ⟨x, g, h⟩ => g2 x g h).elim, fun h => absurd h1 h⟩, ⟨fun _ => ⟨h1, h2⟩, fun _ => ⟨k, h3⟩⟩, ⟨fun h => absurd h g3, fun h => absurd h.2.1 h2⟩⟩
  · subst h4
    exact ⟨⟨fun h => by simp at h, fun h => absurd h1 h⟩, ⟨fun ⟨k, hk⟩ => absurd rfl (hM k hk).2.2, fun h => absurd h2 h.2⟩, ⟨fun _ => ⟨h1, h2, h3⟩, fun _ => rfl⟩⟩
  · obtain ⟨g1, g2, g3, g4⟩ := hU h4
    exact ⟨⟨fun h => (h.elim g1 fun ⟨x, g, h⟩ => g2 x g h).elim, fun h => absurd h1 h⟩, ⟨fun ⟨k, hk⟩ => absurd hk (g4 k), fun h => absurd h2 h.2⟩,
      ⟨fun h => absurd h g3, fun h => absurd h.2.2 h3⟩⟩

/-- C107: a malformed request that does not end too early (and announces no more than 128 bytes) is never answered with "request too large", and the three read errors that a reader of
whole bytes cannot meet are never returned. -/
theorem c107_malformed (ha : Awaited (lastReq es) req) (hw : ¬ WellFormed c req) :
    errorFor d = [0x01, 0] ∨ errorFor d = [0x0E, 0] ∧ CutShort c req := by
  rw [← errorFor_flat]
  exact c86_malformed h0 h8 hl hn run (((c107_same c cr env req buf r).2.1 out d.flat).2 ⟨d, hd, rfl⟩) ha hw

/-- C107: the values that are never returned, in a configuration with known capability names. -/
theorem c107_never : d ≠ .parseCapability ∧ d ≠ .writeChallengeAuth .maxSlotNumberExceeded ∧ d ≠ .writeChallengeAuth .maxOpaqueDataSizeExceeded ∧
    d ≠ .writeChallengeAuth (.writeOpaqueElement .invalidVendorId) ∧
    ∀ e, e = .unaligned ∨ e = .tooManyBits ∨ e = .typeConversionFailed →
      d ≠ .read e ∧ d ≠ .parseGetCapabilities (.read e) ∧ d ≠ .parseNegotiateAlgorithms (.read e) ∧ d ≠ .parseChallenge (.read e) := by
  have key := c107_reason h0 h8 hl hn run hd
  have hmal := fun ha hw => c107_malformed h0 h8 hl hn run hd ha hw
  clear hd
  rcases key with ⟨_, h2⟩ | ⟨h1, h2, k, _, h3⟩ | ⟨_, _, _, rfl⟩ | ⟨_, _, _, h4⟩
  · rcases h2 with ⟨rfl, _⟩ | ⟨x, g, rfl, _⟩ <;> simp
  · have hb := hmal h1 h2
    refine ⟨?_, ?_, ?_, ?_, fun e he => ⟨?_, ?_, ?_, ?_⟩⟩
    all_goals
      rintro rfl
      first
        | (rcases he with rfl | rfl | rfl <;> simp [errorFor] at hb)
        | cases h3
  · simp
  · cases h4 <;> simp

omit h0 h8 hl hn run hd

/-- C107 under a configuration the build accepts. -/
theorem c107_built {crypto : Bool} {i : SpdmConfig} {nonceSize : Nat} (hv : ValidConfig crypto i) (hb : Built crypto i nonceSize c) (hl : slots.length = i.numSlots)
    (run : RspRun c cr slots es r) {req buf out : Bytes} {d : ResponderError} (hd : (Responder.handleMsgT c cr env req buf r).1 = .ok ⟨out, some d⟩) :
    ((d = .parseHeader ∨ ∃ x g, d = .unexpectedMsgCode x g) ↔ ¬ Awaited (lastReq es) req) ∧
    ((∃ k, Malformed k d) ↔ Awaited (lastReq es) req ∧ ¬ WellFormed c req) ∧
    (d = .invalidSlot ↔ Awaited (lastReq es) req ∧ WellFormed c req ∧ SlotMissing c slots req) ∧
    (Awaited (lastReq es) req ∧ ¬ WellFormed c req → ∃ k, code req = some k ∧ FirstWrong c req k d) ∧
    d ≠ .parseCapability ∧
    out = if 2 + (errorFor d).length ≤ buf.length then [0x12, 0x7F] ++ errorFor d else [] := by
  have h0 : 0 < c.numSlots := by rw [hb.numSlots]; exact hv.slots.1
  have h8 : c.numSlots ≤ 8 := by rw [hb.numSlots]; exact hv.slots.2
  have hl' : slots.length = c.numSlots := by rw [hb.numSlots]; exact hl
  have hn : ∀ a ∈ c.capabilities, ∃ k, (a, k) ∈ capabilityBits := by rw [hb.capabilities]; exact hv.names
  obtain ⟨h1, h2, h3⟩ := c107_kinds h0 h8 hl' hn run hd
  refine ⟨h1, h2, h3, fun h => ?_, (c107_never h0 h8 hl' hn run hd).1, c107_sent h8 hl' run hd⟩
  rcases c107_reason h0 h8 hl' hn run hd with ⟨g, _⟩ | ⟨_, _, k, g⟩ | ⟨_, g, _⟩ | ⟨_, g, _⟩
  · exact absurd h.1 g
  · exact ⟨k, g⟩
  · exact absurd g h.2
  · exact absurd g h.2

/-! ### Non-vacuity -/

/-- The error returned for one more request of the demonstration session. -/
def demoReturned (n : Nat) (req : Bytes) (room : Nat) : Option ResponderError :=
  match (Responder.handleMsgT demoCfg demoCrypto demoEnv req (zeros room) (demoResponder n)).1 with
  | .ok ⟨_, some d⟩ => some d
  | _ => none

-- a wrong code, a wrong version
example : demoReturned 2 [0x11, 0x82, 0, 0, 0, 0, 0, 1] 200 = some (.unexpectedMsgCode 0xE3 0x11) := by decide +kernel
example : demoReturned 1 [0x10, 0xE1, 0, 0, 0, 0, 0, 0, 0, 0, 0, 0] 200 = some .parseHeader := by decide +kernel
-- each of the four parsers
example : demoReturned 0 [0x10, 0x84, 0] 200 = some (.read .bufferEmpty) := by decide +kernel
example : demoReturned 1 [0x11, 0xE1, 0, 0, 1, 0, 0, 0, 0, 0, 0, 0] 200 = some (.parseGetCapabilities (.read .reservedByteNotZero)) := by decide +kernel
example : demoReturned 1 [0x11, 0xE1, 0, 0, 0, 0, 0, 0, 0xFF, 0xFF, 0xFF, 0xFF] 200 = some (.parseGetCapabilities .invalidBitsSet) := by decide +kernel
example : demoReturned 2 [0x11, 0xE3, 0, 0, 129, 0] 200 = some (.parseNegotiateAlgorithms .tooLarge) := by decide +kernel
example : demoReturned 5 [0x11, 0x83, 0, 2, 1, 2, 3, 4] 200 = some (.parseChallenge .invalidMeasurementHashType) := by decide +kernel
-- slots
example : demoReturned 4 [0x11, 0x82, 2, 0, 0, 0, 0, 1] 200 = some .invalidSlot := by decide +kernel
example : demoReturned 5 [0x11, 0x83, 1, 0xFF, 1, 2, 3, 4] 200 = some .invalidSlot := by decide +kernel
-- no room
example : demoReturned 0 [0x10, 0x84, 0, 0] 9 = some .bufferFull := by decide +kernel
example : demoReturned 5 demoChallenge 73 = some (.writeChallengeAuth .bufferFull) := by decide +kernel
example : demoReturned 5 demoChallenge 75 = some (.writeChallengeAuth (.writeOpaqueElement .bufferFull)) := by decide +kernel
-- a signer that declines
example : (Responder.handleMsgT demoCfg demoCrypto demoEnv demoChallenge (zeros 200)
    (after demoCfg demoCrypto (Responder.new demoCfg [some ⟨0x10, 1, demoSessionChain, fun _ _ => none⟩, none]) (demoCalls 5))).1 =
    .ok ⟨[0x12, 0x7F, 0x05, 0], some .signingFailed⟩ := by decide +kernel
-- a chain of more than 64 bytes in a build for 64
example : (Responder.handleMsgT demoCfg demoCrypto demoEnv demoGetDigests (zeros 200)
    (after demoCfg demoCrypto (Responder.new demoCfg [some ⟨0x10, 1, { demoSessionChain with rootHash := zeros 64 }, fun _ _ => none⟩, none]) (demoCalls 3))).1 =
    .ok ⟨[0x12, 0x7F, 0x0F, 0, 0], some (.writeCertChain .bufferFull)⟩ := by decide +kernel
-- and the theorems apply to them
example : Unable demoCfg demoCrypto demoEnv demoSlots (conversation (rspMsgs (demoEvents 5))) demoChallenge 75 (.writeChallengeAuth (.writeOpaqueElement .bufferFull)) := by
  have hd : (Responder.handleMsgT demoCfg demoCrypto demoEnv demoChallenge (zeros 75) (demoResponder 5)).1 = .ok ⟨[0x12, 0x7F, 0x01, 0], some (.writeChallengeAuth (.writeOpaqueElement .bufferFull))⟩ := by
    decide +kernel
  have hn : ∀ a ∈ demoCfg.capabilities, ∃ k, (a, k) ∈ capabilityBits := by
    intro a ha
    have : a = "CERT_CAP" ∨ a = "CHAL_CAP" := by simpa [demoCfg] using ha
    rcases this with rfl | rfl
    · exact ⟨_, by simp [capabilityBits]; rfl⟩
    · exact ⟨_, by simp [capabilityBits]; rfl⟩
  rcases c107_reason (by decide) (by decide) rfl hn (demo_run 5) hd with ⟨_, h⟩ | ⟨_, _, k, _, h⟩ | ⟨_, _, _, h⟩ | ⟨_, _, _, h⟩
  · simp at h
  · cases h
  · simp at h
  · simpa [zeros] using h

end Spdm
