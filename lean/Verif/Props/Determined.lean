import Verif.Props.RspErrors
import Verif.Props.Faults4
import Verif.Spec.Determined
/-! C124: the outcome of every request, by the first check that fails. -/
namespace Spdm
open Spec Spec.Faults

variable {c : Cfg} {cr : Crypto} {env : Env} {slots : List (Option FilledSlot)} {mask : UInt8} {es : List RspEvent} {r : Responder}

/-! ### Tables -/

theorem need_here {ε : Type} {p : Prop} {e : ε} {cs : Checks ε} (h : ¬ p) : First (need p e cs) (.error e) := .here h
theorem need_later {ε : Type} {p : Prop} {e : ε} {cs : Checks ε} {f : Fault ε} (h : p) (hf : First cs f) : First (need p e cs) f := .later h hf
theorem abort_here {ε : Type} {p : Prop} {cs : Checks ε} (h : ¬ p) : First (orAbort p cs) .abort := .here h
theorem abort_later {ε : Type} {p : Prop} {cs : Checks ε} {f : Fault ε} (h : p) (hf : First cs f) : First (orAbort p cs) f := .later h hf
theorem need_all {ε : Type} {p : Prop} {e : ε} {cs : Checks ε} (h : p) (hf : AllMet cs) : AllMet (need p e cs) := allMet_cons h hf
theorem abort_all {ε : Type} {p : Prop} {cs : Checks ε} (h : p) (hf : AllMet cs) : AllMet (orAbort p cs) := allMet_cons h hf

theorem within_later {δ ε : Type} {w : δ → ε} {part : Checks δ} {rest : Checks ε} {f : Fault ε} (h : AllMet part) (hf : First rest f) : First (within w part rest) f := by
  refine First.after (fun x hx => ?_) hf
  obtain ⟨y, hy, rfl⟩ := List.mem_map.1 hx
  exact h y hy

theorem within_all {δ ε : Type} {w : δ → ε} {part : Checks δ} {rest : Checks ε} (h : AllMet part) (hf : AllMet rest) : AllMet (within w part rest) := by
  refine AllMet.append (fun x hx => ?_) hf
  obtain ⟨y, hy, rfl⟩ := List.mem_map.1 hx
  exact h y hy

theorem within_here {δ ε : Type} {w : δ → ε} {part : Checks δ} {rest : Checks ε} {e : δ} (h : First part (.error e)) : First (within w part rest) (.error (w e)) := by
  refine First.append ?_
  generalize hf : Fault.error e = f at h
  induction h with
  | here hp => subst hf; exact .here hp
  | later hp _ ih => exact .later hp (ih hf)

theorem first_or_all {ε : Type} (cs : Checks ε) : AllMet cs ∨ ∃ f, First cs f := by
  induction cs with
  | nil => exact .inl allMet_nil
  | cons x cs ih =>
    obtain ⟨p, f⟩ := x
    by_cases hp : p
    · rcases ih with h | ⟨g, h⟩
      · exact .inl (allMet_cons hp h)
      · exact .inr ⟨g, .later hp h⟩
    · exact .inr ⟨f, .here hp⟩

/-- A parser that succeeds met its requirements. -/
theorem all_of_ok {ε α : Type} {f : Err → ε} {x : Res α} {cs : Checks ε} {a : α} (h : Outcome cs (Out.of f x)) (he : x = .ok a) : AllMet cs := by subst he; exact h

theorem chain_later {o : Option FilledSlot} {rest : Checks ResponderError} {f : Fault ResponderError} (h : ChainFits c o) (hf : First rest f) : First (chainChecks c o rest) f :=
  need_later h.2 (need_later h.1 hf)

theorem chain_all {o : Option FilledSlot} {rest : Checks ResponderError} (h : ChainFits c o) (hf : AllMet rest) : AllMet (chainChecks c o rest) := need_all h.2 (need_all h.1 hf)

theorem chain_here {s : FilledSlot} {rest : Checks ResponderError} {e : WriteCertificateChainError} (h : TooLarge c s.certChain e) :
    First (chainChecks c (some s) rest) (.error (.writeCertChain e)) := by
  rcases h with ⟨rfl, h⟩ | ⟨rfl, h, h'⟩
  · exact need_here (by simp only [chainBytes]; omega)
  · exact need_later (by simp only [chainBytes]; omega) (need_here (by simp only [chainBytes]; omega))

theorem digest_all {h : Nat} {rest : Checks ResponderError} (hf : ∀ s, some s ∈ slots → ChainFits c (some s) ∧ Digestible c cr h (Wire.chain s.certChain)) (hr : AllMet rest) :
    AllMet (digestChecks c cr h slots rest) := by
  induction slots with
  | nil => exact hr
  | cons o ss ih =>
    have ih := ih fun s hs => hf s (List.mem_cons_of_mem _ hs)
    cases o with
    | none => exact ih
    | some s =>
      obtain ⟨h1, h2⟩ := hf s (List.mem_cons_self ..)
      exact chain_all h1 (abort_all h2 ih)

theorem digest_later {h : Nat} {rest : Checks ResponderError} {f : Fault ResponderError} (hf : ∀ s, some s ∈ slots → ChainFits c (some s) ∧ Digestible c cr h (Wire.chain s.certChain))
    (hr : First rest f) : First (digestChecks c cr h slots rest) f := by
  induction slots with
  | nil => exact hr
  | cons o ss ih =>
    have ih := ih fun s hs => hf s (List.mem_cons_of_mem _ hs)
    cases o with
    | none => exact ih
    | some s =>
      obtain ⟨h1, h2⟩ := hf s (List.mem_cons_self ..)
      exact chain_later h1 (abort_later h2 ih)

theorem digest_here {h k : Nat} {s : FilledSlot} {rest : Checks ResponderError} {f : Fault ResponderError} (hs : slots[k]? = some (some s))
    (before : ∀ j s', j < k → slots[j]? = some (some s') → ChainFits c (some s') ∧ Digestible c cr h (Wire.chain s'.certChain))
    (hf : ∀ rest', First (chainChecks c (some s) (orAbort (Digestible c cr h (Wire.chain s.certChain)) rest')) f) : First (digestChecks c cr h slots rest) f := by
  induction slots generalizing k with
  | nil => simp at hs
  | cons o ss ih =>
    cases k with
    | zero =>
      simp only [List.getElem?_cons_zero, Option.some.injEq] at hs
      subst hs
      exact hf _
    | succ k =>
      have ih := ih (k := k) (by simpa using hs) fun j s' hj hs' => before (j + 1) s' (by omega) (by simpa using hs')
      cases o with
      | none => exact ih
      | some s' =>
        obtain ⟨h1, h2⟩ := before 0 s' (by omega) (by simp)
        exact chain_later h1 (abort_later h2 ih)

/-! ### What the steps of the handlers say when they fail -/

theorem hashLoop_first {algo : UInt32} {chains : List (Option CertificateChain)} {e : Err} (n i : Nat) (buf : Bytes) (ds : List (Option Bytes)) (hb : buf.length = c.maxCertChainSize)
    (h : Responder.hashLoop c cr algo chains n i buf ds = .err e) : ∃ (k : Nat) (ch : CertificateChain), i ≤ k ∧ chains[k]? = some (some ch) ∧ TooLarge c ch (.from e) ∧
      ∀ j ch', i ≤ j → j < k → chains[j]? = some (some ch') → FitsBuf c ch' ∧ HashOk c cr algo ch' := by
  induction n generalizing i buf ds with
  | zero => simp [Responder.hashLoop] at h
  | succ n ih =>
    unfold Responder.hashLoop at h
    rcases hi : index chains i with ch | e' | k
    · rw [hi] at h
      simp only [Res.ok_bind] at h
      have hgi := index_inv hi
      cases ch with
      | none =>
        obtain ⟨k, ch, h1, h2, h3, h4⟩ := ih _ _ _ hb h
        refine ⟨k, ch, by omega, h2, h3, fun j ch' hj hjk hch' => h4 j ch' ?_ hjk hch'⟩
        rcases Nat.lt_or_ge i j with h | h
        · exact h
        · have : j = i := by omega
          subst this
          rw [hgi] at hch'; simp at hch'
      | some ch =>
        simp only at h
        rcases hw : Responder.writeChain ch buf with ⟨n' | e' | k, buf'⟩
        · rw [hw] at h
          simp only [Res.ok_bind] at h
          obtain ⟨rfl, g1, g2, hlen, rfl⟩ := writeChain_inv hw
          rw [sliceTo_ok (by simp), List.take_left' rfl, Res.ok_bind] at h
          rcases hd : cr.digest c algo (Wire.chain ch) with d | e' | k
          · rw [hd] at h
            simp only [Res.ok_bind] at h
            obtain ⟨q1, q2, q3, q4⟩ := digest_inv hd
            rcases hx : setIndex ds i (some d) with ds' | e' | k
            · rw [hx] at h
              obtain ⟨k, ch2, h1, h2, h3, h4⟩ := ih _ _ _ (by rw [hlen, hb]) h
              refine ⟨k, ch2, by omega, h2, h3, fun j ch' hj hjk hch' => ?_⟩
              rcases Nat.lt_or_ge i j with hlt | hge
              · exact h4 j ch' hlt hjk hch'
              · have : j = i := by omega
                subst this
                rw [hgi] at hch'
                simp only [Option.some.injEq] at hch'
                subst hch'
                exact ⟨⟨by omega, g2⟩, q4, q1, by rw [← q2]; exact q3⟩
            · exact (RErrIn.setIndex (S := fun _ => False) _ _ _ e' hx).elim
            · rw [hx] at h; simp at h
          · exact (digest_errs (S := fun _ => False) _ _ _ _ e' hd).elim
          · rw [hd] at h; simp at h
        · have := writeChain_too_large (ch := ch) hb (e := e') (by rw [hw])
          rw [hw] at h
          have he : e' = e := by simpa using h
          subst he
          exact ⟨i, ch, Nat.le_refl _, hgi, this, fun j _ hj hjk => by omega⟩
        · rw [hw] at h; simp at h
    · exact (RErrIn.index (S := fun _ => False) _ _ e' hi).elim
    · rw [hi] at h; simp at h

theorem chainDigest_ok {algo : UInt32} {ch : CertificateChain} {d : Bytes} (h : Responder.chainDigest c cr algo ch = .ok d) : FitsBuf c ch ∧ HashOk c cr algo ch := by
  obtain ⟨h1, h2, h3, h4, h5⟩ := chainDigest_inv h
  refine ⟨⟨h5, h4⟩, ?_, h1, by rw [← h2]; exact h3⟩
  unfold Responder.chainDigest at h
  rw [writeChain_run h4 (by simpa using h5)] at h
  simp only [Res.ok_bind] at h
  rw [sliceTo_ok (by simp), List.take_left' rfl, Res.ok_bind] at h
  exact (digest_inv h).2.2.2

theorem imp_cases {p q : Prop} (h : p → q) : (q ∧ p) ∨ ¬ p := (Classical.em p).imp (fun hp => ⟨h hp, hp⟩) id

/-- Which of the two errors a CHALLENGE_AUTH that does not fit gives. -/
theorem challengeAuth_exact {m : ChallengeAuth} (hs : m.slot.toNat < c.numSlots) (ho : m.opaqueData = OpaqueData.dflt c) {w : Writer} (hw : w.WF) :
    ErrAt (fun e => e = .bufferFull ∧ (w.room < authBefore m ∨ authBefore m + 4 ≤ w.room ∧ w.room < authBefore m + 4 + m.signature.length) ∨
      e = .opaqueFull ∧ authBefore m ≤ w.room ∧ w.room < authBefore m + 4) (m.writeBody c) w := by
  have hsz : m.opaqueData.serializedSize = .ok 4 := by
    rw [ho]
    unfold OpaqueData.serializedSize OpaqueData.dflt
    rw [sliceTo_ok (by simp)]
    simp
  unfold ChallengeAuth.writeBody
  refine .lift (fun e he => ?_) fun _ _ => ?_
  · exfalso
    unfold ChallengeAuth.validate at he
    rw [if_neg (by omega), hsz] at he
    simp [maxOpaqueDataSize] at he
  refine wstep (.put _) (put_errs _) hw (fun h => .inl ⟨rfl, .inl ?_⟩) fun r1 w1 q1 _ => ?_
  · simp only [List.length_singleton] at h; unfold authBefore; omega
  simp only [List.length_singleton] at q1 r1
  refine wstep (.put _) (put_errs _) w1 (fun h => .inl ⟨rfl, .inl ?_⟩) fun r2 w2 q2 _ => ?_
  · simp only [List.length_singleton] at h; unfold authBefore; omega
  simp only [List.length_singleton] at q2 r2
  refine wstep (.extend _) (wextend_errs _) w2 (fun h => .inl ⟨rfl, .inl (by unfold authBefore; omega)⟩) fun r3 w3 q3 _ => ?_
  refine wstep (.extend _) (wextend_errs _) w3 (fun h => .inl ⟨rfl, .inl (by unfold authBefore; omega)⟩) fun r4 w4 q4 _ => ?_
  refine wstep (.extend _) (wextend_errs _) w4 (fun h => .inl ⟨rfl, .inl (by unfold authBefore; omega)⟩) fun r5 w5 q5 _ => ?_
  refine .lift (by rw [hsz]; exact .ok _) fun n hn => ?_
  refine wstep (.putU16 _) (putAll_errs _) w5 (fun h => .inl ⟨rfl, .inl ?_⟩) fun r6 w6 q6 _ => ?_
  · rw [leBytes_length] at h; unfold authBefore; omega
  rw [leBytes_length] at q6 r6
  have hin : ErrIn (fun e => e = .opaqueFull) m.opaqueData.write := by
    unfold OpaqueData.write
    refine .mapErr (S := Full) ?_ (fun e he => by rw [he]; rfl)
    rw [ho]
    refine (put_errs _).bind fun _ => (putAll_errs _).bind fun _ => ?_
    unfold OpaqueData.dflt
    rw [sliceTo_ok (by simp)]
    exact offsetM_errs
  have hwr : Writes m.opaqueData.write id (zeros 4) := by
    rw [ho, ← dflt_opaque_wire c]
    exact OpaqueData.writes (dflt_opaque c)
  refine .bind (fun e he => ?_) fun a v' hv' => ?_
  · have h4 := writes_err_room hwr w6 he
    simp only [zeros, List.length_replicate] at h4
    refine .inr ⟨hin _ e he, ?_⟩
    unfold authBefore
    omega
  · obtain ⟨g1, g2⟩ := hwr _ w6
    simp only [zeros, List.length_replicate] at g1 g2
    rcases imp_cases g1 with ⟨this, h4⟩ | h4
    · rw [hv'] at this
      simp only [Prod.mk.injEq] at this
      obtain ⟨_, rfl⟩ := this
      have w7 := Writer.app_wf w6 (bs := zeros 4) (by simpa [zeros] using h4)
      have q7 := Writer.app_room w6 (bs := zeros 4) (by simpa [zeros] using h4)
      simp only [zeros, List.length_replicate] at q7 w7
      refine wstep (.extend _) (wextend_errs _) w7 (fun h => .inl ⟨rfl, .inr ?_⟩) fun r8 w8 q8 _ => .of (T := fun _ => False) offsetM_errs (fun _ h => h.elim)
      unfold authBefore
      constructor <;> omega
    · obtain ⟨e, n, _, _, h5⟩ := g2 (by omega)
      rw [hv'] at h5; simp at h5

theorem hwrite_exact {m : ChallengeAuth} (hs : m.slot.toNat < c.numSlots) (ho : m.opaqueData = OpaqueData.dflt c) {h : HState} {e : Err}
    (he : (H.write .challengeAuth (m.writeBody c) h).1 = .err e) :
    e = .bufferFull ∧ (h.rsp.length < 2 + authBefore m ∨ 2 + authBefore m + 4 ≤ h.rsp.length ∧ h.rsp.length < 2 + authBefore m + 4 + m.signature.length) ∨
    e = .opaqueFull ∧ 2 + authBefore m ≤ h.rsp.length ∧ h.rsp.length < 2 + authBefore m + 4 := by
  have h1 : ErrAt (fun e => e = .bufferFull ∧ (h.rsp.length < 2 + authBefore m ∨ 2 + authBefore m + 4 ≤ h.rsp.length ∧ h.rsp.length < 2 + authBefore m + 4 + m.signature.length) ∨
      e = .opaqueFull ∧ 2 + authBefore m ≤ h.rsp.length ∧ h.rsp.length < 2 + authBefore m + 4)
      (MsgType.writeMsg .challengeAuth (m.writeBody c)) (Writer.new h.rsp) := by
    have hroom : (Writer.new h.rsp).room = h.rsp.length := by simp [Writer.new, Writer.room]
    have hwf : (Writer.new h.rsp).WF := by simp [Writer.new, Writer.WF]
    unfold MsgType.writeMsg MsgType.writeHeader
    refine wstep (Writes.bind (.put _) fun _ => .put _) ((put_errs _).bind fun _ => put_errs _) hwf (fun h => .inl ⟨rfl, .inl ?_⟩) fun r1 w2 q1 _ => ?_
    · simp only [List.length_append, List.length_singleton] at h; omega
    intro e he
    simp only [List.length_append, List.length_singleton] at q1 r1
    rcases challengeAuth_exact hs ho w2 e he with ⟨g, h⟩ | ⟨g, h⟩
    · exact .inl ⟨g, by omega⟩
    · exact .inr ⟨g, by omega, by omega⟩
  exact h1 e (by simpa [H.write, MsgType.write] using he)

/-! ### What each state returns -/

section handlers
variable {p : Option UInt8} {l : Log} {req : Bytes} {room : Nat} {h : HState}

theorem getD_of {b : UInt8} {i : Nat} (h : req[i]? = some b) : req.getD i 0 = b := by rw [List.getD_eq_getElem?_getD, h]; rfl

theorem body_first {t : MsgType} {f : Fault ResponderError} (ht : requestHeader t.spdmCode = Wire.header t) (ha : allowed p t.spdmCode = true) (h3 : 3 ≤ req.length)
    (hh : req.take 2 = Wire.header t) (hf : First (bodyChecks c cr env slots mask room p l req t.spdmCode) f) : First (requestChecks c cr env slots mask room p l req) f := by
  have hc := code_of_header hh
  refine abort_later h3 (need_later ⟨_, hc, ha⟩ (need_later ⟨_, ha, by rw [hh, ht]⟩ ?_))
  rw [getD_of hc]
  exact hf

theorem body_all {t : MsgType} (ht : requestHeader t.spdmCode = Wire.header t) (ha : allowed p t.spdmCode = true) (h3 : 3 ≤ req.length)
    (hh : req.take 2 = Wire.header t) (hf : AllMet (bodyChecks c cr env slots mask room p l req t.spdmCode)) : AllMet (requestChecks c cr env slots mask room p l req) := by
  have hc := code_of_header hh
  refine abort_all h3 (need_all ⟨_, hc, ha⟩ (need_all ⟨_, ha, by rw [hh, ht]⟩ ?_))
  rw [getD_of hc]
  exact hf

theorem header_first {t : MsgType} {e : Err} (ht : requestHeader t.spdmCode = Wire.header t) (ha : allowed p t.spdmCode = true) (he : t.parseHeader req = .err e) :
    First (requestChecks c cr env slots mask room p l req) (.error .parseHeader) := by
  obtain ⟨h1, _, h2⟩ := not_awaited_of_err (p := p) ht ha he
  have h3 : 3 ≤ req.length := by
    by_contra hc
    unfold MsgType.parseHeader at he
    rw [if_pos (by omega)] at he
    simp at he
  rcases h2 with ⟨_, h2⟩ | ⟨x, b0, rfl, _⟩
  · exact abort_later h3 (need_later h2 (need_here h1))
  · unfold MsgType.parseHeader at he
    rw [if_neg (by omega)] at he
    split at he
    · split at he
      · simp at he
      · split at he <;> simp at he
    · simp at he

theorem code_first {b0 : UInt8} (h3 : 3 ≤ req.length) (hb : req[0]? = some b0) (hno : ∀ k, code req = some k → allowed p k = false) :
    First (requestChecks c cr env slots mask room p l req) (.error (.unexpectedMsgCode (namedCode p) b0)) := by
  rw [← getD_of hb]
  refine abort_later h3 (need_here ?_)
  rintro ⟨k, hk, ha⟩
  rw [hno k hk] at ha
  simp at ha

theorem expect_first {t : MsgType} (ht : requestHeader t.spdmCode = Wire.header t) (ha : allowed p t.spdmCode = true) (hn : namedCode p = t.spdmCode)
    (hp : ∀ k, code req = some k → allowed p k = true → k = t.spdmCode) (e : Err) (he : Responder.expect t req = .err e) :
    First (requestChecks c cr env slots mask room p l req) (.error (Responder.expectErr e)) := by
  unfold Responder.expect at he
  rcases hd : t.parseHeader req with b | e' | k
  · cases b with
    | true => rw [hd] at he; simp at he
    | false =>
      rw [hd] at he
      simp only at he
      have hno : ∀ k, code req = some k → allowed p k = false := by
        intro k hk
        by_contra hc
        have := hp k hk (by simpa using hc)
        subst this
        refine (parseHeader_false hd).2 ?_
        rw [show req[1]? = some t.spdmCode from hk]
        cases t <;> rfl
      rcases hi : index req 0 with b0 | e0 | k0
      · rw [hi] at he
        simp only [Res.ok_bind, Res.err.injEq] at he
        rw [← he]
        simp only [Responder.expectErr]
        rw [← hn]
        exact code_first (parseHeader_false hd).1 (index_inv hi) hno
      · exact absurd (RErrIn.index (S := fun _ => False) req 0 e0 hi) (by simp)
      · rw [hi] at he; simp at he
  · rw [hd] at he
    have hpe : e' = .parseHeader := by
      unfold MsgType.parseHeader at hd
      split at hd
      · simp at hd
      · split at hd
        · split at hd
          · simp at hd
          · split at hd <;> simp at hd
            exact hd.symm
        · simp at hd
    simp only [Res.err.injEq] at he
    rw [← he, hpe]
    exact header_first ht ha hd
  · rw [hd] at he; simp at he

/-- The request cannot be answered in the given room. -/
def NoReply (c : Cfg) (cr : Crypto) (env : Env) (slots : List (Option FilledSlot)) (room : Nat) (p : Option UInt8) (l : Log) (req : Bytes) : Prop :=
  ¬ ∃ out, Reply c cr env slots p l req out ∧ out.length ≤ room ∧ ((l.add req).add out).text.length ≤ c.transcriptSize

theorem reply_first {out : Bytes} (hr : Reply c cr env slots p l req out) (hno : NoReply c cr env slots room p l req) :
    First (replyChecks c cr env slots room p l req) (.error .bufferFull) := by
  by_cases h1 : ∀ out, Reply c cr env slots p l req out → out.length ≤ room
  · exact need_later h1 (need_here fun h2 => hno ⟨out, hr, h1 _ hr, h2 _ hr⟩)
  · exact need_here h1

theorem replies_all (h0 : 0 < c.numSlots) (h8 : c.numSlots ≤ 8) {out : Bytes} (hr : Reply c cr env slots p l req out) (hb : out.length ≤ room)
    (ht : ((l.add req).add out).text.length ≤ c.transcriptSize) : AllMet (replyChecks c cr env slots room p l req) := by
  refine need_all (fun o ho => ?_) (need_all (fun o ho => ?_) allMet_nil)
  · rw [ho.unique h0 h8 hr]; exact hb
  · rw [ho.unique h0 h8 hr]; exact ht

/-- `transcript.extend(bs)?`, exactly. -/
theorem extend_H {S : ResponderError → Prop} {β : Type} {bs : Bytes} {q : Unit → TM ResponderError HState β} (hw : h.tr.WF) (hS : h.tr.buf.length < h.tr.get.length + bs.length → S .bufferFull)
    (hq : ∀ h', Kept h h' → h'.tr.get = h.tr.get ++ bs → h'.rsp = h.rsp → h.tr.get.length + bs.length ≤ h.tr.buf.length → TErrAt S (q ()) h') :
    TErrAt S (Responder.full (H.extend bs) >>= q) h := by
  refine .bind (.of fun e he => hS ?_) fun a h' ha => ?_
  · by_contra hc
    obtain ⟨t, hx, _⟩ := H.extend_run (h := h) (bs := bs) hw (by omega)
    rw [hx] at he; simp at he
  · simp only [Responder.full, TM.of] at ha
    rcases hx : H.extend bs h with ⟨x | x | x, t⟩ <;> rw [hx] at ha <;> simp at ha
    obtain ⟨rfl, rfl⟩ := ha
    obtain ⟨h1, h2, h3, _, h4⟩ := H.extend_inv hw hx
    exact hq _ h1 h2 h3 h4

variable (h0 : 0 < c.numSlots) (h8 : c.numSlots ≤ 8) (hno : NoReply c cr env slots room p l req)
include h0 h8 hno

theorem handleGetVersion_D (h3 : 3 ≤ req.length) (hh : req.take 2 = Wire.header .getVersion) :
    TErrAt (fun d => First (requestChecks c cr env slots mask room p l req) (.error d)) (Responder.handleGetVersionT req) h := by
  have hb : ∀ f, First (bodyChecks c cr env slots mask room p l req 0x84) f → First (requestChecks c cr env slots mask room p l req) f :=
    fun f hf => body_first (t := .getVersion) rfl (by simp [allowed, MsgType.spdmCode]) h3 hh hf
  unfold Responder.handleGetVersionT
  refine sliceFrom_H (.ofLift (fun e he => ?_) fun a ha => ?_)
  · obtain ⟨x, rfl⟩ := GetVersion.parseBody_errs _ e he
    exact hb _ (within_here (w := ResponderError.read) (first_of_err (c108_getVersion _) he))
  · obtain ⟨_, bs, tail, hr, hd⟩ := wellFormed_of h0 h8 (c := c) (t := .getVersion) (m := .getVersion) hh (by simp only [AnyMsg.parse, ha]; rfl)
    have hrep : Reply c cr env slots p l req [0x10, 0x04, 0, 0, 0, 2, 0, 0x10, 0, 0x11] := by
      simp only [Denotes] at hd
      rw [hr, hd]
      exact .version
    have hS := hb _ (within_later (w := ResponderError.read) (all_of_ok (c108_getVersion _) ha) (reply_first hrep hno))
    exact quiet_H hclear_errs fun _ _ _ => full_H hS fun _ _ => reply_H hS

theorem versionHandle_D (hp : p = none) : TErrAt (fun d => First (requestChecks c cr env slots mask room p l req) (.error d)) (Responder.versionHandleT req) h := by
  unfold Responder.versionHandleT
  rcases hd : MsgType.getVersion.parseHeader req with b | e | k
  · cases b with
    | true => exact handleGetVersion_D h0 h8 hno (parseHeader_true hd).1 (parseHeader_true hd).2
    | false =>
      subst hp
      refine quiet_L (RErrIn.index _ _) fun g hg => .fail (code_first (parseHeader_false hd).1 (index_inv hg) fun k hk => ?_)
      by_contra hc
      have : k = 0x84 := by simpa [allowed] using hc
      subst this
      exact (parseHeader_false hd).2 hk
  · exact .fail (header_first (t := .getVersion) rfl (by simp [allowed, MsgType.spdmCode]) hd)
  · exact .die _

theorem reset_D {rest : TM ResponderError HState (Nat × RspState)}
    (hr : 3 ≤ req.length → code req ≠ some 0x84 → TErrAt (fun d => First (requestChecks c cr env slots mask room p l req) (.error d)) rest h) :
    TErrAt (fun d => First (requestChecks c cr env slots mask room p l req) (.error d)) (Responder.resetOnGetVersionT req rest) h := by
  unfold Responder.resetOnGetVersionT
  rcases hd : MsgType.getVersion.parseHeader req with b | e | k
  · cases b with
    | true =>
      simp only
      unfold Responder.versionHandleT
      rw [hd]
      exact handleGetVersion_D h0 h8 hno (parseHeader_true hd).1 (parseHeader_true hd).2
    | false => exact hr (parseHeader_false hd).1 fun hk => (parseHeader_false hd).2 hk
  · exact .fail (header_first (t := .getVersion) rfl (by simp [allowed, MsgType.spdmCode]) hd)
  · exact .die _

theorem capabilitiesHandle_D (hn : ∀ a ∈ c.capabilities, ∃ k, (a, k) ∈ capabilityBits) (hp : p = some 0x84) :
    TErrAt (fun d => First (requestChecks c cr env slots mask room p l req) (.error d)) (Responder.capabilitiesHandleT c req) h := by
  unfold Responder.capabilitiesHandleT
  refine reset_D h0 h8 hno fun h3 hne => .ofLift (expect_first (t := .getCapabilities) rfl (by subst hp; decide) (by subst hp; decide) ?_) fun _ hx => ?_
  · intro k hk ha
    have : k ≠ 0x84 := fun h => hne (h ▸ hk)
    subst hp
    simpa [allowed, this, MsgType.spdmCode] using ha
  have hh := (expect_ok_inv hx).2
  have hb : ∀ f, First (bodyChecks c cr env slots mask room p l req 0xE1) f → First (requestChecks c cr env slots mask room p l req) f :=
    fun f hf => body_first (t := .getCapabilities) rfl (by subst hp; decide) h3 hh hf
  refine sliceFrom_H (.ofLift (fun e he => ?_) fun a ha => ?_)
  · exact hb _ (within_here (w := ResponderError.parseGetCapabilities) (first_of_err (c108_getCapabilities _) he))
  · obtain ⟨_, bs, tail, hr, hd⟩ := wellFormed_of h0 h8 (c := c) (t := .getCapabilities) (m := .getCapabilities a) hh (by simp only [AnyMsg.parse, ha]; rfl)
    obtain ⟨w, hw, hw'⟩ := configured_word hn
    simp only [Denotes] at hd
    have hrep : Reply c cr env slots p l req ([0x11, 0x61, 0, 0, 0, 12, 0, 0] ++ le 4 w.toNat) := by
      rw [hr, hd.2, hp]
      exact .capabilities hd.1 hw'
    have hS := hb _ (within_later (w := ResponderError.parseGetCapabilities) (all_of_ok (c108_getCapabilities _) ha) (reply_first hrep hno))
    exact full_H hS fun _ _ => .ofLift (fun e he => by rw [hw] at he; simp at he) fun m _ => reply_H hS

theorem algorithmsHandle_D (caps : Caps) (hp : p = some 0xE1) (htw : h.tr.WF) (htx : h.tr.get = l.text) (hcap : h.tr.buf.length = c.transcriptSize) :
    TErrAt (fun d => First (requestChecks c cr env slots mask room p l req) (.error d)) (Responder.algorithmsHandleT caps req) h := by
  unfold Responder.algorithmsHandleT
  refine reset_D h0 h8 hno fun h3 hne => .ofLift (expect_first (t := .negotiateAlgorithms) rfl (by subst hp; decide) (by subst hp; decide) ?_) fun _ hx => ?_
  · intro k hk ha
    have : k ≠ 0x84 := fun h => hne (h ▸ hk)
    subst hp
    simpa [allowed, this, MsgType.spdmCode] using ha
  have hh := (expect_ok_inv hx).2
  have hb : ∀ f, First (bodyChecks c cr env slots mask room p l req 0xE3) f → First (requestChecks c cr env slots mask room p l req) f :=
    fun f hf => body_first (t := .negotiateAlgorithms) rfl (by subst hp; decide) h3 hh hf
  refine sliceFrom_H (.ofLift (fun e he => ?_) fun a ha => ?_)
  · exact hb _ (within_here (w := ResponderError.parseNegotiateAlgorithms) (first_of_err (c108_negotiateAlgorithms _) he))
  · obtain ⟨_, bs, tail, hr, hd⟩ := wellFormed_of h0 h8 (c := c) (t := .negotiateAlgorithms) (m := .negotiateAlgorithms a) hh (by simp only [AnyMsg.parse, ha]; rfl)
    have hb' : ∀ f, First _ f → First (requestChecks c cr env slots mask room p l req) f :=
      fun f hf => hb f (within_later (w := ResponderError.parseNegotiateAlgorithms) (all_of_ok (c108_negotiateAlgorithms _) ha) hf)
    refine extend_H htw (fun hfull => hb' _ (need_here ?_)) fun h1 _ _ _ hfit => ?_
    · rw [← htx, List.length_append, ← hcap]; omega
    refine quiet_L (chooseAlgorithms_errs a) fun al hal => ?_
    have hans := chooseAlgorithms_inv (by simp only [Denotes] at hd; exact hd.1) hal
    have hrep : Reply c cr env slots p l req ([0x11, 0x63] ++ Wire.algorithms al) := by
      rw [hr, hp]
      exact .algorithms hd hans
    have hS := hb' _ (need_later (by rw [← htx, List.length_append, ← hcap]; omega) (abort_later (fun m' bs' tail' hr' hd' => ?_) (reply_first hrep hno)))
    · exact reply_H hS
    · have h1 := (c78_accepts_iff c ⟨0, 0, false⟩ h0 h8 .negotiateAlgorithms (bs' ++ tail') (.negotiateAlgorithms m')).mpr ⟨rfl, bs', tail', rfl, hd'⟩
      have h2 : req.drop 2 = bs' ++ tail' := by rw [hr', List.append_assoc]; rfl
      rw [← h2] at h1
      simp only [AnyMsg.parse, ha] at h1
      have : a = m' := by
        have : (Res.ok (AnyMsg.negotiateAlgorithms a)) = Res.ok (AnyMsg.negotiateAlgorithms m') := h1
        simpa using this
      rw [← this]
      exact answers_nonempty hans

theorem idAuthHandle_D (n : Negotiated) (hl : slots.length = c.numSlots) (hmask : MaskOf slots mask) {k : UInt8} (hk : k = 0xE3 ∨ k = 0x81) (hp : p = some k) (hw : Words l n.caps n.algorithms) :
    TErrAt (fun d => First (requestChecks c cr env slots mask room p l req) (.error d)) (Responder.idAuthHandleT c cr n (slots.map (fun s => s.map (·.certChain))) req) h := by
  have back : ∀ {j : Nat} {ch : CertificateChain}, (slots.map (fun s => s.map (·.certChain)))[j]? = some (some ch) → ∃ s, slots[j]? = some (some s) ∧ s.certChain = ch := by
    intro j ch hj
    rw [List.getElem?_map] at hj
    rcases hs : slots[j]? with _ | _ | s <;> rw [hs] at hj <;> simp at hj
    exact ⟨s, rfl, hj⟩
  unfold Responder.idAuthHandleT
  refine reset_D h0 h8 hno fun h3 hne => .ofLift (fun e he => ?_) fun b hb => ?_
  · have hpe := Responder.header_errs _ _ e he
    rw [hpe]
    exact header_first (t := .getDigests) rfl (by subst hp; rcases hk with rfl | rfl <;> decide) he
  cases b with
  | true =>
    have hh := (parseHeader_true hb).2
    have hb : ∀ f, First (bodyChecks c cr env slots mask room p l req 0x81) f → First (requestChecks c cr env slots mask room p l req) f :=
      fun f hf => body_first (t := .getDigests) rfl (by subst hp; rcases hk with rfl | rfl <;> decide) h3 hh hf
    simp only [if_pos]
    unfold Responder.handleGetDigestsT
    refine quiet_L (slotMask_errs _ _) fun _ _ => .ofLift (fun e he => ?_) fun ds hds => ?_
    · obtain ⟨j, ch, _, h1, h2, h4⟩ := hashLoop_first _ _ _ _ (by simp) he
      obtain ⟨s, hs, rfl⟩ := back h1
      refine hb _ (digest_here hs (fun j s' hj hs' => ?_) fun rest' => chain_here h2)
      obtain ⟨q1, q2⟩ := h4 j s'.certChain (Nat.zero_le _) hj (by rw [List.getElem?_map, hs']; rfl)
      exact ⟨q1, (hashOk_iff hw _).mpr q2⟩
    · have hall : ∀ s, some s ∈ slots → ChainFits c (some s) ∧ Digestible c cr l.hash (Wire.chain s.certChain) := by
        intro s hs
        obtain ⟨j, hj, hsj⟩ := List.getElem_of_mem hs
        have hsj' : slots[j]? = some (some s) := by rw [List.getElem?_eq_getElem hj, hsj]
        obtain ⟨_, _, _, g⟩ := hashLoop_inv _ _ _ _ _ _ _ _ _ (by simp) hds
        rcases g j (Nat.zero_le _) (by omega) with ⟨g, _⟩ | ⟨ch, g1, g2, g3, g4, g5, g6, g7⟩
        · rw [List.getElem?_map, hsj'] at g; simp at g
        · obtain ⟨s', hs', rfl⟩ := back g1
          rw [hsj'] at hs'
          simp only [Option.some.injEq] at hs'
          subst hs'
          exact ⟨⟨g5, g6⟩, (hashOk_iff hw _).mpr ⟨g3, g4, g7⟩⟩
      have hrep : Reply c cr env slots p l req ([0x11, 0x01, 0, mask] ++ digestsOf (cr.hash (UInt32.ofNat l.hash)) slots) := by
        obtain ⟨q1, q2⟩ := split_header (a := 0x11) (b := 0x81) hh h3
        rw [q1, hp]
        exact .digests hk q2 hmask hall
      have hS := hb _ (digest_later hall (reply_first hrep hno))
      exact full_H hS fun _ _ => full_H hS fun _ _ => quiet_H (rspTo_errs _) fun _ _ _ => full_H hS fun _ _ => .pure _
  | false =>
    simp only [Bool.false_eq_true, if_false]
    refine .ofLift (expect_first (t := .getCertificate) rfl (by subst hp; rcases hk with rfl | rfl <;> decide) (by subst hp; rcases hk with rfl | rfl <;> decide) ?_) fun _ hx => ?_
    · intro j hj ha
      have h1 : j ≠ 0x84 := fun h => hne (h ▸ hj)
      have h2 : j ≠ 0x81 := fun h => (parseHeader_false hb).2 (by rw [show req[1]? = some j from hj, h]; rfl)
      subst hp
      rcases hk with rfl | rfl <;> simpa [allowed, h1, h2, MsgType.spdmCode] using ha
    have hh := (expect_ok_inv hx).2
    have hb : ∀ f, First (bodyChecks c cr env slots mask room p l req 0x82) f → First (requestChecks c cr env slots mask room p l req) f :=
      fun f hf => body_first (t := .getCertificate) rfl (by subst hp; rcases hk with rfl | rfl <;> decide) h3 hh hf
    unfold Responder.handleGetCertificateT
    refine sliceFrom_H (.ofLift (fun e he => ?_) fun a ha => ?_)
    · obtain ⟨x, rfl⟩ := GetCertificate.parseBody_errs _ e he
      exact hb _ (within_here (w := ResponderError.read) (first_of_err (c108_getCertificate _) he))
    · obtain ⟨_, bs, tail, hr, hd⟩ := wellFormed_of h0 h8 (c := c) (t := .getCertificate) (m := .getCertificate a) hh (by simp only [AnyMsg.parse, ha]; rfl)
      simp only [Denotes] at hd
      have hs : req[2]? = some a.slot := by
        rw [hr, hd]; simp [Wire.header, Wire.getCertificate]
      have hb' : ∀ f, First _ f → First (requestChecks c cr env slots mask room p l req) f :=
        fun f hf => hb f (within_later (w := ResponderError.read) (all_of_ok (c108_getCertificate _) ha) hf)
      rw [getD_of hs] at hb'
      by_cases hge : a.slot.toNat ≥ c.numSlots
      · simp only [if_pos hge]
        refine .fail (hb' _ ?_)
        rw [List.getElem?_eq_none (by omega)]
        exact need_here id
      · simp only [if_neg hge]
        have hso : slots[a.slot.toNat]? = some slots[a.slot.toNat] := List.getElem?_eq_getElem (by omega)
        generalize slots[a.slot.toNat] = o at hso
        rw [hso] at hb'
        refine .ofLift (fun e he => ?_) fun cp hcp => ?_
        · obtain ⟨ch, h1, h2⟩ := certPortion_too_large he
          obtain ⟨s, hs', rfl⟩ := back h1
          rw [hso, Option.some.injEq] at hs'
          subst hs'
          exact hb' _ (chain_here h2)
        · have hfit : ChainFits c o := by
            obtain ⟨chain, rest, _, _, _, ⟨g, _⟩ | ⟨ch, g1, g2, g3, g4⟩⟩ := certPortion_inv (buf := cp.1) (portion := cp.2) hcp
            · rw [List.getElem?_map, hso] at g
              cases o with
              | none => simp [ChainFits, chainBytes]
              | some s => simp at g
            · obtain ⟨s', hs', rfl⟩ := back g1
              rw [hso, Option.some.injEq] at hs'
              subst hs'
              rw [g2] at g3 g4
              exact ⟨g4, g3⟩
          have hrep : Reply c cr env slots p l req ([0x11, 0x02, a.slot, 0] ++ le 2 (chainBytes o).length ++ [0, 0] ++ chainBytes o) := by
            rw [hr, hd, hp]
            have := Reply.certificate (c := c) (cr := cr) (env := env) (slots := slots) (l := l) (offset := a.offset) (length := a.length) (tail := tail) hk hso hfit
            simpa [Wire.header, Wire.getCertificate, zeros] using this
          have hS := hb' _ (chain_later hfit (reply_first hrep hno))
          exact full_H hS fun _ _ => full_H hS fun _ _ => quiet_H (rspTo_errs _) fun _ _ _ => full_H hS fun _ _ => .pure _

theorem challengeHandle_D (n : Negotiated) (hl : slots.length = c.numSlots) (hmask : MaskOf slots mask) {k : UInt8} (hk : k = 0x82 ∨ k = 0x83) (hp : p = some k)
    (hw : Words l n.caps n.algorithms) (htw : h.tr.WF) (htx : h.tr.get = l.text) (hcap : h.tr.buf.length = c.transcriptSize) (hroom : h.rsp.length = room) :
    TErrAt (fun d => First (requestChecks c cr env slots mask room p l req) (.error d)) (Responder.challengeHandleT c cr env n slots req) h := by
  unfold Responder.challengeHandleT
  refine reset_D h0 h8 hno fun h3 hne => .ofLift (expect_first (t := .challenge) rfl (by subst hp; rcases hk with rfl | rfl <;> decide)
    (by subst hp; rcases hk with rfl | rfl <;> decide) ?_) fun _ hx => ?_
  · intro j hj ha
    have h1 : j ≠ 0x84 := fun h => hne (h ▸ hj)
    subst hp
    rcases hk with rfl | rfl <;> simpa [allowed, h1, MsgType.spdmCode] using ha
  have hh := (expect_ok_inv hx).2
  have hb : ∀ f, First (bodyChecks c cr env slots mask room p l req 0x83) f → First (requestChecks c cr env slots mask room p l req) f :=
    fun f hf => body_first (t := .challenge) rfl (by subst hp; rcases hk with rfl | rfl <;> decide) h3 hh hf
  refine quiet_L (digestSize_errs _ _) fun ds hds => quiet_L (signatureSize_errs _ _) fun ss hss => ?_
  have hb1 : ∀ f, First _ f → First (requestChecks c cr env slots mask room p l req) f :=
    fun f hf => hb f (abort_later ((digestUsable_iff hw).mpr ⟨ds, hds⟩) (abort_later ((signatureUsable_iff hw).mpr ⟨ss, hss⟩) hf))
  have hssz : sizeFor signatureSizes l.asym = ss := by rw [hw.asym]; exact getSignatureSize_sizeFor hss
  have hdsz : sizeFor digestSizes l.hash = ds := by rw [hw.hash]; exact getDigestSize_sizeFor hds
  refine sliceFrom_H (.ofLift (fun e he => ?_) fun a ha => ?_)
  · exact hb1 _ (within_here (w := ResponderError.parseChallenge) (first_of_err (c108_challenge c _) he))
  obtain ⟨_, bs, tail, hr, hd⟩ := wellFormed_of h0 h8 (c := c) (t := .challenge) (m := .challenge a) hh (by simp only [AnyMsg.parse, ha]; rfl)
  have hs : req[2]? = some a.slot := by
    simp only [Denotes] at hd
    rw [hr, hd.2]; simp [Wire.header, Wire.challenge]
  have hb2 : ∀ f, First _ f → First (requestChecks c cr env slots mask room p l req) f :=
    fun f hf => hb1 f (within_later (w := ResponderError.parseChallenge) (all_of_ok (c108_challenge c _) ha) hf)
  rw [getD_of hs] at hb2
  refine .ofLift (fun e he => ?_) fun s hslot => ?_
  · unfold Responder.slotAt at he
    split at he
    · simp at he
    · rename_i hno
      refine hb2 _ ?_
      split
      · rename_i s hs'
        exact absurd hs' (hno s)
      · exact need_here id
  have hsl := slotAt_inv hslot
  rw [hsl] at hb2
  have hlt : a.slot.toNat < c.numSlots := by
    rw [← hl]
    by_contra hc
    rw [List.getElem?_eq_none (by omega)] at hsl; simp at hsl
  refine .ofLift (fun e he => hb2 _ (chain_here (chainDigest_too_large he))) fun d hdg => ?_
  obtain ⟨hfb, hho⟩ := chainDigest_ok hdg
  obtain ⟨_, hd2, _⟩ := chainDigest_inv hdg
  have hb3 : ∀ f, First _ f → First (requestChecks c cr env slots mask room p l req) f :=
    fun f hf => hb2 f (chain_later hfb (abort_later ((hashOk_iff hw _).mpr hho) hf))
  refine extend_H htw (fun hfull => hb3 _ (need_here ?_)) fun h1 k1 t1 r1 hfit => ?_
  · rw [← htx, List.length_append, ← hcap]; omega
  have hb4 : ∀ f, First _ f → First (requestChecks c cr env slots mask room p l req) f :=
    fun f hf => hb3 f (need_later (by rw [← htx, List.length_append, ← hcap]; omega) hf)
  refine quiet_L (slotMask_errs _ _) fun mask' hmask' => ?_
  have hmm : mask' = mask := by
    obtain ⟨m2, g1, g2⟩ := createSlotMask_run hl h8
    rw [g1, Res.ok.injEq] at hmask'
    subst hmask'
    exact maskOf_unique (fun i _ => g2 i) hmask
  subst hmm
  refine quiet_L (by unfold ChallengeAuth.new; exact .ite (.ok _) (.panic _)) fun auth hauth => ?_
  obtain ⟨rfl, _⟩ := authNew_inv hauth
  have hpl : (unsignedReply cr env l a.slot mask' s).length = 4 + d.length + env.nonce.length + ds + 6 := by
    unfold unsignedReply authPart
    rw [words_hash hw, ← hd2, hdsz]
    simp [zeros]; omega
  refine .bind (.of fun e he => ?_) fun size h2 hx2 => ?_
  · rcases hwrite_exact hlt rfl he with ⟨rfl, g⟩ | ⟨rfl, g1, g2⟩
    · simp only [authBefore, List.length_replicate, r1, hroom] at g
      show First _ (.error (ResponderError.writeChallengeAuth .bufferFull))
      refine hb4 _ ?_
      rcases g with g | ⟨g1, g2⟩
      · exact need_here (by rw [hpl]; omega)
      · exact need_later (by rw [hpl]; omega) (need_later (by rw [hpl]; omega) (need_here (by rw [hpl, hssz]; omega)))
    · simp only [authBefore, List.length_replicate, r1, hroom] at g1 g2
      show First _ (.error (ResponderError.writeChallengeAuth (.writeOpaqueElement .bufferFull)))
      exact hb4 _ (need_later (by rw [hpl]; omega) (need_here (by rw [hpl]; omega)))
  · obtain ⟨bodyA, hwr, hlay, hbl⟩ := auth_layout (mask := mask') (mu := Responder.useMutualAuth n.caps) (d := d) (n := env.nonce) (ds := ds) (ss := ss) hlt h8
    have hx2' : H.write .challengeAuth (ChallengeAuth.writeBody c ⟨a.slot, mask', Responder.useMutualAuth n.caps, d, env.nonce, List.replicate ds 0, OpaqueData.dflt c, List.replicate ss 0⟩) h1 =
        (.ok size, h2) := by
      simp only [TM.of] at hx2
      rcases hx : H.write .challengeAuth (ChallengeAuth.writeBody c ⟨a.slot, mask', Responder.useMutualAuth n.caps, d, env.nonce, List.replicate ds 0, OpaqueData.dflt c, List.replicate ss 0⟩) h1 with
        ⟨x | x | x, t⟩ <;> rw [hx] at hx2 <;> simp at hx2
      rw [hx2.1, hx2.2]
    obtain ⟨rfl, hn2, rfl⟩ := H.write_inv hwr hx2'
    have hpart : Wire.header .challengeAuth ++ bodyA = unsignedReply cr env l a.slot mask' s := by
      rw [hlay, authMsg_part hw hds, unsignedReply, words_hash hw, ← hd2]
    have hpl2 : (unsignedReply cr env l a.slot mask' s).length = 2 + bodyA.length := by rw [← hpart]; simp [header_length]
    simp only [List.length_append, zeros, List.length_replicate, r1, hroom] at hn2
    have hb5 : ∀ f, First _ f → First (requestChecks c cr env slots mask' room p l req) f :=
      fun f hf => hb4 f (need_later (by omega) (need_later (by omega) (need_later (by rw [hpl2, hssz]; omega) hf)))
    refine quiet_L (subChecked_errs _ _) fun start hst => quiet_H (rspTo_errs _) fun out h3' e3 => ?_
    obtain ⟨rfl, _, ho⟩ := H.rspTo_inv e3
    have hsub : start = 2 + bodyA.length := by
      unfold Responder.subChecked at hst
      split at hst
      · simp only [Res.ok.injEq] at hst
        rw [← hst]; simp [zeros]; omega
      · simp at hst
    have hout : out = unsignedReply cr env l a.slot mask' s := by
      rw [ho, hsub, ← hpart]
      simp only
      rw [← List.append_assoc, List.append_assoc]
      exact msg_take
    have hlen : (l.text ++ req ++ unsignedReply cr env l a.slot mask' s).length = h1.tr.get.length + out.length := by rw [t1, htx, hout, List.length_append]
    refine extend_H (h := { h1 with rsp := _ }) k1.wf (fun hfull => hb5 _ (need_here ?_)) fun h4 k4 t4 r4 hfit4 => ?_
    · simp only [k1.cap, hcap] at hfull
      rw [hlen]
      omega
    simp only [k1.cap, hcap] at hfit4
    have hb6 : ∀ f, First _ f → First (requestChecks c cr env slots mask' room p l req) f := fun f hf => hb5 f (need_later (by rw [hlen]; omega) hf)
    refine quiet_H transcript_errs fun t h5 e5 => ?_
    have ht : t = h4.tr.get ∧ h4 = h5 := by unfold H.transcript at e5; simp only [Prod.mk.injEq, Res.ok.injEq] at e5; exact ⟨e5.1.symm, e5.2⟩
    have htxt : t = l.text ++ req ++ unsignedReply cr env l a.slot mask' s := by rw [ht.1, t4, hout]; simp only; rw [t1, htx]
    refine quiet_L (digest_errs _ _ _ _) fun m1 hm1 => ?_
    obtain ⟨q1, q2, q3, q4⟩ := digest_inv hm1
    have hb7 : ∀ f, First _ f → First (requestChecks c cr env slots mask' room p l req) f :=
      fun f hf => hb6 f (abort_later ((digestible_iff hw _).mpr ⟨q4, q1, by rw [← htxt, ← q2]; exact q3⟩) hf)
    refine .bind (.of fun e he => hb7 _ (need_here ?_)) fun sig _ _ => quiet_H ?_ fun _ _ _ => .pure _
    · unfold Responder.signWith at he
      simp only at he
      split at he
      · simp at he
      · rename_i hno
        rw [not_not]
        rw [words_hash hw, ← htxt, ← q2]
        exact hno
    · intro s e he
      unfold Responder.patchRsp at he
      split at he
      · split at he <;> simp at he
      · simp at he

theorem dispatch_D (hl : slots.length = c.numSlots) (hn : ∀ a ∈ c.capabilities, ∃ k, (a, k) ∈ capabilityBits) (hmask : MaskOf slots mask) {st : RspState} (hm : RMatch p l st)
    (htw : h.tr.WF) (htx : h.tr.get = l.text) (hcap : h.tr.buf.length = c.transcriptSize) (hroom : h.rsp.length = room) :
    TErrAt (fun d => First (requestChecks c cr env slots mask room p l req) (.error d)) (Responder.dispatchT c cr env slots st req) h := by
  cases hm with
  | version => exact versionHandle_D h0 h8 hno rfl
  | capabilities => exact capabilitiesHandle_D h0 h8 hno hn rfl
  | algorithms => exact algorithmsHandle_D h0 h8 hno _ rfl htw htx hcap
  | idAuth hk hw => exact idAuthHandle_D h0 h8 hno _ hl hmask hk rfl hw
  | challenge hk hw => exact challengeHandle_D h0 h8 hno _ hl hmask hk rfl hw htw htx hcap hroom

end handlers

/-! ### Aborts and answers -/

section
variable {p : Option UInt8} {l : Log} {req : Bytes} {room : Nat}

theorem negotiate_parses (h0 : 0 < c.numSlots) (h8 : c.numSlots ≤ 8) {m : NegotiateAlgorithms} {bs tail : Bytes} (hd : Denotes c ⟨0, 0, false⟩ bs (.negotiateAlgorithms m)) :
    NegotiateAlgorithms.parseBody (bs ++ tail) = .ok m ∧ 1 ≤ bs.length := by
  have h1 := (c78_accepts_iff c ⟨0, 0, false⟩ h0 h8 .negotiateAlgorithms (bs ++ tail) (.negotiateAlgorithms m)).mpr ⟨rfl, bs, tail, rfl, hd⟩
  simp only [AnyMsg.parse] at h1
  obtain ⟨x, h2, h3⟩ := res_map_ok_inv h1
  cases h3
  refine ⟨h2, ?_⟩
  obtain ⟨_, len, ea, eh, eA, eH, al, _, _, _, _, hbs⟩ := hd
  rw [hbs]; simp

theorem challenge_parses (h0 : 0 < c.numSlots) (h8 : c.numSlots ≤ 8) {i : UInt8} {t : MeasurementHashType} {nonce tail : Bytes} (hn : nonce.length = c.nonceSize) :
    Challenge.parseBody c ((challengeBytes i t nonce tail).drop 2) = .ok ⟨i, t, nonce⟩ := by
  have h1 := (c78_accepts_iff c ⟨0, 0, false⟩ h0 h8 .challenge (Wire.challenge ⟨i, t, nonce⟩ ++ tail) (.challenge ⟨i, t, nonce⟩)).mpr
    ⟨rfl, Wire.challenge ⟨i, t, nonce⟩, tail, rfl, by simp only [Denotes]; exact ⟨hn, trivial⟩⟩
  simp only [AnyMsg.parse] at h1
  obtain ⟨x, h2, h3⟩ := res_map_ok_inv h1
  cases h3
  rw [← h2]
  congr 1

theorem getCertificate_parses (h0 : 0 < c.numSlots) (h8 : c.numSlots ≤ 8) {i : UInt8} {offset length : UInt16} {tail : Bytes} :
    GetCertificate.parseBody (([0x11, 0x82, i, 0] ++ le 2 offset.toNat ++ le 2 length.toNat ++ tail).drop 2) = .ok ⟨i, offset, length⟩ := by
  have h1 := (c78_accepts_iff c ⟨0, 0, false⟩ h0 h8 .getCertificate (Wire.getCertificate ⟨i, offset, length⟩ ++ tail) (.getCertificate ⟨i, offset, length⟩)).mpr
    ⟨rfl, Wire.getCertificate ⟨i, offset, length⟩, tail, rfl, by simp only [Denotes]⟩
  simp only [AnyMsg.parse] at h1
  obtain ⟨x, h2, h3⟩ := res_map_ok_inv h1
  cases h3
  rw [← h2]
  congr 1

theorem getCapabilities_parses (h0 : 0 < c.numSlots) (h8 : c.numSlots ≤ 8) {m : GetCapabilities} {tail : Bytes} (hm : OnlyBits reqFlagBit m.flags.toNat) :
    GetCapabilities.parseBody (([0x11, 0xE1] ++ Wire.getCapabilities m ++ tail).drop 2) = .ok m := by
  have h1 := (c78_accepts_iff c ⟨0, 0, false⟩ h0 h8 .getCapabilities (Wire.getCapabilities m ++ tail) (.getCapabilities m)).mpr
    ⟨rfl, Wire.getCapabilities m, tail, rfl, by simp only [Denotes]; exact ⟨hm, trivial⟩⟩
  simp only [AnyMsg.parse] at h1
  obtain ⟨x, h2, h3⟩ := res_map_ok_inv h1
  cases h3
  rw [← h2]
  congr 1

/-- The checks of a CHALLENGE up to the slot. -/
theorem challenge_later (h0 : 0 < c.numSlots) (h8 : c.numSlots ≤ 8) {prev i : UInt8} {t : MeasurementHashType} {nonce tail : Bytes} {s : FilledSlot} {f : Fault ResponderError}
    (hp : prev = 0x82 ∨ prev = 0x83) (hn : nonce.length = c.nonceSize) (hs : slots[i.toNat]? = some (some s)) (hd : DigestUsable c l.hash) (hg : SignatureUsable c l.asym)
    (hf : First (challengeChecks c cr env mask room l (challengeBytes i t nonce tail) i s) f) :
    First (requestChecks c cr env slots mask room (some prev) l (challengeBytes i t nonce tail)) f := by
  refine body_first (t := .challenge) rfl (by rcases hp with rfl | rfl <;> decide) (by simp [challengeBytes]) rfl
    (abort_later hd (abort_later hg (within_later (w := ResponderError.parseChallenge) (all_of_ok (c108_challenge c _) (challenge_parses h0 h8 hn)) ?_)))
  rw [show (challengeBytes i t nonce tail).getD 2 0 = i from rfl, hs]
  exact hf

theorem aborts_first (h0 : 0 < c.numSlots) (h8 : c.numSlots ≤ 8) (hmask : MaskOf slots mask) (h : RequestAborts c cr env slots room p l req) :
    First (requestChecks c cr env slots mask room p l req) .abort := by
  have hsz : ∀ {prev : UInt8} {l : Log} {tail : Bytes}, prev = 0x82 ∨ prev = 0x83 → tail ≠ [] → ¬ DigestUsable c l.hash ∨ ¬ SignatureUsable c l.asym →
      First (requestChecks c cr env slots mask room (some prev) l ([0x11, 0x83] ++ tail)) .abort := by
    intro prev l tail hp ht h
    refine body_first (t := .challenge) rfl (by rcases hp with rfl | rfl <;> decide) (by have := List.length_pos_iff.mpr ht; simp; omega) rfl ?_
    by_cases hd : DigestUsable c l.hash
    · exact abort_later hd (abort_here (h.resolve_left (not_not.mpr hd)))
    · exact abort_here hd
  cases h with
  | short h => exact abort_here (by omega)
  | @emptyOffer _ m bs tail hm he ht =>
    obtain ⟨h1, h2⟩ := negotiate_parses h0 h8 hm (tail := tail)
    refine body_first (t := .negotiateAlgorithms) rfl (by decide) (by simp; omega) (by simp [Wire.header]) (within_later (w := ResponderError.parseNegotiateAlgorithms)
      (all_of_ok (c108_negotiateAlgorithms _) (a := m) ?_) (need_later ?_ (abort_here fun hall => he (hall m bs tail rfl hm))))
    · rw [← h1]; congr 1
    · rw [List.length_append]; exact ht
  | @digests prev _ tail k s hp ht hs before hfit hd =>
    exact body_first (t := .getDigests) rfl (by rcases hp with rfl | rfl <;> decide) (by have := List.length_pos_iff.mpr ht; simp; omega) rfl
      (digest_here hs before fun rest' => chain_later hfit (abort_here hd))
  | sizes hp ht h => exact hsz hp ht h
  | @chain prev i _ t nonce tail s hp hn hs hfit hd =>
    by_cases hu : DigestUsable c l.hash ∧ SignatureUsable c l.asym
    · exact challenge_later h0 h8 hp hn hs hu.1 hu.2 (chain_later hfit (abort_here hd))
    · exact hsz (tail := [i, Wire.hashType t] ++ nonce ++ tail) hp (by simp) (by rw [not_and_or] at hu; exact hu)
  | @sign prev i mask' _ t nonce tail s hp hn hs hfit hmask' hd hb ht hbad =>
    have := maskOf_unique hmask' hmask
    subst this
    by_cases hu : DigestUsable c l.hash ∧ SignatureUsable c l.asym
    · refine challenge_later h0 h8 hp hn hs hu.1 hu.2 (chain_later hfit (abort_later hd (need_later ?_ (need_later (by omega) (need_later (by omega)
        (need_later hb (need_later ht ?_)))))))
      · rw [List.length_append] at ht; omega
      · rcases hbad with h | ⟨sig, h1, h2⟩
        · exact abort_here h
        · by_cases hq : Digestible c cr l.hash (l.text ++ challengeBytes i t nonce tail ++ unsignedReply cr env l i mask' s)
          · exact abort_later hq (need_later (by rw [h1]; simp) (abort_here fun hall => h2 (hall sig h1)))
          · exact abort_here hq
    · exact hsz (tail := [i, Wire.hashType t] ++ nonce ++ tail) hp (by simp) (by rw [not_and_or] at hu; exact hu)

theorem reply_all (h0 : 0 < c.numSlots) (h8 : c.numSlots ≤ 8) (hmask : MaskOf slots mask) {out : Bytes} (h : Reply c cr env slots p l req out) (hb : out.length ≤ room)
    (ht : ((l.add req).add out).text.length ≤ c.transcriptSize) : AllMet (requestChecks c cr env slots mask room p l req) := by
  have hr := replies_all h0 h8 h hb ht
  cases h with
  | @version _ _ tail =>
    exact body_all (t := .getVersion) rfl (by simp [allowed, MsgType.spdmCode]) (by simp) (by simp [Wire.header])
      (within_all (w := ResponderError.read) (all_of_ok (c108_getVersion _) (GetVersion.reads.parse tail)) hr)
  | @capabilities _ m w tail hm hw =>
    exact body_all (t := .getCapabilities) rfl (by decide) (by simp [Wire.getCapabilities, zeros]) (by simp [Wire.header])
      (within_all (w := ResponderError.parseGetCapabilities) (all_of_ok (c108_getCapabilities _) (getCapabilities_parses h0 h8 hm)) hr)
  | @algorithms _ m a bs tail hm ha =>
    obtain ⟨h1, h2⟩ := negotiate_parses h0 h8 hm (tail := tail)
    refine body_all (t := .negotiateAlgorithms) rfl (by decide) (by simp; omega) (by simp [Wire.header]) (within_all (w := ResponderError.parseNegotiateAlgorithms)
      (all_of_ok (c108_negotiateAlgorithms _) (a := m) ?_) (need_all ?_ (abort_all (fun m' bs' tail' hr' hd' => ?_) hr)))
    · rw [← h1]; congr 1
    · have hcode : code ([0x11, 0xE3] ++ bs ++ tail) = some 0xE3 := by simp [code]
      rw [add_plain hcode (by decide)] at ht
      have : ∀ x : Bytes, ({ l with text := l.text ++ ([0x11, 0xE3] ++ bs ++ tail) } : Log).text.length ≤
          (({ l with text := l.text ++ ([0x11, 0xE3] ++ bs ++ tail) } : Log).add ([0x11, 0x63] ++ x)).text.length := by
        intro x
        simp [Log.add, code]
      exact Nat.le_trans (this _) ht
    · obtain ⟨g1, _⟩ := negotiate_parses h0 h8 hd' (tail := tail')
      have h3 : bs ++ tail = bs' ++ tail' := by simpa using hr'
      rw [← h3, h1, Res.ok.injEq] at g1
      rw [← g1]
      exact answers_nonempty ha
  | @digests prev _ _ tail hp htl hm hfit =>
    exact body_all (t := .getDigests) rfl (by rcases hp with rfl | rfl <;> decide) (by have := List.length_pos_iff.mpr htl; simp; omega) rfl (digest_all hfit hr)
  | @certificate prev i _ offset length slot tail hp hs hfit =>
    refine body_all (t := .getCertificate) rfl (by rcases hp with rfl | rfl <;> decide) (by simp) (by simp [Wire.header])
      (within_all (w := ResponderError.read) (all_of_ok (c108_getCertificate _) (getCertificate_parses h0 h8)) ?_)
    rw [show ([0x11, 0x82, i, 0] ++ le 2 offset.toNat ++ le 2 length.toNat ++ tail : Bytes).getD 2 0 = i from rfl, hs]
    exact chain_all hfit hr
  | @challenge prev i mask' _ t nonce tail sig slot hp hn hs hfit hm hds hss hd hd2 hsig hsl =>
    have := maskOf_unique hm hmask
    subst this
    have hparse := challenge_parses (c := c) h0 h8 (i := i) (t := t) (nonce := nonce) (tail := tail) hn
    have hdu : DigestUsable c l.hash := by
      obtain ⟨_, hh, _⟩ := hd
      rcases hh with h | h | h <;> rw [h] at hds
      · exact ⟨0, 32, h, rfl, hds⟩
      · exact ⟨1, 48, h, rfl, hds⟩
      · exact ⟨2, 64, h, rfl, hds⟩
    have hcode : code ([0x11, 0x83, i, Wire.hashType t] ++ nonce ++ tail) = some 0x83 := rfl
    have hpart : ((l.add ([0x11, 0x83, i, Wire.hashType t] ++ nonce ++ tail)).add (authPart l i mask' (cr.hash (UInt32.ofNat l.hash) (Wire.chain slot.certChain)) env.nonce ++ sig)).text =
        l.text ++ ([0x11, 0x83, i, Wire.hashType t] ++ nonce ++ tail) ++ authPart l i mask' (cr.hash (UInt32.ofNat l.hash) (Wire.chain slot.certChain)) env.nonce := by
      rw [add_plain hcode (by decide)]
      have hc2 : code (authPart l i mask' (cr.hash (UInt32.ofNat l.hash) (Wire.chain slot.certChain)) env.nonce ++ sig) = some 0x03 := by simp [code, authPart]
      unfold Log.add
      rw [hc2]
      simp only [List.length_append, hsl, Nat.add_sub_cancel, List.append_assoc]
      rw [List.take_left']
      rfl
    rw [hpart] at ht
    rw [List.length_append, hsl] at hb
    refine body_all (t := .challenge) rfl (by rcases hp with rfl | rfl <;> decide) (by simp) rfl
      (abort_all hdu (abort_all hss (within_all (w := ResponderError.parseChallenge) (all_of_ok (c108_challenge c _) hparse) ?_)))
    rw [show ([0x11, 0x83, i, Wire.hashType t] ++ nonce ++ tail : Bytes).getD 2 0 = i from rfl, hs]
    refine chain_all hfit (abort_all hd (need_all ?_ (need_all ?_ (need_all ?_ (need_all ?_ (need_all ht (abort_all hd2 (need_all ?_ (abort_all ?_ allMet_nil)))))))))
    · rw [List.length_append] at ht; omega
    · unfold unsignedReply; omega
    · unfold unsignedReply; omega
    · unfold unsignedReply; omega
    · intro hx
      have := hsig.symm.trans hx
      simp at this
    · intro sig' hx
      have := hsig.symm.trans hx
      simp at this
      rw [← this]; exact hsl

end

/-! ### C124 -/

section
variable (h0 : 0 < c.numSlots) (h8 : c.numSlots ≤ 8) (hl : slots.length = c.numSlots)
include h0 h8 hl

theorem call_errors (hn : ∀ a ∈ c.capabilities, ∃ k, (a, k) ∈ capabilityBits) (hmask : MaskOf slots mask) (run : RspRun c cr slots es r) (ha : alive es = true) {req buf out : Bytes} {d : ResponderError}
    (hd : (Responder.handleMsgT c cr env req buf r).1 = .ok ⟨out, some d⟩) :
    First (requestChecks c cr env slots mask buf.length (lastReq es) (conversation (rspMsgs es)) req) (.error d) := by
  have hno : NoReply c cr env slots buf.length (lastReq es) (conversation (rspMsgs es)) req := by
    rintro ⟨o, ho⟩
    have := (c80_answered_iff h0 h8 hl hn run ha env req buf o).2 ho
    rw [← (c107_same c cr env req buf r).1, hd] at this
    simp at this
  obtain ⟨st, hlive⟩ := run_live hl h8 run ha
  have hD := dispatch_D (cr := cr) (env := env) (req := req) (h := ⟨buf, r.transcript, r.signed⟩) h0 h8 hno hl hn hmask hlive.mat hlive.wf hlive.text hlive.cap rfl
  rw [Responder.handleMsgT, hlive.state] at hd
  simp only [Responder.handleT, hlive.slots] at hd
  rcases hx : Responder.dispatchT c cr env slots st req ⟨buf, r.transcript, r.signed⟩ with ⟨⟨size, st'⟩ | e | k, h'⟩
  · rw [hx] at hd
    simp only at hd
    rcases hs : sliceTo h'.rsp size with o | e | k <;> rw [hs] at hd <;> simp at hd
  · rw [hx] at hd
    simp only at hd
    rcases hw : H.write .error (Responder.errorOf e).writeBody h' with ⟨n | e' | k, h''⟩ <;> rw [hw] at hd <;> simp only at hd
    · rcases hs : sliceTo h''.rsp n with o | e' | k <;> rw [hs] at hd <;> simp at hd
      rw [← hd.2]
      exact hD e (by rw [hx])
    · simp at hd
      rw [← hd.2]
      exact hD e (by rw [hx])
    · simp at hd
  · rw [hx] at hd; simp at hd

/-- **C124**: what becomes of a request is told by one table, `requestChecks`: the first check that is not met gives the outcome - the process aborts, or the responder returns the error of
that check -, and the request is answered if all of them are met.  In any history in which nothing has failed since creation or reset. -/
theorem c124_outcome (hn : ∀ a ∈ c.capabilities, ∃ k, (a, k) ∈ capabilityBits) (hmask : MaskOf slots mask) (run : RspRun c cr slots es r) (ha : alive es = true) (env : Env) (req buf : Bytes) :
    ((∃ out, (Responder.handleMsgT c cr env req buf r).1 = .ok ⟨out, none⟩) ↔
      AllMet (requestChecks c cr env slots mask buf.length (lastReq es) (conversation (rspMsgs es)) req)) ∧
    (∀ d, (∃ out, (Responder.handleMsgT c cr env req buf r).1 = .ok ⟨out, some d⟩) ↔
      First (requestChecks c cr env slots mask buf.length (lastReq es) (conversation (rspMsgs es)) req) (.error d)) ∧
    ((∃ k, (Responder.handleMsgT c cr env req buf r).1 = .panic k) ↔
      First (requestChecks c cr env slots mask buf.length (lastReq es) (conversation (rspMsgs es)) req) .abort) := by
  obtain ⟨s1, s2, s3, _⟩ := c107_same c cr env req buf r
  have k1 : ∀ out, (Responder.handleMsgT c cr env req buf r).1 = .ok ⟨out, none⟩ →
      AllMet (requestChecks c cr env slots mask buf.length (lastReq es) (conversation (rspMsgs es)) req) := by
    intro out h
    obtain ⟨g1, g2, g3⟩ := (c80_answered_iff h0 h8 hl hn run ha env req buf out).1 ((s1 out).1 h)
    exact reply_all h0 h8 hmask g1 g2 g3
  have k2 : ∀ d out, (Responder.handleMsgT c cr env req buf r).1 = .ok ⟨out, some d⟩ →
      First (requestChecks c cr env slots mask buf.length (lastReq es) (conversation (rspMsgs es)) req) (.error d) :=
    fun d out h => call_errors h0 h8 hl hn hmask run ha h
  have k3 : ∀ k, (Responder.handleMsgT c cr env req buf r).1 = .panic k →
      First (requestChecks c cr env slots mask buf.length (lastReq es) (conversation (rspMsgs es)) req) .abort :=
    fun k h => aborts_first h0 h8 hmask ((c82_aborts_iff h0 h8 hl run ha env req buf).1 ⟨k, (s3 k).1 h⟩)
  have k4 : (∃ out, (Responder.handleMsgT c cr env req buf r).1 = .ok ⟨out, none⟩) ∨ (∃ d out, (Responder.handleMsgT c cr env req buf r).1 = .ok ⟨out, some d⟩) ∨
      ∃ k, (Responder.handleMsgT c cr env req buf r).1 = .panic k := by
    rcases h : (Responder.handleMsg c cr env req buf r).1 with ⟨out, _ | e⟩ | e | k
    · exact .inl ⟨out, (s1 out).2 h⟩
    · obtain ⟨d, hd, _⟩ := (s2 out e).1 h
      exact .inr (.inl ⟨d, out, hd⟩)
    · exact absurd h ((c34_errors_uniform hl h8 run env req buf).1 e)
    · exact .inr (.inr ⟨k, (s3 k).2 h⟩)
  refine ⟨⟨fun ⟨out, h⟩ => k1 out h, fun h => ?_⟩, fun d => ⟨fun ⟨out, h⟩ => k2 d out h, fun h => ?_⟩, ⟨fun ⟨k, h⟩ => k3 k h, fun h => ?_⟩⟩
  · rcases k4 with g | ⟨d, out, g⟩ | ⟨k, g⟩
    · exact g
    · exact absurd h (k2 d out g).notMet
    · exact absurd h (k3 k g).notMet
  · rcases k4 with ⟨out, g⟩ | ⟨d', out, g⟩ | ⟨k, g⟩
    · exact absurd (k1 out g) h.notMet
    · cases c108_first_unique (k2 d' out g) h
      exact ⟨out, g⟩
    · exact nomatch c108_first_unique (k3 k g) h
  · rcases k4 with ⟨out, g⟩ | ⟨d', out, g⟩ | g
    · exact absurd (k1 out g) h.notMet
    · exact nomatch c108_first_unique (k2 d' out g) h
    · exact g

/-- C124: and what is sent.  An answer is the reply of Spec/Reply.lean; an error is sent as the ERROR message for it if the buffer has room for that, and as nothing otherwise. -/
theorem c124_sent (hn : ∀ a ∈ c.capabilities, ∃ k, (a, k) ∈ capabilityBits) (run : RspRun c cr slots es r) (ha : alive es = true) (env : Env) (req buf : Bytes) :
    (∀ out, (Responder.handleMsgT c cr env req buf r).1 = .ok ⟨out, none⟩ → Reply c cr env slots (lastReq es) (conversation (rspMsgs es)) req out) ∧
    (∀ out d, (Responder.handleMsgT c cr env req buf r).1 = .ok ⟨out, some d⟩ → out = if 2 + (errorFor d).length ≤ buf.length then [0x12, 0x7F] ++ errorFor d else []) :=
  ⟨fun out h => ((c80_answered_iff h0 h8 hl hn run ha env req buf out).1 (((c107_same c cr env req buf r).1 out).1 h)).1,
    fun _ _ h => c107_sent h8 hl run h⟩

omit h0 in
/-- C124: the mask of the filled slots exists, whatever the slots. -/
theorem c124_mask : ∃ mask, MaskOf slots mask := by
  obtain ⟨mask, _, h⟩ := createSlotMask_run hl h8
  exact ⟨mask, fun i _ => h i⟩

omit h0 in
/-- C124: once a call has failed nothing is looked at any more: every further request aborts until `reset`. -/
theorem c124_dead (run : RspRun c cr slots es r) (ha : alive es = false) (env : Env) (req buf : Bytes) : ∃ k, (Responder.handleMsgT c cr env req buf r).1 = .panic k := by
  obtain ⟨_, hd⟩ := run_dead hl h8 run ha
  obtain ⟨k, hp⟩ := dead_call (c := c) (cr := cr) (env := env) (req := req) (buf := buf) hd
  exact ⟨k, ((c107_same c cr env req buf r).2.2.1 k).2 (by rw [hp])⟩

end

/-- C124 under a configuration the build accepts. -/
theorem c124_built {crypto : Bool} {i : SpdmConfig} {nonceSize : Nat} (hv : ValidConfig crypto i) (hb : Built crypto i nonceSize c) (hl : slots.length = i.numSlots)
    (run : RspRun c cr slots es r) (ha : alive es = true) (env : Env) (req buf : Bytes) :
    ∃ mask, MaskOf slots mask ∧
    ((∃ out, (Responder.handleMsgT c cr env req buf r).1 = .ok ⟨out, none⟩) ↔
      AllMet (requestChecks c cr env slots mask buf.length (lastReq es) (conversation (rspMsgs es)) req)) ∧
    (∀ d, (∃ out, (Responder.handleMsgT c cr env req buf r).1 = .ok ⟨out, some d⟩) ↔
      First (requestChecks c cr env slots mask buf.length (lastReq es) (conversation (rspMsgs es)) req) (.error d)) ∧
    ((∃ k, (Responder.handleMsgT c cr env req buf r).1 = .panic k) ↔
      First (requestChecks c cr env slots mask buf.length (lastReq es) (conversation (rspMsgs es)) req) .abort) := by
  have h0 : 0 < c.numSlots := by rw [hb.numSlots]; exact hv.slots.1
  have h8 : c.numSlots ≤ 8 := by rw [hb.numSlots]; exact hv.slots.2
  have hl' : slots.length = c.numSlots := by rw [hb.numSlots]; exact hl
  have hn : ∀ a ∈ c.capabilities, ∃ k, (a, k) ∈ capabilityBits := by rw [hb.capabilities]; exact hv.names
  obtain ⟨mask, hm⟩ := c124_mask h8 hl'
  exact ⟨mask, hm, c124_outcome h0 h8 hl' hn hm run ha env req buf⟩

/-! ### Non-vacuity -/

theorem demo_mask : MaskOf demoSlots 1 := by
  intro i hi
  have : i = 0 ∨ i = 1 ∨ 2 ≤ i := by omega
  rcases this with rfl | rfl | h
  · exact ⟨fun _ => ⟨_, rfl⟩, fun _ => by decide⟩
  · exact ⟨fun h => absurd h (by decide), fun ⟨_, h⟩ => by simp [demoSlots] at h⟩
  · refine ⟨fun h' => ?_, fun ⟨_, h'⟩ => ?_⟩
    · have : i = 2 ∨ i = 3 ∨ i = 4 ∨ i = 5 ∨ i = 6 ∨ i = 7 := by omega
      rcases this with rfl | rfl | rfl | rfl | rfl | rfl <;> exact absurd h' (by decide)
    · rw [List.getElem?_eq_none (by simpa [demoSlots] using h)] at h'
      simp at h'

/-- The table of one more request of the demonstration session. -/
abbrev demoTable (n : Nat) (req : Bytes) (room : Nat) : Checks ResponderError :=
  requestChecks demoCfg demoCrypto demoEnv demoSlots 1 room (lastReq (demoEvents n)) (conversation (rspMsgs (demoEvents n))) req

theorem demo_first {n : Nat} {req : Bytes} {room : Nat} {d : ResponderError} (ha : alive (demoEvents n) = true) (h : demoReturned n req room = some d) :
    First (demoTable n req room) (.error d) := by
  have key := (c124_outcome (by decide) (by decide) rfl demo_named demo_mask (demo_run n) ha demoEnv req (zeros room)).2.1 d
  rw [show (zeros room).length = room by simp [zeros]] at key
  refine key.1 ?_
  unfold demoReturned at h
  split at h
  · rename_i out d' hx
    rw [Option.some.injEq] at h
    subst h
    exact ⟨out, hx⟩
  · simp at h

/-- The answer to one more request of the demonstration session, if there is one. -/
def demoAnswer (n : Nat) (req : Bytes) (room : Nat) : List Bytes :=
  match (Responder.handleMsgT demoCfg demoCrypto demoEnv req (zeros room) (demoResponder n)).1 with
  | .ok ⟨out, none⟩ => [out]
  | _ => []

theorem demo_all {n : Nat} {req : Bytes} {room : Nat} (ha : alive (demoEvents n) = true) (h : demoAnswer n req room ≠ []) : AllMet (demoTable n req room) := by
  have key := (c124_outcome (by decide) (by decide) rfl demo_named demo_mask (demo_run n) ha demoEnv req (zeros room)).1
  rw [show (zeros room).length = room by simp [zeros]] at key
  refine key.1 ?_
  unfold demoAnswer at h
  split at h
  · rename_i out hx
    exact ⟨out, hx⟩
  · simp at h

-- CHALLENGE in the demonstration session: all checks are met with 200 bytes of room; with 75 the first one not met is the fifth of `challengeChecks`, with 73 the fourth.
example : AllMet (demoTable 5 demoChallenge 200) := demo_all (by decide +kernel) (by decide +kernel)
example : First (demoTable 5 demoChallenge 75) (.error (.writeChallengeAuth (.writeOpaqueElement .bufferFull))) := demo_first (by decide +kernel) (by decide +kernel)
example : First (demoTable 5 demoChallenge 73) (.error (.writeChallengeAuth .bufferFull)) := demo_first (by decide +kernel) (by decide +kernel)
-- a request that may not come, one with the wrong version, one that is malformed, one for a slot that is not there, one without room, one of two bytes
example : First (demoTable 2 [0x11, 0x82, 0, 0, 0, 0, 0, 1] 200) (.error (.unexpectedMsgCode 0xE3 0x11)) := demo_first (by decide +kernel) (by decide +kernel)
example : First (demoTable 1 [0x10, 0xE1, 0, 0, 0, 0, 0, 0, 0, 0, 0, 0] 200) (.error .parseHeader) := demo_first (by decide +kernel) (by decide +kernel)
example : First (demoTable 2 [0x11, 0xE3, 0, 0, 129, 0] 200) (.error (.parseNegotiateAlgorithms .tooLarge)) := demo_first (by decide +kernel) (by decide +kernel)
example : First (demoTable 4 [0x11, 0x82, 2, 0, 0, 0, 0, 1] 200) (.error .invalidSlot) := demo_first (by decide +kernel) (by decide +kernel)
example : First (demoTable 0 [0x10, 0x84, 0, 0] 9) (.error .bufferFull) := demo_first (by decide +kernel) (by decide +kernel)
example : First (demoTable 0 [0x10, 0x84] 200) .abort := by
  have key := (c124_outcome (by decide) (by decide) rfl demo_named demo_mask (demo_run 0) (by decide +kernel) demoEnv [0x10, 0x84] (zeros 200)).2.2
  rw [show (zeros 200).length = 200 from List.length_replicate] at key
  exact key.1 ⟨.assertion, by decide +kernel⟩

end Spdm
