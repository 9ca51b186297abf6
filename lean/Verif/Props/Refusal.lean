import Verif.Lemmas.Refusal
import Verif.Props.Response
import Verif.Props.Panics
/-! C86: which ERROR a refused request gets. -/
namespace Spdm
open Spec

variable {c : Cfg} {cr : Crypto} {env : Env} {slots : List (Option FilledSlot)} {es : List RspEvent} {r : Responder}

/-- What the caller is told about an unexpected request: a header error if the code may come now but the version byte is wrong; otherwise a code that
may come now as the expected one and the first byte of the request as the one received. -/
def UnexpectedValue (prev : Option UInt8) (req : Bytes) (e : Err) : Prop :=
  (e = .parseHeader ∧ ∃ k, code req = some k ∧ allowed prev k = true) ∨
  (∃ x b0, e = .unexpectedMsg x b0 ∧ req[0]? = some b0 ∧ allowed prev x = true ∧ ∀ k, code req = some k → allowed prev k = false)

/-- The four reasons, with the error each of them gives. -/
inductive Refused (c : Cfg) (cr : Crypto) (env : Env) (slots : List (Option FilledSlot)) (prev : Option UInt8) (l : Log) (req : Bytes) (room : Nat) (e : Err) : Prop
  | unexpected (h1 : ¬ Awaited prev req) (h2 : errorBytes e = [0x04, 0]) (h3 : UnexpectedValue prev req e)
  | malformed (h1 : Awaited prev req) (h2 : ¬ WellFormed c req) (h3 : errorBytes e = [0x01, 0] ∨ errorBytes e = [0x0E, 0] ∧ CutShort c req)
  | slot (h1 : Awaited prev req) (h2 : WellFormed c req) (h3 : SlotMissing c slots req) (h4 : errorBytes e = [0x01, 0])
  | resources (h1 : Awaited prev req) (h2 : WellFormed c req) (h3 : ¬ SlotMissing c slots req) (h4 : errorBytes e = [0x0F, 0, 0])
  | challenge {i : UInt8} {s : FilledSlot} (h1 : Awaited prev req) (h2 : WellFormed c req) (h3 : code req = some 0x83) (hi : req[2]? = some i)
      (hs : slots[i.toNat]? = some (some s))
      (h4 : errorBytes e = [0x0D, 0, 0, 0, 0, 0] ∨
        errorBytes e = [0x01, 0] ∧ EndsInOpaque l (cr.hash (UInt32.ofNat l.hash) (Wire.chain s.certChain)) env.nonce room ∨
        errorBytes e = [0x05, 0] ∧ ∃ mask, MaskOf slots mask ∧ s.sign env.seed (cr.hash (UInt32.ofNat l.hash) (l.text ++ req ++ unsignedReply cr env l i mask s)) = none)

theorem requestHeader_eq (t : MsgType) (ht : t = .getVersion ∨ t = .getCapabilities ∨ t = .negotiateAlgorithms ∨ t = .getDigests ∨ t = .getCertificate ∨ t = .challenge) :
    requestHeader t.spdmCode = Wire.header t := by
  rcases ht with rfl | rfl | rfl | rfl | rfl | rfl <;> rfl

/-- A request with a wrong version byte is not awaited. -/
theorem not_awaited_of_err {t : MsgType} {req : Bytes} {e : Err} {p : Option UInt8} (ht : requestHeader t.spdmCode = Wire.header t) (ha : allowed p t.spdmCode = true)
    (h : t.parseHeader req = .err e) : ¬ Awaited p req ∧ errorBytes e = [0x04, 0] ∧ UnexpectedValue p req e := by
  match req with
  | [] => simp [MsgType.parseHeader] at h
  | [_] => simp [MsgType.parseHeader] at h
  | [_, _] => simp [MsgType.parseHeader] at h
  | b0 :: b1 :: b2 :: rest =>
    have hh : Wire.header t = [t.spdmVersion, t.spdmCode] := by cases t <;> rfl
    simp only [MsgType.parseHeader] at h
    rw [if_neg (by simp)] at h
    simp only [List.getElem?_cons_zero, List.getElem?_cons_succ] at h
    split at h
    · simp at h
    · rename_i h1
      split at h
      · simp at h
      · rename_i h2
        simp only [Res.err.injEq] at h
        refine ⟨?_, by rw [← h]; rfl, .inl ⟨h.symm, t.spdmCode, by rw [not_not] at h1; rw [← h1]; rfl, ha⟩⟩
        rintro ⟨k, _, hk⟩
        simp only [List.take_succ_cons, List.take_zero, requestHeader, List.cons.injEq, and_true] at hk
        obtain ⟨rfl, rfl⟩ := hk
        rw [not_not] at h1
        rw [hh, h1.symm] at ht
        simp only [requestHeader, List.cons.injEq, and_true] at ht
        exact h2 ht

/-- A request whose code may not come now is not awaited. -/
theorem not_awaited_of_code {req : Bytes} {p : Option UInt8} (h : ∀ k, code req = some k → allowed p k = false) : ¬ Awaited p req := by
  rintro ⟨k, ha, hk⟩
  have : code req = some k := by
    have h1 : (req.take 2)[1]? = some k := by rw [hk]; rfl
    rw [List.getElem?_take_of_lt (by omega)] at h1
    exact h1
  rw [h k this] at ha
  simp at ha

theorem not_wellFormed (h0 : 0 < c.numSlots) (h8 : c.numSlots ≤ 8) {req : Bytes} {t : MsgType} (hh : req.take 2 = Wire.header t) (ht : t ≠ .getDigests)
    (hp : (AnyMsg.parse c ⟨0, 0, false⟩ t (req.drop 2)).isOk = false) : ¬ WellFormed c req := by
  rintro (⟨body, rfl⟩ | ⟨m, bs, tail, rfl, hd⟩)
  · simp only [List.cons_append, List.nil_append, List.take_succ_cons, List.take_zero] at hh
    apply ht
    cases t <;> simp_all [Wire.header]
  · have h2 : (Wire.header m.ty).length = 2 := by cases m.ty <;> rfl
    rw [List.append_assoc, List.take_append_of_le_length (by omega), List.take_of_length_le (by omega)] at hh
    have hty : m.ty = t := by
      revert hh
      generalize m.ty = a
      cases a <;> cases t <;> first | exact fun _ => rfl | (intro h; exact absurd h (by decide))
    rw [List.append_assoc, List.drop_left' h2, ← hty, denotes_parse h0 h8 hd] at hp
    simp [Res.isOk] at hp

theorem wellFormed_of (h0 : 0 < c.numSlots) (h8 : c.numSlots ≤ 8) {req : Bytes} {t : MsgType} {m : AnyMsg} (hh : req.take 2 = Wire.header t)
    (hp : AnyMsg.parse c ⟨0, 0, false⟩ t (req.drop 2) = .ok m) : WellFormed c req ∧ ∃ bs tail, req = Wire.header t ++ bs ++ tail ∧ Denotes c ⟨0, 0, false⟩ bs m := by
  obtain ⟨hty, bs, rest, h1, h2⟩ := (c78_accepts_iff c _ h0 h8 _ _ _).mp hp
  have hr : req = Wire.header t ++ bs ++ rest := by rw [List.append_assoc, ← h1, ← hh, List.take_append_drop]
  exact ⟨.inr ⟨m, bs, rest, by rw [hty]; exact hr, h2⟩, bs, rest, hr, h2⟩

theorem code_of_header {req : Bytes} {t : MsgType} (hh : req.take 2 = Wire.header t) : code req = some t.spdmCode := by
  have h1 : (req.take 2)[1]? = some t.spdmCode := by rw [hh]; cases t <;> rfl
  rw [List.getElem?_take_of_lt (by omega)] at h1
  exact h1

theorem field_drop (req : Bytes) (i n : Nat) : field (req.drop 2) i n = field req (2 + i) n := by
  simp [field, List.drop_drop]

/-- The errors of a parser, for the reasons of the specification. -/
theorem parse_fails {req : Bytes} {k : UInt8} {e : Err} (hc : code req = some k) (h : Invalid e ∨ (e = .read .bufferEmpty ∧ req.length < neededBytes c req k)) :
    errorBytes e = [0x01, 0] ∨ errorBytes e = [0x0E, 0] ∧ CutShort c req := by
  rcases h with h | ⟨rfl, h⟩
  · exact .inl h
  · exact .inr ⟨rfl, k, hc, .inl h⟩

/-- The errors of `q` started in `s`. -/
def ErrAt {σ α : Type} (S : Err → Prop) (q : M σ α) (s : σ) : Prop := ∀ e, (q s).1 = .err e → S e

namespace ErrAt
variable {σ α β : Type} {S : Err → Prop} {s : σ}

theorem of {T : Err → Prop} {q : M σ α} (h : ErrIn T q) (hs : ∀ e, T e → S e) : ErrAt S q s := fun e he => hs e (h s e he)
theorem lift {x : Res α} {q : α → M σ β} (hx : RErrIn S x) (hq : ∀ a, x = .ok a → ErrAt S (q a) s) : ErrAt S (M.lift x >>= q) s := by
  intro e he
  cases x with
  | ok a => exact hq a rfl e he
  | err e' => exact hx e (by simpa [M.lift, bind, M.bind] using he)
  | panic k => simp [M.lift, bind, M.bind] at he
theorem bind {x : M σ α} {q : α → M σ β} (hx : ErrAt S x s) (hq : ∀ a s', x s = (.ok a, s') → ErrAt S (q a) s') : ErrAt S (x >>= q) s := by
  intro e he
  rcases hpr : x s with ⟨a | e' | k, s'⟩
  · rw [M.run_bind_ok hpr] at he; exact hq a s' hpr e he
  · rw [M.run_bind_err hpr] at he
    simp only [Res.err.injEq] at he
    subst he
    exact hx e' (by rw [hpr])
  · rw [M.run_bind_panic hpr] at he; simp at he
theorem fail {e : Err} (h : S e) : ErrAt S (M.fail e : M σ α) s := by
  intro e' h'
  have : e = e' := by simpa [M.fail] using h'
  exact this ▸ h
end ErrAt

section handlers
variable {p : Option UInt8} {l : Log} {req : Bytes} {h : HState} {room : Nat}

theorem awaited_of {t : MsgType} (ht : requestHeader t.spdmCode = Wire.header t) (ha : allowed p t.spdmCode = true) (hh : req.take 2 = Wire.header t) : Awaited p req :=
  ⟨_, ha, hh.trans ht.symm⟩

theorem full_bytes {e : Err} (h : Full e) : errorBytes e = [0x0F, 0, 0] := by rw [h]; rfl
theorem noRoom_bytes {e : Err} (h : NoRoom e) : errorBytes e = [0x0F, 0, 0] := by rcases h with rfl | rfl <;> rfl

/-- No slot is missing in a request that names none. -/
theorem no_slot {k : UInt8} (hc : code req = some k) (h2 : k ≠ 0x82) (h3 : k ≠ 0x83) : ¬ SlotMissing c slots req := by
  rintro ⟨i, _, ⟨h, _⟩ | ⟨h, _⟩⟩ <;> rw [hc, Option.some.injEq] at h
  · exact h2 h
  · exact h3 h

/-- Slicing off the header gives no error. -/
theorem sliceFrom_lift {S : Err → Prop} {β : Type} {q : Bytes → H β} (hq : ErrAt S (q (req.drop 2)) h) : ErrAt S (M.lift (sliceFrom req headerSize) >>= q) h :=
  .lift (.sliceFrom _ _) fun a ha => by
    obtain ⟨_, rfl⟩ := sliceFrom_inv ha
    exact hq

/-- The tail of most handlers: nothing but a lack of room. -/
theorem reply_errs (t : MsgType) {body : W Nat} (hb : ErrIn Full body) (st : RspState) :
    ErrIn Full (do
      let size ← H.write t body
      let out ← H.rspTo size
      H.extend out
      pure (size, st)) :=
  (hwrite_errs (S := Full) rfl hb).bind fun _ => (rspTo_errs _).bind fun _ => (hextend_errs _).bind fun _ => .pure _

theorem handleGetVersion_refused (h0 : 0 < c.numSlots) (h8 : c.numSlots ≤ 8) (hh : req.take 2 = Wire.header .getVersion) :
    ErrAt (Refused c cr env slots p l req room) (Responder.handleGetVersion req) h := by
  have haw : Awaited p req := awaited_of (t := .getVersion) rfl (by simp [allowed, MsgType.spdmCode]) hh
  have hcode := code_of_header hh
  unfold Responder.handleGetVersion
  refine sliceFrom_lift (.lift (fun e he => ?_) fun a ha => ?_)
  · refine .malformed haw (not_wellFormed h0 h8 hh (by decide) (by simp only [AnyMsg.parse, he]; rfl)) (parse_fails hcode ?_)
    refine (GetVersion.fails _ e he).imp id fun h => ⟨h.1, ?_⟩
    have := h.2
    simp only [List.length_drop] at this
    show _ < 4
    omega
  · obtain ⟨hwf, _⟩ := wellFormed_of h0 h8 (c := c) (t := .getVersion) (m := .getVersion) hh (by simp only [AnyMsg.parse, ha]; rfl)
    refine .of (T := Full) (hclear_errs.bind fun _ => (hextend_errs _).bind fun _ => reply_errs _ (Version.writeBody_errs _) _) fun e he => ?_
    exact .resources haw hwf (no_slot hcode (by decide) (by decide)) (full_bytes he)

theorem versionHandle_refused (h0 : 0 < c.numSlots) (h8 : c.numSlots ≤ 8) (hp : ∀ k, allowed p k = true → k = 0x84) :
    ErrAt (Refused c cr env slots p l req room) (Responder.versionHandle req) h := by
  unfold Responder.versionHandle
  rcases hd : MsgType.getVersion.parseHeader req with b | e | k
  · cases b with
    | true => exact handleGetVersion_refused h0 h8 (parseHeader_true hd).2
    | false =>
      have hno : ∀ k, code req = some k → allowed p k = false := by
        intro k hk
        by_contra hc
        have := hp k (by simpa using hc)
        subst this
        exact (parseHeader_false hd).2 hk
      refine .lift (.index _ _) fun b0 hb => .fail (.unexpected (not_awaited_of_code hno) rfl (.inr ⟨_, b0, rfl, index_inv hb, by simp [allowed, MsgType.spdmCode], hno⟩))
  · obtain ⟨h1, h2, h3⟩ := not_awaited_of_err (p := p) (t := .getVersion) rfl (by simp [allowed, MsgType.spdmCode]) hd
    exact .fail (.unexpected h1 h2 h3)
  · intro e he; simp [M.die] at he

/-- The common beginning of the other handlers. -/
theorem reset_refused (h0 : 0 < c.numSlots) (h8 : c.numSlots ≤ 8) {rest : H (Nat × RspState)} 
    (hr : 3 ≤ req.length → code req ≠ some 0x84 → ErrAt (Refused c cr env slots p l req room) rest h) :
    ErrAt (Refused c cr env slots p l req room) (Responder.resetOnGetVersion req rest) h := by
  unfold Responder.resetOnGetVersion
  rcases hd : MsgType.getVersion.parseHeader req with b | e | k
  · cases b with
    | true =>
      simp only
      unfold Responder.versionHandle
      rw [hd]
      exact handleGetVersion_refused h0 h8 (parseHeader_true hd).2
    | false => exact hr (parseHeader_false hd).1 (fun hk => (parseHeader_false hd).2 hk)
  · obtain ⟨h1, h2, h3⟩ := not_awaited_of_err (p := p) (t := .getVersion) rfl (by simp [allowed, MsgType.spdmCode]) hd
    exact .fail (.unexpected h1 h2 h3)
  · intro e he; simp [M.die] at he

/-- `expect`, when only one request may come. -/
theorem expect_refused {t : MsgType} (ht : requestHeader t.spdmCode = Wire.header t) (ha : allowed p t.spdmCode = true)
    (hp : ∀ k, code req = some k → allowed p k = true → k = t.spdmCode) (e : Err) (he : Responder.expect t req = .err e) :
    Refused c cr env slots p l req room e := by
  unfold Responder.expect at he
  rcases hd : t.parseHeader req with b | e' | k
  · cases b with
    | true => rw [hd] at he; simp at he
    | false =>
      rw [hd] at he
      simp only at he
      have hno : ∀ k, code req = some k → allowed p k = false := by
        intro k hk
        by_contra hc
        have := hp k hk (by simpa using hc)
        subst this
        refine (parseHeader_false hd).2 ?_
        rw [show req[1]? = some t.spdmCode from hk]
        cases t <;> rfl
      rcases hi : index req 0 with b0 | e0 | k0
      · rw [hi] at he
        simp only [Res.ok_bind, Res.err.injEq] at he
        exact .unexpected (not_awaited_of_code hno) (by rw [← he]; rfl) (.inr ⟨_, b0, he.symm, index_inv hi, ha, hno⟩)
      · exact absurd (RErrIn.index (S := fun _ => False) req 0 e0 hi) (by simp)
      · rw [hi] at he; simp at he
  · rw [hd] at he
    simp only [Res.err.injEq] at he
    subst he
    obtain ⟨h1, h2, h3⟩ := not_awaited_of_err (p := p) ht ha hd
    exact .unexpected h1 h2 h3
  · rw [hd] at he; simp at he

theorem capabilitiesHandle_refused (h0 : 0 < c.numSlots) (h8 : c.numSlots ≤ 8) (hn : ∀ a ∈ c.capabilities, ∃ k, (a, k) ∈ capabilityBits) :
    ErrAt (Refused c cr env slots (some 0x84) l req room) (Responder.capabilitiesHandle c req) h := by
  unfold Responder.capabilitiesHandle
  refine reset_refused h0 h8 fun h3 hne => .lift (expect_refused (t := .getCapabilities) rfl (by decide) ?_) fun _ hx => ?_
  · intro k hk ha
    have : k ≠ 0x84 := fun h => hne (h ▸ hk)
    simpa [allowed, this, MsgType.spdmCode] using ha
  have hh := (expect_ok_inv hx).2
  have haw : Awaited (some 0x84) req := awaited_of (t := .getCapabilities) rfl (by decide) hh
  have hcode := code_of_header hh
  refine sliceFrom_lift (.lift (fun e he => ?_) fun a ha => ?_)
  · refine .malformed haw (not_wellFormed h0 h8 hh (by decide) (by simp only [AnyMsg.parse, he]; rfl)) (parse_fails hcode ?_)
    refine (GetCapabilities.fails _ e he).imp id fun h => ⟨h.1, ?_⟩
    have := h.2
    simp only [List.length_drop] at this
    show _ < 12
    omega
  · obtain ⟨hwf, _⟩ := wellFormed_of h0 h8 (c := c) (t := .getCapabilities) (m := .getCapabilities a) hh (by simp only [AnyMsg.parse, ha]; rfl)
    obtain ⟨w, hw, _⟩ := configured_word hn
    refine .of (T := Full) ((hextend_errs _).bind fun _ => (ErrIn.lift (by rw [hw]; exact .ok _)).bind fun m => reply_errs _ (Capabilities.writeBody_errs _) _) fun e he => ?_
    exact .resources haw hwf (no_slot hcode (by decide) (by decide)) (full_bytes he)

theorem algorithmsHandle_refused (h0 : 0 < c.numSlots) (h8 : c.numSlots ≤ 8) (caps : Caps) :
    ErrAt (Refused c cr env slots (some 0xE1) l req room) (Responder.algorithmsHandle caps req) h := by
  unfold Responder.algorithmsHandle
  refine reset_refused h0 h8 fun h3 hne => .lift (expect_refused (t := .negotiateAlgorithms) rfl (by decide) ?_) fun _ hx => ?_
  · intro k hk ha
    have : k ≠ 0x84 := fun h => hne (h ▸ hk)
    simpa [allowed, this, MsgType.spdmCode] using ha
  have hh := (expect_ok_inv hx).2
  have haw : Awaited (some 0xE1) req := awaited_of (t := .negotiateAlgorithms) rfl (by decide) hh
  have hcode := code_of_header hh
  refine sliceFrom_lift (.lift (fun e he => ?_) fun a ha => ?_)
  · refine .malformed haw (not_wellFormed h0 h8 hh (by decide) (by simp only [AnyMsg.parse, he]; rfl)) ?_
    rcases NegotiateAlgorithms.fails _ e he with (h | ⟨rfl, h⟩) | ⟨rfl, h⟩
    · exact .inl h
    · rw [field_drop] at h
      exact .inr ⟨rfl, 0xE3, hcode, .inr ⟨rfl, h⟩⟩
    · rw [field_drop, field_drop, List.length_drop] at h
      refine .inr ⟨rfl, 0xE3, hcode, .inl ?_⟩
      show _ < 32 + 4 * (leVal (field req 28 1) + leVal (field req 29 1))
      simp only [Nat.reduceAdd] at h
      omega
  · obtain ⟨hwf, _⟩ := wellFormed_of h0 h8 (c := c) (t := .negotiateAlgorithms) (m := .negotiateAlgorithms a) hh (by simp only [AnyMsg.parse, ha]; rfl)
    have hfb : ∀ (w m b : Nat), RErrIn Full (Responder.firstBit w m b) := fun w m b => .ite (.ite (.ok _) (.panic _)) (.panic _)
    have hcr : ∀ (n i : Nat) (rs : List AlgorithmRequest), RErrIn Full (Responder.chooseResponses a.algorithmRequests n i rs) := by
      intro n
      induction n with
      | zero => intro i rs; exact .ok _
      | succ n ih => intro i rs; exact .bind (.index _ _) fun _ => .bind (hfb _ _ _) fun _ => .bind (.setIndex _ _ _) fun _ => ih _ _
    have hca : RErrIn Full (Responder.chooseAlgorithms a) := .bind (hfb _ _ _) fun _ => .bind (hfb _ _ _) fun _ => .bind (hcr _ _ _) fun _ => .ok _
    refine .of (T := Full) ((hextend_errs _).bind fun _ => (ErrIn.lift hca).bind fun m => reply_errs _ (Algorithms.writeBody_errs _) _) fun e he => ?_
    exact .resources haw hwf (no_slot hcode (by decide) (by decide)) (full_bytes he)

theorem idAuthHandle_refused (h0 : 0 < c.numSlots) (h8 : c.numSlots ≤ 8) (n : Negotiated) {k : UInt8} (hk : k = 0xE3 ∨ k = 0x81) (chains : List (Option CertificateChain)) :
    ErrAt (Refused c cr env slots (some k) l req room) (Responder.idAuthHandle c cr n chains req) h := by
  unfold Responder.idAuthHandle
  refine reset_refused h0 h8 fun h3 hne => .lift (fun e he => ?_) fun b hb => ?_
  · obtain ⟨h1, h2, h3⟩ := not_awaited_of_err (p := some k) (t := .getDigests) rfl (by rcases hk with rfl | rfl <;> decide) he
    exact .unexpected h1 h2 h3
  cases b with
  | true =>
    have hh := (parseHeader_true hb).2
    have haw : Awaited (some k) req := awaited_of (t := .getDigests) rfl (by rcases hk with rfl | rfl <;> decide) hh
    have hcode := code_of_header hh
    have hwf : WellFormed c req := .inl ⟨req.drop 2, by rw [← show req.take 2 = [0x11, 0x81] from hh, List.take_append_drop]⟩
    rw [if_pos rfl]
    unfold Responder.handleGetDigests
    have l' : ∀ {α : Type} {q : H α}, ErrIn Full q → ErrIn NoRoom q := fun h => h.mono fun _ h => .inl h
    refine .of (T := NoRoom) ((ErrIn.lift (slotMask_errs _ _)).bind fun _ => (ErrIn.lift (hashChains_errs _ _ _ _)).bind fun _ =>
      (l' (hwrite_errs (S := Full) rfl (Digests.writeBody_errs _ _))).bind fun _ => (l' (hextend_errs _)).bind fun _ => (rspTo_errs _).bind fun _ => (l' (hextend_errs _)).bind fun _ => .pure _) fun e he => ?_
    exact .resources haw hwf (no_slot hcode (by decide) (by decide)) (noRoom_bytes he)
  | false =>
    simp only [Bool.false_eq_true, if_false]
    refine .lift (expect_refused (t := .getCertificate) rfl (by rcases hk with rfl | rfl <;> decide) ?_) fun _ hx => ?_
    · intro j hj ha
      have h1 : j ≠ 0x84 := fun h => hne (h ▸ hj)
      have h2 : j ≠ 0x81 := fun h => (parseHeader_false hb).2 (by subst h; exact hj)
      rcases hk with rfl | rfl <;> simpa [allowed, h1, h2, MsgType.spdmCode] using ha
    have hh := (expect_ok_inv hx).2
    have haw : Awaited (some k) req := awaited_of (t := .getCertificate) rfl (by rcases hk with rfl | rfl <;> decide) hh
    have hcode := code_of_header hh
    unfold Responder.handleGetCertificate
    refine sliceFrom_lift (.lift (fun e he => ?_) fun a ha => ?_)
    · refine .malformed haw (not_wellFormed h0 h8 hh (by decide) (by simp only [AnyMsg.parse, he]; rfl)) (parse_fails hcode ?_)
      refine (GetCertificate.fails _ e he).imp id fun h => ⟨h.1, ?_⟩
      have := h.2
      simp only [List.length_drop] at this
      show _ < 8
      omega
    · obtain ⟨hwf, bs, tail, hr, hd⟩ := wellFormed_of h0 h8 (c := c) (t := .getCertificate) (m := .getCertificate a) hh (by simp only [AnyMsg.parse, ha]; rfl)
      have hs : req[2]? = some a.slot := by
        simp only [Denotes] at hd
        rw [hr, hd]; simp [Wire.header, Wire.getCertificate]
      split
      · rename_i hge
        exact .fail (.slot haw hwf ⟨_, hs, .inl ⟨hcode, hge⟩⟩ rfl)
      · rename_i hlt
        have l' : ∀ {α : Type} {q : H α}, ErrIn Full q → ErrIn NoRoom q := fun h => h.mono fun _ h => .inl h
        refine .of (T := NoRoom) ((ErrIn.lift (certPortion_errs _ _ _)).bind fun cp => (l' (hwrite_errs (S := Full) rfl (Certificate.writeBody_errs _))).bind fun _ =>
          (l' (hextend_errs _)).bind fun _ => (rspTo_errs _).bind fun _ => (l' (hextend_errs _)).bind fun _ => .pure _) fun e he => ?_
        refine .resources haw hwf ?_ (noRoom_bytes he)
        rintro ⟨i, hi, ⟨_, hm⟩ | ⟨hc, _⟩⟩
        · rw [hs, Option.some.injEq] at hi
          subst hi
          exact hlt hm
        · rw [hcode] at hc; exact absurd hc (by decide)

/-! ### CHALLENGE -/

theorem writes_step {α : Type} {q : W α} {f : Nat → α} {bs : Bytes} (hq : Writes q f bs) (he : ErrIn Full q) {w : Writer} (hw : w.WF) :
    (q w = (.ok (f (w.offset + bs.length)), w.app bs) ∧ bs.length ≤ w.room) ∨ ((q w).1 = .err .bufferFull ∧ w.room < bs.length) := by
  obtain ⟨h1, h2⟩ := hq w hw
  by_cases hb : bs.length ≤ w.room
  · exact .inl ⟨h1 hb, hb⟩
  · obtain ⟨e, n, _, _, h4⟩ := h2 (by omega)
    refine .inr ⟨?_, by omega⟩
    have := he w e (by rw [h4])
    rw [h4, this]

theorem writes_err_room {α : Type} {q : W α} {f : Nat → α} {bs : Bytes} (hq : Writes q f bs) {w : Writer} (hw : w.WF) {e : Err} (he : (q w).1 = .err e) :
    w.room < bs.length := by
  by_contra hc
  rw [(hq w hw).1 (by omega)] at he
  simp at he

theorem wstep {α β : Type} {S : Err → Prop} {q : W α} {f : Nat → α} {bs : Bytes} {k : α → W β} (hq : Writes q f bs) (he : ErrIn Full q) {w : Writer} (hw : w.WF)
    (h1 : w.room < bs.length → S .bufferFull) (h2 : bs.length ≤ w.room → (w.app bs).WF → (w.app bs).room = w.room - bs.length → ∀ a, ErrAt S (k a) (w.app bs)) :
    ErrAt S (q >>= k) w := by
  rcases writes_step hq he hw with ⟨g1, g2⟩ | ⟨g1, g2⟩
  · refine .bind (fun e h => by rw [g1] at h; simp at h) fun a s' h => ?_
    rw [g1] at h
    simp only [Prod.mk.injEq] at h
    rw [← h.2]
    exact h2 g2 (Writer.app_wf hw g2) (Writer.app_room hw g2) a
  · refine .bind (fun e h => ?_) fun a s' h => ?_
    · rw [g1] at h; simp only [Res.err.injEq] at h; exact h ▸ h1 g2
    · rw [h] at g1; simp at g1

/-- The bytes of a CHALLENGE_AUTH body in front of the opaque data. -/
def authBefore (m : ChallengeAuth) : Nat := 2 + m.certChainHash.length + m.nonce.length + m.measurementSummaryHash.length + 2

theorem challengeAuth_errs {m : ChallengeAuth} (hs : m.slot.toNat < c.numSlots) (ho : m.opaqueData = OpaqueData.dflt c) {w : Writer} (hw : w.WF) :
    ErrAt (fun e => e = .bufferFull ∨ e = .opaqueFull ∧ authBefore m ≤ w.room ∧ w.room < authBefore m + 4) (m.writeBody c) w := by
  have hsz : m.opaqueData.serializedSize = .ok 4 := by
    rw [ho]
    unfold OpaqueData.serializedSize OpaqueData.dflt
    rw [sliceTo_ok (by simp)]
    simp
  unfold ChallengeAuth.writeBody
  refine .lift (fun e he => ?_) fun _ _ => ?_
  · exfalso
    unfold ChallengeAuth.validate at he
    rw [if_neg (by omega), hsz] at he
    simp [maxOpaqueDataSize] at he
  refine wstep (.put _) (put_errs _) hw (fun _ => .inl rfl) fun r1 w1 q1 _ => ?_
  refine wstep (.put _) (put_errs _) w1 (fun _ => .inl rfl) fun r2 w2 q2 _ => ?_
  refine wstep (.extend _) (wextend_errs _) w2 (fun _ => .inl rfl) fun r3 w3 q3 _ => ?_
  refine wstep (.extend _) (wextend_errs _) w3 (fun _ => .inl rfl) fun r4 w4 q4 _ => ?_
  refine wstep (.extend _) (wextend_errs _) w4 (fun _ => .inl rfl) fun r5 w5 q5 _ => ?_
  refine .lift (by rw [hsz]; exact .ok _) fun n hn => ?_
  refine wstep (.putU16 _) (putAll_errs _) w5 (fun _ => .inl rfl) fun r6 w6 q6 _ => ?_
  rw [leBytes_length] at q6 r6
  simp only [List.length_singleton] at q1 q2 r1 r2
  refine .bind (fun e he => ?_) fun _ v' hv' => .of (T := Full) ((wextend_errs _).bind fun _ => offsetM_errs) fun e he => .inl he
  have hin : ErrIn (fun e => e = .opaqueFull) m.opaqueData.write := by
    unfold OpaqueData.write
    refine .mapErr (S := Full) ?_ (fun e he => by rw [he]; rfl)
    rw [ho]
    refine (put_errs _).bind fun _ => (putAll_errs _).bind fun _ => ?_
    unfold OpaqueData.dflt
    rw [sliceTo_ok (by simp)]
    exact offsetM_errs
  have hwr : Writes m.opaqueData.write id (zeros 4) := by
    rw [ho, ← dflt_opaque_wire c]
    exact OpaqueData.writes (dflt_opaque c)
  refine .inr ⟨hin _ e he, ?_⟩
  have h4 := writes_err_room hwr w6 he
  simp only [zeros, List.length_replicate] at h4
  unfold authBefore
  omega

theorem hwrite_auth {m : ChallengeAuth} (hs : m.slot.toNat < c.numSlots) (ho : m.opaqueData = OpaqueData.dflt c) {h : HState} {e : Err}
    (he : (H.write .challengeAuth (m.writeBody c) h).1 = .err e) :
    e = .bufferFull ∨ e = .opaqueFull ∧ 2 + authBefore m ≤ h.rsp.length ∧ h.rsp.length < 2 + authBefore m + 4 := by
  have h1 : ErrAt (fun e => e = .bufferFull ∨ e = .opaqueFull ∧ 2 + authBefore m ≤ h.rsp.length ∧ h.rsp.length < 2 + authBefore m + 4)
      (MsgType.writeMsg .challengeAuth (m.writeBody c)) (Writer.new h.rsp) := by
    have hroom : (Writer.new h.rsp).room = h.rsp.length := by simp [Writer.new, Writer.room]
    have hwf : (Writer.new h.rsp).WF := by simp [Writer.new, Writer.WF]
    unfold MsgType.writeMsg MsgType.writeHeader
    refine wstep (Writes.bind (.put _) fun _ => .put _) ((put_errs _).bind fun _ => put_errs _) hwf (fun _ => .inl rfl) fun r1 w2 q1 _ => ?_
    intro e he
    simp only [List.length_append, List.length_singleton] at q1 r1
    refine (challengeAuth_errs hs ho w2 e he).imp id fun h => ⟨h.1, ?_, ?_⟩ <;> omega
  exact h1 e (by simpa [H.write, MsgType.write] using he)

theorem challengeHandle_refused (h0 : 0 < c.numSlots) (h8 : c.numSlots ≤ 8) (hl : slots.length = c.numSlots) (n : Negotiated) {k : UInt8} (hk : k = 0x82 ∨ k = 0x83)
    (hw : Words l n.caps n.algorithms) (htw : h.tr.WF) (htx : h.tr.get = l.text) :
    ErrAt (Refused c cr env slots (some k) l req h.rsp.length) (Responder.challengeHandle c cr env n slots req) h := by
  unfold Responder.challengeHandle
  refine reset_refused h0 h8 fun h3 hne => .lift (expect_refused (t := .challenge) rfl (by rcases hk with rfl | rfl <;> decide) ?_) fun _ hx => ?_
  · intro j hj ha
    have h1 : j ≠ 0x84 := fun h => hne (h ▸ hj)
    rcases hk with rfl | rfl <;> simpa [allowed, h1, MsgType.spdmCode] using ha
  have hh := (expect_ok_inv hx).2
  have haw : Awaited (some k) req := awaited_of (t := .challenge) rfl (by rcases hk with rfl | rfl <;> decide) hh
  have hcode := code_of_header hh
  have hds : ∀ {S : Err → Prop}, RErrIn S (BaseHashAlgo.getDigestSize c n.algorithms.baseHashAlgoSelected) := by
    intro S
    unfold BaseHashAlgo.getDigestSize BaseHashAlgo.checkedDigestSize
    exact .ite (.ite (.ok _) (.panic _)) (.ite (.ite (.ok _) (.panic _)) (.ite (.ite (.ok _) (.panic _)) (.panic _)))
  have hss : ∀ {S : Err → Prop}, RErrIn S (BaseAsymAlgo.getSignatureSize c n.algorithms.baseAsymAlgoSelected) := by
    intro S
    have hc : ∀ k, RErrIn S (BaseAsymAlgo.checkedSignatureSize c k) := fun k => .ite (.ok _) (.panic _)
    unfold BaseAsymAlgo.getSignatureSize
    exact .ite (hc _) (.ite (hc _) (.ite (hc _) (.ite (hc _) (.ite (hc _) (.ite (hc _) (.panic _))))))
  refine .lift hds fun ds hdsv => .lift hss fun ss hssv => ?_
  refine sliceFrom_lift (.lift (fun e he => ?_) fun a ha => ?_)
  · refine .malformed haw (not_wellFormed h0 h8 hh (by decide) (by simp only [AnyMsg.parse, he]; rfl)) (parse_fails hcode ?_)
    refine (Challenge.fails c _ e he).imp id fun h => ⟨h.1, ?_⟩
    have := h.2
    simp only [List.length_drop] at this
    show _ < 4 + c.nonceSize
    omega
  obtain ⟨hwf, bs, tail, hr, hd⟩ := wellFormed_of h0 h8 (c := c) (t := .challenge) (m := .challenge a) hh (by simp only [AnyMsg.parse, ha]; rfl)
  have hs : req[2]? = some a.slot := by
    simp only [Denotes] at hd
    rw [hr, hd.2]; simp [Wire.header, Wire.challenge]
  refine .lift (fun e he => ?_) fun s hslot => ?_
  · unfold Responder.slotAt at he
    split at he
    · simp at he
    · rename_i hno
      simp only [Res.err.injEq] at he
      subst he
      exact .slot haw hwf ⟨_, hs, .inr ⟨hcode, fun s hs => hno s hs⟩⟩ rfl
  have hsl := slotAt_inv hslot
  have hmiss : ¬ SlotMissing c slots req := by
    rintro ⟨i, hi, ⟨hc, _⟩ | ⟨_, hm⟩⟩
    · rw [hcode] at hc; exact absurd hc (by decide)
    · rw [hs, Option.some.injEq] at hi
      subst hi
      exact hm _ hsl
  have hlt : a.slot.toNat < c.numSlots := by
    rw [← hl]
    by_contra hc
    rw [List.getElem?_eq_none (by omega)] at hsl; simp at hsl
  have noroom : ∀ e, NoRoom e → Refused c cr env slots (some k) l req h.rsp.length e := fun e he => .resources haw hwf hmiss (noRoom_bytes he)
  refine .lift (fun e he => noroom e (chainDigest_errs _ _ _ _ e he)) fun d hdg => ?_
  refine .bind (.of (hextend_errs _) fun e he => noroom e (.inl he)) fun _ h1 hx1 => ?_
  have hrl : h1.rsp = h.rsp := by
    simp only [H.extend, Prod.mk.injEq] at hx1
    rw [← hx1.2]
  refine .lift (slotMask_errs _ _) fun mask hmask => ?_
  refine .lift (by unfold ChallengeAuth.new; exact .ite (.ok _) (.panic _)) fun auth hauth => ?_
  obtain ⟨rfl, _⟩ := authNew_inv hauth
  refine .bind (fun e he => ?_) fun size h2 hx2 => ?_
  · obtain ⟨_, hd2, _⟩ := chainDigest_inv hdg
    unfold M.mapErr at he
    rcases hwr : H.write .challengeAuth (ChallengeAuth.writeBody c _) h1 with ⟨x | e' | x, h1'⟩ <;> rw [hwr] at he <;> simp only at he
    · simp at he
    · simp only [Res.err.injEq] at he
      have hdsz := getDigestSize_sizeFor hdsv
      rcases hwrite_auth hlt rfl (by rw [hwr]) with rfl | ⟨rfl, g1, g2⟩
      · exact .challenge haw hwf hcode hs hsl (.inl (by rw [← he]; rfl))
      · refine .challenge haw hwf hcode hs hsl (.inr (.inl ⟨by rw [← he]; rfl, ?_⟩))
        have hu : UInt32.ofNat l.hash = n.algorithms.baseHashAlgoSelected := by rw [hw.hash]; simp
        rw [hrl] at g1 g2
        simp only [authBefore, List.length_replicate] at g1 g2
        unfold EndsInOpaque authPart
        rw [hu, ← hd2]
        simp only [List.length_append, List.length_cons, List.length_nil, zeros, List.length_replicate]
        rw [hw.hash, hdsz]
        omega
    · simp at he
  · obtain ⟨k1, t1, r1, s1, q1⟩ := H.extend_inv htw hx1
    obtain ⟨bodyA, hwr, hlay, hbl⟩ := auth_layout (mask := mask) (mu := Responder.useMutualAuth n.caps) (d := d) (n := env.nonce) (ds := ds) (ss := ss) hlt h8
    obtain ⟨rfl, hn2, rfl⟩ := H.write_inv hwr (mapErr_ok_back hx2)
    refine .lift (by unfold Responder.subChecked; exact .ite (.ok _) (.panic _)) fun start hst => ?_
    refine .bind (.of (T := fun _ => False) (rspTo_errs _) (fun _ h => h.elim)) fun out h3 e3 => ?_
    obtain ⟨rfl, _, ho⟩ := H.rspTo_inv e3
    refine .bind (.of (hextend_errs _) fun e he => noroom e (.inl he)) fun _ h4 e4 => ?_
    obtain ⟨k4, t4, r4, s4, q4⟩ := H.extend_inv (by exact k1.wf) e4
    refine .bind (.of (T := fun _ => False) transcript_errs (fun _ h => h.elim)) fun t h5 e5 => ?_
    refine .lift (digest_errs _ _ _ _) fun m1 hm1 => ?_
    refine .bind (fun e he => ?_) fun sig h6 _ => ?_
    · unfold Responder.signWith at he
      simp only at he
      split at he
      · simp at he
      · rename_i hno
        simp only [Res.err.injEq] at he
        obtain ⟨mask', hmk, hmo⟩ := createSlotMask_run hl h8
        rw [hmask, Res.ok.injEq] at hmk
        subst hmk
        refine .challenge haw hwf hcode hs hsl (.inr (.inr ⟨by rw [← he]; rfl, mask, fun i _ => hmo i, ?_⟩))
        have hsub : start = 2 + bodyA.length := by
          unfold Responder.subChecked at hst
          split at hst
          · simp only [Res.ok.injEq] at hst
            rw [← hst]; simp [zeros]; omega
          · simp at hst
        have hout : out = Wire.header .challengeAuth ++ bodyA := by
          rw [ho, hsub]
          simp only
          rw [← List.append_assoc, List.append_assoc]
          exact msg_take
        have ht : t = h4.tr.get := by unfold H.transcript at e5; simp only [Prod.mk.injEq, Res.ok.injEq] at e5; exact e5.1.symm
        obtain ⟨_, hd2, _⟩ := chainDigest_inv hdg
        have htxt : t = l.text ++ req ++ unsignedReply cr env l a.slot mask s := by
          rw [ht, t4, hout, hlay, authMsg_part hw hdsv, unsignedReply, words_hash hw, ← hd2, ← htx]
          simp only; rw [t1]
        rw [words_hash hw, ← htxt, ← (digest_inv hm1).2.1]
        exact hno
    · refine .of (T := fun _ => False) (ErrIn.bind ?_ fun _ => .pure _) fun _ h => h.elim
      intro s e he
      unfold Responder.patchRsp at he
      split at he
      · split at he <;> simp at he
      · simp at he


theorem dispatch_refused (h0 : 0 < c.numSlots) (h8 : c.numSlots ≤ 8) (hl : slots.length = c.numSlots) (hn : ∀ a ∈ c.capabilities, ∃ k, (a, k) ∈ capabilityBits)
    {st : RspState} (hm : RMatch p l st) (htw : h.tr.WF) (htx : h.tr.get = l.text) :
    ErrAt (Refused c cr env slots p l req h.rsp.length) (Responder.dispatch c cr env slots st req) h := by
  cases hm with
  | version =>
    refine versionHandle_refused h0 h8 fun k hk => ?_
    simpa [allowed] using hk
  | capabilities => exact capabilitiesHandle_refused h0 h8 hn
  | algorithms hq hp => exact algorithmsHandle_refused h0 h8 _
  | idAuth hk hw => exact idAuthHandle_refused h0 h8 _ hk _
  | challenge hk hw => exact challengeHandle_refused h0 h8 hl _ hk hw htw htx

end handlers

/-- A refused request was refused for one of the reasons. -/
theorem refusal (h0 : 0 < c.numSlots) (h8 : c.numSlots ≤ 8) (hl : slots.length = c.numSlots) (hn : ∀ a ∈ c.capabilities, ∃ k, (a, k) ∈ capabilityBits)
    (run : RspRun c cr slots es r) {req buf out : Bytes} {e : Err} (he : (Responder.handleMsg c cr env req buf r).1 = .ok ⟨out, some e⟩) :
    Refused c cr env slots (lastReq es) (conversation (rspMsgs es)) req buf.length e := by
  obtain ⟨st, hlive⟩ := run_live hl h8 run (run_alive hl h8 run he)
  have ho := call_outcome (cr := cr) (env := env) (req := req) (buf := buf) hl h8 hlive.toRspKept hlive.state
  rw [he] at ho
  generalize ho' : Res.ok (Responder.Output.mk out (some e)) = x at ho
  cases ho with
  | ok hk hs step hsg h3 hlen => simp at ho'
  | panic hk hs he' => simp at ho'
  | @err e' _ hk hs hd =>
    simp only [Res.ok.injEq, Responder.Output.mk.injEq, Option.some.injEq] at ho'
    obtain ⟨_, rfl⟩ := ho'
    exact dispatch_refused h0 h8 hl hn hlive.mat (h := ⟨buf, r.transcript, r.signed⟩) hlive.wf hlive.text e hd

variable (h0 : 0 < c.numSlots) (h8 : c.numSlots ≤ 8) (hl : slots.length = c.numSlots) (hn : ∀ a ∈ c.capabilities, ∃ k, (a, k) ∈ capabilityBits)
  (run : RspRun c cr slots es r) {req buf out : Bytes} {e : Err} (he : (Responder.handleMsg c cr env req buf r).1 = .ok ⟨out, some e⟩)
include h0 h8 hl hn run he

/-- **C86**, unexpected requests: the ERROR says "unexpected request" exactly if the header is not that of a request that may come now. -/
theorem c86_unexpected : errorBytes e = [0x04, 0] ↔ ¬ Awaited (lastReq es) req := by
  rcases refusal h0 h8 hl hn run he with ⟨h1, h2, _⟩ | ⟨h1, h2, h3⟩ | ⟨h1, h2, h3, h4⟩ | ⟨h1, h2, h3, h4⟩ | ⟨h1, h2, h3, _, _, h4⟩
  · exact ⟨fun _ => h1, fun _ => h2⟩
  · refine ⟨fun h => ?_, fun h => absurd h1 h⟩
    rcases h3 with h3 | ⟨h3, _⟩ <;> rw [h3] at h <;> exact absurd h (by decide)
  · exact ⟨fun h => by rw [h4] at h; exact absurd h (by decide), fun h => absurd h1 h⟩
  · exact ⟨fun h => by rw [h4] at h; exact absurd h (by decide), fun h => absurd h1 h⟩
  · refine ⟨fun h => ?_, fun h => absurd h1 h⟩
    rcases h4 with h4 | ⟨h4, _⟩ | ⟨h4, _⟩ <;> rw [h4] at h <;> exact absurd h (by decide)

/-- **C86**, malformed requests: an awaited request that is not a valid encoding gets "invalid request", unless it ends too early or (NEGOTIATE_ALGORITHMS)
announces more than 128 bytes, in which case it may also get "request too large". -/
theorem c86_malformed (ha : Awaited (lastReq es) req) (hw : ¬ WellFormed c req) :
    errorBytes e = [0x01, 0] ∨ errorBytes e = [0x0E, 0] ∧ CutShort c req := by
  rcases refusal h0 h8 hl hn run he with ⟨h1, h2, _⟩ | ⟨h1, h2, h3⟩ | ⟨h1, h2, h3, h4⟩ | ⟨h1, h2, h3, h4⟩ | ⟨h1, h2, h3, _, _, h4⟩
  · exact absurd ha h1
  · exact h3
  · exact absurd h2 hw
  · exact absurd h2 hw
  · exact absurd h2 hw

/-- **C86**, slots: an awaited, valid request for a slot that does not exist (GET_CERTIFICATE) or holds no chain (CHALLENGE) gets "invalid request". -/
theorem c86_slot (ha : Awaited (lastReq es) req) (hw : WellFormed c req) (hs : SlotMissing c slots req) : errorBytes e = [0x01, 0] := by
  rcases refusal h0 h8 hl hn run he with ⟨h1, h2, _⟩ | ⟨h1, h2, h3⟩ | ⟨h1, h2, h3, h4⟩ | ⟨h1, h2, h3, h4⟩ | ⟨h1, h2, h3, hi, hsl, h4⟩
  · exact absurd ha h1
  · exact absurd hw h2
  · exact h4
  · exact absurd hs h3
  · obtain ⟨j, hj, ⟨hc, _⟩ | ⟨_, hm⟩⟩ := hs
    · rw [h3] at hc; exact absurd hc (by decide)
    · rw [hi, Option.some.injEq] at hj
      subst hj
      exact absurd hsl (hm _)

/-- **C86**, requests in order: a valid, awaited request for an available slot is refused for lack of room only ("large response"), except that a
CHALLENGE gets "response too large" when the response buffer is too small, "invalid request" when that buffer ends inside the opaque data, and
"unspecified" when the slot's signer declines. -/
theorem c86_resources (ha : Awaited (lastReq es) req) (hw : WellFormed c req) (hs : ¬ SlotMissing c slots req) :
    errorBytes e = [0x0F, 0, 0] ∨ code req = some 0x83 ∧ ∃ (i : UInt8) (s : FilledSlot), req[2]? = some i ∧ slots[i.toNat]? = some (some s) ∧
      (errorBytes e = [0x0D, 0, 0, 0, 0, 0] ∨
        errorBytes e = [0x01, 0] ∧
          EndsInOpaque (conversation (rspMsgs es)) (cr.hash (UInt32.ofNat (conversation (rspMsgs es)).hash) (Wire.chain s.certChain)) env.nonce buf.length ∨
        errorBytes e = [0x05, 0] ∧ ∃ mask, MaskOf slots mask ∧
          s.sign env.seed (cr.hash (UInt32.ofNat (conversation (rspMsgs es)).hash)
            ((conversation (rspMsgs es)).text ++ req ++ unsignedReply cr env (conversation (rspMsgs es)) i mask s)) = none) := by
  rcases refusal h0 h8 hl hn run he with ⟨h1, h2, _⟩ | ⟨h1, h2, h3⟩ | ⟨h1, h2, h3, h4⟩ | ⟨h1, h2, h3, h4⟩ | ⟨h1, h2, h3, hi, hsl, h4⟩
  · exact absurd ha h1
  · exact absurd hw h2
  · exact absurd h3 hs
  · exact .inl h4
  · exact .inr ⟨h3, _, _, hi, hsl, h4⟩

/-- **C86**, the value returned to the caller for an unexpected request: a header error if the code may come now and only the version byte is wrong, and
otherwise `UnexpectedMsgCode` with a code that may come now as `expected` - and the *first byte of the request*, its version, as `got`. -/
theorem c86_unexpected_value (ha : ¬ Awaited (lastReq es) req) :
    (e = .parseHeader ∧ ∃ k, code req = some k ∧ allowed (lastReq es) k = true) ∨
    (∃ x b0, e = .unexpectedMsg x b0 ∧ req[0]? = some b0 ∧ allowed (lastReq es) x = true ∧ ∀ k, code req = some k → allowed (lastReq es) k = false) := by
  rcases refusal h0 h8 hl hn run he with ⟨h1, h2, h3⟩ | ⟨h1, _, _⟩ | ⟨h1, _, _, _⟩ | ⟨h1, _, _, _⟩ | ⟨h1, _, _, _, _, _⟩
  · exact h3
  all_goals exact absurd h1 ha

omit h0 hn in
/-- **C86**, on the wire: what the theorems above say about the ERROR is what is sent - the header of an ERROR (version 1.2, code 0x7F) and those bytes, if
the response buffer has room for them, and nothing otherwise. -/
theorem c86_sent : out = if 2 + (errorBytes e).length ≤ buf.length then [0x12, 0x7F] ++ errorBytes e else [] :=
  ((c34_errors_uniform hl h8 run env req buf).2 out e he).1

/-- **C86**, on the wire: given eight bytes of room, the reply to a refused request is "unexpected request" exactly if the header is
not that of a request that may come now. -/
theorem c86_sent_unexpected (hb : 8 ≤ buf.length) : out = [0x12, 0x7F, 0x04, 0] ↔ ¬ Awaited (lastReq es) req := by
  rw [← c86_unexpected h0 h8 hl hn run he, c86_sent h8 hl run he]
  have : (errorBytes e).length ≤ 6 := by unfold errorBytes; split <;> decide
  rw [if_pos (by omega)]
  simp

omit h0 h8 hl hn run he

/-- So `got` is not the code of the request: a GET_CERTIFICATE (0x82) that comes too early is reported as `got: 0x11`. -/
theorem c86_got_is_not_the_code : ∃ (es : List RspEvent) (r : Responder) (req out : Bytes) (x g : UInt8), RspRun demoCfg demoCrypto demoSlots es r ∧
    (Responder.handleMsg demoCfg demoCrypto demoEnv req (zeros 200) r).1 = .ok ⟨out, some (.unexpectedMsg x g)⟩ ∧ code req = some 0x82 ∧ g = 0x11 :=
  ⟨demoEvents 2, demoResponder 2, [0x11, 0x82, 0, 0, 0, 0, 0, 1], [0x12, 0x7F, 0x04, 0], 0xE3, 0x11, demo_run 2, by decide +kernel, rfl, rfl⟩

/-! ### Non-vacuity: every case occurs in the demonstration session -/

/-- The outcome of one more call of the demonstration session: what the ERROR says. -/
def demoRefusal (n : Nat) (req : Bytes) (room : Nat) : Option Bytes :=
  match (Responder.handleMsg demoCfg demoCrypto demoEnv req (zeros room) (demoResponder n)).1 with
  | .ok ⟨_, some e⟩ => some (errorBytes e)
  | _ => none

-- GET_CERTIFICATE before the algorithms are agreed, and GET_CAPABILITIES under version 1.0: unexpected request
example : demoRefusal 2 [0x11, 0x82, 0, 0, 0, 0, 0, 1] 200 = some [0x04, 0] := by decide +kernel
example : demoRefusal 1 [0x10, 0xE1, 0, 0, 0, 0, 0, 0, 0, 0, 0, 0] 200 = some [0x04, 0] := by decide +kernel
-- a reserved byte that is not zero: invalid request; the same request cut short: request too large
example : demoRefusal 1 [0x11, 0xE1, 0, 0, 1, 0, 0, 0, 0, 0, 0, 0] 200 = some [0x01, 0] := by decide +kernel
example : demoRefusal 1 [0x11, 0xE1, 0, 0, 0] 200 = some [0x0E, 0] := by decide +kernel
example : Awaited (lastReq (demoEvents 1)) [0x11, 0xE1, 0, 0, 0] ∧ CutShort demoCfg [0x11, 0xE1, 0, 0, 0] :=
  ⟨⟨0xE1, by decide +kernel, rfl⟩, 0xE1, rfl, .inl (by decide)⟩
-- slot 2 of two, and slot 1, which is empty: invalid request
example : demoRefusal 4 [0x11, 0x82, 2, 0, 0, 0, 0, 1] 200 = some [0x01, 0] := by decide +kernel
example : demoRefusal 5 [0x11, 0x83, 1, 0xFF, 1, 2, 3, 4] 200 = some [0x01, 0] := by decide +kernel
example : SlotMissing demoCfg demoSlots [0x11, 0x82, 2, 0, 0, 0, 0, 1] ∧ WellFormed demoCfg [0x11, 0x82, 2, 0, 0, 0, 0, 1] :=
  ⟨⟨2, rfl, .inl ⟨rfl, by decide⟩⟩, .inr ⟨.getCertificate ⟨2, 0, 256⟩, [2, 0, 0, 0, 0, 1], [], rfl, by simp only [Denotes]; decide⟩⟩
-- nine bytes for a VERSION response of ten: large response
example : demoRefusal 0 [0x10, 0x84, 0, 0] 9 = some [0x0F, 0, 0] := by decide +kernel
-- CHALLENGE with a buffer that is too small: response too large, unless the buffer ends inside the opaque data: invalid request
example : demoRefusal 5 demoChallenge 141 = some [0x0D, 0, 0, 0, 0, 0] := by decide +kernel
example : (List.range 200).filter (fun n => demoRefusal 5 demoChallenge n == some [0x01, 0]) = [74, 75, 76, 77] := by decide +kernel
-- a signer that declines: unspecified, and that is what is sent
example : (Responder.handleMsg demoCfg demoCrypto demoEnv demoChallenge (zeros 200)
    (after demoCfg demoCrypto (Responder.new demoCfg [some ⟨0x10, 1, demoSessionChain, fun _ _ => none⟩, none]) (demoCalls 5))).1 =
    .ok ⟨[0x12, 0x7F, 0x05, 0], some .sign⟩ := by decide +kernel

end Spdm
