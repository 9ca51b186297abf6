import Verif.Lemmas.Stale
import Verif.DemoSession
/-!
# What was in the caller's buffer does not matter: C66
-/
namespace Spdm
open Spec

variable {c : Cfg} {cr : Crypto}

/-- Two handler states that differ only in the response buffer, and there only behind the first `k` bytes. -/
structure HAlike (k : Nat) (h h' : HState) : Prop where
  tr : h'.tr = h.tr
  signed : h'.signed = h.signed
  len : h'.rsp.length = h.rsp.length
  pre : h'.rsp.take k = h.rsp.take k

theorem HAlike.mono {k n : Nat} {h h' : HState} (a : HAlike k h h') (hn : n ≤ k) : HAlike n h h' := by
  refine ⟨a.tr, a.signed, a.len, ?_⟩
  have := congrArg (List.take n) a.pre
  rwa [List.take_take, List.take_take, Nat.min_eq_left hn] at this

/-- From states alike up to `k`: the same outcome, and states alike up to `Q` of the value returned. -/
def HRel {α : Type} (k : Nat) (m : H α) (Q : α → Nat) : Prop :=
  ∀ h h', HAlike k h h' → (m h').1 = (m h).1 ∧ HAlike 0 (m h).2 (m h').2 ∧ ∀ a, (m h).1 = .ok a → HAlike (Q a) (m h).2 (m h').2

namespace HRel
variable {α β : Type} {k : Nat}

theorem pure {a : α} {Q : α → Nat} (hq : Q a ≤ k) : HRel k (Pure.pure a : H α) Q :=
  fun _ _ h => ⟨rfl, h.mono (Nat.zero_le _), fun b hb => by cases hb; exact h.mono hq⟩
theorem lift (x : Res α) : HRel k (M.lift x : H α) fun _ => k := fun _ _ h => ⟨rfl, h.mono (Nat.zero_le _), fun _ _ => h⟩
theorem fail {e : Err} {Q : α → Nat} : HRel k (M.fail e : H α) Q := fun _ _ h => ⟨rfl, h.mono (Nat.zero_le _), fun _ hb => (err_ok hb).elim⟩
theorem die {p : PanicKind} {Q : α → Nat} : HRel k (M.die p : H α) Q := fun _ _ h => ⟨rfl, h.mono (Nat.zero_le _), fun _ hb => (panic_ok hb).elim⟩

theorem bind {m : H α} {f : α → H β} {Q : α → Nat} {Q' : β → Nat} (hm : HRel k m Q) (hf : ∀ a, HRel (Q a) (f a) Q') : HRel k (m >>= f) Q' := by
  intro h h' hh
  obtain ⟨h1, h2, h3⟩ := hm h h' hh
  rw [M.run_bind, M.run_bind]
  rcases ha : m h with ⟨r, s⟩
  rcases hb : m h' with ⟨r', s'⟩
  rw [ha, hb] at h1 h2 h3
  simp only at h1 h2 h3
  subst h1
  cases r' with
  | ok a => exact hf a s s' (h3 a rfl)
  | err e => exact ⟨rfl, h2, fun _ hb => (err_ok hb).elim⟩
  | panic k => exact ⟨rfl, h2, fun _ hb => (panic_ok hb).elim⟩

theorem bindLift {x : Res α} {f : α → H β} {Q' : β → Nat} (hf : ∀ a, x = .ok a → HRel k (f a) Q') : HRel k (M.lift x >>= f) Q' := by
  cases x with
  | ok a => exact hf a rfl
  | err e => exact fail
  | panic k => exact die

theorem ite {p : Prop} [Decidable p] {m n : H α} {Q : α → Nat} (hm : HRel k m Q) (hn : HRel k n Q) : HRel k (if p then m else n) Q := by
  split <;> assumption

theorem mapErr {m : H α} {Q : α → Nat} (f : Err → Err) (hm : HRel k m Q) : HRel k (M.mapErr f m) Q := by
  intro h h' hh
  obtain ⟨h1, h2, h3⟩ := hm h h' hh
  unfold M.mapErr
  rcases ha : m h with ⟨r, s⟩
  rcases hb : m h' with ⟨r', s'⟩
  rw [ha, hb] at h1 h2 h3
  simp only at h1 h2 h3
  subst h1
  cases r' with
  | ok a => exact ⟨rfl, h2, h3⟩
  | err e => exact ⟨rfl, h2, fun _ hb => (err_ok hb).elim⟩
  | panic k => exact ⟨rfl, h2, h3⟩

theorem extend (bs : Bytes) : HRel k (H.extend bs) fun _ => k := by
  intro h h' ⟨h1, h2, h3, h4⟩
  unfold H.extend
  rw [h1]
  exact ⟨rfl, ⟨rfl, h2, h3, rfl⟩, fun _ _ => ⟨rfl, h2, h3, h4⟩⟩

theorem clear : HRel k H.clear fun _ => k := by
  intro h h' ⟨h1, h2, h3, h4⟩
  unfold H.clear
  rw [h1]
  exact ⟨rfl, ⟨rfl, h2, h3, rfl⟩, fun _ _ => ⟨rfl, h2, h3, h4⟩⟩

theorem transcript : HRel k H.transcript fun _ => k := by
  intro h h' hh
  unfold H.transcript
  rw [hh.tr]
  exact ⟨rfl, hh.mono (Nat.zero_le _), fun _ _ => hh⟩

theorem rspTo {n : Nat} (hn : n ≤ k) : HRel k (H.rspTo n) fun _ => k := by
  intro h h' hh
  unfold H.rspTo sliceTo
  simp only
  rw [hh.len, (hh.mono hn).pre]
  exact ⟨rfl, hh.mono (Nat.zero_le _), fun _ _ => hh⟩

theorem write (t : MsgType) {body : W Nat} (hb : WOut body) : HRel k (H.write t body) id := by
  intro h h' hh
  obtain ⟨h1, h2, h3⟩ := write_stale t hb hh.len
  unfold H.write
  exact ⟨h1, ⟨hh.tr, hh.signed, h2, by simp⟩, fun n hn => ⟨hh.tr, hh.signed, h2, h3 n hn⟩⟩

theorem signWith (i : Nat) (slot : FilledSlot) (seed : Nat) (msg : Bytes) : HRel k (Responder.signWith i slot seed msg) fun _ => k := by
  intro h h' ⟨h1, h2, h3, h4⟩
  unfold Responder.signWith
  simp only
  rw [h2]
  split
  · exact ⟨rfl, ⟨h1, rfl, h3, rfl⟩, fun _ _ => ⟨h1, rfl, h3, h4⟩⟩
  · exact ⟨rfl, ⟨h1, rfl, h3, rfl⟩, fun _ _ => ⟨h1, rfl, h3, h4⟩⟩

theorem patchRsp {i j : Nat} (bs : Bytes) (hi : i ≤ k) : HRel k (Responder.patchRsp i j bs) fun _ => j := by
  intro h h' hh
  unfold Responder.patchRsp
  rw [hh.len]
  split
  · rename_i hj
    split
    · rename_i hb
      have hl : ∀ l : Bytes, l.length = h.rsp.length → (l.take i ++ bs ++ l.drop j).length = h.rsp.length := by
        intro l e
        simp only [List.length_append, List.length_take, List.length_drop]; omega
      have hp : ∀ l : Bytes, l.length = h.rsp.length → (l.take i ++ bs ++ l.drop j).take j = l.take i ++ bs := by
        intro l e
        exact List.take_left' (by simp only [List.length_append, List.length_take]; omega)
      have h4 : (h'.rsp.take i ++ bs ++ h'.rsp.drop j).take j = (h.rsp.take i ++ bs ++ h.rsp.drop j).take j := by
        rw [hp _ hh.len, hp _ rfl, (hh.mono hi).pre]
      have h3 : (h'.rsp.take i ++ bs ++ h'.rsp.drop j).length = (h.rsp.take i ++ bs ++ h.rsp.drop j).length := by
        rw [hl _ hh.len, hl _ rfl]
      exact ⟨rfl, ⟨hh.tr, hh.signed, h3, by simp⟩, fun _ _ => ⟨hh.tr, hh.signed, h3, h4⟩⟩
    · exact ⟨rfl, hh.mono (Nat.zero_le _), fun _ hb => (panic_ok hb).elim⟩
  · exact ⟨rfl, hh.mono (Nat.zero_le _), fun _ hb => (panic_ok hb).elim⟩

/-- Writing the response, recording it and returning its size. -/
theorem respond {t : MsgType} {body : W Nat} (hb : WOut body) (st : RspState) :
    HRel k (do let size ← H.write t body; let out ← H.rspTo size; H.extend out; Pure.pure (size, st)) (fun x => x.1) :=
  (write t hb).bind fun _ => (rspTo (Nat.le_refl _)).bind fun _ => (extend _).bind fun _ => pure (Nat.le_refl _)

theorem version (req : Bytes) : HRel k (Responder.versionHandle req) fun x => x.1 := by
  unfold Responder.versionHandle
  split
  · exact (lift _).bind fun _ => (lift _).bind fun _ => clear.bind fun _ => (extend _).bind fun _ => respond (WOut.version _) _
  · exact (lift _).bind fun _ => fail
  · exact fail
  · exact die

theorem reset {req : Bytes} {rest : H (Nat × RspState)} (h : HRel k rest fun x => x.1) : HRel k (Responder.resetOnGetVersion req rest) fun x => x.1 := by
  unfold Responder.resetOnGetVersion
  split
  · exact version req
  · exact h
  · exact fail
  · exact die

end HRel

theorem dispatch_stale (c : Cfg) (cr : Crypto) (env : Env) (slots : List (Option FilledSlot)) (st : RspState) (req : Bytes) :
    HRel 0 (Responder.dispatch c cr env slots st req) fun x => x.1 := by
  unfold Responder.dispatch
  cases st with
  | version => exact HRel.version req
  | capabilities =>
    exact HRel.reset ((HRel.lift _).bind fun _ => (HRel.lift _).bind fun _ => (HRel.lift _).bind fun _ => (HRel.extend _).bind fun _ =>
      (HRel.lift _).bind fun _ => HRel.respond (WOut.capabilities _) _)
  | algorithms caps =>
    exact HRel.reset ((HRel.lift _).bind fun _ => (HRel.lift _).bind fun _ => (HRel.lift _).bind fun _ => (HRel.extend _).bind fun _ =>
      (HRel.lift _).bind fun _ => HRel.respond (WOut.algorithms _) _)
  | idAuth n =>
    refine HRel.reset ((HRel.lift _).bind fun _ => HRel.ite ?_ ((HRel.lift _).bind fun _ => ?_))
    · exact (HRel.lift _).bind fun _ => (HRel.lift _).bind fun _ => (HRel.write _ (WOut.digests _ _)).bind fun _ => (HRel.extend _).bind fun _ =>
        (HRel.rspTo (Nat.le_refl _)).bind fun _ => (HRel.extend _).bind fun _ => HRel.pure (Nat.le_refl _)
    · exact (HRel.lift _).bind fun _ => (HRel.lift _).bind fun _ => HRel.ite HRel.fail ((HRel.lift _).bind fun _ =>
        (HRel.write _ (WOut.certificate _)).bind fun _ => (HRel.extend _).bind fun _ => (HRel.rspTo (Nat.le_refl _)).bind fun _ =>
        (HRel.extend _).bind fun _ => HRel.pure (Nat.le_refl _))
  | challenge n =>
    refine HRel.reset ((HRel.lift _).bind fun _ => (HRel.lift _).bind fun _ => (HRel.lift _).bind fun _ => (HRel.lift _).bind fun _ =>
      (HRel.lift _).bind fun _ => (HRel.lift _).bind fun _ => (HRel.lift _).bind fun _ => (HRel.extend _).bind fun _ => (HRel.lift _).bind fun _ =>
      (HRel.lift _).bind fun _ => (HRel.mapErr _ (HRel.write _ (WOut.challengeAuth _ _))).bind fun size => HRel.bindLift fun start hs => ?_)
    have hle : start ≤ size := by
      unfold Responder.subChecked at hs
      split at hs
      · cases hs; omega
      · exact (panic_ok hs).elim
    exact (HRel.rspTo hle).bind fun _ => (HRel.extend _).bind fun _ => HRel.transcript.bind fun _ => (HRel.lift _).bind fun _ =>
      (HRel.signWith _ _ _ _).bind fun _ => (HRel.patchRsp _ hle).bind fun _ => HRel.pure (Nat.le_refl _)
  | error => exact HRel.die

theorem errorToMsg_not_vendor (e : Err) : ∀ id v, Responder.errorToMsg e ≠ .vendorDefined id v := by
  intro id v h
  cases e <;> simp only [Responder.errorToMsg, reduceCtorEq] at h
  rename_i r
  cases r <;> simp [Responder.readErrorToMsg] at h

theorem handle_stale (env : Env) (slots : List (Option FilledSlot)) (st : RspState) (req : Bytes) {h h' : HState} (hh : HAlike 0 h h') :
    (Responder.handle c cr env slots st req h').1 = (Responder.handle c cr env slots st req h).1 ∧
    (Responder.handle c cr env slots st req h').2.tr = (Responder.handle c cr env slots st req h).2.tr ∧
    (Responder.handle c cr env slots st req h').2.signed = (Responder.handle c cr env slots st req h).2.signed := by
  have slice : ∀ {n : Nat} {a b : HState}, HAlike n a b → sliceTo b.rsp n = sliceTo a.rsp n := by
    intro n a b h
    unfold sliceTo
    rw [h.len, h.pre]
  obtain ⟨h1, h2, h3⟩ := dispatch_stale c cr env slots st req h h' hh
  unfold Responder.handle
  rcases ha : Responder.dispatch c cr env slots st req h with ⟨r, s⟩
  rcases hb : Responder.dispatch c cr env slots st req h' with ⟨r', s'⟩
  rw [ha, hb] at h1 h2 h3
  simp only at h1 h2 h3
  subst h1
  rcases r' with ⟨n, st'⟩ | e | k
  · have h3 := h3 (n, st') rfl
    simp only
    rw [slice h3]
    cases sliceTo s.rsp n <;> exact ⟨rfl, h3.tr, h3.signed⟩
  · simp only
    obtain ⟨e1, e2, e3⟩ := HRel.write (k := 0) .error (WOut.errorMsg _ (errorToMsg_not_vendor e)) s s' h2
    rcases hc : H.write .error (Responder.errorToMsg e).writeBody s with ⟨r, t⟩
    rcases hd : H.write .error (Responder.errorToMsg e).writeBody s' with ⟨r', t'⟩
    rw [hc, hd] at e1 e2 e3
    simp only at e1 e2 e3
    subst e1
    rcases r' with n | er | k
    · have e3 : HAlike n t t' := e3 n rfl
      simp only
      rw [slice e3]
      cases sliceTo t.rsp n <;> exact ⟨rfl, e3.tr, e3.signed⟩
    · exact ⟨rfl, e2.tr, e2.signed⟩
    · exact ⟨rfl, e2.tr, e2.signed⟩
  · exact ⟨rfl, h2.tr, h2.signed⟩

/-- **C66.** In any state, on any request: what `handle_msg` of the responder returns, and the responder afterwards, depend on the caller's response buffer
only through its length. -/
theorem c66_responder_stale_buffer (env : Env) (req buf buf' : Bytes) (r : Responder) (hl : buf'.length = buf.length) :
    Responder.handleMsg c cr env req buf' r = Responder.handleMsg c cr env req buf r := by
  unfold Responder.handleMsg
  cases r.state with
  | none => rfl
  | some st =>
    simp only
    obtain ⟨h1, h2, h3⟩ := handle_stale (c := c) (cr := cr) env r.slots st req (h := ⟨buf, r.transcript, r.signed⟩) (h' := ⟨buf', r.transcript, r.signed⟩)
      ⟨rfl, rfl, hl, by simp⟩
    rcases ha : Responder.handle c cr env r.slots st req ⟨buf, r.transcript, r.signed⟩ with ⟨x, s⟩
    rcases hb : Responder.handle c cr env r.slots st req ⟨buf', r.transcript, r.signed⟩ with ⟨x', s'⟩
    rw [ha, hb] at h1 h2 h3
    simp only at h1 h2 h3
    subst h1
    rcases x' with ⟨o, st'⟩ | e | k <;> simp only [h2, h3]

/-- **C66.** In any state: what `next_request` returns, and the requester afterwards, depend on the caller's buffer only through its length. -/
theorem c66_requester_stale_buffer (env : Env) (buf buf' : Bytes) (r : Requester) (hl : buf'.length = buf.length) :
    Requester.nextRequest c env buf' r = Requester.nextRequest c env buf r := by
  have key : ∀ st, Requester.writeReq c env st buf' = Requester.writeReq c env st buf := by
    intro st
    cases st with
    | version => simp only [Requester.writeReq, writeTo_stale .getVersion WOut.getVersion hl]
    | capabilities => simp only [Requester.writeReq, writeTo_stale .getCapabilities (WOut.getCapabilities _) hl]
    | algorithms => simp only [Requester.writeReq, writeTo_stale .negotiateAlgorithms (WOut.negotiateAlgorithms _) hl]
    | idAuth _ _ _ o =>
      cases o with
      | none => simp only [Requester.writeReq, writeTo_stale .getDigests WOut.getDigests hl]
      | some d => simp only [Requester.writeReq, writeTo_stale .getCertificate (WOut.getCertificate _) hl]
    | challenge => simp only [Requester.writeReq, writeTo_stale .challenge (WOut.challenge _) hl]
    | error => rfl
    | newSession => rfl
  unfold Requester.nextRequest
  cases r.state with
  | none => rfl
  | some st => simp only [key]

/-- The demo session with dirty buffers: the responder answers CHALLENGE, and the requester writes it. -/
example : Responder.handleMsg demoCfg demoCrypto demoEnv (demoRequests[5]?.getD []) (List.replicate 200 0xAA) (demoResponder 5) =
      Responder.handleMsg demoCfg demoCrypto demoEnv (demoRequests[5]?.getD []) (zeros 200) (demoResponder 5) ∧
    (Responder.handleMsg demoCfg demoCrypto demoEnv (demoRequests[5]?.getD []) (zeros 200) (demoResponder 5)).1.isOk = true ∧
    (Requester.nextRequest demoCfg demoReqEnv (List.replicate 200 0xAA) (demoRequester 10)).1.isOk = true ∧
    Requester.nextRequest demoCfg demoReqEnv (List.replicate 200 0xAA) (demoRequester 10) = Requester.nextRequest demoCfg demoReqEnv (zeros 200) (demoRequester 10) :=
  ⟨c66_responder_stale_buffer _ _ _ _ _ (by decide +kernel), by decide +kernel, by decide +kernel, c66_requester_stale_buffer _ _ _ _ (by decide +kernel)⟩

end Spdm
