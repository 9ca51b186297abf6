import Verif.Lemmas.Sim
import Verif.Lemmas.Msgs3
import Verif.Spec.Session
/-! Whatever the outcome of writing, the length of the response buffer is unchanged; what the responder answers when a request fails. -/
namespace Spdm
open Spec

/-- Writing keeps the length of the buffer. -/
def WLen {α : Type} (p : W α) : Prop := ∀ w, w.WF → (p w).2.WF ∧ (p w).2.buf.length = w.buf.length

namespace WLen
variable {α β : Type}

theorem pure (a : α) : WLen (Pure.pure a : W α) := fun _ h => ⟨h, rfl⟩
theorem lift (x : Res α) : WLen (M.lift x : W α) := fun _ h => ⟨h, rfl⟩
theorem fail (e : Err) : WLen (M.fail e : W α) := fun _ h => ⟨h, rfl⟩
theorem die (k : PanicKind) : WLen (M.die k : W α) := fun _ h => ⟨h, rfl⟩
theorem offsetM : WLen Writer.offsetM := fun _ h => ⟨h, rfl⟩

theorem bind {p : W α} {q : α → W β} (hp : WLen p) (hq : ∀ a, WLen (q a)) : WLen (p >>= q) := by
  intro w hw
  obtain ⟨h1, h2⟩ := hp w hw
  rw [M.run_bind]
  cases ha : p w with
  | mk r s =>
    rw [ha] at h1 h2
    cases r with
    | ok a => exact ⟨(hq a s h1).1, (hq a s h1).2.trans h2⟩
    | err e => exact ⟨h1, h2⟩
    | panic k => exact ⟨h1, h2⟩

theorem ite {c : Prop} [Decidable c] {p q : W α} (hp : WLen p) (hq : WLen q) : WLen (if c then p else q) := by
  split <;> assumption

theorem mapErr {p : W α} (f : Err → Err) (hp : WLen p) : WLen (M.mapErr f p) := by
  intro w hw
  have := hp w hw
  unfold M.mapErr
  split
  · rename_i e; rw [e] at this; exact this
  · exact this

theorem put (b : UInt8) : WLen (Writer.put b) := by
  intro w hw
  unfold Writer.put
  split
  · exact ⟨hw, rfl⟩
  · split
    · rename_i h
      exact ⟨by simp only [Writer.WF, List.length_set]; omega, by simp⟩
    · exact ⟨hw, rfl⟩

theorem putAll : ∀ bs : Bytes, WLen (Writer.putAll bs)
  | [] => offsetM
  | b :: bs => (put b).bind fun _ => putAll bs

theorem extend (bs : Bytes) : WLen (Writer.extend bs) := by
  intro w hw
  unfold Writer.WF at hw
  unfold Writer.extend
  split
  · exact ⟨hw, rfl⟩
  · rename_i h
    unfold Writer.remaining at h
    constructor
    · simp only [Writer.WF, List.length_append, List.length_take, List.length_drop]; omega
    · simp only [List.length_append, List.length_take, List.length_drop]; omega

theorem vendorId : ∀ v : VendorId, WLen v.write
  | .empty => (put _).bind fun _ => pure _
  | .u16 _ => (put _).bind fun _ => (putAll _).bind fun _ => pure _
  | .u32 _ => (put _).bind fun _ => (putAll _).bind fun _ => pure _

theorem opaqueElement (e : OpaqueElement) : WLen e.write :=
  (put _).bind fun _ => (vendorId _).bind fun _ => (lift _).bind fun _ => (putAll _).bind fun _ => (lift _).bind fun _ => (extend _).bind fun _ => putAll _

theorem opaqueElements : ∀ es : List OpaqueElement, WLen (OpaqueData.writeElements es)
  | [] => offsetM
  | e :: es => (opaqueElement e).bind fun _ => opaqueElements es

theorem opaqueData (d : OpaqueData) : WLen d.write :=
  mapErr _ ((put _).bind fun _ => (putAll _).bind fun _ => (lift _).bind fun _ => opaqueElements _)

theorem versionEntries : ∀ es : List VersionEntry, WLen (Version.writeEntries es)
  | [] => offsetM
  | _ :: es => (put _).bind fun _ => (put _).bind fun _ => versionEntries es

theorem version (v : Version) : WLen v.writeBody :=
  (put _).bind fun _ => (put _).bind fun _ => (put _).bind fun _ => (put _).bind fun _ => versionEntries _

theorem capabilities (m : Capabilities) : WLen m.writeBody :=
  (putAll _).bind fun _ => (put _).bind fun _ => (putAll _).bind fun _ => putAll _

theorem algs (l : List AlgorithmRequest) : ∀ n i : Nat, WLen (writeAlgs l n i)
  | 0, _ => offsetM
  | n + 1, i => (lift _).bind fun _ => ((put _).bind fun _ => (put _).bind fun _ => putAll _).bind fun _ => algs l n (i + 1)

theorem algorithms (m : Algorithms) : WLen m.writeBody :=
  (put _).bind fun _ => (putAll _).bind fun _ => (lift _).bind fun _ => (putAll _).bind fun _ => (put _).bind fun _ => (putAll _).bind fun _ =>
    (putAll _).bind fun _ => (putAll _).bind fun _ => (putAll _).bind fun _ => (putAll _).bind fun _ => (put _).bind fun _ => (put _).bind fun _ =>
    (putAll _).bind fun _ => algs _ _ _

theorem digestLoop (c : Cfg) (ds : List (Option Bytes)) : ∀ (fuel : Nat) (bits : UInt8) (off : Nat), WLen (Digests.writeLoop c ds fuel bits off)
  | 0, _, _ => pure _
  | fuel + 1, bits, off => by
    unfold Digests.writeLoop
    refine ite ((lift _).bind fun d => ?_) (pure _)
    cases d with
    | none => exact die _
    | some d => exact (extend _).bind fun _ => ite (digestLoop c ds fuel _ _) (die _)

theorem digests (c : Cfg) (m : Digests) : WLen (m.writeBody c) :=
  (putAll _).bind fun _ => (put _).bind fun _ => offsetM.bind fun _ => digestLoop _ _ _ _ _

theorem certificate (m : Certificate) : WLen m.writeBody :=
  (put _).bind fun _ => (putAll _).bind fun _ => (putAll _).bind fun _ => (putAll _).bind fun _ => (lift _).bind fun _ => extend _

theorem challengeAuth (c : Cfg) (m : ChallengeAuth) : WLen (m.writeBody c) :=
  (lift _).bind fun _ => (put _).bind fun _ => (put _).bind fun _ => (extend _).bind fun _ => (extend _).bind fun _ => (extend _).bind fun _ =>
    (lift _).bind fun _ => (putAll _).bind fun _ => (opaqueData _).bind fun _ => (extend _).bind fun _ => offsetM

end WLen

/-- The handler keeps the length of the response buffer. -/
def RLen {α : Type} (m : H α) : Prop := ∀ h, (m h).2.rsp.length = h.rsp.length

namespace RLen
variable {α β : Type}

theorem pure (a : α) : RLen (Pure.pure a : H α) := fun _ => rfl
theorem lift (x : Res α) : RLen (M.lift x : H α) := fun _ => rfl
theorem fail (e : Err) : RLen (M.fail e : H α) := fun _ => rfl
theorem die (k : PanicKind) : RLen (M.die k : H α) := fun _ => rfl
theorem extend (bs : Bytes) : RLen (H.extend bs) := fun _ => rfl
theorem clear : RLen H.clear := fun _ => rfl
theorem rspTo (n : Nat) : RLen (H.rspTo n) := fun _ => rfl
theorem transcript : RLen H.transcript := fun _ => rfl

theorem bind {m : H α} {f : α → H β} (hm : RLen m) (hf : ∀ a, RLen (f a)) : RLen (m >>= f) := by
  intro h
  have h1 := hm h
  rw [M.run_bind]
  cases ha : m h with
  | mk r s =>
    rw [ha] at h1
    cases r with
    | ok a => exact (hf a s).trans h1
    | err e => exact h1
    | panic k => exact h1

theorem ite {c : Prop} [Decidable c] {p q : H α} (hp : RLen p) (hq : RLen q) : RLen (if c then p else q) := by
  split <;> assumption

theorem mapErr {p : H α} (f : Err → Err) (hp : RLen p) : RLen (M.mapErr f p) := by
  intro w
  have := hp w
  unfold M.mapErr
  split
  · rename_i e; rw [e] at this; exact this
  · exact this

theorem write (t : MsgType) {body : W Nat} (hb : WLen body) : RLen (H.write t body) := by
  intro h
  have : WLen (t.writeMsg body) := ((WLen.put _).bind fun _ => WLen.put _).bind fun _ => hb
  exact (this (Writer.new h.rsp) (by simp [Writer.WF, Writer.new])).2

theorem signWith (n : Nat) (slot : FilledSlot) (seed : Nat) (msg : Bytes) : RLen (Responder.signWith n slot seed msg) := by
  intro h
  unfold Responder.signWith
  simp only
  split <;> rfl

theorem patchRsp (i j : Nat) (bs : Bytes) : RLen (Responder.patchRsp i j bs) := by
  intro h
  unfold Responder.patchRsp
  split
  · split
    · simp only [List.length_append, List.length_take, List.length_drop]; omega
    · rfl
  · rfl

theorem version (req : Bytes) : RLen (Responder.versionHandle req) := by
  unfold Responder.versionHandle
  split
  · exact (lift _).bind fun _ => (lift _).bind fun _ => clear.bind fun _ => (extend _).bind fun _ =>
      (write _ (WLen.version _)).bind fun _ => (rspTo _).bind fun _ => (extend _).bind fun _ => pure _
  · exact (lift _).bind fun _ => fail _
  · exact fail _
  · exact die _

theorem reset {req : Bytes} {rest : H (Nat × RspState)} (h : RLen rest) : RLen (Responder.resetOnGetVersion req rest) := by
  unfold Responder.resetOnGetVersion
  split
  · exact version req
  · exact h
  · exact fail _
  · exact die _

end RLen

theorem dispatch_rlen (c : Cfg) (cr : Crypto) (env : Env) (slots : List (Option FilledSlot)) (st : RspState) (req : Bytes) :
    RLen (Responder.dispatch c cr env slots st req) := by
  unfold Responder.dispatch
  cases st with
  | version => exact RLen.version req
  | capabilities =>
    exact RLen.reset ((RLen.lift _).bind fun _ => (RLen.lift _).bind fun _ => (RLen.lift _).bind fun _ => (RLen.extend _).bind fun _ =>
      (RLen.lift _).bind fun _ => (RLen.write _ (WLen.capabilities _)).bind fun _ => (RLen.rspTo _).bind fun _ => (RLen.extend _).bind fun _ => RLen.pure _)
  | algorithms caps =>
    exact RLen.reset ((RLen.lift _).bind fun _ => (RLen.lift _).bind fun _ => (RLen.lift _).bind fun _ => (RLen.extend _).bind fun _ =>
      (RLen.lift _).bind fun _ => (RLen.write _ (WLen.algorithms _)).bind fun _ => (RLen.rspTo _).bind fun _ => (RLen.extend _).bind fun _ => RLen.pure _)
  | idAuth n =>
    refine RLen.reset ((RLen.lift _).bind fun _ => RLen.ite ?_ ((RLen.lift _).bind fun _ => ?_))
    · exact (RLen.lift _).bind fun _ => (RLen.lift _).bind fun _ => (RLen.write _ (WLen.digests _ _)).bind fun _ => (RLen.extend _).bind fun _ =>
        (RLen.rspTo _).bind fun _ => (RLen.extend _).bind fun _ => RLen.pure _
    · exact (RLen.lift _).bind fun _ => (RLen.lift _).bind fun _ => RLen.ite (RLen.fail _) ((RLen.lift _).bind fun _ =>
        (RLen.write _ (WLen.certificate _)).bind fun _ => (RLen.extend _).bind fun _ => (RLen.rspTo _).bind fun _ => (RLen.extend _).bind fun _ => RLen.pure _)
  | challenge n =>
    exact RLen.reset ((RLen.lift _).bind fun _ => (RLen.lift _).bind fun _ => (RLen.lift _).bind fun _ => (RLen.lift _).bind fun _ =>
      (RLen.lift _).bind fun _ => (RLen.lift _).bind fun _ => (RLen.lift _).bind fun _ => (RLen.extend _).bind fun _ => (RLen.lift _).bind fun _ =>
      (RLen.lift _).bind fun _ => (RLen.mapErr _ (RLen.write _ (WLen.challengeAuth _ _))).bind fun _ => (RLen.lift _).bind fun _ =>
      (RLen.rspTo _).bind fun _ => (RLen.extend _).bind fun _ => RLen.transcript.bind fun _ => (RLen.lift _).bind fun _ =>
      (RLen.signWith _ _ _ _).bind fun _ => (RLen.patchRsp _ _ _).bind fun _ => RLen.pure _)
  | error => exact RLen.die _

theorem errorToMsg_plain (e : Err) : ∀ id v, Responder.errorToMsg e = .vendorDefined id v → v.opaqueLen ≤ v.opaqueErrorData.length := by
  intro id v h
  cases e <;> simp only [Responder.errorToMsg, reduceCtorEq] at h
  rename_i r
  cases r <;> simp [Responder.readErrorToMsg] at h

/-- What `handle` does, by the outcome of the state's handler. -/
theorem handle_cases {c : Cfg} {cr : Crypto} {env : Env} {slots : List (Option FilledSlot)} {st : RspState} {req : Bytes} {h h' : HState} {x : Res (Nat × RspState)}
    (e : Responder.dispatch c cr env slots st req h = (x, h')) :
    (∀ n st', x = .ok (n, st') → n ≤ h'.rsp.length → Responder.handle c cr env slots st req h = (.ok (⟨h'.rsp.take n, none⟩, st'), h')) ∧
    (∀ er, x = .err er → ∃ h'', Responder.handle c cr env slots st req h = (.ok (⟨errorReply h.rsp (Wire.error (Responder.errorToMsg er)), some er⟩, .error), h'') ∧
      h''.tr = h'.tr ∧ h''.signed = h'.signed) ∧
    (∀ k, x = .panic k → Responder.handle c cr env slots st req h = (.panic k, h')) := by
  refine ⟨?_, ?_, ?_⟩
  · rintro n st' rfl hn
    simp only [Responder.handle, e, sliceTo_ok hn]
  · rintro er rfl
    have hlen : h'.rsp.length = h.rsp.length := by
      have := dispatch_rlen c cr env slots st req h
      rw [e] at this; exact this
    have hw := ErrorMsg.writes (errorToMsg_plain er)
    simp only [Responder.handle, e]
    by_cases hf : 2 + (Wire.error (Responder.errorToMsg er)).length ≤ h'.rsp.length
    · rw [H.write_run hw hf]
      simp only
      rw [sliceTo_ok (by simp only [List.length_append, header_length, List.length_drop]; omega), msg_take]
      have hr : errorReply h.rsp (Wire.error (Responder.errorToMsg er)) = Wire.header .error ++ Wire.error (Responder.errorToMsg er) := by
        simp only [errorReply]
        rw [if_pos (by omega)]
      rw [hr]
      exact ⟨_, rfl, rfl, rfl⟩
    · have hb := write_full (t := .error) hw (buf := h'.rsp) (by omega)
      obtain ⟨er', out, _, _, hb⟩ := hb
      simp only [H.write, hb, errorReply]
      rw [if_neg (by omega)]
      exact ⟨_, rfl, rfl, rfl⟩
  · rintro k rfl
    simp only [Responder.handle, e]

end Spdm
