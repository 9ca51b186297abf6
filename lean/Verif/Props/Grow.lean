import Verif.Lemmas.Grow
import Verif.Props.Stale
/-!
# A larger buffer changes nothing: C76
-/
namespace Spdm
open Spec

variable {c : Cfg} {cr : Crypto}

/-- If `m` succeeds from `h`, it needs `Q` of the value returned, at least `k`, and it does the same from every state with the same transcript, the same
signer log, and a buffer that starts with the same `k` bytes and has room for `Q`. -/
def HGrow {α : Type} (k : Nat) (m : H α) (Q : α → Nat) : Prop := ∀ h a s, k ≤ h.rsp.length → m h = (.ok a, s) →
  (k ≤ Q a ∧ Q a ≤ s.rsp.length) ∧
  ∀ h', h'.tr = h.tr → h'.signed = h.signed → h'.rsp.take k = h.rsp.take k → Q a ≤ h'.rsp.length →
    ∃ s', m h' = (.ok a, s') ∧ s'.tr = s.tr ∧ s'.signed = s.signed ∧ s'.rsp.length = h'.rsp.length ∧ s'.rsp.take (Q a) = s.rsp.take (Q a)

namespace HGrow
variable {α β : Type} {k : Nat}

theorem pure (a : α) {Q : α → Nat} (hq : Q a = k) : HGrow k (Pure.pure a : H α) Q := by
  intro h a' s hk e
  rw [M.run_pure, Prod.mk.injEq, Res.ok.injEq] at e
  obtain ⟨rfl, rfl⟩ := e
  rw [hq]
  exact ⟨⟨Nat.le_refl _, hk⟩, fun h' h1 h2 h3 _ => ⟨h', rfl, h1, h2, rfl, h3⟩⟩

theorem lift (x : Res α) : HGrow k (M.lift x : H α) fun _ => k := by
  intro h a' s hk e
  rw [M.run_lift, Prod.mk.injEq] at e
  obtain ⟨rfl, rfl⟩ := e
  exact ⟨⟨Nat.le_refl _, hk⟩, fun h' h1 h2 h3 _ => ⟨h', rfl, h1, h2, rfl, h3⟩⟩

theorem fail {e : Err} {Q : α → Nat} : HGrow k (M.fail e : H α) Q := fun _ _ _ _ h => (err_ok (congrArg Prod.fst h)).elim
theorem die {p : PanicKind} {Q : α → Nat} : HGrow k (M.die p : H α) Q := fun _ _ _ _ h => (panic_ok (congrArg Prod.fst h)).elim

theorem bind {m : H α} {f : α → H β} {Q : α → Nat} {Q' : β → Nat} (hm : HGrow k m Q) (hf : ∀ a, HGrow (Q a) (f a) Q') : HGrow k (m >>= f) Q' := by
  intro h b s hk e
  obtain ⟨a, u, e1, e2⟩ := M.bind_ok_inv e
  obtain ⟨⟨p1, p2⟩, p3⟩ := hm h a u hk e1
  obtain ⟨⟨q1, q2⟩, q3⟩ := hf a u b s p2 e2
  refine ⟨⟨by omega, q2⟩, fun h' h1 h2 h3 h4 => ?_⟩
  obtain ⟨u', g1, g2, g3, g4, g5⟩ := p3 h' h1 h2 h3 (by omega)
  obtain ⟨s', k1, k2, k3, k4, k5⟩ := q3 u' g2 g3 g5 (by omega)
  exact ⟨s', by rw [M.run_bind_ok g1, k1], k2, k3, k4.trans g4, k5⟩

theorem bindLift {x : Res α} {f : α → H β} {Q' : β → Nat} (hf : ∀ a, x = .ok a → HGrow k (f a) Q') : HGrow k (M.lift x >>= f) Q' := by
  cases x with
  | ok a => exact hf a rfl
  | err e => exact fail
  | panic k => exact die

theorem ite {p : Prop} [Decidable p] {m n : H α} {Q : α → Nat} (hm : HGrow k m Q) (hn : HGrow k n Q) : HGrow k (if p then m else n) Q := by
  split <;> assumption

theorem mapErr {m : H α} {Q : α → Nat} (f : Err → Err) (hm : HGrow k m Q) : HGrow k (M.mapErr f m) Q := by
  intro h a s hk e
  have inv : m h = (.ok a, s) := by
    unfold M.mapErr at e
    rcases hx : m h with ⟨r, t⟩
    rw [hx] at e
    cases r with
    | ok b => exact e
    | err b => exact (err_ok (congrArg Prod.fst e)).elim
    | panic b => exact (panic_ok (congrArg Prod.fst e)).elim
  obtain ⟨h1, h2⟩ := hm h a s hk inv
  refine ⟨h1, fun h' g1 g2 g3 g4 => ?_⟩
  obtain ⟨s', k1, k2⟩ := h2 h' g1 g2 g3 g4
  exact ⟨s', by unfold M.mapErr; rw [k1], k2⟩

theorem extend (bs : Bytes) : HGrow k (H.extend bs) fun _ => k := by
  intro h a s hk e
  unfold H.extend at e
  simp only [Prod.mk.injEq] at e
  obtain ⟨e1, rfl⟩ := e
  refine ⟨⟨Nat.le_refl _, hk⟩, fun h' h1 h2 h3 _ => ⟨{ h' with tr := (Transcript.extend bs h.tr).2 }, ?_, rfl, h2, rfl, h3⟩⟩
  have hx : Transcript.extend bs h.tr = (.ok a, (Transcript.extend bs h.tr).2) := Prod.ext e1 rfl
  unfold H.extend
  rw [h1]
  generalize (Transcript.extend bs h.tr).2 = t at hx
  simp only [hx]

theorem clear : HGrow k H.clear fun _ => k := by
  intro h a s hk e
  unfold H.clear at e
  simp only [Prod.mk.injEq] at e
  obtain ⟨e1, rfl⟩ := e
  refine ⟨⟨Nat.le_refl _, hk⟩, fun h' h1 h2 h3 _ => ⟨{ h' with tr := h.tr.clear }, ?_, rfl, h2, rfl, h3⟩⟩
  unfold H.clear
  rw [h1]

theorem transcript : HGrow k H.transcript fun _ => k := by
  intro h a s hk e
  unfold H.transcript at e
  simp only [Prod.mk.injEq, Res.ok.injEq] at e
  obtain ⟨rfl, rfl⟩ := e
  refine ⟨⟨Nat.le_refl _, hk⟩, fun h' h1 h2 h3 _ => ⟨h', ?_, h1, h2, rfl, h3⟩⟩
  unfold H.transcript
  rw [h1]

theorem rspTo {n : Nat} (hn : n ≤ k) : HGrow k (H.rspTo n) fun _ => k := by
  intro h a s hk e
  obtain ⟨rfl, h1, rfl⟩ := H.rspTo_inv e
  refine ⟨⟨Nat.le_refl _, hk⟩, fun h' h1 h2 h3 (h4 : k ≤ _) => ⟨h', ?_, h1, h2, rfl, h3⟩⟩
  have : h'.rsp.take n = s.rsp.take n := by
    have := congrArg (List.take n) h3
    rwa [List.take_take, List.take_take, Nat.min_eq_left hn] at this
  unfold H.rspTo
  rw [sliceTo_ok (by omega), this]

theorem write (t : MsgType) {body : W Nat} (hb : WEnd body) : HGrow 0 (H.write t body) id := by
  intro h a s hk e
  unfold H.write at e
  simp only [Prod.mk.injEq] at e
  obtain ⟨e1, rfl⟩ := e
  obtain ⟨h1, h2, h3⟩ := write_grow t hb (buf := h.rsp) (out := (t.write body h.rsp).2) (Prod.ext e1 rfl)
  refine ⟨⟨Nat.zero_le _, h1⟩, fun h' g1 g2 _ g4 => ?_⟩
  obtain ⟨out', k1, k2, k3⟩ := h3 h'.rsp g4
  exact ⟨{ h' with rsp := out' }, by unfold H.write; rw [k1], g1, g2, k2, k3⟩

theorem signWith (i : Nat) (slot : FilledSlot) (seed : Nat) (msg : Bytes) : HGrow k (Responder.signWith i slot seed msg) fun _ => k := by
  intro h a s hk e
  unfold Responder.signWith at e
  simp only at e
  split at e
  · rename_i sig hs
    simp only [Prod.mk.injEq, Res.ok.injEq] at e
    obtain ⟨rfl, rfl⟩ := e
    refine ⟨⟨Nat.le_refl _, hk⟩, fun h' h1 h2 h3 _ => ⟨{ h' with signed := h.signed ++ [(i, msg)] }, ?_, h1, rfl, rfl, h3⟩⟩
    unfold Responder.signWith
    simp only [hs, h2]
  · exact (err_ok (congrArg Prod.fst e)).elim

theorem patchRsp {i : Nat} (bs : Bytes) (hi : i ≤ k) : HGrow k (Responder.patchRsp i k bs) fun _ => k := by
  intro h a s hk e
  unfold Responder.patchRsp at e
  split at e
  · rename_i hj
    split at e
    · rename_i hb
      simp only [Prod.mk.injEq] at e
      obtain ⟨_, rfl⟩ := e
      refine ⟨⟨Nat.le_refl _, by simp only [List.length_append, List.length_take, List.length_drop]; omega⟩, fun h' h1 h2 h3 (h4 : k ≤ _) =>
        ⟨{ h' with rsp := h'.rsp.take i ++ bs ++ h'.rsp.drop k }, ?_, h1, h2, by simp only [List.length_append, List.length_take, List.length_drop]; omega, ?_⟩⟩
      · unfold Responder.patchRsp
        rw [if_pos ⟨hj.1, h4⟩, if_pos hb]
      · have hp : ∀ l : Bytes, i ≤ l.length → (l.take i ++ bs ++ l.drop k).take k = l.take i ++ bs := by
          intro l e
          exact List.take_left' (by simp only [List.length_append, List.length_take]; omega)
        have h3' : h'.rsp.take i = h.rsp.take i := by
          have := congrArg (List.take i) h3
          rwa [List.take_take, List.take_take, Nat.min_eq_left hi] at this
        simp only
        rw [hp _ (by omega), hp _ (by omega), h3']
    · exact (panic_ok (congrArg Prod.fst e)).elim
  · exact (panic_ok (congrArg Prod.fst e)).elim

/-- Writing the response, recording it and returning its size. -/
theorem respond {t : MsgType} {body : W Nat} (hb : WEnd body) (st : RspState) :
    HGrow 0 (do let size ← H.write t body; let out ← H.rspTo size; H.extend out; Pure.pure (size, st)) (fun x => x.1) :=
  (write t hb).bind fun _ => (rspTo (Nat.le_refl _)).bind fun _ => (extend _).bind fun _ => pure _ rfl

theorem version (req : Bytes) : HGrow 0 (Responder.versionHandle req) fun x => x.1 := by
  unfold Responder.versionHandle
  split
  · exact (lift _).bind fun _ => (lift _).bind fun _ => clear.bind fun _ => (extend _).bind fun _ => respond (WEnd.version _) _
  · exact (lift _).bind fun _ => fail
  · exact fail
  · exact die

theorem reset {req : Bytes} {rest : H (Nat × RspState)} (h : HGrow 0 rest fun x => x.1) : HGrow 0 (Responder.resetOnGetVersion req rest) fun x => x.1 := by
  unfold Responder.resetOnGetVersion
  split
  · exact version req
  · exact h
  · exact fail
  · exact die

end HGrow

theorem dispatch_grow (c : Cfg) (cr : Crypto) (env : Env) (slots : List (Option FilledSlot)) (st : RspState) (req : Bytes) :
    HGrow 0 (Responder.dispatch c cr env slots st req) fun x => x.1 := by
  unfold Responder.dispatch
  cases st with
  | version => exact HGrow.version req
  | capabilities =>
    exact HGrow.reset ((HGrow.lift _).bind fun _ => (HGrow.lift _).bind fun _ => (HGrow.lift _).bind fun _ => (HGrow.extend _).bind fun _ =>
      (HGrow.lift _).bind fun _ => HGrow.respond (WEnd.capabilities _) _)
  | algorithms caps =>
    exact HGrow.reset ((HGrow.lift _).bind fun _ => (HGrow.lift _).bind fun _ => (HGrow.lift _).bind fun _ => (HGrow.extend _).bind fun _ =>
      (HGrow.lift _).bind fun _ => HGrow.respond (WEnd.algorithms _) _)
  | idAuth n =>
    refine HGrow.reset ((HGrow.lift _).bind fun _ => HGrow.ite ?_ ((HGrow.lift _).bind fun _ => ?_))
    · exact (HGrow.lift _).bind fun _ => (HGrow.lift _).bind fun _ => (HGrow.write _ (WEnd.digests _ _)).bind fun _ => (HGrow.extend _).bind fun _ =>
        (HGrow.rspTo (Nat.le_refl _)).bind fun _ => (HGrow.extend _).bind fun _ => HGrow.pure _ rfl
    · exact (HGrow.lift _).bind fun _ => (HGrow.lift _).bind fun _ => HGrow.ite HGrow.fail ((HGrow.lift _).bind fun _ =>
        (HGrow.write _ (WEnd.certificate _)).bind fun _ => (HGrow.extend _).bind fun _ => (HGrow.rspTo (Nat.le_refl _)).bind fun _ =>
        (HGrow.extend _).bind fun _ => HGrow.pure _ rfl)
  | challenge n =>
    refine HGrow.reset ((HGrow.lift _).bind fun _ => (HGrow.lift _).bind fun _ => (HGrow.lift _).bind fun _ => (HGrow.lift _).bind fun _ =>
      (HGrow.lift _).bind fun _ => (HGrow.lift _).bind fun _ => (HGrow.lift _).bind fun _ => (HGrow.extend _).bind fun _ => (HGrow.lift _).bind fun _ =>
      (HGrow.lift _).bind fun _ => (HGrow.mapErr _ (HGrow.write _ (WEnd.challengeAuth _ _))).bind fun size => HGrow.bindLift fun start hs => ?_)
    have hle : start ≤ size := by
      unfold Responder.subChecked at hs
      split at hs
      · cases hs; omega
      · exact (panic_ok hs).elim
    exact (HGrow.rspTo hle).bind fun _ => (HGrow.extend _).bind fun _ => HGrow.transcript.bind fun _ => (HGrow.lift _).bind fun _ =>
      (HGrow.signWith _ _ _ _).bind fun _ => (HGrow.patchRsp _ hle).bind fun _ => HGrow.pure _ rfl
  | error => exact HGrow.die

/-- **C76.** In any state: if a request is accepted with some response buffer, then with every buffer of at least the size of the response — whatever its size
and contents — the same response is returned and the responder ends in the same state.  In particular a larger buffer never changes an answer. -/
theorem c76_responder_larger_buffer (env : Env) (req buf buf' out : Bytes) (r : Responder) (hok : (Responder.handleMsg c cr env req buf r).1 = .ok ⟨out, none⟩)
    (hlen : out.length ≤ buf'.length) : Responder.handleMsg c cr env req buf' r = Responder.handleMsg c cr env req buf r := by
  unfold Responder.handleMsg at hok ⊢
  cases hs : r.state with
  | none => rfl
  | some st =>
    simp only [hs] at hok ⊢
    rcases hd : Responder.dispatch c cr env r.slots st req ⟨buf, r.transcript, r.signed⟩ with ⟨⟨n, st'⟩ | e | k, s⟩
    · obtain ⟨⟨_, h1⟩, h2⟩ := dispatch_grow c cr env r.slots st req ⟨buf, r.transcript, r.signed⟩ (n, st') s (Nat.zero_le _) hd
      have hsl : sliceTo s.rsp n = .ok (s.rsp.take n) := sliceTo_ok h1
      have hh : Responder.handle c cr env r.slots st req ⟨buf, r.transcript, r.signed⟩ = (.ok (⟨s.rsp.take n, none⟩, st'), s) := by
        unfold Responder.handle
        simp only [hd, hsl]
      rw [hh] at hok ⊢
      simp only [Res.ok.injEq, Responder.Output.mk.injEq, and_true] at hok
      subst hok
      rw [List.length_take_of_le h1] at hlen
      obtain ⟨s', g1, g2, g3, g4, g5⟩ := h2 ⟨buf', r.transcript, r.signed⟩ rfl rfl (by simp) hlen
      have hsl' : sliceTo s'.rsp n = .ok (s.rsp.take n) := by
        rw [sliceTo_ok (by rw [g4]; exact hlen)]
        exact congrArg Res.ok g5
      have hh' : Responder.handle c cr env r.slots st req ⟨buf', r.transcript, r.signed⟩ = (.ok (⟨s.rsp.take n, none⟩, st'), s') := by
        unfold Responder.handle
        simp only [g1, hsl']
      rw [hh']
      simp only [g2, g3]
    · exfalso
      unfold Responder.handle at hok
      simp only [hd] at hok
      rcases hw : H.write .error (Responder.errorToMsg e).writeBody s with ⟨m | e' | k, t⟩ <;> rw [hw] at hok <;> simp only at hok
      · cases hx : sliceTo t.rsp m <;> rw [hx] at hok <;> simp at hok
      · simp at hok
      · simp at hok
    · exfalso
      unfold Responder.handle at hok
      simp only [hd] at hok
      simp at hok

theorem writeTo_grow (t : MsgType) {body : W Nat} (hb : WEnd body) {buf buf' out : Bytes} (h : Requester.writeTo t body buf = .ok out) (hl : out.length ≤ buf'.length) :
    Requester.writeTo t body buf' = .ok out := by
  unfold Requester.writeTo at h
  rcases hp : t.write body buf with ⟨n | e | k, o⟩
  · rw [hp] at h
    simp only [Res.ok_bind] at h
    obtain ⟨h1, h2, h3⟩ := write_grow t hb hp
    obtain ⟨_, rfl⟩ := sliceTo_inv h
    rw [List.length_take_of_le h1] at hl
    obtain ⟨o', k1, k2, k3⟩ := h3 buf' hl
    unfold Requester.writeTo
    rw [k1]
    simp only [Res.ok_bind]
    rw [sliceTo_ok (by omega), k3]
  · rw [hp] at h; exact (err_ok h).elim
  · rw [hp] at h; exact (panic_ok h).elim

/-- Writing a request and going on, where the bytes written are what is returned in the end. -/
theorem send_grow (t : MsgType) {body : W Nat} (hb : WEnd body) {f : Bytes → M Requester Bytes} (hf : ∀ o s out s', f o s = (.ok out, s') → out = o) {buf buf' out : Bytes}
    {r : Requester} (hok : ((M.lift (Requester.writeTo t body buf) >>= f : M Requester Bytes) r).1 = .ok out) (hl : out.length ≤ buf'.length) :
    (M.lift (Requester.writeTo t body buf') >>= f : M Requester Bytes) r = (M.lift (Requester.writeTo t body buf) >>= f) r := by
  rcases hx : (M.lift (Requester.writeTo t body buf) >>= f : M Requester Bytes) r with ⟨x, r'⟩
  rw [hx] at hok
  simp only at hok
  subst hok
  obtain ⟨o, u, e1, e2⟩ := M.bind_ok_inv hx
  obtain ⟨e3, rfl⟩ := M.lift_ok_inv e1
  have ho := hf _ _ _ _ e2
  subst ho
  rw [M.run_bind_ok (a := out) (s' := u) (by rw [M.run_lift, writeTo_grow t hb e3 hl]), e2]

theorem extend_returns (o : Bytes) (s : Requester) (out : Bytes) (s' : Requester) (h : (do Requester.extend o; pure o : M Requester Bytes) s = (.ok out, s')) : out = o := by
  obtain ⟨_, _, _, e⟩ := M.bind_ok_inv h
  rw [M.run_pure, Prod.mk.injEq, Res.ok.injEq] at e
  exact e.1.symm

/-- **C76.** In any state: if `next_request` writes a request into some buffer, it writes the same request into every buffer of at least that size, and the requester
ends in the same state. -/
theorem c76_requester_larger_buffer (env : Env) (buf buf' out : Bytes) (r : Requester) (hok : (Requester.nextRequest c env buf r).1 = .ok out)
    (hlen : out.length ≤ buf'.length) : Requester.nextRequest c env buf' r = Requester.nextRequest c env buf r := by
  have key : ∀ st, (Requester.writeReq c env st buf r).1 = .ok out → Requester.writeReq c env st buf' r = Requester.writeReq c env st buf r := by
    intro st h
    cases st with
    | version =>
      simp only [Requester.writeReq] at h ⊢
      refine send_grow .getVersion WEnd.getVersion (fun o s out s' h => ?_) h hlen
      obtain ⟨_, _, _, e⟩ := M.bind_ok_inv h
      exact extend_returns _ _ _ _ e
    | capabilities v a b =>
      simp only [Requester.writeReq] at h ⊢
      rcases hm : Requester.configToGetCapabilities c with m | e | k
      · rw [hm] at h
        rw [M.run_bind_ok (M.run_lift _ _)] at h ⊢
        rw [M.run_bind_ok (M.run_lift _ _)]
        refine send_grow .getCapabilities (WEnd.getCapabilities _) (fun o s out s' h => ?_) h hlen
        obtain ⟨_, _, _, e⟩ := M.bind_ok_inv h
        obtain ⟨_, _, _, e⟩ := M.bind_ok_inv e
        rw [M.run_pure, Prod.mk.injEq, Res.ok.injEq] at e
        exact e.1.symm
      · rw [M.run_bind_err (M.run_lift _ _), M.run_bind_err (M.run_lift _ _)]
      · rw [M.run_bind_panic (M.run_lift _ _), M.run_bind_panic (M.run_lift _ _)]
    | algorithms v caps o =>
      simp only [Requester.writeReq] at h ⊢
      rcases hm : Requester.configToNegotiateAlgorithms c with m | e | k
      · rw [hm] at h
        rw [M.run_bind_ok (M.run_lift _ _)] at h ⊢
        rw [M.run_bind_ok (M.run_lift _ _)]
        refine send_grow .negotiateAlgorithms (WEnd.negotiateAlgorithms _) (fun o s out s' h => ?_) h hlen
        obtain ⟨_, _, _, e⟩ := M.bind_ok_inv h
        exact extend_returns _ _ _ _ e
      · rw [M.run_bind_err (M.run_lift _ _), M.run_bind_err (M.run_lift _ _)]
      · rw [M.run_bind_panic (M.run_lift _ _), M.run_bind_panic (M.run_lift _ _)]
    | idAuth v caps a o =>
      cases o with
      | none =>
        simp only [Requester.writeReq] at h ⊢
        exact send_grow .getDigests WEnd.getDigests (fun o s out s' h => extend_returns _ _ _ _ h) h hlen
      | some d =>
        simp only [Requester.writeReq] at h ⊢
        split at h
        · rename_i hz; rw [if_pos hz, if_pos hz]
        · rename_i hz
          rw [if_neg hz, if_neg hz]
          exact send_grow .getCertificate (WEnd.getCertificate _) (fun o s out s' h => extend_returns _ _ _ _ h) h hlen
    | challenge s =>
      simp only [Requester.writeReq] at h ⊢
      rw [M.run_bind_ok (m := Requester.setState (.challenge { s with nonce := some env.nonce })) (a := ()) (s' := { r with state := some (.challenge { s with nonce := some env.nonce }) }) rfl] at h ⊢
      rw [M.run_bind_ok (m := Requester.setState (.challenge { s with nonce := some env.nonce })) (a := ()) (s' := { r with state := some (.challenge { s with nonce := some env.nonce }) }) rfl]
      exact send_grow .challenge (WEnd.challenge _) (fun o s out s' h => extend_returns _ _ _ _ h) h hlen
    | error => rfl
    | newSession => rfl
  unfold Requester.nextRequest at hok ⊢
  cases hs : r.state with
  | none => rfl
  | some st =>
    simp only [hs] at hok ⊢
    cases st with
    | newSession => rfl
    | _ => exact key _ hok

/-- The demo session: CHALLENGE_AUTH has 142 bytes, CHALLENGE 8; buffers of exactly that size do. -/
example : ∃ out, (Responder.handleMsg demoCfg demoCrypto demoEnv (demoRequests[5]?.getD []) (zeros 200) (demoResponder 5)).1 = .ok ⟨out, none⟩ ∧ out.length = 142 ∧
    (Responder.handleMsg demoCfg demoCrypto demoEnv (demoRequests[5]?.getD []) (List.replicate 142 0xAA) (demoResponder 5)).1 = .ok ⟨out, none⟩ ∧
    (Responder.handleMsg demoCfg demoCrypto demoEnv (demoRequests[5]?.getD []) (zeros 141) (demoResponder 5)).1 ≠ .ok ⟨out, none⟩ ∧
    (Requester.nextRequest demoCfg demoReqEnv (zeros 8) (demoRequester 10)).1 = .ok demoChallenge :=
  ⟨demoReplies[5]?.getD [], by decide +kernel, by decide +kernel, by decide +kernel, by decide +kernel, by decide +kernel⟩

end Spdm
