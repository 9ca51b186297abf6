import Verif.Props.Reply
import Verif.Props.Response
import Verif.Spec.Roomier
import Verif.Lemmas.Grow
import Verif.DemoSession
/-! C110: raising a limit never breaks what worked. -/
namespace Spdm
open Spec

variable {c c' : Cfg} {cr : Crypto}

/-! ### The responder -/

theorem Spec.Reply.roomier (h : Roomier c c') {env : Env} {slots : List (Option FilledSlot)} {p : Option UInt8} {l : Log} {req out : Bytes}
    (hr : Reply c cr env slots p l req out) : Reply c' cr env slots p l req out := by
  have fits : ∀ o, ChainFits c o → ChainFits c' o := fun o hf => ⟨Nat.le_trans hf.1 h.chain, hf.2⟩
  have dig : ∀ {hh d}, Digestible c cr hh d → Digestible c' cr hh d := fun hd => ⟨h.provider.trans hd.1, hd.2.1, Nat.le_trans hd.2.2 h.digest⟩
  cases hr with
  | version => exact .version
  | capabilities hm hw => exact .capabilities hm (by rw [h.capabilities]; exact hw)
  | algorithms hm ha => exact .algorithms hm ha
  | digests hp ht hmask hfit => exact .digests hp ht hmask fun s hs => ⟨fits _ (hfit s hs).1, dig (hfit s hs).2⟩
  | certificate hp hs hfit => exact .certificate hp hs (fits _ hfit)
  | challenge hp hn hs hfit hmask hds hss hd hd2 hsig hsl =>
    obtain ⟨i, n, h1, h2, h3⟩ := hss
    exact .challenge hp (hn.trans h.nonce.symm) hs (fits _ hfit) hmask (Nat.le_trans hds h.digest) ⟨i, n, h1, h2, Nat.le_trans h3 h.signature⟩ (dig hd) (dig hd2) hsig hsl

/-- **C110.** Raising a limit never breaks what worked, responder: if a build answers every request of a history, resets included, every build with the same or larger
limits, the same slots and otherwise the same configuration returns exactly the same replies. -/
theorem c110_responder {slots : List (Option FilledSlot)} (h0 : 0 < c.numSlots) (h8 : c.numSlots ≤ 8) (hl : slots.length = c.numSlots)
    (hn : ∀ a ∈ c.capabilities, ∃ k, (a, k) ∈ capabilityBits) (h : Roomier c c') (calls : List RspCall)
    (hok : AllAnswered (behaviour c cr (Responder.new c slots) calls)) :
    behaviour c' cr (Responder.new c' slots) calls = behaviour c cr (Responder.new c slots) calls := by
  have go : ∀ (calls : List RspCall) (es : List RspEvent) (r r' : Responder), RspRun c cr slots es r → RspRun c' cr slots es r' → alive es = true →
      AllAnswered (behaviour c cr r calls) → behaviour c' cr r' calls = behaviour c cr r calls := by
    intro calls
    induction calls with
    | nil => intros; rfl
    | cons x xs ih =>
      intro es r r' run run' ha hok
      have htl : AllAnswered (behaviour c cr (x.run c cr r).2 xs) := fun env req buf res hm => hok env req buf res (List.mem_cons_of_mem _ hm)
      simp only [behaviour]
      cases x with
      | reset =>
        have := ih (es ++ [.reset]) r.reset r'.reset (.reset run) (.reset run') (by simp [alive, addAlive]) htl
        simp only [RspCall.run]
        rw [this]
      | call env req buf =>
        obtain ⟨out, ho⟩ := hok env req buf _ (List.mem_cons_self ..)
        obtain ⟨h1, h2, h3⟩ := (c80_answered_iff h0 h8 hl hn run ha env req buf out).mp ho
        have ho' : (Responder.handleMsg c' cr env req buf r').1 = .ok ⟨out, none⟩ :=
          (c80_answered_iff (by rw [h.slots]; exact h0) (by rw [h.slots]; exact h8) (hl.trans h.slots.symm) (by rw [h.capabilities]; exact hn) run' ha env req buf out).mpr
            ⟨h1.roomier h, h2, Nat.le_trans h3 h.transcript⟩
        have r1 := RspRun.call env req buf run
        have r2 := RspRun.call env req buf run'
        rw [ho] at r1
        rw [ho'] at r2
        have ha' : alive (es ++ [.call env req buf (.ok ⟨out, none⟩)]) = true := by
          unfold alive at ha ⊢
          rw [List.foldl_append, ha]; rfl
        have := ih _ _ _ r1 r2 ha' htl
        simp only [RspCall.run]
        rw [ho, ho', this]
  exact go calls [] _ _ .new .new rfl hok

/-! ### The requester -/

/-- The same requester, but its transcript buffer may be longer. -/
structure SameReq (r r' : Requester) : Prop where
  root : r'.rootCert = r.rootCert
  state : r'.state = r.state
  text : r'.transcript.get = r.transcript.get
  wf : r.transcript.WF
  wf' : r'.transcript.WF
  room : r.transcript.buf.length ≤ r'.transcript.buf.length

/-- If `m` succeeds from a requester, `m'` does so from the same one with a longer buffer, with a result in relation `R`. -/
def UpM {α β : Type} (R : α → β → Prop) (m : M Requester α) (m' : M Requester β) : Prop := ∀ r r' a s, SameReq r r' → m r = (.ok a, s) →
  ∃ b s', m' r' = (.ok b, s') ∧ R a b ∧ SameReq s s'

/-- Success carries over. -/
def UpRes {α : Type} (x x' : Res α) : Prop := ∀ a, x = .ok a → x' = .ok a

theorem UpRes.refl {α : Type} (x : Res α) : UpRes x x := fun _ h => h

namespace UpM
variable {α β γ δ : Type}

theorem pure (R : α → β → Prop) {a : α} {b : β} (h : R a b) : UpM R (Pure.pure a) (Pure.pure b) := by
  intro r r' x s hs e
  rw [M.run_pure, Prod.mk.injEq, Res.ok.injEq] at e
  obtain ⟨rfl, rfl⟩ := e
  exact ⟨b, r', rfl, h, hs⟩

theorem bind {R : α → β → Prop} {S : γ → δ → Prop} {m : M Requester α} {m' : M Requester β} {f : α → M Requester γ} {g : β → M Requester δ} (hm : UpM R m m')
    (hf : ∀ a b, R a b → UpM S (f a) (g b)) : UpM S (m >>= f) (m' >>= g) := by
  intro r r' x s hs e
  obtain ⟨a, u, e1, e2⟩ := M.bind_ok_inv e
  obtain ⟨b, u', g1, g2, g3⟩ := hm r r' a u hs e1
  obtain ⟨y, s', k1, k2⟩ := hf a b g2 u u' x s g3 e2
  exact ⟨y, s', by rw [M.run_bind_ok g1, k1], k2⟩

theorem same {S : γ → δ → Prop} {m m' : M Requester α} {f : α → M Requester γ} {g : α → M Requester δ} (hm : UpM Eq m m') (hf : ∀ a, UpM S (f a) (g a)) :
    UpM S (m >>= f) (m' >>= g) := hm.bind fun a _ h => h ▸ hf a

theorem lift {x x' : Res α} (h : UpRes x x') : UpM Eq (M.lift x) (M.lift x') := by
  intro r r' a s hs e
  rw [M.run_lift, Prod.mk.injEq] at e
  obtain ⟨e1, rfl⟩ := e
  exact ⟨a, r', by rw [M.run_lift, h a e1], rfl, hs⟩

/-- A call that does not depend on the limits. -/
theorem call {x : Res α} {S : γ → δ → Prop} {f : α → M Requester γ} {g : α → M Requester δ} (hf : ∀ a, UpM S (f a) (g a)) : UpM S (M.lift x >>= f) (M.lift x >>= g) :=
  same (lift (UpRes.refl x)) hf

theorem sameOk {x x' : Res α} (h : UpRes x x') {S : γ → δ → Prop} {f : α → M Requester γ} {g : α → M Requester δ} (hf : ∀ a, x = .ok a → UpM S (f a) (g a)) :
    UpM S (M.lift x >>= f) (M.lift x' >>= g) := by
  cases hx : x with
  | ok a =>
    rw [h a hx]
    exact hf a hx
  | err e => exact fun _ _ _ _ _ h => (err_ok (congrArg Prod.fst h)).elim
  | panic k => exact fun _ _ _ _ _ h => (panic_ok (congrArg Prod.fst h)).elim

theorem fail {R : α → β → Prop} {e : Err} {m' : M Requester β} : UpM R (M.fail e) m' := fun _ _ _ _ _ h => (err_ok (congrArg Prod.fst h)).elim
theorem die {R : α → β → Prop} {p : PanicKind} {m' : M Requester β} : UpM R (M.die p) m' := fun _ _ _ _ _ h => (panic_ok (congrArg Prod.fst h)).elim

theorem extend (bs : Bytes) : UpM Eq (Requester.extend bs) (Requester.extend bs) := by
  intro r r' a s hs e
  unfold Requester.extend at e
  simp only [Prod.mk.injEq] at e
  obtain ⟨e1, rfl⟩ := e
  obtain ⟨g1, g2, g3, g4⟩ := Transcript.extend_ok_inv hs.wf (t' := (Transcript.extend bs r.transcript).2) (u := a) (Prod.ext e1 rfl)
  obtain ⟨t, k1, k2, k3, k4⟩ := Transcript.extend_room (t := r'.transcript) hs.wf' (bs := bs) (by rw [hs.text]; exact Nat.le_trans g4 hs.room)
  refine ⟨a, { r' with transcript := t }, ?_, rfl, ?_⟩
  · unfold Requester.extend; rw [k1]
  · exact ⟨hs.root, hs.state, by dsimp only; rw [k2, g1, hs.text], g2, k3, by dsimp only; rw [k4, g3]; exact hs.room⟩

theorem clear : UpM Eq Requester.clear Requester.clear := by
  intro r r' a s hs e
  unfold Requester.clear at e
  simp only [Prod.mk.injEq] at e
  obtain ⟨_, rfl⟩ := e
  exact ⟨a, _, rfl, rfl, ⟨hs.root, hs.state, by simp [Transcript.clear, Transcript.get], by simp [Transcript.WF, Transcript.clear], by simp [Transcript.WF, Transcript.clear], hs.room⟩⟩

theorem setState (st : ReqState) : UpM Eq (Requester.setState st) (Requester.setState st) := by
  intro r r' a s hs e
  unfold Requester.setState at e
  simp only [Prod.mk.injEq] at e
  obtain ⟨_, rfl⟩ := e
  exact ⟨a, _, rfl, rfl, ⟨hs.root, rfl, hs.text, hs.wf, hs.wf', hs.room⟩⟩

theorem get : UpM SameReq M.get M.get := by
  intro r r' a s hs e
  cases e
  exact ⟨r', r', rfl, hs, hs⟩

end UpM

/-- The limits a requester does not announce. -/
theorem digestSize_up (h : Roomier c c') (a : UInt32) : UpRes (BaseHashAlgo.getDigestSize c a) (BaseHashAlgo.getDigestSize c' a) := by
  intro n e
  obtain ⟨i, h1, h2, h3⟩ := getDigestSize_ok.mp e
  exact getDigestSize_ok.mpr ⟨i, h1, h2, Nat.le_trans h3 h.digest⟩

theorem signatureSize_up (h : Roomier c c') (a : UInt32) : UpRes (BaseAsymAlgo.getSignatureSize c a) (BaseAsymAlgo.getSignatureSize c' a) := by
  intro n e
  obtain ⟨i, h1, h2, h3⟩ := getSignatureSize_ok.mp e
  exact getSignatureSize_ok.mpr ⟨i, h1, h2, Nat.le_trans h3 h.signature⟩

theorem digest_up (h : Roomier c c') (a : UInt32) (d : Bytes) : UpRes (cr.digest c a d) (cr.digest c' a d) := by
  intro x e
  unfold Crypto.digest at e ⊢
  rw [h.provider]
  split at e
  · exact (panic_ok e).elim
  · rename_i hp
    rw [if_neg hp]
    split at e
    · rename_i ha
      rw [if_pos ha]
      split at e
      · rename_i hl
        rw [if_pos (Nat.le_trans hl h.digest)]; exact e
      · exact (panic_ok e).elim
    · exact (panic_ok e).elim

theorem chain_up (h : Roomier c c') (buf : Bytes) (n : Nat) : UpRes (CertificateChain.parse c buf n) (CertificateChain.parse c' buf n) := by
  intro ch e
  obtain ⟨w, rfl⟩ := CertificateChain.parse_inv e
  exact CertificateChain.parse_chain ⟨w.root, Nat.le_trans w.depth h.depth, w.inter, w.leaf, w.size⟩

theorem any_up (h0 : 0 < c.numSlots) (h8 : c.numSlots ≤ 8) (h : Roomier c c') {x : Ctx} {t : MsgType} {bs : Bytes} {m m' : AnyMsg} (hp : AnyMsg.parse c x t bs = .ok m)
    (hm : m'.ty = m.ty) (hd : ∀ b, Denotes c x b m → Denotes c' x b m') : AnyMsg.parse c' x t bs = .ok m' := by
  obtain ⟨h1, b, tail, h2, h3⟩ := (c78_accepts_iff c x h0 h8 _ _ _).mp hp
  exact (c78_accepts_iff c' x (by rw [h.slots]; exact h0) (by rw [h.slots]; exact h8) _ _ _).mpr ⟨hm.trans h1, b, tail, h2, hd b h3⟩

theorem digests_up (h0 : 0 < c.numSlots) (h8 : c.numSlots ≤ 8) (h : Roomier c c') (n : Nat) (bs : Bytes) : UpRes (Digests.parseBody c n bs) (Digests.parseBody c' n bs) := by
  intro d e
  have := any_up (x := ⟨n, 0, false⟩) (t := .digests) (m := .digests d) (m' := .digests d) h0 h8 h (bs := bs) (by simp only [AnyMsg.parse, e]; rfl) rfl (by
    intro b hb
    simp only [Denotes, h.slots] at hb ⊢
    exact hb)
  obtain ⟨y, g1, g2⟩ := res_map_ok_inv this
  cases g2; exact g1

theorem certificate_up (h0 : 0 < c.numSlots) (h8 : c.numSlots ≤ 8) (h : Roomier c c') (hc : c'.maxCertChainSize = c.maxCertChainSize) (bs : Bytes) :
    UpRes (Certificate.parseBody c bs) (Certificate.parseBody c' bs) := by
  intro d e
  have := any_up (x := ⟨0, 0, false⟩) (t := .certificate) (m := .certificate d) (m' := .certificate d) h0 h8 h (bs := bs) (by simp only [AnyMsg.parse, e]; rfl) rfl (by
    rintro b ⟨w, hb⟩
    exact ⟨⟨by rw [hc]; exact w.len, by rw [hc]; exact w.portion, by rw [hc]; exact w.zero⟩, hb⟩)
  obtain ⟨y, g1, g2⟩ := res_map_ok_inv this
  cases g2; exact g1

/-- Opaque data in larger arrays. -/
theorem opaque_up (h : Roomier c c') {d : OpaqueData} (w : OpaqueDataWF c d) : ∃ d', OpaqueDataWF c' d' ∧ Wire.opaqueData d' = Wire.opaqueData d := by
  obtain ⟨n, els⟩ := d
  have w1 : els.length = c.maxOpaqueElements := w.len
  have w2 : n.toNat ≤ c.maxOpaqueElements := w.total
  let grow : OpaqueElement → OpaqueElement := fun e => ⟨e.registryId, e.vendorId, e.dataLen, e.data ++ zeros (c'.maxOpaqueElementDataSize - c.maxOpaqueElementDataSize)⟩
  have hz : ∀ a b, zeros a ++ zeros b = zeros (a + b) := fun a b => by simp [zeros]
  have hle := h.opaqueSize
  have hle2 := h.opaqueElements
  have dflt : OpaqueElementWF c' ⟨.dmtf, .empty, 0, zeros c'.maxOpaqueElementDataSize⟩ :=
    ⟨rfl, by simp [zeros], by simp, by simp [zeros]⟩
  have hg : ∀ e ∈ els, OpaqueElementWF c' (grow e) := by
    intro e he
    have v := w.used e he
    refine ⟨v.vendor, ?_, Nat.le_trans v.dlen hle, ?_⟩
    · simp only [grow, List.length_append, v.len, zeros, List.length_replicate]; omega
    · have := v.dlen
      simp only [grow]
      rw [List.drop_append_of_le_length (by rw [v.len]; exact this), v.zero, hz]
      congr 1; omega
  refine ⟨⟨n, els.map grow ++ List.replicate (c'.maxOpaqueElements - c.maxOpaqueElements) ⟨.dmtf, .empty, 0, zeros c'.maxOpaqueElementDataSize⟩⟩, ⟨?_, ?_, ?_, ?_⟩, ?_⟩
  · simp only [List.length_append, List.length_map, List.length_replicate, w1]; omega
  · exact Nat.le_trans w2 hle2
  · intro e he
    simp only [List.mem_append, List.mem_map, List.mem_replicate] at he
    rcases he with ⟨e0, h1, rfl⟩ | ⟨_, rfl⟩
    · exact hg e0 h1
    · exact dflt
  · intro i e he hi
    simp only [List.getElem?_append, List.length_map] at he
    split at he
    · rw [List.getElem?_map, Option.map_eq_some_iff] at he
      obtain ⟨e0, h1, rfl⟩ := he
      have := w.unused i e0 h1 hi
      subst this
      simp only [grow, hz]
      congr 2; omega
    · rw [List.getElem?_replicate] at he
      split at he
      · simpa using he.symm
      · cases he
  · simp only [Wire.opaqueData]
    rw [List.take_append_of_le_length (by rw [List.length_map, w1]; exact w2), ← List.map_take, List.flatMap_map]
    congr 1
    rw [List.flatMap_def, List.flatMap_def]
    congr 1
    refine List.map_congr_left fun e he => ?_
    have v := w.used e (List.mem_of_mem_take he)
    have := v.dlen
    simp only [Wire.opaqueElement, Wire.opaqueElementRaw, grow]
    rw [List.take_append_of_le_length (by rw [v.len]; exact this)]

/-- What matters of a CHALLENGE_AUTH. -/
structure SameAuth (m m' : ChallengeAuth) : Prop where
  slot : m'.slot = m.slot
  mask : m'.slotMask = m.slotMask
  hash : m'.certChainHash = m.certChainHash
  sig : m'.signature = m.signature

theorem auth_up (h0 : 0 < c.numSlots) (h8 : c.numSlots ≤ 8) (h : Roomier c c') {bs : Bytes} {ds ss : Nat} {m : ChallengeAuth} (e : ChallengeAuth.parseBody c bs ds ss = .ok m) :
    m.signature.length = ss ∧ ∃ m', ChallengeAuth.parseBody c' bs ds ss = .ok m' ∧ SameAuth m m' := by
  have hp : AnyMsg.parse c ⟨ds, ss, false⟩ .challengeAuth bs = .ok (.challengeAuth m) := by simp only [AnyMsg.parse, e]; rfl
  obtain ⟨_, b, tail, h2, b0, len, d1, d2, d3, d4, d5, d6, d7, d8, d9, d10⟩ := (c78_accepts_iff c ⟨ds, ss, false⟩ h0 h8 _ _ _).mp hp
  obtain ⟨o, o1, o2⟩ := opaque_up h d7
  refine ⟨d8, { m with opaqueData := o }, ?_, ⟨rfl, rfl, rfl, rfl⟩⟩
  have : AnyMsg.parse c' ⟨ds, ss, false⟩ .challengeAuth bs = .ok (.challengeAuth { m with opaqueData := o }) :=
    (c78_accepts_iff c' ⟨ds, ss, false⟩ (by rw [h.slots]; exact h0) (by rw [h.slots]; exact h8) _ _ _).mpr ⟨rfl, b, tail, h2, b0, len, d1, d2,
      by rw [h.slots]; exact d3, d4, by rw [h.nonce]; exact d5, d6, o1, d8, d9, by rw [d10]; dsimp only; rw [o2]⟩
  obtain ⟨y, g1, g2⟩ := res_map_ok_inv this
  cases g2; exact g1

/-- Checking a signature of the size of the algorithm. -/
theorem verify_up (h : Roomier c c') {leaf msg sig : Bytes} {a : UInt32} (hz : BaseAsymAlgo.getSignatureSize c a = .ok sig.length) :
    UpRes (cr.verifySignature c leaf a msg sig) (cr.verifySignature c' leaf a msg sig) := by
  intro b e
  unfold Crypto.verifySignature at e ⊢
  rw [h.provider]
  split at e
  · exact (panic_ok e).elim
  · rename_i hp
    rw [if_neg hp]
    obtain ⟨al, e1, e⟩ := res_bind_ok e
    obtain ⟨⟨out, n⟩, e2, e⟩ := res_bind_ok e
    obtain ⟨der, e3, e⟩ := res_bind_ok e
    obtain ⟨_, rfl⟩ := sliceTo_inv e3
    obtain ⟨_, hal⟩ := spdmToWebpki_inv e1
    obtain ⟨i, s1, s2, s3⟩ := getSignatureSize_ok.mp hz
    have hl : sig.length = 64 ∨ sig.length = 96 := by
      have := getSignatureSize_sizeFor hz
      rcases hal with hal | hal <;> rw [hal] at this
      · exact .inl (this.symm.trans (by decide))
      · exact .inr (this.symm.trans (by decide))
    obtain ⟨_, hder⟩ := binToDer_inv e2
    have hz1 : rawR sig ≠ 0 ∧ rawS sig ≠ 0 := by
      obtain ⟨x, y, hx, hy, _⟩ := hder
      exact ⟨isDerInteger_pos hx, isDerInteger_pos hy⟩
    have hle : sig.length ≤ c'.maxSignatureSize := Nat.le_trans s3 h.signature
    obtain ⟨out', n', d1, d2, d3⟩ := binToDer_run (sig := sig) (out := List.replicate (Pki.maxEncodedSize c') 0) hz1.1 hz1.2 (by omega) (by
      intro x y hx hy
      rw [List.length_replicate]
      have m1 : Pki.derLength x ≤ 1 ∧ Pki.derLength y ≤ 1 := by unfold Pki.derLength; constructor <;> (repeat' split) <;> omega
      have m2 : Pki.derLength (2 + x + y + Pki.derLength x + Pki.derLength y) ≤ 1 := by
        generalize Pki.derLength x = p at *
        generalize Pki.derLength y = q at *
        unfold Pki.derLength; (repeat' split) <;> omega
      have m3 : ∀ k, 1 ≤ Pki.derLength k := fun k => by unfold Pki.derLength; (repeat' split) <;> omega
      unfold Pki.maxEncodedSize
      dsimp only
      have := m3 (c'.maxSignatureSize / 2)
      have := m3 (c'.maxSignatureSize + 2 + 2 * 1 + Pki.derLength (c'.maxSignatureSize / 2) * 2)
      omega)
    rw [e1, Res.ok_bind, d1, Res.ok_bind]
    dsimp only
    rw [sliceTo_ok d2, Res.ok_bind, c51_der_canonical d3 hder]
    exact e

theorem chainAndSignature_up (h : Roomier c c') {s : ReqChallenge} {ds : Nat} {msg sig root : Bytes}
    (hz : BaseAsymAlgo.getSignatureSize c s.algorithms.baseAsymAlgoSelected = .ok sig.length) :
    UpRes (Requester.verifyCertChainAndSignature c cr s ds msg sig root) (Requester.verifyCertChainAndSignature c' cr s ds msg sig root) := by
  intro u e
  unfold Requester.verifyCertChainAndSignature at e ⊢
  obtain ⟨cb, e1, e⟩ := res_bind_ok e
  obtain ⟨chain, e2, e⟩ := res_bind_ok e
  obtain ⟨leaf, e3, e⟩ := res_bind_ok e
  obtain ⟨_, e4, e⟩ := res_bind_ok e
  obtain ⟨ok, e5, e⟩ := res_bind_ok e
  rw [e1, Res.ok_bind, chain_up h _ _ _ e2, Res.ok_bind]
  have p3 : cr.newEndEntityCert c' chain.leafCert = .ok leaf := by unfold Crypto.newEndEntityCert at e3 ⊢; rw [h.provider]; exact e3
  have p4 : ∀ a b d, cr.verifyChainOfTrust c' leaf a b root d = cr.verifyChainOfTrust c leaf a b root d := by
    intros; unfold Crypto.verifyChainOfTrust; rw [h.provider]
  rw [p3, Res.ok_bind, p4, e4, Res.ok_bind, verify_up h hz _ e5, Res.ok_bind]
  exact e

theorem challenge_up (h0 : 0 < c.numSlots) (h8 : c.numSlots ≤ 8) (h : Roomier c c') (s : ReqChallenge) (buf : Bytes) :
    UpM Eq (Requester.challengeHandle c cr s buf) (Requester.challengeHandle c' cr s buf) := by
  unfold Requester.challengeHandle
  refine .call fun _ => ?_
  refine .same (.lift (digestSize_up h _)) fun ds => ?_
  refine .sameOk (signatureSize_up h _) fun ss hz => ?_
  refine .call fun body => ?_
  refine .bind (R := fun m m' => SameAuth m m' ∧ m.signature.length = ss) ?_ fun m m' hm => ?_
  · intro r r' m s' hs e
    rw [M.run_lift, Prod.mk.injEq] at e
    obtain ⟨e1, rfl⟩ := e
    obtain ⟨g1, m', g2, g3⟩ := auth_up h0 h8 h e1
    exact ⟨m', r', by rw [M.run_lift, g2], ⟨g3, g1⟩, hs⟩
  · obtain ⟨hm, hl⟩ := hm
    have hck : Requester.checkSlot s.certSlot m' = Requester.checkSlot s.certSlot m := by unfold Requester.checkSlot; rw [hm.slot, hm.mask]
    rw [hck, hm.hash, hm.sig]
    refine .call fun _ => .call fun chainBuf => .same (.lift (digest_up h _ _)) fun digest => ?_
    split
    · exact .fail
    · refine .call fun _ => .call fun m2 => .same (.extend _) fun _ => .bind .get fun q q' hq => ?_
      rw [hq.text, hq.root]
      refine .same (.lift (digest_up h _ _)) fun mh => ?_
      exact .lift (chainAndSignature_up h (by rw [hl]; exact hz))

theorem handle_up (h0 : 0 < c.numSlots) (h8 : c.numSlots ≤ 8) (h : Roomier c c') (hc : c'.maxCertChainSize = c.maxCertChainSize) (st : ReqState) (buf : Bytes) :
    UpM Eq (Requester.handle c cr st buf) (Requester.handle c' cr st buf) := by
  cases st with
  | error => exact .die
  | newSession => exact .die
  | version =>
    unfold Requester.handle
    refine .call fun _ => .call fun _ => .call fun v => .call fun e => ?_
    cases e with
    | none => exact .fail
    | some e => exact .same (.extend _) fun _ => .pure _ rfl
  | capabilities v ct cap =>
    unfold Requester.handle
    exact .call fun _ => .call fun _ => .call fun v => .same (.extend _) fun _ => .call fun _ => .call fun _ => .pure _ rfl
  | algorithms v caps o =>
    unfold Requester.handle
    exact .call fun _ => .call fun _ => .call fun v => .call fun _ => .same (.extend _) fun _ => .pure _ rfl
  | idAuth v caps a d =>
    cases d with
    | none =>
      unfold Requester.handle
      exact .call fun _ => .same (.lift (digestSize_up h _)) fun _ => .call fun _ => .same (.lift (digests_up h0 h8 h _ _)) fun _ => .same (.extend _) fun _ => .pure _ rfl
    | some d =>
      unfold Requester.handle
      exact .call fun _ => .call fun _ => .same (.lift (certificate_up h0 h8 h hc _)) fun _ => .same (.extend _) fun _ => .pure _ rfl
  | challenge s =>
    unfold Requester.handle
    exact .same (challenge_up h0 h8 h s buf) fun _ => .pure _ rfl

theorem write_up (h : Roomier c c') (hc : c'.maxCertChainSize = c.maxCertChainSize) (env : Env) (st : ReqState) (buf : Bytes) :
    UpM Eq (Requester.writeReq c env st buf) (Requester.writeReq c' env st buf) := by
  have e1 : Requester.configToGetCapabilities c' = Requester.configToGetCapabilities c := by unfold Requester.configToGetCapabilities; rw [h.capabilities]
  have e2 : Requester.configToNegotiateAlgorithms c' = Requester.configToNegotiateAlgorithms c := by
    unfold Requester.configToNegotiateAlgorithms Crypto.supportedHashes; rw [h.signing, h.provider]
  cases st with
  | error => exact .die
  | newSession => exact .die
  | version => unfold Requester.writeReq; exact .call fun _ => .same .clear fun _ => .same (.extend _) fun _ => .pure _ rfl
  | capabilities v ct cap => unfold Requester.writeReq; rw [e1]; exact .call fun _ => .call fun _ => .same (.extend _) fun _ => .same (.setState _) fun _ => .pure _ rfl
  | algorithms v caps o => unfold Requester.writeReq; rw [e2]; exact .call fun _ => .call fun _ => .same (.setState _) fun _ => .same (.extend _) fun _ => .pure _ rfl
  | idAuth v caps a d =>
    cases d with
    | none => unfold Requester.writeReq; exact .call fun _ => .same (.extend _) fun _ => .pure _ rfl
    | some d =>
      unfold Requester.writeReq
      dsimp only
      rw [h.slots, hc]
      split
      · exact .die
      · exact .call fun _ => .same (.extend _) fun _ => .pure _ rfl
  | challenge s => unfold Requester.writeReq; exact .same (.setState _) fun _ => .call fun _ => .same (.extend _) fun _ => .pure _ rfl

theorem next_up (h : Roomier c c') (hc : c'.maxCertChainSize = c.maxCertChainSize) (env : Env) (buf : Bytes) :
    UpM Eq (Requester.nextRequest c env buf) (Requester.nextRequest c' env buf) := by
  intro r r' out s hs e
  have hst := hs.state
  unfold Requester.nextRequest at e ⊢
  rw [hst]
  split at e
  · exact (panic_ok (congrArg Prod.fst e)).elim
  · exact (err_ok (congrArg Prod.fst e)).elim
  · rename_i st hne hq
    exact write_up h hc env _ buf r r' out s hs e

theorem handleMsg_up (h0 : 0 < c.numSlots) (h8 : c.numSlots ≤ 8) (h : Roomier c c') (hc : c'.maxCertChainSize = c.maxCertChainSize) (rsp : Bytes) :
    UpM Eq (Requester.handleMsg c cr rsp) (Requester.handleMsg c' cr rsp) := by
  intro r r' b s hs e
  have hst := hs.state
  unfold Requester.handleMsg at e ⊢
  rw [hst]
  split at e
  · exact (panic_ok (congrArg Prod.fst e)).elim
  · rename_i st hq
    split at e
    · rename_i st' r1 hh
      obtain ⟨b', s', g1, rfl, g3⟩ := handle_up (cr := cr) h0 h8 h hc st rsp { r with state := none } { r' with state := none } st' r1 ⟨hs.root, rfl, hs.text, hs.wf, hs.wf', hs.room⟩ hh
      rw [Prod.mk.injEq, Res.ok.injEq] at e
      obtain ⟨rfl, rfl⟩ := e
      refine ⟨_, { s' with state := some st' }, ?_, rfl, ⟨g3.root, rfl, g3.text, g3.wf, g3.wf', g3.room⟩⟩
      rw [g1]
    · exact (err_ok (congrArg Prod.fst e)).elim
    · exact (panic_ok (congrArg Prod.fst e)).elim

/-- **C110.** Raising a limit never breaks what worked, requester: if every call of a history succeeds on one build, every build with the same or larger limits, the same
MAX_CERT_CHAIN_SIZE and otherwise the same configuration writes exactly the same requests, accepts the same responses and completes at the same point. -/
theorem c110_requester (h0 : 0 < c.numSlots) (h8 : c.numSlots ≤ 8) (h : Roomier c c') (hc : c'.maxCertChainSize = c.maxCertChainSize) (root : Bytes) (calls : List ReqCall)
    (hok : AllSucceeded (reqBehaviour c cr (Requester.new c root) calls)) :
    reqBehaviour c' cr (Requester.new c' root) calls = reqBehaviour c cr (Requester.new c root) calls := by
  have go : ∀ (calls : List ReqCall) (r r' : Requester), SameReq r r' → AllSucceeded (reqBehaviour c cr r calls) → reqBehaviour c' cr r' calls = reqBehaviour c cr r calls := by
    intro calls
    induction calls with
    | nil => intros; rfl
    | cons x xs ih =>
      intro r r' hs hok
      have htl : AllSucceeded (reqBehaviour c cr (x.run c cr r).2 xs) :=
        ⟨fun env buf res hm => hok.1 env buf res (List.mem_cons_of_mem _ hm), fun rsp res hm => hok.2 rsp res (List.mem_cons_of_mem _ hm)⟩
      simp only [reqBehaviour]
      cases x with
      | next env buf =>
        obtain ⟨out, ho⟩ := hok.1 env buf _ (List.mem_cons_self ..)
        obtain ⟨b, s', g1, rfl, g3⟩ := next_up h hc env buf r r' out _ hs (Prod.ext ho rfl)
        simp only [ReqCall.run] at htl ⊢
        rw [g1, ih _ _ g3 htl, ho]
      | recv rsp =>
        obtain ⟨out, ho⟩ := hok.2 rsp _ (List.mem_cons_self ..)
        obtain ⟨b, s', g1, rfl, g3⟩ := handleMsg_up (cr := cr) h0 h8 h hc rsp r r' out _ hs (Prod.ext ho rfl)
        simp only [ReqCall.run] at htl ⊢
        rw [g1, ih _ _ g3 htl, ho]
  refine go calls _ _ ⟨rfl, rfl, ?_, ?_, ?_, ?_⟩ hok
  · simp [Requester.new, Transcript.new, Transcript.get]
  · simp [Requester.new, Transcript.new, Transcript.WF]
  · simp [Requester.new, Transcript.new, Transcript.WF]
  · simpa [Requester.new, Transcript.new] using h.transcript

/-- The demo build with every limit raised but MAX_CERT_CHAIN_SIZE. -/
def roomyCfg : Cfg :=
  { demoCfg with
    maxCertChainDepth := 5, transcriptSize := 4096, maxDigestSize := 100, maxSignatureSize := 254, maxOpaqueElementDataSize := 64, maxOpaqueElements := 7,
    maxMeasurementBlocks := 40, maxMeasurementSize := 99 }

theorem roomy_roomier : Roomier demoCfg roomyCfg := by constructor <;> decide

/-- The same, as a check. -/
def reqSuccess : ReqEvent → Bool
  | .next _ _ (.ok _) => true
  | .recv _ (.ok _) => true
  | _ => false

theorem succeeded_of {es : List ReqEvent} (h : ∀ e ∈ es, reqSuccess e = true) : AllSucceeded es := by
  constructor
  · intro env buf res hm
    cases res with
    | ok o => exact ⟨o, rfl⟩
    | err e => cases h _ hm
    | panic k => cases h _ hm
  · intro rsp res hm
    cases res with
    | ok o => exact ⟨o, rfl⟩
    | err e => cases h _ hm
    | panic k => cases h _ hm

def rspSuccess : RspEvent → Bool
  | .call _ _ _ (.ok ⟨_, none⟩) => true
  | .call _ _ _ _ => false
  | _ => true

theorem answered_of {es : List RspEvent} (h : ∀ e ∈ es, rspSuccess e = true) : AllAnswered es := by
  intro env req buf res hm
  rcases res with ⟨o, _ | e⟩ | e | k
  · exact ⟨o, rfl⟩
  · cases h _ hm
  · cases h _ hm
  · cases h _ hm

theorem demo_answered : AllAnswered (demoEvents 6) := answered_of (by decide +kernel)
theorem demo_succeeded : AllSucceeded (demoReqEvents 12) := succeeded_of (by decide +kernel)

/-- A longer MAX_CERT_CHAIN_SIZE does not go unnoticed on the wire: the requester asks for that many bytes, so its GET_CERTIFICATE, and with it everything signed later, is
different.  This is why `c110_requester` keeps that limit. -/
theorem c110_chain_size_announced : ∃ c', Roomier demoCfg c' ∧ AllSucceeded (demoReqEvents 9) ∧
    reqBehaviour c' demoCrypto (Requester.new c' [1, 2, 3]) (demoReqCalls 9) ≠ demoReqEvents 9 :=
  ⟨{ demoCfg with maxCertChainSize := 65 }, by constructor <;> decide, succeeded_of (by decide +kernel), by decide +kernel⟩

/-- The whole demo handshake on the roomier build: the same messages. -/
example : behaviour roomyCfg demoCrypto (Responder.new roomyCfg demoSlots) (demoCalls 6) = demoEvents 6 :=
  c110_responder (by decide) (by decide) (by decide) demo_named roomy_roomier _ demo_answered

example : reqBehaviour roomyCfg demoCrypto (Requester.new roomyCfg [1, 2, 3]) (demoReqCalls 12) = demoReqEvents 12 :=
  c110_requester (by decide) (by decide) roomy_roomier rfl _ _ demo_succeeded

/-- The converse direction fails: in a transcript of 100 bytes the same handshake does not get through. -/
example : reqBehaviour { demoCfg with transcriptSize := 100 } demoCrypto (Requester.new { demoCfg with transcriptSize := 100 } [1, 2, 3]) (demoReqCalls 12) ≠ demoReqEvents 12 := by decide +kernel

end Spdm
