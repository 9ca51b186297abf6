import Verif.Lemmas.Rejection
import Verif.Props.Refusal
import Verif.Props.ReqPanics
/-! C88: which error a refused response gets. -/
namespace Spdm
open Spec

variable {c : Cfg} {cr : Crypto} {root : Bytes} {offer : NegotiateAlgorithms} {acc : List Bytes} {l : Log} {cap : Nat} {rsp : Bytes} {es : List ReqEvent} {r : Requester}

/-! ### Messages of a response -/

theorem header_injective {a b : MsgType} (h : Wire.header a = Wire.header b) : a = b := by
  revert h
  cases a <;> cases b <;> first | exact fun _ => rfl | (intro h; exact absurd h (by decide))

theorem Spec.Means.header {m : AnyMsg} (h : Means c l rsp m) : rsp.take 2 = Wire.header m.ty := by
  obtain ⟨bs, tail, rfl, _⟩ := h
  rw [List.append_assoc, List.take_left' (header_length _)]

theorem Spec.Means.ty {m : AnyMsg} {t : MsgType} (h : Means c l rsp m) (hh : rsp.take 2 = Wire.header t) : m.ty = t := header_injective (h.header.symm.trans hh)

theorem means_iff (h0 : 0 < c.numSlots) (h8 : c.numSlots ≤ 8) {t : MsgType} {m : AnyMsg} (hh : rsp.take 2 = Wire.header t) :
    Means c l rsp m ↔ AnyMsg.parse c ⟨sizeFor digestSizes l.hash, sizeFor signatureSizes l.asym, false⟩ t (rsp.drop 2) = .ok m := by
  constructor
  · intro h
    have ht := h.ty hh
    obtain ⟨bs, tail, rfl, hd⟩ := h
    rw [List.append_assoc, List.drop_left' (header_length _), ← ht]
    exact denotes_parse h0 h8 hd
  · intro hp
    obtain ⟨hty, bs, tail, h1, h2⟩ := (c78_accepts_iff c _ h0 h8 _ _ _).mp hp
    exact ⟨bs, tail, by rw [hty, ← hh, List.append_assoc, ← h1, List.take_append_drop], h2⟩

theorem Spec.Means.unique (h0 : 0 < c.numSlots) (h8 : c.numSlots ≤ 8) {m m' : AnyMsg} (h : Means c l rsp m) (h' : Means c l rsp m') : m = m' := by
  have h1 := (means_iff h0 h8 h.header).mp h
  have h2 := (means_iff h0 h8 h.header).mp h'
  rw [h1] at h2
  exact Res.ok.inj h2

theorem no_means (h0 : 0 < c.numSlots) (h8 : c.numSlots ≤ 8) {t : MsgType} (hh : rsp.take 2 = Wire.header t)
    (hp : (AnyMsg.parse c ⟨sizeFor digestSizes l.hash, sizeFor signatureSizes l.asym, false⟩ t (rsp.drop 2)).isOk = false) : ¬ ∃ m, Means c l rsp m := by
  rintro ⟨m, hm⟩
  rw [(means_iff h0 h8 hh).mp hm] at hp
  simp [Res.isOk] at hp

/-- The error of `expect`. -/
theorem expect_complaint {t : MsgType} : RErrIn (fun e => complaint e = .header ∧ rsp.take 2 ≠ Wire.header t) (Responder.expect t rsp) := by
  intro e he
  have hh : Wire.header t = [t.spdmVersion, t.spdmCode] := by cases t <;> rfl
  refine ⟨?_, fun h => ?_⟩
  · rcases expect_errs t rsp e he with rfl | ⟨x, g, rfl⟩ <;> rfl
  · by_cases h3 : 3 ≤ rsp.length
    · rw [expect_ok h3 h] at he; simp at he
    · unfold Responder.expect MsgType.parseHeader at he
      rw [if_pos (by omega)] at he
      simp at he

/-! ### The first failure -/

theorem Spec.FirstFailed.unique {ps : List (Prop × Complaint)} {k k' : Complaint} (h : FirstFailed ps k) (h' : FirstFailed ps k') : k = k' := by
  induction h with
  | here hn =>
    cases h' with
    | here => rfl
    | later hp _ => exact absurd hp hn
  | later hp _ ih =>
    cases h' with
    | here hn => exact absurd hp hn
    | later _ h => exact ih h

theorem Spec.FirstFailed.some_fails {ps : List (Prop × Complaint)} {k : Complaint} (h : FirstFailed ps k) : ∃ p ∈ ps, ¬ p.1 := by
  induction h with
  | here hn => exact ⟨_, List.mem_cons_self, hn⟩
  | later _ _ ih => obtain ⟨p, h1, h2⟩ := ih; exact ⟨p, List.mem_cons_of_mem _ h1, h2⟩

section order
variable {t : MsgType} (hd : responseHeader acc.length = Wire.header t) (hh : rsp.take 2 = Wire.header t)
include hd

theorem fails_header (h : rsp.take 2 ≠ Wire.header t) : FirstFailed (checks c cr root offer acc l cap rsp) .header := .here (by rw [hd]; exact h)

include hh

theorem fails_encoding (h : ¬ ∃ m, Means c l rsp m) : FirstFailed (checks c cr root offer acc l cap rsp) .encoding := .later (by rw [hd]; exact hh) (.here h)

theorem fails_version {v : Version} (hm : Means c l rsp (.version v)) (hv : ∀ e ∈ listed v, e ∉ supportedVersions) :
    FirstFailed (checks c cr root offer acc l cap rsp) .version :=
  .later (by rw [hd]; exact hh) (.later ⟨_, hm⟩ (.here fun h => by
    obtain ⟨e, h1, h2⟩ := h v hm
    exact hv e h1 h2))

theorem fails_selection {a : Algorithms} (hm : Means c l rsp (.algorithms a)) (ha : ¬ SelectedFrom offer a) : FirstFailed (checks c cr root offer acc l cap rsp) .selection :=
  .later (by rw [hd]; exact hh) (.later ⟨_, hm⟩ (.later (fun v hv => absurd ((hv.ty hm.header)) (by simp [AnyMsg.ty])) (.here fun h => ha (h a hm))))

/-- Lack of room, of a message other than CHALLENGE_AUTH. -/
theorem fails_room {m : AnyMsg} (hm : Means c l rsp m) (ht : t ≠ .challengeAuth) (hv : ∀ v, Means c l rsp (.version v) → ∃ e ∈ listed v, e ∈ supportedVersions)
    (ha : ∀ a, Means c l rsp (.algorithms a) → SelectedFrom offer a) (hr : cap < (l.add rsp).text.length) : FirstFailed (checks c cr root offer acc l cap rsp) .room := by
  have hc : ∀ m', ¬ Means c l rsp (.challengeAuth m') := fun m' h => ht (h.ty hh).symm
  exact .later (by rw [hd]; exact hh) (.later ⟨_, hm⟩ (.later hv (.later ha (.later (fun m' _ h => absurd h (hc m')) (.later (fun m' h => absurd h (hc m'))
    (.later (fun m' _ h => absurd h (hc m')) (.here (by omega))))))))

end order

/-! ### The handlers -/

theorem digestSize_errs {S : Err → Prop} (c : Cfg) (a : UInt32) : RErrIn S (BaseHashAlgo.getDigestSize c a) := by
  unfold BaseHashAlgo.getDigestSize BaseHashAlgo.checkedDigestSize
  exact .ite (.ite (.ok _) (.panic _)) (.ite (.ite (.ok _) (.panic _)) (.ite (.ite (.ok _) (.panic _)) (.panic _)))

theorem signatureSize_errs {S : Err → Prop} (c : Cfg) (a : UInt32) : RErrIn S (BaseAsymAlgo.getSignatureSize c a) := by
  unfold BaseAsymAlgo.getSignatureSize BaseAsymAlgo.checkedSignatureSize
  exact .ite (.ite (.ok _) (.panic _)) (.ite (.ite (.ok _) (.panic _)) (.ite (.ite (.ok _) (.panic _)) (.ite (.ite (.ok _) (.panic _)) (.ite (.ite (.ok _) (.panic _))
    (.ite (.ite (.ok _) (.panic _)) (.panic _))))))

theorem spdmToWebpki_errs {S : Err → Prop} (a : UInt32) : RErrIn S (Crypto.spdmToWebpki a) := by
  unfold Crypto.spdmToWebpki
  exact .ite (.ok _) (.ite (.ok _) (.panic _))

theorem sliceFrom_step {S : Err → Prop} {β : Type} {q : Bytes → M Requester β} (hq : ErrAt S (q (rsp.drop 2)) r) : ErrAt S (M.lift (sliceFrom rsp headerSize) >>= q) r :=
  .lift (.sliceFrom _ _) fun a ha => by
    obtain ⟨_, rfl⟩ := sliceFrom_inv ha
    exact hq

theorem extend_complaint {bs : Bytes} (hw : r.transcript.WF) :
    ErrAt (fun e => complaint e = .room ∧ r.transcript.buf.length < (r.transcript.get ++ bs).length) (Requester.extend bs) r := by
  intro e he
  rcases hx : Requester.extend bs r with ⟨x, r'⟩
  rw [hx] at he
  simp only at he
  subst he
  obtain ⟨_, h2⟩ := Requester.extend_fail hw hx rfl
  refine ⟨?_, by rw [List.length_append]; exact h2⟩
  unfold Requester.extend Transcript.extend at hx
  simp only at hx
  split at hx
  · simp only [Prod.mk.injEq, Res.err.injEq] at hx; rw [← hx.1]; rfl
  · simp at hx

theorem RErrIn.bind' {S : Err → Prop} {α β : Type} {x : Res α} {f : α → Res β} (hx : RErrIn S x) (hf : ∀ a, x = .ok a → RErrIn S (f a)) : RErrIn S (x >>= f) := by
  cases x with
  | ok a => exact hf a rfl
  | err e => intro e' h; exact hx e' (by simpa using h)
  | panic k => intro e' h; simp at h

theorem binToDer_errs {S : Err → Prop} (sig out : Bytes) : RErrIn S (Pki.binToDer sig out) := by
  have h1 : ∀ i, RErrIn S (Pki.getStartAndLength i) := by
    intro i
    unfold Pki.getStartAndLength
    split
    · exact .panic _
    · exact .bind (.index _ _) fun _ => .ok _
  have h2 : ∀ o f n, RErrIn S (Pki.writeDerLength o f n) := by
    intro o f n
    unfold Pki.writeDerLength
    exact .ite (.bind (.setIndex _ _ _) fun _ => .ok _) (.ite (.bind (.setIndex _ _ _) fun _ => .bind (.setIndex _ _ _) fun _ => .ok _)
      (.ite (.bind (.setIndex _ _ _) fun _ => .bind (.setIndex _ _ _) fun _ => .bind (.setIndex _ _ _) fun _ => .ok _) (.panic _)))
  have h3 : ∀ o f b, RErrIn S (Pki.copyAt o f b) := by intro o f b; unfold Pki.copyAt; exact .ite (.ok _) (.panic _)
  have h4 : ∀ o f b, RErrIn S (Pki.integerToDer o f b) := by
    intro o f b
    unfold Pki.integerToDer
    exact .bind (.index _ _) fun _ => .bind (.setIndex _ _ _) fun _ => .bind (h2 _ _ _) fun _ => .ite (.bind (.setIndex _ _ _) fun _ => .bind (h3 _ _ _) fun _ => .ok _)
      (.bind (h3 _ _ _) fun _ => .ok _)
  unfold Pki.binToDer
  exact .bind (h1 _) fun _ => .bind (h1 _) fun _ => .bind (.setIndex _ _ _) fun _ => .bind (h2 _ _ _) fun _ => .bind (h4 _ _ _) fun _ => .bind (h4 _ _ _) fun _ => .ok _

section handlers
variable (h0 : 0 < c.numSlots) (h8 : c.numSlots ≤ 8)
include h0 h8

/-- The common part of the handlers: header, sizes, parse. -/
theorem parse_step {β : Type} {S : Complaint → Prop} {t : MsgType} {α : Type} {x : Res α} {w : α → AnyMsg} {q : α → M Requester β}
    (hd : responseHeader acc.length = Wire.header t) (hh : rsp.take 2 = Wire.header t)
    (hS : ∀ k, FirstFailed (checks c cr root offer acc l cap rsp) k → S k)
    (hx : AnyMsg.parse c ⟨sizeFor digestSizes l.hash, sizeFor signatureSizes l.asym, false⟩ t (rsp.drop 2) = x.map w) (he : RErrIn Enc x)
    (hq : ∀ a, x = .ok a → Means c l rsp (w a) → ErrAt (fun e => S (complaint e)) (q a) r) : ErrAt (fun e => S (complaint e)) (M.lift x >>= q) r := by
  refine .lift (fun e hxe => ?_) fun a ha => hq a ha ?_
  · have h1 := he e hxe
    unfold Enc at h1
    rw [h1]
    refine hS _ (fails_encoding hd hh (no_means h0 h8 hh ?_))
    rw [hx, hxe]; rfl
  · rw [means_iff h0 h8 hh, hx, ha]; rfl

theorem version_rejected (hacc : acc.length = 0) (hw : r.transcript.WF) (hcap : r.transcript.buf.length = cap) (ht : r.transcript.get = l.text) :
    ErrAt (fun e => FirstFailed (checks c cr root offer acc l cap rsp) (complaint e)) (Requester.handle c cr .version rsp) r := by
  have hd : responseHeader acc.length = Wire.header .version := by rw [hacc]; rfl
  unfold Requester.handle
  refine .lift (fun e he => ?_) fun _ hx => ?_
  · obtain ⟨h1, h2⟩ := expect_complaint e he
    rw [h1]; exact fails_header hd h2
  obtain ⟨h3, hh⟩ := expect_ok_inv hx
  refine sliceFrom_step (parse_step (S := fun k => FirstFailed (checks c cr root offer acc l cap rsp) k) (w := .version) h0 h8 hd hh (fun _ h => h) rfl
    (fun e he => Version.read_enc _ e he) fun v hp hm => ?_)
  have hvw : VersionWF v := by
    obtain ⟨_, _, _, h⟩ := hm
    exact h.1
  obtain ⟨o, f1, f2, f3⟩ := findMax_run v (by have := hvw.len; have := hvw.num; omega)
  refine .lift (fun e he => by rw [f1] at he; simp at he) fun o' ho => ?_
  rw [f1, Res.ok.injEq] at ho
  subst ho
  cases o with
  | none => exact .fail (fails_version hd hh hm (f3 rfl))
  | some en =>
    refine .bind (fun e he => ?_) fun _ _ _ => .of (T := fun _ => False) (.pure _) (fun _ h => h.elim)
    obtain ⟨h1, h2⟩ := extend_complaint hw e he
    have hadd : l.add rsp = { l with text := l.text ++ rsp } := add_plain (code_of_header hh) (by decide)
    rw [h1]
    refine fails_room hd hh hm (by decide) (fun v' hv' => ?_) (fun a ha => absurd (ha.ty hh) (by simp [AnyMsg.ty])) ?_
    · have := hm.unique h0 h8 hv'
      cases this
      obtain ⟨h1, h2, _⟩ := f2 en rfl
      exact ⟨en, h1, h2⟩
    · rw [hadd, ← ht, ← hcap]; exact h2

theorem capabilities_rejected {v : VersionEntry} {ct : Option UInt8} {fl : Option UInt32} (hacc : acc.length = 1) (hw : r.transcript.WF) (hcap : r.transcript.buf.length = cap)
    (ht : r.transcript.get = l.text) :
    ErrAt (fun e => FirstFailed (checks c cr root offer acc l cap rsp) (complaint e)) (Requester.handle c cr (.capabilities v ct fl) rsp) r := by
  have hd : responseHeader acc.length = Wire.header .capabilities := by rw [hacc]; rfl
  unfold Requester.handle
  refine .lift (fun e he => ?_) fun _ hx => ?_
  · obtain ⟨h1, h2⟩ := expect_complaint e he
    rw [h1]; exact fails_header hd h2
  obtain ⟨h3, hh⟩ := expect_ok_inv hx
  refine sliceFrom_step (parse_step (S := fun k => FirstFailed (checks c cr root offer acc l cap rsp) k) (w := .capabilities) h0 h8 hd hh (fun _ h => h) rfl
    (fun e he => Capabilities.read_enc _ e he) fun m hp hm => ?_)
  refine .bind (fun e he => ?_) fun _ _ _ => .lift ?_ fun _ _ => .lift ?_ fun _ _ => .of (T := fun _ => False) (.pure _) (fun _ h => h.elim)
  · obtain ⟨h1, h2⟩ := extend_complaint hw e he
    have hadd : (l.add rsp).text = l.text ++ rsp := by
      have hc : code rsp = some 0x61 := code_of_header hh
      simp only [Log.add, hc]
    rw [h1]
    refine fails_room hd hh hm (by decide) (fun v' hv' => absurd (hv'.ty hh) (by simp [AnyMsg.ty])) (fun a ha => absurd (ha.ty hh) (by simp [AnyMsg.ty])) ?_
    rw [hadd, ← ht, ← hcap]; exact h2
  all_goals unfold Requester.unwrap; split <;> first | exact .ok _ | exact .panic _

theorem algorithms_rejected (ho : Requester.configToNegotiateAlgorithms c = .ok offer) {v : VersionEntry} {caps : Caps} {o : Option NegotiateAlgorithms} (hacc : acc.length = 2)
    (hof : ∀ m, o = some m → Requester.configToNegotiateAlgorithms c = .ok m)
    (hw : r.transcript.WF) (hcap : r.transcript.buf.length = cap) (ht : r.transcript.get = l.text) :
    ErrAt (fun e => FirstFailed (checks c cr root offer acc l cap rsp) (complaint e)) (Requester.handle c cr (.algorithms v caps o) rsp) r := by
  have hd : responseHeader acc.length = Wire.header .algorithms := by rw [hacc]; rfl
  unfold Requester.handle
  refine .lift (fun e he => ?_) fun _ hx => ?_
  · obtain ⟨h1, h2⟩ := expect_complaint e he
    rw [h1]; exact fails_header hd h2
  obtain ⟨h3, hh⟩ := expect_ok_inv hx
  refine sliceFrom_step (parse_step (S := fun k => FirstFailed (checks c cr root offer acc l cap rsp) k) (w := .algorithms) h0 h8 hd hh (fun _ h => h) rfl
    (fun e he => Algorithms.read_enc _ e he) fun a hp hm => ?_)
  have haw : AlgorithmsWF a := by
    obtain ⟨_, _, _, h⟩ := hm
    exact h.1
  refine .lift (fun e he => ?_) fun _ hv => ?_
  · have hk : complaint e = .selection := by
      cases o with
      | none => simp [Requester.ensureValidAlgorithmsSelected] at he
      | some q =>
        have hl : ∀ (reqs : List AlgorithmRequest) p n i, RErrIn (fun e => complaint e = .selection) (Requester.ensureResponseLoop reqs p n i) := by
          intro reqs p n
          induction n with
          | zero => intro i; exact .ok _
          | succ n ih => intro i; exact RErrIn.bind (.index _ _) fun _ => .ite (.err rfl) (ih _)
        have hl2 : ∀ rsps n i, RErrIn (fun e => complaint e = .selection) (Requester.ensureResponses q rsps n i) := by
          intro rsps n
          induction n with
          | zero => intro i; exact .ok _
          | succ n ih => intro i; exact RErrIn.bind (.index _ _) fun _ => RErrIn.bind (hl _ _ _ _) fun _ => ih _
        unfold Requester.ensureValidAlgorithmsSelected at he
        exact (RErrIn.ite (S := fun e => complaint e = .selection) (.err rfl) (.ite (.err rfl) (.ite (.err rfl) (.ite (.err rfl) (hl2 _ _ _))))) e he
    rw [hk]
    refine fails_selection hd hh hm fun hs => ?_
    cases o with
    | none => simp [Requester.ensureValidAlgorithmsSelected] at he
    | some q =>
      have h1 := hof q rfl
      rw [ho, Res.ok.injEq] at h1
      subst h1
      rw [selected_valid ho haw hs] at he
      simp at he
  · refine .bind (fun e he => ?_) fun _ _ _ => .of (T := fun _ => False) (.pure _) (fun _ h => h.elim)
    obtain ⟨h1, h2⟩ := extend_complaint hw e he
    have hadd : (l.add rsp).text = l.text ++ rsp := by
      have hc : code rsp = some 0x63 := code_of_header hh
      simp only [Log.add, hc]
    rw [h1]
    refine fails_room hd hh hm (by decide) (fun v' hv' => absurd (hv'.ty hh) (by simp [AnyMsg.ty])) (fun a' ha => ?_) ?_
    · have := hm.unique h0 h8 ha
      cases this
      cases o with
      | none => simp [Requester.ensureValidAlgorithmsSelected] at hv
      | some q =>
        have h1 := hof q rfl
        obtain ⟨o', g1, g2⟩ := algOf_selected (c := c) ⟨hh, hp, haw, q, h1, hv⟩
        rw [ho, Res.ok.injEq] at g1
        subst g1
        exact g2
    · rw [hadd, ← ht, ← hcap]; exact h2

theorem digests_rejected {v : VersionEntry} {caps : Caps} {a : Algorithms} (hacc : acc.length = 3) (hwd : Words l caps a)
    (hw : r.transcript.WF) (hcap : r.transcript.buf.length = cap) (ht : r.transcript.get = l.text) :
    ErrAt (fun e => FirstFailed (checks c cr root offer acc l cap rsp) (complaint e)) (Requester.handle c cr (.idAuth v caps a none) rsp) r := by
  have hd : responseHeader acc.length = Wire.header .digests := by rw [hacc]; rfl
  unfold Requester.handle
  refine .lift (fun e he => ?_) fun _ hx => ?_
  · obtain ⟨h1, h2⟩ := expect_complaint e he
    rw [h1]; exact fails_header hd h2
  obtain ⟨h3, hh⟩ := expect_ok_inv hx
  refine .lift (digestSize_errs _ _) fun size hsz => ?_
  have hz : sizeFor digestSizes l.hash = size := by rw [hwd.hash]; exact getDigestSize_sizeFor hsz
  subst hz
  refine sliceFrom_step (parse_step (S := fun k => FirstFailed (checks c cr root offer acc l cap rsp) k) (w := .digests) h0 h8 hd hh (fun _ h => h) rfl
    (fun e he => Digests.read_enc _ _ _ e he) fun m hp hm => ?_)
  refine .bind (fun e he => ?_) fun _ _ _ => .of (T := fun _ => False) (.pure _) (fun _ h => h.elim)
  obtain ⟨h1, h2⟩ := extend_complaint hw e he
  have hadd : l.add rsp = { l with text := l.text ++ rsp } := add_plain (code_of_header hh) (by decide)
  rw [h1]
  refine fails_room hd hh hm (by decide) (fun v' hv' => absurd (hv'.ty hh) (by simp [AnyMsg.ty])) (fun a ha => absurd (ha.ty hh) (by simp [AnyMsg.ty])) ?_
  rw [hadd, ← ht, ← hcap]; exact h2

theorem certificate_rejected {v : VersionEntry} {caps : Caps} {a : Algorithms} {d : Digests} (hacc : acc.length = 4)
    (hw : r.transcript.WF) (hcap : r.transcript.buf.length = cap) (ht : r.transcript.get = l.text) :
    ErrAt (fun e => FirstFailed (checks c cr root offer acc l cap rsp) (complaint e)) (Requester.handle c cr (.idAuth v caps a (some d)) rsp) r := by
  have hd : responseHeader acc.length = Wire.header .certificate := by rw [hacc]; rfl
  unfold Requester.handle
  refine .lift (fun e he => ?_) fun _ hx => ?_
  · obtain ⟨h1, h2⟩ := expect_complaint e he
    rw [h1]; exact fails_header hd h2
  obtain ⟨h3, hh⟩ := expect_ok_inv hx
  refine sliceFrom_step (parse_step (S := fun k => FirstFailed (checks c cr root offer acc l cap rsp) k) (w := .certificate) h0 h8 hd hh (fun _ h => h) rfl
    (fun e he => Certificate.read_enc _ _ e he) fun m hp hm => ?_)
  refine .bind (fun e he => ?_) fun _ _ _ => .of (T := fun _ => False) (.pure _) (fun _ h => h.elim)
  obtain ⟨h1, h2⟩ := extend_complaint hw e he
  have hadd : l.add rsp = { l with text := l.text ++ rsp } := add_plain (code_of_header hh) (by decide)
  rw [h1]
  refine fails_room hd hh hm (by decide) (fun v' hv' => absurd (hv'.ty hh) (by simp [AnyMsg.ty])) (fun a ha => absurd (ha.ty hh) (by simp [AnyMsg.ty])) ?_
  rw [hadd, ← ht, ← hcap]; exact h2

omit h0 h8 in
/-- The checks of the chain and the signature. -/
theorem verify_rejected {s : ReqChallenge} {cert : Bytes} {m : ChallengeAuth} {text : Bytes} {S : Complaint → Prop} (hp : c.provider = true)
    (hch : s.certChain.take s.certChainSize.toNat = carriedChain cert) (hal : UInt32.ofNat l.asym = s.algorithms.baseAsymAlgoSelected)
    (h1 : (¬ ∃ chain, Carries c l cert chain) → S .encoding)
    (h2 : ∀ chain, Carries c l cert chain → ¬ (cr.certOk chain.leafCert = true ∧ cr.anchorOk root = true ∧
      cr.chainOk chain.leafCert (UInt32.ofNat l.asym) root chain.intermediateCerts 1638316800 = true) → S .trust)
    (h3 : ∀ chain der, Carries c l cert chain → cr.certOk chain.leafCert = true ∧ cr.anchorOk root = true ∧
      cr.chainOk chain.leafCert (UInt32.ofNat l.asym) root chain.intermediateCerts 1638316800 = true → IsDerSignature der (rawR m.signature) (rawS m.signature) →
      ¬ cr.sigOk chain.leafCert (UInt32.ofNat l.asym) text der = true → S .signature) :
    RErrIn (fun e => S (complaint e)) (Requester.verifyCertChainAndSignature c cr s (sizeFor digestSizes l.hash) text m.signature root) := by
  unfold Requester.verifyCertChainAndSignature
  refine .bind' (.sliceTo _ _) fun cb hcb => ?_
  obtain ⟨_, rfl⟩ := sliceTo_inv hcb
  refine .bind' (fun e he => ?_) fun chain hc => ?_
  · have hk : complaint e = .encoding := by
      have := CertificateChain.read_enc c _ (sizeFor digestSizes l.hash) _ e he
      exact this
    rw [hk]
    refine h1 ?_
    rintro ⟨chain, cw, hcc⟩
    rw [hch, hcc, CertificateChain.parse_chain cw] at he
    simp at he
  obtain ⟨cw, hw⟩ := CertificateChain.parse_inv hc
  have hcar : Carries c l cert chain := ⟨cw, by rw [← hch]; exact hw⟩
  have ht := h2 chain hcar
  unfold Crypto.newEndEntityCert
  simp only [hp, Bool.true_eq_false, false_or]
  by_cases hleaf : cr.certOk chain.leafCert = true
  swap
  · rw [if_neg hleaf]
    exact .bind' (.err (ht fun h => hleaf h.1)) fun _ h => by simp at h
  rw [if_pos hleaf]
  simp only [Res.ok_bind]
  unfold Crypto.verifyChainOfTrust
  simp only [hp, Bool.true_eq_false, if_false]
  by_cases hroot : cr.anchorOk root = true
  swap
  · rw [if_neg hroot]
    exact .bind' (.err (ht fun h => hroot h.2.1)) fun _ h => by simp at h
  rw [if_pos hroot]
  rcases hwp : Crypto.spdmToWebpki s.algorithms.baseAsymAlgoSelected with al | e | k
  rotate_left
  · exact absurd hwp (fun h => spdmToWebpki_errs (S := fun _ => False) _ e h)
  · intro e he; simp at he
  obtain ⟨rfl, _⟩ := spdmToWebpki_inv hwp
  simp only [Res.ok_bind]
  rw [← hal]
  by_cases htr : cr.chainOk chain.leafCert (UInt32.ofNat l.asym) root chain.intermediateCerts Requester.unixTime = true
  swap
  · rw [if_neg htr]
    exact .bind' (.err (ht fun h => htr h.2.2)) fun _ h => by simp at h
  simp only [htr, if_true, Res.ok_bind]
  unfold Crypto.verifySignature
  simp only [hp, Bool.true_eq_false, if_false, hal, hwp, Res.ok_bind]
  refine .bind' (.bind (binToDer_errs _ _) fun _ => .bind (.sliceTo _ _) fun _ => .ok _) fun ok hok => ?_
  cases ok with
  | true => exact .ok _
  | false =>
    obtain ⟨⟨out, n⟩, e8, hok⟩ := res_bind_ok hok
    obtain ⟨der, e9, hok⟩ := res_bind_ok hok
    obtain ⟨hn, rfl⟩ := sliceTo_inv e9
    simp only [Res.pure_eq, Res.ok.injEq] at hok
    refine .err (h3 chain (out.take n) hcar ⟨hleaf, hroot, htr⟩ (binToDer_inv e8).2 ?_)
    rw [hal]; simp [hok]

theorem challenge_rejected {s : ReqChallenge} {m0 m1 m2 m3 cert : Bytes} {ct : Certificate} {ctail : Bytes} (hwd : Words l s.caps s.algorithms)
    (h4 : cert = Wire.header .certificate ++ Wire.certificate ct ++ ctail) (hcw : CertificateWF c ct)
    (hs : s.certSlot = ct.slot) (hc : s.certChain = ct.certChain) (hz : s.certChainSize = ct.portionLength)
    (hroot : r.rootCert = root) (hw : r.transcript.WF) (hcap : r.transcript.buf.length = cap) (ht : r.transcript.get = l.text) :
    ErrAt (fun e => FirstFailed (checks c cr root offer [m0, m1, m2, m3, cert] l cap rsp) (complaint e)) (Requester.challengeHandle c cr s rsp) r := by
  have hd : responseHeader ([m0, m1, m2, m3, cert] : List Bytes).length = Wire.header .challengeAuth := rfl
  have hhl : UInt32.ofNat l.hash = s.algorithms.baseHashAlgoSelected := ofNat_toNat32 hwd.hash
  have hal : UInt32.ofNat l.asym = s.algorithms.baseAsymAlgoSelected := ofNat_toNat32 hwd.asym
  have hcarr : s.certChain.take s.certChainSize.toNat = carriedChain cert := by rw [h4, served_chain hcw, hc, hz]
  have hslot : cert[2]? = some s.certSlot := by rw [h4, hs]; simp [Wire.header, Wire.certificate]
  unfold Requester.challengeHandle
  refine .lift (fun e he => ?_) fun _ hx => ?_
  · obtain ⟨h1, h2⟩ := expect_complaint e he
    rw [h1]; exact fails_header hd h2
  obtain ⟨h3, hh⟩ := expect_ok_inv hx
  refine .lift (digestSize_errs _ _) fun ds hds => .lift (signatureSize_errs _ _) fun ss hss => ?_
  have hds' : sizeFor digestSizes l.hash = ds := by rw [hwd.hash]; exact getDigestSize_sizeFor hds
  have hss' : sizeFor signatureSizes l.asym = ss := by rw [hwd.asym]; exact getSignatureSize_sizeFor hss
  subst hds' hss'
  refine sliceFrom_step (parse_step (S := fun k => FirstFailed (checks c cr root offer _ l cap rsp) k) (w := .challengeAuth) h0 h8 hd hh (fun _ h => h) rfl
    (fun e he => ChallengeAuth.read_enc _ _ _ _ e he) fun m hp hm => ?_)
  -- the checks passed so far
  have pre : ∀ {k}, FirstFailed ((checks c cr root offer [m0, m1, m2, m3, cert] l cap rsp).drop 4) k → FirstFailed (checks c cr root offer [m0, m1, m2, m3, cert] l cap rsp) k :=
    fun h => .later (by rw [hd]; exact hh) (.later ⟨_, hm⟩ (.later (fun v hv => absurd (hv.ty hh) (by simp [AnyMsg.ty]))
      (.later (fun v hv => absurd (hv.ty hh) (by simp [AnyMsg.ty])) h)))
  have uniq : ∀ {m'}, Means c l rsp (.challengeAuth m') → m' = m := fun h => by
    have := h.unique h0 h8 hm
    cases this; rfl
  have hm15 : m.slot ≠ 0x0F := by
    intro h15
    obtain ⟨_, _, _, _, _, _, _, hle, _⟩ := hm
    rw [h15] at hle
    simp at hle
    omega
  refine .lift (fun e he => ?_) fun _ hcs => ?_
  · unfold Requester.checkSlot at he
    by_cases hne : m.slot ≠ s.certSlot
    · rw [if_pos hne] at he
      simp only [Res.err.injEq] at he
      rw [← he]
      refine pre (.here fun h => hne ?_)
      have := h m cert hm rfl
      rw [hslot] at this
      simpa using this.symm
    · have heq := hne
      rw [if_neg heq, if_pos hm15] at he
      rcases hb : Requester.slotBit m.slot with b | b | b <;> rw [hb] at he
      · simp only [Res.ok_bind] at he
        split at he
        · rename_i hzero
          simp only [Res.err.injEq] at he
          rw [← he]
          have h8' : m.slot.toNat < 8 ∧ b = UInt8.ofNat (2 ^ m.slot.toNat) := by
            unfold Requester.slotBit at hb
            split at hb
            · rename_i h; simp only [Res.ok.injEq] at hb; exact ⟨h, hb.symm⟩
            · simp at hb
          refine pre (.later (fun m' cert' hm' hcert' => ?_) (.here fun h => ?_))
          · cases uniq hm'
            simp only [List.getElem?_cons_succ, List.getElem?_cons_zero, Option.some.injEq] at hcert'
            subst hcert'
            rw [hslot, not_not.mp heq]
          · have h9 := congrArg UInt8.toNat hzero
            have h2p : 2 ^ m.slot.toNat < 2 ^ 8 := Nat.pow_lt_pow_right (by omega) h8'.1
            rw [h8'.2, UInt8.toNat_and, UInt8.toNat_ofNat_of_lt' (by simpa [UInt8.size] using h2p)] at h9
            exact (and_pow_ne m.slotMask.toNat m.slot.toNat).mpr (h m hm) (by simpa using h9)
        · simp at he
      · unfold Requester.slotBit at hb; split at hb <;> simp at hb
      · simp at he
  obtain ⟨c1, c2⟩ := checkSlot_inv hcs
  have pslot : ∀ m' cert', Means c l rsp (.challengeAuth m') → ([m0, m1, m2, m3, cert] : List Bytes)[4]? = some cert' → cert'[2]? = some m'.slot := by
    intro m' cert' hm' hcert'
    cases uniq hm'
    simp only [List.getElem?_cons_succ, List.getElem?_cons_zero, Option.some.injEq] at hcert'
    subst hcert'
    rw [hslot, c1]
  have pmask : ∀ m', Means c l rsp (.challengeAuth m') → m'.slotMask.toNat.testBit m'.slot.toNat = true := by
    intro m' hm'
    cases uniq hm'
    exact (c2 hm15).2
  refine .lift (.sliceTo _ _) fun cb hcb => ?_
  obtain ⟨_, rfl⟩ := sliceTo_inv hcb
  refine .lift (digest_errs _ _ _ _) fun dg hdg => ?_
  obtain ⟨hring, rfl, _, prov⟩ := digest_inv hdg
  split
  · rename_i hne
    refine .fail (pre (.later pslot (.later pmask (.here fun h => hne ?_))))
    rw [h m cert hm rfl, hhl, hcarr]
  rename_i heq
  have pdig : ∀ m' cert', Means c l rsp (.challengeAuth m') → ([m0, m1, m2, m3, cert] : List Bytes)[4]? = some cert' → m'.certChainHash = cr.hash (UInt32.ofNat l.hash) (carriedChain cert') := by
    intro m' cert' hm' hcert'
    cases uniq hm'
    simp only [List.getElem?_cons_succ, List.getElem?_cons_zero, Option.some.injEq] at hcert'
    subst hcert'
    rw [not_not.mp heq, hhl, hcarr]
  refine .lift (by unfold Responder.subChecked; exact .ite (.ok _) (.panic _)) fun st hst => ?_
  obtain ⟨_, rfl⟩ := subChecked_inv hst
  refine .lift (.sliceTo _ _) fun m2 hm2 => ?_
  obtain ⟨_, rfl⟩ := sliceTo_inv hm2
  have hadd : (l.add rsp).text = l.text ++ rsp.take (rsp.length - sizeFor signatureSizes l.asym) := by
    have hc : code rsp = some 0x03 := code_of_header hh
    simp only [Log.add, hc]
  refine .bind (fun e he => ?_) fun _ r' hr' => ?_
  · obtain ⟨h1, h2⟩ := extend_complaint hw e he
    rw [h1]
    refine pre (.later pslot (.later pmask (.later pdig (.here ?_))))
    rw [hadd, ← ht, ← hcap]; omega
  obtain ⟨g1, g2, _⟩ := Requester.extend_inv hw hr'
  have hfit : (l.add rsp).text.length ≤ cap := by
    rw [hadd, ← ht, ← g2, ← hcap, ← g1.cap]
    have h9 : r'.transcript.offset ≤ r'.transcript.buf.length := g1.wf
    simp [Transcript.get]
  refine .bind (x := M.get) (fun e he => by simp [M.get] at he) fun r'' r3 hr3 => ?_
  have : r'' = r' ∧ r3 = r' := by
    simp only [M.get, Prod.mk.injEq, Res.ok.injEq] at hr3
    exact ⟨hr3.1.symm, hr3.2.symm⟩
  rw [this.1, this.2]
  refine .lift (digest_errs _ _ _ _) fun dg hdg' => ?_
  obtain ⟨_, rfl, _, _⟩ := digest_inv hdg'
  have pre2 : ∀ {k}, FirstFailed ((checks c cr root offer [m0, m1, m2, m3, cert] l cap rsp).drop 8) k → FirstFailed (checks c cr root offer [m0, m1, m2, m3, cert] l cap rsp) k :=
    fun h => pre (.later pslot (.later pmask (.later pdig (.later hfit h))))
  have mem : ∀ {cert'}, ([m0, m1, m2, m3, cert] : List Bytes)[4]? = some cert' → cert' = cert := fun h => by simpa using h.symm
  have cuniq : ∀ {x y}, Carries c l cert x → Carries c l cert y → x = y := by
    intro x y hx hy
    have h1 := CertificateChain.parse_chain hx.1
    rw [← hx.2, hy.2, CertificateChain.parse_chain hy.1] at h1
    exact (Res.ok.inj h1).symm
  rw [g1.root, hroot]
  have hv := verify_rejected (cr := cr) (root := root) (m := m) (text := cr.hash s.algorithms.baseHashAlgoSelected r'.transcript.get)
    (S := fun k => FirstFailed (checks c cr root offer [m0, m1, m2, m3, cert] l cap rsp) k) prov hcarr hal
    (fun hn => pre2 (.here fun h => hn (h m cert hm rfl)))
    (fun chain hcar hn => pre2 (.later (fun m' cert' hm' hc' => by cases mem hc'; exact ⟨chain, hcar⟩) (.here fun h => hn (h m cert chain hm rfl hcar))))
    (fun chain der hcar htr hder hn => pre2 (.later (fun m' cert' hm' hc' => by cases mem hc'; exact ⟨chain, hcar⟩)
      (.later (fun m' cert' chain' hm' hc' hcar' => by cases mem hc'; cases cuniq hcar hcar'; exact htr)
        (.here fun h => hn (by
          have := h m cert chain der hm rfl hcar hder
          rwa [hhl, hadd, ← ht, ← g2] at this)))))
  intro e he
  rw [M.run_lift] at he
  exact hv e he

theorem handle_rejected {st : ReqState} (ho : Requester.configToNegotiateAlgorithms c = .ok offer) (hmat : StMatch c acc l st)
    (hroot : r.rootCert = root) (hw : r.transcript.WF) (hcap : r.transcript.buf.length = cap) (ht : r.transcript.get = l.text) :
    ErrAt (fun e => FirstFailed (checks c cr root offer acc l cap rsp) (complaint e)) (Requester.handle c cr st rsp) r := by
  cases hmat with
  | version => exact version_rejected h0 h8 rfl hw hcap ht
  | capabilities => exact capabilities_rejected h0 h8 rfl hw hcap ht
  | algorithms _ _ _ _ hof => exact algorithms_rejected h0 h8 ho rfl hof hw hcap ht
  | digests _ _ _ hwd => exact digests_rejected h0 h8 rfl hwd hw hcap ht
  | certificate => exact certificate_rejected h0 h8 rfl hw hcap ht
  | challenge _ _ _ hwd _ _ _ h4 hcw hs hc hz =>
    unfold Requester.handle
    exact .bind (challenge_rejected h0 h8 hwd h4 hcw hs hc hz hroot hw hcap ht) fun _ _ _ => .of (T := fun _ => False) (.pure _) (fun _ h => h.elim)
  | done => exact fun e he => by simp [Requester.handle, M.die] at he

end handlers

/-- **C88** A response that a requester refuses gets the error of the first check it fails. -/
theorem c88_reason (h0 : 0 < c.numSlots) (h8 : c.numSlots ≤ 8) (ho : Requester.configToNegotiateAlgorithms c = .ok offer) (h : ReqRun c cr root es r) (hf : failed es = false)
    {e : Err} (he : (Requester.handleMsg c cr rsp r).1 = .err e) :
    FirstFailed (checks c cr root offer (accepted es) (conversation (reqMsgs es)) c.transcriptSize rsp) (complaint e) := by
  obtain ⟨st, hl⟩ := req_live' h hf
  unfold Requester.handleMsg at he
  rw [hl.state] at he
  simp only at he
  have key := handle_rejected (r := { r with state := none }) (cr := cr) (rsp := rsp) h0 h8 ho hl.mat hl.root hl.wf hl.cap hl.text
  rcases hx : Requester.handle c cr st rsp { r with state := none } with ⟨x | x | x, r'⟩
  · rw [hx] at he; simp at he
  · rw [hx] at he
    simp only [Res.err.injEq] at he
    rw [← he]
    exact key x (by rw [hx])
  · rw [hx] at he; simp at he

/-! ### Acceptable responses pass every check -/

theorem passes_plain {m : AnyMsg} (hd : responseHeader acc.length = Wire.header m.ty) (hm : Means c l rsp m) (ht : m.ty ≠ .challengeAuth)
    (hv : ∀ v, Means c l rsp (.version v) → ∃ e ∈ listed v, e ∈ supportedVersions) (ha : ∀ a, Means c l rsp (.algorithms a) → SelectedFrom offer a)
    (hr : (l.add rsp).text.length ≤ cap) : ∀ p ∈ checks c cr root offer acc l cap rsp, p.1 := by
  have hc : ∀ m', ¬ Means c l rsp (.challengeAuth m') := fun m' h => ht (h.ty hm.header).symm
  intro p hp
  simp only [checks, List.mem_cons, List.not_mem_nil, or_false] at hp
  rcases hp with rfl | rfl | rfl | rfl | rfl | rfl | rfl | rfl | rfl | rfl | rfl
  · simp only; rw [hd]; exact hm.header
  · exact ⟨_, hm⟩
  · exact hv
  · exact ha
  · exact fun m' _ h => absurd h (hc m')
  · exact fun m' h => absurd h (hc m')
  · exact fun m' _ h => absurd h (hc m')
  · exact hr
  · exact fun m' _ h => absurd h (hc m')
  · exact fun m' _ _ h => absurd h (hc m')
  · exact fun m' _ _ _ h => absurd h (hc m')

theorem certificate_bytes {slot : UInt8} {portion tail : Bytes} {rem : Nat} (h16 : portion.length < 2 ^ 16) :
    carriedChain ([0x11, 0x02, slot, 0] ++ Spec.le 2 portion.length ++ Spec.le 2 rem ++ portion ++ tail) = portion := by
  unfold carriedChain
  have h8 : ([0x11, 0x02, slot, 0] ++ Spec.le 2 portion.length ++ Spec.le 2 rem ++ portion ++ tail : Bytes) =
      ([0x11, 0x02, slot, 0] : Bytes) ++ Spec.le 2 portion.length ++ (Spec.le 2 rem ++ portion ++ tail) := by simp
  rw [h8, field_at (i := 4) rfl (le_length _ _), leVal_two _ h16]
  simp [Spec.le, List.range_succ]

theorem acceptable_passes (h0 : 0 < c.numSlots) (h8 : c.numSlots ≤ 8) {b : Bool} (h : Acceptable c cr root offer acc l rsp b) (hr : (l.add rsp).text.length ≤ cap) :
    ∀ p ∈ checks c cr root offer acc l cap rsp, p.1 := by
  have other : ∀ {m m' : AnyMsg}, Means c l rsp m → Means c l rsp m' → m.ty = m'.ty := fun h h' => h.ty h'.header
  cases h with
  | @version _ v bs tail hd hv =>
    have hm : Means c l ([0x10, 0x04] ++ bs ++ tail) (.version v) := ⟨bs, tail, rfl, hd⟩
    refine passes_plain rfl hm (by simp [AnyMsg.ty]) (fun v' hv' => ?_) (fun a ha => absurd (other hm ha) (by simp [AnyMsg.ty])) hr
    have := hm.unique h0 h8 hv'
    cases this; exact hv
  | @capabilities _ m0 tail m hm' =>
    have hm : Means c l ([0x11, 0x61] ++ Wire.capabilities m ++ tail) (.capabilities m) := ⟨_, tail, rfl, hm', rfl⟩
    exact passes_plain rfl hm (by simp [AnyMsg.ty]) (fun v hv => absurd (other hm hv) (by simp [AnyMsg.ty])) (fun a ha => absurd (other hm ha) (by simp [AnyMsg.ty])) hr
  | @algorithms _ m0 m1 bs tail a hd hs =>
    have hm : Means c l ([0x11, 0x63] ++ bs ++ tail) (.algorithms a) := ⟨bs, tail, rfl, hd⟩
    refine passes_plain rfl hm (by simp [AnyMsg.ty]) (fun v hv => absurd (other hm hv) (by simp [AnyMsg.ty])) (fun a' ha => ?_) hr
    have := hm.unique h0 h8 ha
    cases this; exact hs
  | @digests _ m0 m1 m2 bs tail d hz hd =>
    have hm : Means c l ([0x11, 0x01] ++ bs ++ tail) (.digests d) := ⟨bs, tail, rfl, hd⟩
    exact passes_plain rfl hm (by simp [AnyMsg.ty]) (fun v hv => absurd (other hm hv) (by simp [AnyMsg.ty])) (fun a ha => absurd (other hm ha) (by simp [AnyMsg.ty])) hr
  | @certificate _ m0 m1 m2 m3 tail portion slot remainder hp h16 hrem =>
    have hp16 : (UInt16.ofNat portion.length).toNat = portion.length := ofNat_toNat16 (by omega)
    have hr16 : (UInt16.ofNat remainder).toNat = remainder := ofNat_toNat16 (by omega)
    have hcw : CertificateWF c ⟨slot, UInt16.ofNat portion.length, UInt16.ofNat remainder, portion ++ zeros (c.maxCertChainSize - portion.length)⟩ :=
      ⟨by simp [zeros]; omega, by rw [hp16]; exact hp, by rw [hp16]; simp⟩
    have hwire : Wire.certificate ⟨slot, UInt16.ofNat portion.length, UInt16.ofNat remainder, portion ++ zeros (c.maxCertChainSize - portion.length)⟩ =
        [slot, 0] ++ le 2 portion.length ++ le 2 remainder ++ portion := by
      simp only [Wire.certificate, hp16, hr16]
      rw [List.take_left' rfl]
      simp [zeros]
    have hm : Means c l ([0x11, 0x02, slot, 0] ++ le 2 portion.length ++ le 2 remainder ++ portion ++ tail) (.certificate _) :=
      ⟨Wire.certificate _, tail, by rw [hwire]; simp [Wire.header, AnyMsg.ty], hcw, rfl⟩
    exact passes_plain rfl hm (by simp [AnyMsg.ty]) (fun v hv => absurd (other hm hv) (by simp [AnyMsg.ty])) (fun a ha => absurd (other hm ha) (by simp [AnyMsg.ty])) hr
  | @auth _ m0 m1 m2 m3 cert bs tail tail' slot rem chain m der hcert hchain hds hss ha hd hslot hmask hh hash hm2 leaf anchor trust hder sig =>
    have hm : Means c l ([0x11, 0x03] ++ bs ++ tail) (.challengeAuth m) := ⟨bs, tail, rfl, hd⟩
    have uniq : ∀ {m'}, Means c l ([0x11, 0x03] ++ bs ++ tail) (.challengeAuth m') → m' = m := fun h => by
      have := h.unique h0 h8 hm
      cases this; rfl
    have mem : ∀ {cert'}, ([m0, m1, m2, m3, cert] : List Bytes)[4]? = some cert' → cert' = cert := fun h => by simpa using h.symm
    have hcarr : carriedChain cert = Wire.chain chain := by
      rw [hcert]
      refine certificate_bytes ?_
      have := hchain.size
      have h7 : (Wire.chain chain).length = 4 + (chain.rootHash ++ chain.intermediateCerts.flatten ++ chain.leafCert).length := by simp [Wire.chain, zeros, le_length]; omega
      omega
    have hcar : Carries c l cert chain := ⟨hchain, hcarr⟩
    have cuniq : ∀ {y}, Carries c l cert y → y = chain := by
      intro y hy
      have h1 := CertificateChain.parse_chain hy.1
      rw [← hy.2, hcarr, CertificateChain.parse_chain hchain] at h1
      exact (Res.ok.inj h1).symm
    have hadd : (l.add ([0x11, 0x03] ++ bs ++ tail)).text = l.text ++ ([0x11, 0x03] ++ bs ++ tail).take (([0x11, 0x03] ++ bs ++ tail).length - sizeFor signatureSizes l.asym) := by
      have hc3 : Spec.code ([0x11, 0x03] ++ bs ++ tail) = some 0x03 := rfl
      simp only [Log.add, hc3]
    intro p hp
    simp only [checks, List.mem_cons, List.not_mem_nil, or_false] at hp
    rcases hp with rfl | rfl | rfl | rfl | rfl | rfl | rfl | rfl | rfl | rfl | rfl
    · rfl
    · exact ⟨_, hm⟩
    · exact fun v hv => absurd (other hm hv) (by simp [AnyMsg.ty])
    · exact fun a ha => absurd (other hm ha) (by simp [AnyMsg.ty])
    · intro m' cert' hm' hc'
      cases uniq hm'; cases mem hc'
      rw [hcert, hslot]; rfl
    · intro m' hm'
      cases uniq hm'; exact hmask.2
    · intro m' cert' hm' hc'
      cases uniq hm'; cases mem hc'
      rw [hcarr]; exact hash
    · exact hr
    · intro m' cert' hm' hc'
      cases mem hc'
      exact ⟨chain, hcar⟩
    · intro m' cert' chain' hm' hc' hcar'
      cases mem hc'; cases cuniq hcar'
      exact ⟨leaf, anchor, trust⟩
    · intro m' cert' chain' der' hm' hc' hcar' hder'
      cases uniq hm'; cases mem hc'; cases cuniq hcar'; cases c51_der_canonical hder hder'
      simp only [hadd]
      exact sig

/-- **C88** A requester refuses a response with a given complaint exactly if that is the complaint of the first check the response fails, and the call does not abort. -/
theorem c88_iff (h0 : 0 < c.numSlots) (h8 : c.numSlots ≤ 8) (henc : EncoderFits c) (ho : Requester.configToNegotiateAlgorithms c = .ok offer) (h : ReqRun c cr root es r)
    (hf : failed es = false) (rsp : Bytes) (k : Complaint) :
    (∃ e, (Requester.handleMsg c cr rsp r).1 = .err e ∧ complaint e = k) ↔
      FirstFailed (checks c cr root offer (accepted es) (conversation (reqMsgs es)) c.transcriptSize rsp) k ∧
        ¬ ResponseAborts c cr root (pending es) (offerMade es) (accepted es) (conversation (reqMsgs es)) rsp := by
  have hab := c84_aborts_iff (rsp := rsp) h0 h8 henc ho h hf
  constructor
  · rintro ⟨e, he, rfl⟩
    refine ⟨c88_reason h0 h8 ho h hf he, fun hb => ?_⟩
    obtain ⟨k, hk⟩ := hab.mpr hb
    rw [he] at hk
    simp at hk
  · rintro ⟨hk, hn⟩
    rcases hx : (Requester.handleMsg c cr rsp r).1 with b | e | p
    · obtain ⟨_, st, st', hl, rfl, hrecv, hl'⟩ := req_recv h hx
      have hacc := recv_acceptable h0 h8 ho hl.mat hrecv
      obtain ⟨p, hp, hnp⟩ := hk.some_fails
      refine absurd (acceptable_passes h0 h8 hacc ?_ p hp) hnp
      rw [← (recv_match hl.mat hrecv).1, Transcript.get_length hl'.wf, ← hl'.cap]
      exact hl'.wf
    · exact ⟨e, rfl, (c88_reason h0 h8 ho h hf hx).unique hk⟩
    · exact absurd (hab.mp ⟨p, hx⟩) hn

/-- C88 for every configuration the build accepts. -/
theorem c88_built_iff {crypto : Bool} {i : SpdmConfig} {nonceSize : Nat} (hv : ValidConfig crypto i) (hb : Built crypto i nonceSize c) (h : ReqRun c cr root es r)
    (hf : failed es = false) (rsp : Bytes) (k : Complaint) :
    (∃ e, (Requester.handleMsg c cr rsp r).1 = .err e ∧ complaint e = k) ↔
      FirstFailed (checks c cr root (builtOffer crypto i) (accepted es) (conversation (reqMsgs es)) i.transcriptBufSize rsp) k ∧
        ¬ ResponseAborts c cr root (pending es) (offerMade es) (accepted es) (conversation (reqMsgs es)) rsp := by
  rw [← hb.transcriptSize]
  exact c88_iff (by rw [hb.numSlots]; exact hv.slots.1) (by rw [hb.numSlots]; exact hv.slots.2) (by unfold EncoderFits; rw [hb.maxSignatureSize]; decide) (built_offer hv hb) h hf rsp k

/-! ### C88 at work in the demo session: each complaint occurs -/

/-- The checks of `rsp` for the requester of the demo session after its first `n` calls. -/
def demoChecks (cr : Crypto) (n : Nat) (rsp : Bytes) : List (Prop × Complaint) :=
  checks demoCfg cr [1, 2, 3] (builtOffer true { cryptoToml with asymmetricSigning := ["ECDSA_ECC_NIST_P256"] }) (accepted (reqBehaviour demoCfg cr (Requester.new demoCfg [1, 2, 3]) (demoReqCalls n)))
    (conversation (reqMsgs (reqBehaviour demoCfg cr (Requester.new demoCfg [1, 2, 3]) (demoReqCalls n)))) demoCfg.transcriptSize rsp

theorem demo_reason (cr : Crypto) (n : Nat) (rsp : Bytes) {k : Complaint} (hf : failed (reqBehaviour demoCfg cr (Requester.new demoCfg [1, 2, 3]) (demoReqCalls n)) = false)
    (he : (match (Requester.handleMsg demoCfg cr rsp (reqAfter demoCfg cr (Requester.new demoCfg [1, 2, 3]) (demoReqCalls n))).1 with
      | .err e => some (complaint e)
      | _ => none) = some k) : FirstFailed (demoChecks cr n rsp) k := by
  rcases hx : (Requester.handleMsg demoCfg cr rsp (reqAfter demoCfg cr (Requester.new demoCfg [1, 2, 3]) (demoReqCalls n))).1 with b | e | p
  · rw [hx] at he; simp at he
  · rw [hx] at he
    simp only [Option.some.injEq] at he
    rw [← he]
    exact c88_reason (by decide) (by decide) demo_offer (ReqRun.of _ _ _ _) hf hx
  · rw [hx] at he; simp at he

/-- CAPABILITIES instead of VERSION. -/
example : FirstFailed (demoChecks demoCrypto 1 [0x11, 0x61, 0]) .header := demo_reason _ _ _ (by decide +kernel) (by decide +kernel)
/-- Half a VERSION. -/
example : FirstFailed (demoChecks demoCrypto 1 [0x10, 0x04, 0, 0]) .encoding := demo_reason _ _ _ (by decide +kernel) (by decide +kernel)
/-- Only version 2.0. -/
example : FirstFailed (demoChecks demoCrypto 1 [0x10, 0x04, 0, 0, 0, 1, 0, 0x20]) .version := demo_reason _ _ _ (by decide +kernel) (by decide +kernel)
/-- An algorithm that was not offered. -/
example : FirstFailed (demoChecks demoCrypto 5 ((demoReplies.getD 2 []).set 12 128)) .selection :=
  demo_reason _ _ _ (by decide +kernel) (by decide +kernel)
/-- Another slot than the one of the chain. -/
example : FirstFailed (demoChecks demoCrypto 11 ((demoReplies.getD 5 []).set 2 1)) .slot := demo_reason _ _ _ (by decide +kernel) (by decide +kernel)
/-- A slot mask without the slot. -/
example : FirstFailed (demoChecks demoCrypto 11 ((demoReplies.getD 5 []).set 3 2)) .mask := demo_reason _ _ _ (by decide +kernel) (by decide +kernel)
/-- Another digest. -/
example : FirstFailed (demoChecks demoCrypto 11 ((demoReplies.getD 5 []).set 4 99)) .digest := demo_reason _ _ _ (by decide +kernel) (by decide +kernel)
/-- A long tail. -/
example : FirstFailed (demoChecks demoCrypto 11 (demoReplies.getD 5 [] ++ zeros 500)) .room := demo_reason _ _ _ (by decide +kernel) (by decide +kernel)
/-- A chain that does not lead to the anchor. -/
example : FirstFailed (demoChecks { demoCrypto with chainOk := fun _ _ _ _ _ => false } 11 (demoReplies.getD 5 [])) .trust :=
  demo_reason _ _ _ (by decide +kernel) (by decide +kernel)
/-- A bad signature. -/
example : FirstFailed (demoChecks demoCrypto 11 ((demoReplies.getD 5 []).set 140 99)) .signature := demo_reason _ _ _ (by decide +kernel) (by decide +kernel)

end Spdm
