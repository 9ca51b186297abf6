import Verif.Lemmas.Calm
/-! Calls that abort. `Blows m s`: running `m` in `s` panics; the exact conditions for the handlers of the responder. -/
namespace Spdm
open Spec

def Blows {σ α : Type} (m : M σ α) (s : σ) : Prop := (m s).1.isPanic = true

theorem calm_not_blows {σ α : Type} {m : M σ α} {s : σ} (h : Calm m s) : ¬ Blows m s := by
  unfold Calm at h; unfold Blows; rw [h]; simp

namespace Blows
variable {σ α β : Type}

theorem of_panic {m : M σ α} {s s' : σ} {k : PanicKind} (h : m s = (.panic k, s')) : Blows m s := by unfold Blows; rw [h]; rfl

theorem inv {m : M σ α} {s : σ} (h : Blows m s) : ∃ k s', m s = (.panic k, s') := by
  unfold Blows at h
  rcases hr : m s with ⟨x, s'⟩
  rw [hr] at h
  cases x with
  | ok a => simp [Res.isPanic] at h
  | err e => simp [Res.isPanic] at h
  | panic k => exact ⟨k, s', rfl⟩

theorem bind_inv {m : M σ α} {f : α → M σ β} {s : σ} (h : Blows (m >>= f) s) : Blows m s ∨ ∃ a s', m s = (.ok a, s') ∧ Blows (f a) s' := by
  unfold Blows at *
  rcases hr : m s with ⟨x, s'⟩
  cases x with
  | ok a => rw [M.run_bind_ok hr] at h; exact .inr ⟨a, s', rfl, h⟩
  | err e => rw [M.run_bind_err hr] at h; simp [Res.isPanic] at h
  | panic k => exact .inl rfl

theorem bind_calm {m : M σ α} {f : α → M σ β} {s : σ} (h : Blows (m >>= f) s) (hm : Calm m s) : ∃ a s', m s = (.ok a, s') ∧ Blows (f a) s' :=
  (bind_inv h).resolve_left (calm_not_blows hm)

theorem lift_inv {x : Res α} {f : α → M σ β} {s : σ} (h : Blows (M.lift x >>= f) s) : x.isPanic = true ∨ ∃ a, x = .ok a ∧ Blows (f a) s := by
  rcases bind_inv h with h | ⟨a, s', h1, h2⟩
  · exact .inl h
  · obtain ⟨h3, rfl⟩ := M.lift_ok_inv h1
    exact .inr ⟨a, h3, h2⟩

theorem lift_calm {x : Res α} {f : α → M σ β} {s : σ} (h : Blows (M.lift x >>= f) s) (hx : x.isPanic = false) : ∃ a, x = .ok a ∧ Blows (f a) s :=
  (lift_inv h).resolve_left (by rw [hx]; simp)

theorem res_bind {x : Res α} {f : α → Res β} (h : (x >>= f).isPanic = true) : x.isPanic = true ∨ ∃ a, x = .ok a ∧ (f a).isPanic = true := by
  cases x with
  | ok a => exact .inr ⟨a, rfl, h⟩
  | err e => exact absurd (show (Res.err e : Res β).isPanic = true from h) (by simp [Res.isPanic])
  | panic k => exact .inl rfl

end Blows

section
variable {c : Cfg} {cr : Crypto} {env : Env} {slots : List (Option FilledSlot)}

theorem reset_blows {req : Bytes} (h3 : 3 ≤ req.length) {rest : H (Nat × RspState)} {h : HState} (hb : Blows (Responder.resetOnGetVersion req rest) h) : Blows rest h := by
  have := parseHeader_calm .getVersion h3
  unfold Responder.resetOnGetVersion at hb
  rcases hp : MsgType.getVersion.parseHeader req with (_ | _) | e | k
  · simpa only [hp] using hb
  · simp only [hp] at hb; exact absurd hb (calm_not_blows (versionHandle_calm h3 h))
  · simp only [hp] at hb; exact absurd hb (calm_not_blows (Calm.fail _ _))
  · rw [hp] at this; simp [Res.isPanic] at this

/-! ### NEGOTIATE_ALGORITHMS -/

theorem algorithms_blows_inv {caps : Caps} {req : Bytes} (h3 : 3 ≤ req.length) {h : HState} (hw : h.tr.WF) (hb : Blows (Responder.algorithmsHandle caps req) h) :
    req.take 2 = Wire.header .negotiateAlgorithms ∧ ∃ m, NegotiateAlgorithms.parseBody (req.drop 2) = .ok m ∧ ¬ NonEmptyOffer m ∧ h.tr.get.length + req.length ≤ h.tr.buf.length := by
  unfold Responder.algorithmsHandle at hb
  obtain ⟨_, hx, hb⟩ := (reset_blows h3 hb).lift_calm (expect_calm _ h3)
  obtain ⟨body, hbd, hb⟩ := hb.lift_calm (sliceFrom_calm h3)
  obtain ⟨m, hm, hb⟩ := hb.lift_calm (NegotiateAlgorithms.safe.parse body)
  obtain ⟨_, h1, e1, hb5⟩ := hb.bind_calm (H.extend_calm hw _)
  obtain ⟨k1, _, _, _, hroom⟩ := H.extend_inv hw e1
  obtain ⟨_, hr⟩ := expect_ok_inv hx
  obtain ⟨_, rfl⟩ := sliceFrom_inv hbd
  refine ⟨hr, m, hm, ?_, hroom⟩
  intro hne
  obtain ⟨_, _, _, hwf, _⟩ := NegotiateAlgorithms.inverts.parse hm
  obtain ⟨a, ha⟩ := chooseAlgorithms_ok hwf hne
  have hans := chooseAlgorithms_inv hwf ha
  obtain ⟨a', ha', hb6⟩ := hb5.lift_calm (by rw [ha]; rfl)
  rw [ha] at ha'
  simp only [Res.ok.injEq] at ha'
  subst ha'
  exact calm_not_blows (reply_calm (Algorithms.writes hans.len (by rw [hans.num]; exact hwf.num)) k1.wf) hb6

theorem algorithms_blows {caps : Caps} {req : Bytes} {m : NegotiateAlgorithms} (h3 : 3 ≤ req.length) (hh : req.take 2 = Wire.header .negotiateAlgorithms)
    (hp : NegotiateAlgorithms.parseBody (req.drop 2) = .ok m) (h0 : ¬ NonEmptyOffer m) {h : HState} (hw : h.tr.WF) (hroom : h.tr.get.length + req.length ≤ h.tr.buf.length) :
    Blows (Responder.algorithmsHandle caps req) h := by
  obtain ⟨_, _, _, hwf, _⟩ := NegotiateAlgorithms.inverts.parse hp
  have hsl : sliceFrom req headerSize = .ok (req.drop 2) := by unfold sliceFrom headerSize; rw [if_pos (by omega)]
  obtain ⟨t', e3, _⟩ := H.extend_run (h := h) (bs := req) hw hroom
  unfold Blows Responder.algorithmsHandle
  rw [resetOnGetVersion_other (t := .negotiateAlgorithms) (by decide) h3 hh]
  rw [lift_run (expect_ok (t := .negotiateAlgorithms) h3 hh), lift_run hsl, lift_run hp, M.run_bind_ok e3]
  rw [M.run_bind_panic (k := .overflow) (by rw [M.run_lift, chooseAlgorithms_panic hwf h0])]
  rfl

/-! ### Digests -/

theorem digest_cases (c : Cfg) (cr : Crypto) (algo : UInt32) (data : Bytes) :
    (cr.digest c algo data = .ok (cr.hash algo data) ∧ c.provider = true ∧ RingHash algo ∧ (cr.hash algo data).length ≤ c.maxDigestSize) ∨
    ((cr.digest c algo data).isPanic = true ∧ ¬ (c.provider = true ∧ RingHash algo ∧ (cr.hash algo data).length ≤ c.maxDigestSize)) := by
  by_cases hx : c.provider = true ∧ RingHash algo ∧ (cr.hash algo data).length ≤ c.maxDigestSize
  · exact .inl ⟨digest_run hx.1 hx.2.1 hx.2.2, hx⟩
  · refine .inr ⟨?_, hx⟩
    rcases hd : cr.digest c algo data with d | e | k
    · obtain ⟨h1, rfl, h3, h4⟩ := digest_inv hd
      exact absurd ⟨h4, h1, h3⟩ hx
    · unfold Crypto.digest at hd
      split at hd
      · simp at hd
      · split at hd
        · split at hd <;> simp at hd
        · simp at hd
    · rfl

/-- The chain can be serialised and hashed. -/
def HashOk (c : Cfg) (cr : Crypto) (algo : UInt32) (ch : CertificateChain) : Prop :=
  c.provider = true ∧ RingHash algo ∧ (cr.hash algo (Wire.chain ch)).length ≤ c.maxDigestSize

def FitsBuf (c : Cfg) (ch : CertificateChain) : Prop := (Wire.chain ch).length ≤ c.maxCertChainSize ∧ (Wire.chain ch).length ≤ 65535

theorem hashLoop_blows {algo : UInt32} {chains : List (Option CertificateChain)} (n i : Nat) (buf : Bytes) (ds : List (Option Bytes)) (hn : i + n ≤ chains.length) (hd : i + n ≤ ds.length)
    (hbl : buf.length = c.maxCertChainSize) :
    (Responder.hashLoop c cr algo chains n i buf ds).isPanic = true ↔
      ∃ k ch, i ≤ k ∧ k < i + n ∧ chains[k]? = some (some ch) ∧ (∀ j ch', i ≤ j → j < k → chains[j]? = some (some ch') → FitsBuf c ch' ∧ HashOk c cr algo ch') ∧
        FitsBuf c ch ∧ ¬ HashOk c cr algo ch := by
  induction n generalizing i buf ds with
  | zero =>
    constructor
    · intro h; simp [Responder.hashLoop, Res.isPanic] at h
    · rintro ⟨k, ch, h1, h2, _⟩; omega
  | succ n ih =>
    have hi : i < chains.length := by omega
    have hgi : chains[i]? = some chains[i] := List.getElem?_eq_getElem hi
    simp only [Responder.hashLoop, index_ok hi, Res.ok_bind]
    cases hc : chains[i] with
    | none =>
      simp only
      rw [ih (i + 1) buf ds (by omega) (by omega) hbl]
      constructor
      · rintro ⟨k, ch, h1, h2, h3, h4, h5⟩
        refine ⟨k, ch, by omega, by omega, h3, fun j ch' hj hjk hch' => ?_, h5⟩
        refine h4 j ch' ?_ hjk hch'
        rcases Nat.lt_or_ge i j with h | h
        · exact h
        · have : j = i := by omega
          subst this
          rw [hgi, hc] at hch'; simp at hch'
      · rintro ⟨k, ch, h1, h2, h3, h4, h5⟩
        refine ⟨k, ch, ?_, by omega, h3, fun j ch' hj hjk => h4 j ch' (by omega) hjk, h5⟩
        rcases Nat.lt_or_ge i k with h | h
        · exact h
        · have : k = i := by omega
          subst this
          rw [hgi, hc] at h3; simp at h3
    | some ch =>
      simp only
      by_cases hf : FitsBuf c ch
      · rw [writeChain_run hf.2 (by rw [hbl]; exact hf.1)]
        simp only [Res.ok_bind]
        rw [sliceTo_ok (by simp), List.take_left' rfl, Res.ok_bind]
        rcases digest_cases c cr algo (Wire.chain ch) with ⟨h1, h2⟩ | ⟨h1, h2⟩
        · rw [h1, Res.ok_bind]
          have hset : setIndex ds i (some (cr.hash algo (Wire.chain ch))) = .ok (ds.set i (some (cr.hash algo (Wire.chain ch)))) := by
            unfold setIndex; rw [if_pos (by omega)]
          rw [hset, Res.ok_bind, ih (i + 1) _ _ (by omega) (by simp; omega) (by
            have := hf.1
            simp only [List.length_append, List.length_drop]; omega)]
          constructor
          · rintro ⟨k, ch1, g1, g2, g3, g4, g5⟩
            refine ⟨k, ch1, by omega, by omega, g3, fun j ch' hj hjk hch' => ?_, g5⟩
            rcases Nat.lt_or_ge i j with h | h
            · exact g4 j ch' h hjk hch'
            · have : j = i := by omega
              subst this
              rw [hgi, hc] at hch'
              simp only [Option.some.injEq] at hch'
              subst hch'
              exact ⟨hf, h2⟩
          · rintro ⟨k, ch1, g1, g2, g3, g4, g5⟩
            refine ⟨k, ch1, ?_, by omega, g3, fun j ch' hj hjk => g4 j ch' (by omega) hjk, g5⟩
            rcases Nat.lt_or_ge i k with h | h
            · exact h
            · have : k = i := by omega
              subst this
              rw [hgi, hc] at g3
              simp only [Option.some.injEq] at g3
              subst g3
              exact absurd h2 g5.2
        · constructor
          · intro _
            refine ⟨i, ch, by omega, by omega, by rw [hgi, hc], fun j ch' hj hjk => by omega, hf, h2⟩
          · intro _
            rcases hx : cr.digest c algo (Wire.chain ch) with d | e | k <;> rw [hx] at h1 <;> simp [Res.isPanic] at h1
            rfl
      · constructor
        · intro h
          rcases hwc : Responder.writeChain ch buf with ⟨x, out⟩
          rw [hwc] at h
          have hcalm := writeChain_calm ch buf
          rw [hwc] at hcalm
          cases x with
          | ok m =>
            obtain ⟨g1, g2, g3, _⟩ := writeChain_inv hwc
            exact absurd ⟨by omega, by omega⟩ hf
          | err e => exact absurd (show (Res.err e : Res (List (Option Bytes))).isPanic = true from h) (by simp [Res.isPanic])
          | panic k => simp [Res.isPanic] at hcalm
        · rintro ⟨k, ch1, g1, g2, g3, g4, g5, g6⟩
          rcases Nat.lt_or_ge i k with h | h
          · exact absurd (g4 i ch (Nat.le_refl _) h (by rw [hgi, hc])).1 hf
          · have : k = i := by omega
            subst this
            rw [hgi, hc] at g3
            simp only [Option.some.injEq] at g3
            subst g3
            exact absurd g5 hf

theorem idAuth_blows (hl : slots.length = c.numSlots) (h8 : c.numSlots ≤ 8) {ng : Negotiated} {req : Bytes} (h3 : 3 ≤ req.length) {h : HState} (hw : h.tr.WF) :
    Blows (Responder.idAuthHandle c cr ng (chainsOf slots) req) h ↔ req.take 2 = Wire.header .getDigests ∧
      ∃ (k : Nat) (s : FilledSlot), slots[k]? = some (some s) ∧
        (∀ (j : Nat) (s' : FilledSlot), j < k → slots[j]? = some (some s') → FitsBuf c s'.certChain ∧ HashOk c cr ng.algorithms.baseHashAlgoSelected s'.certChain) ∧
        FitsBuf c s.certChain ∧ ¬ HashOk c cr ng.algorithms.baseHashAlgoSelected s.certChain := by
  have hl' : (chainsOf slots).length = c.numSlots := by simpa using hl
  obtain ⟨mask, hm, hm2⟩ := createSlotMask_run hl' h8
  have hloop : (Responder.hashCertChains c cr ng.algorithms.baseHashAlgoSelected (chainsOf slots)).isPanic = true ↔ ∃ (k : Nat) (s : FilledSlot), slots[k]? = some (some s) ∧
        (∀ (j : Nat) (s' : FilledSlot), j < k → slots[j]? = some (some s') → FitsBuf c s'.certChain ∧ HashOk c cr ng.algorithms.baseHashAlgoSelected s'.certChain) ∧
        FitsBuf c s.certChain ∧ ¬ HashOk c cr ng.algorithms.baseHashAlgoSelected s.certChain := by
    unfold Responder.hashCertChains
    rw [hashLoop_blows _ _ _ _ (by omega) (by simp) (by simp)]
    have hget : ∀ (k : Nat) (ch : CertificateChain), (chainsOf slots)[k]? = some (some ch) ↔ ∃ s : FilledSlot, slots[k]? = some (some s) ∧ ch = s.certChain := by
      intro k ch
      simp only [chainsOf, List.getElem?_map]
      rcases slots[k]? with _ | _ | s <;> simp [eq_comm]
    constructor
    · rintro ⟨k, ch, _, _, g3, g4, g5⟩
      obtain ⟨s, hs, rfl⟩ := (hget k ch).mp g3
      exact ⟨k, s, hs, fun j s' hj hs' => g4 j _ (by omega) hj ((hget j _).mpr ⟨s', hs', rfl⟩), g5⟩
    · rintro ⟨k, s, hs, g4, g5⟩
      refine ⟨k, s.certChain, by omega, ?_, (hget k _).mpr ⟨s, hs, rfl⟩, fun j ch' _ hj hch' => ?_, g5⟩
      · have := (List.getElem?_eq_some_iff.mp hs).1; omega
      · obtain ⟨s', hs', rfl⟩ := (hget j _).mp hch'
        exact g4 j s' hj hs'
  rw [← hloop]
  constructor
  · intro hb
    unfold Responder.idAuthHandle at hb
    obtain ⟨b, hbb, hb⟩ := (reset_blows h3 hb).lift_calm (parseHeader_calm _ h3)
    cases b with
    | false =>
      simp only [Bool.false_eq_true, if_false] at hb
      obtain ⟨_, _, hb⟩ := hb.lift_calm (expect_calm _ h3)
      exact absurd hb (calm_not_blows (handleGetCertificate_calm hl h3 hw))
    | true =>
      refine ⟨(parseHeader_true hbb).2, ?_⟩
      simp only [if_true] at hb
      unfold Responder.handleGetDigests at hb
      obtain ⟨mask', hm', hb⟩ := hb.lift_calm (by rw [hm]; rfl)
      rcases hb.lift_inv with hb | ⟨ds, hds, hb⟩
      · exact hb
      · rw [hm] at hm'
        simp only [Res.ok.injEq] at hm'
        subst hm'
        have hd := hashCertChains_inv hl' h8 hm hds
        have hmask : ∀ i, i < 8 → (mask.toNat.testBit i = true ↔ ∃ d, ds[i]? = some (some d)) := by
          intro i hi
          rw [hd.mask i hi, hd.hash i]
          constructor
          · rintro ⟨ch, hch⟩; rw [hch]; exact ⟨_, rfl⟩
          · rintro ⟨d, hd'⟩
            cases hx : (chainsOf slots)[i]? with
            | none => rw [hx] at hd'; simp at hd'
            | some o =>
              cases o with
              | none => rw [hx] at hd'; simp at hd'
              | some ch => exact ⟨ch, rfl⟩
        exact absurd hb (calm_not_blows (replyLog_calm (Digests.writes_gen h8 hd.len hmask) hw))
  · rintro ⟨hr, hx⟩
    unfold Blows Responder.idAuthHandle
    rw [resetOnGetVersion_other (t := .getDigests) (by decide) h3 hr, lift_run (header_run (t := .getDigests) h3 hr .getDigests)]
    simp only [decide_true, if_true]
    unfold Responder.handleGetDigests
    rw [lift_run hm]
    rcases hy : Responder.hashCertChains c cr ng.algorithms.baseHashAlgoSelected (chainsOf slots) with d | e | k <;> rw [hy] at hx <;> simp [Res.isPanic] at hx
    rw [M.run_bind_panic (k := k) (by rw [M.run_lift])]
    rfl

/-! ### CHALLENGE -/

theorem slotAt_some {slots : List (Option FilledSlot)} {i : Nat} {s : FilledSlot} (h : Responder.slotAt slots i = .ok s) : slots[i]? = some (some s) := by
  unfold Responder.slotAt at h
  rcases hg : slots[i]? with _ | _ | s <;> simp only [hg] at h <;> simp_all

theorem chainDigest_fits {algo : UInt32} {ch : CertificateChain} (hf : FitsBuf c ch) : Responder.chainDigest c cr algo ch = cr.digest c algo (Wire.chain ch) := by
  unfold Responder.chainDigest
  rw [writeChain_run hf.2 (by simpa using hf.1)]
  simp only [Res.ok_bind]
  rw [sliceTo_ok (by simp), List.take_left' rfl, Res.ok_bind]

theorem chainDigest_unfit {algo : UInt32} {ch : CertificateChain} (hf : ¬ FitsBuf c ch) : ∃ e, Responder.chainDigest c cr algo ch = .err e := by
  unfold Responder.chainDigest
  have hcalm := writeChain_calm ch (List.replicate c.maxCertChainSize 0)
  rcases hwc : Responder.writeChain ch (List.replicate c.maxCertChainSize 0) with ⟨x, out⟩
  rw [hwc] at hcalm
  cases x with
  | ok m =>
    obtain ⟨g1, g2, g3, _⟩ := writeChain_inv hwc
    rw [List.length_replicate] at g2
    exact absurd ⟨by omega, by omega⟩ hf
  | err e => exact ⟨e, rfl⟩
  | panic k => simp [Res.isPanic] at hcalm

theorem new_auth {ds ss : Nat} {slot mask : UInt8} {mu : Bool} {d nonce : Bytes} (hd : d.length ≤ c.maxDigestSize) (hds : ds ≤ c.maxDigestSize) (hss : ss ≤ c.maxSignatureSize) :
    ChallengeAuth.new c slot mask mu d nonce (List.replicate ds 0) (OpaqueData.dflt c) (List.replicate ss 0) =
      .ok ⟨slot, mask, mu, d, nonce, List.replicate ds 0, OpaqueData.dflt c, List.replicate ss 0⟩ := by
  unfold ChallengeAuth.new
  rw [if_pos ⟨hd, by simpa using hds, by simpa using hss⟩]

theorem mapErr_ok_back {σ α : Type} {f : Err → Err} {m : M σ α} {s s' : σ} {a : α} (h : M.mapErr f m s = (.ok a, s')) : m s = (.ok a, s') := by
  unfold M.mapErr at h
  rcases hx : m s with ⟨x, y⟩
  rw [hx] at h
  cases x <;> simp_all

theorem mapErr_ok_fwd {σ α : Type} {f : Err → Err} {m : M σ α} {s s' : σ} {a : α} (h : m s = (.ok a, s')) : M.mapErr f m s = (.ok a, s') := by
  unfold M.mapErr; rw [h]

/-- Why a CHALLENGE aborts, once the sizes of the algorithms are known. -/
inductive AuthBlows (c : Cfg) (cr : Crypto) (env : Env) (slots : List (Option FilledSlot)) (ng : Negotiated) (ds ss : Nat) (m : Challenge) (slot : FilledSlot) (req : Bytes) (h : HState) : Prop
  | chain (hf : FitsBuf c slot.certChain) (hd : ¬ HashOk c cr ng.algorithms.baseHashAlgoSelected slot.certChain)
  | sign (mask : UInt8) (txt : Bytes) (hmask : ∀ i, mask.toNat.testBit i = true ↔ ∃ s, slots[i]? = some (some s)) (hf : FitsBuf c slot.certChain)
      (hd : HashOk c cr ng.algorithms.baseHashAlgoSelected slot.certChain)
      (htxt : txt = h.tr.get ++ req ++ authMsg m.slot mask (Responder.useMutualAuth ng.caps) (cr.hash ng.algorithms.baseHashAlgoSelected (Wire.chain slot.certChain)) env.nonce ds)
      (hb : (authMsg m.slot mask (Responder.useMutualAuth ng.caps) (cr.hash ng.algorithms.baseHashAlgoSelected (Wire.chain slot.certChain)) env.nonce ds).length + ss ≤ h.rsp.length)
      (ht : txt.length ≤ h.tr.buf.length)
      (hbad : ¬ (cr.hash ng.algorithms.baseHashAlgoSelected txt).length ≤ c.maxDigestSize ∨
        ∃ sig, slot.sign env.seed (cr.hash ng.algorithms.baseHashAlgoSelected txt) = some sig ∧ sig.length ≠ ss)

theorem challenge_blows_inv (hl : slots.length = c.numSlots) (h8 : c.numSlots ≤ 8) {ng : Negotiated} {req : Bytes} (h3 : 3 ≤ req.length) {h : HState} (hw : h.tr.WF)
    (hb : Blows (Responder.challengeHandle c cr env ng slots req) h) : req.take 2 = Wire.header .challenge ∧
      ((¬ ∃ ds, BaseHashAlgo.getDigestSize c ng.algorithms.baseHashAlgoSelected = .ok ds) ∨ (¬ ∃ ss, BaseAsymAlgo.getSignatureSize c ng.algorithms.baseAsymAlgoSelected = .ok ss) ∨
      ∃ ds ss m slot, BaseHashAlgo.getDigestSize c ng.algorithms.baseHashAlgoSelected = .ok ds ∧ BaseAsymAlgo.getSignatureSize c ng.algorithms.baseAsymAlgoSelected = .ok ss ∧
        Challenge.parseBody c (req.drop 2) = .ok m ∧ slots[m.slot.toNat]? = some (some slot) ∧ AuthBlows c cr env slots ng ds ss m slot req h) := by
  unfold Responder.challengeHandle at hb
  obtain ⟨_, hx, hb⟩ := (reset_blows h3 hb).lift_calm (expect_calm _ h3)
  refine ⟨(expect_ok_inv hx).2, ?_⟩
  rcases hb.lift_inv with hb | ⟨ds, hds, hb⟩
  · exact .inl (by rintro ⟨ds, hds⟩; rw [hds] at hb; simp [Res.isPanic] at hb)
  rcases hb.lift_inv with hb | ⟨ss, hss, hb⟩
  · exact .inr (.inl (by rintro ⟨ds, hds⟩; rw [hds] at hb; simp [Res.isPanic] at hb))
  have hdsl : ds ≤ c.maxDigestSize := by obtain ⟨_, _, _, h⟩ := getDigestSize_ok.mp hds; exact h
  have hssl : ss ≤ c.maxSignatureSize := by obtain ⟨_, _, _, h⟩ := getSignatureSize_ok.mp hss; exact h
  obtain ⟨body, hbd, hb⟩ := hb.lift_calm (sliceFrom_calm h3)
  obtain ⟨m, hm, hb⟩ := hb.lift_calm ((Challenge.safe c).parse body)
  obtain ⟨slot, hslot, hb1⟩ := hb.lift_calm (slotAt_calm _ _)
  have hs := slotAt_some hslot
  have hlt : m.slot.toNat < c.numSlots := by have := (List.getElem?_eq_some_iff.mp hs).1; omega
  have hbody := (sliceFrom_inv hbd).2
  rw [hbody] at hm
  refine .inr (.inr ⟨ds, ss, m, slot, hds, hss, hm, hs, ?_⟩)
  by_cases hf : FitsBuf c slot.certChain
  swap
  · obtain ⟨e, he⟩ := chainDigest_unfit (cr := cr) (algo := ng.algorithms.baseHashAlgoSelected) hf
    rw [he] at hb1
    rcases hb1.lift_inv with hb | ⟨_, hds, hb⟩
    · simp [Res.isPanic] at hb
    · simp at hds
  rw [chainDigest_fits hf] at hb1
  rcases digest_cases c cr ng.algorithms.baseHashAlgoSelected (Wire.chain slot.certChain) with ⟨g1, g2⟩ | ⟨g1, g2⟩
  swap
  · exact .chain hf g2
  rw [g1] at hb1
  obtain ⟨d, hd, hb2⟩ := hb1.lift_calm rfl
  simp only [Res.ok.injEq] at hd
  subst hd
  obtain ⟨_, h1, e1, hb3⟩ := hb2.bind_calm (H.extend_calm hw _)
  obtain ⟨k1, t1, r1, s1, q1⟩ := H.extend_inv hw e1
  obtain ⟨mask, hm1, hm2⟩ := createSlotMask_run hl h8
  obtain ⟨mask', hm', hb4⟩ := hb3.lift_calm (by rw [hm1]; rfl)
  rw [hm1] at hm'; simp only [Res.ok.injEq] at hm'; subst hm'
  obtain ⟨auth, hauth, hb5⟩ := hb4.lift_calm (by rw [new_auth g2.2.2 hdsl hssl]; rfl)
  rw [new_auth g2.2.2 hdsl hssl] at hauth; simp only [Res.ok.injEq] at hauth; subst hauth
  obtain ⟨bodyA, hwr, hlay, hbl⟩ := auth_layout (mask := mask) (mu := Responder.useMutualAuth ng.caps) (d := cr.hash ng.algorithms.baseHashAlgoSelected (Wire.chain slot.certChain))
    (n := env.nonce) (ds := ds) (ss := ss) hlt h8
  have hbz : (bodyA ++ zeros ss).length = bodyA.length + ss := by simp [zeros]
  obtain ⟨size, h2, e2, hb6⟩ := hb5.bind_calm (Calm.mapErr _ (H.write_calm hwr h1))
  obtain ⟨rfl, hn2, rfl⟩ := H.write_inv hwr (mapErr_ok_back e2)
  have hsub : Responder.subChecked (2 + (bodyA ++ zeros ss).length) ss = .ok (2 + bodyA.length) := by
    unfold Responder.subChecked; rw [if_pos (by omega)]; congr 1; omega
  obtain ⟨st, hst, hb7⟩ := hb6.lift_calm (by rw [hsub]; rfl)
  rw [hsub] at hst; simp only [Res.ok.injEq] at hst; subst hst
  obtain ⟨out, h3', e3, hb8⟩ := hb7.bind_calm (by unfold Calm H.rspTo; rw [sliceTo_ok (by simp [header_length])]; rfl)
  obtain ⟨rfl, _, ho⟩ := H.rspTo_inv e3
  have hout : out = Wire.header .challengeAuth ++ bodyA := by
    rw [ho]
    simp only
    rw [← List.append_assoc, List.append_assoc]
    exact msg_take
  obtain ⟨_, h4, e4, hb9⟩ := hb8.bind_calm (H.extend_calm (by exact k1.wf) _)
  obtain ⟨k4, t4, r4, s4, q4⟩ := H.extend_inv (by exact k1.wf) e4
  obtain ⟨t, h5, e5, hb10⟩ := hb9.bind_calm (by rfl)
  have h5e : h5 = h4 ∧ t = h4.tr.get := by unfold H.transcript at e5; simp only [Prod.mk.injEq, Res.ok.injEq] at e5; exact ⟨e5.2.symm, e5.1.symm⟩
  obtain ⟨rfl, rfl⟩ := h5e
  have htxt : h5.tr.get = h.tr.get ++ req ++ authMsg m.slot mask (Responder.useMutualAuth ng.caps) (cr.hash ng.algorithms.baseHashAlgoSelected (Wire.chain slot.certChain)) env.nonce ds := by
    rw [t4, hout, hlay]; simp only; rw [t1]
  have hlen : (authMsg m.slot mask (Responder.useMutualAuth ng.caps) (cr.hash ng.algorithms.baseHashAlgoSelected (Wire.chain slot.certChain)) env.nonce ds).length = 2 + bodyA.length := by
    rw [← hlay, List.length_append, header_length]
  refine .sign mask h5.tr.get hm2 hf g2 htxt ?_ ?_ ?_
  · rw [hlen, ← congrArg List.length r1]; omega
  · rw [t4, List.length_append]
    exact Nat.le_trans q4 (Nat.le_of_eq k1.cap)
  · rcases digest_cases c cr ng.algorithms.baseHashAlgoSelected h5.tr.get with ⟨p1, p2⟩ | ⟨p1, p2⟩
    swap
    · exact .inl fun hle => p2 ⟨g2.1, g2.2.1, hle⟩
    rw [p1] at hb10
    obtain ⟨m1, hm1, hb11⟩ := hb10.lift_calm rfl
    simp only [Res.ok.injEq] at hm1
    subst hm1
    rcases hsg : slot.sign env.seed (cr.hash ng.algorithms.baseHashAlgoSelected h5.tr.get) with _ | sig
    · obtain ⟨sig, h6, e6, _⟩ := hb11.bind_calm (by unfold Calm Responder.signWith; simp only [hsg, Res.isPanic])
      unfold Responder.signWith at e6; simp [hsg] at e6
    · obtain ⟨sig', h6, e6, hb12⟩ := hb11.bind_calm (by unfold Calm Responder.signWith; simp only [hsg, Res.isPanic])
      unfold Responder.signWith at e6
      simp only [hsg, Prod.mk.injEq, Res.ok.injEq] at e6
      obtain ⟨rfl, rfl⟩ := e6
      refine .inr ⟨sig, rfl, fun hle => ?_⟩
      refine calm_not_blows ?_ hb12
      refine Calm.bind ?_ fun _ _ _ => Calm.pure _ _
      unfold Calm Responder.patchRsp
      have hr4 := congrArg List.length r4
      simp only [List.length_append, header_length, List.length_drop, hbz] at hr4 hn2
      simp only
      rw [if_pos (by simp only [hbz]; omega), if_pos (by simp only [hbz]; omega)]
      rfl

theorem challenge_blows_sizes {ng : Negotiated} {req : Bytes} (h3 : 3 ≤ req.length) (hr : req.take 2 = Wire.header .challenge)
    (hx : (¬ ∃ ds, BaseHashAlgo.getDigestSize c ng.algorithms.baseHashAlgoSelected = .ok ds) ∨ (¬ ∃ ss, BaseAsymAlgo.getSignatureSize c ng.algorithms.baseAsymAlgoSelected = .ok ss)) (h : HState) :
    Blows (Responder.challengeHandle c cr env ng slots req) h := by
  have hds : ∀ e, BaseHashAlgo.getDigestSize c ng.algorithms.baseHashAlgoSelected ≠ .err e := by
    intro e; unfold BaseHashAlgo.getDigestSize BaseHashAlgo.checkedDigestSize; repeat' split
    all_goals simp
  have hss : ∀ e, BaseAsymAlgo.getSignatureSize c ng.algorithms.baseAsymAlgoSelected ≠ .err e := by
    intro e; unfold BaseAsymAlgo.getSignatureSize BaseAsymAlgo.checkedSignatureSize; repeat' split
    all_goals simp
  unfold Blows Responder.challengeHandle
  rw [resetOnGetVersion_other (t := .challenge) (by decide) h3 hr, lift_run (expect_ok (t := .challenge) h3 hr)]
  rcases h1 : BaseHashAlgo.getDigestSize c ng.algorithms.baseHashAlgoSelected with ds | e | k
  · rw [lift_run rfl]
    rcases h2 : BaseAsymAlgo.getSignatureSize c ng.algorithms.baseAsymAlgoSelected with ss | e | k
    · rcases hx with hx | hx
      · exact absurd ⟨ds, h1⟩ hx
      · exact absurd ⟨ss, h2⟩ hx
    · exact absurd h2 (hss e)
    · rw [M.run_bind_panic (k := k) (by rw [M.run_lift])]; rfl
  · exact absurd h1 (hds e)
  · rw [M.run_bind_panic (k := k) (by rw [M.run_lift])]; rfl

theorem challenge_blows (hl : slots.length = c.numSlots) (h8 : c.numSlots ≤ 8) {ng : Negotiated} {req : Bytes} (h3 : 3 ≤ req.length) (hr : req.take 2 = Wire.header .challenge) {h : HState}
    (hw : h.tr.WF) {ds ss : Nat} {m : Challenge} {slot : FilledSlot} (hds : BaseHashAlgo.getDigestSize c ng.algorithms.baseHashAlgoSelected = .ok ds)
    (hss : BaseAsymAlgo.getSignatureSize c ng.algorithms.baseAsymAlgoSelected = .ok ss) (hm : Challenge.parseBody c (req.drop 2) = .ok m) (hs : slots[m.slot.toNat]? = some (some slot))
    (hb : AuthBlows c cr env slots ng ds ss m slot req h) : Blows (Responder.challengeHandle c cr env ng slots req) h := by
  have hdsl : ds ≤ c.maxDigestSize := by obtain ⟨_, _, _, h⟩ := getDigestSize_ok.mp hds; exact h
  have hssl : ss ≤ c.maxSignatureSize := by obtain ⟨_, _, _, h⟩ := getSignatureSize_ok.mp hss; exact h
  have hsl : sliceFrom req headerSize = .ok (req.drop 2) := by unfold sliceFrom headerSize; rw [if_pos (by omega)]
  have hlt : m.slot.toNat < c.numSlots := by have := (List.getElem?_eq_some_iff.mp hs).1; omega
  unfold Blows Responder.challengeHandle
  rw [resetOnGetVersion_other (t := .challenge) (by decide) h3 hr, lift_run (expect_ok (t := .challenge) h3 hr), lift_run hds, lift_run hss, lift_run hsl, lift_run hm,
    lift_run (x := Responder.slotAt slots m.slot.toNat) (a := slot) (by unfold Responder.slotAt; rw [hs])]
  have hpan : ∀ {α β : Type} {x : Res α} {f : α → H β} (s : HState), x.isPanic = true → ((M.lift x >>= f) s).1.isPanic = true := by
    intro α β x f s hx
    cases x with
    | ok a => simp [Res.isPanic] at hx
    | err e => simp [Res.isPanic] at hx
    | panic k => rw [M.run_bind_panic (k := k) (by rw [M.run_lift])]; rfl
  rcases hb with ⟨hf, hd⟩ | ⟨mask, txt, hmask, hf, hd, htxt, hb, ht, hbad⟩
  · rw [chainDigest_fits hf]
    rcases digest_cases c cr ng.algorithms.baseHashAlgoSelected (Wire.chain slot.certChain) with ⟨g1, g2⟩ | ⟨g1, g2⟩
    · exact absurd g2 hd
    · exact hpan _ g1
  · rw [chainDigest_fits hf, lift_run (digest_run hd.1 hd.2.1 hd.2.2)]
    have htl := congrArg List.length htxt
    rw [List.length_append, List.length_append] at htl
    obtain ⟨t1, e1, g1, w1, c1⟩ := H.extend_run (h := h) (bs := req) hw (by omega)
    rw [M.run_bind_ok e1]
    obtain ⟨mask', hm1, hm2⟩ := createSlotMask_run hl h8
    rw [lift_run hm1, lift_run (new_auth hd.2.2 hdsl hssl)]
    have : mask' = mask := by
      apply UInt8.toNat_inj.mp
      apply Nat.eq_of_testBit_eq
      intro i
      rw [Bool.eq_iff_iff, hm2, hmask]
    subst this
    obtain ⟨body, hwr, hauth, hbl⟩ := auth_layout (mask := mask') (mu := Responder.useMutualAuth ng.caps) (d := cr.hash ng.algorithms.baseHashAlgoSelected (Wire.chain slot.certChain))
      (n := env.nonce) (ds := ds) (ss := ss) hlt h8
    rw [← hauth] at htxt hb
    rw [← hauth, List.length_append, header_length] at htl
    rw [List.length_append, header_length] at hb
    have hbz : (body ++ zeros ss).length = body.length + ss := by simp [zeros]
    have hwrite := H.write_run (t := .challengeAuth) hwr (h := { h with tr := t1 }) (by simp only [hbz]; omega)
    rw [M.run_bind_ok (mapErr_ok_fwd hwrite)]
    rw [lift_run (x := Responder.subChecked _ _) (a := 2 + body.length) (by unfold Responder.subChecked; rw [if_pos (by omega)]; congr 1; omega)]
    have hout : ∀ rest : Bytes, (Wire.header .challengeAuth ++ (body ++ zeros ss) ++ rest).take (2 + body.length) = Wire.header .challengeAuth ++ body := by
      intro rest
      rw [← List.append_assoc, List.append_assoc]
      exact msg_take
    have hto : ∀ x : HState, ∀ rest : Bytes, x.rsp = Wire.header .challengeAuth ++ (body ++ zeros ss) ++ rest → H.rspTo (2 + body.length) x = (.ok (Wire.header .challengeAuth ++ body), x) := by
      intro x rest hx
      unfold H.rspTo
      rw [hx, sliceTo_ok (by simp [header_length]), hout]
    rw [M.run_bind_ok (hto _ _ rfl)]
    obtain ⟨t2, e2, g2, w2, c2⟩ := H.extend_run (h := { h with tr := t1, rsp := Wire.header .challengeAuth ++ (body ++ zeros ss) ++ h.rsp.drop (2 + (body ++ zeros ss).length) })
      (bs := Wire.header .challengeAuth ++ body) w1 (by
        simp only [List.length_append, header_length]
        rw [g1, c1, List.length_append]
        omega)
    rw [M.run_bind_ok e2]
    rw [M.run_bind_ok (m := H.transcript) rfl]
    simp only
    have hgt : t2.get = txt := by rw [g2]; simp only; rw [g1, htxt]
    rw [hgt]
    rcases digest_cases c cr ng.algorithms.baseHashAlgoSelected txt with ⟨p1, p2⟩ | ⟨p1, p2⟩
    swap
    · exact hpan _ p1
    obtain ⟨sig, hs1, hs2⟩ := hbad.resolve_left (fun hx => hx p2.2.2)
    rw [lift_run p1]
    have hsw : ∀ x : HState, Responder.signWith m.slot.toNat slot env.seed (cr.hash ng.algorithms.baseHashAlgoSelected txt) x =
        (.ok sig, { x with signed := x.signed ++ [(m.slot.toNat, cr.hash ng.algorithms.baseHashAlgoSelected txt)] }) := by
      intro x; unfold Responder.signWith; simp only [hs1]
    rw [M.run_bind_ok (hsw _)]
    have hpatch : ∀ x : HState, x.rsp.length = h.rsp.length → Responder.patchRsp (2 + body.length) (2 + (body ++ zeros ss).length) sig x = (.panic .copyLength, x) := by
      intro x hx
      unfold Responder.patchRsp
      rw [if_pos (by omega), if_neg (by omega)]
    rw [M.run_bind_panic (hpatch { h with tr := t2, rsp := Wire.header .challengeAuth ++ (body ++ zeros ss) ++ h.rsp.drop (2 + (body ++ zeros ss).length), signed := h.signed ++ [(m.slot.toNat, cr.hash ng.algorithms.baseHashAlgoSelected txt)] }
      (by simp only [List.length_append, header_length, List.length_drop, zeros, List.length_replicate]; omega))]
    rfl

end
end Spdm
