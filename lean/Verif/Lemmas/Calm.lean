import Verif.Lemmas.RspCalls
import Verif.Lemmas.RspRun
import Verif.Lemmas.SafeMsgs
/-! Calls that do not abort.  `Calm m s`: running `m` in `s` does not panic. -/
namespace Spdm
open Spec

/-- No abort. -/
def Calm {σ α : Type} (m : M σ α) (s : σ) : Prop := (m s).1.isPanic = false

namespace Calm
variable {σ α β : Type}

theorem pure (a : α) (s : σ) : Calm (Pure.pure a : M σ α) s := rfl
theorem fail (e : Err) (s : σ) : Calm (M.fail e : M σ α) s := rfl
theorem lift {x : Res α} (h : x.isPanic = false) (s : σ) : Calm (M.lift x : M σ α) s := h

theorem bind {m : M σ α} {f : α → M σ β} {s : σ} (hm : Calm m s) (hf : ∀ a s', m s = (.ok a, s') → Calm (f a) s') : Calm (m >>= f) s := by
  unfold Calm at *
  rcases hr : m s with ⟨x, s'⟩
  cases x with
  | ok a => rw [M.run_bind_ok hr]; exact hf a s' hr
  | err e => rw [M.run_bind_err hr]; rfl
  | panic k => rw [hr] at hm; simp [Res.isPanic] at hm

theorem bind_lift {x : Res α} {f : α → M σ β} {s : σ} (hx : x.isPanic = false) (hf : ∀ a, x = .ok a → Calm (f a) s) : Calm (M.lift x >>= f) s := by
  refine bind (lift hx s) fun a s' h => ?_
  obtain ⟨h1, rfl⟩ := M.lift_ok_inv h
  exact hf a h1

theorem mapErr {m : M σ α} {s : σ} (f : Err → Err) (hm : Calm m s) : Calm (M.mapErr f m) s := by
  unfold Calm M.mapErr at *
  rcases hr : m s with ⟨x, s'⟩
  rw [hr] at hm
  cases x <;> simp_all [Res.isPanic]

theorem res_bind {x : Res α} {f : α → Res β} (hx : x.isPanic = false) (hf : ∀ a, x = .ok a → (f a).isPanic = false) : (x >>= f).isPanic = false := by
  cases x with
  | ok a => exact hf a rfl
  | err e => rfl
  | panic k => simp [Res.isPanic] at hx

end Calm

theorem H.write_calm {t : MsgType} {body : W Nat} {layout : Bytes} (hw : Writes body id layout) (h : HState) : Calm (H.write t body) h := by
  unfold Calm
  by_cases hr : 2 + layout.length ≤ h.rsp.length
  · rw [H.write_run hw hr]; rfl
  · obtain ⟨e, out, he, hx⟩ := write_full (t := t) hw (buf := h.rsp) (by omega)
    simp only [H.write, hx, Res.isPanic]

theorem H.extend_calm {h : HState} (hw : h.tr.WF) (bs : Bytes) : Calm (H.extend bs) h := by
  unfold Calm
  by_cases hr : h.tr.get.length + bs.length ≤ h.tr.buf.length
  · obtain ⟨t, hx, _⟩ := H.extend_run (h := h) hw hr
    rw [hx]; rfl
  · simp only [H.extend, Transcript.extend_full hw (by omega : h.tr.buf.length < h.tr.get.length + bs.length), Res.isPanic]

/-- Write a response and log it. -/
theorem reply_calm {t : MsgType} {body : W Nat} {layout : Bytes} (hwr : Writes body id layout) {st : RspState} {h : HState} (hw : h.tr.WF) :
    Calm (do
      let size ← H.write t body
      let out ← H.rspTo size
      H.extend out
      pure (size, st) : H (Nat × RspState)) h := by
  refine Calm.bind (H.write_calm hwr h) fun n h1 e1 => ?_
  obtain ⟨rfl, hn, rfl⟩ := H.write_inv hwr e1
  refine Calm.bind ?_ fun out h2 e2 => ?_
  · unfold Calm H.rspTo; rw [sliceTo_ok (by simp [header_length])]; rfl
  · obtain ⟨rfl, _⟩ := H.rspTo_inv e2
    exact Calm.bind (H.extend_calm hw _) fun _ _ _ => Calm.pure _ _

theorem replyLog_calm {t : MsgType} {body : W Nat} {layout : Bytes} (hwr : Writes body id layout) {req : Bytes} {st : RspState} {h : HState} (hw : h.tr.WF) :
    Calm (do
      let size ← H.write t body
      H.extend req
      let out ← H.rspTo size
      H.extend out
      pure (size, st) : H (Nat × RspState)) h := by
  refine Calm.bind (H.write_calm hwr h) fun n h1 e1 => ?_
  obtain ⟨rfl, hn, rfl⟩ := H.write_inv hwr e1
  refine Calm.bind (H.extend_calm hw _) fun _ h2 e2 => ?_
  obtain ⟨k2, _, r2, _⟩ := H.extend_inv (by exact hw) e2
  refine Calm.bind ?_ fun out h3 e3 => ?_
  · unfold Calm H.rspTo; rw [r2, sliceTo_ok (by simp [header_length])]; rfl
  · obtain ⟨rfl, _⟩ := H.rspTo_inv e3
    exact Calm.bind (H.extend_calm k2.wf _) fun _ _ _ => Calm.pure _ _

/-- A request of three bytes can be classified. -/
theorem parseHeader_calm (t : MsgType) {req : Bytes} (h3 : 3 ≤ req.length) : (t.parseHeader req).isPanic = false := by
  match req, h3 with
  | b0 :: b1 :: b2 :: rest, _ =>
    unfold MsgType.parseHeader
    rw [if_neg (by simp)]
    simp only [index, List.getElem?_cons_zero, List.getElem?_cons_succ]
    repeat' split
    all_goals first | rfl | simp_all

theorem index_calm {α : Type} {l : List α} {i : Nat} (h : i < l.length) : (index l i).isPanic = false := by rw [index_ok h]; rfl

theorem expect_calm (t : MsgType) {req : Bytes} (h3 : 3 ≤ req.length) : (Responder.expect t req).isPanic = false := by
  have := parseHeader_calm t h3
  unfold Responder.expect
  rcases hp : t.parseHeader req with (_ | _) | e | k
  · simp only; rw [index_ok (by omega)]; rfl
  · rfl
  · rfl
  · rw [hp] at this; simp [Res.isPanic] at this

theorem sliceFrom_calm {req : Bytes} (h3 : 3 ≤ req.length) : (sliceFrom req headerSize).isPanic = false := by
  unfold sliceFrom headerSize; rw [if_pos (by omega)]; rfl

theorem handleGetVersion_calm {req : Bytes} (h3 : 3 ≤ req.length) (h : HState) : Calm (Responder.handleGetVersion req) h := by
  unfold Responder.handleGetVersion
  refine Calm.bind_lift (sliceFrom_calm h3) fun body _ => Calm.bind_lift (GetVersion.safe.parse body) fun _ _ => ?_
  refine Calm.bind (by rfl) fun _ h1 e1 => ?_
  have h1e : h1 = { h with tr := h.tr.clear } := by
    unfold H.clear at e1; simp only [Prod.mk.injEq] at e1; exact e1.2.symm
  subst h1e
  refine Calm.bind (H.extend_calm (Transcript.clear_wf _) _) fun _ h2 e2 => ?_
  obtain ⟨k2, _⟩ := H.extend_inv (Transcript.clear_wf _) e2
  exact reply_calm (Version.writes default_wf) k2.wf

theorem versionHandle_calm {req : Bytes} (h3 : 3 ≤ req.length) (h : HState) : Calm (Responder.versionHandle req) h := by
  have := parseHeader_calm .getVersion h3
  unfold Responder.versionHandle
  rcases hp : MsgType.getVersion.parseHeader req with (_ | _) | e | k
  · simp only
    exact Calm.bind_lift (index_calm (by omega)) fun _ _ => Calm.fail _ _
  · exact handleGetVersion_calm h3 h
  · exact Calm.fail _ _
  · rw [hp] at this; simp [Res.isPanic] at this

theorem reset_calm {req : Bytes} (h3 : 3 ≤ req.length) {rest : H (Nat × RspState)} {h : HState} (hr : Calm rest h) : Calm (Responder.resetOnGetVersion req rest) h := by
  have := parseHeader_calm .getVersion h3
  unfold Responder.resetOnGetVersion
  rcases hp : MsgType.getVersion.parseHeader req with (_ | _) | e | k
  · exact hr
  · exact versionHandle_calm h3 h
  · exact Calm.fail _ _
  · rw [hp] at this; simp [Res.isPanic] at this

theorem parseFlags_calm {parse : String → Res UInt32} (hp : ∀ s, (parse s).isPanic = false) (l : List String) (acc : UInt32) :
    (Responder.parseFlags parse l acc).isPanic = false := by
  induction l generalizing acc with
  | nil => rfl
  | cons s ss ih => exact Calm.res_bind (hp s) fun _ _ => ih _

theorem rspFlags_calm (s : String) : (RspFlags.fromStr s).isPanic = false := by
  unfold RspFlags.fromStr; split <;> rfl

theorem capabilitiesHandle_calm {c : Cfg} {req : Bytes} (h3 : 3 ≤ req.length) {h : HState} (hw : h.tr.WF) : Calm (Responder.capabilitiesHandle c req) h := by
  unfold Responder.capabilitiesHandle
  refine reset_calm h3 (Calm.bind_lift (expect_calm _ h3) fun _ _ => Calm.bind_lift (sliceFrom_calm h3) fun body _ =>
    Calm.bind_lift (GetCapabilities.safe.parse body) fun m _ => Calm.bind (H.extend_calm hw _) fun _ h1 e1 => ?_)
  obtain ⟨k1, _⟩ := H.extend_inv hw e1
  refine Calm.bind_lift (Calm.res_bind (parseFlags_calm rspFlags_calm _ _) fun _ _ => rfl) fun r _ => ?_
  exact reply_calm (Capabilities.writes r) k1.wf

theorem algorithmsHandle_calm {caps : Caps} {req : Bytes} (h3 : 3 ≤ req.length)
    (ho : ∀ m, req.take 2 = Wire.header .negotiateAlgorithms → NegotiateAlgorithms.parseBody (req.drop 2) = .ok m → NonEmptyOffer m) {h : HState} (hw : h.tr.WF) :
    Calm (Responder.algorithmsHandle caps req) h := by
  unfold Responder.algorithmsHandle
  refine reset_calm h3 (Calm.bind_lift (expect_calm _ h3) fun _ hx => Calm.bind_lift (sliceFrom_calm h3) fun body hb =>
    Calm.bind_lift (NegotiateAlgorithms.safe.parse body) fun m hm => Calm.bind (H.extend_calm hw _) fun _ h1 e1 => ?_)
  obtain ⟨k1, _⟩ := H.extend_inv hw e1
  obtain ⟨_, hr⟩ := expect_ok_inv hx
  obtain ⟨_, rfl⟩ := sliceFrom_inv hb
  obtain ⟨_, _, _, hwf, _⟩ := NegotiateAlgorithms.inverts.parse hm
  obtain ⟨a, ha⟩ := chooseAlgorithms_ok hwf (ho m hr hm)
  have hans := chooseAlgorithms_inv hwf ha
  refine Calm.bind_lift (by rw [ha]; rfl) fun a' ha' => ?_
  rw [ha] at ha'
  simp only [Res.ok.injEq] at ha'
  subst ha'
  exact reply_calm (Algorithms.writes hans.len (by rw [hans.num]; exact hwf.num)) k1.wf

/-! ### Identity -/

theorem writeChain_calm (ch : CertificateChain) (buf : Bytes) : (Responder.writeChain ch buf).1.isPanic = false := by
  by_cases hl : (Wire.chain ch).length ≤ 65535
  · have hw := CertificateChain.writes hl (Writer.new buf) (by simp [Writer.WF, Writer.new])
    by_cases hr : (Wire.chain ch).length ≤ (Writer.new buf).room
    · simp only [Responder.writeChain, hw.1 hr, Res.isPanic]
    · obtain ⟨e, n', _, _, h3⟩ := hw.2 (by omega)
      simp only [Responder.writeChain, h3, Res.isPanic]
  · have hwl : ch.wireLength > 65535 := by
      have : (Wire.chain ch).length = ch.wireLength := by
        rw [CertificateChain.wireLength_eq, Wire.chain]; simp [zeros]; omega
      omega
    unfold Responder.writeChain CertificateChain.write
    rw [if_pos hwl]
    rfl

/-- The hash of the session can be computed for every message. -/
structure HashReady (c : Cfg) (cr : Crypto) (algo : UInt32) : Prop where
  provider : c.provider = true
  ring : RingHash algo
  fits : ∀ msg, (cr.hash algo msg).length ≤ c.maxDigestSize

theorem HashReady.digest {c : Cfg} {cr : Crypto} {algo : UInt32} (h : HashReady c cr algo) (msg : Bytes) : cr.digest c algo msg = .ok (cr.hash algo msg) :=
  digest_run h.provider h.ring (h.fits msg)

theorem hashLoop_calm {c : Cfg} {cr : Crypto} {algo : UInt32} {chains : List (Option CertificateChain)} (hh : (∃ ch, some ch ∈ chains) → HashReady c cr algo)
    (n i : Nat) (buf : Bytes) (ds : List (Option Bytes)) (hn : i + n ≤ chains.length) (hd : i + n ≤ ds.length) :
    (Responder.hashLoop c cr algo chains n i buf ds).isPanic = false := by
  induction n generalizing i buf ds with
  | zero => rfl
  | succ n ih =>
    have hi : i < chains.length := by omega
    simp only [Responder.hashLoop, index_ok hi, Res.ok_bind]
    cases hc : chains[i] with
    | none => exact ih (i + 1) buf ds (by omega) (by omega)
    | some ch =>
      simp only
      have hx := hh ⟨ch, by rw [← hc]; exact List.getElem_mem hi⟩
      rcases hwc : Responder.writeChain ch buf with ⟨x, out⟩
      refine Calm.res_bind (by have := writeChain_calm ch buf; rwa [hwc] at this) fun size hs => ?_
      subst hs
      obtain ⟨h1, h2, _, h4, h5⟩ := writeChain_inv hwc
      simp only
      rw [sliceTo_ok (by omega), Res.ok_bind, hx.digest, Res.ok_bind]
      have hset : ∀ v, setIndex ds i v = .ok (ds.set i v) := by
        intro v; unfold setIndex; rw [if_pos (by omega)]
      rw [hset, Res.ok_bind]
      exact ih (i + 1) _ _ (by omega) (by simp; omega)

theorem handleGetDigests_calm {c : Cfg} {cr : Crypto} {slots : List (Option FilledSlot)} (hl : slots.length = c.numSlots) (h8 : c.numSlots ≤ 8)
    {ng : Negotiated} {req : Bytes} (hh : (∃ s, some s ∈ slots) → HashReady c cr ng.algorithms.baseHashAlgoSelected) {h : HState} (hw : h.tr.WF) :
    Calm (Responder.handleGetDigests c cr ng (chainsOf slots) req) h := by
  have hl' : (chainsOf slots).length = c.numSlots := by simpa using hl
  obtain ⟨mask, hm, hm2⟩ := createSlotMask_run hl' h8
  have hh' : (∃ ch, some ch ∈ chainsOf slots) → HashReady c cr ng.algorithms.baseHashAlgoSelected := by
    rintro ⟨ch, hch⟩
    simp only [chainsOf, List.mem_map] at hch
    obtain ⟨o, ho, he⟩ := hch
    cases o with
    | none => simp at he
    | some s => exact hh ⟨s, ho⟩
  unfold Responder.handleGetDigests
  rw [show ∀ f : UInt8 → H (Nat × RspState), (M.lift (Responder.createSlotMask c (chainsOf slots)) >>= f) = f mask from fun f => by funext x; exact lift_run hm]
  refine Calm.bind_lift (hashLoop_calm hh' _ _ _ _ (by omega) (by simp)) fun ds hds => ?_
  have hd := hashCertChains_inv hl' h8 hm hds
  have hmask : ∀ i, i < 8 → (mask.toNat.testBit i = true ↔ ∃ d, ds[i]? = some (some d)) := by
    intro i hi
    rw [hd.mask i hi, hd.hash i]
    constructor
    · rintro ⟨ch, hch⟩; rw [hch]; exact ⟨_, rfl⟩
    · rintro ⟨d, hd'⟩
      cases hx : (chainsOf slots)[i]? with
      | none => rw [hx] at hd'; simp at hd'
      | some o =>
        cases o with
        | none => rw [hx] at hd'; simp at hd'
        | some ch => exact ⟨ch, rfl⟩
  exact replyLog_calm (Digests.writes_gen h8 hd.len hmask) hw

theorem handleGetCertificate_calm {c : Cfg} {slots : List (Option FilledSlot)} (hl : slots.length = c.numSlots)
    {ng : Negotiated} {req : Bytes} (h3 : 3 ≤ req.length) {h : HState} (hw : h.tr.WF) :
    Calm (Responder.handleGetCertificate c ng (chainsOf slots) req) h := by
  have hl' : (chainsOf slots).length = c.numSlots := by simpa using hl
  unfold Responder.handleGetCertificate
  refine Calm.bind_lift (sliceFrom_calm h3) fun body _ => Calm.bind_lift (GetCertificate.safe.parse body) fun m _ => ?_
  split
  · exact Calm.fail _ _
  next hs =>
    have hi : m.slot.toNat < (chainsOf slots).length := by omega
    have hport : (Responder.certPortion c (chainsOf slots) m.slot).isPanic = false ∧
        ∀ x, Responder.certPortion c (chainsOf slots) m.slot = .ok x → x.2.toNat ≤ x.1.length := by
      unfold Responder.certPortion
      rw [index_ok hi, Res.ok_bind]
      cases hc : (chainsOf slots)[m.slot.toNat] with
      | none =>
        refine ⟨rfl, fun x hx => ?_⟩
        simp only [Res.ok.injEq] at hx
        subst hx
        simp
      | some ch =>
        simp only
        rcases hwc : Responder.writeChain ch (List.replicate c.maxCertChainSize 0) with ⟨x, out⟩
        refine ⟨Calm.res_bind (by have := writeChain_calm ch (List.replicate c.maxCertChainSize 0); rwa [hwc] at this) fun _ _ => rfl, fun y hy => ?_⟩
        obtain ⟨n, hn, hy⟩ := res_bind_ok hy
        subst hn
        obtain ⟨h1, h2, h3, h4, h5⟩ := writeChain_inv hwc
        simp only [Pure.pure, Res.ok.injEq] at hy
        subst hy
        simp only
        rw [ofNat_toNat16 (by omega)]
        omega
    refine Calm.bind_lift hport.1 fun x hx => ?_
    obtain ⟨buf, portion⟩ := x
    exact replyLog_calm (Certificate.writes (m := ⟨m.slot, portion, 0, buf⟩) (hport.2 _ hx)) hw

theorem idAuthHandle_calm {c : Cfg} {cr : Crypto} {slots : List (Option FilledSlot)} (hl : slots.length = c.numSlots) (h8 : c.numSlots ≤ 8)
    {ng : Negotiated} {req : Bytes} (h3 : 3 ≤ req.length)
    (hh : req.take 2 = Wire.header .getDigests → (∃ s, some s ∈ slots) → HashReady c cr ng.algorithms.baseHashAlgoSelected) {h : HState} (hw : h.tr.WF) :
    Calm (Responder.idAuthHandle c cr ng (chainsOf slots) req) h := by
  unfold Responder.idAuthHandle
  refine reset_calm h3 (Calm.bind_lift (parseHeader_calm _ h3) fun b hb => ?_)
  cases b with
  | true => exact handleGetDigests_calm hl h8 (hh (parseHeader_true hb).2) hw
  | false => exact Calm.bind_lift (expect_calm _ h3) fun _ _ => handleGetCertificate_calm hl h3 hw

/-! ### Challenge -/

theorem chainDigest_calm {c : Cfg} {cr : Crypto} {algo : UInt32} (hh : HashReady c cr algo) (ch : CertificateChain) :
    (Responder.chainDigest c cr algo ch).isPanic = false ∧ ∀ d, Responder.chainDigest c cr algo ch = .ok d → ∃ data, d = cr.hash algo data := by
  unfold Responder.chainDigest
  rcases hwc : Responder.writeChain ch (List.replicate c.maxCertChainSize 0) with ⟨x, out⟩
  have hx : x.isPanic = false := by have := writeChain_calm ch (List.replicate c.maxCertChainSize 0); rwa [hwc] at this
  cases x with
  | ok n =>
    obtain ⟨h1, h2, _, h4, h5⟩ := writeChain_inv hwc
    simp only [Res.ok_bind]
    rw [sliceTo_ok (by omega), Res.ok_bind, hh.digest]
    exact ⟨rfl, fun d hd => ⟨_, by simpa using hd.symm⟩⟩
  | err e => exact ⟨rfl, fun d hd => by simp [bind, Res.bind] at hd⟩
  | panic k => simp [Res.isPanic] at hx

theorem slotAt_calm (slots : List (Option FilledSlot)) (i : Nat) : (Responder.slotAt slots i).isPanic = false := by
  unfold Responder.slotAt; split <;> rfl

theorem challengeHandle_calm {c : Cfg} {cr : Crypto} {env : Env} {slots : List (Option FilledSlot)} (hl : slots.length = c.numSlots) (h8 : c.numSlots ≤ 8)
    {ng : Negotiated} {req : Bytes} (h3 : 3 ≤ req.length)
    (hready : req.take 2 = Wire.header .challenge → ∃ ds ss, BaseHashAlgo.getDigestSize c ng.algorithms.baseHashAlgoSelected = .ok ds ∧
      BaseAsymAlgo.getSignatureSize c ng.algorithms.baseAsymAlgoSelected = .ok ss ∧
      ((∃ s, some s ∈ slots) → HashReady c cr ng.algorithms.baseHashAlgoSelected) ∧
      ∀ s data sig, some s ∈ slots → s.sign env.seed (cr.hash ng.algorithms.baseHashAlgoSelected data) = some sig → sig.length = ss)
    {h : HState} (hw : h.tr.WF) : Calm (Responder.challengeHandle c cr env ng slots req) h := by
  unfold Responder.challengeHandle
  refine reset_calm h3 (Calm.bind_lift (expect_calm _ h3) fun _ hx => ?_)
  obtain ⟨ds, ss, hds, hss, hhr, hsig⟩ := hready (expect_ok_inv hx).2
  have hdsl : ds ≤ c.maxDigestSize := by obtain ⟨_, _, _, h⟩ := getDigestSize_ok.mp hds; exact h
  have hssl : ss ≤ c.maxSignatureSize := by obtain ⟨_, _, _, h⟩ := getSignatureSize_ok.mp hss; exact h
  refine Calm.bind_lift (by rw [hds]; rfl) fun ds' hds' => ?_
  rw [hds] at hds'; simp only [Res.ok.injEq] at hds'; subst hds'
  refine Calm.bind_lift (by rw [hss]; rfl) fun ss' hss' => ?_
  rw [hss] at hss'; simp only [Res.ok.injEq] at hss'; subst hss'
  refine Calm.bind_lift (sliceFrom_calm h3) fun body _ => Calm.bind_lift ((Challenge.safe c).parse body) fun m _ =>
    Calm.bind_lift (slotAt_calm _ _) fun slot hslot => ?_
  have hs : slots[m.slot.toNat]? = some (some slot) := by
    unfold Responder.slotAt at hslot
    rcases hg : slots[m.slot.toNat]? with _ | _ | s <;> simp only [hg] at hslot <;> simp_all
  have hmem : some slot ∈ slots := List.mem_of_getElem? hs
  have hlt : m.slot.toNat < c.numSlots := by have := (List.getElem?_eq_some_iff.mp hs).1; omega
  have hh := hhr ⟨slot, hmem⟩
  refine Calm.bind_lift (chainDigest_calm hh _).1 fun d hd => ?_
  obtain ⟨data, rfl⟩ := (chainDigest_calm hh _).2 d hd
  refine Calm.bind (H.extend_calm hw _) fun _ h1 e1 => ?_
  obtain ⟨k1, _⟩ := H.extend_inv hw e1
  obtain ⟨mask, hm1, hm2⟩ := createSlotMask_run hl h8
  refine Calm.bind_lift (by rw [hm1]; rfl) fun mask' hm' => ?_
  rw [hm1] at hm'; simp only [Res.ok.injEq] at hm'; subst hm'
  have hnew : ChallengeAuth.new c m.slot mask (Responder.useMutualAuth ng.caps) (cr.hash ng.algorithms.baseHashAlgoSelected data) env.nonce (List.replicate ds 0)
      (OpaqueData.dflt c) (List.replicate ss 0) = .ok ⟨m.slot, mask, Responder.useMutualAuth ng.caps, cr.hash ng.algorithms.baseHashAlgoSelected data, env.nonce,
    List.replicate ds 0, OpaqueData.dflt c, List.replicate ss 0⟩ := by
      unfold ChallengeAuth.new
      rw [if_pos ⟨hh.fits _, by simpa using hdsl, by simpa using hssl⟩]
  refine Calm.bind_lift (by rw [hnew]; rfl) fun auth hauth => ?_
  rw [hnew] at hauth; simp only [Res.ok.injEq] at hauth; subst hauth
  obtain ⟨bodyA, hwr, hlay, hbl⟩ := auth_layout (mask := mask) (mu := Responder.useMutualAuth ng.caps) (d := cr.hash ng.algorithms.baseHashAlgoSelected data)
    (n := env.nonce) (ds := ds) (ss := ss) hlt h8
  have hbz : (bodyA ++ zeros ss).length = bodyA.length + ss := by simp [zeros]
  refine Calm.bind (Calm.mapErr _ (H.write_calm hwr h1)) fun size h2 e2 => ?_
  have e2' : H.write .challengeAuth ((⟨m.slot, mask, Responder.useMutualAuth ng.caps, cr.hash ng.algorithms.baseHashAlgoSelected data, env.nonce,
    List.replicate ds 0, OpaqueData.dflt c, List.replicate ss 0⟩ : ChallengeAuth).writeBody c) h1 = (.ok size, h2) := by
    unfold M.mapErr at e2
    rcases hx : H.write .challengeAuth ((⟨m.slot, mask, Responder.useMutualAuth ng.caps, cr.hash ng.algorithms.baseHashAlgoSelected data, env.nonce,
      List.replicate ds 0, OpaqueData.dflt c, List.replicate ss 0⟩ : ChallengeAuth).writeBody c) h1 with ⟨x, y⟩
    rw [hx] at e2
    cases x <;> simp_all
  obtain ⟨rfl, hn2, rfl⟩ := H.write_inv hwr e2'
  have hsub : Responder.subChecked (2 + (bodyA ++ zeros ss).length) ss = .ok (2 + bodyA.length) := by
    unfold Responder.subChecked; rw [if_pos (by omega)]; congr 1; omega
  refine Calm.bind_lift (by rw [hsub]; rfl) fun st hst => ?_
  rw [hsub] at hst; simp only [Res.ok.injEq] at hst; subst hst
  refine Calm.bind ?_ fun out h3 e3 => ?_
  · unfold Calm H.rspTo; rw [sliceTo_ok (by simp [header_length])]; rfl
  obtain ⟨rfl, _⟩ := H.rspTo_inv e3
  refine Calm.bind (H.extend_calm k1.wf _) fun _ h4 e4 => ?_
  obtain ⟨k4, _, r4, _⟩ := H.extend_inv (by exact k1.wf) e4
  refine Calm.bind (by rfl) fun t h5 e5 => ?_
  have h5e : h5 = h4 := by unfold H.transcript at e5; simp only [Prod.mk.injEq] at e5; exact e5.2.symm
  subst h5e
  refine Calm.bind_lift (by rw [hh.digest]; rfl) fun m1 hm1 => ?_
  rw [hh.digest] at hm1; simp only [Res.ok.injEq] at hm1; subst hm1
  rcases hsg : slot.sign env.seed (cr.hash ng.algorithms.baseHashAlgoSelected t) with _ | sig
  · refine Calm.bind ?_ fun sig h6 e6 => ?_
    · unfold Calm Responder.signWith; simp only [hsg, Res.isPanic]
    · unfold Responder.signWith at e6; simp [hsg] at e6
  · refine Calm.bind ?_ fun sig' h6 e6 => ?_
    · unfold Calm Responder.signWith; simp only [hsg, Res.isPanic]
    · unfold Responder.signWith at e6
      simp only [hsg, Prod.mk.injEq, Res.ok.injEq] at e6
      obtain ⟨rfl, rfl⟩ := e6
      have hlen := hsig slot t sig hmem hsg
      refine Calm.bind ?_ fun _ _ _ => Calm.pure _ _
      unfold Calm Responder.patchRsp
      have hr4 := congrArg List.length r4
      simp only [List.length_append, header_length, List.length_drop, hbz] at hr4 hn2
      simp only
      rw [if_pos (by simp only [hbz]; omega), if_pos (by simp only [hbz]; omega)]
      rfl

end Spdm
