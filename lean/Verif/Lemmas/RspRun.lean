import Verif.Lemmas.RspInv
/-! Requests the responder does accept: with a well-formed request in the right state and room in the buffers, the handler succeeds. -/
namespace Spdm
open Spec

theorem lift_run {σ α β : Type} {x : Res α} {a : α} {f : α → M σ β} {s : σ} (h : x = .ok a) : (M.lift x >>= f) s = f a s := by
  rw [M.run_bind_ok (m := M.lift x) (a := a) (s' := s) (by rw [M.run_lift, h])]

theorem reply_run {t : MsgType} {body : W Nat} {layout : Bytes} (hwr : Writes body id layout) {st : RspState} {h : HState} (hw : h.tr.WF)
    (hb : 2 + layout.length ≤ h.rsp.length) (ht : h.tr.get.length + (2 + layout.length) ≤ h.tr.buf.length) :
    ∃ h', (do
      let size ← H.write t body
      let out ← H.rspTo size
      H.extend out
      pure (size, st) : H (Nat × RspState)) h = (.ok (2 + layout.length, st), h') := by
  rw [M.run_bind_ok (H.write_run hwr hb)]
  have h2 : H.rspTo (2 + layout.length) { h with rsp := Wire.header t ++ layout ++ h.rsp.drop (2 + layout.length) } =
      (.ok (Wire.header t ++ layout), { h with rsp := Wire.header t ++ layout ++ h.rsp.drop (2 + layout.length) }) := by
    unfold H.rspTo
    simp only
    rw [sliceTo_ok (by simp [header_length]), msg_take]
  rw [M.run_bind_ok h2]
  obtain ⟨t', h3, _⟩ := H.extend_run (h := { h with rsp := Wire.header t ++ layout ++ h.rsp.drop (2 + layout.length) }) (bs := Wire.header t ++ layout) hw
    (by simp only [List.length_append, header_length]; omega)
  rw [M.run_bind_ok h3]
  exact ⟨_, rfl⟩

theorem logReply_run {t : MsgType} {body : W Nat} {layout : Bytes} (hwr : Writes body id layout) {req : Bytes} {st : RspState} {h : HState} (hw : h.tr.WF)
    (hb : 2 + layout.length ≤ h.rsp.length) (ht : h.tr.get.length + req.length + (2 + layout.length) ≤ h.tr.buf.length) :
    ∃ h', (do
      H.extend req
      let size ← H.write t body
      let out ← H.rspTo size
      H.extend out
      pure (size, st) : H (Nat × RspState)) h = (.ok (2 + layout.length, st), h') := by
  obtain ⟨t', h3, g3, w3, c3⟩ := H.extend_run (h := h) (bs := req) hw (by omega)
  rw [M.run_bind_ok h3]
  exact reply_run hwr w3 hb (by simp only; rw [g3, c3, List.length_append]; omega)

theorem replyLog_run {t : MsgType} {body : W Nat} {layout : Bytes} (hwr : Writes body id layout) {req : Bytes} {st : RspState} {h : HState} (hw : h.tr.WF)
    (hb : 2 + layout.length ≤ h.rsp.length) (ht : h.tr.get.length + req.length + (2 + layout.length) ≤ h.tr.buf.length) :
    ∃ h', (do
      let size ← H.write t body
      H.extend req
      let out ← H.rspTo size
      H.extend out
      pure (size, st) : H (Nat × RspState)) h = (.ok (2 + layout.length, st), h') := by
  rw [M.run_bind_ok (H.write_run hwr hb)]
  obtain ⟨t', h3, g3, w3, c3⟩ := H.extend_run (h := { h with rsp := Wire.header t ++ layout ++ h.rsp.drop (2 + layout.length) }) (bs := req) hw
    (by simp only; omega)
  rw [M.run_bind_ok h3]
  have h2 : H.rspTo (2 + layout.length) { h with rsp := Wire.header t ++ layout ++ h.rsp.drop (2 + layout.length), tr := t' } =
      (.ok (Wire.header t ++ layout), { h with rsp := Wire.header t ++ layout ++ h.rsp.drop (2 + layout.length), tr := t' }) := by
    unfold H.rspTo
    simp only
    rw [sliceTo_ok (by simp [header_length]), msg_take]
  rw [M.run_bind_ok h2]
  obtain ⟨t2, h4, _⟩ := H.extend_run (h := { h with rsp := Wire.header t ++ layout ++ h.rsp.drop (2 + layout.length), tr := t' }) (bs := Wire.header t ++ layout) w3
    (by simp only [List.length_append, header_length] at g3 c3 ⊢; rw [g3, c3]; simp only [List.length_append]; omega)
  rw [M.run_bind_ok h4]
  exact ⟨_, rfl⟩

/-- Length of the VERSION response. -/
theorem version_length : (Wire.version ⟨2, supportedVersions⟩).length = 8 := by decide

theorem split_body (t : MsgType) (body : Bytes) : sliceFrom (Wire.header t ++ body) headerSize = .ok body := by
  unfold sliceFrom headerSize
  rw [if_pos (by simp [header_length])]
  rw [List.drop_left' (by rw [header_length])]

theorem versionHandle_run {body : Bytes} (hbody : (GetVersion.parseBody body) = .ok ()) (hb1 : 1 ≤ body.length) {h : HState}
    (hb : 10 ≤ h.rsp.length) (ht : body.length + 12 ≤ h.tr.buf.length) :
    ∃ n h', Responder.versionHandle (Wire.header .getVersion ++ body) h = (.ok (n, .capabilities), h') := by
  unfold Responder.versionHandle
  rw [header_append hb1]
  simp only [decide_true]
  unfold Responder.handleGetVersion
  rw [lift_run (split_body _ _), lift_run hbody]
  rw [M.run_bind_ok (m := H.clear) rfl]
  obtain ⟨h', e⟩ := logReply_run (t := .version) (req := Wire.header .getVersion ++ body) (st := .capabilities) (Version.writes default_wf) (h := { h with tr := h.tr.clear }) (Transcript.clear_wf _)
    (by have := version_length; simp only at this ⊢; rw [show Wire.version Version.default = Wire.version ⟨2, supportedVersions⟩ from rfl, this]; omega)
    (by have := version_length; simp only [Transcript.clear_get, Transcript.clear_buf, List.length_append, header_length, List.length_nil] at this ⊢; rw [show Wire.version Version.default = Wire.version ⟨2, supportedVersions⟩ from rfl, this]; omega)
  exact ⟨_, h', e⟩

theorem resetOnGetVersion_other {t : MsgType} (ht : t ≠ .getVersion) {req : Bytes} (h3 : 3 ≤ req.length) (hr : req.take 2 = Wire.header t) (rest : H (Nat × RspState)) :
    Responder.resetOnGetVersion req rest = rest := by
  unfold Responder.resetOnGetVersion
  rw [header_run h3 hr, decide_eq_false (fun h => ht h.symm)]

theorem capabilities_run {c : Cfg} {m : GetCapabilities} (hm : OnlyBits reqFlagBit m.flags.toNat) {tail : Bytes} {r : Capabilities}
    (hr : Responder.configToCapabilities c = .ok r) {h : HState} (hw : h.tr.WF) (hb : 12 ≤ h.rsp.length)
    (ht : h.tr.get.length + (12 + tail.length) + 12 ≤ h.tr.buf.length) :
    ∃ n h', Responder.capabilitiesHandle c (Wire.header .getCapabilities ++ Wire.getCapabilities m ++ tail) h = (.ok (n, .algorithms ⟨m.ctExponent, m.flags, r.ctExponent, r.flags⟩), h') := by
  have hl : (Wire.getCapabilities m).length = 10 := by simp [Wire.getCapabilities, zeros, le_length]
  have hl2 : (Wire.capabilities r).length = 10 := by simp [Wire.capabilities, zeros, le_length]
  have h3 : 3 ≤ (Wire.header .getCapabilities ++ (Wire.getCapabilities m ++ tail)).length := by simp [header_length, hl]; omega
  have htk : (Wire.header .getCapabilities ++ (Wire.getCapabilities m ++ tail)).take 2 = Wire.header .getCapabilities := List.take_left' (by rw [header_length])
  rw [List.append_assoc]
  unfold Responder.capabilitiesHandle
  rw [resetOnGetVersion_other (t := .getCapabilities) (by decide) h3 htk]
  rw [lift_run (expect_ok h3 htk), lift_run (split_body _ _), lift_run (x := GetCapabilities.parseBody (Wire.getCapabilities m ++ tail)) (a := m) ((GetCapabilities.reads hm).parse tail)]
  obtain ⟨t', e3, g3, w3, c3⟩ := H.extend_run (h := h) (bs := Wire.header .getCapabilities ++ (Wire.getCapabilities m ++ tail)) hw (by simp [header_length, hl]; omega)
  rw [M.run_bind_ok e3, lift_run hr]
  obtain ⟨h', e⟩ := reply_run (t := .capabilities) (Capabilities.writes r) (st := .algorithms ⟨m.ctExponent, m.flags, r.ctExponent, r.flags⟩) (h := { h with tr := t' }) w3
    (by simp only; omega) (by simp only; rw [g3, c3]; simp only [List.length_append, header_length, hl, hl2]; omega)
  exact ⟨_, _, e⟩

theorem algorithms_run {caps : Caps} {m : NegotiateAlgorithms} (hm : NegotiateWF m) (h0 : NonEmptyOffer m) {req : Bytes} (h3 : 3 ≤ req.length)
    (hr : req.take 2 = Wire.header .negotiateAlgorithms) (hp : NegotiateAlgorithms.parseBody (req.drop 2) = .ok m) {h : HState} (hw : h.tr.WF)
    (hb : 36 + 4 * m.numAlgorithmRequests.toNat ≤ h.rsp.length)
    (ht : h.tr.get.length + req.length + (36 + 4 * m.numAlgorithmRequests.toNat) ≤ h.tr.buf.length) :
    ∃ n h' a, Responder.chooseAlgorithms m = .ok a ∧ Responder.algorithmsHandle caps req h = (.ok (n, .idAuth ⟨caps, a⟩), h') := by
  obtain ⟨a, ha⟩ := chooseAlgorithms_ok hm h0
  have hans := chooseAlgorithms_inv hm ha
  have hnum := hm.num
  have hl : (Wire.algorithms a).length = 34 + 4 * m.numAlgorithmRequests.toNat := by
    have := hans.num
    have hlen := hans.len
    have hf : ∀ l : List AlgorithmRequest, (l.flatMap Wire.alg).length = 4 * l.length := by
      intro l
      induction l with
      | nil => rfl
      | cons x xs ih => rw [List.flatMap_cons, List.length_append, ih]; simp [Wire.alg, le_length]; omega
    simp only [Wire.algorithms, List.length_append, hf, List.length_take, le_length, zeros, List.length_replicate, List.length_cons, List.length_nil]
    rw [this, Nat.min_eq_left (by omega)]
  unfold Responder.algorithmsHandle
  rw [resetOnGetVersion_other (t := .negotiateAlgorithms) (by decide) h3 hr]
  have hsl : sliceFrom req headerSize = .ok (req.drop 2) := by
    unfold sliceFrom headerSize; rw [if_pos (by omega)]
  rw [lift_run (expect_ok h3 hr), lift_run hsl, lift_run hp]
  obtain ⟨t', e3, g3, w3, c3⟩ := H.extend_run (h := h) (bs := req) hw (by omega)
  rw [M.run_bind_ok e3, lift_run ha]
  obtain ⟨h', e⟩ := reply_run (t := .algorithms) (Algorithms.writes hans.len (by rw [hans.num]; exact hm.num)) (st := .idAuth ⟨caps, a⟩) (h := { h with tr := t' }) w3
    (by simp only; omega) (by simp only; rw [g3, c3]; simp only [List.length_append, hl]; omega)
  exact ⟨_, _, _, ha, e⟩

/-- Every filled slot can be hashed: the chain fits its buffer, the hash is provided and fits. -/
structure Hashable (c : Cfg) (cr : Crypto) (algo : UInt32) (ch : CertificateChain) : Prop where
  provider : c.provider = true
  ring : RingHash algo
  len : (Wire.chain ch).length ≤ c.maxCertChainSize
  max : (Wire.chain ch).length ≤ 65535
  digest : (cr.hash algo (Wire.chain ch)).length ≤ c.maxDigestSize

theorem hashLoop_run (c : Cfg) (cr : Crypto) (algo : UInt32) (chains : List (Option CertificateChain)) (hh : ∀ ch, some ch ∈ chains → Hashable c cr algo ch)
    (n i : Nat) (buf : Bytes) (ds : List (Option Bytes)) (hb : buf.length = c.maxCertChainSize) (hn : i + n ≤ chains.length) (hd : i + n ≤ ds.length) :
    ∃ ds', Responder.hashLoop c cr algo chains n i buf ds = .ok ds' := by
  induction n generalizing i buf ds with
  | zero => exact ⟨_, rfl⟩
  | succ n ih =>
    have hi : i < chains.length := by omega
    simp only [Responder.hashLoop, index_ok hi, Res.ok_bind]
    cases hc : chains[i] with
    | none => exact ih (i + 1) buf ds hb (by omega) (by omega)
    | some ch =>
      simp only
      have hx := hh ch (by rw [← hc]; exact List.getElem_mem hi)
      have h1 := hx.len
      rw [writeChain_run hx.max (by omega)]
      simp only [Res.ok_bind]
      rw [sliceTo_ok (by simp), List.take_left' rfl, Res.ok_bind, digest_run hx.provider hx.ring hx.digest]
      simp only [Res.ok_bind]
      have hset : setIndex ds i (some (cr.hash algo (Wire.chain ch))) = .ok (ds.set i (some (cr.hash algo (Wire.chain ch)))) := by
        unfold setIndex
        rw [if_pos (by omega)]
      rw [hset, Res.ok_bind]
      exact ih (i + 1) _ _ (by simp; omega) (by omega) (by simp; omega)

/-- Length of the digests of the filled slots. -/
def digestBytes (cr : Crypto) (algo : UInt32) (chains : List (Option CertificateChain)) : Bytes :=
  chains.flatMap fun o => match o with | none => [] | some ch => cr.hash algo (Wire.chain ch)

theorem digests_layout {c : Cfg} {cr : Crypto} {algo : UInt32} {chains : List (Option CertificateChain)} {d : Digests}
    (h : DigestsOf c cr algo chains d) : Wire.digests d = [0, d.slotMask] ++ digestBytes cr algo chains := by
  have : d.digests = chains.map (fun o => o.map fun ch => cr.hash algo (Wire.chain ch)) := by
    apply List.ext_getElem?
    intro i
    rw [h.hash i, List.getElem?_map]
  have hf : (fun o : Option CertificateChain => (o.map fun ch => cr.hash algo (Wire.chain ch)).getD []) =
      fun o => match o with | none => [] | some ch => cr.hash algo (Wire.chain ch) := by
    funext o; cases o <;> rfl
  simp only [Wire.digests, this, digestBytes, List.flatMap_map, hf]
  rfl

theorem getDigests_run {c : Cfg} {cr : Crypto} {slots : List (Option FilledSlot)} (hl : slots.length = c.numSlots) (h8 : c.numSlots ≤ 8)
    {ng : Negotiated} {req : Bytes} (h3 : 3 ≤ req.length) (hr : req.take 2 = Wire.header .getDigests)
    (hh : ∀ ch, some ch ∈ chainsOf slots → Hashable c cr ng.algorithms.baseHashAlgoSelected ch) {h : HState} (hw : h.tr.WF)
    (hb : 4 + (digestBytes cr ng.algorithms.baseHashAlgoSelected (chainsOf slots)).length ≤ h.rsp.length)
    (ht : h.tr.get.length + req.length + (4 + (digestBytes cr ng.algorithms.baseHashAlgoSelected (chainsOf slots)).length) ≤ h.tr.buf.length) :
    ∃ n h', Responder.idAuthHandle c cr ng (chainsOf slots) req h = (.ok (n, .idAuth ng), h') := by
  have hl' : (chainsOf slots).length = c.numSlots := by simpa using hl
  unfold Responder.idAuthHandle
  rw [resetOnGetVersion_other (t := .getDigests) (by decide) h3 hr]
  rw [lift_run (header_run h3 hr .getDigests)]
  simp only [decide_true, if_true]
  obtain ⟨mask, hm, hm2⟩ := createSlotMask_run hl' h8
  obtain ⟨ds, hds⟩ := hashLoop_run c cr ng.algorithms.baseHashAlgoSelected (chainsOf slots) hh c.numSlots 0 (List.replicate c.maxCertChainSize 0) (List.replicate c.numSlots none)
    (by simp) (by omega) (by simp)
  have hd := hashCertChains_inv hl' h8 hm hds
  unfold Responder.handleGetDigests
  rw [lift_run hm, lift_run (x := Responder.hashCertChains c cr ng.algorithms.baseHashAlgoSelected (chainsOf slots)) (a := ds) hds]
  have hmask : ∀ i, i < 8 → (mask.toNat.testBit i = true ↔ ∃ d, ds[i]? = some (some d)) := by
    intro i hi
    rw [hd.mask i hi, hd.hash i]
    constructor
    · rintro ⟨ch, hch⟩; rw [hch]; exact ⟨_, rfl⟩
    · rintro ⟨d, hd'⟩
      cases hx : (chainsOf slots)[i]? with
      | none => rw [hx] at hd'; simp at hd'
      | some o =>
        cases o with
        | none => rw [hx] at hd'; simp at hd'
        | some ch => exact ⟨ch, rfl⟩
  have hlen : (Wire.digests ⟨mask, ds⟩).length = 2 + (digestBytes cr ng.algorithms.baseHashAlgoSelected (chainsOf slots)).length := by
    rw [digests_layout hd, List.length_append]; rfl
  obtain ⟨h', e⟩ := replyLog_run (t := .digests) (req := req) (st := .idAuth ng) (Digests.writes_gen h8 hd.len hmask) hw (by omega) (by omega)
  exact ⟨_, h', e⟩

/-- The certificate chain a slot is served with. -/
def servedChain (chains : List (Option CertificateChain)) (i : Nat) : Bytes :=
  match chains[i]? with
  | some (some ch) => Wire.chain ch
  | _ => []

theorem getCertificate_run {c : Cfg} {cr : Crypto} {slots : List (Option FilledSlot)} (hl : slots.length = c.numSlots)
    {ng : Negotiated} {m : GetCertificate} {tail : Bytes} (hs : m.slot.toNat < c.numSlots)
    (hfit : (servedChain (chainsOf slots) m.slot.toNat).length ≤ c.maxCertChainSize) (hmax : (servedChain (chainsOf slots) m.slot.toNat).length ≤ 65535)
    {h : HState} (hw : h.tr.WF)
    (hb : 8 + (servedChain (chainsOf slots) m.slot.toNat).length ≤ h.rsp.length)
    (ht : h.tr.get.length + (8 + tail.length) + (8 + (servedChain (chainsOf slots) m.slot.toNat).length) ≤ h.tr.buf.length) :
    ∃ n h', Responder.idAuthHandle c cr ng (chainsOf slots) (Wire.header .getCertificate ++ Wire.getCertificate m ++ tail) h = (.ok (n, .challenge ng), h') := by
  have hl' : (chainsOf slots).length = c.numSlots := by simpa using hl
  have hq : (Wire.getCertificate m).length = 6 := by simp [Wire.getCertificate, zeros, le_length]
  have h3 : 3 ≤ (Wire.header .getCertificate ++ (Wire.getCertificate m ++ tail)).length := by simp [header_length, hq]; omega
  have htk : (Wire.header .getCertificate ++ (Wire.getCertificate m ++ tail)).take 2 = Wire.header .getCertificate := List.take_left' (by rw [header_length])
  rw [List.append_assoc]
  unfold Responder.idAuthHandle
  rw [resetOnGetVersion_other (t := .getCertificate) (by decide) h3 htk]
  rw [lift_run (header_run h3 htk .getDigests)]
  simp only [show decide (MsgType.getDigests = MsgType.getCertificate) = false from rfl, Bool.false_eq_true, if_false]
  rw [lift_run (expect_ok h3 htk)]
  unfold Responder.handleGetCertificate
  rw [lift_run (split_body _ _), lift_run (x := GetCertificate.parseBody (Wire.getCertificate m ++ tail)) (a := m) ((GetCertificate.reads m).parse tail)]
  rw [if_neg (by omega)]
  have hport : ∃ buf, Responder.certPortion c (chainsOf slots) m.slot = .ok (buf, UInt16.ofNat (servedChain (chainsOf slots) m.slot.toNat).length) ∧
      ∃ rest, buf = servedChain (chainsOf slots) m.slot.toNat ++ rest := by
    unfold Responder.certPortion
    have hi : m.slot.toNat < (chainsOf slots).length := by omega
    rw [index_ok hi, Res.ok_bind]
    have hg : (chainsOf slots)[m.slot.toNat]? = some (chainsOf slots)[m.slot.toNat] := List.getElem?_eq_getElem hi
    cases hc : (chainsOf slots)[m.slot.toNat] with
    | none =>
      simp only [servedChain, hg, hc]
      exact ⟨_, rfl, _, rfl⟩
    | some ch =>
      simp only [servedChain, hg, hc] at hfit hmax ⊢
      rw [writeChain_run hmax (by simpa using hfit)]
      simp only [Res.ok_bind]
      exact ⟨_, rfl, _, rfl⟩
  obtain ⟨buf, hp, rest, rfl⟩ := hport
  rw [lift_run hp]
  simp only
  have hp16 : (UInt16.ofNat (servedChain (chainsOf slots) m.slot.toNat).length).toNat = (servedChain (chainsOf slots) m.slot.toNat).length := ofNat_toNat16 (by omega)
  have hlen : (Wire.certificate ⟨m.slot, UInt16.ofNat (servedChain (chainsOf slots) m.slot.toNat).length, 0, servedChain (chainsOf slots) m.slot.toNat ++ rest⟩).length =
      6 + (servedChain (chainsOf slots) m.slot.toNat).length := by
    simp only [Wire.certificate, hp16, List.length_append, le_length, zeros, List.length_replicate, List.length_take, List.length_cons, List.length_nil]
    omega
  obtain ⟨h', e⟩ := replyLog_run (t := .certificate) (req := Wire.header .getCertificate ++ (Wire.getCertificate m ++ tail)) (st := .challenge ng)
    (Certificate.writes (m := ⟨m.slot, UInt16.ofNat (servedChain (chainsOf slots) m.slot.toNat).length, 0, servedChain (chainsOf slots) m.slot.toNat ++ rest⟩) (by simp only; rw [hp16]; simp)) hw
    (by omega) (by simp only [List.length_append, header_length, hq] at hlen ⊢; omega)
  exact ⟨_, h', e⟩

/-- Length of a CHALLENGE_AUTH up to the signature. -/
theorem authMsg_length {slot mask : UInt8} {mu : Bool} {d n : Bytes} {ds : Nat} : (authMsg slot mask mu d n ds).length = 10 + d.length + n.length + ds := by
  simp only [authMsg, List.length_append, header_length, List.length_cons, List.length_nil, zeros, List.length_replicate, le_length]
  omega

theorem challenge_run' {c : Cfg} {cr : Crypto} {env : Env} {slots : List (Option FilledSlot)} (hl : slots.length = c.numSlots) (h8 : c.numSlots ≤ 8)
    {ng : Negotiated} {m : Challenge} {tail : Bytes} (hn : m.nonce.length = c.nonceSize) {ds ss : Nat}
    (hds : BaseHashAlgo.getDigestSize c ng.algorithms.baseHashAlgoSelected = .ok ds)
    (hss : BaseAsymAlgo.getSignatureSize c ng.algorithms.baseAsymAlgoSelected = .ok ss) {slot : FilledSlot}
    (hs : slots[m.slot.toNat]? = some (some slot)) (hh : Hashable c cr ng.algorithms.baseHashAlgoSelected slot.certChain)
    {h : HState} (hw : h.tr.WF)
    (hsign : ∀ mask : UInt8, (∀ i, mask.toNat.testBit i = true ↔ ∃ s, slots[i]? = some (some s)) → ∀ msg, msg = h.tr.get ++ (Wire.header .challenge ++ Wire.challenge m ++ tail) ++
        authMsg m.slot mask (Responder.useMutualAuth ng.caps) (cr.hash ng.algorithms.baseHashAlgoSelected (Wire.chain slot.certChain)) env.nonce ds →
      (cr.hash ng.algorithms.baseHashAlgoSelected msg).length ≤ c.maxDigestSize ∧
      ∃ sig, slot.sign env.seed (cr.hash ng.algorithms.baseHashAlgoSelected msg) = some sig ∧ sig.length = ss)
    (hb : 10 + (cr.hash ng.algorithms.baseHashAlgoSelected (Wire.chain slot.certChain)).length + env.nonce.length + ds + ss ≤ h.rsp.length)
    (ht : h.tr.get.length + (4 + c.nonceSize + tail.length) + (10 + (cr.hash ng.algorithms.baseHashAlgoSelected (Wire.chain slot.certChain)).length + env.nonce.length + ds) ≤ h.tr.buf.length) :
    ∃ n h', Responder.challengeHandle c cr env ng slots (Wire.header .challenge ++ Wire.challenge m ++ tail) h = (.ok (n, .challenge ng), h') := by
  have hq : (Wire.challenge m).length = 2 + c.nonceSize := by simp [Wire.challenge, hn]; omega
  have h3 : 3 ≤ (Wire.header .challenge ++ (Wire.challenge m ++ tail)).length := by simp only [List.length_append, header_length, hq]; omega
  have htk : (Wire.header .challenge ++ (Wire.challenge m ++ tail)).take 2 = Wire.header .challenge := List.take_left' (by rw [header_length])
  have hlt : m.slot.toNat < c.numSlots := by have := (List.getElem?_eq_some_iff.mp hs).1; omega
  have hdl := hh.digest
  have hdsl : ds ≤ c.maxDigestSize := by obtain ⟨_, _, _, h⟩ := getDigestSize_ok.mp hds; exact h
  have hssl : ss ≤ c.maxSignatureSize := by obtain ⟨_, _, _, h⟩ := getSignatureSize_ok.mp hss; exact h
  rw [List.append_assoc]
  unfold Responder.challengeHandle
  rw [resetOnGetVersion_other (t := .challenge) (by decide) h3 htk]
  rw [lift_run (expect_ok h3 htk), lift_run hds, lift_run hss, lift_run (split_body _ _),
    lift_run (x := Challenge.parseBody c (Wire.challenge m ++ tail)) (a := m) ((Challenge.reads hn).parse tail)]
  rw [lift_run (x := Responder.slotAt slots m.slot.toNat) (a := slot) (by unfold Responder.slotAt; rw [hs])]
  have hcd : Responder.chainDigest c cr ng.algorithms.baseHashAlgoSelected slot.certChain = .ok (cr.hash ng.algorithms.baseHashAlgoSelected (Wire.chain slot.certChain)) := by
    unfold Responder.chainDigest
    rw [writeChain_run hh.max (by simpa using hh.len)]
    simp only [Res.ok_bind]
    rw [sliceTo_ok (by simp), List.take_left' rfl, Res.ok_bind, digest_run hh.provider hh.ring hh.digest]
  rw [lift_run hcd]
  obtain ⟨t1, e1, g1, w1, c1⟩ := H.extend_run (h := h) (bs := Wire.header .challenge ++ (Wire.challenge m ++ tail)) hw (by simp only [List.length_append, header_length, hq]; omega)
  rw [M.run_bind_ok e1]
  obtain ⟨mask, hm1, hm2⟩ := createSlotMask_run hl h8
  rw [lift_run hm1]
  rw [lift_run (x := ChallengeAuth.new c _ _ _ _ _ _ _ _) (a := ⟨m.slot, mask, Responder.useMutualAuth ng.caps, cr.hash ng.algorithms.baseHashAlgoSelected (Wire.chain slot.certChain), env.nonce,
    List.replicate ds 0, OpaqueData.dflt c, List.replicate ss 0⟩) (by
      unfold ChallengeAuth.new
      rw [if_pos ⟨hdl, by simpa using hdsl, by simpa using hssl⟩])]
  obtain ⟨body, hwr, hauth, hbl⟩ := auth_layout (mask := mask) (mu := Responder.useMutualAuth ng.caps) (d := cr.hash ng.algorithms.baseHashAlgoSelected (Wire.chain slot.certChain))
    (n := env.nonce) (ds := ds) (ss := ss) hlt h8
  have hbody : 2 + body.length = 10 + (cr.hash ng.algorithms.baseHashAlgoSelected (Wire.chain slot.certChain)).length + env.nonce.length + ds := by
    rw [← authMsg_length (slot := m.slot) (mask := mask) (mu := Responder.useMutualAuth ng.caps), ← hauth, List.length_append, header_length]
  have hbz : (body ++ zeros ss).length = body.length + ss := by simp [zeros]
  have hwrite := H.write_run (t := .challengeAuth) hwr (h := { h with tr := t1 }) (by simp only [hbz]; omega)
  have hmap : ∀ {α : Type} (p : H α) (s s' : HState) (a : α), p s = (.ok a, s') → M.mapErr Responder.wrapChallengeAuth p s = (.ok a, s') := by
    intro α p s s' a hp; unfold M.mapErr; rw [hp]
  rw [M.run_bind_ok (hmap _ _ _ _ hwrite)]
  rw [lift_run (x := Responder.subChecked _ _) (a := 2 + body.length) (by unfold Responder.subChecked; rw [if_pos (by omega)]; congr 1; omega)]
  have hout : ∀ rest : Bytes, (Wire.header .challengeAuth ++ (body ++ zeros ss) ++ rest).take (2 + body.length) = Wire.header .challengeAuth ++ body := by
    intro rest
    rw [← List.append_assoc, List.append_assoc]
    exact msg_take
  have hto : ∀ x : HState, ∀ rest : Bytes, x.rsp = Wire.header .challengeAuth ++ (body ++ zeros ss) ++ rest → H.rspTo (2 + body.length) x = (.ok (Wire.header .challengeAuth ++ body), x) := by
    intro x rest hx
    unfold H.rspTo
    rw [hx, sliceTo_ok (by simp [header_length]), hout]
  rw [M.run_bind_ok (hto _ _ rfl)]
  obtain ⟨t2, e2, g2, w2, c2⟩ := H.extend_run (h := { h with tr := t1, rsp := Wire.header .challengeAuth ++ (body ++ zeros ss) ++ h.rsp.drop (2 + (body ++ zeros ss).length) })
    (bs := Wire.header .challengeAuth ++ body) w1 (by
      simp only [List.length_append, header_length, hq] at g1 c1 ⊢
      rw [g1, c1]
      simp only [List.length_append, header_length, hq]
      omega)
  rw [M.run_bind_ok e2]
  rw [M.run_bind_ok (m := H.transcript) rfl]
  simp only
  obtain ⟨hhash, sig, hs1, hs2⟩ := hsign mask hm2 t2.get (by rw [g2, g1, hauth, List.append_assoc (Wire.header .challenge)])
  rw [lift_run (digest_run hh.provider hh.ring hhash)]
  have hsw : ∀ x : HState, Responder.signWith m.slot.toNat slot env.seed (cr.hash ng.algorithms.baseHashAlgoSelected t2.get) x =
      (.ok sig, { x with signed := x.signed ++ [(m.slot.toNat, cr.hash ng.algorithms.baseHashAlgoSelected t2.get)] }) := by
    intro x; unfold Responder.signWith; simp only [hs1]
  rw [M.run_bind_ok (hsw _)]
  have hpatch : ∀ x : HState, x.rsp.length = h.rsp.length → ∃ x', Responder.patchRsp (2 + body.length) (2 + (body ++ zeros ss).length) sig x = (.ok (), x') := by
    intro x hx
    unfold Responder.patchRsp
    rw [if_pos (by omega), if_pos (by omega)]
    exact ⟨_, rfl⟩
  obtain ⟨x', hx'⟩ := hpatch { h with tr := t2, rsp := Wire.header .challengeAuth ++ (body ++ zeros ss) ++ h.rsp.drop (2 + (body ++ zeros ss).length), signed := h.signed ++ [(m.slot.toNat, cr.hash ng.algorithms.baseHashAlgoSelected t2.get)] }
    (by simp only [List.length_append, header_length, List.length_drop, zeros, List.length_replicate]; omega)
  rw [M.run_bind_ok hx']
  exact ⟨_, _, rfl⟩

theorem challenge_run {c : Cfg} {cr : Crypto} {env : Env} {slots : List (Option FilledSlot)} (hl : slots.length = c.numSlots) (h8 : c.numSlots ≤ 8)
    {ng : Negotiated} {m : Challenge} {tail : Bytes} (hn : m.nonce.length = c.nonceSize) {ds ss : Nat}
    (hds : BaseHashAlgo.getDigestSize c ng.algorithms.baseHashAlgoSelected = .ok ds)
    (hss : BaseAsymAlgo.getSignatureSize c ng.algorithms.baseAsymAlgoSelected = .ok ss) {slot : FilledSlot}
    (hs : slots[m.slot.toNat]? = some (some slot)) (hh : Hashable c cr ng.algorithms.baseHashAlgoSelected slot.certChain)
    (hhash : ∀ msg, (cr.hash ng.algorithms.baseHashAlgoSelected msg).length ≤ c.maxDigestSize)
    (hsign : ∀ msg, ∃ sig, slot.sign env.seed msg = some sig ∧ sig.length = ss)
    {h : HState} (hw : h.tr.WF)
    (hb : 10 + (cr.hash ng.algorithms.baseHashAlgoSelected (Wire.chain slot.certChain)).length + env.nonce.length + ds + ss ≤ h.rsp.length)
    (ht : h.tr.get.length + (4 + c.nonceSize + tail.length) + (10 + (cr.hash ng.algorithms.baseHashAlgoSelected (Wire.chain slot.certChain)).length + env.nonce.length + ds) ≤ h.tr.buf.length) :
    ∃ n h', Responder.challengeHandle c cr env ng slots (Wire.header .challenge ++ Wire.challenge m ++ tail) h = (.ok (n, .challenge ng), h') := by
  exact challenge_run' hl h8 hn hds hss hs hh hw (fun _ _ msg _ => ⟨hhash msg, hsign _⟩) hb ht

/-- A handler that succeeds makes the call succeed. -/
theorem call_accepts {c : Cfg} {cr : Crypto} {env : Env} {slots : List (Option FilledSlot)} (hl : slots.length = c.numSlots) (h8 : c.numSlots ≤ 8)
    {st st' : RspState} {req buf : Bytes} {r : Responder} (hk : RspKept c slots r) (hs : r.state = some st) {n : Nat} {h' : HState}
    (hd : Responder.dispatch c cr env slots st req ⟨buf, r.transcript, r.signed⟩ = (.ok (n, st'), h')) :
    ∃ out r' sg, Responder.handleMsg c cr env req buf r = (.ok ⟨out, none⟩, r') ∧ RspKept c slots r' ∧ r'.state = some st' ∧
      Step c cr env slots st r.transcript.get req out r'.transcript.get sg st' := by
  obtain ⟨c1, c2, c3⟩ := handle_cases hd
  obtain ⟨hkp, hn, h3, sg, hst, hsg⟩ := dispatch_refines hl h8 hk.wf hd
  have := c1 n st' rfl hn
  simp only [Responder.handleMsg, hs, hk.slots, this]
  exact ⟨_, _, sg, rfl, ⟨rfl, hkp.wf, hkp.cap.trans hk.cap⟩, rfl, hst⟩

end Spdm
