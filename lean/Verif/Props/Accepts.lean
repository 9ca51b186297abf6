import Verif.Lemmas.Accepts3
import Verif.Props.Messages
import Verif.Lemmas.Machine
/-!
# C78 and C79: exactly what the parsers accept, and what survives re-serialisation
-/
namespace Spdm
open Spec

theorem res_map_ok_inv {α β : Type} {f : α → β} {x : Res α} {b : β} (h : x.map f = .ok b) : ∃ a, x = .ok a ∧ f a = b := by
  cases x with
  | ok a => exact ⟨a, rfl, Res.ok.inj h⟩
  | err e => simp [Res.map] at h
  | panic k => simp [Res.map] at h

/-- Soundness and completeness of one parser. -/
theorem parser_accepts_of {α : Type} {p : R α} {f : α → AnyMsg} {parse : Bytes → Res α} (hparse : ∀ b, parse b = (p (Reader.new b)).1)
    {c : Cfg} {x : Ctx} (hs : Inverts p (fun bs a => Denotes c x bs (f a))) (hr : ∀ bs a, Denotes c x bs (f a) → Reads p bs a)
    {buf : Bytes} {m : AnyMsg} {t : MsgType} (hf : ∀ a, (f a).ty = t) (hf' : ∀ m : AnyMsg, m.ty = t → ∃ a, m = f a) :
    (parse buf).map f = .ok m ↔ m.ty = t ∧ ∃ bs rest, buf = bs ++ rest ∧ Denotes c x bs m := by
  constructor
  · intro h
    obtain ⟨a, ha, rfl⟩ := res_map_ok_inv h
    rw [hparse] at ha
    obtain ⟨bs, rest, h1, h2⟩ := hs.parse ha
    exact ⟨hf a, bs, rest, h1, h2⟩
  · rintro ⟨ht, bs, rest, rfl, hd⟩
    obtain ⟨a, rfl⟩ := hf' m ht
    have := (hr bs a hd).parse rest
    rw [hparse, this]
    rfl

/-- **C78.**  For every message type, every buffer and every message: the parser of the type returns the message exactly if the buffer starts with
one of the byte strings that denote it.  What follows those bytes is irrelevant.  `Spec.Denotes` lists, field by field, every byte that is checked,
every byte that is free, and how the fields are computed. -/
theorem c78_accepts_iff (c : Cfg) (x : Ctx) (h0 : 0 < c.numSlots) (h8 : c.numSlots ≤ 8) (t : MsgType) (buf : Bytes) (m : AnyMsg) :
    AnyMsg.parse c x t buf = .ok m ↔ m.ty = t ∧ ∃ bs rest, buf = bs ++ rest ∧ Denotes c x bs m := by
  cases t with
  | getVersion =>
    refine parser_accepts_of (c := c) (x := x) (p := GetVersion.read) (f := fun _ => AnyMsg.getVersion) (fun _ => rfl) GetVersion.inverts ?_ (fun _ => rfl) ?_
    · intro bs a h; subst h; exact GetVersion.reads
    · intro m hm; cases m <;> simp [AnyMsg.ty] at hm ⊢
  | version =>
    refine parser_accepts_of (c := c) (x := x) (f := AnyMsg.version) (p := Version.read) (fun _ => rfl) (Version.inverts') ?_ (fun _ => rfl) ?_
    · rintro bs a ⟨h, rfl⟩; exact Version.reads' h
    · intro m hm; cases m <;> simp [AnyMsg.ty] at hm ⊢
  | getCapabilities =>
    refine parser_accepts_of (c := c) (x := x) (f := AnyMsg.getCapabilities) (p := GetCapabilities.read) (fun _ => rfl) (GetCapabilities.inverts.mono fun _ _ h => ⟨h.2, h.1⟩) ?_ (fun _ => rfl) ?_
    · rintro bs a ⟨h, rfl⟩; exact GetCapabilities.reads h
    · intro m hm; cases m <;> simp [AnyMsg.ty] at hm ⊢
  | capabilities =>
    refine parser_accepts_of (c := c) (x := x) (f := AnyMsg.capabilities) (p := Capabilities.read) (fun _ => rfl) (Capabilities.inverts.mono fun _ _ h => ⟨h.2, h.1⟩) ?_ (fun _ => rfl) ?_
    · rintro bs a ⟨h, rfl⟩; exact Capabilities.reads h
    · intro m hm; cases m <;> simp [AnyMsg.ty] at hm ⊢
  | negotiateAlgorithms =>
    refine parser_accepts_of (c := c) (x := x) (f := AnyMsg.negotiateAlgorithms) (p := NegotiateAlgorithms.read) (fun _ => rfl) (NegotiateAlgorithms.inverts' c x) (fun _ _ h => NegotiateAlgorithms.reads' h) (fun _ => rfl) ?_
    intro m hm; cases m <;> simp [AnyMsg.ty] at hm ⊢
  | algorithms =>
    refine parser_accepts_of (c := c) (x := x) (f := AnyMsg.algorithms) (p := Algorithms.read) (fun _ => rfl) (Algorithms.inverts' c x) (fun _ _ h => Algorithms.reads' h) (fun _ => rfl) ?_
    intro m hm; cases m <;> simp [AnyMsg.ty] at hm ⊢
  | getDigests =>
    refine parser_accepts_of (c := c) (x := x) (p := GetDigests.read) (f := fun _ => AnyMsg.getDigests) (fun _ => rfl) GetDigests.inverts ?_ (fun _ => rfl) ?_
    · intro bs a h; subst h; exact GetDigests.reads
    · intro m hm; cases m <;> simp [AnyMsg.ty] at hm ⊢
  | digests =>
    refine parser_accepts_of (c := c) (x := x) (f := AnyMsg.digests) (p := Digests.read c x.digestSize) (fun _ => rfl) (Digests.inverts' c x h8) (fun _ _ h => Digests.reads' h8 h) (fun _ => rfl) ?_
    intro m hm; cases m <;> simp [AnyMsg.ty] at hm ⊢
  | getCertificate =>
    refine parser_accepts_of (c := c) (x := x) (f := AnyMsg.getCertificate) (p := GetCertificate.read) (fun _ => rfl) GetCertificate.inverts ?_ (fun _ => rfl) ?_
    · rintro bs a h; have h : bs = _ := h; subst h; exact GetCertificate.reads a
    · intro m hm; cases m <;> simp [AnyMsg.ty] at hm ⊢
  | certificate =>
    refine parser_accepts_of (c := c) (x := x) (f := AnyMsg.certificate) (p := Certificate.read c) (fun _ => rfl) ((Certificate.inverts c).mono fun _ _ h => ⟨h.2, h.1⟩) ?_ (fun _ => rfl) ?_
    · rintro bs a ⟨h, rfl⟩; exact Certificate.reads h
    · intro m hm; cases m <;> simp [AnyMsg.ty] at hm ⊢
  | challenge =>
    refine parser_accepts_of (c := c) (x := x) (f := AnyMsg.challenge) (p := Challenge.read c) (fun _ => rfl) ((Challenge.inverts c).mono fun _ _ h => ⟨h.2, h.1⟩) ?_ (fun _ => rfl) ?_
    · rintro bs a ⟨h, rfl⟩; exact Challenge.reads h
    · intro m hm; cases m <;> simp [AnyMsg.ty] at hm ⊢
  | challengeAuth =>
    refine parser_accepts_of (c := c) (x := x) (f := AnyMsg.challengeAuth) (p := ChallengeAuth.read c x.digestSize x.sigSize) (fun _ => rfl) (ChallengeAuth.inverts' c x) (fun _ _ h => ChallengeAuth.reads' h) (fun _ => rfl) ?_
    intro m hm; cases m <;> simp [AnyMsg.ty] at hm ⊢
  | getMeasurements =>
    refine parser_accepts_of (c := c) (x := x) (f := AnyMsg.getMeasurements) (p := GetMeasurements.read c) (fun _ => rfl) ((GetMeasurements.inverts c h0).mono fun _ _ h => ⟨h.2, h.1⟩) ?_ (fun _ => rfl) ?_
    · rintro bs a ⟨h, rfl⟩; exact GetMeasurements.reads h
    · intro m hm; cases m <;> simp [AnyMsg.ty] at hm ⊢
  | measurements =>
    refine parser_accepts_of (c := c) (x := x) (f := AnyMsg.measurements) (p := Measurements.read c x.sigRequested x.sigSize) (fun _ => rfl) (Measurements.inverts' c x) (fun _ _ h => Measurements.reads' h) (fun _ => rfl) ?_
    intro m hm; cases m <;> simp [AnyMsg.ty] at hm ⊢
  | error =>
    refine parser_accepts_of (c := c) (x := x) (f := AnyMsg.error) (p := ErrorMsg.read) (fun _ => rfl) ErrorMsg.inverts (fun _ _ h => ErrorMsg.reads' h) (fun _ => rfl) ?_
    intro m hm; cases m <;> simp [AnyMsg.ty] at hm ⊢

/-- **C78**, consequence: no byte string, nor any extension of it, denotes two messages of one type. -/
theorem c78_one_meaning (c : Cfg) (x : Ctx) (h0 : 0 < c.numSlots) (h8 : c.numSlots ≤ 8) (m m' : AnyMsg) (ht : m.ty = m'.ty) (bs bs' rest rest' : Bytes)
    (he : bs ++ rest = bs' ++ rest') (h : Denotes c x bs m) (h' : Denotes c x bs' m') : m = m' := by
  have h1 := (c78_accepts_iff c x h0 h8 m.ty (bs ++ rest) m).mpr ⟨rfl, bs, rest, rfl, h⟩
  have h2 := (c78_accepts_iff c x h0 h8 m.ty (bs ++ rest) m').mpr ⟨ht.symm, bs', rest', he, h'⟩
  rw [h1] at h2
  exact Res.ok.inj h2

/-- The configuration assumption holds of the demonstration configuration, and a CHALLENGE_AUTH with its unused bits set and a wrong opaque length is accepted. -/
example : 0 < demoCfg.numSlots ∧ demoCfg.numSlots ≤ 8 ∧
    AnyMsg.parse demoCfg ⟨1, 1, false⟩ .challengeAuth [0x71, 3, 9, 1, 2, 3, 4, 8, 77, 0, 0, 0, 0, 0, 6, 99] =
      .ok (.challengeAuth ⟨1, 3, false, [9], [1, 2, 3, 4], [8], OpaqueData.dflt demoCfg, [6]⟩) := by decide +kernel

/-! ## C79 -/

theorem Digests.writeLoop_low (c : Cfg) (hc : c.numSlots ≤ 8) (ds : List (Option Bytes)) (fuel : Nat) (bits : UInt8) (offset : Nat) :
    Digests.writeLoop c ds fuel bits offset = Digests.writeLoop c ds fuel (lowBits c.numSlots bits) offset := by
  induction fuel generalizing bits offset with
  | zero => rfl
  | succ n ih =>
    obtain ⟨h1, h2⟩ := lowBits_table c.numSlots hc bits
    by_cases hk : trailingZeros 8 bits.toNat < c.numSlots
    · obtain ⟨h3, h4⟩ := h1 hk
      simp only [Digests.writeLoop, h3, if_pos hk]
      rw [← h4]
      congr 1; funext d
      cases d with
      | none => rfl
      | some d =>
        simp only
        congr 1; funext o
        rw [if_pos (by omega), if_pos (by omega)]
        exact ih _ _
    · simp only [Digests.writeLoop, if_neg hk, if_neg (h2 hk)]

/-- The writer of DIGESTS also ignores mask bits beyond NUM_SLOTS. -/
theorem Digests.writes' {c : Cfg} {x : Ctx} {bs : Bytes} {m : Digests} (hc : c.numSlots ≤ 8) (h : Denotes c x bs (.digests m)) :
    Writes (m.writeBody c) id bs := by
  obtain ⟨hl, hm, hs, rfl⟩ := h
  have hm' : ∀ i, i < 8 → ((lowBits c.numSlots m.slotMask).toNat.testBit i = true ↔ ∃ d, m.digests[i]? = some (some d)) := by
    intro i hi
    rw [lowBits_testBit]
    by_cases hlt : i < c.numSlots
    · rw [← hm i hlt]; simp [hlt]
    · rw [List.getElem?_eq_none (by rw [hl]; omega)]
      simp [hlt]
  have hlay := Digests.setBits_layout_gen (c := c) (m := ⟨lowBits c.numSlots m.slotMask, m.digests⟩) hc hl hm'
  refine Writes.congr ((Writes.zeros 1).bind fun _ => (Writes.put m.slotMask).bind
    (cs := (setBits (lowBits c.numSlots m.slotMask)).flatMap (fun k => ((m.digests[k]?).getD none).getD [])) (g := id) fun _ => ?_)
    (by dsimp only at hlay; rw [hlay]; simp [Wire.digests])
  intro w hw
  have := Digests.writesLoop c hc m.digests (fun k => ((m.digests[k]?).getD none).getD []) 9 (lowBits c.numSlots m.slotMask)
    (by have := setBits_length (lowBits c.numSlots m.slotMask); omega) (by
      intro k hk
      obtain ⟨_, h1, d, hd⟩ := Digests.mem_setBits_gen (m := ⟨lowBits c.numSlots m.slotMask, m.digests⟩) hl hm' hk
      exact ⟨h1, by simp at hd; simp [hd]⟩) w hw
  rw [← Digests.writeLoop_low c hc] at this
  exact this

/-- The message types whose accepted bytes are determined by the message. -/
def Spec.canonical : MsgType → Bool
  | .getVersion | .getCapabilities | .capabilities | .getDigests | .digests | .getCertificate | .certificate | .challenge | .getMeasurements => true
  | _ => false

/-- **C79**, partial: every accepted message of the types above is written back as exactly the bytes that were accepted (C79 also asks this of VERSION,
NEGOTIATE_ALGORITHMS, ALGORITHMS, CHALLENGE_AUTH, MEASUREMENTS and ERROR, where it is false, see below). -/
theorem c79_reserialised_partial (c : Cfg) (x : Ctx) (h0 : 0 < c.numSlots) (h8 : c.numSlots ≤ 8) (t : MsgType) (ht : canonical t = true) (buf : Bytes) (m : AnyMsg)
    (h : AnyMsg.parse c x t buf = .ok m) : ∃ bs rest, buf = bs ++ rest ∧
      ∀ out : Bytes, 2 + bs.length ≤ out.length → m.write c out = (.ok (2 + bs.length), Wire.header t ++ bs ++ out.drop (2 + bs.length)) := by
  obtain ⟨rfl, bs, rest, rfl, hd⟩ := (c78_accepts_iff c x h0 h8 t buf m).mp h
  refine ⟨bs, rest, rfl, ?_⟩
  have key : MsgWF c x m → bs = Wire.body m → ∀ out : Bytes, 2 + bs.length ≤ out.length →
      m.write c out = (.ok (2 + bs.length), Wire.header m.ty ++ bs ++ out.drop (2 + bs.length)) := by
    rintro hw rfl out hl
    exact (any_travels hw).1 out hl
  cases m with
  | getVersion => exact key trivial hd
  | getCapabilities m => exact key hd.1 hd.2
  | capabilities m => exact key hd.1 hd.2
  | getDigests => exact key trivial hd
  | digests m => exact fun out hl => write_fits (Digests.writes' h8 hd) hl
  | getCertificate m => exact key trivial hd
  | certificate m => exact key hd.1 hd.2
  | challenge m => exact key hd.1 hd.2
  | getMeasurements m => exact key hd.1 hd.2
  | _ => simp [AnyMsg.ty, canonical] at ht

/-- **C79**, partial: the remaining six types are written back as the accepted bytes if those are the canonical layout. -/
theorem c79_canonical_layout_partial (c : Cfg) (x : Ctx) (m : AnyMsg) (h : MsgWF c x m) (rest out : Bytes) (hl : 2 + (Wire.body m).length ≤ out.length) :
    AnyMsg.parse c x m.ty (Wire.body m ++ rest) = .ok m ∧
    m.write c out = (.ok (2 + (Wire.body m).length), Wire.header m.ty ++ Wire.body m ++ out.drop (2 + (Wire.body m).length)) :=
  ⟨(any_travels h).2.2 rest, (any_travels h).1 out hl⟩

/-- Bodies of the six other types that are accepted but not written back. -/
def oddBodies : List (MsgType × Bytes) :=
  [(.version, [0, 0, 0, 1, 0, 0x11]),
   (.negotiateAlgorithms, [0, 0, 77, 0, 1, 0] ++ le 4 16 ++ le 4 1 ++ zeros 12 ++ [1, 0, 0, 0] ++ [5, 6, 7, 8]),
   (.algorithms, [0, 0, 77, 0, 1, 0] ++ le 4 1 ++ le 4 16 ++ le 4 1 ++ zeros 16),
   (.challengeAuth, [0x71, 3, 9, 1, 2, 3, 4, 8, 77, 0, 0, 0, 0, 0, 6]),
   (.measurements, [0, 0xC0, 0, 0, 0, 0, 1, 2, 3, 4, 77, 0, 0, 0, 0, 0]),
   (.error, [0x03, 77])]

/-- **C79** is false for the six other types: each of these bodies is accepted, in full, and the accepted message is written as different bytes. -/
theorem c79_not_reserialised : ∀ p ∈ oddBodies, ∃ m, AnyMsg.parse demoCfg ⟨1, 1, false⟩ p.1 p.2 = .ok m ∧
    (∀ k, k < p.2.length → (AnyMsg.parse demoCfg ⟨1, 1, false⟩ p.1 (p.2.take k)).isOk = false) ∧
    ∃ n, (m.write demoCfg (zeros 64)).1 = .ok n ∧ ((m.write demoCfg (zeros 64)).2.take n).drop 2 ≠ p.2 := by
  intro p hp
  simp only [oddBodies, List.mem_cons, List.not_mem_nil, or_false] at hp
  rcases hp with rfl | rfl | rfl | rfl | rfl | rfl
  · exact ⟨.version ⟨1, [⟨1, 1, 0, 0⟩, ⟨0, 0, 0, 0⟩]⟩, by decide +kernel, by decide +kernel, 10, by decide +kernel, by decide +kernel⟩
  · exact ⟨.negotiateAlgorithms ⟨1, 16, 1, 0, List.replicate 4 ⟨.dhe, 0⟩⟩, by decide +kernel, by decide +kernel, 32, by decide +kernel, by decide +kernel⟩
  · exact ⟨.algorithms ⟨1, 1, 16, 1, 0, List.replicate 4 ⟨.dhe, 0⟩⟩, by decide +kernel, by decide +kernel, 36, by decide +kernel, by decide +kernel⟩
  · exact ⟨.challengeAuth ⟨1, 3, false, [9], [1, 2, 3, 4], [8], OpaqueData.dflt demoCfg, [6]⟩, by decide +kernel, by decide +kernel, 17, by decide +kernel, by decide +kernel⟩
  · exact ⟨.measurements ⟨0, .notSupported, 0, MeasurementBlocks.dflt demoCfg, [1, 2, 3, 4], OpaqueData.dflt demoCfg, none⟩, by decide +kernel, by decide +kernel, 18,
      by decide +kernel, by decide +kernel⟩
  · exact ⟨.error .busy, by decide +kernel, by decide +kernel, 4, by decide +kernel, by decide +kernel⟩

/-- A DIGESTS announcing a slot beyond NUM_SLOTS (here 2) is accepted and re-serialised with the extra bit. -/
example : AnyMsg.parse demoCfg ⟨2, 1, false⟩ .digests [0, 0x05, 7, 8, 9] = .ok (.digests ⟨5, [some [7, 8], none]⟩) ∧
    ((AnyMsg.digests ⟨5, [some [7, 8], none]⟩).write demoCfg (zeros 6)).2 = [0x11, 0x01, 0, 5, 7, 8] := by decide +kernel

end Spdm
