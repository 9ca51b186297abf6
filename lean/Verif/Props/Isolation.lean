import Verif.Spec.Isolation
import Verif.Props.Declared
/-!
# C98: slots do not influence each other
-/
namespace Spdm
open Spec

section
variable {c : Cfg} {cr : Crypto} {slots slots' : List (Option FilledSlot)}

namespace Isolation

theorem mask_congr {α β : Type} (l : List (Option α)) (l' : List (Option β)) (h : ∀ j : Nat, (l[j]?).map Option.isSome = (l'[j]?).map Option.isSome) :
    ∀ (n i : Nat) (bits : UInt8), Responder.slotMaskLoop l n i bits = Responder.slotMaskLoop l' n i bits
  | 0, _, _ => rfl
  | n + 1, i, bits => by
    have ih := mask_congr l l' h n (i + 1)
    have hi := h i
    unfold Responder.slotMaskLoop index
    rcases h1 : l[i]? with _ | s <;> rcases h2 : l'[i]? with _ | s' <;> rw [h1, h2] at hi <;> simp at hi
    · rfl
    · simp only [Res.ok_bind, hi, ih]

theorem chain_some {l : List (Option FilledSlot)} {j : Nat} {ch : CertificateChain} (h : (chainsOf l)[j]? = some (some ch)) :
    ∃ a : FilledSlot, l[j]? = some (some a) ∧ a.certChain = ch := by
  rw [List.getElem?_map] at h
  rcases h1 : l[j]? with _ | _ | s <;> rw [h1] at h <;> simp at h
  exact ⟨s, rfl, h⟩

theorem chains_filled (h : SameOccupancy slots slots') (j : Nat) :
    ((chainsOf slots)[j]?).map Option.isSome = ((chainsOf slots')[j]?).map Option.isSome := by
  have := h.filled j
  rw [List.getElem?_map, List.getElem?_map]
  rcases h1 : slots[j]? with _ | _ | s <;> rcases h2 : slots'[j]? with _ | _ | s' <;> rw [h1, h2] at this <;> simp at this ⊢

theorem digest_congr {a : UInt32} {x y : Bytes} (h : ∀ h : Nat, h = 1 ∨ h = 2 ∨ h = 4 → cr.hash (UInt32.ofNat h) x = cr.hash (UInt32.ofNat h) y) :
    cr.digest c a x = cr.digest c a y := by
  unfold Crypto.digest
  split
  · rfl
  · split
    · rename_i hr
      have : cr.hash a x = cr.hash a y := by
        rcases hr with rfl | rfl | rfl
        · exact h 1 (by simp)
        · exact h 2 (by simp)
        · exact h 4 (by simp)
      rw [this]
    · rfl

theorem hashLoop_congr (ho : SameOccupancy slots slots') (hd : DigestsAgree c cr slots slots') (algo : UInt32) :
    ∀ (n i : Nat) (buf buf' : Bytes) (ds : List (Option Bytes)), buf.length = c.maxCertChainSize → buf'.length = c.maxCertChainSize →
      Responder.hashLoop c cr algo (chainsOf slots) n i buf ds = Responder.hashLoop c cr algo (chainsOf slots') n i buf' ds
  | 0, _, _, _, _, _, _ => rfl
  | n + 1, i, buf, buf', ds, hb, hb' => by
    have hi := chains_filled ho i
    unfold Responder.hashLoop index
    rcases h1 : (chainsOf slots)[i]? with _ | _ | ch <;> rcases h2 : (chainsOf slots')[i]? with _ | _ | ch' <;> rw [h1, h2] at hi <;> simp at hi
    · rfl
    · simp only [Res.ok_bind]
      exact hashLoop_congr ho hd algo n (i + 1) buf buf' ds hb hb'
    · obtain ⟨a, ha, rfl⟩ := chain_some h1
      obtain ⟨b, hb2, rfl⟩ := chain_some h2
      obtain ⟨⟨f1, f2⟩, ⟨g1, g2⟩, hh⟩ := hd i a b ha hb2
      simp only [chainBytes] at f1 f2 g1 g2
      have s1 : ∀ rest : Bytes, sliceTo (Wire.chain a.certChain ++ rest) (Wire.chain a.certChain).length = .ok (Wire.chain a.certChain) := by
        intro rest; unfold sliceTo; rw [if_pos (by simp)]; simp
      have s2 : ∀ rest : Bytes, sliceTo (Wire.chain b.certChain ++ rest) (Wire.chain b.certChain).length = .ok (Wire.chain b.certChain) := by
        intro rest; unfold sliceTo; rw [if_pos (by simp)]; simp
      simp only [Res.ok_bind, writeChain_run f2 (by omega : (Wire.chain a.certChain).length ≤ buf.length),
        writeChain_run g2 (by omega : (Wire.chain b.certChain).length ≤ buf'.length), s1, s2]
      rw [digest_congr (c := c) (a := algo) hh]
      congr 1
      funext d
      congr 1
      funext ds'
      exact hashLoop_congr ho hd algo n (i + 1) _ _ ds' (by simp; omega) (by simp; omega)

theorem getByte_new {buf : Bytes} {b : UInt8} {r : Reader} (h : Reader.getByte (Reader.new buf) = (.ok b, r)) : buf[0]? = some b := by
  rcases hb : buf[0]? with _ | x
  · have : buf = [] := by cases buf <;> simp_all
    subst this
    simp [Reader.getByte, Reader.new, Reader.isAligned, Reader.isEmpty] at h
  · cases buf with
    | nil => simp at hb
    | cons y ys => simp_all [Reader.getByte, Reader.new, Reader.isAligned, Reader.isEmpty]

theorem run_of_fst {σ α : Type} {m : M σ α} {s : σ} {a : α} (h : (m s).1 = .ok a) : m s = (.ok a, (m s).2) := by rw [← h]

theorem getCertificate_slot {buf : Bytes} {m : GetCertificate} (h : GetCertificate.parseBody buf = .ok m) : buf[0]? = some m.slot := by
  have h := run_of_fst h
  unfold GetCertificate.read at h
  obtain ⟨slot, _, h1, h⟩ := M.bind_ok_inv h
  obtain ⟨_, _, _, h⟩ := M.bind_ok_inv h
  obtain ⟨_, _, _, h⟩ := M.bind_ok_inv h
  obtain ⟨_, _, _, h⟩ := M.bind_ok_inv h
  rw [M.run_pure] at h
  simp only [Prod.mk.injEq, Res.ok.injEq] at h
  rw [← h.1]
  exact getByte_new h1

theorem challenge_slot {buf : Bytes} {m : Challenge} (h : Challenge.parseBody c buf = .ok m) : buf[0]? = some m.slot := by
  have h := run_of_fst h
  unfold Challenge.read at h
  obtain ⟨slot, _, h1, h⟩ := M.bind_ok_inv h
  obtain ⟨_, _, _, h⟩ := M.bind_ok_inv h
  obtain ⟨_, _, _, h⟩ := M.bind_ok_inv h
  obtain ⟨_, _, _, h⟩ := M.bind_ok_inv h
  rw [M.run_pure] at h
  simp only [Prod.mk.injEq, Res.ok.injEq] at h
  rw [← h.1]
  exact getByte_new h1

theorem names {req body : Bytes} {t : MsgType} {b : UInt8} (ht : t = .getCertificate ∨ t = .challenge) (hr : req.take 2 = Wire.header t)
    (hs : sliceFrom req headerSize = .ok body) (hb : body[0]? = some b) : NamesSlot req b.toNat := by
  obtain ⟨_, rfl⟩ := sliceFrom_inv hs
  refine ⟨?_, b, by simpa [headerSize] using hb, rfl⟩
  have : code req = (Wire.header t)[1]? := by
    rw [← hr, code, List.getElem?_take]; rfl
  rcases ht with rfl | rfl
  · left; rw [this]; rfl
  · right; rw [this]; rfl

/-- Two programs that begin with the same value. -/
theorem lift_congr {σ α β : Type} {x : Res α} {f g : α → M σ β} {s : σ} (h : ∀ a, x = .ok a → f a s = g a s) : (M.lift x >>= f) s = (M.lift x >>= g) s := by
  cases x with
  | ok a => rw [lift_run rfl, lift_run rfl]; exact h a rfl
  | err e => rfl
  | panic k => rfl

theorem idAuth_same (ho : SameOccupancy slots slots') {req : Bytes} (hk : ∀ k, NamesSlot req k → slots[k]? = slots'[k]?)
    (hd : code req = some 0x81 → DigestsAgree c cr slots slots') (n : Negotiated) :
    Responder.idAuthHandle c cr n (chainsOf slots) req = Responder.idAuthHandle c cr n (chainsOf slots') req := by
  unfold Responder.idAuthHandle
  congr 1
  funext h
  refine lift_congr fun b hb => ?_
  cases b with
  | true =>
    obtain ⟨_, hr⟩ := parseHeader_true hb
    have hcode : code req = some 0x81 := by
      have : code req = (Wire.header .getDigests)[1]? := by rw [← hr, code, List.getElem?_take]; rfl
      rw [this]; rfl
    simp only [if_true, Responder.handleGetDigests, Responder.createSlotMask, Responder.hashCertChains]
    rw [mask_congr _ _ (chains_filled ho), hashLoop_congr ho (hd hcode) _ _ _ _ (List.replicate c.maxCertChainSize 0) _ (by simp) (by simp)]
  | false =>
    simp only [Bool.false_eq_true, if_false]
    refine lift_congr fun _ he => ?_
    obtain ⟨_, hr⟩ := expect_ok_inv he
    unfold Responder.handleGetCertificate
    refine lift_congr fun body hbody => lift_congr fun m hm => ?_
    have := hk _ (names (.inl rfl) hr hbody (getCertificate_slot hm))
    have hp : Responder.certPortion c (chainsOf slots) m.slot = Responder.certPortion c (chainsOf slots') m.slot := by
      unfold Responder.certPortion index
      rw [List.getElem?_map, List.getElem?_map, this]
    rw [hp]

theorem challenge_same (ho : SameOccupancy slots slots') {req : Bytes} (hk : ∀ k, NamesSlot req k → slots[k]? = slots'[k]?) (env : Env) (n : Negotiated) :
    Responder.challengeHandle c cr env n slots req = Responder.challengeHandle c cr env n slots' req := by
  unfold Responder.challengeHandle
  congr 1
  funext h
  refine lift_congr fun _ he => lift_congr fun ds _ => lift_congr fun ss _ => lift_congr fun body hbody => lift_congr fun m hm => ?_
  obtain ⟨_, hr⟩ := expect_ok_inv he
  have := hk _ (names (.inr rfl) hr hbody (challenge_slot hm))
  have hs : Responder.slotAt slots m.slot.toNat = Responder.slotAt slots' m.slot.toNat := by
    unfold Responder.slotAt
    rw [this]
  simp only [Responder.createSlotMask, hs, mask_congr _ _ ho.filled]

theorem dispatch_same (ho : SameOccupancy slots slots') {req : Bytes} (hk : ∀ k, NamesSlot req k → slots[k]? = slots'[k]?)
    (hd : code req = some 0x81 → DigestsAgree c cr slots slots') (env : Env) (st : RspState) :
    Responder.dispatch c cr env slots st req = Responder.dispatch c cr env slots' st req := by
  cases st with
  | version => rfl
  | capabilities => rfl
  | algorithms caps => rfl
  | error => rfl
  | idAuth n => exact idAuth_same ho hk hd n
  | challenge n => exact challenge_same ho hk env n

/-- The responders differ only in their slots. -/
def Same (slots slots' : List (Option FilledSlot)) (r r' : Responder) : Prop :=
  r.slots = slots ∧ r'.slots = slots' ∧ r.transcript = r'.transcript ∧ r.state = r'.state ∧ r.signed = r'.signed

theorem run_same (ho : SameOccupancy slots slots') {x : RspCall} (hx : AsksSame c cr slots slots' x) {r r' : Responder} (h : Same slots slots' r r') :
    (x.run c cr r).1 = (x.run c cr r').1 ∧ Same slots slots' (x.run c cr r).2 (x.run c cr r').2 := by
  obtain ⟨hs, hs', ht, hst, hsg⟩ := h
  cases x with
  | reset => exact ⟨rfl, hs, hs', by simp only [RspCall.run, Responder.reset, ht], rfl, hsg⟩
  | call env req buf =>
    simp only [RspCall.run]
    unfold Responder.handleMsg
    rw [← hst]
    cases hrs : r.state with
    | none => exact ⟨rfl, hs, hs', ht, hst, hsg⟩
    | some st =>
      have : Responder.handle c cr env r.slots st req ⟨buf, r.transcript, r.signed⟩ = Responder.handle c cr env r'.slots st req ⟨buf, r'.transcript, r'.signed⟩ := by
        unfold Responder.handle
        rw [hs, hs', dispatch_same ho hx.1 hx.2, ht, hsg]
      simp only
      rw [this]
      rcases Responder.handle c cr env r'.slots st req ⟨buf, r'.transcript, r'.signed⟩ with ⟨_ | _ | _, h'⟩
      · exact ⟨rfl, hs, hs', rfl, rfl, rfl⟩
      · exact ⟨rfl, hs, hs', rfl, rfl, rfl⟩
      · exact ⟨rfl, hs, hs', rfl, rfl, rfl⟩

theorem runs_same (ho : SameOccupancy slots slots') (calls : List RspCall) : (∀ x ∈ calls, AsksSame c cr slots slots' x) → ∀ r r' : Responder, Same slots slots' r r' →
    behaviour c cr r calls = behaviour c cr r' calls ∧ Same slots slots' (after c cr r calls) (after c cr r' calls) := by
  induction calls with
  | nil => exact fun _ r r' h => ⟨rfl, h⟩
  | cons x xs ih =>
    intro hx r r' h
    obtain ⟨h1, h2⟩ := run_same ho (hx x (by simp)) h
    obtain ⟨h3, h4⟩ := ih (fun y hy => hx y (by simp [hy])) _ _ h2
    exact ⟨by simp only [behaviour, h1, h3], h4⟩

end Isolation

/-- **C98.** Two responders whose slots are filled in the same places, and any calls that name only slots that are the same in both (and ask for digests only if
those are the same): everything the calls return is the same, byte for byte, and so is everything that is signed and with which slot's key.  So a peer that is
talking about some slots learns nothing about the other ones but whether they are filled and their digests, and is not affected by them. -/
theorem c98_slots_isolated (ho : SameOccupancy slots slots') (calls : List RspCall) (h : ∀ x ∈ calls, AsksSame c cr slots slots' x) :
    behaviour c cr (Responder.new c slots) calls = behaviour c cr (Responder.new c slots') calls ∧
    (after c cr (Responder.new c slots) calls).signed = (after c cr (Responder.new c slots') calls).signed := by
  obtain ⟨h1, _, _, _, _, h2⟩ := Isolation.runs_same ho calls h (Responder.new c slots) (Responder.new c slots') ⟨rfl, rfl, rfl, rfl, rfl⟩
  exact ⟨h1, h2⟩

/-- **C98**, one slot: if slot `i` is the same, no other slot is named and digests are not asked for, the contents of the other slots do not matter. -/
theorem c98_one_slot (i : Nat) (ho : SameOccupancy slots slots') (hi : slots[i]? = slots'[i]?) (calls : List RspCall)
    (h : ∀ env req buf, RspCall.call env req buf ∈ calls → code req ≠ some 0x81 ∧ ∀ k, NamesSlot req k → k = i) :
    behaviour c cr (Responder.new c slots) calls = behaviour c cr (Responder.new c slots') calls ∧
    (after c cr (Responder.new c slots) calls).signed = (after c cr (Responder.new c slots') calls).signed := by
  refine c98_slots_isolated ho calls fun x hx => ?_
  cases x with
  | reset => trivial
  | call env req buf =>
    obtain ⟨h1, h2⟩ := h env req buf hx
    exact ⟨fun k hk => by rw [h2 k hk]; exact hi, fun hc => absurd hc h1⟩

end

/-- Two responders with the same slot 0 and different chains and keys in slot 1. -/
def isolationSlots (root leaf : Bytes) (key : UInt8) : List (Option FilledSlot) :=
  [some ⟨0x10, 1, demoSessionChain, fun _ m => some (demoSign m)⟩, some ⟨0x10, 1, ⟨root, [], leaf⟩, fun _ m => some (key :: m)⟩]

/-- The five requests about slot 0 of the session (not GET_DIGESTS), which are answered and end in a signature with the key of slot 0. -/
example : SameOccupancy (isolationSlots [1] [2] 7) (isolationSlots [3] [4, 4] 9) ∧
    (isolationSlots [1] [2] 7)[0]? = (isolationSlots [3] [4, 4] 9)[0]? ∧
    (∀ env req buf, RspCall.call env req buf ∈ [demoGetVersion, demoGetCapabilities, demoNegotiate, demoGetCertificate, demoChallenge].map demoCall →
      code req ≠ some 0x81 ∧ ∀ k, NamesSlot req k → k = 0) ∧
    alive (behaviour demoCfg demoCrypto (Responder.new demoCfg (isolationSlots [1] [2] 7))
      ([demoGetVersion, demoGetCapabilities, demoNegotiate, demoGetCertificate, demoChallenge].map demoCall)) = true ∧
    ((after demoCfg demoCrypto (Responder.new demoCfg (isolationSlots [1] [2] 7))
      ([demoGetVersion, demoGetCapabilities, demoNegotiate, demoGetCertificate, demoChallenge].map demoCall)).signed.map Prod.fst) = [0] := by
  refine ⟨⟨rfl, fun j => ?_⟩, rfl, ?_, by decide +kernel, by decide +kernel⟩
  · match j with
    | 0 => rfl
    | 1 => rfl
    | j + 2 => rfl
  · intro env req buf h
    have : req ∈ [demoGetVersion, demoGetCapabilities, demoNegotiate, demoGetCertificate, demoChallenge] := by
      obtain ⟨x, hx, e⟩ := List.mem_map.mp h
      simp only [demoCall, RspCall.call.injEq] at e
      rw [← e.2.1]; exact hx
    simp only [List.mem_cons, List.not_mem_nil, or_false] at this
    rcases this with rfl | rfl | rfl | rfl | rfl
    all_goals
      refine ⟨by decide, ?_⟩
      rintro k ⟨h1, b, h2, rfl⟩
    · exact absurd h1 (by decide)
    · exact absurd h1 (by decide)
    · exact absurd h1 (by decide)
    · cases h2; rfl
    · cases h2; rfl

/-- The condition is needed: GET_DIGESTS, and GET_CERTIFICATE for slot 1, are answered differently. -/
example : ∀ req ∈ [demoGetDigests, [0x11, 0x82, 1, 0, 0, 0, 64, 0]],
    (behaviour demoCfg demoCrypto (Responder.new demoCfg (isolationSlots [1] [2] 7)) ([demoGetVersion, demoGetCapabilities, demoNegotiate, req].map demoCall)) ≠
    (behaviour demoCfg demoCrypto (Responder.new demoCfg (isolationSlots [3] [4, 4] 9)) ([demoGetVersion, demoGetCapabilities, demoNegotiate, req].map demoCall)) := by
  decide +kernel

end Spdm
