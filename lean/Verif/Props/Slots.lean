import Verif.Lemmas.Inv3
import Verif.DemoSession
/-!
# Slot numbers on the wire (C47)
-/
namespace Spdm
open Spec

/-- A CHALLENGE_AUTH body for `demoCfg` (two slots, four byte nonces) with slot byte `b`, two byte digests and a three byte signature. -/
def slotAuth (b : UInt8) : Bytes := [b, 1] ++ [1, 2] ++ [1, 2, 3, 4] ++ [5, 6] ++ [4, 0, 0, 0, 0, 0] ++ [7, 8, 9]

/-- A MEASUREMENTS body with slot byte `b`, no blocks and no signature. -/
def slotMeasurements (b : UInt8) : Bytes := [0, b] ++ [0, 0, 0, 0] ++ [1, 2, 3, 4] ++ [4, 0, 0, 0, 0, 0]

/-- **C47 is false.** With two slots, CHALLENGE_AUTH and MEASUREMENTS for slot number 2 are accepted. -/
theorem c47_slot_count_accepted : demoCfg.numSlots = 2 ∧
    (∃ m, ChallengeAuth.parseBody demoCfg (slotAuth 2) 2 3 = .ok m ∧ m.slot = 2) ∧
    (∃ m, Measurements.parseBody demoCfg (slotMeasurements 2) false 3 = .ok m ∧ m.slotId = 2) := by
  refine ⟨rfl, ?_, ?_⟩
  · have h : (match ChallengeAuth.parseBody demoCfg (slotAuth 2) 2 3 with | .ok m => m.slot == 2 | _ => false) = true := by decide +kernel
    split at h
    · rename_i m hm; exact ⟨m, hm, by simpa using h⟩
    · simp at h
  · have h : (match Measurements.parseBody demoCfg (slotMeasurements 2) false 3 with | .ok m => m.slotId == 2 | _ => false) = true := by decide +kernel
    split at h
    · rename_i m hm; exact ⟨m, hm, by simpa using h⟩
    · simp at h

/-- What holds: no slot number above NUM_SLOTS is accepted. -/
theorem c47_challenge_auth_slots_partial (c : Cfg) (ds ss : Nat) (buf : Bytes) (m : ChallengeAuth) (h : ChallengeAuth.parseBody c buf ds ss = .ok m) :
    m.slot.toNat ≤ c.numSlots ∧ ∃ b, buf[0]? = some b ∧ m.slot.toNat = b.toNat % 16 := by
  obtain ⟨rest, tail, e1, b, olen, e2, h1, h2, h3, _⟩ := (ChallengeAuth.inverts c ds ss).parse h
  refine ⟨h3, b, by rw [e1, e2]; simp, ?_⟩
  have tab : ∀ n : Fin 256, (bitField (UInt8.ofNat n.val) 0 4).toNat = n.val % 16 := by decide +kernel
  have := tab ⟨b.toNat, b.toNat_lt⟩
  rw [h1]; simpa using this

theorem c47_measurements_slots_partial (c : Cfg) (sg : Bool) (ss : Nat) (buf : Bytes) (m : Measurements) (h : Measurements.parseBody c buf sg ss = .ok m) :
    m.slotId.toNat ≤ c.numSlots ∧ ∃ b, buf[1]? = some b ∧ m.slotId.toNat = b.toNat % 16 := by
  obtain ⟨rest, tail, e1, b, olen, e2, h0, h1, h2, h3, _⟩ := (Measurements.inverts c sg ss).parse h
  refine ⟨h3, b, by rw [e1, e2]; simp, ?_⟩
  have tab : ∀ n : Fin 256, (bitField (UInt8.ofNat n.val) 0 4).toNat = n.val % 16 := by decide +kernel
  have := tab ⟨b.toNat, b.toNat_lt⟩
  rw [h1]; simpa using this

/-- Slot number 3 is rejected, slot 1 accepted. -/
example : (ChallengeAuth.parseBody demoCfg (slotAuth 3) 2 3).isErr = true ∧ (ChallengeAuth.parseBody demoCfg (slotAuth 1) 2 3).isOk = true ∧
    (Measurements.parseBody demoCfg (slotMeasurements 3) false 3).isErr = true ∧ (Measurements.parseBody demoCfg (slotMeasurements 1) false 3).isOk = true := by decide +kernel

/-! ### With eight slots the peer can abort the requester -/

/-- Eight slots, the maximum the build allows. -/
def demoCfg8 : Cfg := { demoCfg with numSlots := 8 }

/-- The calls of the demonstration session up to the CHALLENGE, with the CERTIFICATE response for slot 8 instead of 0. -/
def slot8Calls : List ReqCall := (demoReqAll.take 9) ++ [.recv ([0x11, 0x02, 8, 0] ++ (demoReplies[4]?.getD []).drop 4), .next demoReqEnv (zeros 200)]

/-- The requester with NUM_SLOTS = 8 accepts a CERTIFICATE and a CHALLENGE_AUTH for slot 8 and aborts on `1 << 8` in a byte. -/
theorem c47_slot_eight_aborts : ∃ es r rsp, ReqRun demoCfg8 demoCrypto [1, 2, 3] es r ∧ failed es = false ∧
    (Requester.handleMsg demoCfg8 demoCrypto rsp r).1 = .panic .overflow :=
  ⟨_, _, [0x11, 0x03, 8] ++ (demoReplies[5]?.getD []).drop 3, ReqRun.of demoCfg8 demoCrypto [1, 2, 3] slot8Calls, by decide +kernel, by decide +kernel⟩

end Spdm
