import Verif.Props.Sizes
import Verif.Props.ReqAborts
/-!
# C99: how much of a chain GET_CERTIFICATE asks for
-/
namespace Spdm
open Spec

section
variable {crypto : Bool} {i : SpdmConfig} {nonceSize : Nat} {c : Cfg} {cr : Crypto} {root : Bytes} {es : List ReqEvent} {r : Requester}

/-- **C99.**  Under a configuration the build accepts, every GET_CERTIFICATE asks for offset 0 (bytes 4 and 5), and for as many bytes (bytes 6 and 7) as the requester's buffer
holds exactly if that is less than 65536; with the largest buffer the build allows it asks for no bytes at all. -/
theorem c99_asks_for_buffer_partial (hv : ValidConfig crypto i) (hb : Built crypto i nonceSize c) (run : ReqRun c cr root es r) (env : Env) (buf out : Bytes)
    (hok : (Requester.nextRequest c env buf r).1 = .ok out) (hc : code out = some 0x82) :
    leVal (field out 4 2) = 0 ∧ (leVal (field out 6 2) = i.certBufSize ↔ i.certBufSize < 65536) ∧ (i.certBufSize = 65536 → leVal (field out 6 2) = 0) := by
  rw [(c77_requests hv hb run env buf out hok).2.2.2.2 hc]
  have h1 : field ([0x11, 0x82, 0, 0, 0, 0] ++ le 2 i.certBufSize) 6 2 = le 2 i.certBufSize := by
    simp [field, le, List.take_of_length_le]
  have hle := hv.chain
  rw [h1]
  refine ⟨by simp [field, leVal], ⟨fun h => ?_, fun h => leVal_two _ h⟩, fun h => by rw [h]; decide⟩
  rcases Nat.lt_or_ge i.certBufSize 65536 with h' | h'
  · exact h'
  · have : i.certBufSize = 65536 := by omega
    rw [this] at h
    exact absurd h (by decide)

end

/-- The configuration of C49's example with the largest buffer the build allows. -/
def largestConfig : SpdmConfig := { honestConfig with certBufSize := 65536 }
def largestCfg : Cfg := { honestCfg with maxCertChainSize := 65536 }

theorem largestConfig_valid : ValidConfig true largestConfig :=
  ⟨honestConfig_valid.1, by decide, honestConfig_valid.3, honestConfig_valid.4, honestConfig_valid.5, honestConfig_valid.6⟩

theorem largestConfig_built : Built true largestConfig 4 largestCfg := ⟨rfl, rfl, rfl, rfl, rfl, rfl, rfl, rfl, rfl, rfl, rfl, rfl, rfl, rfl⟩

/-- **C99** is false of the code: a configuration the build accepts, and a requester that after four exchanges asks for zero bytes of the chain although its buffer holds 65536. -/
theorem c99_asks_for_nothing : ∃ (i : SpdmConfig) (c : Cfg) (calls : List ReqCall), ValidConfig true i ∧ Built true i 4 c ∧ i.certBufSize = 65536 ∧
    (Requester.nextRequest c demoReqEnv (zeros 200) (reqAfter c honestCrypto (Requester.new c [1, 2, 3]) calls)).1 = .ok [0x11, 0x82, 0, 0, 0, 0, 0, 0] :=
  ⟨largestConfig, largestCfg, demoReqCalls 8, largestConfig_valid, largestConfig_built, rfl, by decide +kernel⟩

/-- Below that size: the buffer of 64 bytes of C49's example is asked for in full. -/
example : (Requester.nextRequest honestCfg demoReqEnv (zeros 200) (reqAfter honestCfg honestCrypto (Requester.new honestCfg [1, 2, 3]) (demoReqCalls 8))).1 =
    .ok [0x11, 0x82, 0, 0, 0, 0, 64, 0] ∧ code [0x11, 0x82, 0, 0, 0, 0, 64, 0] = some 0x82 := by
  decide +kernel

end Spdm
