import Verif.Demo
import Verif.Spec.Replay
/-! A concrete session used by the examples beside the theorems: two slots of which slot 0 is filled, a toy hash and a toy signature. -/
namespace Spdm
open Spec

/-- A chain with a 32 byte root hash, one intermediate and a leaf. -/
def demoSessionChain : CertificateChain := ⟨List.replicate 32 9, [[0x30, 1, 5]], [0x30, 2, 6, 7]⟩

/-- Toy hash: 32 bytes, the first one the sum of the input. -/
def demoHash (m : Bytes) : Bytes := m.foldl (· + ·) 0 :: List.replicate 31 0x11

/-- Toy signature: the message twice. -/
def demoSign (m : Bytes) : Bytes := m ++ m

/-- A verifier for it. -/
def demoCrypto : Crypto where
  hash _ m := demoHash m
  certOk leaf := leaf == [0x30, 2, 6, 7]
  anchorOk root := root == [1, 2, 3]
  chainOk leaf _ root inters _ := leaf == [0x30, 2, 6, 7] && root == [1, 2, 3] && inters == [[0x30, 1, 5]]
  sigOk leaf _ msg der := leaf == [0x30, 2, 6, 7] &&
    match Pki.binToDer (demoSign msg) (zeros 200) with
    | .ok (out, n) => out.take n == der
    | _ => false

def demoSlots : List (Option FilledSlot) := [some ⟨0x10, 1, demoSessionChain, fun _ m => some (demoSign m)⟩, none]

def demoEnv : Env := ⟨[1, 2, 3, 4], 0⟩

/-- The offer of NEGOTIATE_ALGORITHMS: P-256, the three SHA-2 hashes, four algorithm structures. -/
def demoSessionOffer : NegotiateAlgorithms :=
  ⟨1, 0x10, 7, 4, [⟨.dhe, 0x12⟩, ⟨.aead, 6⟩, ⟨.reqBaseAsym, 0x90⟩, ⟨.keySchedule, 1⟩]⟩

def demoGetVersion : Bytes := [0x10, 0x84, 0, 0]
def demoGetCapabilities : Bytes := [0x11, 0xE1, 0, 0, 0, 12, 0, 0, 6, 0, 0, 0]
def demoNegotiate : Bytes := [0x11, 0xE3] ++ Wire.negotiateAlgorithms demoSessionOffer
def demoGetDigests : Bytes := [0x11, 0x81, 0, 0]
def demoGetCertificate : Bytes := [0x11, 0x82, 0, 0, 0, 0, 64, 0]
def demoChallenge : Bytes := [0x11, 0x83, 0, 0, 5, 6, 7, 8]

/-- The requests in protocol order. -/
def demoRequests : List Bytes := [demoGetVersion, demoGetCapabilities, demoNegotiate, demoGetDigests, demoGetCertificate, demoChallenge]

def demoCall (req : Bytes) : RspCall := .call demoEnv req (zeros 200)

/-- The first `n` calls of the session. -/
def demoCalls (n : Nat) : List RspCall := (demoRequests.take n).map demoCall

/-- The history of the first `n` calls. -/
def demoEvents (n : Nat) : List RspEvent := behaviour demoCfg demoCrypto (Responder.new demoCfg demoSlots) (demoCalls n)

/-- The responder after the first `n` calls. -/
def demoResponder (n : Nat) : Responder := after demoCfg demoCrypto (Responder.new demoCfg demoSlots) (demoCalls n)

theorem demo_run (n : Nat) : RspRun demoCfg demoCrypto demoSlots (demoEvents n) (demoResponder n) := RspRun.of _ _ _ _

/-- All six requests are accepted. -/
theorem demo_alive : ∀ n < 7, alive (demoEvents n) = true := by decide +kernel

theorem demo_last : (List.range 7).map (fun n => lastReq (demoEvents n)) = [none, some 0x84, some 0xE1, some 0xE3, some 0x81, some 0x82, some 0x83] := by
  decide +kernel

/-! ### The requester's side of the same session -/

/-- The responses of the session. -/
def demoReplies : List Bytes := (demoEvents 6).filterMap fun e => match e with | .call _ _ _ (.ok ⟨out, none⟩) => some out | _ => none

/-- What the requester draws. -/
def demoReqEnv : Env := ⟨[5, 6, 7, 8], 0⟩

/-- All calls of the requester: ask, receive, ask, receive, ... -/
def demoReqAll : List ReqCall := demoReplies.flatMap fun rsp => [.next demoReqEnv (zeros 200), .recv rsp]

def demoReqCalls (n : Nat) : List ReqCall := demoReqAll.take n

/-- The history of the first `n` calls. -/
def demoReqEvents (n : Nat) : List ReqEvent := reqBehaviour demoCfg demoCrypto (Requester.new demoCfg [1, 2, 3]) (demoReqCalls n)

/-- The requester after the first `n` calls. -/
def demoRequester (n : Nat) : Requester := reqAfter demoCfg demoCrypto (Requester.new demoCfg [1, 2, 3]) (demoReqCalls n)

theorem demoReq_run (n : Nat) : ReqRun demoCfg demoCrypto [1, 2, 3] (demoReqEvents n) (demoRequester n) := ReqRun.of _ _ _ _

/-- The requester writes the requests of the session and completes. -/
theorem demoReq_requests : (demoReqEvents 12).filterMap (fun e => match e with | .next _ _ (.ok out) => some out | _ => none) = demoRequests := by decide +kernel

theorem demoReq_results : (demoReqEvents 12).filterMap (fun e => match e with | .recv _ res => some res | _ => none) =
    [.ok false, .ok false, .ok false, .ok false, .ok false, .ok true] := by decide +kernel

end Spdm
