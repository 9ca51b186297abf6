import Verif.Spec.Handshake
/-!
# Two builds talking to each other
-/
namespace Spdm.Spec

/-- Everybody does their job, with a requester built as `c` over the verifier `cr` and a responder built as `c'` over `cr'`: both compute the same SHA-256 (selection 1),
which both can store; the chain of slot 0 fits the buffers of both, the other chains that of the responder; the requester can parse the chain of slot 0 and its
verifier accepts the leaf, the anchor, the path between them and the signatures of slot 0, all for ECDSA P-256 (selection 16). -/
structure HonestPair (c c' : Cfg) (cr cr' : Crypto) (root : Bytes) (slots : List (Option FilledSlot)) (slot : FilledSlot) : Prop where
  number : slots.length = c'.numSlots
  filled : slots[0]? = some (some slot)
  fits : ∀ s, some s ∈ slots → (Wire.chain s.certChain).length ≤ c'.maxCertChainSize ∧ (Wire.chain s.certChain).length ≤ 65535
  received : (Wire.chain slot.certChain).length ≤ c.maxCertChainSize
  chain : ChainWF c 32 slot.certChain
  digest : 32 ≤ c.maxDigestSize
  digest' : 32 ≤ c'.maxDigestSize
  hash : ∀ msg, (cr.hash 1 msg).length = 32
  hash' : ∀ msg, cr'.hash 1 msg = cr.hash 1 msg
  leaf : cr.certOk slot.certChain.leafCert = true
  anchor : cr.anchorOk root = true
  trust : cr.chainOk slot.certChain.leafCert 16 root slot.certChain.intermediateCerts 1638316800 = true
  sign : ∀ seed msg, ∃ sig, slot.sign seed msg = some sig ∧ sig.length = 64 ∧ rawR sig ≠ 0 ∧ rawS sig ≠ 0 ∧
    ∀ der, IsDerSignature der (rawR sig) (rawS sig) → cr.sigOk slot.certChain.leafCert 16 msg der = true

/-- The capabilities both sides have. -/
def common (names names' : List String) : List String := names.filter fun a => decide (a ∈ names')

/-- The sizes of the six requests: GET_VERSION, GET_CAPABILITIES, NEGOTIATE_ALGORITHMS, GET_DIGESTS, GET_CERTIFICATE, CHALLENGE. -/
def requestNeeds (nonceSize : Nat) : List Nat := [4, 12, 48, 4, 8, 4 + nonceSize]

/-- The sizes of the six responses, given the total size of the digests and the size of the chain: VERSION, CAPABILITIES, ALGORITHMS, DIGESTS, CERTIFICATE,
CHALLENGE_AUTH with a signature of 64 bytes. -/
def responseNeeds (nonceSize digests chain : Nat) : List Nat := [10, 12, 52, 4 + digests, 8 + chain, 138 + nonceSize]

/-- What the transcript takes after `k` exchanges: all the messages, but not the signature. -/
def transcriptNeed (nonceSize digests chain k : Nat) : Nat :=
  ((requestNeeds nonceSize).take k).sum + ((responseNeeds nonceSize digests chain).take k).sum - (if k = 6 then 64 else 0)

/-- Every buffer holds the message written into it, and the transcripts of both sides hold the conversation. -/
structure EnoughRoom (c c' : Cfg) (nonceSize digests chain : Nat) (rounds : List Round) : Prop where
  requests : ∀ (k : Nat) (x : Round) (need : Nat), rounds[k]? = some x → (requestNeeds nonceSize)[k]? = some need → need ≤ x.reqBuf.length
  responses : ∀ (k : Nat) (x : Round) (need : Nat), rounds[k]? = some x → (responseNeeds nonceSize digests chain)[k]? = some need → need ≤ x.rspBuf.length
  transcript : transcriptNeed nonceSize digests chain rounds.length ≤ c.transcriptSize
  transcript' : transcriptNeed nonceSize digests chain rounds.length ≤ c'.transcriptSize

end Spdm.Spec
