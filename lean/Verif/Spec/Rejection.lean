import Verif.Spec.Response
import Verif.Spec.Aborts
/-!
# Why a requester refuses a response

The checks a response has to pass, in order, each with what `RequesterError` says if it is the first one to fail.
-/
namespace Spdm.Spec

/-- What a `RequesterError` complains about (requester/error.rs 21-82, requester/challenge.rs 41-73). -/
inductive Complaint
  /-- `UnexpectedMsgCode`, `ParseHeader` -/
  | header
  /-- `Read`, `ParseVersion`, `ParseCapabilities`, `ParseAlgorithms`, `ParseCert`, `ParseChallengeAuth`, `ParseCertChain` -/
  | encoding
  /-- `NoSupportedVersions` -/
  | version
  /-- `SelectedAlgorithmNotRequested` -/
  | selection
  /-- `ChallengeAuth(IncorrectSlot)` -/
  | slot
  /-- `ChallengeAuth(SlotNotInMask)` -/
  | mask
  /-- `ChallengeAuth(DigestMismatch)` -/
  | digest
  /-- `BufferFull` -/
  | room
  /-- `InvalidCert` -/
  | trust
  /-- `ChallengeAuth(InvalidSignature)` -/
  | signature
  deriving DecidableEq

/-- What an error of the model complains about. -/
def complaint : Err → Complaint
  | .parseHeader => .header
  | .unexpectedMsg _ _ => .header
  | .noSupportedVersions => .version
  | .selectedAlgorithmNotRequested _ => .selection
  | .incorrectSlot => .slot
  | .slotNotInMask => .mask
  | .digestMismatch => .digest
  | .bufferFull => .room
  | .chain _ => .trust
  | .invalidSignature => .signature
  | _ => .encoding

/-- The first two bytes of the response that is due after `n` accepted ones: VERSION, CAPABILITIES, ALGORITHMS, DIGESTS, CERTIFICATE, CHALLENGE_AUTH. -/
def responseHeader : Nat → Bytes
  | 0 => [0x10, 0x04]
  | 1 => [0x11, 0x61]
  | 2 => [0x11, 0x63]
  | 3 => [0x11, 0x01]
  | 4 => [0x11, 0x02]
  | _ => [0x11, 0x03]

/-- `rsp` is an encoding of `m` under the algorithms agreed in `l`, whatever follows. -/
def Means (c : Cfg) (l : Log) (rsp : Bytes) (m : AnyMsg) : Prop :=
  ∃ bs tail, rsp = Wire.header m.ty ++ bs ++ tail ∧ Denotes c ⟨sizeFor digestSizes l.hash, sizeFor signatureSizes l.asym, false⟩ bs m

/-- The chain carried by the accepted CERTIFICATE message `cert` is `chain`. -/
def Carries (c : Cfg) (l : Log) (cert : Bytes) (chain : CertificateChain) : Prop :=
  ChainWF c (sizeFor digestSizes l.hash) chain ∧ carriedChain cert = Wire.chain chain

/-- The checks of a response `rsp`, after the accepted responses `acc` and in the conversation `l`, of a requester with the trust anchor `root` that offered `offer` and has a
transcript of `cap` bytes. -/
def checks (c : Cfg) (cr : Crypto) (root : Bytes) (offer : NegotiateAlgorithms) (acc : List Bytes) (l : Log) (cap : Nat) (rsp : Bytes) : List (Prop × Complaint) :=
  [ -- the header is the one that is due
    (rsp.take 2 = responseHeader acc.length, .header),
    -- the rest is an encoding of such a message
    (∃ m, Means c l rsp m, .encoding),
    -- VERSION lists a supported version
    (∀ v, Means c l rsp (.version v) → ∃ e ∈ listed v, e ∈ supportedVersions, .version),
    -- ALGORITHMS selects from the offer
    (∀ a, Means c l rsp (.algorithms a) → SelectedFrom offer a, .selection),
    -- CHALLENGE_AUTH is for the slot of the CERTIFICATE message
    (∀ m cert, Means c l rsp (.challengeAuth m) → acc[4]? = some cert → cert[2]? = some m.slot, .slot),
    -- which is in its slot mask
    (∀ m, Means c l rsp (.challengeAuth m) → m.slotMask.toNat.testBit m.slot.toNat = true, .mask),
    -- and has the hash of the chain that was received
    (∀ m cert, Means c l rsp (.challengeAuth m) → acc[4]? = some cert → m.certChainHash = cr.hash (UInt32.ofNat l.hash) (carriedChain cert), .digest),
    -- the transcript has room
    ((l.add rsp).text.length ≤ cap, .room),
    -- the chain is well-formed
    (∀ m cert, Means c l rsp (.challengeAuth m) → acc[4]? = some cert → ∃ chain, Carries c l cert chain, .encoding),
    -- and leads from the leaf to the trust anchor
    (∀ m cert chain, Means c l rsp (.challengeAuth m) → acc[4]? = some cert → Carries c l cert chain →
      cr.certOk chain.leafCert = true ∧ cr.anchorOk root = true ∧ cr.chainOk chain.leafCert (UInt32.ofNat l.asym) root chain.intermediateCerts 1638316800 = true, .trust),
    -- the signature is the leaf's over the hash of the conversation
    (∀ m cert chain der, Means c l rsp (.challengeAuth m) → acc[4]? = some cert → Carries c l cert chain → IsDerSignature der (rawR m.signature) (rawS m.signature) →
      cr.sigOk chain.leafCert (UInt32.ofNat l.asym) (cr.hash (UInt32.ofNat l.hash) (l.add rsp).text) der = true, .signature) ]

/-- `k` is the complaint of the first check that fails. -/
inductive FirstFailed : List (Prop × Complaint) → Complaint → Prop
  | here {p : Prop} {k : Complaint} {l : List (Prop × Complaint)} : ¬ p → FirstFailed ((p, k) :: l) k
  | later {p : Prop} {k k' : Complaint} {l : List (Prop × Complaint)} : p → FirstFailed l k → FirstFailed ((p, k') :: l) k

end Spdm.Spec
