import Verif.Spec.Wire
/-!
# One type for all messages

A sum of the fifteen message types with the dispatch to the model's writers and parsers, so that
statements about "every message" and "every parser" can be made once.
-/
namespace Spdm

/-- A message of any type. -/
inductive AnyMsg
  | getVersion
  | version (m : Version)
  | getCapabilities (m : GetCapabilities)
  | capabilities (m : Capabilities)
  | negotiateAlgorithms (m : NegotiateAlgorithms)
  | algorithms (m : Algorithms)
  | getDigests
  | digests (m : Digests)
  | getCertificate (m : GetCertificate)
  | certificate (m : Certificate)
  | challenge (m : Challenge)
  | challengeAuth (m : ChallengeAuth)
  | getMeasurements (m : GetMeasurements)
  | measurements (m : Measurements)
  | error (m : ErrorMsg)
  deriving DecidableEq, Repr

/-- What a receiver knows from the earlier negotiation: digest size, signature size and whether it asked for signed measurements. -/
structure Ctx where
  digestSize : Nat
  sigSize : Nat
  sigRequested : Bool
  deriving DecidableEq, Repr

/-- `Res` is a functor. -/
def Res.map {α β : Type} (f : α → β) : Res α → Res β
  | .ok a => .ok (f a)
  | .err e => .err e
  | .panic k => .panic k

namespace AnyMsg

def ty : AnyMsg → MsgType
  | getVersion => .getVersion
  | version _ => .version
  | getCapabilities _ => .getCapabilities
  | capabilities _ => .capabilities
  | negotiateAlgorithms _ => .negotiateAlgorithms
  | algorithms _ => .algorithms
  | getDigests => .getDigests
  | digests _ => .digests
  | getCertificate _ => .getCertificate
  | certificate _ => .certificate
  | challenge _ => .challenge
  | challengeAuth _ => .challengeAuth
  | getMeasurements _ => .getMeasurements
  | measurements _ => .measurements
  | error _ => .error

/-- The writer of the body of each message. -/
def writeBody (c : Cfg) : AnyMsg → W Nat
  | getVersion => GetVersion.writeBody
  | version m => m.writeBody
  | getCapabilities m => m.writeBody
  | capabilities m => m.writeBody
  | negotiateAlgorithms m => m.writeBody
  | algorithms m => m.writeBody
  | getDigests => GetDigests.writeBody
  | digests m => m.writeBody c
  | getCertificate m => m.writeBody
  | certificate m => m.writeBody
  | challenge m => m.writeBody
  | challengeAuth m => m.writeBody c
  | getMeasurements m => m.writeBody
  | measurements m => m.writeBody
  | error m => m.writeBody

/-- `Msg::write` of each message: outcome and final buffer. -/
def write (c : Cfg) (m : AnyMsg) (buf : Bytes) : Res Nat × Bytes := m.ty.write (m.writeBody c) buf

/-- `parse_body` of each message type. -/
def parse (c : Cfg) (x : Ctx) : MsgType → Bytes → Res AnyMsg
  | .getVersion, b => (GetVersion.parseBody b).map fun _ => getVersion
  | .version, b => (Version.parseBody b).map version
  | .getCapabilities, b => (GetCapabilities.parseBody b).map getCapabilities
  | .capabilities, b => (Capabilities.parseBody b).map capabilities
  | .negotiateAlgorithms, b => (NegotiateAlgorithms.parseBody b).map negotiateAlgorithms
  | .algorithms, b => (Algorithms.parseBody b).map algorithms
  | .getDigests, b => (GetDigests.parseBody b).map fun _ => getDigests
  | .digests, b => (Digests.parseBody c x.digestSize b).map digests
  | .getCertificate, b => (GetCertificate.parseBody b).map getCertificate
  | .certificate, b => (Certificate.parseBody c b).map certificate
  | .challenge, b => (Challenge.parseBody c b).map challenge
  | .challengeAuth, b => (ChallengeAuth.parseBody c b x.digestSize x.sigSize).map challengeAuth
  | .getMeasurements, b => (GetMeasurements.parseBody c b).map getMeasurements
  | .measurements, b => (Measurements.parseBody c b x.sigRequested x.sigSize).map measurements
  | .error, b => (ErrorMsg.parseBody b).map error

end AnyMsg

namespace Spec

/-- Documented body layout of each message. -/
def Wire.body : AnyMsg → Bytes
  | .getVersion => getVersion
  | .version m => version m
  | .getCapabilities m => getCapabilities m
  | .capabilities m => capabilities m
  | .negotiateAlgorithms m => negotiateAlgorithms m
  | .algorithms m => algorithms m
  | .getDigests => getDigests
  | .digests m => digests m
  | .getCertificate m => getCertificate m
  | .certificate m => certificate m
  | .challenge m => challenge m
  | .challengeAuth m => challengeAuth m
  | .getMeasurements m => getMeasurements m
  | .measurements m => measurements m
  | .error m => error m

/-- A message that the code writes according to its layout and reads back: well-formed, no mutual authentication request (C18), no
vendor opaque error data (C20), readable MEASUREMENTS (C22). -/
def MsgWF (c : Cfg) (x : Ctx) : AnyMsg → Prop
  | .getVersion => True
  | .version m => VersionWF m
  | .getCapabilities m => OnlyBits reqFlagBit m.flags.toNat
  | .capabilities m => OnlyBits rspFlagBit m.flags.toNat
  | .negotiateAlgorithms m => NegotiateWF m
  | .algorithms m => AlgorithmsWF m
  | .getDigests => True
  | .digests m => DigestsWF c x.digestSize m
  | .getCertificate _ => True
  | .certificate m => CertificateWF c m
  | .challenge m => m.nonce.length = c.nonceSize
  | .challengeAuth m => ChallengeAuthWF c x.digestSize x.sigSize m ∧ m.useMutualAuth = false
  | .getMeasurements m => GetMeasurementsWF c m
  | .measurements m => MeasurementsWF c x.sigSize m ∧ MeasurementsReadable c m ∧ m.signature.isSome = x.sigRequested
  | .error m => ErrorWF m

end Spec
end Spdm
