import Verif.Basic
import Verif.Encoding
import Verif.Transcript
import Verif.Msgs.Header
import Verif.Msgs.Version
import Verif.Msgs.Capabilities
import Verif.Msgs.Algorithms
import Verif.Msgs.Digest
import Verif.Msgs.Certificates
import Verif.Msgs.Common
import Verif.Msgs.Challenge
import Verif.Msgs.Error
import Verif.Msgs.Measurements
import Verif.Pki
import Verif.Responder
import Verif.Requester
import Verif.BuildCfg
import Verif.Buffers
import Verif.Spec
import Verif.Spec.Wire
import Verif.Lemmas.Inv
import Verif.Lemmas.Safe
import Verif.Props.Encoding
import Verif.Lemmas.LocalMsgs
import Verif.Props.Messages
import Verif.Props.Parsers
import Verif.Props.Responder
import Verif.Props.Negotiation
import Verif.Props.Der
import Verif.Props.Requester
import Verif.Props.Slots
import Verif.Props.Config
import Verif.Props.Pair
import Verif.Props.Tamper
import Verif.Props.Handshake
import Verif.Props.Aborts
import Verif.Props.ReqAborts
import Verif.Props.NoCrypto
import Verif.Props.Calls
import Verif.Lemmas.Stale
import Verif.Props.Names
import Verif.Props.Stale
import Verif.Props.Buffers
import Verif.Lemmas.Grow
import Verif.Props.Gaps
import Verif.Props.Sizes
import Verif.Props.Grow
import Verif.Spec.Accepts
import Verif.Lemmas.Accepts
import Verif.Lemmas.Accepts2
import Verif.Lemmas.Accepts3
import Verif.Props.Accepts
import Verif.Spec.Reply
import Verif.Props.Reply
import Verif.Spec.Response
import Verif.Props.Response
import Verif.Spec.Panics
import Verif.Lemmas.Blows
import Verif.Props.Panics
import Verif.Spec.ParserPanics
import Verif.Lemmas.PInv
import Verif.Props.ParserPanics
import Verif.Spec.ReqPanics
import Verif.Props.ReqPanics
import Verif.Spec.Writing
import Verif.Props.Writing
import Verif.Spec.Refusal
import Verif.Lemmas.Refusal
import Verif.Props.Refusal
import Verif.Unchecked
import Verif.Spec.Unchecked
import Verif.Props.Unchecked
import Verif.Spec.Rejection
import Verif.Lemmas.Rejection
import Verif.Props.Rejection
import Verif.BuildText
import Verif.Spec.ConfigText
import Verif.Props.ConfigText
import Verif.Provider
import Verif.Spec.Usable
import Verif.Props.Usable
import Verif.Props.Declared
import Verif.Spec.Provider
import Verif.Props.Provider
import Verif.Spec.BitNames
import Verif.Props.BitNames
import Verif.Making
import Verif.Props.Making
import Verif.Equal
import Verif.Props.Equal
import Verif.Spec.Interop
import Verif.Lemmas.Interop
import Verif.Props.Interop
import Verif.Spec.Isolation
import Verif.Props.Isolation
import Verif.Props.Ask
import Verif.Usize
import Verif.Lemmas.Usize
import Verif.Props.Usize
import Verif.Props.Injective
import Verif.Props.Shown
import Verif.Props.Full
import Verif.Props.ByHand
import Verif.Props.RoundTrip
import Verif.Props.Errors
import Verif.Props.RspErrors
import Verif.Props.Faults
import Verif.Props.Faults2
import Verif.Props.Faults3
import Verif.Props.Faults4
import Verif.Props.Chance
import Verif.Props.Roomier
import Verif.Props.Build
import Verif.Props.Loops
import Verif.Props.Readme
import Verif.Props.Shipped
import Verif.RepoTests
import Verif.Spec.Network
import Verif.Props.Network
import Verif.Spec.Downgrade
import Verif.Props.Downgrade
import Verif.Spec.Lossy
import Verif.Lemmas.Clean
import Verif.Lemmas.Clean2
import Verif.Props.Lossy
import Verif.Props.Again
import Verif.Spec.Serving
import Verif.Props.Serving
import Verif.Spec.Settings
import Verif.Props.Settings
import Verif.Spec.Signed
import Verif.Spec.Relay
import Verif.Props.Relay
import Verif.Spec.Partner
import Verif.Props.Partner
import Verif.Props.Unasked
import Verif.Spec.Heard
import Verif.Props.Heard
import Verif.Spec.Determined
import Verif.Props.Determined
import Verif.Spec.Splice
import Verif.Props.Splice
import Verif.Spec.Protected
import Verif.Lemmas.Shape
import Verif.Props.Protected
import Verif.Spec.Noise
import Verif.Lemmas.Noise
import Verif.Props.Noise
import Verif.Props.Reflection
import Verif.Props.Budget
import Verif.Spec.Fits
import Verif.Props.Fits
