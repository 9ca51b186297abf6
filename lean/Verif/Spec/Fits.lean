import Verif.Errors
/-!
# Lack of room
-/
namespace Spdm.Spec

/-- The errors that say that something did not fit (the reply the buffer, or a message the transcript). -/
def DidNotFit (d : ResponderError) : Prop :=
  d = .bufferFull ∨ d = .writeChallengeAuth .bufferFull ∨ d = .writeChallengeAuth (.writeOpaqueElement .bufferFull)

end Spdm.Spec
