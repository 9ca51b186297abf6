import Verif.Spec.RoundTrip
/-!
# What arrives of a message
-/
namespace Spdm.Spec

/-- What arrives of a message: a CHALLENGE_AUTH that asks for mutual authentication arrives as one for slot 0 that does not, a MEASUREMENTS without signature arrives as one for
slot 0, a vendor-defined ERROR arrives without its opaque data; everything else arrives as it is. -/
def heard : AnyMsg → AnyMsg
  | .challengeAuth m => .challengeAuth (if m.useMutualAuth then { m with slot := 0, useMutualAuth := false } else m)
  | .measurements m => .measurements (if m.signature = none then { m with slotId := 0 } else m)
  | .error (.vendorDefined id v) => .error (.vendorDefined id { vendorId := v.vendorId, opaqueLen := 0, opaqueErrorData := zeros 32 })
  | m => m

end Spdm.Spec
