import Verif.Build
import Verif.Spec.ConfigText
/-!
# What a build should contain
-/
namespace Spdm.Spec
open Build

/-- The file the user configures the build with: the one named by SPDM_CONFIG, otherwise spdm-config.toml in the package. -/
def configFile (y : Sys) (w : World) : Nat :=
  match w.spdmConfig with
  | some path => y.locate path
  | none => y.locate "spdm-config.toml"

/-- Leading "./" makes no difference. -/
def DotSlash (y : Sys) : Prop := ∀ p, y.locate ("./" ++ p) = y.locate p

/-- The package has the template of the crate. -/
def HasTemplate (y : Sys) (w : World) : Prop := w.files (y.locate "config.rs.template") = some SpdmConfig.templateText

/-- The text `t` is right for the files and settings of `w`: the configuration file is readable TOML for a valid configuration, and `t` declares the constants of that configuration. -/
def RightFor (y : Sys) (w : World) (t : List Char) : Prop :=
  ∃ toml i, w.files (configFile y w) = some toml ∧ y.parse toml = some i ∧ ValidConfig w.ring i ∧ ConfigFile i t

/-- The configuration file is one cargo watches. -/
def ConfigWatched (y : Sys) (w : World) : Prop :=
  ∃ p ∈ ["build.rs", "spdm-config.toml", "config.rs.template"], y.locate p = configFile y w

end Spdm.Spec
