import Verif.BuildText
/-!
# The build script as a program: build.rs `load` and `main`, and when cargo runs it

The files of the package and the files named by the environment are a map from file identities (numbers) to contents; `locate` resolves a path.  TOML parsing is a parameter.
-/
namespace Spdm
namespace Build

/-- `gen_config` (build.rs 153-181) with the template that it reads (build.rs 154). -/
def genTextWith (template : List Char) (cryptoRing : Bool) (i : SpdmConfig) : Except SpdmConfigError (List Char) := do
  let maxSig ← SpdmConfig.maxSignatureSize i.asymmetricSigning
  SpdmConfig.validateCertChains i
  SpdmConfig.validateCapabilities cryptoRing i.capabilities
  pure (((SpdmConfig.splitBraces [] template).zip (i.textParams maxSig)).flatMap (fun (s, arg) => s ++ arg))

/-- What the script can see.  Inputs of build.rs 125, 146, 154, 186. -/
structure World where
  files : Nat → Option (List Char)
  /-- the environment variable SPDM_CONFIG -/
  spdmConfig : Option String
  /-- the feature `crypto-ring` (CARGO_FEATURE_CRYPTO_RING) -/
  ring : Bool

/-- How paths and TOML texts are understood.  `read_to_string` and `toml::from_str`, build.rs 146-147, 154. -/
structure Sys where
  locate : String → Nat
  parse : List Char → Option SpdmConfig

/-- `src_path`, build.rs 186-189. -/
def sourcePath : Option String → String
  | some path => path
  | none => "./spdm-config.toml"

/-- `load`, build.rs 145-149; `none` stands for any error. -/
def load (y : Sys) (w : World) (path : String) : Option SpdmConfig := do
  let toml ← w.files (y.locate path)
  y.parse toml

/-- `main`, build.rs 183-206: the text written to OUT_DIR/config.rs; `none` if an `unwrap` aborts it, before anything is written.  OUT_DIR is always set by cargo and
writable. -/
def script (y : Sys) (w : World) : Option (List Char) := do
  let input ← load y w (sourcePath w.spdmConfig)
  let template ← w.files (y.locate "./config.rs.template")
  (genTextWith template w.ring input).toOption

/-- The files cargo is told to watch, build.rs 202-204. -/
def watchedPaths : List String := ["build.rs", "spdm-config.toml", "config.rs.template"]

/-- A file that is watched.  build.rs 202-204. -/
def watched (y : Sys) (f : Nat) : Bool := watchedPaths.any fun p => y.locate p == f

/-- What cargo remembers of a run of the script that succeeded: the value of SPDM_CONFIG then (`rerun-if-env-changed`, build.rs 205), and whether a watched file has
changed since. -/
structure Stamp where
  env : Option String
  changed : Bool

/-- OUT_DIR: config.rs, and cargo's record of the last run.  build.rs 185, 192. -/
structure Target where
  out : Option (List Char)
  stamp : Option Stamp

/-- The world and, for each feature set, an OUT_DIR.  build.rs 184. -/
structure Tree where
  world : World
  target : Bool → Target

/-- Nothing built yet.  Before the first run of `main`, build.rs 183-206. -/
def Tree.new (w : World) : Tree := ⟨w, fun _ => ⟨none, none⟩⟩

/-- What happens to a source tree.  Cargo is outside /repo; what it is told is in build.rs 202-205. -/
inductive Event
  /-- a file is written or removed -/
  | edit (f : Nat) (contents : Option (List Char))
  | setEnv (e : Option String)
  | setRing (b : Bool)
  /-- `cargo build` -/
  | build
  /-- `cargo build`, killed when the script, if it runs at all, has written the first `n` characters, or nothing if it would abort -/
  | killed (n : Nat)

/-- Does cargo reuse the last run?.  What it was told: build.rs 202-205. -/
def Tree.fresh (t : Tree) : Bool :=
  match (t.target t.world.ring).stamp with
  | some s => s.env = t.world.spdmConfig && !s.changed
  | none => false

/-- Replace the OUT_DIR of the current feature set.  The file of build.rs 185, 192. -/
def Tree.set (t : Tree) (x : Target) : Tree := { t with target := fun b => if b = t.world.ring then x else t.target b }

/-- `cargo build` as far as config.rs is concerned: the text compiled into the library, `none` if the build fails because the script aborts.  Cargo forgets the last run
before it starts the script, so that an aborted or killed run is repeated.  The script: build.rs 183-206. -/
def Tree.build (y : Sys) (t : Tree) : Tree × Option (List Char) :=
  if t.fresh then (t, (t.target t.world.ring).out)
  else match script y t.world with
    | some text => (t.set ⟨some text, some ⟨t.world.spdmConfig, false⟩⟩, some text)
    | none => (t.set ⟨(t.target t.world.ring).out, none⟩, none)

/-- One event.  The script: build.rs 183-206. -/
def Tree.step (y : Sys) (t : Tree) : Event → Tree
  | .edit f contents =>
    { world := { t.world with files := fun g => if g = f then contents else t.world.files g },
      target := fun b => ⟨(t.target b).out, (t.target b).stamp.map fun s => ⟨s.env, s.changed || watched y f⟩⟩ }
  | .setEnv e => { t with world := { t.world with spdmConfig := e } }
  | .setRing b => { t with world := { t.world with ring := b } }
  | .build => (t.build y).1
  | .killed n =>
    if t.fresh then t
    else match script y t.world with
      | some text => t.set ⟨some (text.take n), none⟩
      | none => t.set ⟨(t.target t.world.ring).out, none⟩

/-- A history.  The script: build.rs 183-206. -/
def Tree.after (y : Sys) (t : Tree) (es : List Event) : Tree := es.foldl (Tree.step y) t

end Build
end Spdm
