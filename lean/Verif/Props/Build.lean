import Verif.Spec.Build
import Verif.Props.ConfigText
/-! C111: a build uses the current configuration. -/
namespace Spdm
open Spec Build

variable {y : Sys}

theorem template_path (hd : DotSlash y) : y.locate "./config.rs.template" = y.locate "config.rs.template" := hd "config.rs.template"

theorem script_right (hd : DotSlash y) {w : World} (ht : HasTemplate y w) {t : List Char} : script y w = some t → RightFor y w t := by
  intro h
  unfold script load at h
  have hp : y.locate (sourcePath w.spdmConfig) = configFile y w := by
    unfold configFile sourcePath
    cases w.spdmConfig with
    | some p => rfl
    | none => exact hd "spdm-config.toml"
  have ht' : w.files (y.locate "./config.rs.template") = some SpdmConfig.templateText := by rw [template_path hd]; exact ht
  rw [hp, ht'] at h
  cases hf : w.files (configFile y w) with
  | none => rw [hf] at h; cases h
  | some toml =>
    rw [hf] at h
    cases hq : y.parse toml with
    | none => simp [hq] at h
    | some i =>
      simp only [Option.bind_eq_bind, Option.bind_some, hq] at h
      have h' : SpdmConfig.genText w.ring i = .ok t := by
        change (SpdmConfig.genText w.ring i).toOption = some t at h
        cases hg : SpdmConfig.genText w.ring i with
        | error e => rw [hg] at h; cases h
        | ok x => rw [hg] at h; cases h; rfl
      exact ⟨toml, i, hf, hq, (c89_accepts_valid _ _).mp ⟨t, h'⟩, c89_file _ _ _ h'⟩

theorem script_fails (hd : DotSlash y) {w : World} (ht : HasTemplate y w) : script y w = none →
    ∀ toml i, w.files (configFile y w) = some toml → y.parse toml = some i → ¬ ValidConfig w.ring i := by
  intro h toml i hf hq hv
  obtain ⟨t, h'⟩ := (c89_accepts_valid _ _).mpr hv
  unfold script load at h
  have hp : y.locate (sourcePath w.spdmConfig) = configFile y w := by
    unfold configFile sourcePath
    cases w.spdmConfig with
    | some p => rfl
    | none => exact hd "spdm-config.toml"
  have ht' : w.files (y.locate "./config.rs.template") = some SpdmConfig.templateText := by rw [template_path hd]; exact ht
  rw [hp, ht', hf] at h
  simp only [Option.bind_eq_bind, Option.bind_some, hq] at h
  change (SpdmConfig.genText w.ring i).toOption = none at h
  rw [h'] at h
  cases h

/-- What the script reads. -/
theorem script_congr {w w' : World} (h1 : w'.spdmConfig = w.spdmConfig) (h2 : w'.ring = w.ring)
    (h3 : w'.files (y.locate (sourcePath w.spdmConfig)) = w.files (y.locate (sourcePath w.spdmConfig)))
    (h4 : w'.files (y.locate "./config.rs.template") = w.files (y.locate "./config.rs.template")) : script y w' = script y w := by
  unfold script load
  rw [h1, h2, h3, h4]

/-- A recorded run that cargo would reuse is still right, for the settings of SPDM_CONFIG in `S`. -/
def Current (y : Sys) (S : Option String → Prop) (t : Tree) : Prop :=
  ∀ b e, (t.target b).stamp = some ⟨e, false⟩ → S e → script y { t.world with spdmConfig := e, ring := b } = (t.target b).out

theorem current_set {S : Option String → Prop} {t : Tree} (h : Current y S t) {x : Target}
    (hx : ∀ e, x.stamp = some ⟨e, false⟩ → S e → script y { t.world with spdmConfig := e } = x.out) : Current y S (t.set x) := by
  intro b e hs he
  unfold Tree.set at hs ⊢
  dsimp only at hs ⊢
  split at hs
  · rename_i hb
    rw [if_pos hb, hb]
    exact hx e hs he
  · rename_i hb
    rw [if_neg hb]
    exact h b e hs he

theorem current_step {S : Option String → Prop} (hd : DotSlash y) {t : Tree} (h : Current y S t) (ev : Event)
    (hev : ∀ f con, ev = .edit f con → ∀ e, S e → y.locate (sourcePath e) = f → watched y f = true) : Current y S (t.step y ev) := by
  cases ev with
  | setEnv e => exact h
  | setRing b => exact h
  | edit f con =>
    intro b e hs he
    simp only [Tree.step] at hs ⊢
    rw [Option.map_eq_some_iff] at hs
    obtain ⟨s, h1, h2⟩ := hs
    simp only [Stamp.mk.injEq, Bool.or_eq_false_iff] at h2
    obtain ⟨h2, h3, h4⟩ := h2
    have := h b e (by rw [h1, ← h2, ← h3]) he
    rw [← this]
    have tw : y.locate "./config.rs.template" ≠ f := by
      intro hh
      rw [← hh, template_path hd] at h4
      simp [watched, watchedPaths] at h4
    have sw : y.locate (sourcePath e) ≠ f := by
      intro hh
      have := hev f con rfl e he hh
      rw [h4] at this; cases this
    exact script_congr rfl rfl (by dsimp only; rw [if_neg sw]) (by dsimp only; rw [if_neg tw])
  | build =>
    simp only [Tree.step, Tree.build]
    split
    · exact h
    · split
      · rename_i text hq
        refine current_set h ?_
        intro e he _
        simp only [Option.some.injEq, Stamp.mk.injEq, and_true] at he
        rw [← he]; exact hq
      · exact current_set h (fun e he _ => by cases he)
  | killed n =>
    simp only [Tree.step]
    split
    · exact h
    · split
      · exact current_set h (fun e he _ => by cases he)
      · exact current_set h (fun e he _ => by cases he)

theorem current_after {S : Option String → Prop} (hd : DotSlash y) (es : List Event) {t : Tree} (h : Current y S t)
    (hev : ∀ f con, .edit f con ∈ es → ∀ e, S e → y.locate (sourcePath e) = f → watched y f = true) : Current y S (t.after y es) := by
  induction es generalizing t with
  | nil => exact h
  | cons ev es ih =>
    refine ih (current_step hd h ev fun f con hh => hev f con (by rw [hh]; exact List.mem_cons_self ..)) fun f con hm => hev f con (List.mem_cons_of_mem _ hm)

theorem build_script {S : Option String → Prop} {t : Tree} (h : Current y S t) (hs : S t.world.spdmConfig) : (t.build y).2 = script y t.world := by
  unfold Tree.build
  split
  · rename_i hf
    unfold Tree.fresh at hf
    split at hf
    · rename_i s hq
      simp only [Bool.and_eq_true, decide_eq_true_eq, Bool.not_eq_true'] at hf
      obtain ⟨e, ch⟩ := s
      simp only at hf
      obtain ⟨rfl, rfl⟩ := hf
      exact (h _ _ hq hs).symm
    · cases hf
  · split <;> rename_i h1 <;> rw [h1]

theorem no_stamp (w : World) (es : List Event) (hb : .build ∉ es) : ∀ S, Current y S ((Tree.new w).after y es) := by
  have go : ∀ (es : List Event) (t : Tree), .build ∉ es → (∀ b, (t.target b).stamp = none) → ∀ b, ((t.after y es).target b).stamp = none := by
    intro es
    induction es with
    | nil => intro t _ h; exact h
    | cons ev es ih =>
      intro t hb h
      refine ih (t.step y ev) (fun hm => hb (List.mem_cons_of_mem _ hm)) ?_
      intro b
      have hset : ∀ x : Target, x.stamp = none → ((t.set x).target b).stamp = none := by
        intro x hx
        unfold Tree.set
        dsimp only
        split
        · exact hx
        · exact h b
      cases ev with
      | build => exact absurd (List.mem_cons_self ..) hb
      | setEnv e => exact h b
      | setRing e => exact h b
      | edit f con => simp [Tree.step, h b]
      | killed n =>
        simp only [Tree.step]
        split
        · exact h b
        · split
          · exact hset _ rfl
          · exact hset _ rfl
  intro S b e hs
  rw [go es (Tree.new w) hb (fun _ => rfl) b] at hs
  cases hs

theorem right_iff (hd : DotSlash y) {t : Tree} (h : (t.build y).2 = script y t.world) (ht : HasTemplate y t.world) :
    (∀ text, (t.build y).2 = some text → RightFor y t.world text) ∧
    ((t.build y).2 = none → ∀ toml i, t.world.files (configFile y t.world) = some toml → y.parse toml = some i → ¬ ValidConfig t.world.ring i) := by
  rw [h]
  exact ⟨fun text => script_right hd ht, script_fails hd ht⟩

/-- **C111.** (1) A build uses the current configuration if the configuration file is one that cargo watches, whatever was edited, built, aborted or killed before: if it
succeeds, the constants compiled in are those of the configuration file as it is now; if it fails, the file as it is now is to blame.
Missing: configuration files named by SPDM_CONFIG, see `c111_stale`. -/
theorem c111_watched_partial (hd : DotSlash y) (w : World) (es : List Event) (ht : HasTemplate y ((Tree.new w).after y es).world) (hw : ConfigWatched y ((Tree.new w).after y es).world) :
    (∀ text, (((Tree.new w).after y es).build y).2 = some text → RightFor y ((Tree.new w).after y es).world text) ∧
    ((((Tree.new w).after y es).build y).2 = none → ∀ toml i, ((Tree.new w).after y es).world.files (configFile y ((Tree.new w).after y es).world) = some toml →
      y.parse toml = some i → ¬ ValidConfig ((Tree.new w).after y es).world.ring i) := by
  refine right_iff hd (build_script (S := fun e => watched y (y.locate (sourcePath e)) = true) (current_after hd es (fun b e hs => by cases hs) ?_) ?_) ht
  · intro f con _ e he hf
    rw [← hf]; exact he
  · obtain ⟨p, hp, hl⟩ := hw
    have hq : y.locate (sourcePath ((Tree.new w).after y es).world.spdmConfig) = configFile y ((Tree.new w).after y es).world := by
      unfold configFile sourcePath
      cases ((Tree.new w).after y es).world.spdmConfig with
      | some p => rfl
      | none => exact hd "spdm-config.toml"
    rw [hq, ← hl]
    exact List.any_eq_true.mpr ⟨p, hp, by simp⟩

/-- **C111.** (2) Also with any configuration file, if that file was not edited any more once the first build was started and not killed. -/
theorem c111_unedited_partial (hd : DotSlash y) (w : World) (before later : List Event) (hb : .build ∉ before)
    (hl : ∀ f con, .edit f con ∈ later → f ≠ configFile y ((Tree.new w).after y (before ++ later)).world)
    (ht : HasTemplate y ((Tree.new w).after y (before ++ later)).world) :
    (∀ text, (((Tree.new w).after y (before ++ later)).build y).2 = some text → RightFor y ((Tree.new w).after y (before ++ later)).world text) ∧
    ((((Tree.new w).after y (before ++ later)).build y).2 = none → ∀ toml i, ((Tree.new w).after y (before ++ later)).world.files (configFile y ((Tree.new w).after y (before ++ later)).world) = some toml →
      y.parse toml = some i → ¬ ValidConfig ((Tree.new w).after y (before ++ later)).world.ring i) := by
  refine right_iff hd (build_script (S := fun e => e = ((Tree.new w).after y (before ++ later)).world.spdmConfig) ?_ rfl) ht
  have hsplit : (Tree.new w).after y (before ++ later) = ((Tree.new w).after y before).after y later := List.foldl_append ..
  have hq : y.locate (sourcePath ((Tree.new w).after y (before ++ later)).world.spdmConfig) = configFile y ((Tree.new w).after y (before ++ later)).world := by
    unfold configFile sourcePath
    cases ((Tree.new w).after y (before ++ later)).world.spdmConfig with
    | some p => rfl
    | none => exact hd "spdm-config.toml"
  generalize ((Tree.new w).after y (before ++ later)).world = v at *
  rw [hsplit]
  refine current_after hd later (no_stamp w before hb _) ?_
  intro f con hm e he hf
  rw [he, hq] at hf
  exact absurd hf.symm (hl f con hm)

/-- **C111.** What is missing: a configuration file named by SPDM_CONFIG that cargo does not watch can be edited, or removed, after a build, and the next build still
succeeds with the constants of the old contents. -/
theorem c111_stale (w : World) (path : String) (hp : watched y (y.locate path) = false) (toml : List Char) (later : Option (List Char)) (text : List Char)
    (h1 : script y { w with spdmConfig := some path, files := fun g => if g = y.locate path then some toml else w.files g } = some text) :
    (((Tree.new w).after y [.setEnv (some path), .edit (y.locate path) (some toml), .build, .edit (y.locate path) later]).build y).2 = some text := by
  have h2 : (((Tree.new w).step y (.setEnv (some path))).step y (.edit (y.locate path) (some toml))).build y =
      (((((Tree.new w).step y (.setEnv (some path))).step y (.edit (y.locate path) (some toml))).set ⟨some text, some ⟨some path, false⟩⟩), some text) := by
    unfold Tree.build
    rw [if_neg (by simp [Tree.fresh, Tree.step, Tree.new])]
    have : script y (((Tree.new w).step y (.setEnv (some path))).step y (.edit (y.locate path) (some toml))).world = some text := h1
    rw [this]
    rfl
  simp only [Tree.after, List.foldl_cons, List.foldl_nil]
  rw [show ∀ t : Tree, t.step y .build = (t.build y).1 from fun _ => rfl, h2]
  unfold Tree.build
  rw [if_pos (by simp [Tree.fresh, Tree.step, Tree.set, Tree.new, hp])]
  simp [Tree.step, Tree.set, Tree.new]

/-! ### A concrete tree -/

/-- Remove leading "./"s. -/
def dropDots : List Char → List Char
  | '.' :: '/' :: r => dropDots r
  | p => p

/-- Five files. -/
def demoSys : Sys where
  locate p :=
    let q := dropDots p.toList
    if q = "spdm-config.toml".toList then 0 else if q = "config.rs.template".toList then 1 else if q = "build.rs".toList then 2 else if q = "my.toml".toList then 3 else 4
  parse t := if t = ['a'] then some cryptoToml else if t = ['b'] then some { cryptoToml with numSlots := 2 } else none

theorem demo_dotSlash : DotSlash demoSys := by
  intro p
  simp only [demoSys, String.toList_append]
  rfl

/-- The package as it is checked out, with the first configuration. -/
def demoWorld : World := ⟨fun f => if f = 0 then some ['a'] else if f = 1 then some SpdmConfig.templateText else none, none, true⟩

theorem crypto_valid : ValidConfig true cryptoToml :=
  (c89_accepts_valid true cryptoToml).mp (by
    have h : (SpdmConfig.genText true cryptoToml).isOk = true := by decide +kernel
    cases hg : SpdmConfig.genText true cryptoToml with
    | ok t => exact ⟨t, rfl⟩
    | error e => rw [hg] at h; cases h)

theorem demo_script {w : World} (hr : w.ring = true) (ht : HasTemplate demoSys w) (hf : w.files (configFile demoSys w) = some ['a']) : ∃ t, script demoSys w = some t := by
  cases h : script demoSys w with
  | some t => exact ⟨t, rfl⟩
  | none => exact absurd (hr ▸ crypto_valid) (script_fails demo_dotSlash ht h _ _ hf (by decide +kernel))

theorem build_world (t : Tree) : (t.step y .build).world = t.world := by
  simp only [Tree.step, Tree.build]
  split
  · rfl
  · split <;> rfl

theorem killed_world (t : Tree) (n : Nat) : (t.step y (.killed n)).world = t.world := by
  simp only [Tree.step]
  split
  · rfl
  · split <;> rfl

/-- The file in the package is edited between two builds, one of them killed: the hypotheses of (1) hold, and the build succeeds. -/
def demoHistory : List Event := [.build, .edit 0 (some ['b']), .killed 7, .build, .edit 0 (some ['a'])]

theorem demoHistory_world : ((Tree.new demoWorld).after demoSys demoHistory).world =
    { demoWorld with files := fun g => if g = 0 then some ['a'] else if g = 0 then some ['b'] else demoWorld.files g } := by
  simp only [demoHistory, Tree.after, List.foldl_cons, List.foldl_nil]
  rw [show ∀ (t : Tree) f con, (t.step demoSys (.edit f con)).world = { t.world with files := fun g => if g = f then con else t.world.files g } from fun _ _ _ => rfl,
    build_world, killed_world, show ∀ (t : Tree) f con, (t.step demoSys (.edit f con)).world = { t.world with files := fun g => if g = f then con else t.world.files g } from fun _ _ _ => rfl,
    build_world]
  rfl

theorem demo_locate : demoSys.locate "spdm-config.toml" = 0 ∧ demoSys.locate "config.rs.template" = 1 ∧ demoSys.locate "my.toml" = 3 := by decide +kernel

example : ∃ t, (((Tree.new demoWorld).after demoSys demoHistory).build demoSys).2 = some t ∧ RightFor demoSys ((Tree.new demoWorld).after demoSys demoHistory).world t := by
  have e1 : configFile demoSys ((Tree.new demoWorld).after demoSys demoHistory).world = 0 := by rw [demoHistory_world]; exact demo_locate.1
  have ht : HasTemplate demoSys ((Tree.new demoWorld).after demoSys demoHistory).world := by
    unfold HasTemplate; rw [demoHistory_world, demo_locate.2.1]; rfl
  have h := c111_watched_partial demo_dotSlash demoWorld demoHistory ht ⟨"spdm-config.toml", by simp, by rw [e1]; exact demo_locate.1⟩
  cases hb : (((Tree.new demoWorld).after demoSys demoHistory).build demoSys).2 with
  | some t => exact ⟨t, rfl, h.1 t hb⟩
  | none => exact absurd (by rw [demoHistory_world]; exact crypto_valid) (h.2 hb ['a'] cryptoToml (by rw [e1, demoHistory_world]; rfl) (by decide +kernel))

/-- The stale build of `c111_stale`, concretely: configured for two slots, built for another number. -/
theorem c111_stale_wrong : ∃ (y : Sys) (w : World) (es : List Event) (t : List Char), DotSlash y ∧ HasTemplate y ((Tree.new w).after y es).world ∧
    (((Tree.new w).after y es).build y).2 = some t ∧ ¬ RightFor y ((Tree.new w).after y es).world t := by
  have l3 : demoSys.locate "my.toml" = 3 := demo_locate.2.2
  have hp : watched demoSys (demoSys.locate "my.toml") = false := by decide +kernel
  have ht0 : HasTemplate demoSys { demoWorld with spdmConfig := some "my.toml", files := fun g => if g = demoSys.locate "my.toml" then some ['a'] else demoWorld.files g } := by
    unfold HasTemplate; rw [demo_locate.2.1, l3]; rfl
  obtain ⟨t, h1⟩ := demo_script (w := { demoWorld with spdmConfig := some "my.toml", files := fun g => if g = demoSys.locate "my.toml" then some ['a'] else demoWorld.files g })
    rfl ht0 (by simp [configFile])
  have hw : ((Tree.new demoWorld).after demoSys [.setEnv (some "my.toml"), .edit (demoSys.locate "my.toml") (some ['a']), .build, .edit (demoSys.locate "my.toml") (some ['b'])]).world =
      { demoWorld with spdmConfig := some "my.toml", files := fun g => if g = demoSys.locate "my.toml" then some ['b'] else if g = demoSys.locate "my.toml" then some ['a'] else demoWorld.files g } := by
    simp only [Tree.after, List.foldl_cons, List.foldl_nil]
    rw [show ∀ (t : Tree) f con, (t.step demoSys (.edit f con)).world = { t.world with files := fun g => if g = f then con else t.world.files g } from fun _ _ _ => rfl, build_world]
    rfl
  refine ⟨demoSys, demoWorld, _, t, demo_dotSlash, ?_, c111_stale demoWorld "my.toml" hp ['a'] (some ['b']) t h1, ?_⟩
  · unfold HasTemplate; rw [hw, demo_locate.2.1, l3]; rfl
  · rintro ⟨toml, i, g1, g2, _, g4⟩
    obtain ⟨toml', i', k1, k2, _, k4⟩ := script_right demo_dotSlash ht0 h1
    rw [hw] at g1
    simp only [configFile, if_true, Option.some.injEq] at g1 k1
    subst g1 k1
    have e1 : demoSys.parse ['b'] = some { cryptoToml with numSlots := 2 } := by decide +kernel
    have e2 : demoSys.parse ['a'] = some cryptoToml := by decide +kernel
    rw [e1, Option.some.injEq] at g2
    rw [e2, Option.some.injEq] at k2
    subst g2 k2
    have := congrArg SpdmConfig.numSlots (c89_one_meaning g4 k4)
    revert this
    decide

/-- (2) applies to a file of one's own that is left alone after the first build, while other files change. -/
example : (∀ t, (((Tree.new demoWorld).after demoSys ([.setEnv (some "my.toml"), .edit 3 (some ['a'])] ++ [.build, .edit 0 (some ['b'])])).build demoSys).2 = some t →
    RightFor demoSys ((Tree.new demoWorld).after demoSys ([.setEnv (some "my.toml"), .edit 3 (some ['a'])] ++ [.build, .edit 0 (some ['b'])])).world t) := by
  have hw : ((Tree.new demoWorld).after demoSys ([.setEnv (some "my.toml"), .edit 3 (some ['a'])] ++ [.build, .edit 0 (some ['b'])])).world =
      { demoWorld with spdmConfig := some "my.toml", files := fun g => if g = 0 then some ['b'] else if g = 3 then some ['a'] else demoWorld.files g } := by
    simp only [Tree.after, List.cons_append, List.nil_append, List.foldl_cons, List.foldl_nil]
    rw [show ∀ (t : Tree) f con, (t.step demoSys (.edit f con)).world = { t.world with files := fun g => if g = f then con else t.world.files g } from fun _ _ _ => rfl, build_world]
    rfl
  refine (c111_unedited_partial demo_dotSlash demoWorld [.setEnv (some "my.toml"), .edit 3 (some ['a'])] [.build, .edit 0 (some ['b'])] (by simp) ?_ ?_).1
  · rw [hw]
    intro f con hm
    simp only [List.mem_cons, reduceCtorEq, Event.edit.injEq, List.not_mem_nil, or_false, false_or] at hm
    rw [hm.1]
    simp only [configFile, demo_locate.2.2]
    decide
  · unfold HasTemplate; rw [hw, demo_locate.2.1]; rfl

end Spdm
