import Verif.Model.StaticFile
import Mathlib.Tactic.Push

/-!
# C102 The static file is made from the configured terrain and nothing else is touched

`cosipy-create-static` makes intermediate files in the static folder with external tools, whose failures it ignores, and
deletes them at the end.
-/

set_option autoImplicit false

namespace Cosipy.StaticFile

/-! ### Spec -/

/-- The intermediate files. -/
def Intermediate (s : Settings) (p : String) : Prop :=
  p = s.folder ++ "DEM_temp.tif" ∨ p = s.folder ++ "DEM_temp2.tif" ∨ p = s.folder ++ "dem.nc" ∨
  p = s.folder ++ "mask.nc" ∨ p = s.folder ++ "slope.nc"

/-- No intermediate file of an earlier run lies around. -/
def Tidy {C : Type} (s : Settings) (fs : Files C) : Prop := ∀ p, Intermediate s p → fs p = none

section
variable {C A : Type}

/-! ### Lemmas -/

theorem produce_other {fs : Files C} {out p : String} {r : Option C} (h : p ≠ out) : produce fs out r p = fs p := by
  unfold produce
  split
  · rw [if_neg h]
  · rfl

theorem gdalSteps_other {t : Tools C A} {s : Settings} {fs : Files C} {p : String} (h : ¬ Intermediate s p) :
    gdalSteps t s fs p = fs p := by
  unfold Intermediate at h
  push Not at h
  obtain ⟨h1, h2, h3, h4, h5⟩ := h
  have k1 : p ≠ s.temp := h1
  have k2 : p ≠ s.temp2 := h2
  have k3 : p ≠ s.demNc := h3
  have k5 : p ≠ s.slopeNc := h5
  unfold gdalSteps
  refine (produce_other k5).trans ((produce_other k3).trans ?_)
  by_cases ha : s.aggregate = true
  · rw [if_pos ha]
    refine (produce_other k2).trans ?_
    by_cases ht : s.tile = true
    · rw [if_pos ht]; exact produce_other k1
    · rw [if_neg ht]
  · rw [if_neg ha]
    by_cases ht : s.tile = true
    · rw [if_pos ht]; exact produce_other k1
    · rw [if_neg ht]

/-- What `main` does with a path, whatever the outcome. -/
theorem main_cases (t : Tools C A) (s : Settings) (fs : Files C) :
    ((∀ p, ¬ Intermediate s p → (main t s fs).1 p = fs p) ∧ ∃ e, (main t s fs).2 = .error e) ∨
    ((main t s fs).2 = .ok () ∧ ∃ ds, (main t s fs).1 s.output = some ds ∧
      (∀ p, ¬ Intermediate s p → p ≠ s.output → (main t s fs).1 p = fs p) ∧
      (∀ p, Intermediate s p → p ≠ s.output → (main t s fs).1 p = none)) := by
  have h4 : ∀ p, ¬ Intermediate s p → gdalSteps t s fs p = fs p := fun p hp => gdalSteps_other hp
  unfold main
  simp only
  generalize gdalSteps t s fs = f4 at h4
  split
  · exact .inl ⟨h4, _, rfl⟩
  · rename_i a _
    generalize h5 : produce f4 s.maskNc _ = f5
    have h5' : ∀ p, ¬ Intermediate s p → f5 p = fs p := fun p hp => by
      rw [← h5, produce_other (fun e => hp (by unfold Intermediate; rw [e]; simp [Settings.maskNc])), h4 p hp]
    split
    · rename_i d m sl _ _ _
      split
      · exact .inl ⟨h5', _, rfl⟩
      · rename_i ds _
        have h6 : ∀ p, ¬ Intermediate s p → remove f5 [s.demNc, s.maskNc, s.slopeNc, s.temp, s.temp2] p = fs p := by
          intro p hp
          unfold remove
          rw [if_neg, h5' p hp]
          intro hm
          simp only [List.mem_cons, List.not_mem_nil, or_false] at hm
          apply hp
          unfold Intermediate
          rcases hm with rfl | rfl | rfl | rfl | rfl <;>
            simp [Settings.demNc, Settings.maskNc, Settings.slopeNc, Settings.temp, Settings.temp2]
        have h7 : ∀ p, Intermediate s p → remove f5 [s.demNc, s.maskNc, s.slopeNc, s.temp, s.temp2] p = none := by
          intro p hp
          unfold remove
          rw [if_pos]
          simp only [List.mem_cons, List.not_mem_nil, or_false]
          unfold Intermediate at hp
          rcases hp with rfl | rfl | rfl | rfl | rfl <;>
            simp [Settings.demNc, Settings.maskNc, Settings.slopeNc, Settings.temp, Settings.temp2]
        split_ifs
        · refine .inr ⟨rfl, ds, by simp [produce], fun p hp hne => ?_, fun p hp hne => ?_⟩
          · show produce _ _ (some ds) p = _
            exact (produce_other hne).trans (h6 p hp)
          · show produce _ _ (some ds) p = _
            exact (produce_other hne).trans (h7 p hp)
        · exact .inl ⟨h6, _, rfl⟩
    · exact .inl ⟨h5', _, rfl⟩

/-! ### Theorems -/

/-- **C102** (nothing else is touched): whatever happens, a file that is neither the static file nor has the name of an
intermediate file keeps its content; in particular the DEM and the outline, unless they have such a name. -/
theorem C102_others (t : Tools C A) (s : Settings) (fs : Files C) {p : String} (hp : ¬ Intermediate s p)
    (ho : p ≠ s.output) : (main t s fs).1 p = fs p := by
  rcases main_cases t s fs with ⟨h, _⟩ | ⟨_, _, _, h, _⟩
  · exact h p hp
  · exact h p hp ho

/-- **C102** (all or nothing): a run that raises leaves the static file of an earlier run in place. -/
theorem C102_failed (t : Tools C A) (s : Settings) (fs : Files C) (ho : ¬ Intermediate s s.output) {e : Err}
    (h : (main t s fs).2 = .error e) : (main t s fs).1 s.output = fs s.output := by
  rcases main_cases t s fs with ⟨h1, _⟩ | ⟨h1, _⟩
  · exact h1 _ ho
  · rw [h] at h1; cases h1

/-- **C102** (tidying up): a run that succeeds has written the static file and leaves no intermediate file behind. -/
theorem C102_tidy (t : Tools C A) (s : Settings) (fs : Files C) (ho : ¬ Intermediate s s.output)
    (h : (main t s fs).2 = .ok ()) : Tidy s (main t s fs).1 ∧ ((main t s fs).1 s.output).isSome := by
  rcases main_cases t s fs with ⟨_, e, h1⟩ | ⟨_, ds, h1, _, h2⟩
  · rw [h] at h1; cases h1
  · exact ⟨fun p hp => h2 p hp (fun e => ho (e ▸ hp)), by rw [h1]; rfl⟩

/-- The terrain the settings ask for: the DEM, a window of it with `tile`, averaged with `aggregate`. -/
def terrain (t : Tools C A) (s : Settings) (dem : C) : Option C :=
  (if s.tile then t.window dem else some dem).bind fun c => if s.aggregate then t.average c none else some c

theorem append_ne {a b c : String} (h : b ≠ c) : a ++ b ≠ a ++ c := fun e => h (by simpa using e)

theorem produce_self {fs : Files C} {out : String} {r : Option C} (h : fs out = none) : produce fs out r out = r := by
  unfold produce
  cases r with
  | none => exact h
  | some c => exact if_pos rfl

/-- **C102** (content): in a folder without leftovers and with ordinary names, the static file is put together from the
terrain of the settings: elevation, mask, slope and aspect are all made from it, the mask with the configured outline. -/
theorem C102_content_partial (t : Tools C A) (s : Settings) {fs : Files C} (hf : Tidy s fs)
    (hd : ¬ Intermediate s s.dem) (hs : ¬ Intermediate s s.shape) (h : (main t s fs).2 = .ok ()) :
    ∃ dem sh ter d m sl a ds, fs s.dem = some dem ∧ fs s.shape = some sh ∧ terrain t s dem = some ter ∧
      t.netcdf ter = some d ∧ t.slope d = some sl ∧ t.aspect ter = some a ∧ t.cut sh ter none = some m ∧
      t.combine d m sl a = .ok ds ∧ t.noNan ds = true ∧ (main t s fs).1 s.output = some ds := by
  have n1 : fs s.temp = none := hf _ (by simp [Intermediate, Settings.temp])
  have n2 : fs s.temp2 = none := hf _ (by simp [Intermediate, Settings.temp2])
  have n3 : fs s.demNc = none := hf _ (by simp [Intermediate, Settings.demNc])
  have n4 : fs s.maskNc = none := hf _ (by simp [Intermediate, Settings.maskNc])
  have n5 : fs s.slopeNc = none := hf _ (by simp [Intermediate, Settings.slopeNc])
  unfold Intermediate at hd hs
  push Not at hd hs
  obtain ⟨d1, d2, d3, d4, d5⟩ := hd
  obtain ⟨s1, s2, s3, s4, s5⟩ := hs
  have e21 : s.temp2 ≠ s.temp := append_ne (by decide)
  have e31 : s.demNc ≠ s.temp := append_ne (by decide)
  have e32 : s.demNc ≠ s.temp2 := append_ne (by decide)
  have e41 : s.maskNc ≠ s.temp := append_ne (by decide)
  have e42 : s.maskNc ≠ s.temp2 := append_ne (by decide)
  have e43 : s.maskNc ≠ s.demNc := append_ne (by decide)
  have e45 : s.maskNc ≠ s.slopeNc := append_ne (by decide)
  have e51 : s.slopeNc ≠ s.temp := append_ne (by decide)
  have e52 : s.slopeNc ≠ s.temp2 := append_ne (by decide)
  have e53 : s.slopeNc ≠ s.demNc := append_ne (by decide)
  -- the first two commands
  obtain ⟨f2, hf2⟩ : ∃ f2, f2 = (if s.aggregate then
      produce (if s.tile then produce fs s.temp ((fs s.dem).bind t.window) else fs) s.temp2
        (((if s.tile then produce fs s.temp ((fs s.dem).bind t.window) else fs) (if s.tile then s.temp else s.dem)).bind
          fun c => t.average c ((if s.tile then produce fs s.temp ((fs s.dem).bind t.window) else fs) s.temp2))
      else (if s.tile then produce fs s.temp ((fs s.dem).bind t.window) else fs)) := ⟨_, rfl⟩
  have o2 : ∀ p, p ≠ s.temp → p ≠ s.temp2 → f2 p = fs p := by
    intro p h1 h2
    rw [hf2]
    split_ifs
    · rw [produce_other h2, produce_other h1]
    · rw [produce_other h2]
    · rw [produce_other h1]
    · rfl
  have t2 : f2 (tifPath s) = (fs s.dem).bind (terrain t s) := by
    rw [hf2]
    unfold tifPath terrain
    by_cases ha : s.aggregate = true <;> by_cases ht : s.tile = true
    · simp only [ha, ht, if_true]
      rw [produce_self (by rw [produce_other e21, n2]), produce_self n1, produce_other e21, n2]
      cases fs s.dem <;> rfl
    · simp only [ha, ht, if_true]
      rw [Bool.not_eq_true] at ht
      simp only [Bool.false_eq_true, if_false, Option.bind_some]
      rw [produce_self n2, n2]
    · rw [Bool.not_eq_true] at ha
      simp only [ha, ht, if_true, Bool.false_eq_true, if_false]
      rw [produce_self n1]
      cases fs s.dem with
      | none => rfl
      | some x => simp
    · rw [Bool.not_eq_true] at ha ht
      simp only [ha, ht, Bool.false_eq_true, if_false]
      cases fs s.dem <;> rfl
  have tne : tifPath s ≠ s.demNc ∧ tifPath s ≠ s.slopeNc ∧ tifPath s ≠ s.maskNc := by
    unfold tifPath
    split_ifs
    · exact ⟨e32.symm, e52.symm, e42.symm⟩
    · exact ⟨e31.symm, e51.symm, e41.symm⟩
    · exact ⟨d3, d5, d4⟩
  obtain ⟨f4, hf4⟩ : ∃ f4, f4 = gdalSteps t s fs := ⟨_, rfl⟩
  have hf4' : f4 = produce (produce f2 s.demNc ((f2 (tifPath s)).bind t.netcdf)) s.slopeNc
      (((produce f2 s.demNc ((f2 (tifPath s)).bind t.netcdf)) s.demNc).bind t.slope) := by rw [hf4, hf2]; rfl
  have g1 : f4 (tifPath s) = f2 (tifPath s) := by
    rw [hf4', produce_other tne.2.1, produce_other tne.1]
  have g3 : f4 s.demNc = (f2 (tifPath s)).bind t.netcdf := by
    rw [hf4', produce_other e53.symm, produce_self (by rw [o2 _ e31 e32, n3])]
  have g5 : f4 s.slopeNc = ((f2 (tifPath s)).bind t.netcdf).bind t.slope := by
    rw [hf4', produce_self (by rw [produce_other e53, o2 _ e51 e52, n5]), produce_self (by rw [o2 _ e31 e32, n3])]
  have g4 : f4 s.maskNc = none := by rw [hf4', produce_other e45, produce_other e43, o2 _ e41 e42, n4]
  have gs : f4 s.shape = fs s.shape := by
    rw [hf4', produce_other (show s.shape ≠ s.slopeNc from s5), produce_other (show s.shape ≠ s.demNc from s3),
      o2 _ s1 s2]
  unfold main at h ⊢
  rw [← hf4] at h ⊢
  simp only [g1, g4, gs] at h ⊢
  rw [t2] at h g3 g5 ⊢
  cases ha : ((fs s.dem).bind (terrain t s)).bind t.aspect with
  | none => rw [ha] at h; cases h
  | some a =>
    rw [ha] at h
    obtain ⟨ter, hter, haa⟩ := Option.bind_eq_some_iff.1 ha
    obtain ⟨dem, hdem, htt⟩ := Option.bind_eq_some_iff.1 hter
    rw [hter] at h g3 g5
    simp only [hter, Option.bind_some] at h g3 g5 ⊢
    rw [produce_self g4, produce_other e43.symm, produce_other e45.symm, g3, g5] at h
    rw [produce_self g4, produce_other e43.symm, produce_other e45.symm, g3, g5]
    cases hsh : fs s.shape with
    | none => rw [hsh] at h; cases hn : t.netcdf ter <;> rw [hn] at h <;> cases h
    | some sh =>
      rw [hsh] at h
      simp only [Option.bind_some] at h ⊢
      cases hn : t.netcdf ter with
      | none => rw [hn] at h; cases h
      | some d =>
        rw [hn] at h
        simp only [Option.bind_some] at h ⊢
        cases hm : t.cut sh ter none with
        | none => rw [hm] at h; cases h
        | some m =>
          rw [hm] at h
          cases hsl : t.slope d with
          | none => rw [hsl] at h; cases h
          | some sl =>
            rw [hsl] at h
            simp only at h ⊢
            cases hc : t.combine d m sl a with
            | error e => rw [hc] at h; cases h
            | ok ds =>
              rw [hc] at h
              simp only at h ⊢
              by_cases hq : t.noNan ds = true
              · rw [if_pos hq]
                exact ⟨dem, sh, ter, d, m, sl, a, ds, hdem, rfl, htt, hn, hsl, haa, hm, hc, hq, by simp [produce]⟩
              · rw [if_neg hq] at h
                cases h

/-- The paths that matter: the intermediate files and the two inputs. -/
private def Agree (s : Settings) (f g : Files C) : Prop := ∀ p, Intermediate s p ∨ p = s.dem ∨ p = s.shape → f p = g p

private theorem Agree.produce {s : Settings} {f g : Files C} (h : Agree s f g) {out : String} {r r' : Option C}
    (hr : r = r') : Agree s (produce f out r) (produce g out r') := by
  intro p hp
  subst hr
  unfold StaticFile.produce
  cases r <;> simp only [h p hp]

private theorem Agree.gdal {t : Tools C A} {s : Settings} {f g : Files C} (h : Agree s f g) :
    Agree s (gdalSteps t s f) (gdalSteps t s g) := by
  have i1 : Intermediate s s.temp := by simp [Intermediate, Settings.temp]
  have i2 : Intermediate s s.temp2 := by simp [Intermediate, Settings.temp2]
  have i3 : Intermediate s s.demNc := by simp [Intermediate, Settings.demNc]
  have ht : Intermediate s (tifPath s) ∨ tifPath s = s.dem ∨ tifPath s = s.shape := by
    unfold tifPath
    split_ifs <;> simp [i1, i2]
  unfold gdalSteps
  simp only
  have h1 : Agree s (if s.tile then StaticFile.produce f s.temp ((f s.dem).bind t.window) else f)
      (if s.tile then StaticFile.produce g s.temp ((g s.dem).bind t.window) else g) := by
    split_ifs
    · exact h.produce (by rw [h _ (.inr (.inl rfl))])
    · exact h
  generalize (if s.tile then StaticFile.produce f s.temp ((f s.dem).bind t.window) else f) = f1 at h1 ⊢
  generalize (if s.tile then StaticFile.produce g s.temp ((g s.dem).bind t.window) else g) = g1 at h1 ⊢
  have ht1 : f1 (if s.tile then s.temp else s.dem) = g1 (if s.tile then s.temp else s.dem) := by
    split_ifs
    · exact h1 _ (.inl i1)
    · exact h1 _ (.inr (.inl rfl))
  have h2 : Agree s (if s.aggregate then StaticFile.produce f1 s.temp2
        ((f1 (if s.tile then s.temp else s.dem)).bind fun c => t.average c (f1 s.temp2)) else f1)
      (if s.aggregate then StaticFile.produce g1 s.temp2
        ((g1 (if s.tile then s.temp else s.dem)).bind fun c => t.average c (g1 s.temp2)) else g1) := by
    by_cases ha : s.aggregate = true
    · rw [if_pos ha, if_pos ha]
      exact h1.produce (by rw [ht1, h1 _ (.inl i2)])
    · rw [if_neg ha, if_neg ha]
      exact h1
  generalize (if s.aggregate then StaticFile.produce f1 s.temp2
        ((f1 (if s.tile then s.temp else s.dem)).bind fun c => t.average c (f1 s.temp2)) else f1) = f2 at h2 ⊢
  generalize (if s.aggregate then StaticFile.produce g1 s.temp2
        ((g1 (if s.tile then s.temp else s.dem)).bind fun c => t.average c (g1 s.temp2)) else g1) = g2 at h2 ⊢
  have h3 := h2.produce (out := s.demNc) (congrArg (fun x => Option.bind x t.netcdf) (h2 _ ht))
  exact h3.produce (congrArg (fun x => Option.bind x t.slope) (h3 _ (.inl i3)))

/-- **C102** (what the static file depends on): started without intermediate files of an earlier run, the outcome and the
static file are determined by the configured DEM and outline. Missing for the full property: an earlier run that failed
leaves intermediate files, see `C102_stale`. -/
theorem C102_fresh_partial (t : Tools C A) (s : Settings) {fs gs : Files C} (hf : Tidy s fs) (hg : Tidy s gs)
    (hd : fs s.dem = gs s.dem) (hs : fs s.shape = gs s.shape) :
    (main t s fs).2 = (main t s gs).2 ∧
    ((main t s fs).2 = .ok () → (main t s fs).1 s.output = (main t s gs).1 s.output) := by
  have h0 : Agree s fs gs := by
    rintro p (hp | rfl | rfl)
    · rw [hf p hp, hg p hp]
    · exact hd
    · exact hs
  have h4 : Agree s (gdalSteps t s fs) (gdalSteps t s gs) := h0.gdal
  have i1 : Intermediate s s.temp := by simp [Intermediate, Settings.temp]
  have i2 : Intermediate s s.temp2 := by simp [Intermediate, Settings.temp2]
  have i3 : Intermediate s s.demNc := by simp [Intermediate, Settings.demNc]
  have i4 : Intermediate s s.maskNc := by simp [Intermediate, Settings.maskNc]
  have i5 : Intermediate s s.slopeNc := by simp [Intermediate, Settings.slopeNc]
  have ht : Intermediate s (tifPath s) ∨ tifPath s = s.dem ∨ tifPath s = s.shape := by
    unfold tifPath
    split_ifs <;> simp [i1, i2]
  unfold main
  simp only
  generalize gdalSteps t s fs = f4 at h4 ⊢
  generalize gdalSteps t s gs = g4 at h4 ⊢
  rw [h4 _ ht]
  cases ha : (g4 (tifPath s)).bind t.aspect with
  | none => exact ⟨rfl, fun h => by cases h⟩
  | some a =>
    simp only
    have h5 : Agree s
        (StaticFile.produce f4 s.maskNc ((f4 s.shape).bind fun sh => (g4 (tifPath s)).bind fun c => t.cut sh c (f4 s.maskNc)))
        (StaticFile.produce g4 s.maskNc ((g4 s.shape).bind fun sh => (g4 (tifPath s)).bind fun c => t.cut sh c (g4 s.maskNc))) :=
      h4.produce (by rw [h4 _ (.inr (.inr rfl)), h4 _ (.inl i4)])
    generalize (StaticFile.produce f4 s.maskNc
      ((f4 s.shape).bind fun sh => (g4 (tifPath s)).bind fun c => t.cut sh c (f4 s.maskNc))) = f5 at h5 ⊢
    generalize (StaticFile.produce g4 s.maskNc
      ((g4 s.shape).bind fun sh => (g4 (tifPath s)).bind fun c => t.cut sh c (g4 s.maskNc))) = g5 at h5 ⊢
    rw [h5 _ (.inl i3), h5 _ (.inl i4), h5 _ (.inl i5)]
    cases g5 s.demNc <;> cases g5 s.maskNc <;> cases g5 s.slopeNc <;>
      first
      | exact ⟨rfl, fun h => by cases h⟩
      | skip
    rename_i d m sl
    simp only
    cases t.combine d m sl a with
    | error e => exact ⟨rfl, fun h => by cases h⟩
    | ok ds =>
      simp only
      split_ifs
      · exact ⟨rfl, fun _ => by simp [StaticFile.produce]⟩
      · exact ⟨rfl, fun h => by cases h⟩

end

/-! ### Violations and examples -/

/-- Outcomes can be compared. -/
private local instance : DecidableEq (M Unit) := fun x y =>
  match x, y with
  | .ok (), .ok () => .isTrue rfl
  | .error e, .error e' => if h : e = e' then .isTrue (by rw [h]) else .isFalse (fun k => h (by cases k; rfl))
  | .ok (), .error _ => .isFalse (fun k => by cases k)
  | .error _, .ok () => .isFalse (fun k => by cases k)

/-- Tools that write down what they were given. -/
def exTools : Tools String String where
  window c := some ("tile(" ++ c ++ ")")
  average c _ := some ("mean(" ++ c ++ ")")
  netcdf c := some c
  slope c := some ("slope(" ++ c ++ ")")
  aspect c := some ("aspect(" ++ c ++ ")")
  cut sh c _ := some ("cut(" ++ sh ++ "," ++ c ++ ")")
  combine d m sl a := .ok (d ++ ";" ++ m ++ ";" ++ sl ++ ";" ++ a)
  noNan _ := true

/-- The shipped settings with another DEM and outline. -/
def exSettings (dem shape : String) : Settings where
  folder := "static/"
  demName := dem
  shapeName := shape
  outputName := "static.nc"
  tile := true
  aggregate := true

/-- A folder with a DEM and an outline. -/
def exFiles : Files String := fun p =>
  if p = "static/alps.tif" then some "alps" else if p = "static/hef.shp" then some "hef" else none

/-- **C102** fails: the first run stops because the outline is misspelt. The second run is configured with a DEM that does
not exist. It reports success and the static file shows the terrain of the first run; in a folder without leftovers
the same configuration is refused. -/
theorem C102_stale :
    let s1 := exSettings "alps.tif" "he.shp"
    let s2 := exSettings "andes.tif" "hef.shp"
    (main exTools s1 exFiles).2 = .error .file ∧
    (main exTools s2 exFiles).2 = .error .runtime ∧
    (main exTools s2 (main exTools s1 exFiles).1).2 = .ok () ∧
    (main exTools s2 (main exTools s1 exFiles).1).1 s2.output = (main exTools (exSettings "alps.tif" "hef.shp") exFiles).1 s2.output ∧
    (main exTools s2 (main exTools s1 exFiles).1).1 s2.output =
      some "mean(tile(alps));cut(hef,mean(tile(alps)));slope(mean(tile(alps)));aspect(mean(tile(alps)))" := by
  simp only
  decide +kernel

/-- **C102** fails: a DEM that lies in the folder as `dem.nc` is replaced by its coarse version and then deleted. -/
theorem C102_eats_input :
    let s := exSettings "dem.nc" "hef.shp"
    let fs : Files String := fun p => if p = "static/dem.nc" then some "alps" else exFiles p
    (main exTools s fs).2 = .ok () ∧ fs s.dem = some "alps" ∧ (main exTools s fs).1 s.dem = none := by
  simp only
  decide +kernel

/-- The hypotheses of the theorems are met by a tidy folder and ordinary names. -/
example :
    let s := exSettings "alps.tif" "hef.shp"
    ¬ Intermediate s s.output ∧ ¬ Intermediate s s.dem ∧ ¬ Intermediate s s.shape ∧ s.dem ≠ s.output ∧
    Tidy s exFiles ∧ (main exTools s exFiles).2 = .ok () ∧
    (main exTools (exSettings "alps.tif" "he.shp") exFiles).2 = .error .file := by
  refine ⟨?_, ?_, ?_, by decide +kernel, ?_, by decide +kernel, by decide +kernel⟩
  · unfold Intermediate; decide +kernel
  · unfold Intermediate; decide +kernel
  · unfold Intermediate; decide +kernel
  · rintro p (rfl | rfl | rfl | rfl | rfl) <;> decide +kernel

end Cosipy.StaticFile
