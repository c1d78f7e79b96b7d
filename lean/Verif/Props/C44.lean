import Verif.Lemmas.Erase
import Verif.Lemmas.Example
import Verif.Props.C01
import Verif.Props.C42
import Mathlib.Data.Rat.Floor

/-!
# C44 Interrupting and resuming a simulation does not change it

Proved for the Oerlemans albedo (`C44_resume`), including which exception is raised. Snow albedo and surface temperature
are not saved: with the Bougamont albedo the results can differ (`C44_bougamont_differs`).
-/

set_option autoImplicit false
set_option linter.unusedSectionVars false

namespace Cosipy
section
variable {α : Type} [Add α] [Sub α] [Mul α] [Div α] [Neg α] [LT α] [LE α]
  [DecidableLT α] [DecidableLE α] [BEq α] [Zero α] [One α] [NatCast α] [OfScientific α] [Transc α]

/-- What a user sees of a run: the final column and the stored quantities, or the exception. -/
def seen (x : M (SimState α × List (StepOut α))) : M (Grid α × List (StepOut α)) := x.map fun p => (p.1.grid, p.2)

/-- What a user sees of one step. -/
def seen1 (x : M (SimState α × StepOut α)) : M (Grid α × StepOut α) := x.map fun p => (p.1.grid, p.2)

/-- One step sees of the previous state only the column, with the Oerlemans albedo. -/
theorem step_seen {sv : Solvers α} {fuel : Nat} {c : Consts α} (hm : c.albedoMethod = .oerlemans98) {r : RunCfg α}
    (g : Grid α) (t t' a a' m m' : α) (f : Forcing α) :
    seen1 (step sv fuel c r ⟨g, t, a, m⟩ f) = seen1 (step sv fuel c r ⟨g, t', a', m'⟩ f) := by
  unfold step seen1
  simp only
  rcases precipitation c f (freshSnowDensity c f) with err | sr
  · rfl
  simp only [ok_bind]
  rcases (applySnowfall c r.dt g (thresholdPrecip c (freshSnowDensity c f) sr).1 (freshSnowDensity c f)
    f.t2).updateGrid fuel c with err | g
  · rfl
  simp only [ok_bind, updateAlbedo, hm]
  rcases methodOerlemans c g with err | ⟨g, al⟩
  · rfl
  simp only [ok_bind, pure_bind]
  rcases updateRoughness c g with err | z0
  · rfl
  simp only [ok_bind]
  rcases radiationStep c g (pyMax f.g 0 * (1 - al)) r.dt with err | ⟨g, sm, gp⟩
  · rfl
  simp only [ok_bind]
  rcases updateSurfaceTemperature sv c r.wrf g _ _ with err | ⟨g, ts, fl⟩
  · rfl
  simp only [ok_bind]
  rcases g.removeMeltWeq fuel c _ with err | ⟨g, lo⟩
  · rfl
  simp only [ok_bind]
  rcases percolation g _ with err | ⟨g, q⟩
  · rfl
  simp only [ok_bind]
  rcases refreezing c g with err | ⟨g, rf⟩
  · rfl
  simp only [ok_bind]
  rcases solveHeatEquation fuel c g r.dt with err | g
  · rfl
  simp only [ok_bind]
  rcases densification c g r.slope r.dt with err | g
  · rfl
  simp only [ok_bind]
  split_ifs <;> rfl

/-- A run from two states with the same column looks the same. -/
theorem run_seen {sv : Solvers α} {fuel : Nat} {c : Consts α} (hm : c.albedoMethod = .oerlemans98) {r : RunCfg α} :
    ∀ (fs : List (Forcing α)) (s s' : SimState α), s.grid = s'.grid →
      seen (run sv fuel c r s fs) = seen (run sv fuel c r s' fs) := by
  intro fs
  induction fs with
  | nil =>
    intro s s' h
    show Except.ok (s.grid, []) = Except.ok (s'.grid, [])
    rw [h]
  | cons f fs ih =>
    rintro ⟨g, t, a, m⟩ ⟨g', t', a', m'⟩ h
    cases h
    have h1 := step_seen (sv := sv) (fuel := fuel) hm (r := r) g t t' a a' m m' f
    unfold run
    rcases hx : step sv fuel c r ⟨g, t, a, m⟩ f with err | ⟨s1, o1⟩ <;>
      rcases hy : step sv fuel c r ⟨g, t', a', m'⟩ f with err' | ⟨s2, o2⟩ <;> rw [hx, hy] at h1
    · exact congrArg Except.error (Except.error.inj h1)
    · cases h1
    · cases h1
    · have h2 : (s1.grid, o1) = (s2.grid, o2) := Except.ok.inj h1
      have hg : s1.grid = s2.grid := congrArg Prod.fst h2
      have ho : o1 = o2 := congrArg Prod.snd h2
      subst ho
      have h3 := ih s1 s2 hg
      simp only [ok_bind]
      rcases hx2 : run sv fuel c r s1 fs with err | ⟨s3, os⟩ <;>
        rcases hy2 : run sv fuel c r s2 fs with err' | ⟨s4, os'⟩ <;> rw [hx2, hy2] at h3
      · exact congrArg Except.error (Except.error.inj h3)
      · cases h3
      · cases h3
      · have h4 : (s3.grid, os) = (s4.grid, os') := Except.ok.inj h3
        have hg4 : s3.grid = s4.grid := congrArg Prod.fst h4
        have ho4 : os = os' := congrArg Prod.snd h4
        show Except.ok (s3.grid, o1 :: os) = Except.ok (s4.grid, o1 :: os')
        rw [hg4, ho4]

/-- A non-empty run does not depend on the refreezing amounts of the first column. -/
theorem run_clear {sv : Solvers α} {fuel : Nat} {c : Consts α} {r : RunCfg α} (s : SimState α) {fs : List (Forcing α)}
    (h : fs ≠ []) : run sv fuel c r { s with grid := s.grid.clearRefreeze } fs = run sv fuel c r s fs := by
  cases fs with
  | nil => exact absurd rfl h
  | cons f fs =>
    unfold run
    rw [Erase.step]

/-- **C44, splitting.** A run over `A ++ B` is the run over `A` followed by the run over `B`. -/
theorem C44_append {sv : Solvers α} {fuel : Nat} {c : Consts α} {r : RunCfg α} :
    ∀ (A B : List (Forcing α)) (s : SimState α), run sv fuel c r s (A ++ B) = (do
      let (s1, o1) ← run sv fuel c r s A
      let (s2, o2) ← run sv fuel c r s1 B
      return (s2, o1 ++ o2)) := by
  intro A
  induction A with
  | nil =>
    intro B s
    show run sv fuel c r s B = (run sv fuel c r s B >>= fun p => pure (p.1, [] ++ p.2))
    rcases run sv fuel c r s B with err | ⟨s', os⟩ <;> rfl
  | cons f A ih =>
    intro B s
    have hc : ∀ fs, run sv fuel c r s (f :: fs) = (do
        let (s', o) ← step sv fuel c r s f
        let (s'', os) ← run sv fuel c r s' fs
        return (s'', o :: os)) := fun _ => rfl
    rw [List.cons_append, hc, hc]
    rcases step sv fuel c r s f with err | ⟨s1, o⟩
    · rfl
    · simp only [ok_bind]
      rw [ih]
      rcases run sv fuel c r s1 A with err | ⟨s2, os⟩
      · rfl
      · simp only [ok_bind, pure_bind]
        rcases run sv fuel c r s2 B with err | ⟨s3, os'⟩ <;> rfl

end

section
variable {K : Type} [Field K] [LinearOrder K] [IsStrictOrderedRing K] [Transc K] [HasTrunc K]

/-- **C44.** With the Oerlemans albedo: interrupt a run after any number of steps, save the column, load it, start again
from the start values of a new run, and continue with any further steps. The final column and everything stored for
these steps, or the exception raised, are those of the uninterrupted run. -/
theorem C44_resume (ht : TruncSpec K) {sv : Solvers K} {fuel : Nat} {c : Consts K} (hm : c.albedoMethod = .oerlemans98)
    {r : RunCfg K} {s s1 : SimState K} {A B : List (Forcing K)} {oA : List (StepOut K)} (hB : B ≠ []) {fill : K}
    (hw : s.grid.WF) (hA : run sv fuel c r s A = .ok (s1, oA)) (hl : s1.grid.nodes.length ≤ r.maxLayers) :
    ∃ d g', saveCoupled c fill r.maxLayers s1.grid = .ok d ∧ loadSnowpack c d = .ok g' ∧
      seen (run sv fuel c r s (A ++ B)) =
        (seen (run sv fuel c r (initState c r.wrf g') B)).map fun p => (p.1, oA ++ p.2) := by
  have hw1 : s1.grid.WF := C01_run A hw hA
  obtain ⟨d, h1, h2⟩ := C42_roundtrip ht (c := c) (fill := fill) hw1 hl
  refine ⟨d, _, h1, h2, ?_⟩
  have e1 := run_seen (sv := sv) (fuel := fuel) hm (r := r) B (initState c r.wrf s1.grid.clearRefreeze)
    { s1 with grid := s1.grid.clearRefreeze } rfl
  rw [e1, run_clear s1 hB, C44_append, hA]
  simp only [ok_bind]
  rcases run sv fuel c r s1 B with err | ⟨s2, os⟩ <;> rfl

end

/-- Shipped-like constants with the Bougamont albedo. -/
private def bouConsts : Consts ℚ := { exConsts with albedoMethod := .bougamont05 }

private def bouA : List (Forcing ℚ) := [exSnow, exDry]

attribute [local instance] exTransc in
private def bouStart : SimState ℚ := initState bouConsts false exGrid

attribute [local instance] exTransc in
private def bouRun (s : SimState ℚ) (fs : List (Forcing ℚ)) := run exSolvers 40 bouConsts exCfg s fs

attribute [local instance] exTransc in
/-- Both runs return, and their albedos differ. -/
private def bouCheck : Bool :=
  match bouRun bouStart bouA with
  | .error _ => false
  | .ok (s1, oA) =>
    decide (s1.grid.nodes.length ≤ 200) &&
    match bouRun bouStart (bouA ++ [exDry]), bouRun (initState bouConsts false s1.grid.clearRefreeze) [exDry] with
    | .ok x, .ok y => decide (x.2.map StepOut.albedo ≠ oA.map StepOut.albedo ++ y.2.map StepOut.albedo)
    | _, _ => false

attribute [local instance] exTransc in
/-- **C44, Bougamont.** There is a simulation with the Bougamont albedo that, interrupted after two hours, saved, loaded
and continued for an hour, stores a different albedo than without the interruption. -/
theorem C44_bougamont_differs [HasTrunc ℚ] (ht : TruncSpec ℚ) :
    ∃ (c : Consts ℚ) (r : RunCfg ℚ) (s s1 : SimState ℚ) (A B : List (Forcing ℚ)) (oA : List (StepOut ℚ)) (d : Dataset ℚ)
      (g' : Grid ℚ), c.albedoMethod = .bougamont05 ∧ run exSolvers 40 c r s A = .ok (s1, oA) ∧
      saveCoupled c 0 r.maxLayers s1.grid = .ok d ∧ loadSnowpack c d = .ok g' ∧
      (∃ x y, run exSolvers 40 c r s (A ++ B) = .ok x ∧ run exSolvers 40 c r (initState c r.wrf g') B = .ok y ∧
        x.2.map StepOut.albedo ≠ oA.map StepOut.albedo ++ y.2.map StepOut.albedo) := by
  have hok : bouCheck = true := by decide +kernel
  unfold bouCheck at hok
  rcases hA : bouRun bouStart bouA with err | ⟨s1, oA⟩
  · rw [hA] at hok; cases hok
  rw [hA] at hok
  simp only [Bool.and_eq_true, decide_eq_true_eq] at hok
  obtain ⟨hl, hok⟩ := hok
  have hw : s1.grid.WF := C01_run bouA (s := bouStart) (show exGrid.numberNodes = _ from rfl) hA
  obtain ⟨d, h1, h2⟩ := C42_roundtrip ht (c := bouConsts) (fill := 0) (maxLayers := 200) hw hl
  refine ⟨bouConsts, exCfg, bouStart, s1, bouA, [exDry], oA, d, _, rfl, hA, h1, h2, ?_⟩
  rcases hx : bouRun bouStart (bouA ++ [exDry]) with err | x
  · rw [hx] at hok; cases hok
  rcases hy : bouRun (initState bouConsts false s1.grid.clearRefreeze) [exDry] with err | y
  · rw [hx, hy] at hok; cases hok
  rw [hx, hy] at hok
  exact ⟨x, y, hx, hy, of_decide_eq_true hok⟩

/-- Non-vacuity: rounding towards zero on the rationals is as `C44_bougamont_differs` asks. -/
example : letI : HasTrunc ℚ := ⟨fun x => if x < 0 then ⌈x⌉ else ⌊x⌋⟩; TruncSpec ℚ := by
  intro x hx
  show ((if x < 0 then ⌈x⌉ else ⌊x⌋ : Int) : ℚ) ≤ x ∧ x < ((if x < 0 then ⌈x⌉ else ⌊x⌋ : Int) : ℚ) + 1
  rw [if_neg (not_lt.2 hx)]
  exact ⟨Int.floor_le x, Int.lt_floor_add_one x⟩

attribute [local instance] exTransc in
/-- Non-vacuity: with the Oerlemans albedo a run over a snowy and a dry hour returns, and can be saved. -/
example : exConsts.albedoMethod = .oerlemans98 ∧ exGrid.WF ∧
    ((exRun [exSnow, exDry]).toOption.map fun p => decide (p.1.grid.nodes.length ≤ exCfg.maxLayers)) = some true :=
  ⟨rfl, rfl, by decide +kernel⟩

end Cosipy
