import Verif.Lemmas.NanStep
import Verif.Lemmas.Example
import Verif.Props.C59
import Verif.Model.Real
import Mathlib.Analysis.Complex.ExponentialBounds

/-!
# C95 A simulation of numbers gives numbers

In an arithmetic with NaN (`Model/Nan.lean`: operations with NaN give NaN, comparisons with NaN are false, divisions by zero that do
not raise and elementary functions outside their domain give NaN), a simulation that starts on a physical column of numbers, with
constants, settings and forcing in range, produces only numbers: every reported value and every value of the column after
every step. It is moreover a simulation of the model on numbers for some surface temperature solver. The solver may answer NaN: the
cap at the melting point replaces it by the melting point.

Scope: Richardson stability correction (the shipped one). Densification can use up a layer (C59); the theorem for all densification
methods assumes that no layer height becomes zero or negative, the one for constant density does not. Overflow is not modelled.
-/

set_option autoImplicit false
set_option linter.unusedSectionVars false

namespace Cosipy
section
variable {K : Type} [Field K] [LinearOrder K] [IsStrictOrderedRing K] [Transc K]

/-- **C95, one step.** A step in the arithmetic with NaN that starts on a physical column of numbers and returns is a step on
numbers, for some solver whose answer is not below 220 K: no value it reports and no value of the new column is NaN. -/
theorem C95_step (hl : TranscLaws K) {svN : Solvers (Nan K)} (hb : svN.NotBelow) {fuel : Nat} {c : Consts K} {r : RunCfg K}
    {tlo : K} (hs : Sane c r tlo) (hd : DefinedConsts c r) {s : SimState K} {f : Forcing K} (hf : DefinedForcing f)
    (ht2 : tlo ≤ f.t2) (hw : s.grid.WF) (hg : ∀ n ∈ s.grid.nodes, PhysLayer c tlo n) (ha : AgesOrdered s.grid)
    {s' : SimState (Nan K)} {o : StepOut (Nan K)}
    (h : step svN fuel c.toNan r.toNan s.toNan f.toNan = .ok (s', o)) :
    ∃ sv s1 o1, sv.RespectsLower ∧ step sv fuel { c with sfcTemperatureMethod := .lbfgsb } r s f = .ok (s1, o1) ∧
      s' = s1.toNan ∧ o = o1.toNan := by
  obtain ⟨t, s1, o1, h1, h2, h3⟩ := toNan_step hl hb hs hd hf ht2 hw hg ha h
  exact ⟨_, s1, o1, constSolver_lower t, h1, h2, h3⟩

/-- The induction over a run. -/
theorem toNan_run (hl : TranscLaws K) {svN : Solvers (Nan K)} (hb : svN.NotBelow) {fuel : Nat} {c : Consts K} {r : RunCfg K}
    {tlo : K} (hs : Sane c r tlo) (hd : DefinedConsts c r)
    (hnext : ∀ (sv : Solvers K) (s : SimState K) (f : Forcing K) (s1 : SimState K) (o : StepOut K), sv.RespectsLower →
      s.grid.WF → (∀ n ∈ s.grid.nodes, PhysLayer c tlo n) → tlo ≤ f.t2 →
      step sv fuel (c.withSolver .lbfgsb) r s f = .ok (s1, o) → ∀ n ∈ s1.grid.nodes, 0 < n.height → PhysLayer c tlo n) :
    ∀ (fs : List (Forcing K)), (∀ f ∈ fs, DefinedForcing f ∧ tlo ≤ f.t2) → ∀ (s : SimState K), s.grid.WF →
      (∀ n ∈ s.grid.nodes, PhysLayer c tlo n) → AgesOrdered s.grid →
      (∀ pre suf s' os, fs = pre ++ suf → run svN fuel c.toNan r.toNan s.toNan (pre.map Forcing.toNan) = .ok (s', os) →
        ∀ n ∈ s'.grid.nodes, ¬ n.height ≤ 0) →
      ∀ (s' : SimState (Nan K)) (os : List (StepOut (Nan K))),
        run svN fuel c.toNan r.toNan s.toNan (fs.map Forcing.toNan) = .ok (s', os) →
        ∃ (s1 : SimState K) (os1 : List (StepOut K)), s' = s1.toNan ∧ os = os1.map StepOut.toNan := by
  intro fs
  induction fs with
  | nil =>
    intro _ s _ _ _ _ s' os h
    cases h
    exact ⟨s, [], rfl, rfl⟩
  | cons f fs ih =>
    intro hf s hw hg ha hh s' os h
    rw [List.map_cons] at h
    obtain ⟨s2, o2, os2, h1, h2, rfl⟩ := run_cons h
    obtain ⟨hf1, hf2⟩ := hf f (by simp)
    obtain ⟨t, s1, o1, k1, rfl, rfl⟩ := toNan_step hl hb hs hd hf1 hf2 hw hg ha h1
    obtain ⟨st⟩ := step_stages k1
    have hw1 := (st.wfs hw).w9
    have hpos : ∀ n ∈ s1.grid.nodes, 0 < n.height := by
      intro n hn
      have := hh [f] fs s1.toNan [o1.toNan] rfl (by
        show run svN fuel c.toNan r.toNan s.toNan [f.toNan] = _
        simp only [run, h1, ok_bind]; rfl) n.toNan (List.mem_map_of_mem hn)
      exact not_le.1 this
    have hg1 : ∀ n ∈ s1.grid.nodes, PhysLayer c tlo n := fun n hn =>
      hnext _ _ _ _ _ (constSolver_lower t) hw hg hf2 k1 n hn (hpos n hn)
    have ha1 := C15_ordered_step hs.dt.le hw ha k1
    obtain ⟨s3, os3, rfl, rfl⟩ := ih (fun f hf' => hf f (by simp [hf'])) s1 hw1 hg1 ha1
      (fun pre suf s'' os'' e hr => hh (f :: pre) suf s'' (o1.toNan :: os'') (by rw [e]; rfl) (by
        rw [List.map_cons]; simp only [run, h1, ok_bind, hr]; rfl)) s' os2 h2
    exact ⟨s3, o1 :: os3, rfl, rfl⟩

/-- **C95 with constant density.** For every forcing sequence of any length in range: a simulation that starts on a physical column of
numbers and returns reports only numbers and ends with a column of numbers. -/
theorem C95_run_constant (hl : TranscLaws K) {svN : Solvers (Nan K)} (hb : svN.NotBelow) {fuel : Nat} {c : Consts K}
    {r : RunCfg K} {tlo : K} (hs : Sane c r tlo) (hd : DefinedConsts c r) (hm : c.densificationMethod = .constant)
    {fs : List (Forcing K)} (hf : ∀ f ∈ fs, DefinedForcing f ∧ tlo ≤ f.t2) {s : SimState K} (hw : s.grid.WF)
    (hg : ∀ n ∈ s.grid.nodes, PhysLayer c tlo n) (ha : AgesOrdered s.grid) {s' : SimState (Nan K)}
    {os : List (StepOut (Nan K))}
    (h : run svN fuel c.toNan r.toNan s.toNan (fs.map Forcing.toNan) = .ok (s', os)) :
    ∃ (s1 : SimState K) (os1 : List (StepOut K)), s' = s1.toNan ∧ os = os1.map StepOut.toNan := by
  induction fs generalizing s os with
  | nil =>
    cases h
    exact ⟨s, [], rfl, rfl⟩
  | cons f fs ih =>
    rw [List.map_cons] at h
    obtain ⟨s2, o2, os2, h1, h2, rfl⟩ := run_cons h
    obtain ⟨hf1, hf2⟩ := hf f (by simp)
    obtain ⟨t, s1, o1, k1, rfl, rfl⟩ := toNan_step hl hb hs hd hf1 hf2 hw hg ha h1
    obtain ⟨st⟩ := step_stages k1
    obtain ⟨g8, w8, hd8, p8⟩ := step_phys (constSolver_lower t) (hs.withSolver .lbfgsb) hw
      (fun n hn => physLayer_withSolver.2 (hg n hn)) hf2 k1
    have e8 : s1.grid = g8 := by
      unfold densification at hd8
      have : (c.withSolver .lbfgsb).densificationMethod = .constant := hm
      rw [this] at hd8
      cases hd8
      rfl
    obtain ⟨s3, os3, rfl, rfl⟩ := ih (fun f hf' => hf f (by simp [hf'])) (st.wfs hw).w9
      (fun n hn => physLayer_withSolver.1 (p8 n (e8 ▸ hn))) (C15_ordered_step hs.dt.le hw ha k1) h2
    exact ⟨s3, o1 :: os3, rfl, rfl⟩

/-- **C95, solver.** Whatever the surface temperature solver answers that is not below 220 K, NaN included, the surface temperature is
a number between 220 K and the melting point; for the answer NaN it is the melting point. -/
theorem C95_solver {z : K} (hz : 220 ≤ z) :
    (∀ r : Nan K, ¬ r < 220 → ∃ t : K, pyMin (.num z) r = .num t ∧ 220 ≤ t ∧ t ≤ z) ∧
    pyMin (.num z) (.nan : Nan K) = .num z :=
  ⟨fun _ hr => surface_number hz hr, by unfold pyMin; rw [if_neg (show ¬ (Nan.nan : Nan K) < .num z from fun h => h)]⟩

end

section

/-- The elementary functions on the real numbers are as needed. -/
theorem C95_real : TranscLaws ℝ where
  exp_pos := Real.exp_pos
  exp_lt x hx := by
    have h1 : Real.exp x ≤ Real.exp 3 := Real.exp_le_exp.2 hx
    have h2 : Real.exp 3 = Real.exp 1 ^ 3 := by rw [← Real.exp_nat_mul]; norm_num
    have h3 := Real.exp_one_lt_d9
    have h4 : Real.exp 1 ^ 3 < 3 ^ 3 := pow_lt_pow_left₀ (h3.trans (by norm_num)) (Real.exp_pos 1).le (by norm_num)
    show Real.exp x < 32
    rw [h2] at h1
    linarith
  log x hx := (Real.log_pos hx).ne'
  square x hx := by
    show Real.rpow x 2 ≠ 0
    have : Real.rpow x 2 = x ^ 2 := Real.rpow_two x
    rw [this]
    exact pow_ne_zero 2 hx

/-- **C95.** For the real functions, every densification method and every forcing sequence of any length in range: if no layer height
becomes zero, negative or NaN during the simulation, a simulation that starts on a physical column of numbers and returns
reports only numbers and ends with a column of numbers. -/
theorem C95_run {svN : Solvers (Nan ℝ)} (hb : svN.NotBelow) {fuel : Nat} {c : Consts ℝ}
    {r : RunCfg ℝ} {tlo : ℝ} (hs : Sane c r tlo) (hd : DefinedConsts c r)
    (hcos : c.densificationMethod = .vionnet → 0 ≤ Real.cos r.slope)
    {fs : List (Forcing ℝ)} (hf : ∀ f ∈ fs, DefinedForcing f ∧ tlo ≤ f.t2) {s : SimState ℝ} (hw : s.grid.WF)
    (hg : ∀ n ∈ s.grid.nodes, PhysLayer c tlo n) (ha : AgesOrdered s.grid)
    (hh : ∀ pre suf s' os, fs = pre ++ suf → run svN fuel c.toNan r.toNan s.toNan (pre.map Forcing.toNan) = .ok (s', os) →
      ∀ n ∈ s'.grid.nodes, ¬ n.height ≤ 0)
    {s' : SimState (Nan ℝ)} {os : List (StepOut (Nan ℝ))}
    (h : run svN fuel c.toNan r.toNan s.toNan (fs.map Forcing.toNan) = .ok (s', os)) :
    ∃ (s1 : SimState ℝ) (os1 : List (StepOut ℝ)), s' = s1.toNan ∧ os = os1.map StepOut.toNan :=
  toNan_run C95_real hb hs hd (fun _ _ _ _ _ hr hw hg hT hst n hn hp =>
    physLayer_withSolver.1 (C59_step hr (hs.withSolver .lbfgsb) hcos hw (fun n hn => physLayer_withSolver.2 (hg n hn)) hT hst
      n hn hp)) fs hf s hw hg ha hh s' os h

end

/-! ## Non-vacuity -/

section
attribute [local instance] exTransc

/-- A solver that always answers NaN. -/
def nanSolvers : Solvers (Nan ℚ) := ⟨fun _ _ => .ok .nan, fun _ _ _ _ _ => .ok .nan⟩

example : nanSolvers.NotBelow := by
  intro m f x lo hi r h
  cases h
  exact fun h => h

example : TranscLaws ℚ :=
  ⟨fun _ => by show (0 : ℚ) < 1 / 2; norm_num, fun _ _ => by show (1 / 2 : ℚ) < 32; norm_num,
    fun _ _ => by show (5 : ℚ) ≠ 0; norm_num,
    fun x hx => by show x * x / 1000 ≠ 0; exact div_ne_zero (mul_ne_zero hx hx) (by norm_num)⟩

example : Sane exConsts exCfg 220 := ⟨by constructor <;> decide +kernel, by decide +kernel, by decide +kernel, by decide +kernel,
  by decide +kernel, by decide +kernel, by decide +kernel, by decide +kernel, by decide +kernel, by decide +kernel⟩

example : DefinedConsts exConsts exCfg := by
  constructor
  case rough => constructor <;> decide +kernel
  all_goals decide +kernel

example : (DefinedForcing exDry ∧ DefinedForcing exSnow) ∧ 220 ≤ exDry.t2 ∧ 220 ≤ exSnow.t2 := by
  refine ⟨by constructor <;> constructor <;> decide +kernel, by decide +kernel, by decide +kernel⟩

example : exGrid.WF ∧ (∀ n ∈ exGrid.nodes, PhysLayer exConsts 220 n) ∧ AgesOrdered exGrid := by
  refine ⟨by unfold Grid.WF; decide +kernel, fun n hn => ?_, by unfold AgesOrdered; decide +kernel⟩
  have : ∀ n ∈ exGrid.nodes, 0 < n.height ∧ 0 < n.iceFraction ∧ 0 ≤ n.lwc ∧ 220 ≤ n.temperature ∧
    n.temperature ≤ exConsts.zeroTemperature := by decide +kernel
  obtain ⟨a, b, d, e, f⟩ := this n hn
  exact ⟨a, b, d, e, f⟩

/-- The run returns; the surface temperature is the melting point, although the solver answered NaN. -/
example : (run nanSolvers 40 exConsts.toNan exCfg.toNan (initState exConsts false exGrid).toNan
    ([exSnow, exDry].map Forcing.toNan)).toOption.map (fun r => r.2.map (·.ts)) =
      some [.num exConsts.zeroTemperature, .num exConsts.zeroTemperature] := by decide +kernel

/-- The shipped constants and the shipped measurement height satisfy the hypotheses over the real numbers. -/
example : DefinedConsts (Consts.default ℝ) ⟨3600, 2, 0, 200, true, false⟩ := by
  constructor
  case rough => exact Consts.default_roughness
  all_goals norm_num [Consts.default]

end
end Cosipy
