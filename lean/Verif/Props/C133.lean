import Verif.Lemmas.Warm
import Verif.Lemmas.Example
import Verif.Model.Real

/-!
# C133 Only the distance from the melting point counts

The melting point is a constant of the configuration. Raising it together with all temperatures of the column (and the other
configured temperatures) raises the temperatures in the result and changes nothing else. All statements but the one about
refreezing are equations between results of the code, so they cover failures too. `Grid.warm` and `Consts.warm` (Spec/Warm) shift
the temperatures.
-/

set_option autoImplicit false
set_option linter.unusedSectionVars false

namespace Cosipy
section
variable {K : Type} [Field K] [LinearOrder K] [IsStrictOrderedRing K] {d : K}

/-- Merging two layers. -/
theorem C133_merge (g : Grid K) (i : Int) : (g.warm d).mergeNodes i = (g.mergeNodes i).map (Grid.warm d) := Warm.mergeNodes g i

/-- Halving a layer. -/
theorem C133_split (c : Consts K) (g : Grid K) (i : Int) :
    (g.warm d).splitNode (c.warm d) i = (g.splitNode c i).map (Grid.warm d) := Warm.splitNode c g i

/-- Merging snow into the glacier below it. -/
theorem C133_glacier (c : Consts K) (g : Grid K) (i : Int) :
    (g.warm d).mergeSnowWithGlacier (c.warm d) i = (g.mergeSnowWithGlacier c i).map (Grid.warm d) :=
  Warm.mergeSnowWithGlacier c g i

/-- Remeshing with any method. -/
theorem C133_remesh (fuel : Nat) (c : Consts K) (g : Grid K) :
    (g.warm d).updateGrid fuel (c.warm d) = (g.updateGrid fuel c).map (Grid.warm d) := Warm.updateGrid fuel c g

/-- Removing melt. -/
theorem C133_melt (fuel : Nat) (c : Consts K) (g : Grid K) (m : K) :
    (g.warm d).removeMeltWeq fuel (c.warm d) m = (g.removeMeltWeq fuel c m).map fun r => (r.1.warm d, r.2) :=
  Warm.removeMeltWeq fuel c g m 0

/-- Percolation. -/
theorem C133_percolation (g : Grid K) (w : K) :
    percolation (g.warm d) w = (percolation g w).map fun r => (r.1.warm d, r.2) := Warm.percolation g w

/-- Refreezing. It raises an error for temperatures below absolute zero, so here the column becomes warmer and the result of the
colder one is given. -/
theorem C133_refreezing (hd : 0 ≤ d) (c : Consts K) (g : Grid K) {g' : Grid K} {w : K} (h : refreezing c g = .ok (g', w)) :
    refreezing (c.warm d) (g.warm d) = .ok (g'.warm d, w) := Warm.refreezing hd c g h

/-- Conduction, by the same sub-steps. -/
theorem C133_conduction (fuel : Nat) (c : Consts K) (g : Grid K) (dt : K) :
    solveHeatEquation fuel (c.warm d) (g.warm d) dt = (solveHeatEquation fuel c g dt).map (Grid.warm d) :=
  Warm.solveHeatEquation fuel c g dt

section
variable [Transc K]

/-- Penetrating radiation: the same melt below the surface. -/
theorem C133_penetrating (c : Consts K) (g : Grid K) (sw dt : K) :
    penetratingRadiation (c.warm d) (g.warm d) sw dt =
      (penetratingRadiation c g sw dt).map fun r => (r.1.warm d, r.2) := Warm.penetratingRadiation c g sw dt

/-- The temperatures at the two depths used for the ground heat flux. -/
theorem C133_depths (c : Consts K) (g : Grid K) :
    interpSubT (c.warm d) (g.warm d) = (interpSubT c g).map fun r => (r.1 + d, r.2 + d) := Warm.interpSubT c g

/-- The albedo of a surface, with any method. -/
theorem C133_albedo (c : Consts K) (g : Grid K) (t a : K) :
    updateAlbedo (c.warm d) (g.warm d) (t + d) a = (updateAlbedo c g t a).map fun r => (r.1.warm d, r.2) :=
  Warm.updateAlbedo c g t a

/-- The solid share of the precipitation and the vapour fluxes. -/
theorem C133_phase (c : Consts K) (t dt le : K) :
    snowFraction (c.warm d) (t + d) = snowFraction c t ∧ vapourFluxes (c.warm d) dt (t + d) le = vapourFluxes c dt t le := by
  constructor
  · unfold snowFraction
    rw [show (t + d) - (c.warm d).zeroTemperature = t - c.zeroTemperature from add_sub_add_right_eq_sub t c.zeroTemperature d]
    rfl
  · unfold vapourFluxes
    have e : (t + d < (c.warm d).zeroTemperature) ↔ t < c.zeroTemperature := add_lt_add_iff_right d
    by_cases h : t < c.zeroTemperature
    · rw [if_pos h, if_pos (e.2 h)]; rfl
    · rw [if_neg h, if_neg (mt e.1 h)]; rfl

/-- Fresh snow of a given density falling on the column. -/
theorem C133_snowfall (c : Consts K) (dt : K) (g : Grid K) (snow rho t2 : K) :
    applySnowfall (c.warm d) dt (g.warm d) snow rho (t2 + d) = (applySnowfall c dt g snow rho t2).warm d := by
  unfold applySnowfall
  have e : pyMin (t2 + d) (c.warm d).zeroTemperature = pyMin t2 c.zeroTemperature + d := Warm.pyMin_add _ _
  rw [e]
  by_cases h : 0 < snow
  · rw [if_pos h, if_pos h]; exact Warm.addFreshSnow c g snow rho _ 0 dt
  · rw [if_neg h, if_neg h]; rfl

/-- Full claim for densification, with any method. Refuted for Vionnet's method by `C133_vionnet_refuted`. -/
def DensificationShifts (c : Consts K) (g : Grid K) (slope dt d : K) : Prop :=
  densification (c.warm d) (g.warm d) slope dt = (densification c g slope dt).map (Grid.warm d)

/-- Densification by the methods other than Vionnet's. Missing: that one, see `DensificationShifts`. -/
theorem C133_densification_partial (c : Consts K) (hm : c.densificationMethod ≠ .vionnet) (g : Grid K) (slope dt : K) :
    DensificationShifts c g slope dt d := Warm.densification c hm g slope dt

/-- Full claim for the density of fresh snow. Refuted by `C133_freshdensity_refuted` unless the density is constant. -/
def FreshDensityShifts (c : Consts K) (f : Forcing K) (d : K) : Prop :=
  freshSnowDensity (c.warm d) { f with t2 := f.t2 + d } = freshSnowDensity c f

/-- The density of fresh snow when it is configured. Missing: the density computed from the air temperature, see
`FreshDensityShifts`. -/
theorem C133_freshdensity_partial (c : Consts K) (hm : c.densificationMethod = .constant) (f : Forcing K) :
    FreshDensityShifts c f d := by
  unfold FreshDensityShifts freshSnowDensity
  rw [show (c.warm d).densificationMethod = .constant from hm, hm]
  rfl

end

/-- The initial column. -/
theorem C133_initial [HasTrunc K] (c : Consts K) (sh : Option K) (t2 : K) :
    initSnowpack (c.warm d) sh (t2 + d) = (initSnowpack c sh t2).map (Grid.warm d) := Warm.initSnowpack c sh t2

/-- Shifting back gives the column again. -/
theorem C133_back (g : Grid K) : (g.warm d).warm (-d) = g := by
  cases g with
  | mk ns k a b e =>
    unfold Grid.warm
    simp only [List.map_map]
    congr 1
    conv_rhs => rw [← List.map_id ns]
    apply List.map_congr_left
    intro n _
    simp [Function.comp, Node.warm]

end

/-! ## Where the code has its own melting point -/

/-- **C133** (violation): Vionnet's densification compacts every loaded layer at another rate when the melting point and all
temperatures are raised by the same amount: `273.14` is written in the code. -/
theorem C133_vionnet_refuted (c : Consts ℝ) (n : Node ℝ) (dt sig d : ℝ) (hdt : dt ≠ 0) (hs : sig ≠ 0) (hd : d ≠ 0)
    (hr : n.density c ≠ 0) (hw : 1 + 60 * (n.lwc / n.height) ≠ 0) :
    vionnetRate dt sig (c.warm d) (n.warm d) ≠ vionnetRate dt sig c n := by
  intro h
  have hr' : (n.warm d).density (c.warm d) = n.density c := rfl
  unfold vionnetRate at h
  rw [hr'] at h
  simp only [Warm.s_lwc, Warm.s_height, Warm.s_temperature] at h
  have hw' : (1 : ℝ) + 60.0 * (n.lwc / n.height) ≠ 0 := by
    rwa [show (60.0 : ℝ) = 60 by norm_num]
  set f1 := 1 / ((1 : ℝ) + 60.0 * (n.lwc / n.height)) with hf
  have hf1 : f1 ≠ 0 := one_div_ne_zero hw'
  set A := f1 * 1 * 7622370 * (n.density c / 250) with hA
  have hA0 : A ≠ 0 := by
    rw [hA]
    refine mul_ne_zero (mul_ne_zero (mul_ne_zero hf1 one_ne_zero) (by norm_num)) (div_ne_zero hr (by norm_num))
  have h1 := mul_right_cancel₀ hdt h
  have e1 : A * Real.exp (0.1 * (273.14 - (n.temperature + d)) + 0.023 * n.density c) ≠ 0 := mul_ne_zero hA0 (Real.exp_pos _).ne'
  have e2 : A * Real.exp (0.1 * (273.14 - n.temperature) + 0.023 * n.density c) ≠ 0 := mul_ne_zero hA0 (Real.exp_pos _).ne'
  change -sig / (A * Real.exp (0.1 * (273.14 - (n.temperature + d)) + 0.023 * n.density c)) =
    -sig / (A * Real.exp (0.1 * (273.14 - n.temperature) + 0.023 * n.density c)) at h1
  rw [div_eq_div_iff e1 e2] at h1
  have h2 := mul_left_cancel₀ hA0 (mul_left_cancel₀ (neg_ne_zero.2 hs) h1)
  have h3 := Real.exp_injective h2
  apply hd
  linarith

/-- **C133** (violation): the density of fresh snow computed from the air temperature changes by 6 kg m-3 per degree when the
melting point is moved with the air temperature: `273.16` is written in the code. -/
theorem C133_freshdensity_refuted (c : Consts ℝ) (hm : c.densificationMethod ≠ .constant) (f : Forcing ℝ) (d : ℝ) (hd : 0 < d)
    (ht : 265 ≤ f.t2) : ¬ FreshDensityShifts c f d := by
  intro h
  have key : ∀ (c : Consts ℝ) (f : Forcing ℝ), c.densificationMethod ≠ .constant → 265 ≤ f.t2 →
      freshSnowDensity c f = 109.0 + 6.0 * (f.t2 - 273.16) + 26.0 * Real.sqrt f.u2 := by
    intro c f hm ht
    have hs := Real.sqrt_nonneg f.u2
    unfold freshSnowDensity
    have hmax : pyMax (109.0 + 6.0 * (f.t2 - 273.16) + 26.0 * Real.sqrt f.u2) 50.0 =
        109.0 + 6.0 * (f.t2 - 273.16) + 26.0 * Real.sqrt f.u2 := by
      unfold pyMax
      rw [if_neg]
      norm_num
      linarith
    cases hc : c.densificationMethod with
    | constant => exact absurd hc hm
    | boone => exact hmax
    | vionnet => exact hmax
    | empirical => exact hmax
    | other => exact hmax
  rw [FreshDensityShifts, key c f hm ht, key (c.warm d) { f with t2 := f.t2 + d } hm (by show 265 ≤ f.t2 + d; linarith)] at h
  change 109.0 + 6.0 * (f.t2 + d - 273.16) + 26.0 * Real.sqrt f.u2 = _ at h
  norm_num at h
  linarith

/-! Non-vacuity: the operations return results on the example column, and the refuted claims have witnesses in the configuration
as shipped (Boone's densification, so a computed fresh snow density). -/

section
attribute [local instance] exTransc

example : ((exGrid.warm 2).updateGrid 40 (exConsts.warm 2)).toOption.map Grid.numberNodes = some 3 := by decide +kernel
example : ((exGrid.warm 2).mergeNodes 0).toOption.isSome = true ∧
    ((exGrid.warm 2).splitNode (exConsts.warm 2) 1).toOption.isSome = true ∧
    ((exGrid.warm 2).mergeSnowWithGlacier (exConsts.warm 2) 1).toOption.map Grid.numberNodes = some 3 := by decide +kernel
example : (((exGrid.warm 2).removeMeltWeq 40 (exConsts.warm 2) (1/20)).toOption.map fun r => r.1.numberNodes) = some 3 := by
  decide +kernel
example : ((percolation (exGrid.warm 2) (1/50)).toOption.map Prod.snd) = some (57851 / 5000000 : ℚ) := by decide +kernel
example : ((refreezing exConsts ⟨[⟨1/10, 268, 1/100, 3/10, 0⟩], 1, 0, 0, 0⟩).toOption.map fun r => decide (0 < r.2)) =
    some true := by decide +kernel
example : (solveHeatEquation 40 exConsts exGrid 3600).toOption.isSome = true := by decide +kernel
example : (penetratingRadiation exConsts exGrid 100 3600).toOption.isSome = true ∧
    (interpSubT exConsts exGrid).toOption.isSome = true ∧
    (updateAlbedo exConsts exGrid 270 (85/100)).toOption.isSome = true ∧
    (densification { exConsts with densificationMethod := .boone } exGrid 0 3600).toOption.isSome = true := by decide +kernel
example : (exGrid.warm 2).getTemperature = .ok [270, 271, 272, 272] := by decide +kernel
end

example : (Consts.default ℝ).densificationMethod ≠ .constant := by decide
example : ∃ (n : Node ℝ), n.density (Consts.default ℝ) ≠ 0 ∧ 1 + 60 * (n.lwc / n.height) ≠ 0 := by
  refine ⟨⟨1, 268, 0, 1, 0⟩, ?_, by norm_num⟩
  simp only [Node.density, Node.airPorosity, Consts.default]
  unfold pyMax
  norm_num

end Cosipy
