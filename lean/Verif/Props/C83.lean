import Verif.Lemmas.FloatErr
import Verif.Lemmas.StepInv
import Verif.Lemmas.Frame
import Verif.Props.C81

/-!
# C83 Rounding errors of the balances in double precision

The recorded mass balance of a step, the balance accumulated over a run (which is compared with stake measurements) and the total
height are sums of rounded numbers. The theorems bound what rounding does to these sums: relative to the sizes of the terms the
error is below `2 n` units of roundoff for `n` additions.
-/

set_option autoImplicit false
set_option linter.unusedSectionVars false

namespace Cosipy
section
variable {K : Type} [Field K] [LinearOrder K] [IsStrictOrderedRing K] [FloorRing K] {p : ℕ} {emin : ℤ} {hp : 23 ≤ p} {he : emin ≤ -30}

local notation "F" => Fl (binary K p emin hp he)

/-- Water equivalent of the snowfall, as the number the program computes. -/
def StepOut.snowWeq (c : Consts F) (o : StepOut F) : F := o.snowfall * (o.densityFreshSnow / c.waterDensity)

/-- The balance of the recorded quantities of a step, computed without rounding: snowfall, minus melt, plus vapour fluxes
(without condensation), plus refreezing, minus subsurface melt. -/
def StepOut.exactBalance (c : Consts F) (o : StepOut F) : K :=
  (o.snowWeq c).1 - o.melt.1 + o.sublimation.1 + o.deposition.1 + o.evaporation.1 + (o.refreeze.1 - o.subsurfaceMelt.1)

/-- Size of the terms of the balance. -/
def StepOut.turnover (c : Consts F) (o : StepOut F) : K :=
  |(o.snowWeq c).1| + |o.melt.1| + |o.sublimation.1| + |o.deposition.1| + |o.evaporation.1| + (|o.refreeze.1| + |o.subsurfaceMelt.1|)

theorem step_approx [Transc F] {sv : Solvers F} {fuel : Nat} {c : Consts F} {cfg : RunCfg F}
    {s s' : SimState F} {f : Forcing F} {o : StepOut F} (h : step sv fuel c cfg s f = .ok (s', o)) :
    Approx 5 (o.turnover c) (o.exactBalance c) o.mb := by
  obtain ⟨st⟩ := step_stages h
  rw [st.mb, st.surfMB, st.intMB]
  exact (((((Approx.self (o.snowWeq c)).sub (.self o.melt)).add (.self o.sublimation)).add (.self o.deposition)).add
    (.self o.evaporation)).add ((Approx.self o.refreeze).sub (.self o.subsurfaceMelt))

/-- **C83, one step.** The recorded mass balance is the exact balance of the recorded quantities up to five roundings. -/
theorem C83_step [Transc F] {sv : Solvers F} {fuel : Nat} {c : Consts F} {cfg : RunCfg F}
    {s s' : SimState F} {f : Forcing F} {o : StepOut F} (h : step sv fuel c cfg s f = .ok (s', o)) :
    |o.mb.1 - o.exactBalance c| ≤ ((1 + unitRoundoff K p) ^ 5 - 1) * o.turnover c := (step_approx h).err

theorem run_fold [Transc F] {sv : Solvers F} {fuel : Nat} {c : Consts F} {cfg : RunCfg F} :
    ∀ {fs : List (Forcing F)} {s s' : SimState F} {os : List (StepOut F)}, run sv fuel c cfg s fs = .ok (s', os) →
    s'.mbCum = os.foldl (fun a o => a + o.mb) s.mbCum ∧ os.length = fs.length ∧
      ∀ o ∈ os, Approx 5 (o.turnover c) (o.exactBalance c) o.mb := by
  intro fs
  induction fs with
  | nil => intro s s' os h; rw [run] at h; cases h; simp
  | cons f fs ih =>
    intro s s' os h
    obtain ⟨s1, o, os', hst, hr, rfl⟩ := run_cons h
    obtain ⟨h1, h2, h3⟩ := ih hr
    have h4 := step_approx hst
    obtain ⟨st⟩ := step_stages hst
    refine ⟨by rw [List.foldl_cons, ← st.mbCum]; exact h1, by simp [h2], ?_⟩
    intro x hx
    rcases List.mem_cons.1 hx with rfl | hx
    · exact h4
    · exact h3 x hx

/-- **C83, accumulated balance.** After a run of `n` steps started at zero, the accumulated balance is the exact sum of all recorded
snowfall, melt, vapour fluxes, refreezing and subsurface melt up to `n + 5` roundings. -/
theorem C83_cumulative [Transc F] {sv : Solvers F} {fuel : Nat} {c : Consts F} {cfg : RunCfg F}
    {fs : List (Forcing F)} {s s' : SimState F} {os : List (StepOut F)} (h0 : s.mbCum = 0)
    (h : run sv fuel c cfg s fs = .ok (s', os)) :
    |s'.mbCum.1 - (os.map (StepOut.exactBalance c)).sum| ≤
      ((1 + unitRoundoff K p) ^ (fs.length + 5) - 1) * (os.map (StepOut.turnover c)).sum := by
  obtain ⟨h1, h2, h3⟩ := run_fold h
  have hz : Approx 5 0 0 (0 : F) := by
    have := (Approx.self (0 : F)).weaken (Nat.zero_le 5)
    rwa [show (0 : F).1 = 0 from rfl, abs_zero] at this
  have := (Approx.foldl h3 le_rfl hz).err
  rw [← h0, ← h1, h2, zero_add, zero_add, add_comm 5] at this
  exact this

/-- The same, with the number of roundings spelled out. -/
theorem C83_cumulative_linear [Transc F] {sv : Solvers F} {fuel : Nat} {c : Consts F} {cfg : RunCfg F}
    {fs : List (Forcing F)} {s s' : SimState F} {os : List (StepOut F)} (h0 : s.mbCum = 0)
    (hn : (fs.length + 5 : ℕ) * unitRoundoff K p ≤ 1 / 2) (h : run sv fuel c cfg s fs = .ok (s', os)) :
    |s'.mbCum.1 - (os.map (StepOut.exactBalance c)).sum| ≤
      2 * (fs.length + 5 : ℕ) * unitRoundoff K p * (os.map (StepOut.turnover c)).sum := by
  refine (C83_cumulative h0 h).trans (mul_le_mul_of_nonneg_right (unit_pow_le hn) ?_)
  refine List.sum_nonneg fun x hx => ?_
  obtain ⟨o, _, rfl⟩ := List.mem_map.1 hx
  unfold StepOut.turnover
  positivity

/-- **C83, total height.** The total height is the exact sum of the layer heights up to as many roundings as there are layers. -/
theorem C83_height {g : Grid F} (hw : g.WF) {H : F} (h : g.getTotalHeight = .ok H) :
    |H.1 - (g.nodes.map fun n => n.height.1).sum| ≤
      ((1 + unitRoundoff K p) ^ g.nodes.length - 1) * (g.nodes.map fun n => |n.height.1|).sum := by
  rw [Grid.getTotalHeight_eq hw, ok_inj] at h
  subst h
  have hz : Approx 0 0 0 (0 : F) := by
    have := Approx.self (0 : F)
    rwa [show (0 : F).1 = 0 from rfl, abs_zero] at this
  have := (Approx.foldl (k := 0) (f := fun n : Node F => n.height) (A := fun n => n.height.1) (S := fun n => |n.height.1|)
    (xs := g.nodes) (fun n _ => Approx.self n.height) le_rfl hz).err
  rw [zero_add, zero_add, zero_add] at this
  unfold pySum
  rwa [List.foldl_map]

end

/-! ## In double precision -/

section
variable {K : Type} [Field K] [LinearOrder K] [IsStrictOrderedRing K] [FloorRing K]

/-- **C83, a century of hourly steps in double precision**: the accumulated balance is off by less than `2e-10` of the
turnover. -/
theorem C83_century [Transc K] {sv : Solvers (Fl (binary64 K))} {fuel : Nat} {c : Consts (Fl (binary64 K))}
    {r : RunCfg (Fl (binary64 K))} {fs : List (Forcing (Fl (binary64 K)))} {s s' : SimState (Fl (binary64 K))}
    {os : List (StepOut (Fl (binary64 K)))} (h0 : s.mbCum = 0) (hn : fs.length ≤ 876600) (h : run sv fuel c r s fs = .ok (s', os)) :
    |s'.mbCum.1 - (os.map (StepOut.exactBalance c)).sum| ≤ 2e-10 * (os.map (StepOut.turnover c)).sum := by
  have hu : unitRoundoff K 52 = 1 / 9007199254740992 := by unfold unitRoundoff; norm_num [zpow_neg]
  have hc : ((fs.length + 5 : ℕ) : K) ≤ 876605 := by exact_mod_cast (by omega : fs.length + 5 ≤ 876605)
  refine (C83_cumulative_linear (p := 52) h0 ?_ h).trans (mul_le_mul_of_nonneg_right ?_ ?_)
  · rw [hu]
    refine (mul_le_mul_of_nonneg_right hc (by norm_num)).trans ?_
    norm_num
  · rw [hu]
    refine (mul_le_mul_of_nonneg_right (mul_le_mul_of_nonneg_left hc (by norm_num)) (by norm_num)).trans ?_
    norm_num
  · refine List.sum_nonneg fun x hx => ?_
    obtain ⟨o, _, rfl⟩ := List.mem_map.1 hx
    unfold StepOut.turnover
    positivity

end

section
attribute [local instance] exTransc

/-- Non-vacuity: a run in double precision with the shipped constants, started at zero. -/
example : ∃ s' os, exRunD [exSnowD] = .ok (s', os) ∧
    |s'.mbCum.1 - (os.map (StepOut.exactBalance (Consts.default D))).sum| ≤ 2e-10 * (os.map (StepOut.turnover (Consts.default D))).sum := by
  have hh := exRunD_heights
  rcases hr : exRunD [exSnowD] with e | ⟨s', os⟩
  · rw [hr] at hh; cases hh
  · exact ⟨s', os, rfl, C83_century rfl (by decide) hr⟩

/-- The error is real: in double precision the accumulated balance of the steps 0.1, 0.2, -0.3 is not zero. -/
example : [0.1, 0.2, -0.3].foldl (· + ·) (0 : D) ≠ 0 := by decide +kernel

end
end Cosipy
