import Verif.Model.Checks
import Verif.Lemmas.Heat
import Verif.Lemmas.FloatErr
import Verif.Props.C34
import Verif.Props.C81

/-!
# C97 The model reports impossible states of the column

A user who sees no message relies on the self-checks having found nothing wrong: fractions of ice, water and air between 0 and 1 that
add up to 1, a surface temperature within its bounds, layer heights in range. The full statement - every check appears whenever the
layers it looks at are impossible - is `ChecksReport` below. It is false (`C97_not_reported`): the air fraction is computed as
what is missing to 1, so that the sum is 1 whatever the fractions are. What holds: the messages never appear, for any column whatever, in exact arithmetic
(`C97_silent`) and, the two with a tolerance, in double precision for fractions up to a million (`C97_silent_double`); the surface
check never appears with a solver that keeps its bounds (`C97_surface_partial`); and the uncalled `check` reports exactly what it says
(`C97_check_partial`).
-/

set_option autoImplicit false
set_option linter.unusedSectionVars false

namespace Cosipy

/-- A layer as no layer can be: a fraction is negative, or ice and water take more than the whole volume. -/
def Node.Impossible {α : Type} [Add α] [LT α] [Zero α] [One α] (n : Node α) : Prop :=
  n.iceFraction < 0 ∨ n.lwc < 0 ∨ 1 < n.iceFraction + n.lwc

section
variable {K : Type} [Field K] [LinearOrder K] [IsStrictOrderedRing K]

/-- The full property: merging or splitting an impossible layer, compacting to one and starting a time step with one is reported. -/
structure ChecksReport (K : Type) [Field K] [LinearOrder K] [IsStrictOrderedRing K] : Prop where
  merge : ∀ (g g' : Grid K) (i : Int) (m : Node K), g.mergeNodes i = .ok g' → g'.node i = .ok m → m.Impossible → g.mergeWarns i = .ok true
  split : ∀ (c : Consts K) (g g' : Grid K) (i : Int) (h : K) (m : Node K), Grid.correctLayerSplit c i h g = .ok g' → g' ≠ g →
    g'.node i = .ok m → m.Impossible → g.splitWarns i h = .ok true
  compaction : ∀ n : Node K, n.Impossible → n.fractionWarns = true
  step : ∀ g : Grid K, (∃ n ∈ g.nodes, n.Impossible) → g.gridCheck = true

/-- The sum the checks look at is 1 for all fractions. -/
theorem inconsistent_complement (ice lwc : K) : inconsistent ice (1 - lwc - ice) lwc = false := by
  unfold inconsistent
  have : (1 : K) - ice - (1 - lwc - ice) - lwc = 0 := by ring
  rw [this]
  simp only [pyAbs, lt_irrefl, if_false, decide_eq_false_iff_not]
  norm_num

/-- **C97, silence.** None of the messages about fractions ever appears: merging and splitting that succeed, a compacted layer, the check before each time
step, for every column, possible or not. -/
theorem C97_silent (g : Grid K) (i : Int) (h : K) (n : Node K) :
    (∀ w, g.mergeWarns i = .ok w → w = false) ∧ (∀ w, g.splitWarns i h = .ok w → w = false) ∧
    n.fractionWarns = false ∧ g.gridCheck = false := by
  refine ⟨fun w hw => ?_, fun w hw => ?_, ?_, rfl⟩
  · unfold Grid.mergeWarns at hw
    simp only [bind_eq_ok] at hw
    obtain ⟨a, _, b, _, l, _, f, _, hw⟩ := hw
    rw [pure_eq_ok, inconsistent_complement] at hw
    exact hw.symm
  · unfold Grid.splitWarns at hw
    simp only [bind_eq_ok] at hw
    obtain ⟨a, _, hw⟩ := hw
    split at hw
    · simp only [bind_eq_ok] at hw
      obtain ⟨t, _, l0, _, l1, _, hw⟩ := hw
      rw [pure_eq_ok, inconsistent_complement, inconsistent_complement] at hw
      exact hw.symm
    · rw [pure_eq_ok] at hw; exact hw.symm
  · unfold Node.fractionWarns Node.porosity
    have : n.iceFraction + n.lwc + (1 - n.iceFraction - n.lwc) = 1 := by ring
    rw [this]
    simp

/-- The checks compute what the operations compute: merging and the check of merging succeed together. -/
theorem C97_merge_checked (g : Grid K) (i : Int) {g' : Grid K} (h : g.mergeNodes i = .ok g') : g.mergeWarns i = .ok false := by
  unfold Grid.mergeNodes at h
  simp only [bind_eq_ok] at h
  obtain ⟨a, ha, b, hb, l, hl, f, hf, _⟩ := h
  unfold Grid.mergeWarns
  simp only [ha, hb, hl, hf, ok_bind, inconsistent_complement]
  rfl

/-- **C97, splitting.** Likewise for splitting. -/
theorem C97_split_checked (c : Consts K) (g : Grid K) (i : Int) (h : K) {g' : Grid K} (hs : Grid.correctLayerSplit c i h g = .ok g') :
    g.splitWarns i h = .ok false := by
  unfold Grid.correctLayerSplit at hs
  simp only [bind_eq_ok] at hs
  obtain ⟨a, ha, hs⟩ := hs
  unfold Grid.splitWarns
  simp only [ha, ok_bind]
  split at hs
  · simp only [bind_eq_ok] at hs
    obtain ⟨t, ht, l0, h0, l1, h1, _⟩ := hs
    rw [if_pos (by assumption)]
    simp only [ht, h0, h1, ok_bind, inconsistent_complement]
    rfl
  · rw [if_neg (by assumption)]; rfl

/-- **C97, refuted.** Impossible states are not reported: of the four parts of the full property none holds. -/
theorem C97_not_reported (c : Consts K) :
    (∃ (g g' : Grid K) (m : Node K), g.mergeNodes 0 = .ok g' ∧ g'.node 0 = .ok m ∧ m.Impossible ∧ g.mergeWarns 0 = .ok false) ∧
    (∃ (g g' : Grid K) (m : Node K), Grid.correctLayerSplit c 0 (1 / 2) g = .ok g' ∧ g' ≠ g ∧ g'.node 0 = .ok m ∧ m.Impossible ∧
      g.splitWarns 0 (1 / 2) = .ok false) ∧
    (∃ n : Node K, n.Impossible ∧ n.fractionWarns = false) ∧
    (∃ g : Grid K, (∃ n ∈ g.nodes, n.Impossible) ∧ g.gridCheck = false) ∧
    ¬ ChecksReport K := by
  have himp : (⟨1, 270, 0, 2, 0⟩ : Node K).Impossible := Or.inr (Or.inr (by norm_num))
  have h2 : ∃ n : Node K, n.Impossible ∧ n.fractionWarns = false :=
    ⟨_, himp, (C97_silent ⟨[], 0, 0, 0, 0⟩ 0 0 _).2.2.1⟩
  refine ⟨?_, ?_, h2, ⟨⟨[_], 1, 0, 0, 0⟩, ⟨_, List.mem_singleton_self _, himp⟩, rfl⟩, fun h => ?_⟩
  · let g : Grid K := ⟨[⟨1, 270, 0, 2, 0⟩, ⟨1, 270, 0, 2, 0⟩], 2, 0, 0, 0⟩
    have hm : ∃ g', g.mergeNodes 0 = .ok g' ∧ ∃ m, g'.node 0 = .ok m ∧ m.iceFraction = 2 ∧ m.lwc = 0 := by
      have hne : ((1 : K) + 1 == 0) = false := by
        rw [beq_eq_false_iff_ne]; norm_num
      have e : g.mergeNodes 0 = .ok ⟨[⟨1 + 1, 1 / (1 + 1) * 270 + 1 / (1 + 1) * 270, (0 * 1 + 0 * 1) / (1 + 1), (2 * 1 + 2 * 1) / (1 + 1), 0⟩], 1, 0, 0, 0⟩ := by
        unfold Grid.mergeNodes
        have na : g.node 0 = .ok ⟨1, 270, 0, 2, 0⟩ := rfl
        have nb : g.node (0 + 1) = .ok ⟨1, 270, 0, 2, 0⟩ := rfl
        simp only [na, nb, ok_bind, fdiv, hne, Bool.false_eq_true, if_false]
        rw [bind_eq_ok]
        refine ⟨_, rfl, ?_⟩
        unfold Grid.removeNode
        rw [List.mergeSort_singleton]
        rfl
      exact ⟨_, e, _, rfl, by norm_num, by norm_num⟩
    obtain ⟨g', hg', m, hm, h1, h2⟩ := hm
    exact ⟨g, g', m, hg', hm, Or.inr (Or.inr (by rw [h1, h2]; norm_num)), C97_merge_checked g 0 hg'⟩
  · let g : Grid K := ⟨[⟨1, 270, 0, 2, 0⟩], 1, 0, 0, 0⟩
    have hm : ∃ g', Grid.correctLayerSplit c 0 (1 / 2) g = .ok g' ∧ g'.nodes.length = 2 ∧ ∃ m, g'.node 0 = .ok m ∧ m.iceFraction = 2 ∧ m.lwc = 0 := by
      have hne : ((1 : K) / 2 == 0) = false := by
        rw [beq_eq_false_iff_ne]; norm_num
      have hne' : ((1 : K) - 1 / 2 == 0) = false := by
        rw [beq_eq_false_iff_ne]; norm_num
      have na : g.node 0 = .ok ⟨1, 270, 0, 2, 0⟩ := rfl
      have hi : (⟨1, 270, 0, 2, 0⟩ : Node K).irreducibleWaterContent = .ok 0 := by
        unfold Node.irreducibleWaterContent
        rw [if_neg (by norm_num), if_neg (by norm_num)]
      unfold Grid.correctLayerSplit
      simp only [na, hi, ok_bind]
      rw [if_pos (by norm_num)]
      simp only [sub_self, lt_irrefl, if_false, zero_mul, fdiv, hne, hne', Bool.false_eq_true, zero_div, ok_bind]
      exact ⟨_, rfl, rfl, _, rfl, rfl, rfl⟩
    obtain ⟨g', hg', hlen, m, hm, h1, h2⟩ := hm
    refine ⟨g, g', m, hg', fun e => ?_, hm, Or.inr (Or.inr (by rw [h1, h2]; norm_num)), C97_split_checked c g 0 _ hg'⟩
    rw [e] at hlen
    cases hlen
  · obtain ⟨n, h1, h3⟩ := h2
    rw [h.compaction n h1] at h3
    cases h3

/-- **C97, surface temperature.** With a minimiser that keeps its lower bound the message about the surface temperature never appears. -/
theorem C97_surface_partial [Transc K] {sv : Solvers K} (hb : sv.RespectsLower) {fuel : Nat} {c : Consts K} (hz : 220 ≤ c.zeroTemperature)
    {r : RunCfg K} {s s' : SimState K} {f : Forcing K} {o : StepOut K} (h : step sv fuel c r s f = .ok (s', o)) :
    surfaceWarns c o.ts = false := by
  obtain ⟨h1, h2, _⟩ := C34_step hb hz h
  unfold surfaceWarns
  simp [not_lt.2 h1, not_lt.2 h2]

/-- The message about the surface temperature appears exactly for temperatures outside the bounds. -/
theorem C97_surface_exact (c : Consts K) (ts : K) : surfaceWarns c ts = true ↔ ¬ (220 ≤ ts ∧ ts ≤ c.zeroTemperature) := by
  unfold surfaceWarns
  rw [Bool.or_eq_true, decide_eq_true_iff, decide_eq_true_iff, not_and_or, not_le, not_le]
  exact or_comm

theorem foldl_pyMax_lt {xs : List K} : ∀ {x y : K}, y < xs.foldl pyMax x ↔ y < x ∨ ∃ z ∈ xs, y < z := by
  induction xs with
  | nil => intro x y; simp
  | cons a l ih =>
    intro x y
    rw [List.foldl_cons, ih, pyMax_eq, lt_max_iff, or_assoc]
    simp

theorem foldl_pyMin_lt {xs : List K} : ∀ {x y : K}, xs.foldl pyMin x < y ↔ x < y ∨ ∃ z ∈ xs, z < y := by
  induction xs with
  | nil => intro x y; simp
  | cons a l ih =>
    intro x y
    rw [List.foldl_cons, ih, pyMin_eq, min_lt_iff, or_assoc]
    simp

/-- **C97, the uncalled check.** On a well-formed column with a layer `check` reports a thin layer, a warm layer, a thick layer exactly if there
is one. -/
theorem C97_check_partial {g : Grid K} (hw : g.WF) (hne : g.nodes ≠ []) :
    ∃ thin warm thick, g.check = .ok (thin, warm, thick) ∧ (thin = true ↔ ∃ n ∈ g.nodes, n.height < 0.01) ∧
      (warm = true ↔ ∃ n ∈ g.nodes, 273.2 < n.temperature) ∧ (thick = true ↔ ∃ n ∈ g.nodes, 1 < n.height) := by
  unfold Grid.check
  rw [Grid.getHeight_eq hw, Grid.getTemperature_eq hw]
  cases hn : g.nodes with
  | nil => exact absurd hn hne
  | cons a l =>
    refine ⟨_, _, _, rfl, ?_, ?_, ?_⟩
    · rw [decide_eq_true_iff, foldl_pyMin_lt]; simp
    · rw [decide_eq_true_iff, foldl_pyMax_lt]; simp
    · rw [decide_eq_true_iff, foldl_pyMax_lt]; simp

/-- Without layers it raises ValueError. -/
theorem C97_check_empty {g : Grid K} (hw : g.WF) (hn : g.nodes = []) : raised g.check = some .value := by
  unfold Grid.check
  rw [Grid.getHeight_eq hw, hn]
  rfl
end

/-- Non-vacuity: layers of twice the density of ice, merged without a word; a warm, thin layer found by the uncalled check. -/
example : (⟨[⟨1, 270, 0, 2, 0⟩, ⟨1, 270, 0, 2, 0⟩], 2, 0, 0, 0⟩ : Grid ℚ).mergeWarns 0 = .ok false := by decide +kernel
example : (⟨[⟨1, 270, 3, 2, 0⟩], 1, 0, 0, 0⟩ : Grid ℚ).splitWarns 0 (1 / 4) = .ok false := by decide +kernel
example : (⟨[⟨1/1000, 280, 0, 1/2, 0⟩, ⟨1/2, 270, 0, 1/2, 0⟩], 2, 0, 0, 0⟩ : Grid ℚ).check = .ok (true, true, false) := by decide +kernel
/-- The check itself is not empty: fractions that are not complements would be reported. -/
example : inconsistent (1/2 : ℚ) (1/4) (1/8) = true := by decide +kernel
/-- A step whose surface temperature is checked. -/
example : (exRun [exDry]).toOption.map (fun r => r.2.map fun o => surfaceWarns exConsts o.ts) = some [false] := by decide +kernel

section
variable {K : Type} [Field K] [LinearOrder K] [IsStrictOrderedRing K] [FloorRing K]

theorem pyAbs_fl {r : Rounding K} (a : Fl r) : (pyAbs a).1 = |a.1| := by
  unfold pyAbs
  split
  · rename_i h
    have : a.1 < 0 := h
    rw [abs_of_neg this]; rfl
  · rename_i h
    have : 0 ≤ a.1 := not_lt.1 h
    rw [abs_of_nonneg this]

/-- **C97, double precision.** Rounding does not make the checks appear either: fractions up to a million, far outside what is possible, pass as consistent. -/
theorem C97_silent_double {ice lwc : Fl (binary64 K)} (hi : |ice.1| ≤ 1000000) (hl : |lwc.1| ≤ 1000000) :
    inconsistent ice (1 - lwc - ice) lwc = false := by
  have h1 : Approx (p := 52) 0 1 1 (1 : Fl (binary64 K)) := by
    have := Approx.self (p := 52) (1 : Fl (binary64 K))
    rwa [show (1 : Fl (binary64 K)).1 = 1 from rfl, abs_one] at this
  have ha := ((h1.sub (Approx.self lwc)).sub (Approx.self ice))
  have hb := (((h1.sub (Approx.self ice)).sub ha).sub (Approx.self lwc)).err
  have hu : unitRoundoff K 52 = 1 / 9007199254740992 := by unfold unitRoundoff; norm_num [zpow_neg]
  have e : (1 : K) - ice.1 - (1 - lwc.1 - ice.1) - lwc.1 = 0 := by ring
  rw [e, sub_zero] at hb
  have hn : (1 + unitRoundoff K 52) ^ (max (max (max 0 0 + 1) (max (max 0 0 + 1) 0 + 1) + 1) 0 + 1) - 1 ≤ 2 * ((4 : ℕ) : K) * unitRoundoff K 52 :=
    unit_pow_le (n := 4) (by rw [hu]; norm_num)
  have hS : 1 + |ice.1| + (1 + |lwc.1| + |ice.1|) + |lwc.1| ≤ 4000002 := by linarith
  have h0 : 0 ≤ 1 + |ice.1| + (1 + |lwc.1| + |ice.1|) + |lwc.1| := by positivity
  have hfin := hb.trans ((mul_le_mul_of_nonneg_right hn h0).trans (mul_le_mul_of_nonneg_left hS (by rw [hu]; norm_num)))
  rw [hu] at hfin
  unfold inconsistent
  rw [decide_eq_false_iff_not, not_lt]
  show (pyAbs (1 - ice - (1 - lwc - ice) - lwc)).1 ≤ (1e-8 : Fl (binary64 K)).1
  rw [pyAbs_fl]
  refine hfin.trans ?_
  have : (0.5e-8 : K) ≤ (Fl.mk (binary64 K) (1e-8 : K)).1 := by
    have h2 := (abs_le.1 (binRound_fine (p := 52) (emin := -1022) (1e-8 : K))).1
    have h3 : (2 : K) ^ ((-1022 : ℤ) - (52 : ℕ) - 1) ≤ 2 ^ (-53 : ℤ) := zpow_le_zpow_right₀ (by norm_num) (by norm_num)
    have h4 : (2 : K) ^ (-((52 : ℕ) : ℤ) - 1) = 1 / 9007199254740992 := by norm_num [zpow_neg]
    have h5 : (2 : K) ^ (-53 : ℤ) = 1 / 9007199254740992 := by norm_num [zpow_neg]
    rw [h4, abs_of_nonneg (show (0 : K) ≤ 1e-8 by norm_num)] at h2
    rw [h5] at h3
    show (0.5e-8 : K) ≤ binRound 52 (-1022) (1e-8 : K)
    have h6 : (0.5e-8 : K) ≤ 1e-8 - (1 / 9007199254740992 * 1e-8 + 1 / 9007199254740992) := by norm_num
    linarith
  refine le_trans ?_ this
  norm_num

/-- Non-vacuity: ice fraction 0.1, water fraction 0.2 in double precision. -/
example : inconsistent (0.1 : D) (1 - 0.2 - 0.1) 0.2 = false := by decide +kernel
/-- In double precision the sum of the compaction warning can exceed 1, but there it is luck: fractions 1.75 and 0.625 pass. -/
example : (⟨1, 270, 0.625, 1.75, 0⟩ : Node D).fractionWarns = false := by decide +kernel
end

end Cosipy
