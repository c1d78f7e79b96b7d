import Verif.Lemmas.HeatMax
import Mathlib.Algebra.Field.Rat
import Mathlib.Algebra.Order.Ring.Unbundled.Rat
import Mathlib.Data.Rat.Floor

/-!
# C109 The maximum principle of heat conduction in double precision

C21 says, in exact arithmetic, that conduction creates no temperature outside the range of the column. Every sub-step of the program
rounds some twenty times, so the computed temperatures could leave that range by a few units in the last place, and a column at the melting
point could end a little above it, which the melt routines would turn into melt. They cannot: the range is respected exactly. The reason is the
factor 0.8 in the stability bound, which leaves a fifth of the driving difference as room for the roundings.
-/

set_option autoImplicit false
set_option linter.unusedSectionVars false

namespace Cosipy
section
variable {K : Type} [Field K] [LinearOrder K] [IsStrictOrderedRing K] [FloorRing K] {p : ℕ} {emin : ℤ} {hp : 23 ≤ p} {he : emin ≤ -30}

local notation "F" => Fl (binary K p emin hp he)

/-- A layer at least `2^-29` m (two nanometres) thick whose fractions are fractions. -/
structure OrdinaryLayer (n : Node F) : Prop where
  thick : (2 : K) ^ (-29 : ℤ) ≤ n.height.1
  ice : 0 ≤ n.iceFraction ∧ n.iceFraction ≤ 1
  water : 0 ≤ n.lwc ∧ n.lwc ≤ 1

theorem heatIfaces_nonneg {cs : List (HeatCell F)} (h : ∀ c ∈ cs, c.Sane) (hs : emin ≤ -(p : ℤ) - 90) : ∀ x ∈ heatIfaces cs, (0 : F) ≤ x := by
  induction cs with
  | nil => simp [heatIfaces]
  | cons a cs ih =>
    cases cs with
    | nil => simp [heatIfaces]
    | cons b cs =>
      intro x hx
      rw [heatIfaces, List.mem_cons] at hx
      rcases hx with rfl | hx
      · have h1 : (0 : F) ≤ a.dist b := ((ulp_pos (K := K) (-31)).trans_le ((h a (by simp)).dist (h b (by simp)))).le
        have h2 : (0 : F) ≤ a.diffusivity b := (HeatCell.Sane.diffusivity hs (h a (by simp)) (h b (by simp))).1.le
        exact Rounded.div_nonneg (Rounded.mul_nonneg h1 h1) h2
      · exact ih (fun c hc => h c (List.mem_cons_of_mem _ hc)) x hx

theorem foldl_pyMin_nonneg : ∀ (xs : List F) (m : F), 0 ≤ m → (∀ x ∈ xs, (0 : F) ≤ x) → 0 ≤ xs.foldl pyMin m := by
  intro xs
  induction xs with
  | nil => intro m h _; exact h
  | cons y ys ih =>
    intro m h hx
    rw [List.foldl_cons]
    refine ih _ ?_ (fun x h => hx x (by simp [h]))
    unfold pyMin
    split_ifs
    · exact hx y (by simp)
    · exact h

theorem heatDtStab_nonneg {cs : List (HeatCell F)} (h : ∀ c ∈ cs, c.Sane) (hs : emin ≤ -(p : ℤ) - 90) {s : F} (hb : heatDtStab cs = .ok s) :
    0 ≤ s := by
  unfold heatDtStab at hb
  simp only [bind_eq_ok] at hb
  obtain ⟨up, hu, lo, hl, hb⟩ := hb
  rw [pure_eq_ok] at hb
  subst hb
  have nn : ∀ {xs : List F} {m : F}, (∀ x ∈ xs, (0 : F) ≤ x) → pyMinList xs = .ok m → 0 ≤ m := by
    intro xs m hx hm
    cases xs with
    | nil => simp [pyMinList] at hm
    | cons x xs =>
      simp only [pyMinList, ok_inj] at hm
      subst hm
      exact foldl_pyMin_nonneg xs x (hx x (by simp)) fun y hy => hx y (by simp [hy])
  have all := heatIfaces_nonneg h hs
  have h1 := nn (fun x hx => all x (List.mem_of_mem_dropLast hx)) hu
  have h2 := nn (fun x hx => all x (List.mem_of_mem_tail hx)) hl
  have h3 : 0 ≤ pyMin up lo := by
    unfold pyMin
    split_ifs
    · exact h2
    · exact h1
  exact Rounded.mul_nonneg (Rounded.lit_nonneg (α := F) 8 true 1) (Rounded.div_nonneg h3 (Rounded.nat_nonneg (α := F) 2))

/-- **C109.** In binary floating point with at least 24 bits and enough exponent range: temperatures between `lo` and `hi` (and at least one
kelvin) are between `lo` and `hi` after conduction, for every time step and any number of sub-steps. Nothing is lost to rounding. -/
theorem C109_max_principle (hs : emin ≤ -(p : ℤ) - 90) {fuel : Nat} {c : Consts F} (hc : c.Ranged) {g g' : Grid F} {dt : F} (hw : g.WF)
    (hn : ∀ n ∈ g.nodes, OrdinaryLayer n) (h : solveHeatEquation fuel c g dt = .ok g') {lo hi : F} (hlo : 1 ≤ lo)
    (ht : ∀ n ∈ g.nodes, lo ≤ n.temperature ∧ n.temperature ≤ hi) : ∀ n ∈ g'.nodes, lo ≤ n.temperature ∧ n.temperature ≤ hi := by
  unfold solveHeatEquation at h
  simp only [bind_eq_ok] at h
  obtain ⟨cells, h1, st, h2, ⟨_, r⟩, h3, h4⟩ := h
  rw [Grid.mapNodes_eq hw, mapM_eq_ok_iff] at h1
  have hcells : List.Forall₂ (fun n x => x.h = n.height ∧ x.t = n.temperature ∧ n.thermalDiffusivity c = .ok x.k) g.nodes cells := by
    refine h1.imp fun n x hx => ?_
    rw [bind_eq_ok] at hx
    obtain ⟨k, hk, hx⟩ := hx
    rw [pure_eq_ok] at hx
    subst hx
    exact ⟨rfl, rfl, hk⟩
  have hall : ∀ x ∈ cells, x.Sane ∧ lo ≤ x.t ∧ x.t ≤ hi := by
    clear h1 h2 h3 h4 hw
    generalize g.nodes = ns at hn ht hcells
    induction hcells with
    | nil => simp
    | @cons n x ns cells h1 h2 ih =>
      intro y hy
      rcases List.mem_cons.1 hy with rfl | hy
      · have o := hn n List.mem_cons_self
        have t := ht n List.mem_cons_self
        refine ⟨⟨by rw [h1.1]; exact o.thick, diffusivity_range hs hc o.ice o.water h1.2.2⟩, ?_⟩
        rw [h1.2.1]
        exact t
      · exact ih (fun m hm => hn m (List.mem_cons_of_mem _ hm)) (fun m hm => ht m (List.mem_cons_of_mem _ hm)) y hy
  have hsane : ∀ x ∈ cells, x.Sane := fun x hx => (hall x hx).1
  have hst := heatDtStab_nonneg hsane hs h2
  have hstab := heatDtStab_fl h2
  have inv := (whileM_ind h3 (fun s => List.Forall₂ SameCell s.2 cells ∧ ∀ x ∈ s.2, lo ≤ x.t ∧ x.t ≤ hi)
    ⟨List.forall₂_same.2 fun _ _ => ⟨rfl, rfl⟩, fun x hx => (hall x hx).2⟩ (by
      rintro s s' ⟨i1, i2⟩ hb
      unfold heatLoopPass at hb
      split_ifs at hb with hlt
      · simp only [ok_inj, Option.some.injEq] at hb
        subst hb
        have hd : 0 ≤ dt - s.1 := Rounded.sub_nonneg hlt.le
        have hτ : 0 ≤ pyMin st (dt - s.1) := by
          unfold pyMin
          split_ifs
          · exact hd
          · exact hst
        have hst' : StableFl (pyMin st (dt - s.1)) s.2 := by
          unfold StableFl
          rw [heatIfaces_shape i1]
          exact fun x hx => (pyMin_le_both _ _).1.trans (hstab x hx)
        refine ⟨?_, heatPass_between_fl hs hτ hlo (sane_shape i1 hsane) hst' i2⟩
        exact forall₂_shape_trans (heatPass_shape _ _) i1
      · simp at hb)).1
  have hl : (r.map HeatCell.t).length = g.nodes.length := by
    rw [List.length_map, inv.1.length_eq, hcells.length_eq]
  have h5 : g.setAll Node.setTemperature (r.map HeatCell.t) = .ok g' := h4
  rw [Grid.setAll_eq hw _ hl, ok_inj] at h5
  subst h5
  intro n hnm
  have : n.temperature ∈ r.map HeatCell.t := by
    rw [← zip_setTemperature _ _ hl]
    exact List.mem_map_of_mem hnm
  obtain ⟨x, hx, e⟩ := List.mem_map.1 this
  rw [← e]
  exact inv.2 x hx


/-- **C109, the melting point.** If no layer is above the melting point, conduction lifts none above it: it never starts melt. -/
theorem C109_melting_point (hs : emin ≤ -(p : ℤ) - 90) {fuel : Nat} {c : Consts F} (hc : c.Ranged) {g g' : Grid F} {dt : F} (hw : g.WF)
    (hn : ∀ n ∈ g.nodes, OrdinaryLayer n) (h : solveHeatEquation fuel c g dt = .ok g')
    (ht : ∀ n ∈ g.nodes, 1 ≤ n.temperature ∧ n.temperature ≤ c.zeroTemperature) : ∀ n ∈ g'.nodes, n.temperature ≤ c.zeroTemperature :=
  fun n hn' => (C109_max_principle hs hc hw hn h le_rfl ht n hn').2

theorem lit_in {x A B : K} (hp : 23 ≤ p) (he : emin ≤ -30) (hx : 1 / 512 ≤ x) (hA : 21 / 20 * A ≤ x) (hB : 21 / 20 * x ≤ B) :
    A ≤ binRound p emin x ∧ binRound p emin x ≤ B := by
  have r : Rel 1 x (binRound p emin x) := by
    refine (Rel.refl (by linarith)).rnd hp (by norm_num) ((emin_small (k := -9) (by omega)).trans (le_trans ?_ hx))
    norm_num
  have h1 := r.above
  have h2 := r.below
  rw [pow_one] at h1 h2
  unfold relStep at h1 h2
  constructor
  · linarith
  · linarith

/-- The shipped constants are in the ranges. -/
theorem default_ranged : (Consts.default F).Ranged where
  ice := lit_in (x := (917.0 : K)) hp he (by norm_num) (by norm_num) (by norm_num)
  water := lit_in (x := (1000.0 : K)) hp he (by norm_num) (by norm_num) (by norm_num)
  air := lit_in (x := (1.1 : K)) hp he (by norm_num) (by norm_num) (by norm_num)
  cIce := lit_in (x := (2050.00 : K)) hp he (by norm_num) (by norm_num) (by norm_num)
  cWater := lit_in (x := ((4217 : ℕ) : K)) hp he (by norm_num) (by norm_num) (by norm_num)
  cAir := lit_in (x := (1004.67 : K)) hp he (by norm_num) (by norm_num) (by norm_num)
  kI := lit_in (x := (2.22 : K)) hp he (by norm_num) (by norm_num) (by norm_num)
  kW := lit_in (x := (0.55 : K)) hp he (by norm_num) (by norm_num) (by norm_num)
  kA := lit_in (x := (0.024 : K)) hp he (by norm_num) (by norm_num) (by norm_num)

end

/-! ## In double precision -/

section
variable {K : Type} [Field K] [LinearOrder K] [IsStrictOrderedRing K] [FloorRing K]

/-- **C109 in double precision, with the shipped constants.** -/
theorem C109_binary64 {fuel : Nat} {g g' : Grid (Fl (binary64 K))} {dt : Fl (binary64 K)} (hw : g.WF)
    (hn : ∀ n ∈ g.nodes, OrdinaryLayer n) (h : solveHeatEquation fuel (Consts.default _) g dt = .ok g') {lo hi : Fl (binary64 K)} (hlo : 1 ≤ lo)
    (ht : ∀ n ∈ g.nodes, lo ≤ n.temperature ∧ n.temperature ≤ hi) : ∀ n ∈ g'.nodes, lo ≤ n.temperature ∧ n.temperature ≤ hi :=
  C109_max_principle (by norm_num) default_ranged hw hn h hlo ht

end

/-! Non-vacuity: a column at the melting point but for its first layer; two sub-steps in double precision change a temperature. -/
section
private abbrev W64 := Fl (binary64 ℚ)

private def exWarm : Grid W64 :=
  ⟨[⟨0.1, 260, 0, 0.3, 0⟩, ⟨0.1, 273.16, 0.01, 0.5, 0⟩, ⟨0.2, 273.16, 0, 1, 0⟩, ⟨0.5, 273.16, 0, 1, 0⟩], 4, 0, 0, 0⟩

example : exWarm.WF ∧ (∀ n ∈ exWarm.nodes, OrdinaryLayer n) ∧ (∀ n ∈ exWarm.nodes, (1 : W64) ≤ n.temperature ∧ n.temperature ≤ 273.16) := by
  have all : ∀ n ∈ exWarm.nodes, (2 : ℚ) ^ (-29 : ℤ) ≤ n.height.1 ∧ (0 ≤ n.iceFraction ∧ n.iceFraction ≤ 1) ∧ (0 ≤ n.lwc ∧ n.lwc ≤ 1) ∧
      (1 : W64) ≤ n.temperature ∧ n.temperature ≤ 273.16 := by
    unfold exWarm; decide +kernel
  exact ⟨rfl, fun n hn => ⟨(all n hn).1, (all n hn).2.1, (all n hn).2.2.1⟩, fun n hn => (all n hn).2.2.2⟩

example : (solveHeatEquation 9 (Consts.default W64) exWarm 7200).toOption.map
    (fun g => g.nodes.map fun n => (decide (n.temperature = 273.16), decide (n.temperature < 273.16))) =
      some [(false, true), (false, true), (false, true), (true, false)] := by decide +kernel

end
end Cosipy
