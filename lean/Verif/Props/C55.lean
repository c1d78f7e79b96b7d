import Verif.Model.Preprocess
import Verif.Model.Real
import Mathlib.Algebra.Field.Rat
import Mathlib.Algebra.Order.Ring.Unbundled.Rat
import Mathlib.Algebra.BigOperators.Group.List.Basic
import Mathlib.Tactic.NormNum
import Mathlib.Tactic.NormNum.OfScientific
import Mathlib.Tactic.Linarith
import Mathlib.Tactic.FieldSimp
import Mathlib.Tactic.Ring

/-!
# C55 WRF conversion: bounded humidity, precipitation adds up, mask of one class

`C55_humidity`, `C55_saturation`, `C55_precipitation`, `C55_snow_mass`, `C55_wind`. The mask is 1 exactly on the configured land-use class
unless the class is 0 (`C55_mask_partial`, `C55_mask_refuted`). Precipitation is negative where the accumulated value drops
(`C55_nonneg_iff`). The static-file mask is 1 exactly where the elevation inside the outline is positive
(`C55_static_mask`).
-/

set_option autoImplicit false
set_option linter.unusedSectionVars false

namespace Cosipy
open Wrf

section
variable {K : Type} [Field K] [LinearOrder K] [IsStrictOrderedRing K]

theorem clampRh_eq (x : K) : clampRh (some x) = some (max 0 (min 100 x)) := by
  have e1 : (100.0 : K) = 100 := by norm_num
  have e0 : (0.0 : K) = 0 := by norm_num
  unfold clampRh
  simp only [Option.map_some, e1, e0, Option.some.injEq]
  by_cases h1 : 100 < x
  · rw [if_pos h1, min_eq_left h1.le, if_neg (by norm_num), max_eq_right (by norm_num)]
  · rw [if_neg h1, min_eq_right (not_lt.1 h1)]
    by_cases h0 : x < 0
    · rw [if_pos h0, max_eq_left h0.le]
    · rw [if_neg h0, max_eq_right (not_lt.1 h0)]

/-- **C55, humidity.** For every state of the atmosphere the relative humidity lies in [0, 100]. -/
theorem C55_humidity [Transc K] (t q p : K) : ∃ y, wrfRh t q p = some y ∧ 0 ≤ y ∧ y ≤ 100 :=
  ⟨_, clampRh_eq _, le_max_left _ _, max_le (by norm_num) (min_le_left _ _)⟩

/-- Sum of consecutive differences. -/
theorem diffFrom_sum : ∀ (as : List K) (a : K), (diffFrom a as).sum = as.getLastD a - a
  | [], a => by simp [diffFrom]
  | b :: as, a => by
    simp only [diffFrom, List.sum_cons, diffFrom_sum as b, List.getLastD_cons]
    ring

theorem diffFrom_length : ∀ (as : List K) (a : K), (diffFrom a as).length = as.length
  | [], _ => rfl
  | b :: as, a => by simp [diffFrom, diffFrom_length as b]

theorem deaccumulate_sum (a : K) (as : List K) : (deaccumulate (a :: as)).sum = as.getLastD a - a := by
  have e0 : (0.0 : K) = 0 := by norm_num
  simp only [deaccumulate, List.sum_cons, diffFrom_sum, e0, zero_add]

theorem deaccumulate_length (as : List K) : (deaccumulate as).length = as.length := by
  cases as with
  | nil => rfl
  | cons a as => simp [deaccumulate, diffFrom_length]

/-- Entry by entry: 0 first, then the differences of neighbours. -/
theorem deaccumulate_get (acc : List K) {t : Nat} (ht : t < acc.length) :
    (deaccumulate acc)[t]? = some (if h : t = 0 then 0 else acc[t] - acc[t - 1]'(by omega)) := by
  have e0 : (0.0 : K) = 0 := by norm_num
  have key : ∀ (as : List K) (a : K) (t : Nat) (h : t < as.length),
      (diffFrom a as)[t]? = some (as[t] - (a :: as)[t]'(by simp; omega)) := by
    intro as
    induction as with
    | nil => intro _ t h; simp at h
    | cons b as ih =>
      intro a t h
      cases t with
      | zero => simp [diffFrom]
      | succ t =>
        simp only [List.length_cons, Nat.add_lt_add_iff_right] at h
        simp only [diffFrom, List.getElem?_cons_succ, ih b t h, List.getElem_cons_succ]
  cases acc with
  | nil => simp at ht
  | cons a as =>
    cases t with
    | zero => simp [deaccumulate, e0]
    | succ t =>
      simp only [List.length_cons, Nat.add_lt_add_iff_right] at ht
      simp only [deaccumulate, List.getElem?_cons_succ, key as a t ht, Nat.succ_ne_zero, dite_false,
        List.getElem_cons_succ, Nat.add_sub_cancel]

/-- **C55, precipitation.** One value per time; the first is 0, each other one is the increase of the two accumulated fields
together; the sum over the file is the accumulated amount at the end minus that at the beginning. -/
theorem C55_precipitation {rainnc rainc : List K} (hl : rainnc.length = rainc.length) :
    (hourlyPrecip rainnc rainc).length = rainnc.length ∧
    (∀ t (h : t < rainnc.length), (hourlyPrecip rainnc rainc)[t]? =
      some (if t = 0 then 0 else rainnc[t] + rainc[t] - (rainnc[t - 1] + rainc[t - 1]))) ∧
    (∀ h : rainnc ≠ [], (hourlyPrecip rainnc rainc).sum =
      (rainnc.getLast h + rainc.getLast (by intro e; apply h; simpa [e] using hl)) -
      (rainnc.head h + rainc.head (by intro e; apply h; simpa [e] using hl))) := by
  refine ⟨by simp [hourlyPrecip, deaccumulate_length, hl], fun t h => ?_, fun h => ?_⟩
  · unfold hourlyPrecip
    rw [deaccumulate_get _ (by simp [← hl]; omega)]
    simp only [List.getElem_zipWith, dite_eq_ite]
  · obtain ⟨a, as, rfl⟩ := List.exists_cons_of_ne_nil h
    cases rainc with
    | nil => simp at hl
    | cons b bs =>
      simp only [List.length_cons, Nat.add_right_cancel_iff] at hl
      simp only [hourlyPrecip, List.zipWith_cons_cons, deaccumulate_sum, List.head_cons]
      have : ∀ (as bs : List K) (a b : K), as.length = bs.length →
          (List.zipWith (· + ·) as bs).getLastD (a + b) =
            (a :: as).getLast (by simp) + (b :: bs).getLast (by simp) := by
        intro as
        induction as with
        | nil => intro bs a b e; cases bs with
          | nil => simp
          | cons _ _ => simp at e
        | cons a' as ih => intro bs a b e; cases bs with
          | nil => simp at e
          | cons b' bs =>
            simp only [List.length_cons, Nat.add_right_cancel_iff] at e
            simp only [List.zipWith_cons_cons, List.getLastD_cons, List.getLast_cons_cons]
            exact ih bs a' b' e
      rw [this as bs a b hl]

/-- **C55, no negative precipitation**, exactly: iff the accumulated precipitation never decreases from one time to the
next. (WRF bucket resets make it decrease.) -/
theorem C55_nonneg_iff (acc : List K) : (∀ x ∈ deaccumulate acc, 0 ≤ x) ↔ acc.IsChain (· ≤ ·) := by
  have e0 : (0.0 : K) = 0 := by norm_num
  have key : ∀ (as : List K) (a : K), (∀ x ∈ diffFrom a as, 0 ≤ x) ↔ (a :: as).IsChain (· ≤ ·) := by
    intro as
    induction as with
    | nil => intro a; simp [diffFrom]
    | cons b as ih =>
      intro a
      simp only [diffFrom, List.mem_cons, forall_eq_or_imp, ih b, sub_nonneg, List.isChain_cons_cons]
  cases acc with
  | nil => simp [deaccumulate]
  | cons a as => simp only [deaccumulate, List.mem_cons, forall_eq_or_imp, e0, le_refl, true_and, key]

/-- **C55, snowfall.** The snow heights carry exactly the accumulated snow water: heights times fresh-snow density add up to
the increase of the accumulated field (in mm, i.e. kg per square metre, times the water density over 1000). -/
theorem C55_snow_mass {ρw : K} {density snownc : List K} (hl : density.length = snownc.length)
    (hd : ∀ d ∈ density, d ≠ 0) (h : snownc ≠ []) :
    (List.zipWith (· * ·) (snowfall ρw density snownc) density).sum =
      ρw / 1000 * (snownc.getLast h - snownc.head h) := by
  have e3 : (1000.0 : K) = 1000 := by norm_num
  have key : ∀ (xs ds : List K), ds.length = xs.length → (∀ d ∈ ds, d ≠ 0) →
      (List.zipWith (· * ·) (List.zipWith (fun s d => s / 1000.0 * (ρw / d)) xs ds) ds).sum = ρw / 1000 * xs.sum := by
    intro xs
    induction xs with
    | nil => intro ds e _; cases ds with
      | nil => simp
      | cons _ _ => simp at e
    | cons x xs ih => intro ds e hd; cases ds with
      | nil => simp at e
      | cons d ds =>
        simp only [List.length_cons, Nat.add_right_cancel_iff] at e
        have hd0 : d ≠ 0 := hd d (by simp)
        rw [List.zipWith_cons_cons, List.zipWith_cons_cons, List.sum_cons, List.sum_cons,
          ih ds e (fun y hy => hd y (List.mem_cons_of_mem _ hy)), e3]
        field_simp
  unfold snowfall
  rw [key _ _ (by rw [deaccumulate_length, hl]) hd]
  obtain ⟨a, as, rfl⟩ := List.exists_cons_of_ne_nil h
  rw [deaccumulate_sum, List.head_cons, List.getLastD_eq_getLast?, List.getLast_eq_getLastD]
  cases as with
  | nil => simp
  | cons b bs => simp [List.getLast?_cons]

/-- The computed density of fresh snow is at least 50, so the division is never by zero. -/
theorem C55_density [Transc K] (t u : K) : 50 ≤ freshDensity none t u := by
  have e : (50.0 : K) = 50 := by norm_num
  unfold freshDensity
  simp only [e]
  split_ifs with h
  · exact le_rfl
  · exact not_lt.1 h

/-- **C55, mask.** For a land-use class other than 0 the mask is 1 on the class and 0 elsewhere. Missing: class 0. -/
theorem C55_mask_partial {c : K} (hc : c ≠ 0) (lu : K) : maskOf c lu = if lu = c then 1 else 0 := by
  unfold maskOf
  by_cases h : lu = c
  · simp [h]
  · have : ¬ (0 : K) = c := fun e => hc e.symm
    simp [h, this]

/-- **C55 refuted for class 0**: every cell becomes a glacier cell. -/
theorem C55_mask_refuted (lu : K) : maskOf 0 lu = 1 := by
  unfold maskOf
  by_cases h : lu = 0 <;> simp [h]

/-- Static file: the mask is 1 iff the elevation inside the outline is positive; other values are not positive. -/
theorem C55_static_mask (x : Option K) : (StaticFile.maskOf x = 1 ↔ ∃ z, x = some z ∧ 0 < z) ∧
    (StaticFile.maskOf x = 1 ∨ StaticFile.maskOf x ≤ 0) := by
  have e : (9999.0 : K) = 9999 := by norm_num
  cases x with
  | none =>
    have h : ¬ (0 : K) < -9999.0 := by rw [e]; norm_num
    have h' : StaticFile.maskOf (none : Option K) = -9999.0 := by
      simp only [StaticFile.maskOf]; exact if_neg h
    rw [h', e]
    refine ⟨⟨fun h => ?_, ?_⟩, Or.inr (by norm_num)⟩
    · norm_num at h
    · rintro ⟨_, h, -⟩; cases h
  | some z =>
    unfold StaticFile.maskOf
    simp only [Option.some.injEq, exists_eq_left']
    split_ifs with h
    · exact ⟨⟨fun _ => h, fun _ => rfl⟩, Or.inl rfl⟩
    · exact ⟨⟨fun e => absurd (e ▸ zero_lt_one) h, fun h' => absurd h' h⟩, Or.inr (not_lt.1 h)⟩

/-- Static file: the check raises (ValueError) iff a glacier cell has a missing value. -/
theorem C55_static_check (cells : List (K × List (Option K))) :
    (StaticFile.checkForNan cells = .ok () ↔ ∀ c ∈ cells, c.1 = 1 → none ∉ c.2) ∧
    (StaticFile.checkForNan cells = .ok () ∨ StaticFile.checkForNan cells = .error .value) := by
  induction cells with
  | nil => simp [StaticFile.checkForNan]
  | cons c cells ih =>
    obtain ⟨m, vars⟩ := c
    unfold StaticFile.checkForNan
    have hv : vars.any Option.isNone = true ↔ none ∈ vars := by
      simp only [List.any_eq_true, Option.isNone_iff_eq_none, exists_eq_right]
    split_ifs with h
    · simp only [Bool.and_eq_true, beq_iff_eq, hv] at h
      refine ⟨⟨fun e => (by cases e), fun e => ?_⟩, Or.inr rfl⟩
      exact absurd h.2 (e (m, vars) (by simp) h.1)
    · simp only [Bool.and_eq_true, beq_iff_eq, hv, not_and] at h
      refine ⟨?_, ih.2⟩
      rw [ih.1]
      simp only [List.mem_cons, forall_eq_or_imp]
      exact ⟨fun e => ⟨h, e⟩, fun e => e.2⟩

end

/-- **C55, wind.** The wind at 2 m is between 0 and the wind at 10 m, and 0 only in calm air. -/
theorem C55_wind (u v : ℝ) : 0 ≤ wind2m u v ∧ wind2m u v ≤ Real.sqrt (v ^ 2 + u ^ 2) ∧
    (wind2m u v = 0 ↔ u = 0 ∧ v = 0) := by
  have e : wind2m u v = Real.sqrt (v ^ 2 + u ^ 2) * (Real.log 500 / Real.log 2500) := by
    unfold wind2m
    have h2 : ∀ x : ℝ, Transc.pow x 2.0 = x ^ 2 := fun x => by
      show x ^ (2.0 : ℝ) = x ^ 2
      rw [← Real.rpow_two]; norm_num
    simp only [h2]
    show Real.sqrt _ * (Real.log _ / Real.log _) = _
    norm_num
  have l1 : 0 < Real.log 500 := Real.log_pos (by norm_num)
  have l2 : Real.log 500 ≤ Real.log 2500 := Real.log_le_log (by norm_num) (by norm_num)
  have hq : 0 < Real.log 500 / Real.log 2500 := div_pos l1 (l1.trans_le l2)
  have hq1 : Real.log 500 / Real.log 2500 ≤ 1 := (div_le_one (l1.trans_le l2)).2 l2
  rw [e]
  refine ⟨mul_nonneg (Real.sqrt_nonneg _) hq.le, mul_le_of_le_one_right (Real.sqrt_nonneg _) hq1, ?_⟩
  rw [mul_eq_zero, or_iff_left hq.ne', Real.sqrt_eq_zero (by positivity)]
  constructor
  · intro h
    exact ⟨by nlinarith [sq_nonneg u, sq_nonneg v], by nlinarith [sq_nonneg u, sq_nonneg v]⟩
  · rintro ⟨rfl, rfl⟩; simp

/-! ## Humidity and saturation -/

/-- The saturation humidity (kg/kg) of air of temperature `t` (K) at the pressure `p` (Pa), after Tetens. -/
noncomputable def saturationQ (t p : ℝ) : ℝ := 379.90516 / p * Real.exp (17.2693882 * (t - 273.16) / (t - 35.86))

/-- **C55, saturation.** Air that holds the share `s` of what it can hold has the relative humidity 100 `s` percent, and 100 percent
if it holds more. -/
theorem C55_saturation {p : ℝ} (hp : 0 < p) (t : ℝ) {s : ℝ} (hs : 0 ≤ s) :
    wrfRh t (s * saturationQ t p) p = some (if s ≤ 1 then 100 * s else 100) := by
  have hq : 0 < saturationQ t p := mul_pos (div_pos (by norm_num) hp) (Real.exp_pos _)
  have e : wrfRh t (s * saturationQ t p) p = clampRh (some (s * saturationQ t p * 100.0 / saturationQ t p)) := rfl
  have e1 : s * saturationQ t p * 100.0 / saturationQ t p = 100 * s := by
    field_simp
    norm_num
  rw [e, e1, clampRh_eq]
  split_ifs with h
  · rw [min_eq_right (by linarith), max_eq_right (by linarith)]
  · rw [min_eq_left (by linarith), max_eq_right (by norm_num)]

/-! ## Non-vacuity -/
example : wrfRh 263.16 (0.5 * saturationQ 263.16 70000) 70000 = some (50 : ℝ) := by
  rw [C55_saturation (by norm_num) _ (by norm_num), if_pos (by norm_num)]
  norm_num
example : hourlyPrecip [1, 3, 3, (7 : ℚ)] [0, 0, 1, 1] = [0, 2, 1, 4] := by decide +kernel
example : snowfall 1000 [100, 200, (50 : ℚ)] [1, 3, 4] = [0, 1/100, 1/50] := by decide +kernel
example : maskOf 24 (24 : ℚ) = 1 ∧ maskOf 24 (7 : ℚ) = 0 ∧ maskOf 0 (7 : ℚ) = 1 := by decide +kernel
example : StaticFile.checkForNan [((1 : ℚ), [some 3, none])] = .error .value := by decide +kernel

end Cosipy
