import Verif.Lemmas.RadCor
import Mathlib.Analysis.Real.Pi.Bounds
import Mathlib.Algebra.Field.Rat
import Mathlib.Algebra.Order.Ring.Unbundled.Rat

/-!
# C63 The look-up tables of the radiation module Moelg2009

The table of topographic shading is filled for every day and every step of the day, and read for every hour of the data.
When the step is a number of hours that divides the day, each hour reads the entry written for its own step, inside the
table (`C63_lookup_partial`). For other steps it fails: steps under an hour raise ZeroDivisionError, five hours raise
IndexError, and nine hours read the entries of another day. The hour angles of filling and reading differ unless the step
is one hour. The sky-view factor is the share of sampled points that are seen, lies in [0, 1] and is 1 on flat unshaded ground. Beyond the polar circles the module raises
ValueError.
-/

set_option autoImplicit false
set_option linter.unusedSectionVars false

namespace Cosipy
open RadCor

/-! ## Positions -/

section
variable {k m : Nat}

theorem lutSize_eq (hkm : k * m = 24) : lutSize (3600 * k) = 366 * m := by
  have hk : (k : ℚ) ≠ 0 := by
    rintro h; have : k = 0 := by exact_mod_cast h
    simp [this] at hkm
  have h24 : (k : ℚ) * m = 24 := by exact_mod_cast hkm
  unfold lutSize
  have : (366 * (3600 / ((3600 * k : Nat) : ℚ)) * 24 : ℚ) = ((366 * m : Int) : ℚ) := by
    push_cast
    field_simp
    linarith
  rw [this, Int.floor_intCast]

theorem lutHours_eq (hk : 0 < k) : lutHours (3600 * k) = .ok ((List.range 24).filter fun h => h % k == 0) := by
  unfold lutHours
  have : 3600 * k / 3600 = k := by omega
  simp only [this]
  rw [if_neg (by omega)]

theorem lutWrite_eq (hkm : k * m = 24) (doy q : Nat) : lutWrite (3600 * k) doy (k * q) = doy * m + q := by
  have hk : (k : ℚ) ≠ 0 := by
    rintro h; have : k = 0 := by exact_mod_cast h
    simp [this] at hkm
  have h24 : (k : ℚ) * m = 24 := by exact_mod_cast hkm
  have key : ((doy : ℚ) * (3600 / ((3600 * k : Nat) : ℚ)) * 24 + ((k * q : Nat) : ℚ) * 3600 / ((3600 * k : Nat) : ℚ))
      = ((doy * m + q : Int) : ℚ) := by
    push_cast
    field_simp
    linear_combination (-(doy : ℚ)) * h24
  unfold lutWrite
  simp only [key, Int.floor_intCast, sub_self]
  rw [if_pos (by norm_num)]

theorem lutRead_eq (hkm : k * m = 24) (doy hour : Nat) (hd : 1 ≤ doy) :
    lutRead (3600 * k) doy hour = (doy - 1 : Nat) * m + (hour / k : Nat) := by
  have hk : (k : ℚ) ≠ 0 := by
    rintro h; have : k = 0 := by exact_mod_cast h
    simp [this] at hkm
  have h24 : (k : ℚ) * m = 24 := by exact_mod_cast hkm
  obtain ⟨d, rfl⟩ : ∃ d, doy = d + 1 := ⟨doy - 1, by omega⟩
  have key : ((((d + 1 : Nat) : ℚ) - 1) * (86400 / ((3600 * k : Nat) : ℚ)) + (hour : ℚ) / (((3600 * k : Nat) : ℚ) / 3600))
      = ((d * m : Int) : ℚ) + (hour : ℚ) / k := by
    push_cast
    field_simp
    linear_combination (-(3600 * d : ℚ)) * h24
  unfold lutRead
  rw [key, Int.floor_intCast_add]
  have : ⌊(hour : ℚ) / k⌋ = (hour / k : Nat) := by
    rw [show (hour : ℚ) / k = ((hour : Nat) : ℚ) / ((k : Nat) : ℚ) from rfl, Rat.floor_natCast_div_natCast]
    rfl
  rw [this]
  simp

/-- **C63, positions.** The step is `k` hours and `k` divides the day. Then the filled hours are the multiples of `k`; every
day 1..366 and hour 0..23 of the data reads a position inside the table, and it is the position written for that day (0..365)
and the beginning of the step the hour lies in. Missing: other steps, where it is false. -/
theorem C63_lookup_partial (hk : k ∣ 24) {doy hour : Nat} (hd : 1 ≤ doy) (hd' : doy ≤ 366) (hh : hour < 24) :
    ∃ hours hod, lutHours (3600 * k) = .ok hours ∧ hod ∈ hours ∧ hod ≤ hour ∧ hour < hod + k ∧
      lutRead (3600 * k) doy hour = lutWrite (3600 * k) (doy - 1) hod ∧
      0 ≤ lutRead (3600 * k) doy hour ∧ lutRead (3600 * k) doy hour < lutSize (3600 * k) := by
  obtain ⟨m, hm⟩ := hk
  have hkm : k * m = 24 := hm.symm
  have hk0 : 0 < k := Nat.pos_of_ne_zero (by rintro rfl; simp at hkm)
  have hdm := Nat.div_add_mod hour k
  have hmod := Nat.mod_lt hour hk0
  refine ⟨_, k * (hour / k), lutHours_eq hk0, ?_, by omega, by omega, ?_, ?_, ?_⟩
  · rw [List.mem_filter, List.mem_range]
    refine ⟨by omega, by simp⟩
  · rw [lutRead_eq hkm _ _ hd, lutWrite_eq hkm]
  · rw [lutRead_eq hkm _ _ hd]; positivity
  · rw [lutRead_eq hkm _ _ hd, lutSize_eq hkm]
    have h1 : hour / k < m := by
      rw [Nat.div_lt_iff_lt_mul hk0, Nat.mul_comm, hkm]; exact hh
    have h2 : (doy - 1) * m + hour / k < 366 * m := by
      have : (doy - 1) * m ≤ 365 * m := Nat.mul_le_mul_right _ (by omega)
      omega
    exact_mod_cast h2

/-- No entry is written twice: different days or steps have different positions, all inside the table. -/
theorem C63_write_injective (hk : k ∣ 24) {d d' h h' : Nat} (hh : h < 24) (hh' : h' < 24) (hm : k ∣ h) (hm' : k ∣ h')
    (e : lutWrite (3600 * k) d h = lutWrite (3600 * k) d' h') : d = d' ∧ h = h' := by
  obtain ⟨m, hkm⟩ := hk
  obtain ⟨q, rfl⟩ := hm
  obtain ⟨q', rfl⟩ := hm'
  have hkm := hkm.symm
  have hk0 : 0 < k := Nat.pos_of_ne_zero (by rintro rfl; simp at hkm)
  rw [lutWrite_eq hkm, lutWrite_eq hkm] at e
  have e : d * m + q = d' * m + q' := by exact_mod_cast e
  have hq : q < m := by
    rw [← hkm] at hh; exact Nat.lt_of_mul_lt_mul_left hh
  have hq' : q' < m := by
    rw [← hkm] at hh'; exact Nat.lt_of_mul_lt_mul_left hh'
  have h1 : (d * m + q) / m = d := by
    rw [Nat.mul_comm, Nat.mul_add_div (by omega), Nat.div_eq_of_lt hq, Nat.add_zero]
  have h2 : (d' * m + q') / m = d' := by
    rw [Nat.mul_comm, Nat.mul_add_div (by omega), Nat.div_eq_of_lt hq', Nat.add_zero]
  have hdd : d = d' := by rw [← h1, ← h2, e]
  subst hdd
  have : q = q' := by omega
  exact ⟨rfl, by rw [this]⟩

end

/-- A step under one hour raises ZeroDivisionError before anything is filled. -/
theorem C63_short_step {step : Nat} (h : step < 3600) : lutHours step = .error .zeroDiv := by
  unfold lutHours
  have : step / 3600 = 0 := Nat.div_eq_of_lt h
  simp [this]

/-- **C63 refuted, table bounds.** With a step of five hours the last entry of the year lies outside the table: IndexError. -/
theorem C63_five_hours_refuted : 20 ∈ (List.range 24).filter (fun h => h % 5 == 0) ∧
    lutSize 18000 ≤ lutWrite 18000 365 20 := by
  constructor
  · decide
  · unfold lutSize lutWrite
    norm_num

/-- **C63 refuted, lookup.** With a step of nine hours midnight of the second day reads the entry of the evening of the first
day. -/
theorem C63_nine_hours_refuted : lutRead 32400 2 0 = lutWrite 32400 0 18 ∧ lutRead 32400 2 0 ≠ lutWrite 32400 1 0 := by
  unfold lutRead lutWrite
  constructor <;> norm_num

/-! ## Hour angles -/

section
variable {K : Type} [Field K] [LinearOrder K] [IsStrictOrderedRing K]

/-- **C63, hour angle.** The angle used for the radiation and the one the shading was computed for differ by 7.5° times
(step in hours − 1). -/
theorem C63_hour_angle (step hour tcorr tcart : K) :
    radHourAngle step hour tcorr tcart - lutHourAngle hour tcorr tcart = 15 / 2 * (step / 3600 - 1) := by
  unfold radHourAngle lutHourAngle
  have e1 : (15.0 : K) = 15 := by norm_num
  have e2 : (2.0 : K) = 2 := by norm_num
  have e3 : (3600.0 : K) = 3600 := by norm_num
  have e4 : (180.0 : K) = 180 := by norm_num
  rw [e1, e2, e3, e4]
  ring

/-- They agree exactly for a step of one hour. -/
theorem C63_hour_angle_iff (step hour tcorr tcart : K) :
    radHourAngle step hour tcorr tcart = lutHourAngle hour tcorr tcart ↔ step = 3600 := by
  rw [← sub_eq_zero, C63_hour_angle]
  constructor
  · intro h
    have : step / 3600 - 1 = 0 := by
      rcases mul_eq_zero.1 h with h | h
      · norm_num at h
      · exact h
    have h1 : step / 3600 = 1 := by linarith
    rwa [div_eq_one_iff_eq (by norm_num)] at h1
  · rintro rfl; rw [div_self (by norm_num), sub_self, mul_zero]

/-- With the step of the shipped configuration (three hours) the shading is that of a sun 15° further. -/
theorem C63_hour_angle_shipped (hour tcorr tcart : K) :
    radHourAngle 10800 hour tcorr tcart - lutHourAngle hour tcorr tcart = 15 := by
  rw [C63_hour_angle]; norm_num

/-! ## Sky-view factor -/

variable [Transc K]

theorem svfEntry_range (slo asp azi el : K) (s : Bool) : svfEntry slo asp azi el s = 0 ∨ svfEntry slo asp azi el s = 1 := by
  have e0 : (0.0 : K) = 0 := by norm_num
  have e1 : (1.0 : K) = 1 := by norm_num
  unfold svfEntry
  simp only [e0, e1]
  cases s with
  | true => left; simp
  | false =>
    simp only [Bool.false_eq_true, if_false]
    split_ifs with h1 h2 h3
    · exact absurd h2 (lt_irrefl _)
    · left; rfl
    · right; rfl
    · left; exact le_antisymm (not_lt.1 h3) (not_lt.1 h1)

theorem foldl_entries {ι : Type} (f : ι → K) (hf : ∀ i, f i = 0 ∨ f i = 1) (xs : List ι) (r : K) :
    r ≤ xs.foldl (fun r i => r + f i) r ∧ xs.foldl (fun r i => r + f i) r ≤ r + xs.length := by
  induction xs generalizing r with
  | nil => simp
  | cons x xs ih =>
    obtain ⟨h1, h2⟩ := ih (r + f x)
    simp only [List.foldl_cons, List.length_cons, Nat.cast_add, Nat.cast_one]
    rcases hf x with h | h <;> rw [h] at h1 h2 ⊢ <;> constructor <;> linarith

theorem foldl_rows {ι : Type} (n : Nat) (g : K → ι → K) (hg : ∀ r i, r ≤ g r i ∧ g r i ≤ r + n) (xs : List ι) (r : K) :
    r ≤ xs.foldl g r ∧ xs.foldl g r ≤ r + xs.length * n := by
  induction xs generalizing r with
  | nil => simp
  | cons x xs ih =>
    obtain ⟨h1, h2⟩ := ih (g r x)
    obtain ⟨h3, h4⟩ := hg r x
    simp only [List.foldl_cons, List.length_cons, Nat.cast_add, Nat.cast_one]
    constructor
    · linarith
    · linarith

/-- **C63, sky view.** The factor lies between 0 and 1 for every slope, aspect and shading. -/
theorem C63_svf_range (slope aspect : K) (shaded : Nat → Nat → Bool) :
    0 ≤ skyViewFactor slope aspect shaded ∧ skyViewFactor slope aspect shaded ≤ 1 := by
  unfold skyViewFactor
  have h := foldl_rows (K := K) 44 (fun r (azi : Nat) => elevations.foldl (fun r (el : Nat) =>
    r + svfEntry (radians slope) (radians aspect) (azi : K) (el : K) (shaded azi el)) r)
    (fun r azi => by
      have := foldl_entries (fun el : Nat => svfEntry (radians slope) (radians aspect) (azi : K) (el : K) (shaded azi el))
        (fun el => svfEntry_range _ _ _ _ _) elevations r
      have hl : elevations.length = 44 := by simp [elevations]
      rw [hl] at this
      exact this) azimuths 0.0
  have hl : azimuths.length = 36 := by simp [azimuths]
  rw [hl] at h
  have e0 : (0.0 : K) = 0 := by norm_num
  have e36 : (36.0 : K) = 36 := by norm_num
  have e44 : (44.0 : K) = 44 := by norm_num
  simp only [e0, e36, e44] at h ⊢
  obtain ⟨h1, h2⟩ := h
  push_cast at h2
  constructor
  · positivity
  · rw [div_le_one (by norm_num)]; linarith

/-- More shading never increases the factor of a direction. -/
theorem C63_svf_shaded (slo asp azi el : K) : svfEntry slo asp azi el true = 0 := by
  unfold svfEntry; norm_num

end

/-- **C63, flat ground.** On flat ground without shading the whole sky is seen. -/
theorem C63_svf_flat (aspect : ℝ) : skyViewFactor 0 aspect (fun _ _ => false) = 1 := by
  unfold skyViewFactor
  have e0 : (0.0 : ℝ) = 0 := by norm_num
  have e1 : (1.0 : ℝ) = 1 := by norm_num
  have hs : radians (0 : ℝ) = 0 := by unfold radians; simp
  have hrow : ∀ (azi : Nat) (r : ℝ), elevations.foldl (fun r (el : Nat) =>
      r + svfEntry (radians 0) (radians aspect) (azi : ℝ) (el : ℝ) false) r = r + 44 := by
    intro azi r
    have hgen : ∀ (xs : List Nat) (r : ℝ), (∀ x ∈ xs, 0 < x ∧ x < 180) → xs.foldl (fun r (el : Nat) =>
        r + svfEntry (radians 0) (radians aspect) (azi : ℝ) (el : ℝ) false) r = r + xs.length := by
      intro xs
      induction xs with
      | nil => intro r _; simp
      | cons x xs ih =>
        intro r hx
        obtain ⟨hx0, hx1⟩ := hx x List.mem_cons_self
        have hent : svfEntry (radians 0) (radians aspect) (azi : ℝ) (x : ℝ) false = 1 := by
          have hp : 0 < Real.sin (radians (x : ℝ)) := by
            have e180 : (180.0 : ℝ) = 180 := by norm_num
            have hx0' : (0 : ℝ) < x := by exact_mod_cast hx0
            have hx1' : (x : ℝ) < 180 := by exact_mod_cast hx1
            unfold radians
            rw [e180]
            show 0 < Real.sin (x * Real.pi / 180)
            have := Real.pi_pos
            apply Real.sin_pos_of_pos_of_lt_pi
            · positivity
            · rw [div_lt_iff₀ (by norm_num)]; nlinarith
          have h2 : (Transc.cos (radians (x : ℝ)) * Transc.sin (0 : ℝ) * Transc.cos (radians aspect - radians (azi : ℝ))
              + Transc.sin (radians (x : ℝ)) * Transc.cos (0 : ℝ) : ℝ) = Real.sin (radians (x : ℝ)) := by
            show Real.cos _ * Real.sin 0 * Real.cos _ + Real.sin _ * Real.cos 0 = _
            rw [Real.sin_zero, Real.cos_zero]; ring
          unfold svfEntry
          rw [hs]
          simp only [h2, e0, e1, Bool.false_eq_true, if_false]
          rw [if_neg (not_lt.2 hp.le), if_pos hp]
        rw [List.foldl_cons, ih _ (fun y hy => hx y (List.mem_cons_of_mem _ hy)), hent, List.length_cons]
        push_cast; ring
    rw [hgen elevations r (by decide)]
    have : elevations.length = 44 := by simp [elevations]
    rw [this]; norm_num
  simp only [hrow]
  have hall : ∀ (xs : List Nat) (r : ℝ), xs.foldl (fun r (_ : Nat) => r + 44) r = r + xs.length * 44 := by
    intro xs
    induction xs with
    | nil => intro r; simp
    | cons x xs ih => intro r; rw [List.foldl_cons, ih, List.length_cons]; push_cast; ring
  rw [hall]
  have : azimuths.length = 36 := by simp [azimuths]
  rw [this]
  norm_num

theorem foldl_add_sum {ι : Type} (f : ι → ℝ) : ∀ (xs : List ι) (r : ℝ), xs.foldl (fun r i => r + f i) r = r + (xs.map f).sum
  | [], r => by simp
  | x :: xs, r => by rw [List.foldl_cons, foldl_add_sum f xs, List.map_cons, List.sum_cons]; ring

/-- **C63, sky view.** The sky is sampled in 36 directions, every ten degrees, and at 44 heights, every two degrees. The factor is the share of these
points that no terrain hides and that lie above the plane of the slope. -/
theorem C63_svf_share (slope aspect : ℝ) (shaded : Nat → Nat → Bool) :
    skyViewFactor slope aspect shaded = ((List.range 36).map fun i => ((List.range 44).map fun k =>
      if shaded (10 * (i + 1)) (2 * (k + 1)) = false ∧
          0 < Real.cos ((2 * (k + 1) : Nat) * Real.pi / 180) * Real.sin (slope * Real.pi / 180) *
            Real.cos (aspect * Real.pi / 180 - (10 * (i + 1) : Nat) * Real.pi / 180) +
            Real.sin ((2 * (k + 1) : Nat) * Real.pi / 180) * Real.cos (slope * Real.pi / 180)
      then (1 : ℝ) else 0).sum).sum / 1584 := by
  have e0 : (0.0 : ℝ) = 0 := by norm_num
  have e1 : (1.0 : ℝ) = 1 := by norm_num
  have hr : ∀ x : ℝ, radians x = x * Real.pi / 180 := fun x => by
    unfold radians
    rw [show (180.0 : ℝ) = 180 by norm_num]; rfl
  have hent : ∀ (azi el : ℝ) (b : Bool), svfEntry (radians slope) (radians aspect) azi el b =
      if b = false ∧ 0 < Real.cos (el * Real.pi / 180) * Real.sin (slope * Real.pi / 180) *
            Real.cos (aspect * Real.pi / 180 - azi * Real.pi / 180) +
            Real.sin (el * Real.pi / 180) * Real.cos (slope * Real.pi / 180) then 1 else 0 := by
    intro azi el b
    unfold svfEntry
    simp only [hr, e0, e1]
    show (if b = true then 0 else if 0 < (if Real.cos _ * Real.sin _ * Real.cos _ + Real.sin _ * Real.cos _ < 0 then (0 : ℝ) else _) then 1 else _) = _
    generalize Real.cos (el * Real.pi / 180) * Real.sin (slope * Real.pi / 180) *
            Real.cos (aspect * Real.pi / 180 - azi * Real.pi / 180) +
            Real.sin (el * Real.pi / 180) * Real.cos (slope * Real.pi / 180) = a
    cases b
    · rcases lt_trichotomy a 0 with h | h | h
      · simp [h, not_lt.2 h.le]
      · simp [h]
      · simp [h, not_lt.2 h.le]
    · simp
  unfold skyViewFactor
  simp only [foldl_add_sum, hent]
  have ea : azimuths = (List.range 36).map fun i => 10 * (i + 1) := List.map_congr_left fun i _ => by ring
  have ee : elevations = (List.range 44).map fun k => 2 * (k + 1) := List.map_congr_left fun k _ => by ring
  simp only [ea, ee, List.map_map, e0, zero_add, Function.comp_def]
  rw [show (36.0 * 44.0 : ℝ) = 1584 by norm_num]

/-! ## Latitudes -/

/-- A row fails only through the inverse cosine of the sunrise hour angle. -/
theorem solRow_bind (lat : ℝ) (j : Nat) :
    ∃ r, solRow lat j = (pyAcos (-Real.tan (lat * Real.pi / 180) * Real.tan (solDec j)) >>= fun _ => pure r) := by
  have e180 : (180.0 : ℝ) = 180 := by norm_num
  have hr : radians lat = lat * Real.pi / 180 := by unfold radians; rw [e180]; rfl
  rw [← hr]
  exact ⟨_, rfl⟩

/-- The declination of the module never exceeds 23.54°. -/
theorem solDec_bound (j : Nat) : |solDec (α := ℝ) j| ≤ 0.4108 := by
  unfold solDec
  simp only [Transc.cos, Transc.sin]
  generalize (2.0 * Transc.pi * (j : ℝ) / 365.0) = tau
  rw [abs_le]
  have h2 : Real.cos (2.0 * tau) = 2 * Real.cos tau ^ 2 - 1 := by
    rw [show (2.0 : ℝ) = 2 by norm_num]; exact Real.cos_two_mul tau
  have hcs := Real.sin_sq_add_cos_sq tau
  have d1 := Real.neg_one_le_sin (2.0 * tau)
  have d2 := Real.sin_le_one (2.0 * tau)
  have h3 := Real.sin_sq_add_cos_sq (3.0 * tau)
  rw [h2]
  generalize Real.cos tau = c at *
  generalize Real.sin tau = s at *
  generalize Real.sin (2.0 * tau) = x4 at *
  generalize Real.cos (3.0 * tau) = x5 at *
  generalize Real.sin (3.0 * tau) = x6 at *
  have t3 : |(-0.002697 * x5 + 0.00148 * x6 : ℝ)| ≤ 0.00308 := by
    apply abs_le_of_sq_le_sq _ (by norm_num)
    norm_num
    nlinarith [sq_nonneg (0.00148 * x5 + 0.002697 * x6)]
  obtain ⟨t1, t2⟩ := abs_le.1 t3
  have u1 : -0.399912 * c + 0.070257 * s + 0.013516 * s ^ 2 ≤ 0.4066 := by
    have := sq_nonneg (c + 0.98355)
    have := sq_nonneg (s - 0.1851)
    norm_num at *
    nlinarith
  have u2 : -0.40605 ≤ -0.399912 * c + 0.070257 * s := by
    have := sq_nonneg (c - 0.9849)
    have := sq_nonneg (s + 0.17303)
    norm_num at *
    nlinarith
  have hc : c ^ 2 = 1 - s ^ 2 := by linarith
  have hs := sq_nonneg s
  rw [hc]
  norm_num at *
  constructor <;> linarith

/-- The declination of the module on the first of January. -/
theorem solDec_zero : solDec (α := ℝ) 0 = -0.402449 := by
  unfold solDec
  simp only [Transc.cos, Transc.sin, Nat.cast_zero, mul_zero, zero_div, Real.cos_zero, Real.sin_zero]
  norm_num

/-- The declination of the module on the 22nd of June. -/
theorem solDec_june : 0.4092 ≤ solDec (α := ℝ) 172 := by
  unfold solDec
  have ht : (2.0 * Transc.pi * ((172 : Nat) : ℝ) / 365.0 : ℝ) = Real.pi - 21 * Real.pi / 365 := by
    show 2.0 * Real.pi * ((172 : Nat) : ℝ) / 365.0 = _
    rw [show (2.0 : ℝ) = 2 by norm_num, show (365.0 : ℝ) = 365 by norm_num]
    push_cast; ring
  have h2 : (2.0 : ℝ) = 2 := by norm_num
  have h3 : (3.0 : ℝ) = 3 := by norm_num
  simp only [ht]
  have e2 : (2.0 : ℝ) * (Real.pi - 21 * Real.pi / 365) = 2 * Real.pi - 2 * (21 * Real.pi / 365) := by rw [h2]; ring
  have e3 : (3.0 : ℝ) * (Real.pi - 21 * Real.pi / 365) = Real.pi - 3 * (21 * Real.pi / 365) + 2 * Real.pi := by rw [h3]; ring
  rw [e2, e3]
  show 0.4092 ≤ 0.006918 - 0.399912 * Real.cos _ + 0.070257 * Real.sin _ - 0.006758 * Real.cos _ + 0.000907 * Real.sin _
    - 0.002697 * Real.cos _ + 0.00148 * Real.sin _
  rw [Real.cos_pi_sub, Real.sin_pi_sub, Real.cos_two_pi_sub, Real.sin_two_pi_sub, Real.cos_add_two_pi, Real.sin_add_two_pi,
    Real.cos_pi_sub, Real.sin_pi_sub]
  have p1 := Real.pi_gt_d4
  have p2 := Real.pi_lt_d4
  have x1 : 0.18074 ≤ 21 * Real.pi / 365 := by norm_num at *; linarith
  have x2 : 21 * Real.pi / 365 ≤ 0.18076 := by norm_num at *; linarith
  generalize 21 * Real.pi / 365 = x at *
  have c1 := Real.one_sub_sq_div_two_le_cos (x := x)
  have s1 := Real.sin_gt_sub_cube (x := x) (by norm_num at *; linarith)
  have c3 := Real.one_sub_sq_div_two_le_cos (x := 3 * x)
  have s3 := Real.sin_gt_sub_cube (x := 3 * x) (by norm_num at *; linarith)
  have s2 := Real.sin_le (x := 2 * x) (by norm_num at *; linarith)
  have q1 : x ^ 2 ≤ 0.03268 := by norm_num at *; nlinarith
  have q3 : x ^ 3 ≤ 0.00591 := by
    have : x ^ 3 = x * x ^ 2 := by ring
    rw [this]; norm_num at *; nlinarith
  have s1' : 0.17926 ≤ Real.sin x := by norm_num at *; linarith
  have c2 : Real.cos (2 * x) ≤ 0.93574 := by
    have hc : Real.cos x ^ 2 = 1 - Real.sin x ^ 2 := by linarith [Real.sin_sq_add_cos_sq x]
    rw [Real.cos_two_mul, hc]
    generalize Real.sin x = y at *
    norm_num at *; nlinarith
  have c1' : 0.98366 ≤ Real.cos x := by norm_num at *; linarith
  have c3' : 0.85294 ≤ Real.cos (3 * x) := by
    have : (3 * x) ^ 2 = 9 * x ^ 2 := by ring
    rw [this] at c3; norm_num at *; linarith
  have s3' : 0.5022 ≤ Real.sin (3 * x) := by
    have : (3 * x) ^ 3 = 27 * x ^ 3 := by ring
    rw [this] at s3; norm_num at *; linarith
  norm_num at *; linarith

/-- A row fails only with ValueError. -/
theorem solRow_error {lat : ℝ} {j : Nat} {e : Err} (h : solRow lat j = .error e) : e = .value := by
  obtain ⟨r, hr⟩ := solRow_bind lat j
  rw [hr] at h
  unfold pyAcos at h
  split_ifs at h <;> cases h <;> rfl

/-- If one row fails, the table fails. -/
theorem solRows_error {lat : ℝ} : ∀ {xs : List Nat} {j : Nat}, j ∈ xs → solRow lat j = .error .value →
    xs.mapM (solRow lat) = .error .value
  | x :: xs, j, hj, h => by
    rw [List.mapM_cons]
    rcases hx : solRow lat x with e | r
    · rw [solRow_error hx, error_bind]
    · rw [ok_bind]
      rcases List.mem_cons.1 hj with rfl | hj
      · rw [h] at hx; cases hx
      · rw [solRows_error hj h, error_bind]

/-- **C63 refuted, polar latitudes.** From 66.56° on, north or south, the solar parameters cannot be computed: ValueError. The
number that fails is the sunrise hour angle of the 22nd of June, which is not used. -/
theorem C63_polar_refuted {lat : ℝ} (h1 : Real.pi / 2 - 0.4092 < |lat * Real.pi / 180|)
    (h2 : |lat * Real.pi / 180| < Real.pi / 2) : solpars lat = .error .value := by
  have hz : solRow lat 172 = .error .value := by
    obtain ⟨r, hr⟩ := solRow_bind lat 172
    have hdec := solDec_june
    have hdec' : solDec (α := ℝ) 172 ≤ 0.489 := (abs_le.1 (solDec_bound 172)).2.trans (by norm_num)
    rw [hr]
    generalize solDec (α := ℝ) 172 = dec at *
    have hpi := Real.pi_gt_three
    have hd : Real.tan dec * Real.tan |lat * Real.pi / 180| > 1 := by
      have ht : 0 < Real.tan dec := Real.tan_pos_of_pos_of_lt_pi_div_two (by norm_num at *; linarith) (by norm_num at *; linarith)
      have hlt : Real.tan (Real.pi / 2 - dec) < Real.tan |lat * Real.pi / 180| :=
        Real.tan_lt_tan_of_lt_of_lt_pi_div_two (by norm_num at *; linarith) h2 (by linarith)
      rw [Real.tan_pi_div_two_sub] at hlt
      have := mul_lt_mul_of_pos_left hlt ht
      rwa [mul_inv_cancel₀ ht.ne'] at this
    have : -Real.tan (lat * Real.pi / 180) * Real.tan dec < -1 ∨ 1 < -Real.tan (lat * Real.pi / 180) * Real.tan dec := by
      rcases abs_cases (lat * Real.pi / 180) with ⟨ha, _⟩ | ⟨ha, _⟩
      · left; rw [ha] at hd; linarith
      · right; rw [ha, Real.tan_neg] at hd; linarith
    rw [pyAcos_error this, error_bind]
  unfold solpars
  rw [solRows_error (List.mem_range.2 (by norm_num)) hz, error_bind]

/-- **C63, latitudes.** Up to 66.46° (π/2 − 0.4108) the parameters are computed for every day. Between 66.46° and 66.56° nothing is
claimed. -/
theorem C63_solpars_ok {lat : ℝ} (h : |lat * Real.pi / 180| ≤ Real.pi / 2 - 0.4108) :
    ∃ rows, solpars lat = .ok rows ∧ rows.length = 366 := by
  have hpi := Real.pi_gt_three
  have hrow : ∀ j, ∃ r, solRow lat j = .ok r := by
    intro j
    have hb : |solDec (α := ℝ) j| ≤ 0.4108 := solDec_bound j
    obtain ⟨r, hr⟩ := solRow_bind lat j
    generalize solDec (α := ℝ) j = dec at *
    have hbound : |(-Real.tan (lat * Real.pi / 180) * Real.tan dec)| ≤ 1 := by
      rw [abs_mul, abs_neg]
      have habs : ∀ x : ℝ, |x| < Real.pi / 2 → |Real.tan x| = Real.tan |x| := by
        intro x hx
        rcases abs_cases x with ⟨ha, h0⟩ | ⟨ha, h0⟩
        · rw [ha] at hx ⊢
          exact abs_of_nonneg (Real.tan_nonneg_of_nonneg_of_le_pi_div_two h0 hx.le)
        · rw [ha] at hx ⊢
          rw [Real.tan_neg, abs_of_nonpos]
          have := Real.tan_nonneg_of_nonneg_of_le_pi_div_two (x := -x) (by linarith) hx.le
          rw [Real.tan_neg] at this
          linarith
      have hd2 : |dec| < Real.pi / 2 := by norm_num at *; linarith
      have hl2 : |lat * Real.pi / 180| < Real.pi / 2 := by norm_num at *; linarith
      rw [habs _ hl2, habs _ hd2]
      have hle : Real.tan |lat * Real.pi / 180| ≤ Real.tan (Real.pi / 2 - 0.4108) := by
        rcases eq_or_lt_of_le h with h | h
        · rw [h]
        · exact (Real.tan_lt_tan_of_lt_of_lt_pi_div_two (by have := abs_nonneg (lat * Real.pi / 180); linarith)
            (by norm_num) h).le
      have hle' : Real.tan |dec| ≤ Real.tan 0.4108 := by
        rcases eq_or_lt_of_le hb with h | h
        · rw [h]
        · exact (Real.tan_lt_tan_of_lt_of_lt_pi_div_two (by have := abs_nonneg dec; linarith)
            (by norm_num at *; linarith) h).le
      have h0 : 0 ≤ Real.tan |dec| := Real.tan_nonneg_of_nonneg_of_le_pi_div_two (abs_nonneg _) hd2.le
      have ht : 0 < Real.tan 0.4108 := Real.tan_pos_of_pos_of_lt_pi_div_two (by norm_num) (by norm_num at *; linarith)
      rw [Real.tan_pi_div_two_sub] at hle
      calc Real.tan |lat * Real.pi / 180| * Real.tan |dec| ≤ (Real.tan 0.4108)⁻¹ * Real.tan 0.4108 :=
            mul_le_mul hle hle' h0 (inv_nonneg.2 ht.le)
        _ = 1 := inv_mul_cancel₀ ht.ne'
    have hb' := abs_le.1 hbound
    rw [hr, pyAcos_ok hb'.1 hb'.2, ok_bind]
    exact ⟨_, rfl⟩
  have hmap : ∀ xs : List Nat, ∃ rows, xs.mapM (solRow lat) = .ok rows ∧ rows.length = xs.length := by
    intro xs
    induction xs with
    | nil => exact ⟨[], rfl, rfl⟩
    | cons x xs ih =>
      obtain ⟨r, hr⟩ := hrow x
      obtain ⟨rows, hrs, hl⟩ := ih
      refine ⟨r :: rows, ?_, by simp [hl]⟩
      rw [List.mapM_cons, hr, ok_bind, hrs, ok_bind]
      rfl
  obtain ⟨rows, hrs, hl⟩ := hmap (List.range 365)
  rw [List.length_range] at hl
  unfold solpars
  rw [hrs, ok_bind]
  have hg : pyGet rows 364 = .ok (rows[364]'(by omega)) := by
    unfold pyGet
    simp [normIdx, hl]
  rw [hg, ok_bind]
  exact ⟨_, rfl, by simp [hl]⟩

/-! ## What the parameters are -/

/-- Degrees as radians. -/
noncomputable def degToRad (x : ℝ) : ℝ := x * Real.pi / 180

/-- By how many minutes the sun is ahead of the clock on day `d` of the year: the effects of the eccentric orbit and of the tilted axis. -/
noncomputable def equationOfTime (d : ℝ) : ℝ :=
  -(7.66 * Real.sin (degToRad (0.9856 * d - 2.72))
    + 9.87 * Real.sin (2 * degToRad (0.9856 * d - 2.72) + degToRad 24.99 + degToRad 3.83 * Real.sin (degToRad (0.9856 * d - 2.72))))

/-- How much the sunlight of the day `n` days after the first of January exceeds the annual mean (Spencer). -/
noncomputable def nearness (n : ℝ) : ℝ :=
  1.00011 + 0.034221 * Real.cos (2 * Real.pi * n / 365) + 0.00128 * Real.sin (2 * Real.pi * n / 365)
    + 0.000719 * Real.cos (4 * Real.pi * n / 365) + 0.000077 * Real.sin (4 * Real.pi * n / 365)

theorem solRow_values {lat : ℝ} {j : Nat} {row : SolRow ℝ} (h : solRow lat j = .ok row) :
    row.tcorr = equationOfTime (j + 1) / 4 ∧ row.eccorr = nearness j ∧ row.soldec = solDec j := by
  unfold solRow at h
  simp only [bind_eq_ok] at h
  obtain ⟨_, _, h⟩ := h
  rw [pure_eq_ok] at h
  subst h
  have hr : ∀ x : ℝ, radians x = degToRad x := fun x => by
    unfold radians degToRad
    rw [show (180.0 : ℝ) = 180 by norm_num]; rfl
  have hx : (0.9856 * ((j : ℝ) + 1.0) - 2.72 : ℝ) = 0.9856 * ((j : ℝ) + 1) - 2.72 := by norm_num
  have h2 : (2.0 : ℝ) = 2 := by norm_num
  have h365 : (365.0 : ℝ) = 365 := by norm_num
  refine ⟨?_, ?_, rfl⟩
  · simp only [hr, hx, h2]
    show (-7.66 * Real.sin _ - 9.87 * Real.sin (_ + _ * Real.sin _)) * 15.0 / 60.0 = _
    unfold equationOfTime
    generalize Real.sin (degToRad (0.9856 * ((j : ℝ) + 1) - 2.72)) = a
    generalize Real.sin (2 * degToRad (0.9856 * ((j : ℝ) + 1) - 2.72) + degToRad 24.99 + degToRad 3.83 * a) = b
    norm_num
    ring
  · simp only [h2, h365]
    show 1.00011 + 0.034221 * Real.cos (2 * Real.pi * (j : ℝ) / 365) + 0.00128 * Real.sin (2 * Real.pi * (j : ℝ) / 365)
      + 0.000719 * Real.cos (2 * (2 * Real.pi * (j : ℝ) / 365)) + 0.000077 * Real.sin (2 * (2 * Real.pi * (j : ℝ) / 365)) = _
    unfold nearness
    rw [show 2 * (2 * Real.pi * (j : ℝ) / 365) = 4 * Real.pi * (j : ℝ) / 365 by ring]

/-- **C63, solar parameters.** The entry of every day of the year, counted from 1, holds a quarter degree for each minute of the equation
of time of that day and the nearness of the sun; day 366 repeats day 365. -/
theorem C63_parameters {lat : ℝ} {rows : List (SolRow ℝ)} (h : solpars lat = .ok rows) {d : Nat} (h1 : 1 ≤ d) (h366 : d ≤ 366) :
    ∃ row, rows[d - 1]? = some row ∧ row.tcorr = equationOfTime (min d 365 : Nat) / 4 ∧ row.eccorr = nearness ((min d 365 - 1 : Nat)) ∧
      |row.tcorr| ≤ 4.3825 := by
  unfold solpars at h
  simp only [bind_eq_ok] at h
  obtain ⟨rs, hrs, last, hlast, h⟩ := h
  rw [pure_eq_ok] at h
  subst h
  rw [mapM_eq_ok_iff] at hrs
  have hl : rs.length = 365 := by rw [← hrs.length_eq, List.length_range]
  have hget : ∀ j, j < 365 → ∃ row, rs[j]? = some row ∧ solRow lat j = .ok row := by
    intro j hj
    have hj' : j < rs.length := by omega
    refine ⟨rs[j], List.getElem?_eq_getElem hj', ?_⟩
    have := hrs.get (i := j) (by simpa using hj) hj'
    simpa using this
  have hlast' : rs[364]? = some last := by
    obtain ⟨k, hk, hx⟩ := pyGet_eq_ok.1 hlast
    simp [normIdx, hl] at hk
    subst hk; exact hx
  have hbound : ∀ {t x : ℝ}, t = equationOfTime x / 4 → |t| ≤ 4.3825 := by
    intro t x ht
    rw [ht, abs_le]
    unfold equationOfTime
    have a1 := Real.neg_one_le_sin (degToRad (0.9856 * x - 2.72))
    have a2 := Real.sin_le_one (degToRad (0.9856 * x - 2.72))
    generalize Real.sin (degToRad (0.9856 * x - 2.72)) = a at *
    have b1 := Real.neg_one_le_sin (2 * degToRad (0.9856 * x - 2.72) + degToRad 24.99 + degToRad 3.83 * a)
    have b2 := Real.sin_le_one (2 * degToRad (0.9856 * x - 2.72) + degToRad 24.99 + degToRad 3.83 * a)
    generalize Real.sin (2 * degToRad (0.9856 * x - 2.72) + degToRad 24.99 + degToRad 3.83 * a) = b at *
    constructor <;> norm_num <;> linarith
  have hmain : ∃ row, (rs ++ [last])[d - 1]? = some row ∧ solRow lat (min d 365 - 1) = .ok row := by
    rcases Nat.lt_or_ge d 366 with hd | hd
    · obtain ⟨row, hr, hrow⟩ := hget (d - 1) (by omega)
      refine ⟨row, ?_, by rw [Nat.min_eq_left (by omega)]; exact hrow⟩
      rw [List.getElem?_append_left (by omega)]; exact hr
    · obtain rfl : d = 366 := by omega
      obtain ⟨row, hr, hrow⟩ := hget 364 (by omega)
      rw [hlast'] at hr
      cases hr
      refine ⟨last, ?_, hrow⟩
      rw [List.getElem?_append_right (by omega), hl]; rfl
  obtain ⟨row, hr, hrow⟩ := hmain
  obtain ⟨ht, he, _⟩ := solRow_values hrow
  have hc : ((min d 365 - 1 : Nat) : ℝ) + 1 = ((min d 365 : Nat) : ℝ) := by
    have : min d 365 - 1 + 1 = min d 365 := by omega
    exact_mod_cast this
  rw [hc] at ht
  exact ⟨row, hr, ht, he, hbound ht⟩

/-! Examples: three-hourly steps at the end of a leap year, and a station at 46.8° north and one at 78° north. -/

example : (3 : Nat) ∣ 24 ∧ lutRead 10800 366 23 = 2927 ∧ lutSize 10800 = 2928 := by
  refine ⟨by decide, ?_, ?_⟩
  · rw [show 10800 = 3600 * 3 from rfl, lutRead_eq (m := 8) rfl _ _ (by norm_num)]; norm_num
  · rw [show 10800 = 3600 * 3 from rfl, lutSize_eq (m := 8) rfl]; norm_num

example : |(46.8 : ℝ) * Real.pi / 180| ≤ Real.pi / 2 - 0.4108 := by
  have := Real.pi_gt_three
  rw [abs_of_pos (by positivity)]
  norm_num at *; linarith

example : ∃ rows, solpars (0 : ℝ) = .ok rows ∧ rows.length = 366 :=
  C63_solpars_ok (by have := Real.pi_gt_three; simp only [zero_mul, zero_div, abs_zero]; norm_num at *; linarith)

example : Real.pi / 2 - 0.4092 < |(78 : ℝ) * Real.pi / 180| ∧ |(78 : ℝ) * Real.pi / 180| < Real.pi / 2 := by
  have := Real.pi_gt_three
  have := Real.pi_lt_four
  rw [abs_of_pos (by positivity)]
  constructor <;> norm_num at * <;> linarith

end Cosipy
