import Verif.Model.RecordTime
import Verif.Props.C62
import Verif.Props.C64
import Verif.Props.C77

/-!
# C134 The sun belongs to the time of the record

Both radiation modules place the sun by the day of the year and the hour of a time stamp. The day is right for every date
(`C134_calendar`). `C134_full_hours_partial`: for records at full hours the module Wohlfahrt2016 uses the sun of the record's own time.
Otherwise it does not: the minutes are dropped (`C134_minutes`, `C134_sunrise_refuted`); a value aggregated over an interval is corrected with the sun
at the beginning of the interval, up to one step too early (`C134_interval`), so that a daily value is corrected with the sun at midnight and the slope
has no influence (`C134_daily_refuted`). The module Moelg2009 takes the sun in the middle of the step *before* the time stamp (`C134_moelg`), while
aggregated values belong to the step *after* it (`C134_moelg_refuted`).
-/

set_option autoImplicit false
set_option linter.unusedSectionVars false

namespace Cosipy
open Aws RadCor

/-! ## The calendar, independently of the code -/

/-- A year has 366 days if it is divisible by 4, but not by 100, or by 400. -/
def LeapYear (y : Int) : Prop := 4 ∣ y ∧ (¬ 100 ∣ y ∨ 400 ∣ y)

/-- Days of a year. -/
def YearDays (y n : Int) : Prop := (LeapYear y → n = 366) ∧ (¬ LeapYear y → n = 365)

/-- Days from 1970-01-01 to the first of January of a year: it moves on by the length of every year. -/
def YearBegins (start : Int → Int) : Prop := start 1970 = 0 ∧ ∀ y n, YearDays y n → start (y + 1) = start y + n

/-- Hours since midnight. -/
noncomputable def timeOfDay (t : Int) : ℝ := ((t % 86400 : Int) : ℝ) / 3600

/-- Explicit count of days. -/
def yearStart (y : Int) : Int := 365 * (y - 1) + (y - 1) / 4 - (y - 1) / 100 + (y - 1) / 400 - 719162

theorem yearStart_begins : YearBegins yearStart := by
  refine ⟨by decide, fun y n h => ?_⟩
  unfold YearDays LeapYear at h
  unfold yearStart
  by_cases hl : 4 ∣ y ∧ (¬ 100 ∣ y ∨ 400 ∣ y)
  · rw [h.1 hl]; omega
  · rw [h.2 hl]; omega

theorem yearBegins_unique {start : Int → Int} (h : YearBegins start) (y : Int) : start y = yearStart y := by
  have hy : ∀ y, ∃ n, YearDays y n := fun y => by
    unfold YearDays
    by_cases hl : LeapYear y
    · exact ⟨366, fun _ => rfl, fun h => absurd hl h⟩
    · exact ⟨365, fun h => absurd h hl, fun _ => rfl⟩
  have up : ∀ k : Nat, start (1970 + k) = yearStart (1970 + k) := by
    intro k
    induction k with
    | zero => simpa [h.1] using yearStart_begins.1.symm
    | succ k ih =>
      obtain ⟨n, hn⟩ := hy (1970 + k)
      have e1 := h.2 _ n hn
      have e2 := yearStart_begins.2 _ n hn
      push_cast
      rw [← add_assoc, e1, e2, ih]
  have down : ∀ k : Nat, start (1970 - k) = yearStart (1970 - k) := by
    intro k
    induction k with
    | zero => simpa [h.1] using yearStart_begins.1.symm
    | succ k ih =>
      obtain ⟨n, hn⟩ := hy (1970 - (k + 1))
      have e1 := h.2 _ n hn
      have e2 := yearStart_begins.2 _ n hn
      rw [show (1970 - ((k : Int) + 1) + 1) = 1970 - k by ring] at e1 e2
      push_cast
      linarith
  rcases le_total 1970 y with hy | hy
  · have := up (y - 1970).toNat
    rwa [show (1970 + ((y - 1970).toNat : Int)) = y by omega] at this
  · have := down (1970 - y).toNat
    rwa [show (1970 - ((1970 - y).toNat : Int)) = y by omega] at this

/-- **C134, calendar.** However far from the present: at any second of the (k+1)-th day of a year the day of the year is k + 1. -/
theorem C134_calendar {start : Int → Int} (h : YearBegins start) {y n k s : Int} (hn : YearDays y n) (hk : 0 ≤ k) (hkn : k < n)
    (hs : 0 ≤ s) (hs' : s < 86400) : (dayOfYear ((start y + k) * 86400 + s) : Int) = k + 1 := by
  rw [yearBegins_unique h]
  unfold dayOfYear
  have e : ((yearStart y + k) * 86400 + s) / 86400 = yearStart y + k := by omega
  rw [e]
  unfold yearStart
  have hq : ∃ a b c d : Int, y - 1 = 400 * a + 100 * b + 4 * c + d ∧ 0 ≤ b ∧ b < 4 ∧ 0 ≤ c ∧ c < 25 ∧ 0 ≤ d ∧ d < 4 :=
    ⟨(y - 1) / 400, (y - 1) % 400 / 100, (y - 1) % 100 / 4, (y - 1) % 4, by omega, by omega, by omega, by omega, by omega, by omega, by omega⟩
  obtain ⟨a, b, c, d, hy, hb, hb', hc, hc', hd, hd'⟩ := hq
  have hlen : k < 365 ∨ (k = 365 ∧ d = 3 ∧ (c ≠ 24 ∨ b = 3)) := by
    by_cases hl : LeapYear y
    · have := hn.1 hl
      unfold LeapYear at hl
      omega
    · have := hn.2 hl
      omega
  have e4 : (y - 1) / 4 = 100 * a + 25 * b + c := by omega
  have e100 : (y - 1) / 100 = 4 * a + b := by omega
  have e400 : (y - 1) / 400 = a := by omega
  have em : (365 * (y - 1) + (y - 1) / 4 - (y - 1) / 100 + (y - 1) / 400 - 719162 + k + 719162) % 146097 =
      36524 * b + 1461 * c + 365 * d + k := by
    rw [e4, e100, e400, hy]; omega
  dsimp only
  rw [em]
  clear em e e4 e100 e400 hn
  have hm : (36524 * b + 1461 * c + 365 * d + k) / 36524 = 4 ∨ ((36524 * b + 1461 * c + 365 * d + k) / 36524 ≠ 4 ∧
      (36524 * b + 1461 * c + 365 * d + k) % 36524 = 1461 * c + 365 * d + k) := by omega
  rcases hm with hm | ⟨hm, hm'⟩
  · rw [if_pos (Or.inl hm)]; omega
  · rw [hm']
    have h3 : (1461 * c + 365 * d + k) % 1461 = 365 * d + k := by omega
    rw [h3]
    split_ifs with h4
    · omega
    · omega

/-- The hour and the rest. -/
theorem hourOfDay_eq (t : Int) : (hourOfDay t : Int) * 3600 + t % 3600 = t % 86400 := by
  unfold hourOfDay
  omega

/-- **C134, minutes.** The sun used for a record is that of the last full hour: between 0 and 1 hours before the record, and exactly at the record
if it was taken at a full hour. -/
theorem C134_minutes (t : Int) : (hourOfDay t : ℝ) = timeOfDay t - ((t % 3600 : Int) : ℝ) / 3600 ∧
    (hourOfDay t : ℝ) ≤ timeOfDay t ∧ timeOfDay t < (hourOfDay t : ℝ) + 1 ∧ ((hourOfDay t : ℝ) = timeOfDay t ↔ 3600 ∣ t) := by
  have e : (hourOfDay t : ℝ) * 3600 + ((t % 3600 : Int) : ℝ) = ((t % 86400 : Int) : ℝ) := by exact_mod_cast hourOfDay_eq t
  have h0 : (0 : ℝ) ≤ ((t % 3600 : Int) : ℝ) := by exact_mod_cast Int.emod_nonneg t (by decide)
  have h1 : ((t % 3600 : Int) : ℝ) < 3600 := by exact_mod_cast Int.emod_lt_of_pos t (by decide : (0 : Int) < 3600)
  unfold timeOfDay
  refine ⟨by linarith, by linarith, by linarith, ?_⟩
  rw [Int.dvd_iff_emod_eq_zero]
  constructor
  · intro h
    have : ((t % 3600 : Int) : ℝ) = 0 := by linarith
    exact_mod_cast this
  · intro h
    rw [h] at e
    push_cast at e
    linarith

/-- All records of an hour get the same sun, and of a day the same day, in any arithmetic: equal values are corrected equally. -/
theorem C134_same_hour {α : Type} [Add α] [Sub α] [Mul α] [Div α] [Neg α] [LT α] [DecidableLT α] [BEq α] [Zero α] [OfScientific α]
    [NatCast α] [Transc α] [InvTrig α] {t t' : Int} (h : t / 3600 = t' / 3600) (lat lon tz thld : α) (s : Static α) (g : α) :
    wohlfahrt lat lon tz thld s t g = wohlfahrt lat lon tz thld s t' g := by
  have e1 : dayOfYear t = dayOfYear t' := by
    unfold dayOfYear
    rw [show t / 86400 = t' / 86400 by omega]
  have e2 : hourOfDay t = hourOfDay t' := by
    unfold hourOfDay
    rw [show t % 86400 / 3600 = t' % 86400 / 3600 by omega]
  unfold wohlfahrt
  rw [e1, e2]

/-! ## What is written -/

/-- The radiation of a cell at a time: what `correctRadiation` gives for the sun of that time of that day, not below zero. -/
def RadiationAt (lat lon tz thld slope aspect : ℝ) (t : Int) (g : ℝ) (x : Option ℝ) : Prop :=
  ∃ r, correctRadiation lat lon tz (dayOfYear t : ℝ) (timeOfDay t) slope (aspect - 180) g thld = .ok r ∧ x = some (max 0 r)

/-- **C134, full hours.** Records at full hours: the radiation written for a glacier cell is the measured one corrected for the sun at the time of
the record. Missing: records at other times and aggregated values, for which it is false. -/
theorem C134_full_hours_partial {nm : Names} {c : Cfg ℝ} {df : Frame ℝ} {lat lon tz thld slope aspect : ℝ} {s : Static ℝ}
    {ds : Store (List (Option ℝ))} (hm : s.mask = some 1) (hsl : s.slope = some slope) (has : s.aspect = some aspect)
    (hf : ∀ t ∈ df.index, 3600 ∣ t)
    (h : createCell nm c df (fun s => some (wohlfahrt lat lon tz thld s)) s = .ok ds) :
    ∃ gs xs, df.cols nm.g = some gs ∧ ds "G" = some xs ∧
      List.Forall₂ (fun p x => ∀ g, p.2 = some g → RadiationAt lat lon tz thld slope aspect p.1 g x) (df.index.zip gs) xs := by
  unfold createCell at h
  simp only [bind_eq_ok] at h
  obtain ⟨g, hg, sw, hsw, vs, hv, _, hc, h⟩ := h
  rw [pure_eq_ok] at h
  cases h
  unfold cellVars at hv
  simp only [bind_eq_ok] at hv
  obtain ⟨t2, -, rh, -, u2, -, p, -, hv⟩ := hv
  rw [pure_eq_ok] at hv
  have eG : ds "G" = _ := (congrFun hv "G").symm
  clear hv
  simp only at eG
  have hg' : df.cols nm.g = some g := by
    unfold getCol at hg
    cases e : df.cols nm.g with
    | none => rw [e] at hg; cases hg
    | some x => rw [e] at hg; cases hg; rfl
  refine ⟨g, sw, hg', eG, ?_⟩
  unfold cellRadiation at hsw
  rw [mapM_eq_ok_iff] at hsw
  rw [List.forall₂_iff_get] at hsw ⊢
  refine ⟨hsw.1, fun i h1 h2 => ?_⟩
  have hi := hsw.2 i h1 h2
  have ht : ((df.index.zip g).get ⟨i, h1⟩).1 ∈ df.index := (List.of_mem_zip (List.get_mem _ ⟨i, h1⟩)).1
  generalize (df.index.zip g).get ⟨i, h1⟩ = q at hi ht ⊢
  generalize sw.get ⟨i, h2⟩ = x at hi ⊢
  obtain ⟨t, y⟩ := q
  rintro v hv
  dsimp only at hv ht hi ⊢
  subst hv
  unfold cellRadiationAt at hi
  rw [hm] at hi
  simp only [BEq.rfl, if_true, bind_eq_ok, pure_eq_ok] at hi
  obtain ⟨r, hr, hx⟩ := hi
  unfold wohlfahrt at hr
  rw [hsl, has] at hr
  dsimp only at hr
  rw [((C134_minutes t).2.2.2).2 (hf t ht)] at hr
  refine ⟨r, ?_, ?_⟩
  · rw [← hr]; norm_num
  · rw [← hx]
    have e0 : (0.0 : ℝ) = 0 := by norm_num
    rw [e0]
    split_ifs with hn
    · rw [max_eq_left hn.le]
    · rw [max_eq_right (not_lt.1 hn)]

/-- **C134 refuted, minutes.** On the equator at half past six on any day: the sun of the record has risen, the sun used stands exactly on the horizon.
The correction then divides by zero: a record of that hour cannot be prepared. -/
theorem C134_sunrise_refuted (lon tz thld slope aspect g : ℝ) (d : Int) :
    let t := d * 86400 + 23400
    (∃ b z a, solarFParallel 0 lon tz (dayOfYear t : ℝ) (hourOfDay t : ℝ) = .ok (b, z, a) ∧ b = 0) ∧
    (∃ b z a, solarFParallel 0 lon tz (dayOfYear t : ℝ) (timeOfDay t) = .ok (b, z, a) ∧ 0 < b) ∧
    wohlfahrt 0 lon tz thld ⟨none, some 1, some slope, some aspect⟩ t g = .error .zeroDiv := by
  intro t
  have hh : hourOfDay t = 6 := by unfold hourOfDay; omega
  have ht : timeOfDay t = 6.5 := by
    unfold timeOfDay
    rw [show t % 86400 = 23400 by omega]
    norm_num
  have hc : Real.cos (phi 0) ≠ 0 := by unfold phi; rw [zero_mul, Real.cos_zero]; norm_num
  have p0 : phi 0 = 0 := by unfold phi; ring
  have key : ∀ hr : ℝ, ∃ b z a, solarFParallel 0 lon tz (dayOfYear t : ℝ) hr = .ok (b, z, a) ∧ -(Real.pi / 2) ≤ b ∧ b ≤ Real.pi / 2 ∧
      b + z = Real.pi / 2 ∧ Real.sin b = Real.cos (declination (dayOfYear t : ℝ)) * Real.cos (clockAngle hr) := by
    intro hr
    obtain ⟨b, z, a, e, h1, h2, h3, h4⟩ := C62_elevation_partial (day := (dayOfYear t : ℝ)) (hour := hr) lon tz hc
    refine ⟨b, z, a, e, h1, h2, h3, ?_⟩
    rw [h4]; unfold sinElevation; rw [p0]; simp
  have c6 : Real.cos (clockAngle 6) = 0 := by
    unfold clockAngle
    rw [show (15 : ℝ) * (Real.pi / 180) * (6 - 12) = -(Real.pi / 2) by ring, Real.cos_neg, Real.cos_pi_div_two]
  have c65 : 0 < Real.cos (clockAngle 6.5) := by
    apply Real.cos_pos_of_mem_Ioo
    unfold clockAngle
    have := Real.pi_pos
    constructor <;> linarith
  have z6 : ∃ b z a, solarFParallel 0 lon tz (dayOfYear t : ℝ) 6 = .ok (b, z, a) ∧ b = 0 ∧ z = Real.pi / 2 := by
    obtain ⟨b, z, a, e, h1, h2, h3, h4⟩ := key 6
    rw [c6, mul_zero] at h4
    have hb : b = 0 := by
      have := Real.arcsin_sin h1 h2
      rw [h4, Real.arcsin_zero] at this
      exact this.symm
    exact ⟨b, z, a, e, hb, by linarith⟩
  have e6 : ((hourOfDay t : Nat) : ℝ) = 6 := by rw [hh]; norm_num
  rw [e6, ht]
  refine ⟨?_, ?_, ?_⟩
  · obtain ⟨b, z, a, e, hb, -⟩ := z6
    exact ⟨b, z, a, e, hb⟩
  · obtain ⟨b, z, a, e, h1, h2, h3, h4⟩ := key 6.5
    refine ⟨b, z, a, e, ?_⟩
    have hp : 0 < Real.sin b := by rw [h4]; exact mul_pos (cos_declination_pos _) c65
    by_contra hb
    have := Real.sin_nonpos_of_nonpos_of_neg_pi_le (not_lt.1 hb) (by linarith [Real.pi_pos])
    linarith
  · unfold wohlfahrt
    dsimp only
    rw [e6]
    obtain ⟨b, z, a, e, -, hz⟩ := z6
    unfold correctRadiation
    rw [e, ok_bind]
    exact C56_horizon (by rw [hz, Real.cos_pi_div_two])

/-! ## Aggregated values -/

/-- **C134, intervals.** With a step of whole hours that divides the day the sun used for an aggregated value is that at the beginning of the interval:
before every record in it, by up to one step. -/
theorem C134_interval {step : Int} (hs : 0 < step) (hh : 3600 ∣ step) (hd : step ∣ 86400) {times : List Int} {t : Int} (ht : t ∈ times) :
    ∃ b ∈ bins step times, (hourOfDay b : ℝ) = timeOfDay b ∧ b ≤ t ∧ t < b + step := by
  obtain ⟨b, hb, h1, h2, -⟩ := (C64_bins hs times).1 t ht
  exact ⟨b, hb, ((C134_minutes b).2.2.2).2 (hh.trans (C64_clock hd hb)), h1, h2⟩

/-- The sun stands lower at midnight than at any other time, and below the horizon wherever it sets. -/
theorem midnight_low (lat day : ℝ) : sinElevation (phi lat) (declination day) (clockAngle 0) =
    -Real.cos (phi lat + declination day) := by
  unfold sinElevation clockAngle
  rw [show (15 : ℝ) * (Real.pi / 180) * (0 - 12) = -Real.pi by ring, Real.cos_neg, Real.cos_pi, Real.cos_add]
  ring

/-- **C134 refuted, daily values.** Station data aggregated to days: outside the zone of the midnight sun, and with a threshold of at most 90°, slope and aspect of a cell have
no influence; every cell gets the radiation of the station. -/
theorem C134_daily_refuted {times : List Int} {b : Int} (hb : b ∈ bins 86400 times) {lat lon tz thld slope aspect g : ℝ} {hgt : Option ℝ}
    (hp : Real.cos (phi lat) ≠ 0) (hset : 0 < Real.cos (phi lat + declination (dayOfYear b : ℝ))) (hthld : thld ≤ 90) :
    wohlfahrt lat lon tz thld ⟨hgt, some 1, some slope, some aspect⟩ b g = .ok g := by
  have h0 : 86400 ∣ b := C64_clock (dvd_refl _) hb
  have hh : hourOfDay b = 0 := by unfold hourOfDay; omega
  unfold wohlfahrt
  dsimp only
  rw [hh, Nat.cast_zero]
  have hlow := midnight_low lat (dayOfYear b : ℝ)
  refine C62_low_sun hp ?_ ?_
  · rw [hlow]; linarith
  · rw [hlow]
    have h1 : Real.arcsin (-Real.cos (phi lat + declination (dayOfYear b : ℝ))) < 0 := Real.arcsin_lt_zero.2 (by linarith)
    have h2 : thld * Real.pi / 180 ≤ Real.pi / 2 := by nlinarith [Real.pi_pos]
    linarith

/-! ## Moelg2009 -/

/-- Hour angle of the sun in degrees (positive before noon) at a clock time in hours, with the corrections of the module. -/
def clockHourAngle (h tcorr tcart : ℝ) : ℝ := 180 - 15 * h - tcorr + tcart

/-- **C134, Moelg2009.** The sun used for a time stamp is the one half a step earlier: the middle of the step that ends there. -/
theorem C134_moelg (step h tcorr tcart : ℝ) : radHourAngle step h tcorr tcart = clockHourAngle (h - step / 3600 / 2) tcorr tcart := by
  unfold radHourAngle clockHourAngle
  norm_num
  ring

/-- The table of shadows is filled for the same sun when the step is an hour. -/
theorem C134_moelg_shade (h tcorr tcart : ℝ) : lutHourAngle h tcorr tcart = radHourAngle 3600 h tcorr tcart := by
  unfold lutHourAngle radHourAngle
  norm_num

/-- The radiation of a record is computed with that hour angle and the row of its day. -/
theorem C134_moelg_used {vapour : ℝ → ℝ → ℝ → ℝ} {rows : List (SolRow ℝ)} {t : Int} {lat tcart : ℝ} {ny step : Nat} {g : RadGrids ℝ}
    {shad : List (Nat → Nat → Option ℝ)} {out : Nat → Nat → Option ℝ}
    (h : moelgAt vapour rows t lat ny g shad step tcart = .ok out) (hf : 3600 ∣ t) :
    ∃ row illu, pyGet rows ((dayOfYear t : Int) - 1) = .ok row ∧ ∀ i j, out i j = radCell row.soldec row.eccorr lat
      (clockHourAngle (timeOfDay t - (step : ℝ) / 3600 / 2) row.tcorr tcart) ((g.flip ny).cell vapour illu (ny - 1 - i) j) := by
  unfold moelgAt moelgRadiation calcRad at h
  rw [bind_eq_ok] at h
  obtain ⟨row, hr, h⟩ := h
  dsimp only at h
  rw [C134_moelg, ((C134_minutes t).2.2.2).2 hf] at h
  split_ifs at h
  · rw [bind_eq_ok] at h
    obtain ⟨illu, -, h⟩ := h
    rw [pure_eq_ok] at h
    subst h
    exact ⟨row, illu, hr, fun i j => rfl⟩
  · rw [pure_eq_ok] at h
    subst h
    exact ⟨row, _, hr, fun i j => rfl⟩

/-- **C134 refuted, Moelg2009.** Aggregated station data with the aggregation step as the step of the module: the values of a time stamp belong to the step after it, its sun to the
middle of the step before it. Every record in the interval was taken at least half a step after the time whose sun is used, and the middle of the interval is a whole step later. -/
theorem C134_moelg_refuted {step : Nat} (hs : 0 < step) (hh : 3600 ∣ step) (hd : step ∣ 86400) {times : List Int} {t : Int} (ht : t ∈ times) :
    ∃ b ∈ bins (step : Int) times, b ≤ t ∧ t < b + step ∧ ∃ sun : ℝ,
      (∀ tcorr tcart, radHourAngle (step : ℝ) (hourOfDay b : ℝ) tcorr tcart = clockHourAngle (timeOfDay b + (sun - b) / 3600) tcorr tcart) ∧
      (step : ℝ) / 2 ≤ t - sun ∧ ((b : ℝ) + step / 2) - sun = step := by
  obtain ⟨b, hb, h1, h2, h3⟩ := C134_interval (step := step) (by exact_mod_cast hs) (by exact_mod_cast hh) (by exact_mod_cast hd) ht
  refine ⟨b, hb, h2, h3, (b : ℝ) - step / 2, fun tcorr tcart => ?_, ?_, by ring⟩
  · rw [C134_moelg, h1]
    congr 1
    ring
  · have : (b : ℝ) ≤ t := by exact_mod_cast h2
    linarith

/-! ## Examples -/

/-- 2024-12-31 is the 366th day, 2023-03-01 the 60th. -/
example : dayOfYear 1735603200 = 366 ∧ dayOfYear 1677628800 = 60 ∧ hourOfDay 1735606799 = 0 ∧ hourOfDay 1735606800 = 1 := by decide +kernel
example : YearBegins yearStart ∧ YearDays 2024 366 ∧ YearDays 1900 365 := by
  refine ⟨yearStart_begins, ?_, ?_⟩ <;> unfold YearDays LeapYear <;> omega
/-- 2023-06-21 at 12:00 is a full hour, at 12:10 it is not; both get the sun of noon. -/
example : (3600 : Int) ∣ 1687348800 ∧ ¬ (3600 : Int) ∣ 1687349400 ∧ hourOfDay 1687349400 = 12 := by decide +kernel
/-- Three-hourly values: the interval of 01:30 begins at midnight. -/
example : (0 : Int) < 10800 ∧ (3600 : Int) ∣ 10800 ∧ (10800 : Int) ∣ 86400 ∧ bins 10800 [5400, 12000] = [0, 10800] := by decide +kernel
/-- The hypotheses of `C134_daily_refuted` are met on the equator on every day. -/
example (day : ℝ) : Real.cos (phi 0) ≠ 0 ∧ 0 < Real.cos (phi 0 + declination day) ∧ (0 : Int) ∈ bins 86400 [0, 3600, 7200] := by
  have p0 : phi 0 = 0 := by unfold phi; ring
  refine ⟨by rw [p0, Real.cos_zero]; norm_num, by rw [p0, zero_add]; exact cos_declination_pos day, by decide +kernel⟩

end Cosipy
