import Verif.Lemmas.Stages
import Verif.Props.C73
import Verif.Props.C75
import Mathlib.Analysis.Complex.ExponentialBounds

/-!
# C80 Incoming longwave radiation

Measured values are used as they are. Without them the radiation from temperature, humidity and cloud fraction lies between the
clear-sky and the overcast value, rises with clouds and humidity and stays below black-body radiation of the air.
-/

set_option autoImplicit false
set_option linter.unusedSectionVars false

namespace Cosipy

/-- Clear-sky emissivity for vapour pressure `ea` (hPa) and temperature `t` (Konzelmann et al. 1994). -/
noncomputable def clearEmissivity (ea t : ℝ) : ℝ := 0.23 + 0.433 * (100 * ea / t) ^ (1 / 8 : ℝ)

/-- **C80, measured.** A measured value is used whatever the cloud fraction is; without value and without clouds the computation
raises. For any arithmetic. -/
theorem C80_measured {α : Type} [Add α] [Sub α] [Mul α] [Div α] [Neg α] [LT α] [LE α] [DecidableLT α] [DecidableLE α] [BEq α]
    [Zero α] [One α] [NatCast α] [OfScientific α] [∀ n, OfNat α n] [Transc α] (c : Consts α) (i : EbInput α) (ea : α) :
    (∀ l, i.lwin = some l → incomingLongwave c i ea = .ok l) ∧
    (i.lwin = none → i.n = none → incomingLongwave c i ea = .error .attribute) := by
  unfold incomingLongwave
  constructor
  · intro l h; rw [h]
  · intro h1 h2; rw [h1, h2]

theorem incomingLongwave_eq {c : Consts ℝ} {i : EbInput ℝ} {n : ℝ} (hl : i.lwin = none) (hn : i.n = some n) (ea : ℝ) :
    incomingLongwave c i ea = .ok ((clearEmissivity ea i.t2 * (1 - n ^ 2) + 0.984 * n ^ 2) * c.sigma * i.t2 ^ 4) := by
  unfold incomingLongwave
  rw [hl, hn]
  have e2 : Transc.pow n 2 = n ^ 2 := by
    show n ^ (2 : ℝ) = n ^ 2
    exact_mod_cast Real.rpow_natCast n 2
  have e4 : Transc.pow i.t2 4 = i.t2 ^ 4 := by
    show i.t2 ^ (4 : ℝ) = i.t2 ^ 4
    exact_mod_cast Real.rpow_natCast i.t2 4
  simp only [e2, e4]
  rfl

/-- **C80, clouds.** For cloud fractions between 0 and 1 the value lies between the clear-sky and the overcast value, is exactly
these for 0 and 1, and rises with the cloud fraction while the clear sky emits less than the overcast one. -/
theorem C80_clouds {c : Consts ℝ} {i : EbInput ℝ} {ea n li : ℝ} (hs : 0 ≤ c.sigma) (hl : i.lwin = none) (hn : i.n = some n)
    (h0 : 0 ≤ n) (h1 : n ≤ 1) (h : incomingLongwave c i ea = .ok li) :
    min (clearEmissivity ea i.t2) 0.984 * (c.sigma * i.t2 ^ 4) ≤ li ∧ li ≤ max (clearEmissivity ea i.t2) 0.984 * (c.sigma * i.t2 ^ 4) ∧
    (n = 0 → li = clearEmissivity ea i.t2 * (c.sigma * i.t2 ^ 4)) ∧ (n = 1 → li = 0.984 * (c.sigma * i.t2 ^ 4)) ∧
    (clearEmissivity ea i.t2 ≤ 0.984 → ∀ {m lm : ℝ}, n ≤ m → incomingLongwave c { i with n := some m } ea = .ok lm → li ≤ lm) := by
  rw [incomingLongwave_eq hl hn, ok_inj] at h
  have hk : 0 ≤ c.sigma * i.t2 ^ 4 := by positivity
  subst h
  have n2 : n ^ 2 ≤ 1 := by nlinarith
  have n0 : 0 ≤ n ^ 2 := sq_nonneg n
  rw [mul_assoc]
  refine ⟨?_, ?_, ?_, ?_, ?_⟩
  · apply mul_le_mul_of_nonneg_right _ hk
    rcases le_total (clearEmissivity ea i.t2) 0.984 with hc | hc
    · rw [min_eq_left hc]; nlinarith
    · rw [min_eq_right hc]; nlinarith
  · apply mul_le_mul_of_nonneg_right _ hk
    rcases le_total (clearEmissivity ea i.t2) 0.984 with hc | hc
    · rw [max_eq_right hc]; nlinarith
    · rw [max_eq_left hc]; nlinarith
  · rintro rfl; ring
  · rintro rfl; ring
  · intro hc m lm hm hlm
    rw [incomingLongwave_eq (i := { i with n := some m }) hl rfl, ok_inj] at hlm
    subst hlm
    simp only
    rw [mul_assoc _ c.sigma]
    apply mul_le_mul_of_nonneg_right _ hk
    have : n ^ 2 ≤ m ^ 2 := by nlinarith
    nlinarith

/-- **C80, humidity.** More vapour in the same air never lowers the value. -/
theorem C80_humidity {c : Consts ℝ} {i : EbInput ℝ} {ea ea' n li li' : ℝ} (hs : 0 ≤ c.sigma) (ht : 0 < i.t2) (hl : i.lwin = none)
    (hn : i.n = some n) (h0 : 0 ≤ n) (h1 : n ≤ 1) (he : 0 ≤ ea) (hee : ea ≤ ea') (h : incomingLongwave c i ea = .ok li)
    (h' : incomingLongwave c i ea' = .ok li') : li ≤ li' := by
  rw [incomingLongwave_eq hl hn, ok_inj] at h h'
  subst h; subst h'
  have hk : 0 ≤ c.sigma * i.t2 ^ 4 := by positivity
  have n2 : n ^ 2 ≤ 1 := by nlinarith
  have hmono : clearEmissivity ea i.t2 ≤ clearEmissivity ea' i.t2 := by
    unfold clearEmissivity
    have : (100 * ea / i.t2) ^ (1 / 8 : ℝ) ≤ (100 * ea' / i.t2) ^ (1 / 8 : ℝ) :=
      Real.rpow_le_rpow (by positivity) (by gcongr) (by norm_num)
    gcongr
  rw [mul_assoc, mul_assoc _ c.sigma]
  apply mul_le_mul_of_nonneg_right _ hk
  nlinarith

/-- The clear sky emits less than the overcast one if the vapour pressure (hPa) is at most 4/5 of the temperature (K). -/
theorem clearEmissivity_le {ea t : ℝ} (ht : 0 < t) (he : 0 ≤ ea) (h : ea ≤ 0.8 * t) :
    0.23 ≤ clearEmissivity ea t ∧ clearEmissivity ea t ≤ 0.984 := by
  unfold clearEmissivity
  have hq : 100 * ea / t ≤ 80 := by rw [div_le_iff₀ ht]; norm_num at h ⊢; linarith
  have hq0 : 0 ≤ 100 * ea / t := by positivity
  have h8 : (100 * ea / t) ^ (1 / 8 : ℝ) ≤ 1.73 := by
    calc (100 * ea / t) ^ (1 / 8 : ℝ) ≤ (1.73 ^ (8 : ℝ)) ^ (1 / 8 : ℝ) :=
          Real.rpow_le_rpow hq0 (hq.trans (by norm_num)) (by norm_num)
      _ = 1.73 := by rw [← Real.rpow_mul (by norm_num)]; norm_num
  have h0 : 0 ≤ (100 * ea / t) ^ (1 / 8 : ℝ) := by positivity
  constructor
  · nlinarith
  · norm_num at h8 ⊢; linarith

/-- Saturation pressure within the range of temperatures that the program accepts without warning (up to 40 degrees): below
125 hPa. -/
theorem ew_bound {t : ℝ} (h0 : 200 ≤ t) (h1 : t ≤ 313.16) : 0 ≤ methodEWSonntag t ∧ methodEWSonntag t ≤ 125 := by
  have hpos : 0 ≤ methodEWSonntag t := by
    rcases lt_or_ge t 273.16 with h | h
    · rw [ew_ice h]; positivity
    · rw [ew_water h]; positivity
  refine ⟨hpos, ?_⟩
  have hm := C75_saturation.2.1
  have : methodEWSonntag t ≤ methodEWSonntag 313.16 := hm.monotoneOn (by show (0.55 : ℝ) < t; norm_num; linarith)
    (by show (0.55 : ℝ) < 313.16; norm_num) h1
  refine this.trans ?_
  rw [ew_water (by norm_num)]
  have e : (17.67 * ((313.16 : ℝ) - 273.16)) / (313.16 - 29.66) ≤ 2.8 := by norm_num
  have h1 := Real.exp_le_exp.2 e
  have h2 : Real.exp 2.8 ≤ 2.7182818286 ^ (3 : ℝ) := by
    have : Real.exp 2.8 = (Real.exp 1) ^ (2.8 : ℝ) := by rw [← Real.exp_mul]; norm_num
    rw [this]
    calc (Real.exp 1) ^ (2.8 : ℝ) ≤ (Real.exp 1) ^ (3 : ℝ) :=
          Real.rpow_le_rpow_of_exponent_le (Real.one_le_exp (by norm_num)) (by norm_num)
      _ ≤ _ := Real.rpow_le_rpow (Real.exp_pos 1).le Real.exp_one_lt_d9.le (by norm_num)
  have h3 : (2.7182818286 : ℝ) ^ (3 : ℝ) ≤ 20.09 := by
    rw [show (3 : ℝ) = ((3 : ℕ) : ℝ) by norm_num, Real.rpow_natCast]; norm_num
  calc 6.112 * Real.exp ((17.67 * ((313.16 : ℝ) - 273.16)) / (313.16 - 29.66)) ≤ 6.112 * 20.09 := by
        have := h1.trans (h2.trans h3)
        gcongr
    _ ≤ 125 := by norm_num

/-- **C80, range.** In every flux computation with air between 200 K and 313.16 K, humidity between 0 and 100 % and cloud fraction
between 0 and 1 the radiation from clouds is between 0.23 and 0.984 of black-body radiation of the air. -/
theorem C80_range {c : Consts ℝ} {wrf : Bool} {g : Grid ℝ} {i : EbInput ℝ} {t n : ℝ} {fl : Fluxes ℝ} (hs : 0 ≤ c.sigma)
    (hl : i.lwin = none) (hn : i.n = some n) (h0 : 0 ≤ n) (h1 : n ≤ 1) (ht0 : 200 ≤ i.t2) (ht1 : i.t2 ≤ 313.16) (hr0 : 0 ≤ i.rh2)
    (hr1 : i.rh2 ≤ 100) (h : ebFluxes c wrf g i t = .ok fl) :
    0.23 * (c.sigma * i.t2 ^ 4) ≤ fl.li ∧ fl.li ≤ 0.984 * (c.sigma * i.t2 ^ 4) := by
  obtain ⟨_, _, _, _, hli, _⟩ := ebFluxes_parts h
  obtain ⟨w0, w1⟩ := ew_bound ht0 ht1
  have he : 0 ≤ i.rh2 * methodEWSonntag i.t2 / 100 := by positivity
  have he' : i.rh2 * methodEWSonntag i.t2 / 100 ≤ 0.8 * i.t2 := by
    rw [div_le_iff₀ (by norm_num)]
    norm_num
    nlinarith
  obtain ⟨e0, e1⟩ := clearEmissivity_le (by linarith) he he'
  obtain ⟨a, b, -⟩ := C80_clouds hs hl hn h0 h1 hli
  rw [min_eq_left e1] at a
  rw [max_eq_right e1] at b
  have hk : 0 ≤ c.sigma * i.t2 ^ 4 := by positivity
  exact ⟨(mul_le_mul_of_nonneg_right e0 hk).trans a, b⟩

/-- **C80, percent.** Outside the stated range nothing is checked: a cloud cover of 100 (percent instead of a fraction) gives more
than 300 times black-body radiation. -/
theorem C80_percent {c : Consts ℝ} {i : EbInput ℝ} {li : ℝ} (hs : 0 < c.sigma) (ht : 0 < i.t2) (hl : i.lwin = none)
    (hn : i.n = some 100) {ea : ℝ} (he : clearEmissivity ea i.t2 ≤ 0.95) (h : incomingLongwave c i ea = .ok li) :
    300 * (c.sigma * i.t2 ^ 4) < li := by
  rw [incomingLongwave_eq hl hn, ok_inj] at h
  subst h
  have hk : 0 < c.sigma * i.t2 ^ 4 := by positivity
  rw [mul_assoc]
  apply mul_lt_mul_of_pos_right _ hk
  norm_num at he ⊢
  linarith

/-- Non-vacuity: half cloudy air of 275 K, vapour pressure 5 hPa. -/
example (i : EbInput ℝ) : ∃ li, incomingLongwave (Consts.default ℝ) { i with t2 := 275, lwin := none, n := some (1 / 2) } 5 = .ok li ∧
    min (clearEmissivity 5 275) 0.984 * ((Consts.default ℝ).sigma * 275 ^ 4) ≤ li := by
  have h := incomingLongwave_eq (c := Consts.default ℝ) (i := { i with t2 := 275, lwin := none, n := some (1 / 2) }) (n := 1 / 2)
    rfl rfl 5
  refine ⟨_, h, ?_⟩
  have hs : (0 : ℝ) ≤ (Consts.default ℝ).sigma := by simp only [Consts.default]; norm_num
  exact (C80_clouds hs rfl rfl (by norm_num) (by norm_num) h).1

/-- Non-vacuity of `C80_percent`: dry air. -/
example : clearEmissivity 0 275 ≤ 0.95 := by
  unfold clearEmissivity
  norm_num

/-- Non-vacuity of `C80_range`: an overcast winter day on one layer of snow. -/
example : ∃ fl, ebFluxes (Consts.default ℝ) false ⟨[⟨1/10, 268, 0, 1/2, 0⟩], 1, 0, 0, 0⟩
    ⟨3600, 2, 1/1000, 270, 60, 700, 3, 0, 10, 268, 268, none, some 1⟩ 268 = .ok fl ∧
    0.23 * ((Consts.default ℝ).sigma * 270 ^ 4) ≤ fl.li := by
  obtain ⟨fl, h⟩ := fluxes_return (c := Consts.default ℝ) (by simp [Consts.default]) (by simp [Consts.default]) (wrf := false)
    (g := ⟨[⟨1/10, 268, 0, 1/2, 0⟩], 1, 0, 0, 0⟩) (by simp)
    (i := ⟨3600, 2, 1/1000, 270, 60, 700, 3, 0, 10, 268, 268, none, some 1⟩) (Or.inr (by simp)) 268
  have hs : (0 : ℝ) ≤ (Consts.default ℝ).sigma := by simp only [Consts.default]; norm_num
  exact ⟨fl, h, (C80_range hs rfl rfl (by norm_num) (by norm_num) (by norm_num) (by norm_num) (by norm_num) (by norm_num) h).1⟩

end Cosipy
