import Verif.Props.C75
import Mathlib.Analysis.Complex.ExponentialBounds
import Mathlib.Topology.Order.IntermediateValue
import Mathlib.Topology.Algebra.Order.LiminfLimsup
import Mathlib.Tactic.FunProp
import Mathlib.Tactic.Continuity

/-!
# C104 The weather determines the surface temperature

The surface has no heat capacity: its temperature is the one at which the fluxes balance. In calm air there is exactly one such
temperature between two bounds at which the balance has different signs (`C104_calm_partial`). With wind and the Richardson
scheme the balance falls strictly where the air is nearly neutral or unstable (`C104_neutral`) and where exchange has
ceased (`C104_stable`), so each of these ranges holds at most one balanced temperature. But the stability factor jumps from 1 to 0.9025 at a
Richardson number of 0.01. If the turbulent fluxes heat the surface there, a solution exists (`C104_exists_partial`), but a
second one appears (`C104_two`): with the shipped constants and method, two columns that differ only in the temperature of
the top layer report different surface temperatures under the same weather (`C104_refuted`). If they cool the surface there, the balance can jump
over zero (`C104_none`): there is weather without any balanced temperature below the melting point, whatever
the method (`C104_none_refuted`). Exact real arithmetic.
-/

set_option autoImplicit false
set_option linter.unusedSectionVars false

namespace Cosipy
open Set

section
variable {c : Consts ℝ} {wrf : Bool} {g : Grid ℝ} {i : EbInput ℝ} {sw : ℝ} {R : ℝ → ℝ}

/-- Weather and settings of the Richardson scheme under which the balance is studied: physical constants, sensible
measurements, wind, a conducting surface and pressure above the saturation pressure at the melting point. -/
structure Windy (c : Consts ℝ) (g : Grid ℝ) (i : EbInput ℝ) : Prop where
  cooling : Cooling c i
  phys : c.Phys
  scheme : c.stabilityCorrection = .ri
  sane : SaneInput i
  melting : c.zeroTemperature ≤ 273.16
  conduct : ∀ top lam, g.node 0 = .ok top → top.thermalConductivity c = .ok lam → 0 ≤ lam
  pressure : methodEWSonntag c.zeroTemperature < i.p
  wind : 0 < i.u2

/-- The bulk Richardson number of the air over a surface of temperature `t`, written out. -/
noncomputable def richardson (i : EbInput ℝ) (t : ℝ) : ℝ := 9.81 * (i.t2 - t) * i.z / (i.t2 * i.u2 ^ 2)

theorem bulkRi_eq (h : i.u2 ≠ 0) (t : ℝ) : bulkRi i t = richardson i t := by
  unfold bulkRi
  have : (i.u2 == 0) = false := by simpa using h
  have e : Transc.pow i.u2 2 = i.u2 ^ 2 := Real.rpow_two _
  rw [this, e]
  rfl

theorem richardson_anti (hi : SaneInput i) (hu : 0 < i.u2) {a b : ℝ} (h : a < b) : richardson i b < richardson i a := by
  unfold richardson
  have hz : 0 < i.z := hi.z0.trans hi.z
  have hd : 0 < i.t2 * i.u2 ^ 2 := mul_pos hi.air (pow_pos hu 2)
  apply div_lt_div_of_pos_right _ hd
  apply mul_lt_mul_of_pos_right _ hz
  apply mul_lt_mul_of_pos_left _ (by norm_num)
  linarith

theorem richardson_cont : Continuous (richardson i) := by
  unfold richardson
  fun_prop

/-- The balance below the melting point: the radiation received, a part that falls strictly and without a jump as the
surface warms, and the turbulent exchange, which is a falling function without a jump times the stability factor. -/
theorem ri_split (hw : Windy c g i) (hR : Balance c wrf g i sw R) : ∃ (S D : ℝ → ℝ),
    (∀ t, 0.55 < t → t < c.zeroTemperature → R t = S t + riPhi (richardson i t) * D t) ∧
    (∀ a b, 0 ≤ a → a < b → S b < S a) ∧ Continuous S ∧
    (∀ a b, 0.55 < a → a ≤ b → b < c.zeroTemperature → D b ≤ D a) ∧
    ContinuousOn D (Ioo 0.55 c.zeroTemperature) ∧
    (∀ t fl, 0.55 < t → t < c.zeroTemperature → ebFluxes c wrf g i t = .ok fl → fl.h + fl.le = riPhi (richardson i t) * D t) := by
  obtain ⟨f0, h0, _⟩ := hR 0
  obtain ⟨top, lam, n1, n2, n3, _, _, _, _⟩ := ebFluxes_parts h0
  obtain ⟨_, _, a3, a4, a5, a6, _⟩ := ri_fluxes hw.scheme h0
  have hi := hw.sane
  have hp := hw.phys
  have ewp := ew_pos i.t2
  have hq2 : 0 ≤ f0.q2 := by
    rw [a5]
    have h1 : 0 < i.p - methodEWSonntag i.t2 := by linarith [hi.pres]
    have h2 := hi.hum
    positivity
  have hrho : 0 ≤ f0.rho := by
    rw [a6]
    have h1 := hi.air
    have h2 : 0 < i.p := ewp.trans hi.pres
    positivity
  have hz0 : 1 < i.z / i.z0 := (one_lt_div hi.z0).2 hi.z
  have l1 : 0 < Real.log (i.z / i.z0) := Real.log_pos hz0
  have l2 : 0 < Real.log (i.z / (i.z0 / 100)) := log_ratio_pos hi.z0 hi.z (by norm_num)
  have l3 : 0 < Real.log (i.z / (i.z0 / 10)) := log_ratio_pos hi.z0 hi.z (by norm_num)
  have p41 : 0 ≤ Transc.pow (0.41 : ℝ) 2 := by
    have e : Transc.pow (0.41 : ℝ) 2 = 0.41 ^ 2 := Real.rpow_two _
    rw [e]; positivity
  have hT : 0 ≤ f0.csT := by rw [a3]; positivity
  have hQ : 0 ≤ f0.csQ := by rw [a4]; positivity
  have hcos := cos_slope_nonneg hi.slope
  let S : ℝ → ℝ := fun t => sw + f0.li + -c.surfaceEmissionCoeff * c.sigma * t ^ 4 +
    lam * (c.zlt1 / (c.zlt2 - c.zlt1 + c.zlt1) * ((i.tz2 - i.tz1) / (c.zlt2 - c.zlt1)) +
        (c.zlt2 - c.zlt1) / (c.zlt2 - c.zlt1 + c.zlt1) * ((i.tz1 - t) / c.zlt1)) +
    c.waterDensity * c.specHeatWater * (i.rain / 1000 / i.dt) * (i.t2 - t)
  let Q : ℝ → ℝ := fun t => 0.622 * (methodEWSonntag t / (i.p - methodEWSonntag t))
  let D : ℝ → ℝ := fun t => f0.rho * c.specHeatAir * f0.csT * i.u2 * (i.t2 - t) * Real.cos (i.slope * Real.pi / 180) +
    f0.rho * c.latHeatSublimation * f0.csQ * i.u2 * (f0.q2 - Q t) * Real.cos (i.slope * Real.pi / 180)
  have kH : 0 ≤ f0.rho * c.specHeatAir * f0.csT * i.u2 :=
    mul_nonneg (mul_nonneg (mul_nonneg hrho hp.cAir.le) hT) hi.wind
  have kL : 0 ≤ f0.rho * c.latHeatSublimation * f0.csQ * i.u2 :=
    mul_nonneg (mul_nonneg (mul_nonneg hrho hp.subl.le) hQ) hi.wind
  have sat : ∀ t, 0.55 < t → t < c.zeroTemperature → methodEWSonntag t < i.p := fun t h1 h2 =>
    (C75_saturation.2.1 h1 (h1.trans h2) h2).trans hw.pressure
  have turb : ∀ t fl, 0.55 < t → t < c.zeroTemperature → ebFluxes c wrf g i t = .ok fl →
      fl.h + fl.le = riPhi (richardson i t) * D t := by
    intro t fl _ ht h
    obtain ⟨b1, b2, b3, b4, b5, b6, b7⟩ := ri_fluxes hw.scheme h
    obtain ⟨_, m0⟩ := mixing_ratios (Or.inl hw.scheme) h
    have q2 : fl.q2 = f0.q2 := by rw [a5, b5]
    have rh : fl.rho = f0.rho := by rw [a6, b6, q2]
    rw [b1, b2, b7, if_neg (not_le.2 ht), m0, q2, rh, b3, b4, ← a3, ← a4, bulkRi_eq hw.wind.ne']
    show _ = riPhi (richardson i t) * (_ + _)
    ring
  refine ⟨S, D, ?_, ?_, ?_, ?_, ?_, turb⟩
  · intro t h1 ht
    obtain ⟨fl, h, e⟩ := hR t
    obtain ⟨top', lam', m1, m2, m3, m4, m5, m6, _⟩ := ebFluxes_parts h
    have ht' : top = top' := ok_inj.1 (n1.symm.trans m1)
    subst ht'
    have hlam : lam = lam' := ok_inj.1 (n2.symm.trans m2)
    subst hlam
    have hli : fl.li = f0.li := ok_inj.1 (m3.symm.trans n3)
    rw [← turb t fl h1 ht h, e, m4, m5, m6, hli]
    show _ = sw + f0.li + _ + _ + _ + _
    ring
  · intro a b ha hab
    have hlam := hw.conduct _ _ n1 n2
    have h4 : a ^ 4 < b ^ 4 := pow_lt_pow_left₀ hab ha (by norm_num)
    have hc := hw.cooling
    have hk : 0 < c.surfaceEmissionCoeff * c.sigma := mul_pos hc.emission hc.sigma
    have r1 : -c.surfaceEmissionCoeff * c.sigma * b ^ 4 < -c.surfaceEmissionCoeff * c.sigma * a ^ 4 := by nlinarith
    have r2 : lam * (c.zlt1 / (c.zlt2 - c.zlt1 + c.zlt1) * ((i.tz2 - i.tz1) / (c.zlt2 - c.zlt1)) +
        (c.zlt2 - c.zlt1) / (c.zlt2 - c.zlt1 + c.zlt1) * ((i.tz1 - b) / c.zlt1)) ≤
        lam * (c.zlt1 / (c.zlt2 - c.zlt1 + c.zlt1) * ((i.tz2 - i.tz1) / (c.zlt2 - c.zlt1)) +
        (c.zlt2 - c.zlt1) / (c.zlt2 - c.zlt1 + c.zlt1) * ((i.tz1 - a) / c.zlt1)) := by
      apply mul_le_mul_of_nonneg_left _ hlam
      have hd := hc.depth1
      have hd2 := hc.depth2
      have : 0 ≤ (c.zlt2 - c.zlt1) / (c.zlt2 - c.zlt1 + c.zlt1) := div_nonneg (by linarith) (by linarith)
      have h5 : (i.tz1 - b) / c.zlt1 ≤ (i.tz1 - a) / c.zlt1 := by
        apply div_le_div_of_nonneg_right _ hd.le
        linarith
      have := mul_le_mul_of_nonneg_left h5 this
      linarith
    have r3 : c.waterDensity * c.specHeatWater * (i.rain / 1000 / i.dt) * (i.t2 - b) ≤
        c.waterDensity * c.specHeatWater * (i.rain / 1000 / i.dt) * (i.t2 - a) := by
      apply mul_le_mul_of_nonneg_left (by linarith)
      exact mul_nonneg (mul_nonneg hc.water hc.heat) (div_nonneg (div_nonneg hc.rain (by norm_num)) hc.dt.le)
    show sw + f0.li + _ + _ + _ < sw + f0.li + _ + _ + _
    linarith
  · show Continuous (fun t => _)
    fun_prop
  · intro a b ha hab hb
    have hm : methodEWSonntag a ≤ methodEWSonntag b := C75_saturation.2.1.monotoneOn ha (lt_of_lt_of_le ha hab) hab
    have h3 := ratio_mono (ew_pos a) hm (sat b (lt_of_lt_of_le ha hab) hb)
    have e1 := mul_le_mul_of_nonneg_right (mul_le_mul_of_nonneg_left (show i.t2 - b ≤ i.t2 - a by linarith) kH) hcos
    have e2 := mul_le_mul_of_nonneg_right (mul_le_mul_of_nonneg_left
      (show f0.q2 - Q b ≤ f0.q2 - Q a by show _ - 0.622 * _ ≤ _ - 0.622 * _; norm_num; linarith) kL) hcos
    exact add_le_add e1 e2
  · have hew : ContinuousOn (methodEWSonntag : ℝ → ℝ) (Ioo 0.55 c.zeroTemperature) :=
      C75_saturation.2.2.mono (fun x hx => hx.1)
    have hq : ContinuousOn Q (Ioo 0.55 c.zeroTemperature) := by
      refine continuousOn_const.mul (hew.div (continuousOn_const.sub hew) ?_)
      intro x hx
      have := sat x hx.1 hx.2
      linarith
    refine ContinuousOn.add ?_ ?_
    · fun_prop
    · exact (continuousOn_const.mul (continuousOn_const.sub hq)).mul continuousOn_const


/-- **C104, calm air.** Without wind, in both stability schemes, a balance that is not negative at some temperature and not positive at
a higher one is zero at exactly one temperature between them. -/
theorem C104_calm_partial (hc : Cooling c i) (hm : c.stabilityCorrection = .ri ∨ c.stabilityCorrection = .mo) (hu : i.u2 = 0)
    (hl : ∀ top lam, g.node 0 = .ok top → top.thermalConductivity c = .ok lam → 0 ≤ lam) (hR : Balance c wrf g i sw R)
    {lo hi : ℝ} (h0 : 0 ≤ lo) (hlh : lo ≤ hi) (hpos : 0 ≤ R lo) (hneg : R hi ≤ 0) :
    ∃! t, lo ≤ t ∧ t ≤ hi ∧ R t = 0 := by
  obtain ⟨f0, e0, _⟩ := hR 0
  obtain ⟨top, lam, n1, n2, n3, _, _, _, _⟩ := ebFluxes_parts e0
  have eR : R = fun t => sw + f0.li + -c.surfaceEmissionCoeff * c.sigma * t ^ 4 +
      lam * (c.zlt1 / (c.zlt2 - c.zlt1 + c.zlt1) * ((i.tz2 - i.tz1) / (c.zlt2 - c.zlt1)) +
          (c.zlt2 - c.zlt1) / (c.zlt2 - c.zlt1 + c.zlt1) * ((i.tz1 - t) / c.zlt1)) +
      c.waterDensity * c.specHeatWater * (i.rain / 1000 / i.dt) * (i.t2 - t) := by
    funext t
    obtain ⟨fl, h, e⟩ := hR t
    obtain ⟨top', lam', m1, m2, m3, m4, m5, m6, _⟩ := ebFluxes_parts h
    have ht' : top = top' := ok_inj.1 (n1.symm.trans m1)
    subst ht'
    have hlam : lam = lam' := ok_inj.1 (n2.symm.trans m2)
    subst hlam
    have hli : fl.li = f0.li := ok_inj.1 (m3.symm.trans n3)
    have van : fl.h = 0 ∧ fl.le = 0 := by
      rcases hm with hm | hm
      · exact C35_vanish hm h (Or.inl hu)
      · exact C37_calm hm hu h
    rw [e, van.1, van.2, m4, m5, m6, hli]
    ring
  have cR : Continuous R := by rw [eR]; fun_prop
  obtain ⟨t, ht, e0⟩ := intermediate_value_Icc' hlh cR.continuousOn ⟨hneg, hpos⟩
  refine ⟨t, ⟨ht.1, ht.2, e0⟩, ?_⟩
  rintro y ⟨y1, y2, y0⟩
  rcases lt_trichotomy y t with h | h | h
  · have := C73_calm hc hm hu hl hR (h0.trans y1) h
    linarith
  · exact h
  · have := C73_calm hc hm hu hl hR (h0.trans ht.1) h
    linarith

/-- Non-vacuity: the cold column of C73 in calm air, with enough sun for a balance at 240 K. -/
example : ∃ (sw : ℝ) (R : ℝ → ℝ), Balance coldConsts false coldGrid (coldInput 215 215) sw R ∧ ∃! t, 240 ≤ t ∧ t ≤ 300 ∧ R t = 0 := by
  have hfl : ∃ fl, ebFluxes coldConsts false coldGrid (coldInput 215 215) 240 = .ok fl := ⟨_, rfl⟩
  obtain ⟨fl, hfl⟩ := hfl
  obtain ⟨R, hR⟩ := balance_exists hfl (-(fl.li + fl.lo + fl.h + fl.le + fl.b + fl.qrr))
  have h0 : R 240 = 0 := by rw [hR.at hfl]; ring
  refine ⟨_, R, hR, C104_calm_partial (coldInput_spec 215 215).1 (Or.inl rfl) rfl coldGrid_lam hR (by norm_num) (by norm_num) h0.ge ?_⟩
  have := C73_calm (coldInput_spec 215 215).1 (Or.inl rfl) rfl coldGrid_lam hR (a := 240) (b := 300) (by norm_num) (by norm_num)
  linarith

/-- The stability factor beyond its step, continued to the step. -/
noncomputable def damped (x : ℝ) : ℝ := (max 0 (1 - 5 * x)) ^ 2

theorem damped_cont : Continuous damped := by unfold damped; fun_prop

theorem riPhi_damped {x : ℝ} (h : 0.01 < x) : riPhi x = damped x := by
  rw [riPhi_eq]
  unfold damped
  norm_num at h
  split_ifs with h1 h2
  · obtain ⟨_, b⟩ := h1
    norm_num at b
    rw [max_eq_right (by linarith)]
  · norm_num at h2
    rw [max_eq_left (by linarith)]; norm_num
  · exfalso
    apply h1
    norm_num at h2 ⊢
    exact ⟨h, h2⟩

/-- A step: where the Richardson number passes 0.01. -/
theorem step_sides (hw : Windy c g i) {ts : ℝ} (hri : richardson i ts = 0.01) :
    (∀ t, t < ts → 0.01 < richardson i t) ∧ ∀ t, ts ≤ t → riPhi (richardson i t) = 1 := by
  constructor
  · intro t h
    rw [← hri]
    exact richardson_anti hw.sane hw.wind h
  · intro t h
    apply (C35_factor _).2.2.2
    rw [← hri]
    rcases h.eq_or_lt with e | hl
    · rw [e]
    · exact (richardson_anti hw.sane hw.wind hl).le

/-- **C104, near neutral.** Where the Richardson number is at most 0.01 (the surface hardly colder than the air, or warmer) there is at
most one balanced temperature below the melting point: the balance falls strictly. -/
theorem C104_neutral (hw : Windy c g i) (hR : Balance c wrf g i sw R) {ts : ℝ} (h0 : 0.55 < ts) (hri : richardson i ts = 0.01)
    {a b : ℝ} (ha : ts ≤ a) (hab : a < b) (hb : b < c.zeroTemperature) : R b < R a := by
  obtain ⟨S, D, e, hS, _, hD, _, _⟩ := ri_split hw hR
  have h1 : 0.55 < a := lt_of_lt_of_le h0 ha
  rw [e a h1 (hab.trans hb), e b (h1.trans hab) hb, (step_sides hw hri).2 a ha, (step_sides hw hri).2 b (ha.trans hab.le)]
  have := hS a b (by norm_num at h1; linarith) hab
  have := hD a b h1 hab.le hb
  linarith

/-- **C104, very stable.** Where the Richardson number is above 0.2 the balance falls strictly, too. -/
theorem C104_stable (hw : Windy c g i) (hR : Balance c wrf g i sw R) {a b : ℝ} (ha : 0.55 < a) (hab : a < b)
    (hb : b < c.zeroTemperature) (hri : 0.2 < richardson i b) : R b < R a := by
  obtain ⟨S, D, e, hS, _, hD, _, _⟩ := ri_split hw hR
  rw [e a ha (hab.trans hb), e b (ha.trans hab) hb, (C35_factor _).2.2.1 hri,
    (C35_factor _).2.2.1 (hri.trans (richardson_anti hw.sane hw.wind hab))]
  have := hS a b (by norm_num at ha; linarith) hab
  linarith

/-- Left of the step, a balance that is positive far below and negative next to the step crosses zero; there is a first crossing. -/
theorem left_root (hw : Windy c g i) (hR : Balance c wrf g i sw R) {ts : ℝ} (hts : ts < c.zeroTemperature)
    (hri : richardson i ts = 0.01) {fl : Fluxes ℝ} (hfl : ebFluxes c wrf g i ts = .ok fl)
    (hneg : R ts < 0.0975 * (fl.h + fl.le)) {lo : ℝ} (hlo : 0.55 < lo) (hlt : lo < ts) (hpos : 0 < R lo) :
    ∃ t, lo < t ∧ t < ts ∧ R t = 0 ∧ ∀ x, lo ≤ x → x < t → 0 < R x := by
  obtain ⟨S, D, e, _, cS, _, cD, hfl'⟩ := ri_split hw hR
  have h0 : 0.55 < ts := hlo.trans hlt
  have hD := hfl' ts fl h0 hts hfl
  rw [(step_sides hw hri).2 ts le_rfl, one_mul] at hD
  -- the continuation of the balance to the step
  let F : ℝ → ℝ := fun t => S t + damped (richardson i t) * D t
  have cF : ContinuousOn F (Icc lo ts) := by
    refine cS.continuousOn.add ((damped_cont.comp richardson_cont).continuousOn.mul (cD.mono ?_))
    intro x hx
    exact ⟨lt_of_lt_of_le hlo hx.1, lt_of_le_of_lt hx.2 hts⟩
  have eF : ∀ t, lo ≤ t → t < ts → R t = F t := by
    intro t h1 h2
    rw [e t (lt_of_lt_of_le hlo h1) (h2.trans hts), riPhi_damped ((step_sides hw hri).1 t h2)]
  have hF : F ts < 0 := by
    have e1 := e ts h0 hts
    rw [(step_sides hw hri).2 ts le_rfl, one_mul] at e1
    have : damped (richardson i ts) = 0.9025 := by rw [hri]; unfold damped; norm_num
    show S ts + damped (richardson i ts) * D ts < 0
    rw [this]
    rw [e1, hD] at hneg
    norm_num at hneg ⊢
    linarith
  have hF' : 0 < F lo := by rw [← eF lo le_rfl hlt]; exact hpos
  -- the zeros form a compact set
  have hne : (Icc lo ts ∩ F ⁻¹' {0}).Nonempty := by
    obtain ⟨t, ht, e0⟩ := intermediate_value_Ioo' hlt.le cF ⟨hF, hF'⟩
    exact ⟨t, ⟨ht.1.le, ht.2.le⟩, e0⟩
  have hcl : IsClosed (Icc lo ts ∩ F ⁻¹' {0}) := cF.preimage_isClosed_of_isClosed isClosed_Icc isClosed_singleton
  have hcp : IsCompact (Icc lo ts ∩ F ⁻¹' {0}) := isCompact_Icc.of_isClosed_subset hcl inter_subset_left
  obtain ⟨t, ⟨⟨t1, t2⟩, t0⟩, hmin⟩ := hcp.exists_isLeast hne
  have t0 : F t = 0 := t0
  have t1' : lo < t := lt_of_le_of_ne t1 (by rintro rfl; linarith)
  have t2' : t < ts := lt_of_le_of_ne t2 (by rintro rfl; linarith)
  refine ⟨t, t1', t2', by rw [eF t t1 t2']; exact t0, ?_⟩
  intro x hx hxt
  rw [eF x hx (hxt.trans t2')]
  by_contra hn
  rcases (not_lt.1 hn).eq_or_lt with h | h
  · have := hmin ⟨⟨hx, (hxt.trans t2').le⟩, h⟩
    linarith
  · have hlx : lo < x := lt_of_le_of_ne hx (by rintro rfl; linarith)
    obtain ⟨y, hy, e0⟩ := intermediate_value_Ioo' hlx.le (cF.mono (Icc_subset_Icc le_rfl (hxt.trans t2').le)) ⟨h, hF'⟩
    have := hmin ⟨⟨hy.1.le, (hy.2.trans (hxt.trans t2')).le⟩, e0⟩
    linarith [hy.2]

/-- Right of the step, a balance that is positive there crosses zero. -/
theorem right_root (hw : Windy c g i) (hR : Balance c wrf g i sw R) {ts : ℝ} (h0 : 0.55 < ts)
    (hri : richardson i ts = 0.01) (hpos : 0 ≤ R ts) {hi : ℝ} (hlt : ts < hi) (hhi : hi < c.zeroTemperature)
    (hneg : R hi < 0) : ∃ t, ts ≤ t ∧ t < hi ∧ R t = 0 := by
  obtain ⟨S, D, e, _, cS, _, cD, _⟩ := ri_split hw hR
  let F : ℝ → ℝ := fun t => S t + D t
  have cF : ContinuousOn F (Icc ts hi) :=
    cS.continuousOn.add (cD.mono fun x hx => ⟨lt_of_lt_of_le h0 hx.1, lt_of_le_of_lt hx.2 hhi⟩)
  have eF : ∀ t, ts ≤ t → t ≤ hi → R t = F t := by
    intro t h1 h2
    rw [e t (lt_of_lt_of_le h0 h1) (lt_of_le_of_lt h2 hhi), (step_sides hw hri).2 t h1, one_mul]
  rw [eF ts le_rfl hlt.le] at hpos
  rw [eF hi hlt.le le_rfl] at hneg
  obtain ⟨t, ht, e0⟩ := intermediate_value_Icc' hlt.le cF ⟨hneg.le, hpos⟩
  refine ⟨t, ht.1, lt_of_le_of_ne ht.2 ?_, by rw [eF t ht.1 ht.2]; exact e0⟩
  rintro rfl
  linarith

/-- **C104, existence.** If the turbulent fluxes do not cool the surface at the step, a balance that is positive
at some temperature and negative at a higher one below the melting point is zero between them. -/
theorem C104_exists_partial (hw : Windy c g i) (hR : Balance c wrf g i sw R) {ts : ℝ} (hts : ts < c.zeroTemperature)
    (hri : richardson i ts = 0.01) {fl : Fluxes ℝ} (hfl : ebFluxes c wrf g i ts = .ok fl) (hheat : 0 ≤ fl.h + fl.le)
    {lo hi : ℝ} (hlo : 0.55 < lo) (hl : lo < ts) (hpos : 0 < R lo) (hh : ts < hi) (hhi : hi < c.zeroTemperature)
    (hneg : R hi < 0) : ∃ t, lo < t ∧ t < hi ∧ R t = 0 := by
  rcases le_or_gt 0 (R ts) with h | h
  · obtain ⟨t, h1, h2, h3⟩ := right_root hw hR (hlo.trans hl) hri h hh hhi hneg
    exact ⟨t, lt_of_lt_of_le hl h1, h2, h3⟩
  · obtain ⟨t, h1, h2, h3, _⟩ := left_root hw hR hts hri hfl
      (lt_of_lt_of_le h (mul_nonneg (by norm_num) hheat)) hlo hl hpos
    exact ⟨t, h1, h2.trans hh, h3⟩

/-- **C104, two temperatures.** If the turbulent fluxes heat the surface at the step and the balance there is positive but
less than 9.75 % of them, there is one balanced temperature below the step and another one above. -/
theorem C104_two (hw : Windy c g i) (hR : Balance c wrf g i sw R) {ts : ℝ} (hts : ts < c.zeroTemperature)
    (hri : richardson i ts = 0.01) {fl : Fluxes ℝ} (hfl : ebFluxes c wrf g i ts = .ok fl) (h1 : 0 < R ts)
    (h2 : R ts < 0.0975 * (fl.h + fl.le)) {lo hi : ℝ} (hlo : 0.55 < lo) (hl : lo < ts) (hpos : 0 < R lo) (hh : ts < hi)
    (hhi : hi < c.zeroTemperature) (hneg : R hi < 0) :
    ∃ a b, lo < a ∧ a < ts ∧ ts < b ∧ b < hi ∧ R a = 0 ∧ R b = 0 ∧ ∀ x, lo ≤ x → x < a → 0 < R x := by
  obtain ⟨a, a1, a2, a3, a4⟩ := left_root hw hR hts hri hfl h2 hlo hl hpos
  obtain ⟨b, b1, b2, b3⟩ := right_root hw hR (hlo.trans hl) hri h1.le hh hhi hneg
  refine ⟨a, b, a1, a2, lt_of_le_of_ne b1 ?_, b2, a3, b3, a4⟩
  rintro rfl
  linarith

/-- **C104, none.** If the turbulent fluxes cool the surface at the step and the balance there is negative by less than 9.75 % of
them, no temperature below the melting point is balanced: the balance jumps over zero. -/
theorem C104_none (hw : Windy c g i) (hR : Balance c wrf g i sw R) {ts : ℝ} (h0 : 0.55 < ts) (hts : ts < c.zeroTemperature)
    (hri : richardson i ts = 0.01) {fl : Fluxes ℝ} (hfl : ebFluxes c wrf g i ts = .ok fl) (h1 : R ts < 0)
    (h2 : 0.0975 * (fl.h + fl.le) < R ts) :
    (∀ t, 0.55 < t → t < ts → R ts - 0.0975 * (fl.h + fl.le) < R t) ∧ ∀ t, ts ≤ t → t < c.zeroTemperature → R t ≤ R ts := by
  constructor
  · obtain ⟨S, D, e, hS, _, hD, _, hfl'⟩ := ri_split hw hR
    intro t ht hlt
    have hd := hfl' ts fl h0 hts hfl
    have e1 := e ts h0 hts
    rw [(step_sides hw hri).2 ts le_rfl, one_mul] at hd e1
    have hphi := (C35_jump.2 _ ((step_sides hw hri).1 t hlt))
    have hphi0 := (C35_factor (richardson i t)).1
    have hs := hS t ts (by norm_num at ht; linarith) hlt
    have hdd := hD t ts ht hlt.le hts
    have hneg : D ts < 0 := by
      rw [hd] at h2
      by_contra hc
      have : 0 ≤ 0.0975 * D ts := mul_nonneg (by norm_num) (not_lt.1 hc)
      linarith
    rw [e t ht (hlt.trans hts), e1, hd]
    have k1 : riPhi (richardson i t) * D ts ≤ riPhi (richardson i t) * D t := mul_le_mul_of_nonneg_left hdd hphi0
    have k2 : 0.9025 * D ts ≤ riPhi (richardson i t) * D ts := mul_le_mul_of_nonpos_right hphi.le hneg.le
    norm_num at k2 ⊢
    linarith
  · intro t ht hlt
    rcases ht.eq_or_lt with rfl | h
    · rfl
    · exact (C104_neutral hw hR h0 hri le_rfl h hlt).le

/-- The secant iteration of the code, started so that one of its two first points is a root and the other one, more than the
tolerance away, is not, returns the root. -/
theorem secant_at_root {R : ℝ → ℝ} {x0 root other : ℝ}
    (hp : (x0 = root ∧ secantStart x0 = other) ∨ (x0 = other ∧ secantStart x0 = root)) (h0 : R root = 0) (h1 : R other ≠ 0)
    (hd : 0.01 < |root - other|) : secant (fun t => .ok (R t)) x0 0.01 50 none 0 = .ok (root, 3) := by
  have loop : secantLoop (fun t => .ok (R t)) 0.01 0 50 root other 0 (R other) 2 = .ok (root, 3) := by
    have e1 : (R other == 0) = false := by simpa using h1
    have e2 : secantPoint root other 0 (R other) = root := by
      unfold secantPoint
      rw [pyAbs_eq, pyAbs_eq, if_pos (by simpa using h1)]
      simp
    have e3 : isClose root other 0 0.01 = false := by
      unfold isClose
      simp only [pyAbs_eq, zero_mul, add_zero, decide_eq_false_iff_not, not_le]
      exact hd
    have e4 : ((0 : ℝ) == R other) = false := by simpa using h1.symm
    have e5 : secantPoint other root (R other) 0 = root := by
      unfold secantPoint
      rw [pyAbs_eq, pyAbs_eq, if_neg (by simp)]
      simp
    have e6 : isClose root root 0 0.01 = true := by
      unfold isClose
      simp only [pyAbs_eq, zero_mul, add_zero, sub_self, abs_zero, decide_eq_true_eq]
      norm_num
    rw [secantLoop]
    simp only [e1, e2, e3, ok_bind, h0]
    rw [secantLoop]
    simp [e4, e5, e6]
  unfold secant
  rw [if_neg (by norm_num), if_neg (by norm_num)]
  simp only [ok_bind]
  rcases hp with ⟨rfl, hs⟩ | ⟨rfl, hs⟩
  · rw [hs, h0, if_neg (by rw [pyAbs_eq, pyAbs_eq]; simp)]
    exact loop
  · rw [hs, h0, if_pos (by rw [pyAbs_eq, pyAbs_eq]; simpa using h1)]
    exact loop

end

/-- The shipped constants with surface temperature method `m`. -/
noncomputable def gustConsts (m : SfcMethod) : Consts ℝ := { Consts.default ℝ with sfcTemperatureMethod := m }

/-- A column at 250 K with a surface of temperature `t`. -/
noncomputable def gustGrid (t : ℝ) : Grid ℝ :=
  ⟨[⟨0.02, t, 0, 0.4, 0⟩, ⟨0.03, 250, 0, 0.4, 0⟩, ⟨0.05, 250, 0, 0.4, 0⟩, ⟨0.05, 250, 0, 0.4, 0⟩], 4, 0, 0, 0⟩

/-- Frosty weather: 255.06 K, wind of 3 m/s, 700 hPa, incoming longwave radiation of 90 W m⁻², relative humidity `rh`. -/
noncomputable def gustInput (rh x y : ℝ) : EbInput ℝ := ⟨3600, 2, 0.0002, 255.06, rh, 700, 3, 0, 0, x, y, some 90, none⟩

theorem gustGrid_sub (m : SfcMethod) (t : ℝ) : interpSubT (gustConsts m) (gustGrid t) = .ok (250, 250) := by
  have hh : (gustGrid t).getHeight = .ok [0.02, 0.03, 0.05, 0.05] := by
    rw [Grid.getHeight_eq (by unfold Grid.WF gustGrid; simp)]; rfl
  have hcum : cumsumFrom (0 : ℝ) [0.02, 0.03, 0.05, 0.05] = [0.02, 0.05, 0.1, 0.15] := by
    simp only [cumsumFrom]; norm_num
  have h1 : argmin (List.map (fun x : ℝ => pyAbs (x - 0.06)) [0.02, 0.05, 0.1, 0.15]) = .ok 1 := by
    simp only [List.map, argmin, pyAbs_eq, argminFrom]
    norm_num [abs_of_neg, abs_of_pos]
  have h2 : argmin (List.map (fun x : ℝ => pyAbs (x - 0.1)) [0.02, 0.05, 0.1, 0.15]) = .ok 2 := by
    simp only [List.map, argmin, pyAbs_eq, argminFrom]
    norm_num [abs_of_neg, abs_of_pos]
  have e1 : (gustConsts m).zlt1 = 0.06 := rfl
  have e2 : (gustConsts m).zlt2 = 0.1 := rfl
  have g1 : pyGet ([0.02, 0.05, 0.1, 0.15] : List ℝ) 1 = .ok 0.05 := rfl
  have g2 : pyGet ([0.02, 0.05, 0.1, 0.15] : List ℝ) 2 = .ok 0.1 := rfl
  have g3 : pyGet ([0.02, 0.05, 0.1, 0.15] : List ℝ) 3 = .ok 0.15 := rfl
  have n1 : (gustGrid t).node 1 = .ok ⟨0.03, 250, 0, 0.4, 0⟩ := rfl
  have n2 : (gustGrid t).node 2 = .ok ⟨0.05, 250, 0, 0.4, 0⟩ := rfl
  have n3 : (gustGrid t).node 3 = .ok ⟨0.05, 250, 0, 0.4, 0⟩ := rfl
  have s1 : getSubsurfaceTemperature (gustGrid t) [0.02, 0.05, 0.1, 0.15] 0.06 = .ok 250 := by
    unfold getSubsurfaceTemperature
    rw [h1, ok_bind, Nat.cast_one, g1, ok_bind, if_neg (by norm_num), show (1 : Int) + 1 = 2 by rfl]
    simp only [n1, n2, g2, ok_bind]
    rw [fdiv_of_ne (by norm_num), ok_bind, pure_eq_ok]
    norm_num
  have s2 : getSubsurfaceTemperature (gustGrid t) [0.02, 0.05, 0.1, 0.15] 0.1 = .ok 250 := by
    unfold getSubsurfaceTemperature
    rw [h2, ok_bind, show ((2 : Nat) : Int) = 2 by rfl, g2, ok_bind, if_neg (by norm_num), show (2 : Int) + 1 = 3 by rfl]
    simp only [n2, n3, g3, ok_bind]
    rw [fdiv_of_ne (by norm_num), ok_bind, pure_eq_ok]
    norm_num
  unfold interpSubT
  rw [hh, ok_bind]
  simp only [hcum, e1, e2, s1, s2, ok_bind]
  rfl

theorem exp_m1 : Real.exp (-1) < 0.37 := Real.exp_neg_one_lt_d9.trans (by norm_num)

/-- The vapour pressure of the air is below 2.3 hPa. -/
theorem gust_ew : methodEWSonntag (255.06 : ℝ) < 2.3 := by
  rw [ew_ice (by norm_num)]
  have h : Real.exp ((22.46 * (255.06 - 273.16)) / (255.06 - 0.55)) < 0.37 :=
    lt_of_le_of_lt (Real.exp_le_exp.2 (by norm_num)) exp_m1
  refine (mul_lt_mul_of_pos_left h (by norm_num)).trans ?_
  norm_num

/-- The saturation pressure over the surface is above 0.79 hPa. -/
theorem gust_ew_ge : 0.79 < methodEWSonntag (253.89 : ℝ) := by
  rw [ew_ice (by norm_num)]
  have h : 0.36 * 0.36 < Real.exp (-2 : ℝ) := by
    rw [show (-2 : ℝ) = -1 + -1 by norm_num, Real.exp_add]
    have := Real.exp_neg_one_gt_d9
    have h1 : (0.36 : ℝ) < Real.exp (-1) := lt_trans (by norm_num) this
    exact mul_lt_mul'' h1 h1 (by norm_num) (by norm_num)
  have h2 : Real.exp (-2 : ℝ) ≤ Real.exp ((22.46 * (253.89 - 273.16)) / (253.89 - 0.55)) := Real.exp_le_exp.2 (by norm_num)
  refine lt_trans ?_ (mul_lt_mul_of_pos_left (h.trans_le h2) (by norm_num))
  norm_num

theorem gust_windy {m : SfcMethod} {rh : ℝ} (hr : 0 ≤ rh) (t : ℝ) :
    Windy (gustConsts m) (gustGrid t) (gustInput rh 250 250) where
  cooling := by constructor <;> simp only [gustConsts, Consts.default, gustInput] <;> norm_num
  phys := by constructor <;> norm_num [gustConsts, Consts.default]
  scheme := rfl
  sane := by
    refine ⟨?_, ?_, hr, ?_, ?_, ?_, ?_⟩
    · show (0 : ℝ) ≤ 3; norm_num
    · show (0 : ℝ) < 255.06; norm_num
    · exact gust_ew.trans (by show (2.3 : ℝ) < 700; norm_num)
    · show (0 : ℝ) < 0.0002; norm_num
    · show (0.0002 : ℝ) < 2; norm_num
    · show (-90 : ℝ) ≤ 0 ∧ (0 : ℝ) ≤ 90; norm_num
  melting := by show (273.16 : ℝ) ≤ 273.16; exact le_rfl
  conduct := by
    intro top lam h1 h2
    have e : (gustGrid t).node 0 = .ok ⟨0.02, t, 0, 0.4, 0⟩ := rfl
    rw [e, ok_inj] at h1
    subst h1
    unfold Node.thermalConductivity gustConsts Consts.default at h2
    simp only [ok_inj] at h2
    subst h2
    unfold Node.airPorosity
    rw [pyMax_eq]
    norm_num
  pressure := by
    show methodEWSonntag (273.16 : ℝ) < 700
    rw [C75_saturation.1]; norm_num
  wind := by show (0 : ℝ) < 3; norm_num

theorem gust_step (rh : ℝ) : richardson (gustInput rh 250 250) 253.89 = 0.01 := by
  unfold richardson gustInput
  norm_num

theorem log_ten_ge : 2 < Real.log 10 := by
  rw [Real.log_ten_eq]
  have := Real.log_two_gt_d9
  have := Real.log_five_gt_d9
  norm_num at *
  linarith

/-- Exchange coefficients of the frosty weather. -/
theorem gust_coeffs {m : SfcMethod} {rh t : ℝ} (hr : 0 ≤ rh) {fl : Fluxes ℝ}
    (h : ebFluxes (gustConsts m) false (gustGrid 250) (gustInput rh 250 250) t = .ok fl) :
    0 < fl.rho ∧ fl.rho < 1 ∧ 0 < fl.csT ∧ fl.csT < fl.csQ ∧ fl.csQ < 0.0027 ∧ 0 ≤ fl.q2 ∧
    fl.q2 = rh / 100 * (0.622 * (methodEWSonntag (255.06 : ℝ) / (700 - methodEWSonntag (255.06 : ℝ)))) ∧ fl.q2 ≤ rh / 100 * 0.00206 := by
  obtain ⟨_, _, a3, a4, _, a6, _⟩ := ri_fluxes rfl h
  obtain ⟨m2, _⟩ := mixing_ratios (Or.inl rfl) h
  have ewp := ew_pos 255.06
  have ewl := gust_ew
  have e1 : (gustInput rh 250 250).t2 = 255.06 := rfl
  have e2 : (gustInput rh 250 250).p = 700 := rfl
  have e3 : (gustInput rh 250 250).rh2 = rh := rfl
  have e4 : (gustInput rh 250 250).z = 2 := rfl
  have e5 : (gustInput rh 250 250).z0 = 0.0002 := rfl
  rw [e1, e2, e3] at m2
  rw [e1, e2] at a6
  rw [e4, e5] at a3 a4
  have hrat : methodEWSonntag (255.06 : ℝ) / (700 - methodEWSonntag (255.06 : ℝ)) ≤ 0.0033 := by
    rw [div_le_iff₀ (by linarith)]
    norm_num at ewl ⊢
    linarith
  have hrat0 : 0 ≤ methodEWSonntag (255.06 : ℝ) / (700 - methodEWSonntag (255.06 : ℝ)) :=
    div_nonneg ewp.le (by norm_num at ewl ⊢; linarith)
  have hq0 : 0 ≤ fl.q2 := by rw [m2]; positivity
  have hq1 : fl.q2 ≤ rh / 100 * 0.00206 := by
    rw [m2]
    apply mul_le_mul_of_nonneg_left _ (by positivity)
    refine (mul_le_mul_of_nonneg_left hrat (by norm_num)).trans (by norm_num)
  have l10 := log_ten_ge
  have p41 : Transc.pow (0.41 : ℝ) 2 = 0.1681 := by
    have e : Transc.pow (0.41 : ℝ) 2 = 0.41 ^ 2 := Real.rpow_two _
    rw [e]; norm_num
  have L1 : Real.log (2 / 0.0002) = 4 * Real.log 10 := by
    rw [show (2 / 0.0002 : ℝ) = 10 ^ 4 by norm_num, Real.log_pow]; norm_num
  have L2 : Real.log (2 / (0.0002 / 100)) = 6 * Real.log 10 := by
    rw [show (2 / (0.0002 / 100) : ℝ) = 10 ^ 6 by norm_num, Real.log_pow]; norm_num
  have L3 : Real.log (2 / (0.0002 / 10)) = 5 * Real.log 10 := by
    rw [show (2 / (0.0002 / 10) : ℝ) = 10 ^ 5 by norm_num, Real.log_pow]; norm_num
  rw [p41, L1, L2] at a3
  rw [p41, L1, L3] at a4
  have sq : 4 < Real.log 10 * Real.log 10 := by nlinarith
  refine ⟨?_, ?_, ?_, ?_, ?_, hq0, m2, hq1⟩
  · rw [a6]; positivity
  · rw [a6, div_lt_one (by positivity)]
    nlinarith
  · rw [a3]; positivity
  · rw [a3, a4]
    apply div_lt_div_of_pos_left (by norm_num) (by positivity)
    nlinarith
  · rw [a4, div_lt_iff₀ (by positivity)]
    norm_num
    nlinarith

/-- The parts of the balance in the frosty weather. -/
theorem gust_parts {m : SfcMethod} {rh t : ℝ} {fl : Fluxes ℝ}
    (h : ebFluxes (gustConsts m) false (gustGrid 250) (gustInput rh 250 250) t = .ok fl) :
    fl.li = 90 ∧ fl.lo = -(0.99 * 0.0000000567) * t ^ 4 ∧ fl.qrr = 0 ∧
    ∃ lam, 0 ≤ lam ∧ fl.b = lam * ((250 - t) / 0.15) := by
  obtain ⟨top, lam, n1, n2, n3, n4, n5, n6, _⟩ := ebFluxes_parts h
  have e : (gustGrid 250).node 0 = .ok ⟨0.02, 250, 0, 0.4, 0⟩ := rfl
  rw [e, ok_inj] at n1
  subst n1
  refine ⟨(ok_inj.1 n3).symm, ?_, ?_, lam, ?_, ?_⟩
  · rw [n4]
    show -(0.99 : ℝ) * 0.0000000567 * t ^ 4 = _
    ring
  · rw [n6]
    show _ * ((0 : ℝ) / 1000 / 3600) * _ = (0 : ℝ)
    norm_num
  · unfold Node.thermalConductivity gustConsts Consts.default at n2
    simp only [ok_inj] at n2
    subst n2
    unfold Node.airPorosity
    rw [pyMax_eq]
    norm_num
  · rw [n5]
    show lam * ((0.06 : ℝ) / (0.1 - 0.06 + 0.06) * ((250 - 250) / (0.1 - 0.06)) + (0.1 - 0.06) / (0.1 - 0.06 + 0.06) * ((250 - t) / 0.06)) = _
    norm_num
    ring_nf
    left
    trivial

/-- Dry air: at the step the turbulent fluxes cool the surface. -/
theorem gust_dry {m : SfcMethod} {fl : Fluxes ℝ}
    (h : ebFluxes (gustConsts m) false (gustGrid 250) (gustInput 10 250 250) 253.89 = .ok fl) :
    fl.h + fl.le < 0 := by
  obtain ⟨r0, r1, c0, c1, c2, q0, _, q1⟩ := gust_coeffs (by norm_num) h
  obtain ⟨a1, a2, _, _, _, _, a7⟩ := ri_fluxes rfl h
  obtain ⟨_, m0⟩ := mixing_ratios (Or.inl rfl) h
  have hphi : riPhi (bulkRi (gustInput 10 250 250) 253.89) = 1 := by
    rw [bulkRi_eq (show (3 : ℝ) ≠ 0 by norm_num), gust_step]
    exact (C35_factor _).2.2.2 le_rfl
  have hcos : Real.cos ((gustInput 10 250 250).slope * Real.pi / 180) = 1 := by
    show Real.cos (0 * Real.pi / 180) = 1; simp
  have hlv : fl.lv = 2834000 := by rw [a7, if_neg (by show ¬ (273.16 : ℝ) ≤ 253.89; norm_num)]; rfl
  rw [hphi, hcos, one_mul, mul_one] at a1 a2
  have hq : 0.0007 < fl.q0 := by
    rw [m0]
    show _ < 0.622 * (methodEWSonntag (253.89 : ℝ) / (700 - methodEWSonntag (253.89 : ℝ)))
    have h1 := gust_ew_ge
    have h2 : methodEWSonntag (253.89 : ℝ) < 2.3 :=
      (C75_saturation.2.1 (by show (0.55 : ℝ) < 253.89; norm_num) (by show (0.55 : ℝ) < 255.06; norm_num) (by norm_num)).trans gust_ew
    have : 0.001128 < methodEWSonntag (253.89 : ℝ) / (700 - methodEWSonntag (253.89 : ℝ)) := by
      rw [lt_div_iff₀ (by norm_num at h2 ⊢; linarith)]
      norm_num at h1 h2 ⊢
      linarith
    norm_num at this ⊢
    linarith
  have e1 : fl.h = fl.rho * 3 * (fl.csT * (1004.67 * 1.17)) := by
    rw [a1]
    show fl.rho * 1004.67 * fl.csT * 3 * (255.06 - 253.89) = _
    norm_num; ring
  have e2 : fl.le = fl.rho * 3 * (fl.csQ * (2834000 * (fl.q2 - fl.q0))) := by
    rw [a2, hlv]
    show fl.rho * 2834000 * fl.csQ * 3 * _ = _
    ring
  rw [e1, e2, ← mul_add]
  apply mul_neg_of_pos_of_neg (by positivity)
  have k1 : fl.csT * (1004.67 * 1.17) ≤ fl.csQ * (1004.67 * 1.17) := mul_le_mul_of_nonneg_right c1.le (by norm_num)
  have k2 : fl.csQ * (1004.67 * 1.17 + 2834000 * (fl.q2 - fl.q0)) < 0 := by
    apply mul_neg_of_pos_of_neg (c0.trans c1)
    norm_num at q1 hq ⊢
    linarith
  rw [mul_add] at k2
  linarith

/-- Saturated air: at the step the turbulent fluxes heat the surface, by less than 70 W m⁻². -/
theorem gust_wet {m : SfcMethod} {fl : Fluxes ℝ}
    (h : ebFluxes (gustConsts m) false (gustGrid 250) (gustInput 100 250 250) 253.89 = .ok fl) :
    0 < fl.h + fl.le ∧ fl.h + fl.le < 70 := by
  obtain ⟨r0, r1, c0, c1, c2, q0, _, q1⟩ := gust_coeffs (by norm_num) h
  obtain ⟨a1, a2, _, _, _, _, a7⟩ := ri_fluxes rfl h
  have hphi : riPhi (bulkRi (gustInput 100 250 250) 253.89) = 1 := by
    rw [bulkRi_eq (show (3 : ℝ) ≠ 0 by norm_num), gust_step]
    exact (C35_factor _).2.2.2 le_rfl
  have hcos : Real.cos ((gustInput 100 250 250).slope * Real.pi / 180) = 1 := by
    show Real.cos (0 * Real.pi / 180) = 1; simp
  have hlv : fl.lv = 2834000 := by rw [a7, if_neg (by show ¬ (273.16 : ℝ) ≤ 253.89; norm_num)]; rfl
  rw [hphi, hcos, one_mul, mul_one] at a1 a2
  have hw := gust_windy (m := m) (rh := 100) (by norm_num) 250
  have hle : 0 ≤ fl.le := (C75_latent hw.phys (Or.inl rfl) hw.sane
    ((C75_saturation.2.1 (by show (0.55 : ℝ) < 253.89; norm_num) (by show (0.55 : ℝ) < 255.06; norm_num)
      (by show (253.89 : ℝ) < 255.06; norm_num)).trans hw.sane.pres) h).2 (by norm_num) (by show (253.89 : ℝ) ≤ 255.06; norm_num) (by show (100 : ℝ) ≤ 100; norm_num)
  obtain ⟨_, m0⟩ := mixing_ratios (Or.inl rfl) h
  have hq0 : 0 ≤ fl.q0 := by
    rw [m0]
    have h2 : methodEWSonntag (253.89 : ℝ) < 2.3 :=
      (C75_saturation.2.1 (by show (0.55 : ℝ) < 253.89; norm_num) (by show (0.55 : ℝ) < 255.06; norm_num) (by norm_num)).trans gust_ew
    have h3 := ew_pos 253.89
    show 0 ≤ 0.622 * (methodEWSonntag (253.89 : ℝ) / (700 - methodEWSonntag (253.89 : ℝ)))
    have : 0 < 700 - methodEWSonntag (253.89 : ℝ) := by linarith
    positivity
  have e1 : fl.h = fl.rho * fl.csT * 3526.3917 := by
    rw [a1]
    show fl.rho * 1004.67 * fl.csT * 3 * (255.06 - 253.89) = _
    norm_num; ring
  have e2 : fl.le = fl.rho * fl.csQ * (8502000 * (fl.q2 - fl.q0)) := by
    rw [a2, hlv]
    show fl.rho * 2834000 * fl.csQ * 3 * _ = _
    ring
  have hh : 0 < fl.h := by rw [e1]; positivity
  refine ⟨by linarith, ?_⟩
  have k0 : fl.rho * fl.csQ < 0.0027 := by
    have := mul_lt_mul'' r1 c2 r0.le (c0.trans c1).le
    linarith
  have k0' : 0 < fl.rho * fl.csQ := mul_pos r0 (c0.trans c1)
  have k1 : fl.h < 10 := by
    rw [e1]
    have : fl.rho * fl.csT < 0.0027 := (mul_lt_mul_of_pos_left c1 r0).trans k0
    refine (mul_lt_mul_of_pos_right this (by norm_num)).trans ?_
    norm_num
  have k2 : fl.le < 60 := by
    rw [e2]
    have h1 : 8502000 * (fl.q2 - fl.q0) ≤ 8502000 * 0.00206 := by linarith
    refine lt_of_le_of_lt (mul_le_mul_of_nonneg_left h1 k0'.le) ?_
    refine lt_of_lt_of_le (mul_lt_mul_of_pos_right k0 (by norm_num)) ?_
    norm_num
  linarith

theorem gust_balance (m : SfcMethod) (rh sw : ℝ) :
    ∃ R, Balance (gustConsts m) false (gustGrid 250) (gustInput rh 250 250) sw R := by
  have h : ∃ fl, ebFluxes (gustConsts m) false (gustGrid 250) (gustInput rh 250 250) 0 = .ok fl := ⟨_, rfl⟩
  obtain ⟨fl, h⟩ := h
  exact balance_exists h sw

/-- Net shortwave radiation that leaves the given remainder at the step. -/
theorem gust_sw (m : SfcMethod) (rh : ℝ) : ∃ fl, ebFluxes (gustConsts m) false (gustGrid 250) (gustInput rh 250 250) 253.89 = .ok fl ∧
    ∀ x, x > fl.h + fl.le - 130 → ∃ sw R, 0 < sw ∧ Balance (gustConsts m) false (gustGrid 250) (gustInput rh 250 250) sw R ∧ R 253.89 = x := by
  have h : ∃ fl, ebFluxes (gustConsts m) false (gustGrid 250) (gustInput rh 250 250) 253.89 = .ok fl := ⟨_, rfl⟩
  obtain ⟨fl, h⟩ := h
  refine ⟨fl, h, fun x hx => ?_⟩
  obtain ⟨p1, p2, p3, lam, hl, p4⟩ := gust_parts h
  obtain ⟨R, hR⟩ := balance_exists h (x - (fl.li + fl.lo + fl.h + fl.le + fl.b + fl.qrr))
  refine ⟨_, R, ?_, hR, ?_⟩
  · have hb : fl.b ≤ 0 := by rw [p4]; exact mul_nonpos_of_nonneg_of_nonpos hl (by norm_num)
    rw [p1, p2, p3]
    norm_num at hx ⊢
    linarith
  · rw [hR.at h]; ring

/-- **C104, refuted: none.** With the shipped constants there is frosty weather (255 K, dry air, 3 m/s of wind) for which no surface
temperature balances the fluxes: whatever the method and the solvers, a reported temperature below the melting point
leaves a residual. -/
theorem C104_none_refuted (m : SfcMethod) : ∃ sw : ℝ, 0 < sw ∧ ∀ (sv : Solvers ℝ) (g' : Grid ℝ) (ts : ℝ) (fl : Fluxes ℝ),
    updateSurfaceTemperature sv (gustConsts m) false (gustGrid 250) (gustInput 10) sw = .ok (g', ts, fl) → 0.55 < ts →
    ts < 273.16 → sw + fl.li + fl.lo + fl.h + fl.le + fl.b + fl.qrr ≠ 0 := by
  obtain ⟨fs, hfs, hsw⟩ := gust_sw m 10
  have hneg := gust_dry hfs
  obtain ⟨sw, R, hpos, hR, hx⟩ := hsw (0.05 * (fs.h + fs.le)) (by norm_num; linarith)
  refine ⟨sw, hpos, ?_⟩
  intro sv g' ts fl h h0 h1
  obtain ⟨tz1, tz2, top, x, e1, _, _, _, e5⟩ := update_decomp h
  rw [gustGrid_sub, ok_inj, Prod.mk.injEq] at e1
  obtain ⟨rfl, rfl⟩ := e1
  obtain ⟨n1, n2⟩ := C104_none (gust_windy (by norm_num) 250) hR (by norm_num) (by show (253.89 : ℝ) < 273.16; norm_num)
    (gust_step 10) hfs (by rw [hx]; norm_num; linarith) (by rw [hx]; norm_num; linarith)
  rw [← hR.at e5]
  rcases lt_or_ge ts 253.89 with hl | hl
  · have := n1 ts h0 hl
    rw [hx] at this
    norm_num at this
    apply ne_of_gt
    linarith
  · have := n2 ts hl h1
    rw [hx] at this
    norm_num at this
    apply ne_of_lt
    linarith

/-- The frosty weather with saturated air meets the hypotheses of `C104_two`. -/
theorem gust_wet_case : ∃ sw R fs, 0 < sw ∧ Balance (gustConsts .secant) false (gustGrid 250) (gustInput 100 250 250) sw R ∧
    ebFluxes (gustConsts .secant) false (gustGrid 250) (gustInput 100 250 250) 253.89 = .ok fs ∧ 0 < fs.h + fs.le ∧
    0 < R 253.89 ∧ R 253.89 < 0.0975 * (fs.h + fs.le) ∧ (∀ t, 200 ≤ t → t ≤ 220 → 0 < R t) ∧ R 255.06 < 0 := by
  obtain ⟨fs, hfs, hsw⟩ := gust_sw .secant 100
  obtain ⟨d0, d1⟩ := gust_wet hfs
  obtain ⟨sw, R, hpos, hR, hx⟩ := hsw (0.05 * (fs.h + fs.le)) (by norm_num; linarith)
  have hw : ∀ t, Windy (gustConsts .secant) (gustGrid t) (gustInput 100 250 250) := gust_windy (by norm_num)
  -- far below the step the balance is positive
  have hcold : ∀ t, 200 ≤ t → t ≤ 220 → 0 < R t := by
    intro t h1 h2
    obtain ⟨ft, hft, et⟩ := hR t
    obtain ⟨p1, p2, p3, lam, hl, p4⟩ := gust_parts hft
    obtain ⟨q1, q2, q3, lam', hl', q4⟩ := gust_parts hfs
    have hsat : methodEWSonntag t < (700 : ℝ) := by
      have : methodEWSonntag t < methodEWSonntag (255.06 : ℝ) :=
        C75_saturation.2.1 (show (0.55 : ℝ) < t by norm_num; linarith) (by show (0.55 : ℝ) < 255.06; norm_num) (by norm_num; linarith)
      exact this.trans (gust_ew.trans (by norm_num))
    have hle : 0 ≤ ft.le := (C75_latent (hw 250).phys (Or.inl rfl) (hw 250).sane hsat hft).2 (by norm_num; linarith)
      (by show t ≤ 255.06; norm_num; linarith) (by show (100 : ℝ) ≤ 100; norm_num)
    have hh : 0 ≤ ft.h := (C35_direction (hw 250).phys rfl (hw 250).sane hft).1 (by show t ≤ 255.06; norm_num; linarith)
    have hb : 0 ≤ ft.b := by rw [p4]; exact mul_nonneg hl (div_nonneg (by linarith) (by norm_num))
    have hb' : fs.b ≤ 0 := by rw [q4]; exact mul_nonpos_of_nonneg_of_nonpos hl' (by norm_num)
    have h4 : t ^ 4 ≤ 220 ^ 4 := pow_le_pow_left₀ (by linarith) h2 4
    have ex := hR.at hfs
    rw [hx, q1, q2, q3] at ex
    rw [et, p1, p2, p3]
    norm_num at ex ⊢
    linarith
  have hwarm : R 255.06 < 0 := by
    obtain ⟨ft, hft, et⟩ := hR 255.06
    obtain ⟨p1, p2, p3, lam, hl, p4⟩ := gust_parts hft
    obtain ⟨q1, q2, q3, lam', hl', q4⟩ := gust_parts hfs
    have ex := hR.at hfs
    obtain ⟨ha, hb⟩ := slow_parts_antitone (hw 250).cooling (hw 250).conduct (by norm_num) (by norm_num) hfs hft
    have h1 := (C35_direction (hw 250).phys rfl (hw 250).sane hft).2.1 (by show (255.06 : ℝ) ≤ 255.06; norm_num)
    have h2 := (C75_latent (hw 250).phys (Or.inl rfl) (hw 250).sane (by exact gust_ew.trans (by show (2.3 : ℝ) < 700; norm_num)) hft).1
      (by show (0.55 : ℝ) < 255.06; norm_num) (by show (255.06 : ℝ) ≤ 255.06; norm_num) (by show (100 : ℝ) ≤ 100; norm_num)
    rw [hx] at ex
    rw [et]
    norm_num at ex ⊢
    linarith
  exact ⟨sw, R, fs, hpos, hR, hfs, d0, by rw [hx]; norm_num; linarith, by rw [hx]; norm_num; linarith, hcold, hwarm⟩

/-- Non-vacuity of `C104_exists_partial`. -/
example : ∃ (sw : ℝ) (R : ℝ → ℝ) (t : ℝ), Balance (gustConsts .secant) false (gustGrid 250) (gustInput 100 250 250) sw R ∧ R t = 0 := by
  obtain ⟨sw, R, fs, _, hR, hfs, d0, _, _, hcold, hwarm⟩ := gust_wet_case
  obtain ⟨t, _, _, h⟩ := C104_exists_partial (gust_windy (by norm_num) 250) hR (by show (253.89 : ℝ) < 273.16; norm_num) (gust_step 100) hfs d0.le
    (lo := 200) (hi := 255.06) (by norm_num) (by norm_num) (hcold 200 le_rfl (by norm_num)) (by norm_num)
    (by show (255.06 : ℝ) < 273.16; norm_num) hwarm
  exact ⟨sw, R, t, hR, h⟩

/-- Non-vacuity of `C104_neutral` and `C104_stable`: the balance of the frosty weather at 254 and 255 K, and at 200 and 220 K. -/
example : ∃ (sw : ℝ) (R : ℝ → ℝ), Balance (gustConsts .secant) false (gustGrid 250) (gustInput 100 250 250) sw R ∧ R 255 < R 254 ∧ R 220 < R 200 := by
  obtain ⟨sw, R, fs, _, hR, hfs, d0, _, _, hcold, hwarm⟩ := gust_wet_case
  refine ⟨sw, R, hR, C104_neutral (gust_windy (by norm_num) 250) hR (by norm_num) (gust_step 100) (by norm_num) (by norm_num)
    (by show (255 : ℝ) < 273.16; norm_num), C104_stable (gust_windy (by norm_num) 250) hR (by norm_num) (by norm_num)
    (by show (220 : ℝ) < 273.16; norm_num) ?_⟩
  unfold richardson gustInput
  norm_num

/-- **C104, refuted: two.** With the shipped constants and the shipped (secant) method there is frosty weather (255 K, saturated
air, 3 m/s of wind) for which two columns that differ only in the temperature of the top layer get different surface temperatures, and both
balance the fluxes. No external solver is involved. -/
theorem C104_refuted : ∃ sw ta tb a b : ℝ, 0 < sw ∧ 219 < ta ∧ ta < 256 ∧ 219 < tb ∧ tb < 256 ∧ 220 < a ∧ a < 253.89 ∧ 253.89 < b ∧ b < 255.06 ∧
    ∀ sv : Solvers ℝ,
      (∃ g' fl, updateSurfaceTemperature sv (Consts.default ℝ) false (gustGrid ta) (gustInput 100) sw = .ok (g', a, fl) ∧
        sw + fl.li + fl.lo + fl.h + fl.le + fl.b + fl.qrr = 0) ∧
      (∃ g' fl, updateSurfaceTemperature sv (Consts.default ℝ) false (gustGrid tb) (gustInput 100) sw = .ok (g', b, fl) ∧
        sw + fl.li + fl.lo + fl.h + fl.le + fl.b + fl.qrr = 0) := by
  obtain ⟨sw, R, fs, hpos, hR, hfs, d0, x1, x2, hcold, hwarm⟩ := gust_wet_case
  have hw : ∀ t, Windy (gustConsts .secant) (gustGrid t) (gustInput 100 250 250) := gust_windy (by norm_num)
  obtain ⟨a, b, a1, a2, b1, b2, ra, rb, hfirst⟩ := C104_two (hw 250) hR (by show (253.89 : ℝ) < 273.16; norm_num) (gust_step 100)
    hfs x1 x2 (lo := 200) (hi := 255.06) (by norm_num) (by norm_num)
    (hcold 200 le_rfl (by norm_num)) (by norm_num) (by show (255.06 : ℝ) < 273.16; norm_num) hwarm
  have a3 : 220 < a := by
    by_contra h
    have := hcold a a1.le (not_lt.1 h)
    linarith
  -- a start from which the second point of the iteration is `a`
  have start : ∀ x : ℝ, 0 ≤ x → secantStart x = x * 1.0001 + 0.0001 := by
    intro x hx
    unfold secantStart
    have : 0 ≤ x * (1 + 0.0001) := mul_nonneg hx (by norm_num)
    rw [if_pos this]
    norm_num
  norm_num at a2 b1 b2
  have ha0 : (0 : ℝ) ≤ (a - 0.0001) / 1.0001 := div_nonneg (by norm_num; linarith) (by norm_num)
  have hu : (a - 0.0001) / 1.0001 < a := by rw [div_lt_iff₀ (by norm_num)]; norm_num; linarith
  have hu' : 219 < (a - 0.0001) / 1.0001 := by rw [lt_div_iff₀ (by norm_num)]; norm_num; linarith
  have sa : secantStart ((a - 0.0001) / 1.0001) = a := by rw [start _ ha0]; field_simp; ring
  have ssa : secant (fun t => .ok (R t)) ((a - 0.0001) / 1.0001) 0.01 50 none 0 = .ok (a, 3) := by
    refine secant_at_root (Or.inr ⟨rfl, sa⟩) ra (hfirst _ (by linarith) hu).ne' ?_
    rw [abs_of_pos (by linarith)]
    have : (a - 0.0001) / 1.0001 = a - (0.0001 * a + 0.0001) / 1.0001 := by field_simp; ring
    rw [this]
    have : (0.011 : ℝ) < (0.0001 * a + 0.0001) / 1.0001 := by rw [lt_div_iff₀ (by norm_num)]; norm_num; linarith
    norm_num at this ⊢
    linarith
  have sb : secantStart b = b * 1.0001 + 0.0001 := start b (by linarith)
  have ssb : secant (fun t => .ok (R t)) b 0.01 50 none 0 = .ok (b, 3) := by
    have hlt : b < b * 1.0001 + 0.0001 := by norm_num; linarith
    have := C104_neutral (hw 250) hR (by norm_num) (gust_step 100) (by norm_num; linarith) hlt
      (by show _ < (273.16 : ℝ); norm_num; linarith)
    refine secant_at_root (Or.inl ⟨rfl, sb⟩) rb (by linarith) ?_
    rw [abs_of_neg (by linarith)]
    norm_num
    linarith
  -- what the program does with a root found by the iteration
  have prog : ∀ (sv : Solvers ℝ) (t x : ℝ), t < 270 → 220 < x → x < 273.16 →
      secant (fun t => .ok (R t)) t 0.01 50 none 0 = .ok (x, 3) → R x = 0 →
      ∃ g' fl, updateSurfaceTemperature sv (Consts.default ℝ) false (gustGrid t) (gustInput 100) sw = .ok (g', x, fl) ∧
        sw + fl.li + fl.lo + fl.h + fl.le + fl.b + fl.qrr = 0 := by
    intro sv t x ht h1 h2 hs h0
    have same : ∀ y, ebFluxes (gustConsts .secant) false (gustGrid t) (gustInput 100 250 250) y =
        ebFluxes (gustConsts .secant) false (gustGrid 250) (gustInput 100 250 250) y :=
      fun y => ebFluxes_top (g := gustGrid 250) rfl t _ y
    have hR' : Balance (gustConsts .secant) false (gustGrid t) (gustInput 100 250 250) sw R := by
      intro y
      obtain ⟨fl, h, e⟩ := hR y
      exact ⟨fl, (same y).trans h, e⟩
    have hf : ebOptim (gustConsts .secant) false (gustGrid t) (gustInput 100 250 250) sw = fun y => .ok (R y) :=
      funext fun y => ebOptim_balance hR' (Or.inr rfl) y
    obtain ⟨fl, hfl, e⟩ := hR x
    refine ⟨{ gustGrid t with nodes := ⟨0.02, x, 0, 0.4, 0⟩ :: (gustGrid t).nodes.tail }, fl, ?_, by rw [← e, h0]⟩
    show updateSurfaceTemperature sv (gustConsts .secant) false (gustGrid t) (gustInput 100) sw = _
    have n0 : (gustGrid t).node 0 = .ok ⟨0.02, t, 0, 0.4, 0⟩ := rfl
    have hset : ∀ y, (gustGrid t).setNodeTemperature 0 y =
        .ok { gustGrid t with nodes := ⟨0.02, y, 0, 0.4, 0⟩ :: (gustGrid t).nodes.tail } := fun y => rfl
    have hz : (gustConsts .secant).zeroTemperature = 273.16 := rfl
    have hsolve : solveSurfaceTemperature sv (gustConsts .secant) (fun y => .ok (R y)) t = .ok x := by
      unfold solveSurfaceTemperature
      have hm : (gustConsts .secant).sfcTemperatureMethod = .secant := rfl
      rw [hm]
      simp only [hs, ok_bind]
      rw [if_neg (by linarith)]
      unfold checkResidualClip
      rw [if_neg (by linarith), ok_bind]
      rfl
    have hfl3 := (ebFluxes_top (c := gustConsts .secant) (wrf := false) (g := gustGrid t) rfl x (gustInput 100 250 250) x).trans
      ((same x).trans hfl)
    unfold updateSurfaceTemperature
    simp only [gustGrid_sub, ok_bind, n0, pyMin_eq, hf]
    rw [min_eq_left ht.le, hsolve, ok_bind, hz, min_eq_right h2.le]
    simp only [hset, ok_bind]
    exact congrArg (fun m => m >>= fun f => pure (_, _, f)) hfl3
  refine ⟨sw, (a - 0.0001) / 1.0001, b, a, b, hpos, hu', ?_, ?_, ?_, a3, ?_, ?_, ?_, fun sv => ⟨?_, ?_⟩⟩
  · linarith
  · linarith
  · linarith
  · norm_num; linarith
  · norm_num; linarith
  · norm_num; linarith
  · exact prog sv _ a (by linarith) a3 (by norm_num; linarith) ssa ra
  · exact prog sv _ b (by linarith) (by linarith) (by norm_num; linarith) ssb rb

end Cosipy
