import Verif.Props.C35
import Verif.Props.C37
import Mathlib.Analysis.Complex.ExponentialBounds

/-!
# C74 Turbulent fluxes of the Monin-Obukhov scheme follow the gradients and are damped in stable air

Over the real numbers. The transfer coefficients are never negative, whatever Obukhov length the iteration works with, so
the fluxes follow the gradients (`C74_direction`). Over a surface colder than the air the iteration stays on the stable
branch, and both fluxes are at most the ones in neutral stratification (`C74_stable`). The friction velocity the iteration
works with is not always positive: in strongly unstable air the correction exceeds the logarithm
(`C74_friction_refuted`); it is positive in stable and neutral air (`C74_friction_partial`).
-/

set_option autoImplicit false
set_option linter.unusedSectionVars false

namespace Cosipy

/-! ## The stability functions -/

theorem phiMStable_weak {z l : ℝ} (h : 0 < z / l) (h1 : z / l ≤ 1) (wrf : Bool) : phiMStable wrf z l = -5 * (z / l) := by
  unfold phiMStable
  simp only
  rw [if_pos ⟨h, h1⟩]

theorem phiMStable_strong {z l : ℝ} (h : 1 < z / l) (wrf : Bool) :
    phiMStable wrf z l = if wrf then -5 else -4 * (1 + Real.log (z / l)) - z / l := by
  unfold phiMStable
  simp only
  rw [if_neg (fun h' => absurd h'.2 (not_le.2 h)), if_pos h]
  cases wrf
  · show (1 - 5) * (1 + Real.log (z / l)) - z / l = -4 * (1 + Real.log (z / l)) - z / l
    norm_num
  · show (-5.0 : ℝ) = -5
    norm_num

/-- **C74, stable correction.** It is never positive and falls with height, in the standalone and in the coupled form. -/
theorem C74_stable_function {z0 z l : ℝ} (hl : 0 < l) (h0 : 0 < z0) (hz : z0 ≤ z) (wrf : Bool) :
    phiMStable wrf z l ≤ 0 ∧ phiMStable wrf z l ≤ phiMStable wrf z0 l := by
  have a0 : 0 < z0 / l := div_pos h0 hl
  have a1 : 0 < z / l := div_pos (h0.trans_le hz) hl
  have a2 : z0 / l ≤ z / l := div_le_div_of_nonneg_right hz hl.le
  rcases le_or_gt (z / l) 1 with hb | hb
  · rw [phiMStable_weak a1 hb, phiMStable_weak a0 (a2.trans hb)]
    constructor <;> linarith
  · rw [phiMStable_strong hb]
    have lb : 0 < Real.log (z / l) := Real.log_pos hb
    rcases le_or_gt (z0 / l) 1 with ha | ha
    · rw [phiMStable_weak a0 ha]
      cases wrf
      · rw [if_neg (by simp)]
        constructor <;> linarith
      · rw [if_pos rfl]
        constructor <;> linarith
    · rw [phiMStable_strong ha]
      have ll : Real.log (z0 / l) ≤ Real.log (z / l) := Real.log_le_log a0 a2
      cases wrf
      · rw [if_neg (by simp), if_neg (by simp)]
        constructor <;> linarith
      · rw [if_pos rfl, if_pos rfl]
        constructor <;> linarith

theorem phiTq_unstable {z l : ℝ} (hl : l < 0) (hz : 0 < z) (wrf : Bool) :
    phiTq wrf z l = 2 * Real.log ((1 + Real.sqrt (1 + 19.3 * z / (-l))) / 2) := by
  unfold phiTq
  rw [if_neg (not_lt.2 hl.le), if_pos hl]
  have e : (1 : ℝ) - 19.3 * z / l = 1 + 19.3 * z / (-l) := by rw [div_neg]; ring
  have hp : 0 ≤ 1 + 19.3 * z / (-l) := by
    have : 0 < -l := by linarith
    positivity
  show 2 * Real.log ((1 + (((1 : ℝ) - 19.3 * z / l) ^ (0.25 : ℝ)) ^ (2 : ℝ)) / 2.0) = _
  rw [e, ← Real.rpow_mul hp, Real.sqrt_eq_rpow]
  norm_num

/-- **C74, unstable correction.** Between two heights it changes by no more than the logarithm of their ratio. -/
theorem C74_unstable_function {z0 z l : ℝ} (hl : l < 0) (h0 : 0 < z0) (hz : z0 ≤ z) (wrf : Bool) :
    phiTq wrf z l - phiTq wrf z0 l ≤ Real.log (z / z0) := by
  have hz' : 0 < z := h0.trans_le hz
  rw [phiTq_unstable hl hz', phiTq_unstable hl h0]
  have hnl : 0 < -l := by linarith
  obtain ⟨a, ha, e⟩ : ∃ a : ℝ, 0 < a ∧ ∀ y, 19.3 * y / (-l) = a * y := ⟨19.3 / (-l), by positivity, fun y => by ring⟩
  rw [e, e]
  have s1 : Real.sqrt (1 + a * z) ^ 2 = 1 + a * z := Real.sq_sqrt (by positivity)
  have s0 : Real.sqrt (1 + a * z0) ^ 2 = 1 + a * z0 := Real.sq_sqrt (by positivity)
  have p0 : 1 < Real.sqrt (1 + a * z0) := by
    rw [Real.lt_sqrt (by norm_num)]
    have : 0 < a * z0 := by positivity
    linarith
  have le : Real.sqrt (1 + a * z0) ≤ Real.sqrt (1 + a * z) := by
    apply Real.sqrt_le_sqrt
    have := mul_le_mul_of_nonneg_left hz ha.le
    linarith
  generalize Real.sqrt (1 + a * z) = s at *
  generalize Real.sqrt (1 + a * z0) = t at *
  have hzz : z = (s ^ 2 - 1) / a := by rw [s1]; field_simp; ring
  have hzz0 : z0 = (t ^ 2 - 1) / a := by rw [s0]; field_simp; ring
  have ht2 : 0 < t ^ 2 - 1 := by nlinarith
  have hs2 : 0 < s ^ 2 - 1 := by nlinarith
  have e1 : z / z0 = (s ^ 2 - 1) / (t ^ 2 - 1) := by
    rw [hzz, hzz0]; field_simp
  have e2 : 2 * Real.log ((1 + s) / 2) - 2 * Real.log ((1 + t) / 2) = Real.log (((1 + s) / (1 + t)) ^ 2) := by
    rw [Real.log_pow, Real.log_div (by linarith) (by norm_num), Real.log_div (by linarith) (by norm_num),
      Real.log_div (by linarith) (by linarith)]
    push_cast; ring
  rw [e1, e2]
  apply Real.log_le_log (pow_pos (div_pos (by linarith) (by linarith)) 2)
  rw [div_pow, div_le_div_iff₀ (by positivity) ht2]
  have : (1 + s) * (t - 1) ≤ (s - 1) * (1 + t) := by linarith
  have h3 : 0 ≤ (1 + s) * (1 + t) := by nlinarith
  nlinarith [mul_le_mul_of_nonneg_left this h3]

/-- The difference of the corrections for heat and vapour is below the logarithm of the heights' ratio. -/
theorem phiTq_diff {z0 z : ℝ} (h0 : 0 < z0) (hz : z0 < z) (l : ℝ) (wrf : Bool) :
    phiTq wrf z l - phiTq wrf z0 l ≤ Real.log (z / z0) := by
  have lp : 0 ≤ Real.log (z / z0) := Real.log_nonneg (by rw [le_div_iff₀ h0]; linarith)
  rcases lt_trichotomy l 0 with hl | hl | hl
  · exact C74_unstable_function hl h0 hz.le wrf
  · subst hl
    unfold phiTq
    rw [if_neg (lt_irrefl _), if_neg (lt_irrefl _), if_neg (lt_irrefl _), if_neg (lt_irrefl _)]
    linarith
  · unfold phiTq
    rw [if_pos hl, if_pos hl]
    have := (C74_stable_function hl h0 hz.le wrf).2
    linarith

/-! ## Fluxes -/

/-- Transfer coefficient in neutral stratification for the roughness lengths of momentum and of the quantity. -/
noncomputable def neutralCoefficient (z z0 zs : ℝ) : ℝ := 0.41 ^ 2 / (Real.log (z / z0) * Real.log (z / zs))

/-- What a pass of the iteration computes. -/
structure PassOut (c : Consts ℝ) (wrf : Bool) (i : EbInput ℝ) (t0 rho lv q0 q2 cs : ℝ) (p s : MoState ℝ) : Prop where
  h : s.h = rho * c.specHeatAir * s.csT * i.u2 * (i.t2 - t0) * cs
  le : s.le = rho * lv * s.csQ * i.u2 * (q2 - q0) * cs
  csT : s.csT = 0.41 * (0.41 / |Real.log (i.z / i.z0) - phiM wrf i.z p.l - phiM wrf i.z0 p.l|) /
    (Real.log (i.z / (i.z0 / 100)) - (phiTq wrf i.z p.l - phiTq wrf i.z0 p.l))
  csQ : s.csQ = 0.41 * (0.41 / |Real.log (i.z / i.z0) - phiM wrf i.z p.l - phiM wrf i.z0 p.l|) /
    (Real.log (i.z / (i.z0 / 10)) - (phiTq wrf i.z p.l - phiTq wrf i.z0 p.l))
  l : s.l = if s.h = 0 then 0 else rho * c.specHeatAir * (0.41 * i.u2 / (Real.log (i.z / i.z0) - phiM wrf i.z p.l)) ^ 3 *
    i.t2 / (0.41 * 9.81 * s.h)
  niter : s.niter = p.niter + 1

theorem moPass_out {c : Consts ℝ} {wrf : Bool} {i : EbInput ℝ} {t0 rho lv q0 q2 cs : ℝ} {p s : MoState ℝ}
    (h : moPass c wrf i t0 rho lv q0 q2 cs p = .ok (some s)) : PassOut c wrf i t0 rho lv q0 q2 cs p s := by
  unfold moPass at h
  by_cases ho : p.optim = true
  · rw [if_pos ho] at h
    simp only [Except.ok.injEq, Option.some.injEq] at h
    have hcd : Real.sqrt (Transc.pow (0.41 : ℝ) 2 /
        Transc.pow (Transc.log (i.z / i.z0) - phiM wrf i.z p.l - phiM wrf i.z0 p.l) 2) =
        0.41 / |Real.log (i.z / i.z0) - phiM wrf i.z p.l - phiM wrf i.z0 p.l| := by
      show Real.sqrt ((0.41 : ℝ) ^ (2 : ℝ) / (Real.log (i.z / i.z0) - phiM wrf i.z p.l - phiM wrf i.z0 p.l) ^ (2 : ℝ)) = _
      rw [Real.rpow_two, Real.rpow_two, ← div_pow, Real.sqrt_sq_eq_abs, abs_div]
      norm_num
    subst h
    refine ⟨rfl, rfl, ?_, ?_, ?_, rfl⟩
    · show 0.41 * Real.sqrt _ / _ = _
      rw [hcd]; rfl
    · show 0.41 * Real.sqrt _ / _ = _
      rw [hcd]; rfl
    · simp only [moLength, beq_iff_eq, ustar]
      have e3 : ∀ x : ℝ, Transc.pow x 3 = x ^ 3 := fun x => by
        show x ^ (3 : ℝ) = x ^ 3
        exact_mod_cast Real.rpow_natCast x 3
      rw [e3]
      rfl
  · rw [if_neg ho] at h
    cases h

/-- The transfer coefficients of a pass are not negative. -/
theorem PassOut.nonneg {c : Consts ℝ} {wrf : Bool} {i : EbInput ℝ} {t0 rho lv q0 q2 cs : ℝ} {p s : MoState ℝ}
    (o : PassOut c wrf i t0 rho lv q0 q2 cs p s) (h0 : 0 < i.z0) (hz : i.z0 < i.z) : 0 ≤ s.csT ∧ 0 ≤ s.csQ := by
  have hd := phiTq_diff h0 hz p.l wrf
  have hz' : 0 < i.z := h0.trans hz
  have m1 : Real.log (i.z / i.z0) ≤ Real.log (i.z / (i.z0 / 100)) := by
    apply Real.log_le_log (by positivity)
    apply div_le_div_of_nonneg_left hz'.le (by positivity) (by linarith)
  have m2 : Real.log (i.z / i.z0) ≤ Real.log (i.z / (i.z0 / 10)) := by
    apply Real.log_le_log (by positivity)
    apply div_le_div_of_nonneg_left hz'.le (by positivity) (by linarith)
  rw [o.csT, o.csQ]
  have hn : 0 ≤ (0.41 : ℝ) * (0.41 / |Real.log (i.z / i.z0) - phiM wrf i.z p.l - phiM wrf i.z0 p.l|) := by positivity
  exact ⟨div_nonneg hn (by linarith), div_nonneg hn (by linarith)⟩

/-- What the routine returns under the Monin-Obukhov scheme, in terms of the passes; `P` is a property of passes that the
iteration keeps. -/
theorem mo_fluxes {c : Consts ℝ} (hm : c.stabilityCorrection = .mo) {wrf : Bool} {g : Grid ℝ} {i : EbInput ℝ} {t0 : ℝ}
    {fl : Fluxes ℝ} (h : ebFluxes c wrf g i t0 = .ok fl) (P : MoState ℝ → Prop)
    (hP : ∀ p s, (p.niter = 0 → p.l = 0) → (0 < p.niter → P p) →
      PassOut c wrf i t0 fl.rho fl.lv fl.q0 fl.q2 (Real.cos (i.slope * Real.pi / 180)) p s → P s) :
    (∃ p s, PassOut c wrf i t0 fl.rho fl.lv fl.q0 fl.q2 (Real.cos (i.slope * Real.pi / 180)) p s ∧ P s ∧
      fl.h = s.h ∧ fl.le = s.le ∧ fl.csT = s.csT ∧ fl.csQ = s.csQ ∧ fl.mol = some s.l) ∧
    fl.q2 = i.rh2 * 0.622 * (methodEWSonntag i.t2 / (i.p - methodEWSonntag i.t2)) / 100 ∧
    fl.rho = i.p * 100 / (287.058 * (i.t2 * (1 + 0.608 * fl.q2))) ∧
    fl.lv = if c.zeroTemperature ≤ t0 then c.latHeatVaporize else c.latHeatSublimation := by
  unfold ebFluxes at h
  simp only [bind_eq_ok, hm] at h
  obtain ⟨li, _, ⟨hh, le, mol, csT, csQ⟩, ⟨s, hs, he⟩, top, _, lam, _, h⟩ := h
  rw [pure_eq_ok] at h he
  cases he
  cases h
  refine ⟨?_, rfl, rfl, rfl⟩
  obtain ⟨r, _, hr1, _, h8, p, hp⟩ := C37_terminates c wrf i t0 _ _ _ _ _
  have h8' := h8 8 le_rfl
  unfold moIterate at h8'
  rw [hs, ok_inj] at h8'
  subst h8'
  have key := (whileM_ind hs (fun s => (s.niter = 0 → s.l = 0) ∧ (0 < s.niter → P s)) ⟨fun _ => rfl, fun h => absurd h (lt_irrefl _)⟩
    (fun p s hp h => by
      have o := moPass_out h
      refine ⟨fun h => ?_, fun _ => hP p s hp.1 hp.2 o⟩
      have := o.niter
      omega)).1
  exact ⟨p, s, moPass_out hp, key.2 (by omega), rfl, rfl, rfl, rfl, rfl⟩

/-- Density, latent heat and slope factor are not negative. -/
theorem mo_signs {c : Consts ℝ} (hc : c.Phys) {i : EbInput ℝ} (hi : SaneInput i) {t0 : ℝ} {fl : Fluxes ℝ}
    (h1 : fl.q2 = i.rh2 * 0.622 * (methodEWSonntag i.t2 / (i.p - methodEWSonntag i.t2)) / 100)
    (h2 : fl.rho = i.p * 100 / (287.058 * (i.t2 * (1 + 0.608 * fl.q2))))
    (h3 : fl.lv = if c.zeroTemperature ≤ t0 then c.latHeatVaporize else c.latHeatSublimation) :
    0 < fl.rho ∧ 0 < fl.lv ∧ 0 ≤ Real.cos (i.slope * Real.pi / 180) := by
  have ew := ew_pos i.t2
  have hp := hi.pres
  have hq2 : 0 ≤ fl.q2 := by
    rw [h1]
    have : 0 < i.p - methodEWSonntag i.t2 := by linarith
    have := hi.hum
    positivity
  refine ⟨?_, ?_, ?_⟩
  · rw [h2]
    have : 0 < i.p := by linarith
    have := hi.air
    positivity
  · rw [h3]; split_ifs; exacts [hc.vap, hc.subl]
  · have hpi := Real.pi_pos
    apply Real.cos_nonneg_of_neg_pi_div_two_le_of_le
    · have := mul_le_mul_of_nonneg_right hi.slope.1 hpi.le
      linarith
    · have := mul_le_mul_of_nonneg_right hi.slope.2 hpi.le
      linarith

/-- **C74, direction.** In the Monin-Obukhov scheme the sensible heat flux is directed along the temperature difference and
the latent heat flux along the difference of mixing ratios, for every number of passes. -/
theorem C74_direction {c : Consts ℝ} (hc : c.Phys) (hm : c.stabilityCorrection = .mo) {wrf : Bool} {g : Grid ℝ}
    {i : EbInput ℝ} (hi : SaneInput i) {t0 : ℝ} {fl : Fluxes ℝ} (h : ebFluxes c wrf g i t0 = .ok fl) :
    (t0 ≤ i.t2 → 0 ≤ fl.h) ∧ (i.t2 ≤ t0 → fl.h ≤ 0) ∧ (fl.q0 ≤ fl.q2 → 0 ≤ fl.le) ∧ (fl.q2 ≤ fl.q0 → fl.le ≤ 0) := by
  obtain ⟨⟨p, s, o, _, e1, e2, _, _, _⟩, q1, q2, q3⟩ := mo_fluxes hm h (fun _ => True) (fun _ _ _ _ _ => trivial)
  obtain ⟨k1, k2, k3⟩ := mo_signs hc hi q1 q2 q3
  obtain ⟨n1, n2⟩ := o.nonneg hi.z0 hi.z
  have hcp := hc.cAir
  have hu := hi.wind
  have f1 : fl.h = fl.rho * c.specHeatAir * s.csT * i.u2 * Real.cos (i.slope * Real.pi / 180) * (i.t2 - t0) := by
    rw [e1, o.h]; ring
  have f2 : fl.le = fl.rho * fl.lv * s.csQ * i.u2 * Real.cos (i.slope * Real.pi / 180) * (fl.q2 - fl.q0) := by
    rw [e2, o.le]; ring
  have g1 : 0 ≤ fl.rho * c.specHeatAir * s.csT * i.u2 * Real.cos (i.slope * Real.pi / 180) := by positivity
  have g2 : 0 ≤ fl.rho * fl.lv * s.csQ * i.u2 * Real.cos (i.slope * Real.pi / 180) := by positivity
  rw [f1, f2]
  exact ⟨fun h => mul_nonneg g1 (by linarith), fun h => mul_nonpos_of_nonneg_of_nonpos g1 (by linarith),
    fun h => mul_nonneg g2 (by linarith), fun h => mul_nonpos_of_nonneg_of_nonpos g2 (by linarith)⟩

theorem phiM_nonpos {z l : ℝ} (hl : 0 ≤ l) (hz : 0 < z) (wrf : Bool) : phiM wrf z l ≤ 0 := by
  unfold phiM
  rcases hl.eq_or_lt with rfl | hl
  · rw [if_neg (lt_irrefl _), if_neg (lt_irrefl _)]
  · rw [if_pos hl]
    exact (C74_stable_function hl hz le_rfl wrf).1

/-- **C74, friction velocity (partial).** Full statement: the friction velocity is not negative. Missing: unstable air, where
C74_friction_refuted shows the opposite. -/
theorem C74_friction_partial {u z z0 l : ℝ} (hu : 0 ≤ u) (h0 : 0 < z0) (hz : z0 < z) (hl : 0 ≤ l) (wrf : Bool) :
    0 ≤ ustar wrf u z z0 l ∧ ustar wrf u z z0 l ≤ ustar wrf u z z0 0 := by
  have lp : 0 < Real.log (z / z0) := Real.log_pos (by rw [lt_div_iff₀ h0]; linarith)
  have hn := phiM_nonpos hl (h0.trans hz) wrf
  have e0 : phiM wrf z (0 : ℝ) = 0 := by unfold phiM; rw [if_neg (lt_irrefl _), if_neg (lt_irrefl _)]
  unfold ustar
  rw [e0, sub_zero]
  have : (0 : ℝ) ≤ 0.41 * u := by positivity
  refine ⟨div_nonneg this ?_, div_le_div_of_nonneg_left this lp ?_⟩
  · show 0 ≤ Real.log (z / z0) - phiM wrf z l
    linarith
  · show Real.log (z / z0) ≤ Real.log (z / z0) - phiM wrf z l
    linarith

/-- A pass on the stable branch stays there, and its coefficients are at most the neutral ones. -/
theorem PassOut.stable {c : Consts ℝ} (hc : c.Phys) {wrf : Bool} {i : EbInput ℝ} {t0 rho lv q0 q2 cs : ℝ} {p s : MoState ℝ}
    (o : PassOut c wrf i t0 rho lv q0 q2 cs p s) (h0 : 0 < i.z0) (hz : i.z0 < i.z) (hu : 0 ≤ i.u2) (hr : 0 < rho)
    (hcs : 0 ≤ cs) (ht : t0 ≤ i.t2) (ha : 0 < i.t2) (hl : 0 ≤ p.l) :
    0 ≤ s.l ∧ s.csT ≤ neutralCoefficient i.z i.z0 (i.z0 / 100) ∧ s.csQ ≤ neutralCoefficient i.z i.z0 (i.z0 / 10) := by
  have hz' : 0 < i.z := h0.trans hz
  have lp : 0 < Real.log (i.z / i.z0) := Real.log_pos (by rw [lt_div_iff₀ h0]; linarith)
  have lt : 0 < Real.log (i.z / (i.z0 / 100)) := Real.log_pos (by rw [lt_div_iff₀ (by positivity)]; linarith)
  have lq : 0 < Real.log (i.z / (i.z0 / 10)) := Real.log_pos (by rw [lt_div_iff₀ (by positivity)]; linarith)
  have n1 := phiM_nonpos hl hz' wrf
  have n2 := phiM_nonpos hl h0 wrf
  have nd : phiTq wrf i.z p.l - phiTq wrf i.z0 p.l ≤ 0 := by
    unfold phiTq
    rcases hl.eq_or_lt with hl | hl
    · rw [← hl, if_neg (lt_irrefl _), if_neg (lt_irrefl _), if_neg (lt_irrefl _), if_neg (lt_irrefl _), sub_self]
    · rw [if_pos hl, if_pos hl]
      have := (C74_stable_function hl h0 hz.le wrf).2
      linarith
  have habs : |Real.log (i.z / i.z0) - phiM wrf i.z p.l - phiM wrf i.z0 p.l| =
      Real.log (i.z / i.z0) - phiM wrf i.z p.l - phiM wrf i.z0 p.l := abs_of_pos (by linarith)
  have bound : ∀ L : ℝ, 0 < L → 0.41 * (0.41 / (Real.log (i.z / i.z0) - phiM wrf i.z p.l - phiM wrf i.z0 p.l)) /
      (L - (phiTq wrf i.z p.l - phiTq wrf i.z0 p.l)) ≤ 0.41 ^ 2 / (Real.log (i.z / i.z0) * L) := by
    intro L hL
    have d1 : 0 < Real.log (i.z / i.z0) - phiM wrf i.z p.l - phiM wrf i.z0 p.l := by linarith
    have d2 : 0 < L - (phiTq wrf i.z p.l - phiTq wrf i.z0 p.l) := by linarith
    have e : 0.41 * (0.41 / (Real.log (i.z / i.z0) - phiM wrf i.z p.l - phiM wrf i.z0 p.l)) /
      (L - (phiTq wrf i.z p.l - phiTq wrf i.z0 p.l)) = 0.41 ^ 2 /
        ((Real.log (i.z / i.z0) - phiM wrf i.z p.l - phiM wrf i.z0 p.l) * (L - (phiTq wrf i.z p.l - phiTq wrf i.z0 p.l))) := by
      rw [div_mul_eq_div_div]; ring
    rw [e]
    apply div_le_div_of_nonneg_left (by positivity) (by positivity)
    exact mul_le_mul (by linarith) (by linarith) hL.le d1.le
  refine ⟨?_, ?_, ?_⟩
  · rw [o.l]
    split_ifs with hh
    · exact le_rfl
    · have hT := (o.nonneg h0 hz).1
      have hcp := hc.cAir
      have hpos : 0 ≤ s.h := by
        rw [o.h]
        have : 0 ≤ i.t2 - t0 := by linarith
        positivity
      have hden : 0 ≤ Real.log (i.z / i.z0) - phiM wrf i.z p.l := by linarith
      have : 0 ≤ 0.41 * i.u2 / (Real.log (i.z / i.z0) - phiM wrf i.z p.l) := div_nonneg (by positivity) hden
      positivity
  · rw [o.csT, habs]; exact bound _ lt
  · rw [o.csQ, habs]; exact bound _ lq

/-- **C74, stable air.** Over a surface that is not warmer than the air the sensible heat flux is at most the one in
neutral stratification, the latent heat flux is at most the neutral one in magnitude, and the reported Obukhov length is
not negative. -/
theorem C74_stable {c : Consts ℝ} (hc : c.Phys) (hm : c.stabilityCorrection = .mo) {wrf : Bool} {g : Grid ℝ}
    {i : EbInput ℝ} (hi : SaneInput i) {t0 : ℝ} (ht : t0 ≤ i.t2) {fl : Fluxes ℝ} (h : ebFluxes c wrf g i t0 = .ok fl) :
    fl.h ≤ fl.rho * c.specHeatAir * neutralCoefficient i.z i.z0 (i.z0 / 100) * i.u2 * (i.t2 - t0) *
      Real.cos (i.slope * Real.pi / 180) ∧
    |fl.le| ≤ fl.rho * fl.lv * neutralCoefficient i.z i.z0 (i.z0 / 10) * i.u2 * |fl.q2 - fl.q0| *
      Real.cos (i.slope * Real.pi / 180) ∧
    ∃ l, fl.mol = some l ∧ 0 ≤ l := by
  obtain ⟨_, q1, q2, q3⟩ := mo_fluxes hm h (fun _ => True) (fun _ _ _ _ _ => trivial)
  obtain ⟨k1, k2, k3⟩ := mo_signs hc hi q1 q2 q3
  obtain ⟨⟨p, s, o, ⟨p1, p2, p3⟩, e1, e2, _, _, e5⟩, _⟩ := mo_fluxes hm h
    (fun s => 0 ≤ s.l ∧ s.csT ≤ neutralCoefficient i.z i.z0 (i.z0 / 100) ∧ s.csQ ≤ neutralCoefficient i.z i.z0 (i.z0 / 10))
    (fun p s h0 h1 o => o.stable hc hi.z0 hi.z hi.wind k1 k3 ht hi.air (by
      rcases Nat.eq_zero_or_pos p.niter with h | h
      · rw [h0 h]
      · exact (h1 h).1))
  obtain ⟨n1, n2⟩ := o.nonneg hi.z0 hi.z
  have hcp := hc.cAir
  have hu := hi.wind
  refine ⟨?_, ?_, s.l, e5, p1⟩
  · rw [e1, o.h]
    have : 0 ≤ i.t2 - t0 := by linarith
    gcongr
  · rw [e2, o.le]
    have : |fl.rho * fl.lv * s.csQ * i.u2 * (fl.q2 - fl.q0) * Real.cos (i.slope * Real.pi / 180)| =
        fl.rho * fl.lv * s.csQ * i.u2 * |fl.q2 - fl.q0| * Real.cos (i.slope * Real.pi / 180) := by
      rw [abs_mul, abs_mul, abs_of_nonneg k3, abs_of_nonneg (by positivity : 0 ≤ fl.rho * fl.lv * s.csQ * i.u2)]
    rw [this]
    gcongr

/-- **C74, refutation.** With two metres measurement height, one millimetre roughness length and any wind, the friction
velocity is negative at an Obukhov length of minus a hundredth of a millimetre. -/
theorem C74_friction_refuted {u : ℝ} (hu : 0 < u) (wrf : Bool) : ustar wrf u 2 0.001 (-0.00001) < 0 := by
  have key : Real.log (2 / 0.001) < phiM wrf 2 (-0.00001 : ℝ) := by
    unfold phiM
    rw [if_neg (by norm_num), if_pos (by norm_num)]
    simp only
    obtain ⟨x, hx, h40⟩ : ∃ x : ℝ, Transc.pow (1 - 16 * 2 / (-0.00001 : ℝ)) 0.25 = x ∧ 40 ≤ x := by
      refine ⟨_, rfl, ?_⟩
      show (40 : ℝ) ≤ (1 - 16 * 2 / (-0.00001 : ℝ)) ^ (0.25 : ℝ)
      have : (40 : ℝ) = ((40 : ℝ) ^ (4 : ℝ)) ^ (0.25 : ℝ) := by
        rw [← Real.rpow_mul (by norm_num)]; norm_num
      rw [this]
      apply Real.rpow_le_rpow (by positivity) _ (by norm_num)
      have : (40 : ℝ) ^ (4 : ℝ) = 40 ^ 4 := by exact_mod_cast Real.rpow_natCast 40 4
      rw [this]; norm_num
    rw [hx]
    have hx2 : Transc.pow x 2 = x ^ 2 := Real.rpow_two x
    rw [hx2]
    have hat : Real.arctan x < Real.pi / 2 := Real.arctan_lt_pi_div_two x
    have l1 : Real.log 20 ≤ Real.log ((1 + x) / 2.0) := Real.log_le_log (by norm_num) (by norm_num; linarith)
    have l2 : Real.log 800 ≤ Real.log ((1 + x ^ 2) / 2.0) := Real.log_le_log (by norm_num) (by norm_num; nlinarith)
    have l3 : 2 * Real.log 20 + Real.log 800 = Real.log (2 / 0.001) + Real.log 160 := by
      rw [show (2 : ℝ) * Real.log 20 = Real.log (20 ^ 2) by rw [Real.log_pow]; push_cast; ring,
        ← Real.log_mul (by norm_num) (by norm_num), ← Real.log_mul (by norm_num) (by norm_num)]
      norm_num
    have l4 : 2 < Real.log 160 := by
      rw [Real.lt_log_iff_exp_lt (by norm_num)]
      have : Real.exp 2 = Real.exp 1 ^ 2 := by rw [← Real.exp_nat_mul]; norm_num
      rw [this]
      have := Real.exp_one_lt_d9
      have := Real.exp_pos 1
      nlinarith
    have hpi := Real.pi_lt_d2
    show Real.log (2 / 0.001) < 2 * Real.log ((1 + x) / 2.0) + Real.log ((1 + x ^ 2) / 2.0) - 2 * Real.arctan x + Real.pi / 2.0
    norm_num at *
    linarith
  unfold ustar
  apply div_neg_of_pos_of_neg (by positivity)
  show Real.log (2 / 0.001) - phiM wrf 2 (-0.00001 : ℝ) < 0
  linarith

/-- Non-vacuity: a stable winter situation with wind. -/
noncomputable def exMo : EbInput ℝ := ⟨3600, 2, 1/1000, 270, 60, 700, 3, 0, 10, 268, 268, some 250, none⟩

theorem exMo_sane : SaneInput exMo := by
  refine ⟨by norm_num [exMo], by norm_num [exMo], by norm_num [exMo], ?_, by norm_num [exMo], by norm_num [exMo], by norm_num [exMo]⟩
  unfold methodEWSonntag exMo
  rw [if_neg (by norm_num)]
  have : Real.exp (22.46 * (270 - 273.16) / (270 - 0.55)) ≤ 1 := by rw [Real.exp_le_one_iff]; norm_num
  show 6.112 * Real.exp _ < 700
  linarith

theorem exMo_fluxes (t0 : ℝ) : ∃ fl, ebFluxes { Consts.default ℝ with stabilityCorrection := .mo } false
    ⟨[⟨1/10, 268, 0, 1/2, 0⟩], 1, 0, 0, 0⟩ exMo t0 = .ok fl := by
  unfold ebFluxes
  obtain ⟨r, _, _, _, h8, _⟩ := C37_terminates { Consts.default ℝ with stabilityCorrection := .mo } false exMo t0 _ _ _ _ _
  have h8' := h8 8 le_rfl
  unfold moIterate at h8'
  simp only [incomingLongwave, exMo, ok_bind] at h8' ⊢
  rw [h8']
  exact ⟨_, rfl⟩

example : ∃ fl, ebFluxes { Consts.default ℝ with stabilityCorrection := .mo } false
    ⟨[⟨1/10, 268, 0, 1/2, 0⟩], 1, 0, 0, 0⟩ exMo 268 = .ok fl ∧ 0 ≤ fl.h := by
  obtain ⟨fl, h⟩ := exMo_fluxes 268
  have hp : ({ Consts.default ℝ with stabilityCorrection := .mo } : Consts ℝ).Phys := by
    constructor <;> norm_num [Consts.default]
  exact ⟨fl, h, (C74_direction hp rfl exMo_sane h).1 (by norm_num [exMo])⟩

end Cosipy
