import Verif.Model.Node
import Verif.Lemmas.Arith
import Verif.Spec.Phys
import Mathlib.Tactic.FieldSimp
import Mathlib.Tactic.Ring

/-!
# C40 A layer reports the density it was created with

Refuted: a dry layer created with density `ρ` below that of ice reports a larger one. Full statement:
`(Node.new c h ρ t 0 none).density c = ρ`. The exact excess is `C40_reported`; it is below `ρ_air²/ρ_ice`, about
1.6 g m⁻³ (`C40_reported_partial`); pure ice is exact.
-/

set_option autoImplicit false
set_option linter.unusedSectionVars false

namespace Cosipy
section
variable {K : Type} [Field K] [LinearOrder K] [IsStrictOrderedRing K]

/-- **C40, exact value.** A dry layer created with density `ρ ≤ ρ_ice` reports
`ρ + (1 - ρ/ρ_ice) ρ_air²/ρ_ice`. -/
theorem C40_reported {c : Consts K} (hc : c.Phys) (h t : K) {rho : K} (hle : rho ≤ c.iceDensity) :
    (Node.new c h rho t 0 none).density c =
      rho + (1 - rho / c.iceDensity) * (c.airDensity * c.airDensity / c.iceDensity) := by
  have hi := hc.ice
  have ha := hc.air
  have hr : rho / c.iceDensity ≤ 1 := by rw [div_le_one hi]; exact hle
  unfold Node.density Node.airPorosity Node.new
  simp only
  rw [pyMax_eq, max_eq_right]
  · field_simp
    ring
  · have : (rho - (1 - rho / c.iceDensity) * c.airDensity) / c.iceDensity ≤ 1 := by
      rw [div_le_one hi]
      nlinarith
    linarith

/-- **C40, refuted.** For every density below that of ice the reported density is larger. -/
theorem C40_refuted {c : Consts K} (hc : c.Phys) (h t : K) {rho : K} (hlt : rho < c.iceDensity) :
    rho < (Node.new c h rho t 0 none).density c := by
  have hi := hc.ice
  have ha := hc.air
  rw [C40_reported hc h t hlt.le]
  have : 0 < (1 - rho / c.iceDensity) * (c.airDensity * c.airDensity / c.iceDensity) := by
    apply mul_pos
    · have : rho / c.iceDensity < 1 := by rw [div_lt_one hi]; exact hlt
      linarith
    · positivity
  linarith

/-- **C40, what holds.** The reported density is never below the given one, exceeds it by at most `ρ_air²/ρ_ice`, keeps
the order of densities, and is exact for ice. -/
theorem C40_reported_partial {c : Consts K} (hc : c.Phys) (h t h' t' : K) {rho rho' : K} (h0 : 0 ≤ rho)
    (hlt : rho < rho') (hle : rho' ≤ c.iceDensity) :
    rho ≤ (Node.new c h rho t 0 none).density c ∧
    (Node.new c h rho t 0 none).density c ≤ rho + c.airDensity * c.airDensity / c.iceDensity ∧
    (Node.new c h rho t 0 none).density c < (Node.new c h' rho' t' 0 none).density c ∧
    (Node.new c h c.iceDensity t 0 none).density c = c.iceDensity ∧ (Node.new c h c.iceDensity t 0 none).iceFraction = 1 := by
  have hi := hc.ice
  have ha := hc.air
  have hai : c.airDensity < c.iceDensity := hc.air_lt.trans_le hc.thr_le
  refine ⟨(C40_refuted hc h t (hlt.trans_le hle)).le, ?_, ?_, ?_, ?_⟩
  · rw [C40_reported hc h t (hlt.le.trans hle)]
    have h1 : 0 ≤ rho / c.iceDensity := by positivity
    have h2 : 0 ≤ c.airDensity * c.airDensity / c.iceDensity := by positivity
    nlinarith
  · rw [C40_reported hc h t (hlt.le.trans hle), C40_reported hc h' t' hle]
    have hq : c.airDensity * c.airDensity / c.iceDensity / c.iceDensity < 1 := by
      rw [div_div, div_lt_one (by positivity)]
      exact mul_lt_mul hai hai.le ha hi.le
    have e : rho' + (1 - rho' / c.iceDensity) * (c.airDensity * c.airDensity / c.iceDensity) -
        (rho + (1 - rho / c.iceDensity) * (c.airDensity * c.airDensity / c.iceDensity)) =
        (rho' - rho) * (1 - c.airDensity * c.airDensity / c.iceDensity / c.iceDensity) := by
      field_simp
      ring
    have : 0 < (rho' - rho) * (1 - c.airDensity * c.airDensity / c.iceDensity / c.iceDensity) :=
      mul_pos (by linarith) (by linarith)
    linarith
  · rw [C40_reported hc h t le_rfl, div_self hi.ne']
    ring
  · unfold Node.new
    simp only
    rw [div_self hi.ne', sub_self, zero_mul, sub_zero, div_self hi.ne']

/-- **C40, given ice fraction.** When the ice fraction is given, the density argument has no effect. -/
theorem C40_fraction_given (c : Consts K) (h t w f rho rho' : K) :
    Node.new c h rho t w (some f) = Node.new c h rho' t w (some f) := rfl

/-- Non-vacuity: fresh snow of 250 kg m⁻³ with the shipped constants; the excess is not zero. -/
example : (Consts.default K).Phys ∧ (250 : K) < (Consts.default K).iceDensity ∧
    (Node.new (Consts.default K) 1 250 270 0 none).density (Consts.default K) ≠ 250 := by
  have h : (250 : K) < (Consts.default K).iceDensity := by norm_num [Consts.default]
  exact ⟨Consts.default_phys, h, (C40_refuted Consts.default_phys 1 270 h).ne'⟩

end
end Cosipy
