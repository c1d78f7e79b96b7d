import Verif.Props.C33
import Verif.Props.C34
import Verif.Props.C35
import Verif.Props.C37
import Verif.Props.C57
import Verif.Spec.Energy
import Verif.Lemmas.Example

/-!
# C73 — the surface energy balance closes

The fluxes of a step are those of the energy balance at the recorded surface temperature (`C73_fluxes`). If the solver's
answer balances the fluxes up to `ε` and the balance falls with rising temperature, the recorded fluxes sum to the melt
energy up to `ε`, and nothing melts below the melting point beyond `ε` (`C73_closed_partial`). In calm air the balance does fall
(`C73_calm`), and so it does in the Richardson scheme where the surface is warmer than the air (`C73_unstable`). The fall-back for a solver that failed minimises the *signed* balance: it then answers the melting point
(`C73_fallback`), so where the balanced temperature is below 220 K the surface is set to the melting point and the missing
energy is dropped (`C73_cold`, `C73_cold_night`).
-/

set_option autoImplicit false
set_option linter.unusedSectionVars false

namespace Cosipy
section
variable {K : Type} [Field K] [LinearOrder K] [IsStrictOrderedRing K] [Transc K]
variable {sv : Solvers K} {fuel : Nat} {c : Consts K} {r : RunCfg K}

/-- Setting the temperature of the uppermost layer does not change the fluxes at a given surface temperature. -/
theorem ebFluxes_top {wrf : Bool} {g : Grid K} {top : Node K} {rest : List (Node K)} (hg : g.nodes = top :: rest) (t : K)
    (i : EbInput K) (t0 : K) :
    ebFluxes c wrf { g with nodes := { top with temperature := t } :: rest } i t0 = ebFluxes c wrf g i t0 := by
  unfold ebFluxes
  have e1 : Grid.node { g with nodes := { top with temperature := t } :: rest } 0 = .ok { top with temperature := t } := by
    unfold Grid.node; exact pyGet_zero
  have e2 : g.node 0 = .ok top := by unfold Grid.node; rw [hg]; exact pyGet_zero
  rw [e1, e2]
  rfl

/-- Whether fluxes can be computed does not depend on the surface temperature. -/
theorem ebFluxes_total {wrf : Bool} {g : Grid K} {i : EbInput K} {t0 : K} {fl : Fluxes K}
    (h : ebFluxes c wrf g i t0 = .ok fl) (t : K) : ∃ fl', ebFluxes c wrf g i t = .ok fl' := by
  unfold ebFluxes at h ⊢
  simp only [bind_eq_ok] at h
  obtain ⟨li, h1, x, hx, top, h2, lam, h3, _⟩ := h
  simp only [h1, ok_bind]
  cases hm : c.stabilityCorrection with
  | mo =>
    obtain ⟨s, _, _, _, h8, _⟩ := C37_terminates c wrf i t
      ((i.p * 100) / (287.058 * (i.t2 * (1 + 0.608 * ((i.rh2 * 0.622 * (methodEWSonntag i.t2 / (i.p - methodEWSonntag i.t2))) / 100)))))
      (if c.zeroTemperature ≤ t then c.latHeatVaporize else c.latHeatSublimation)
      ((100 * 0.622 * (methodEWSonntag t / (i.p - methodEWSonntag t))) / 100)
      ((i.rh2 * 0.622 * (methodEWSonntag i.t2 / (i.p - methodEWSonntag i.t2))) / 100)
      (Transc.cos (i.slope * Transc.pi / 180))
    have h8' := h8 8 le_rfl
    unfold moIterate at h8'
    simp only [h8', ok_bind, pure_bind, h2, h3]
    exact ⟨_, rfl⟩
  | ri =>
    simp only [ok_bind, h2, h3]
    exact ⟨_, rfl⟩
  | other => rw [hm] at hx; cases hx

/-- If the fluxes can be computed at all, there is a balance function. -/
theorem balance_exists {wrf : Bool} {g : Grid K} {i : EbInput K} {t0 : K} {fl : Fluxes K}
    (h : ebFluxes c wrf g i t0 = .ok fl) (sw : K) : ∃ R, Balance c wrf g i sw R := by
  choose F hF using ebFluxes_total h
  exact ⟨fun t => sw + (F t).li + (F t).lo + (F t).h + (F t).le + (F t).b + (F t).qrr, fun t => ⟨F t, hF t, rfl⟩⟩

theorem Balance.at {wrf : Bool} {g : Grid K} {i : EbInput K} {sw : K} {R : K → K} (hR : Balance c wrf g i sw R) {t : K}
    {fl : Fluxes K} (h : ebFluxes c wrf g i t = .ok fl) : R t = sw + fl.li + fl.lo + fl.h + fl.le + fl.b + fl.qrr := by
  obtain ⟨fl', h', e⟩ := hR t
  rw [h, ok_inj] at h'
  rw [e, h']

/-- What a surface temperature update did. -/
theorem update_decomp {wrf : Bool} {g g' : Grid K} {mk : K → K → EbInput K} {sw ts : K} {fl : Fluxes K}
    (h : updateSurfaceTemperature sv c wrf g mk sw = .ok (g', ts, fl)) :
    ∃ tz1 tz2 top x, interpSubT c g = .ok (tz1, tz2) ∧ g.nodes.head? = some top ∧
      solveSurfaceTemperature sv c (ebOptim c wrf g (mk tz1 tz2) sw) (min top.temperature 270) = .ok x ∧
      ts = min c.zeroTemperature x ∧ ebFluxes c wrf g (mk tz1 tz2) ts = .ok fl := by
  unfold updateSurfaceTemperature at h
  simp only [bind_eq_ok] at h
  obtain ⟨⟨tz1, tz2⟩, hi, top, htop, x, hx, g1, hg1, fl', hfl, h⟩ := h
  rw [pure_eq_ok] at h
  cases h
  rw [pyMin_eq] at hg1 hfl hx
  rw [pyMin_eq]
  unfold Grid.node at htop
  cases hn : g.nodes with
  | nil => rw [hn] at htop; cases htop
  | cons a l =>
    rw [hn, pyGet_zero, ok_inj] at htop
    subst htop
    refine ⟨tz1, tz2, a, x, hi, rfl, hx, rfl, ?_⟩
    have e : g' = { g with nodes := { a with temperature := min c.zeroTemperature x } :: l } := by
      unfold Grid.setNodeTemperature Grid.modifyNode at hg1
      simp only [bind_eq_ok] at hg1
      obtain ⟨ns, hns, he⟩ := hg1
      rw [pure_eq_ok] at he
      rw [← he]
      obtain ⟨k, hk, e⟩ := pyModify_eq_ok.1 hns
      have hk0 : k = 0 := by
        rw [hn] at hk
        have := normIdx_eq_some_nonneg (by omega) hk
        omega
      rw [e, hk0, hn]; rfl
    rw [e, ebFluxes_top hn] at hfl
    exact hfl

/-- **C73, fluxes.** The recorded fluxes of a step are those of one energy balance at the recorded surface temperature,
taken over the column at the time of the update and the forcing of the step; the recorded melt energy is what is left of
it, if positive. -/
theorem C73_fluxes {s s' : SimState K} {f : Forcing K} {o : StepOut K} (h : step sv fuel c r s f = .ok (s', o)) :
    ∃ g i R x, Balance c r.wrf g i o.swnet R ∧ i.t2 = f.t2 ∧ i.rh2 = f.rh2 ∧ i.p = f.pres ∧ i.u2 = f.u2 ∧
      i.rain = o.rain ∧ i.lwin = f.lwin ∧ i.n = f.n ∧ i.z0 = o.z0 ∧ i.dt = r.dt ∧ i.z = r.z ∧ i.slope = r.slope ∧
      interpSubT c g = .ok (i.tz1, i.tz2) ∧
      (∃ top, g.nodes.head? = some top ∧
        solveSurfaceTemperature sv c (ebOptim c r.wrf g i o.swnet) (min top.temperature 270) = .ok x) ∧
      o.ts = min c.zeroTemperature x ∧
      R o.ts = o.swnet + o.fluxes.li + o.fluxes.lo + o.fluxes.h + o.fluxes.le + o.fluxes.b + o.fluxes.qrr ∧
      o.meltEnergy = max 0 (R o.ts) := by
  obtain ⟨st⟩ := step_stages h
  obtain ⟨tz1, tz2, top, x, h1, h2, h3, h4, h5⟩ := update_decomp st.surface
  obtain ⟨R, hR⟩ := balance_exists h5 o.swnet
  have hb := hR.at h5
  have ho := st.ts
  have hme := st.meltEnergy
  refine ⟨_, _, R, x, hR, rfl, rfl, rfl, rfl, rfl, rfl, rfl, rfl, rfl, rfl, rfl, h1, ⟨top, h2, h3⟩, h4, hb, ?_⟩
  rw [hme, hb]
  unfold meltEnergy
  rw [pyMax_eq]
  congr 1
  ring

/-- **C73, closure (partial).** Full statement: in every step the recorded fluxes sum up to the melt energy, up to the
solver's tolerance. Missing: it is conditional on the solver's answer being balanced, which C73_cold_night refutes. If the solver's answer `x` balances the fluxes up to `ε`, and the balance at the melting point is not
smaller than at a warmer `x`, then the recorded fluxes sum up to the melt energy up to `ε`; below the melting point the
melt energy is at most `ε`. With an exact answer (`ε = 0`) the balance closes and nothing melts below the melting point. -/
theorem C73_closed_partial {R : K → K} {ts x me ε : K} (hts : ts = min c.zeroTemperature x) (hme : me = max 0 (R ts))
    (hx : |R x| ≤ ε) (hmono : c.zeroTemperature ≤ x → R x ≤ R c.zeroTemperature) :
    |R ts - me| ≤ ε ∧ (ts < c.zeroTemperature → me ≤ ε) := by
  obtain ⟨h1, h2⟩ := abs_le.1 hx
  have hε : 0 ≤ ε := (abs_nonneg _).trans hx
  have key : -ε ≤ R ts := by
    rcases le_total c.zeroTemperature x with hle | hle
    · rw [hts, min_eq_left hle]; exact h1.trans (hmono hle)
    · rw [hts, min_eq_right hle]; exact h1
  refine ⟨?_, fun hlt => ?_⟩
  · rw [hme]
    rcases le_total 0 (R ts) with h | h
    · rw [max_eq_right h, sub_self, abs_zero]; exact hε
    · rw [max_eq_left h, sub_zero, abs_of_nonpos h]; linarith
  · have hxlt : x < c.zeroTemperature := by
      by_contra hn
      rw [hts, min_eq_left (not_lt.1 hn)] at hlt
      exact lt_irrefl _ hlt
    rw [hme, hts, min_eq_right hxlt.le]
    exact max_le hε h2

/-- The external minimiser finds the minimum within its bounds. -/
def Solvers.ExactMin (sv : Solvers K) : Prop :=
  ∀ m f x lo hi p, sv.minimize m f x lo hi = .ok p → lo ≤ p ∧ p ≤ hi ∧
    ∀ v, f p = .ok v → ∀ y w, lo ≤ y → y ≤ hi → f y = .ok w → v ≤ w

theorem ebOptim_balance {wrf : Bool} {g : Grid K} {i : EbInput K} {sw : K} {R : K → K} (hR : Balance c wrf g i sw R)
    (hm : c.sfcTemperatureMethod = .newton ∨ c.sfcTemperatureMethod = .secant) (t : K) :
    ebOptim c wrf g i sw t = .ok (R t) := by
  obtain ⟨fl, h, e⟩ := hR t
  unfold ebOptim
  rw [h, e]
  rcases hm with hm | hm <;> rw [hm] <;> rfl

/-- The first attempt of Newton or Secant failed: no convergence, or an answer below 220 K. -/
def FirstFailed (sv : Solvers K) (c : Consts K) (f : K → M K) (guess : K) : Prop :=
  (c.sfcTemperatureMethod = .newton ∧ (sv.newton f guess = .error .runtime ∨ sv.newton f guess = .error .value ∨
    ∃ x, sv.newton f guess = .ok x ∧ x < 220)) ∨
  (c.sfcTemperatureMethod = .secant ∧ (secant f guess 0.01 50 none 0 = .error .runtime ∨
    secant f guess 0.01 50 none 0 = .error .value ∨ ∃ x k, secant f guess 0.01 50 none 0 = .ok (x, k) ∧ x < 220))

/-- **C73, fall-back.** If the first attempt fails and the balance falls with rising temperature, an exact minimiser
answers the upper bound of its interval: the recorded surface temperature is the melting point, however cold it is. -/
theorem C73_fallback (hmin : sv.ExactMin) (hz : 220 ≤ c.zeroTemperature) (hz' : c.zeroTemperature ≤ 330) {R : K → K}
    (hanti : ∀ a b, 220 ≤ a → a < b → b ≤ 330 → R b < R a) {f : K → M K} (hf : ∀ t, f t = .ok (R t)) {guess x : K}
    (hfail : FirstFailed sv c f guess) (h : solveSurfaceTemperature sv c f guess = .ok x) :
    min c.zeroTemperature x = c.zeroTemperature := by
  have key : ∀ hi, c.zeroTemperature ≤ hi → hi ≤ 330 → sv.minimize .slsqp f guess 220 hi = .ok x →
      min c.zeroTemperature x = c.zeroTemperature := by
    intro hi h1 h2 hx
    obtain ⟨hl, hu, hv⟩ := hmin _ _ _ _ _ _ hx
    have : R x ≤ R hi := hv _ (hf x) hi _ (hz.trans h1) le_rfl (hf hi)
    have hxe : x = hi := by
      by_contra hne
      exact absurd (hanti x hi hl (lt_of_le_of_ne hu hne) h2) (not_lt.2 this)
    rw [hxe]
    exact min_eq_left h1
  unfold solveSurfaceTemperature at h
  rcases hfail with ⟨hm, hc⟩ | ⟨hm, hc⟩
  · rw [hm] at h
    simp only at h
    apply key 330 hz' le_rfl
    rcases hc with hc | hc | ⟨y, hc, hy⟩
    · rw [hc] at h; exact h
    · rw [hc] at h; exact h
    · rw [hc] at h
      simp only [ok_bind, checkResidualClip, if_pos hy] at h
      exact h
  · rw [hm] at h
    simp only at h
    apply key c.zeroTemperature le_rfl hz'
    rcases hc with hc | hc | ⟨y, k, hc, hy⟩
    · rw [hc] at h; exact h
    · rw [hc] at h; exact h
    · rw [hc] at h
      simp only [ok_bind, if_pos hy] at h
      exact h

/-- **C73, cold.** With the Newton method, a root finder that answers only roots and an exact minimiser: if the balance
falls with rising temperature and is negative at 220 K already, every surface temperature that is returned is the melting
point, and the recorded fluxes sum to less than zero: that energy is dropped. -/
theorem C73_cold (hmin : sv.ExactMin) (hroot : ∀ f x p, sv.newton f x = .ok p → f p = .ok 0)
    (hm : c.sfcTemperatureMethod = .newton) (hz : 220 ≤ c.zeroTemperature) (hz' : c.zeroTemperature ≤ 330) {wrf : Bool}
    {g g' : Grid K} {mk : K → K → EbInput K} {sw ts : K} {fl : Fluxes K}
    (h : updateSurfaceTemperature sv c wrf g mk sw = .ok (g', ts, fl))
    (hcold : ∀ tz1 tz2, interpSubT c g = .ok (tz1, tz2) → ∀ R, Balance c wrf g (mk tz1 tz2) sw R →
      R 220 < 0 ∧ ∀ a b, 220 ≤ a → a < b → R b < R a)
    (hne : ∀ f x e, sv.newton f x = .error e → e = .runtime ∨ e = .value) :
    ts = c.zeroTemperature ∧ sw + fl.li + fl.lo + fl.h + fl.le + fl.b + fl.qrr < 0 := by
  obtain ⟨tz1, tz2, top, x, h1, h2, h3, h4, h5⟩ := update_decomp h
  obtain ⟨R, hR⟩ := balance_exists h5 sw
  obtain ⟨hneg, hanti⟩ := hcold tz1 tz2 h1 R hR
  have hf := ebOptim_balance hR (Or.inl hm)
  have hts : ts = c.zeroTemperature := by
    rw [h4]
    refine C73_fallback hmin hz hz' (fun a b ha hab _ => hanti a b ha hab) hf (Or.inl ⟨hm, ?_⟩) h3
    cases hn : sv.newton (ebOptim c wrf g (mk tz1 tz2) sw) (min top.temperature 270) with
    | error e => rcases hne _ _ _ hn with rfl | rfl <;> simp
    | ok p =>
      refine Or.inr (Or.inr ⟨p, rfl, ?_⟩)
      by_contra hp
      have := hroot _ _ _ hn
      rw [hf, ok_inj] at this
      rcases (not_lt.1 hp).eq_or_lt with he | hlt
      · rw [he] at hneg; linarith
      · have := hanti 220 p le_rfl hlt; linarith
  refine ⟨hts, ?_⟩
  rw [← hR.at h5, hts]
  rcases hz.eq_or_lt with he | hlt
  · rw [← he]; exact hneg
  · exact (hanti 220 _ le_rfl hlt).trans hneg

end

section
variable {c : Consts ℝ} {wrf : Bool} {g : Grid ℝ} {i : EbInput ℝ} {sw : ℝ} {R : ℝ → ℝ}

/-- Outgoing longwave, ground and rain heat flux at a surface temperature. -/
theorem ebFluxes_parts {t : ℝ} {fl : Fluxes ℝ} (h : ebFluxes c wrf g i t = .ok fl) :
    ∃ top lam, g.node 0 = .ok top ∧ top.thermalConductivity c = .ok lam ∧
      incomingLongwave c i (i.rh2 * methodEWSonntag i.t2 / 100) = .ok fl.li ∧
      fl.lo = -c.surfaceEmissionCoeff * c.sigma * t ^ 4 ∧
      fl.b = lam * (c.zlt1 / (c.zlt2 - c.zlt1 + c.zlt1) * ((i.tz2 - i.tz1) / (c.zlt2 - c.zlt1)) +
        (c.zlt2 - c.zlt1) / (c.zlt2 - c.zlt1 + c.zlt1) * ((i.tz1 - t) / c.zlt1)) ∧
      fl.qrr = c.waterDensity * c.specHeatWater * (i.rain / 1000 / i.dt) * (i.t2 - t) ∧
      fl.q0 = 100 * 0.622 * (methodEWSonntag t / (i.p - methodEWSonntag t)) / 100 := by
  unfold ebFluxes at h
  simp only [bind_eq_ok] at h
  obtain ⟨li, h1, x, hx, top, h2, lam, h3, h⟩ := h
  rw [pure_eq_ok] at h
  subst h
  have e : Transc.pow t 4 = t ^ 4 := by
    show t ^ (4 : ℝ) = t ^ 4
    exact_mod_cast Real.rpow_natCast t 4
  refine ⟨top, lam, h2, h3, h1, ?_, rfl, rfl, rfl⟩
  show -c.surfaceEmissionCoeff * c.sigma * Transc.pow t 4 = _
  rw [e]

/-- Settings under which radiation, conduction and rain cool a warmer surface more. -/
structure Cooling (c : Consts ℝ) (i : EbInput ℝ) : Prop where
  emission : 0 < c.surfaceEmissionCoeff
  sigma : 0 < c.sigma
  depth1 : 0 < c.zlt1
  depth2 : c.zlt1 < c.zlt2
  water : 0 ≤ c.waterDensity
  heat : 0 ≤ c.specHeatWater
  rain : 0 ≤ i.rain
  dt : 0 < i.dt

/-- Radiation, conduction and rain heat fall with rising surface temperature. -/
theorem slow_parts_antitone (hc : Cooling c i) (hl : ∀ top lam, g.node 0 = .ok top → top.thermalConductivity c = .ok lam →
    0 ≤ lam) {a b : ℝ} (ha : 0 ≤ a) (hab : a < b) {fa fb : Fluxes ℝ} (h1 : ebFluxes c wrf g i a = .ok fa)
    (h2 : ebFluxes c wrf g i b = .ok fb) : fb.li = fa.li ∧ fb.lo + fb.b + fb.qrr < fa.lo + fa.b + fa.qrr := by
  obtain ⟨top, lam, e1, e2, e3, e4, e5, e6, _⟩ := ebFluxes_parts h1
  obtain ⟨top', lam', f1, f2, f3, f4, f5, f6, _⟩ := ebFluxes_parts h2
  have ht : top = top' := ok_inj.1 (e1.symm.trans f1)
  subst ht
  have hlam : lam = lam' := ok_inj.1 (e2.symm.trans f2)
  subst hlam
  refine ⟨ok_inj.1 (f3.symm.trans e3), ?_⟩
  have hlam := hl _ _ e1 e2
  have h4 : a ^ 4 < b ^ 4 := pow_lt_pow_left₀ hab ha (by norm_num)
  have hk : 0 < c.surfaceEmissionCoeff * c.sigma := mul_pos hc.emission hc.sigma
  have r1 : fb.lo < fa.lo := by rw [e4, f4]; nlinarith
  have r2 : fb.b ≤ fa.b := by
    rw [e5, f5]
    apply mul_le_mul_of_nonneg_left _ hlam
    have hd := hc.depth1
    have hd2 := hc.depth2
    have : 0 ≤ (c.zlt2 - c.zlt1) / (c.zlt2 - c.zlt1 + c.zlt1) := div_nonneg (by linarith) (by linarith)
    have h5 : (i.tz1 - b) / c.zlt1 ≤ (i.tz1 - a) / c.zlt1 := by
      apply div_le_div_of_nonneg_right _ hd.le
      linarith
    have := mul_le_mul_of_nonneg_left h5 this
    linarith
  have r3 : fb.qrr ≤ fa.qrr := by
    rw [e6, f6]
    have : 0 ≤ c.waterDensity * c.specHeatWater * (i.rain / 1000 / i.dt) :=
      mul_nonneg (mul_nonneg hc.water hc.heat) (div_nonneg (div_nonneg hc.rain (by norm_num)) hc.dt.le)
    nlinarith
  linarith

/-- **C73, calm air.** Without wind the balance falls strictly with rising surface temperature, in both stability
schemes: there is at most one balanced temperature, and the hypotheses of the theorems above hold. -/
theorem C73_calm (hc : Cooling c i) (hm : c.stabilityCorrection = .ri ∨ c.stabilityCorrection = .mo) (hu : i.u2 = 0)
    (hl : ∀ top lam, g.node 0 = .ok top → top.thermalConductivity c = .ok lam → 0 ≤ lam) (hR : Balance c wrf g i sw R)
    {a b : ℝ} (ha : 0 ≤ a) (hab : a < b) : R b < R a := by
  obtain ⟨fa, h1, e1⟩ := hR a
  obtain ⟨fb, h2, e2⟩ := hR b
  have van : ∀ {t fl}, ebFluxes c wrf g i t = .ok fl → fl.h = 0 ∧ fl.le = 0 := by
    intro t fl h
    rcases hm with hm | hm
    · exact C35_vanish hm h (Or.inl hu)
    · exact C37_calm hm hu h
  obtain ⟨a1, a2⟩ := van h1
  obtain ⟨b1, b2⟩ := van h2
  obtain ⟨hli, hlt⟩ := slow_parts_antitone hc hl ha hab h1 h2
  rw [e1, e2, a1, a2, b1, b2, hli]
  linarith

/-- Over ice the saturation vapour pressure grows with temperature. -/
theorem ew_mono {a b : ℝ} (ha : 0.55 < a) (hab : a ≤ b) (hb : b < 273.16) : methodEWSonntag a ≤ methodEWSonntag b := by
  unfold methodEWSonntag
  rw [if_neg (not_le.2 hb), if_neg (not_le.2 (hab.trans_lt hb))]
  apply mul_le_mul_of_nonneg_left _ (by norm_num)
  apply Real.exp_le_exp.2
  norm_num at ha hb ⊢
  rw [div_le_div_iff₀ (by linarith) (by linarith)]
  nlinarith

theorem ratio_mono {x y p : ℝ} (hx : 0 < x) (hxy : x ≤ y) (hy : y < p) : x / (p - x) ≤ y / (p - y) := by
  rw [div_le_div_iff₀ (by linarith) (by linarith)]
  have : x * p ≤ y * p := mul_le_mul_of_nonneg_right hxy (by linarith)
  linarith

theorem log_ratio_pos {z z0 k : ℝ} (h0 : 0 < z0) (hz : z0 < z) (hk : 1 ≤ k) : 0 < Real.log (z / (z0 / k)) := by
  apply Real.log_pos
  rw [one_lt_div (div_pos h0 (by linarith))]
  exact (div_le_self h0.le hk).trans_lt hz

theorem cos_slope_nonneg {s : ℝ} (h : -90 ≤ s ∧ s ≤ 90) : 0 ≤ Real.cos (s * Real.pi / 180) := by
  have := Real.pi_pos
  apply Real.cos_nonneg_of_neg_pi_div_two_le_of_le
  · have := mul_le_mul_of_nonneg_right h.1 this.le
    linarith
  · have := mul_le_mul_of_nonneg_right h.2 this.le
    linarith

/-- **C73, unstable air.** Where the surface is at least as warm as the air, and below the melting point, the balance
falls strictly with rising surface temperature in the Richardson scheme. -/
theorem C73_unstable (hc : Cooling c i) (hp : c.Phys) (hm : c.stabilityCorrection = .ri) (hi : SaneInput i)
    (hz : c.zeroTemperature ≤ 273.16)
    (hl : ∀ top lam, g.node 0 = .ok top → top.thermalConductivity c = .ok lam → 0 ≤ lam) (hR : Balance c wrf g i sw R)
    {a b : ℝ} (ha : i.t2 ≤ a) (ha' : 1 ≤ a) (hab : a < b) (hb : b < c.zeroTemperature)
    (hpb : methodEWSonntag b < i.p) : R b < R a := by
  obtain ⟨fa, h1, e1⟩ := hR a
  obtain ⟨fb, h2, e2⟩ := hR b
  obtain ⟨hli, hlt⟩ := slow_parts_antitone hc hl (by linarith) hab h1 h2
  obtain ⟨a1, a2, a3, a4, a5, a6, a7⟩ := ri_fluxes hm h1
  obtain ⟨b1, b2, b3, b4, b5, b6, b7⟩ := ri_fluxes hm h2
  obtain ⟨_, _, _, _, _, _, _, _, aq⟩ := ebFluxes_parts h1
  obtain ⟨_, _, _, _, _, _, _, _, bq⟩ := ebFluxes_parts h2
  have hri : ∀ t, i.t2 ≤ t → riPhi (bulkRi i t) = 1 := by
    intro t ht
    apply (C35_factor _).2.2.2
    unfold bulkRi
    split_ifs with hu
    · norm_num
    · have e : Transc.pow i.u2 2 = i.u2 ^ 2 := Real.rpow_two _
      rw [e]
      have hz1 : 0 ≤ i.z := hi.z0.le.trans hi.z.le
      have hd : 0 ≤ i.t2 * i.u2 ^ 2 := mul_nonneg hi.air.le (sq_nonneg _)
      refine le_trans (div_nonpos_of_nonpos_of_nonneg ?_ hd) (by norm_num)
      have : 9.81 * (i.t2 - t) ≤ 0 := mul_nonpos_of_nonneg_of_nonpos (by norm_num) (by linarith)
      exact mul_nonpos_of_nonpos_of_nonneg this hz1
  rw [hri a ha, one_mul] at a1 a2
  rw [hri b (by linarith), one_mul] at b1 b2
  have cT : fb.csT = fa.csT := by rw [a3, b3]
  have cQ : fb.csQ = fa.csQ := by rw [a4, b4]
  have q2 : fb.q2 = fa.q2 := by rw [a5, b5]
  have rh : fb.rho = fa.rho := by rw [a6, b6, q2]
  have lv : fb.lv = fa.lv := by rw [a7, b7, if_neg (not_le.2 hb), if_neg (not_le.2 (hab.trans hb))]
  have lvp : 0 < fa.lv := by rw [a7, if_neg (not_le.2 (hab.trans hb))]; exact hp.subl
  have ewp := ew_pos i.t2
  have hq2 : 0 ≤ fa.q2 := by
    rw [a5]
    have h1 : 0 < i.p - methodEWSonntag i.t2 := by linarith [hi.pres]
    have h2 := hi.hum
    positivity
  have hrho : 0 ≤ fa.rho := by
    rw [a6]
    have h1 := hi.air
    have h2 : 0 < i.p := ewp.trans hi.pres
    positivity
  have hz0 : 1 < i.z / i.z0 := (one_lt_div hi.z0).2 hi.z
  have l1 : 0 < Real.log (i.z / i.z0) := Real.log_pos hz0
  have l2 : 0 < Real.log (i.z / (i.z0 / 100)) := log_ratio_pos hi.z0 hi.z (by norm_num)
  have l3 : 0 < Real.log (i.z / (i.z0 / 10)) := log_ratio_pos hi.z0 hi.z (by norm_num)
  have p41 : 0 ≤ Transc.pow (0.41 : ℝ) 2 := by
    have e : Transc.pow (0.41 : ℝ) 2 = 0.41 ^ 2 := Real.rpow_two _
    rw [e]; positivity
  have hT : 0 ≤ fa.csT := by rw [a3]; positivity
  have hQ : 0 ≤ fa.csQ := by rw [a4]; positivity
  have hcos := cos_slope_nonneg hi.slope
  have hq0 : fa.q0 ≤ fb.q0 := by
    rw [aq, bq]
    have hm := ew_mono (by norm_num; linarith) hab.le (hb.trans_le hz)
    have h3 := ratio_mono (ew_pos a) hm hpb
    norm_num
    linarith
  have hH : fb.h ≤ fa.h := by
    rw [a1, b1, cT, rh]
    have : 0 ≤ fa.rho * c.specHeatAir * fa.csT * i.u2 :=
      mul_nonneg (mul_nonneg (mul_nonneg hrho hp.cAir.le) hT) hi.wind
    have : fa.rho * c.specHeatAir * fa.csT * i.u2 * (i.t2 - b) ≤ fa.rho * c.specHeatAir * fa.csT * i.u2 * (i.t2 - a) :=
      mul_le_mul_of_nonneg_left (by linarith) this
    exact mul_le_mul_of_nonneg_right this hcos
  have hLE : fb.le ≤ fa.le := by
    rw [a2, b2, cQ, rh, lv, q2]
    have : 0 ≤ fa.rho * fa.lv * fa.csQ * i.u2 := mul_nonneg (mul_nonneg (mul_nonneg hrho lvp.le) hQ) hi.wind
    have : fa.rho * fa.lv * fa.csQ * i.u2 * (fa.q2 - fb.q0) ≤ fa.rho * fa.lv * fa.csQ * i.u2 * (fa.q2 - fa.q0) :=
      mul_le_mul_of_nonneg_left (by linarith) this
    exact mul_le_mul_of_nonneg_right this hcos
  rw [e1, e2, hli]
  linarith

/-- **C73, cold night.** Calm air, no rain, a column colder than 220 K below the surface, and less radiation received than a
surface of 220 K emits: whatever the column and the solvers' internals, the surface is reported at the melting point, and
the reported fluxes sum to less than zero. -/
theorem C73_cold_night {sv : Solvers ℝ} (hmin : sv.ExactMin) (hroot : ∀ f x p, sv.newton f x = .ok p → f p = .ok 0)
    (hne : ∀ f x e, sv.newton f x = .error e → e = .runtime ∨ e = .value)
    (hm : c.sfcTemperatureMethod = .newton) (hst : c.stabilityCorrection = .ri ∨ c.stabilityCorrection = .mo)
    (hz : 220 ≤ c.zeroTemperature) (hz' : c.zeroTemperature ≤ 330) {mk : ℝ → ℝ → EbInput ℝ} {L : ℝ}
    (hmk : ∀ x y, Cooling c (mk x y) ∧ (mk x y).u2 = 0 ∧ (mk x y).rain = 0 ∧ (mk x y).lwin = some L ∧ (mk x y).tz1 = x ∧
      (mk x y).tz2 = y)
    (hl : ∀ top lam, g.node 0 = .ok top → top.thermalConductivity c = .ok lam → 0 ≤ lam)
    (hsub : ∀ x y, interpSubT c g = .ok (x, y) → x ≤ 220 ∧ y ≤ x)
    (hrad : sw + L < c.surfaceEmissionCoeff * c.sigma * 220 ^ 4) {g' : Grid ℝ} {ts : ℝ} {fl : Fluxes ℝ}
    (h : updateSurfaceTemperature sv c wrf g mk sw = .ok (g', ts, fl)) :
    ts = c.zeroTemperature ∧ sw + fl.li + fl.lo + fl.h + fl.le + fl.b + fl.qrr < 0 := by
  refine C73_cold hmin hroot hm hz hz' h ?_ hne
  intro x y hxy R hR
  obtain ⟨hc, hu, hrain, hlw, e1, e2⟩ := hmk x y
  refine ⟨?_, fun a b ha hab => C73_calm hc hst hu hl hR (by linarith) hab⟩
  obtain ⟨hx, hy⟩ := hsub x y hxy
  obtain ⟨fl', h1, e⟩ := hR 220
  obtain ⟨top, lam, n1, n2, n3, n4, n5, n6, _⟩ := ebFluxes_parts h1
  have hlam := hl _ _ n1 n2
  have van : fl'.h = 0 ∧ fl'.le = 0 := by
    rcases hst with hm | hm
    · exact C35_vanish hm h1 (Or.inl hu)
    · exact C37_calm hm hu h1
  have hli : fl'.li = L := by
    unfold incomingLongwave at n3
    rw [hlw] at n3
    simp only [ok_inj] at n3
    exact n3.symm
  have hq : fl'.qrr = 0 := by rw [n6, hrain]; simp
  have hd := hc.depth1
  have hd2 := hc.depth2
  have hb : fl'.b ≤ 0 := by
    rw [n5, e1, e2]
    apply mul_nonpos_of_nonneg_of_nonpos hlam
    have t1 : c.zlt1 / (c.zlt2 - c.zlt1 + c.zlt1) * ((y - x) / (c.zlt2 - c.zlt1)) ≤ 0 :=
      mul_nonpos_of_nonneg_of_nonpos (div_nonneg hd.le (by linarith))
        (div_nonpos_of_nonpos_of_nonneg (by linarith) (by linarith))
    have t2 : (c.zlt2 - c.zlt1) / (c.zlt2 - c.zlt1 + c.zlt1) * ((x - 220) / c.zlt1) ≤ 0 :=
      mul_nonpos_of_nonneg_of_nonpos (div_nonneg (by linarith) (by linarith))
        (div_nonpos_of_nonpos_of_nonneg (by linarith) hd.le)
    linarith
  rw [e, van.1, van.2, hli, hq, n4]
  linarith

/-- The defaults with Newton's method. -/
noncomputable def coldConsts : Consts ℝ := { Consts.default ℝ with sfcTemperatureMethod := .newton }

/-- Three layers at 215 K. -/
noncomputable def coldGrid : Grid ℝ :=
  ⟨[⟨0.05, 215, 0, 0.4, 0⟩, ⟨0.05, 215, 0, 0.4, 0⟩, ⟨0.05, 215, 0, 0.4, 0⟩], 3, 0, 0, 0⟩

/-- A calm, clear night. -/
noncomputable def coldInput (x y : ℝ) : EbInput ℝ := ⟨3600, 2, 0.0002, 225, 60, 600, 0, 0, 0, x, y, some 90, none⟩

open Classical in
/-- Exact solvers: a root above absolute zero if there is one, a minimum between the bounds if there is one. -/
noncomputable def exactSolvers : Solvers ℝ where
  newton f _ := if h : ∃ x, f x = .ok 0 ∧ 0 ≤ x then .ok h.choose else .error .runtime
  minimize _ f _ lo hi := if h : ∃ p, lo ≤ p ∧ p ≤ hi ∧ ∀ v, f p = .ok v → ∀ y w, lo ≤ y → y ≤ hi → f y = .ok w → v ≤ w
    then .ok h.choose else .error .runtime

theorem exactSolvers_spec : exactSolvers.ExactMin ∧ (∀ f x p, exactSolvers.newton f x = .ok p → f p = .ok 0) ∧
    (∀ f x e, exactSolvers.newton f x = .error e → e = .runtime ∨ e = .value) := by
  refine ⟨?_, ?_, ?_⟩
  · intro m f x lo hi p h
    unfold exactSolvers at h
    simp only at h
    split_ifs at h with hex
    cases h
    exact hex.choose_spec
  · intro f x p h
    unfold exactSolvers at h
    simp only at h
    split_ifs at h with hex
    cases h
    exact hex.choose_spec.1
  · intro f x e h
    unfold exactSolvers at h
    simp only at h
    split_ifs at h with hex
    cases h
    exact Or.inl rfl

theorem coldGrid_sub : interpSubT coldConsts coldGrid = .ok (215, 215) := by
  have hh : coldGrid.getHeight = .ok [0.05, 0.05, 0.05] := by
    rw [Grid.getHeight_eq (by unfold Grid.WF coldGrid; simp)]; rfl
  have hcum : cumsumFrom (0 : ℝ) [0.05, 0.05, 0.05] = [0.05, 0.1, 0.15] := by
    simp only [cumsumFrom]; norm_num
  have h1 : argmin (List.map (fun x : ℝ => pyAbs (x - 0.06)) [0.05, 0.1, 0.15]) = .ok 0 := by
    simp only [List.map, argmin, pyAbs_eq, argminFrom]
    norm_num
  have h2 : argmin (List.map (fun x : ℝ => pyAbs (x - 0.1)) [0.05, 0.1, 0.15]) = .ok 1 := by
    simp only [List.map, argmin, pyAbs_eq, argminFrom]
    norm_num
  have e1 : coldConsts.zlt1 = 0.06 := rfl
  have e2 : coldConsts.zlt2 = 0.1 := rfl
  have g0 : pyGet ([0.05, 0.1, 0.15] : List ℝ) 0 = .ok 0.05 := rfl
  have g1 : pyGet ([0.05, 0.1, 0.15] : List ℝ) 1 = .ok 0.1 := rfl
  have g2 : pyGet ([0.05, 0.1, 0.15] : List ℝ) 2 = .ok 0.15 := rfl
  have n0 : coldGrid.node 0 = .ok ⟨0.05, 215, 0, 0.4, 0⟩ := rfl
  have n1 : coldGrid.node 1 = .ok ⟨0.05, 215, 0, 0.4, 0⟩ := rfl
  have n2 : coldGrid.node 2 = .ok ⟨0.05, 215, 0, 0.4, 0⟩ := rfl
  have s1 : getSubsurfaceTemperature coldGrid [0.05, 0.1, 0.15] 0.06 = .ok 215 := by
    unfold getSubsurfaceTemperature
    rw [h1, ok_bind, Nat.cast_zero, g0, ok_bind, if_neg (by norm_num), zero_add]
    simp only [n0, n1, g1, ok_bind]
    rw [fdiv_of_ne (by norm_num), ok_bind, pure_eq_ok]
    norm_num
  have s2 : getSubsurfaceTemperature coldGrid [0.05, 0.1, 0.15] 0.1 = .ok 215 := by
    unfold getSubsurfaceTemperature
    rw [h2, ok_bind, Nat.cast_one, g1, ok_bind, if_neg (by norm_num), show (1 : Int) + 1 = 2 by rfl]
    simp only [n1, n2, g2, ok_bind]
    rw [fdiv_of_ne (by norm_num), ok_bind, pure_eq_ok]
    norm_num
  unfold interpSubT
  rw [hh, ok_bind]
  simp only [hcum, e1, e2, s1, s2, ok_bind]
  rfl

theorem coldGrid_lam (top : Node ℝ) (lam : ℝ) (h1 : coldGrid.node 0 = .ok top)
    (h2 : top.thermalConductivity coldConsts = .ok lam) : 0 ≤ lam := by
  have e : coldGrid.node 0 = .ok ⟨0.05, 215, 0, 0.4, 0⟩ := rfl
  rw [e, ok_inj] at h1
  subst h1
  unfold Node.thermalConductivity coldConsts Consts.default at h2
  simp only [ok_inj] at h2
  subst h2
  unfold Node.airPorosity
  rw [pyMax_eq]
  norm_num

theorem coldInput_spec (x y : ℝ) : Cooling coldConsts (coldInput x y) ∧ (coldInput x y).u2 = 0 ∧
    (coldInput x y).rain = 0 ∧ (coldInput x y).lwin = some 90 ∧ (coldInput x y).tz1 = x ∧ (coldInput x y).tz2 = y := by
  refine ⟨⟨?_, ?_, ?_, ?_, ?_, ?_, ?_, ?_⟩, rfl, rfl, rfl, rfl, rfl⟩ <;>
    simp only [coldConsts, Consts.default, coldInput] <;> norm_num

/-- Non-vacuity of C73_cold_night: the update succeeds on the cold column, and all hypotheses hold. -/
example : ∃ g' ts fl, updateSurfaceTemperature exactSolvers coldConsts false coldGrid coldInput 0 = .ok (g', ts, fl) ∧
    ts = 273.16 ∧ fl.li + fl.lo + fl.h + fl.le + fl.b + fl.qrr < 0 := by
  have hz : coldConsts.zeroTemperature = 273.16 := rfl
  have hfl : ∃ fl, ebFluxes coldConsts false coldGrid (coldInput 215 215) 220 = .ok fl := ⟨_, rfl⟩
  obtain ⟨fl, hfl⟩ := hfl
  obtain ⟨R, hR⟩ := balance_exists hfl 0
  have hanti : ∀ a b, 0 ≤ a → a < b → R b < R a := fun a b ha hab =>
    C73_calm (coldInput_spec 215 215).1 (Or.inl rfl) rfl coldGrid_lam hR ha hab
  have hf := ebOptim_balance hR (Or.inl rfl)
  have hsolve : ∃ x, solveSurfaceTemperature exactSolvers coldConsts (ebOptim coldConsts false coldGrid (coldInput 215 215) 0)
      (min 215 270) = .ok x := by
    have hmin : ∃ p, exactSolvers.minimize .slsqp (ebOptim coldConsts false coldGrid (coldInput 215 215) 0) (min 215 270)
        220 330 = .ok p := by
      unfold exactSolvers
      simp only
      rw [dif_pos]
      · exact ⟨_, rfl⟩
      · refine ⟨330, by norm_num, le_rfl, ?_⟩
        intro v hv y w hy hy' hw
        rw [hf, ok_inj] at hv hw
        rw [← hv, ← hw]
        rcases hy'.eq_or_lt with he | hlt
        · rw [he]
        · exact (hanti y 330 (by linarith) hlt).le
    obtain ⟨p, hp⟩ := hmin
    unfold solveSurfaceTemperature
    have hm : coldConsts.sfcTemperatureMethod = .newton := rfl
    rw [hm]
    simp only
    cases hn : exactSolvers.newton (ebOptim coldConsts false coldGrid (coldInput 215 215) 0) (min 215 270) with
    | error e =>
      rcases exactSolvers_spec.2.2 _ _ _ hn with rfl | rfl <;> exact ⟨p, hp⟩
    | ok q =>
      rw [ok_bind]
      unfold checkResidualClip
      split_ifs
      · exact ⟨p, hp⟩
      · exact ⟨q, rfl⟩
  obtain ⟨x, hx⟩ := hsolve
  obtain ⟨fl2, hfl2⟩ := ebFluxes_total hfl (min coldConsts.zeroTemperature x)
  have hup : ∃ g', updateSurfaceTemperature exactSolvers coldConsts false coldGrid coldInput 0 =
      .ok (g', min coldConsts.zeroTemperature x, fl2) := by
    unfold updateSurfaceTemperature
    have n0 : coldGrid.node 0 = .ok ⟨0.05, 215, 0, 0.4, 0⟩ := rfl
    have hset : coldGrid.setNodeTemperature 0 (min coldConsts.zeroTemperature x) =
        .ok { coldGrid with nodes := { (⟨0.05, 215, 0, 0.4, 0⟩ : Node ℝ) with temperature := min coldConsts.zeroTemperature x } ::
          coldGrid.nodes.tail } := rfl
    have hfl3 := (ebFluxes_top (c := coldConsts) (wrf := false) (g := coldGrid) rfl (min coldConsts.zeroTemperature x)
      (coldInput 215 215) (min coldConsts.zeroTemperature x)).trans hfl2
    simp only [coldGrid_sub, ok_bind, n0, pyMin_eq, hx, hset]
    exact ⟨_, congrArg (fun m => m >>= fun f => pure (_, _, f)) hfl3⟩
  obtain ⟨g', hg'⟩ := hup
  obtain ⟨r1, r2⟩ := C73_cold_night exactSolvers_spec.1 exactSolvers_spec.2.1 exactSolvers_spec.2.2 rfl (Or.inl rfl)
    (by rw [hz]; norm_num) (by rw [hz]; norm_num) coldInput_spec coldGrid_lam
    (fun x y h => by
      rw [coldGrid_sub, ok_inj, Prod.mk.injEq] at h
      rw [← h.1, ← h.2]; norm_num)
    (by simp only [coldConsts, Consts.default]; norm_num) hg'
  refine ⟨g', _, fl2, hg', r1.trans hz, ?_⟩
  linarith

end

attribute [local instance] exTransc in
/-- Non-vacuity of C73_fluxes: a run whose steps succeed. -/
example : raised (run exSolvers 40 exConsts exCfg (initState exConsts false exGrid) [exSnow, exDry]) = none := by
  decide +kernel

/-- Non-vacuity of C73_closed_partial: a balance that falls by one unit per kelvin, and an answer half a unit off. -/
example : ∃ R : ℚ → ℚ, ∃ x ε : ℚ, |R x| ≤ ε ∧ 0 < ε ∧ (273 ≤ x → R x ≤ R 273) :=
  ⟨fun t => 260 - t, 260.5, 0.5, by norm_num [abs_le], by norm_num, by norm_num⟩

end Cosipy
