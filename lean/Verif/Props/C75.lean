import Verif.Props.C73
import Verif.Props.C74

/-!
# C75 Vapour is exchanged in the right direction

Over the real numbers, for both stability schemes. Saturation vapour pressure rises strictly and without a jump with
temperature (`C75_saturation`). A surface at least as warm as the air takes up no vapour (`C75_no_uptake`), saturated air
at least as warm as the surface takes none from it (`C75_no_loss`); both as seen in the sublimation, deposition,
evaporation and condensation of a step.
-/

set_option autoImplicit false
set_option linter.unusedSectionVars false

namespace Cosipy

/-- Above the triple point. -/
theorem ew_water {t : ℝ} (h : 273.16 ≤ t) :
    methodEWSonntag t = 6.112 * Real.exp ((17.67 * (t - 273.16)) / (t - 29.66)) := by
  unfold methodEWSonntag; rw [if_pos h]; rfl

/-- Below it. -/
theorem ew_ice {t : ℝ} (h : t < 273.16) :
    methodEWSonntag t = 6.112 * Real.exp ((22.46 * (t - 273.16)) / (t - 0.55)) := by
  unfold methodEWSonntag; rw [if_neg (not_le.2 h)]; rfl

/-- **C75, saturation.** The saturation vapour pressure is 6.112 hPa at the triple point, rises strictly with temperature
and has no jump. -/
theorem C75_saturation : methodEWSonntag (273.16 : ℝ) = 6.112 ∧ StrictMonoOn (methodEWSonntag : ℝ → ℝ) (Set.Ioi 0.55) ∧
    ContinuousOn (methodEWSonntag : ℝ → ℝ) (Set.Ioi 0.55) := by
  have e0 : methodEWSonntag (273.16 : ℝ) = 6.112 := by rw [ew_water le_rfl]; norm_num
  refine ⟨e0, ?_, ?_⟩
  · have hw : ∀ a b : ℝ, 273.16 ≤ a → a < b → methodEWSonntag a < methodEWSonntag b := by
      intro a b ha hab
      rw [ew_water ha, ew_water (ha.trans hab.le)]
      apply mul_lt_mul_of_pos_left _ (by norm_num)
      apply Real.exp_lt_exp.2
      norm_num at ha ⊢
      rw [div_lt_div_iff₀ (by linarith) (by linarith)]
      nlinarith
    have hi : ∀ a b : ℝ, 0.55 < a → a < b → b < 273.16 → methodEWSonntag a < methodEWSonntag b := by
      intro a b ha hab hb
      rw [ew_ice hb, ew_ice (hab.trans hb)]
      apply mul_lt_mul_of_pos_left _ (by norm_num)
      apply Real.exp_lt_exp.2
      norm_num at ha hb ⊢
      rw [div_lt_div_iff₀ (by linarith) (by linarith)]
      nlinarith
    have hi0 : ∀ a : ℝ, 0.55 < a → a < 273.16 → methodEWSonntag a < 6.112 := by
      intro a ha hb
      rw [ew_ice hb]
      have : Real.exp ((22.46 * (a - 273.16)) / (a - 0.55)) < 1 := by
        rw [Real.exp_lt_one_iff]
        apply div_neg_of_neg_of_pos <;> norm_num at ha hb ⊢ <;> linarith
      norm_num at this ⊢
      linarith
    intro a ha b hb hab
    rcases lt_or_ge b 273.16 with h1 | h1
    · exact hi a b ha hab h1
    · rcases lt_or_ge a 273.16 with h2 | h2
      · refine (hi0 a ha h2).trans_le ?_
        rcases h1.eq_or_lt with h3 | h3
        · rw [← h3, e0]
        · rw [← e0]; exact (hw _ _ le_rfl h3).le
      · exact hw a b h2 hab
  · have hcont : ContinuousOn (fun t : ℝ => if 273.16 ≤ t then 6.112 * Real.exp ((17.67 * (t - 273.16)) / (t - 29.66))
        else 6.112 * Real.exp ((22.46 * (t - 273.16)) / (t - 0.55))) (Set.Ioi 0.55) := by
      apply ContinuousOn.if
      · intro a ha
        have hf : a = 273.16 := by
          have := ha.2
          rw [show {a : ℝ | 273.16 ≤ a} = Set.Ici 273.16 from rfl, frontier_Ici] at this
          exact this
        rw [hf]; norm_num
      · have : closure {a : ℝ | 273.16 ≤ a} = Set.Ici 273.16 := isClosed_Ici.closure_eq
        rw [this]
        apply ContinuousOn.mul continuousOn_const
        apply Real.continuous_exp.comp_continuousOn
        apply ContinuousOn.div (by fun_prop) (by fun_prop)
        intro x hx
        have := hx.2
        simp only [Set.mem_Ici] at this
        norm_num at this ⊢
        intro h0
        linarith
      · apply ContinuousOn.mul continuousOn_const
        apply Real.continuous_exp.comp_continuousOn
        apply ContinuousOn.div (by fun_prop) (by fun_prop)
        intro x hx
        have := hx.1
        simp only [Set.mem_Ioi] at this
        norm_num at this ⊢
        intro h0
        linarith
    exact hcont

/-- The mixing ratio at saturation rises with temperature. -/
theorem mixing_mono {a b p : ℝ} (ha : 0.55 < a) (hab : a ≤ b) (hp : methodEWSonntag b < p) :
    methodEWSonntag a / (p - methodEWSonntag a) ≤ methodEWSonntag b / (p - methodEWSonntag b) :=
  ratio_mono (ew_pos a) (C75_saturation.2.1.monotoneOn ha (lt_of_lt_of_le ha hab) hab) hp

/-- The mixing ratios of a flux computation. -/
theorem mixing_ratios {c : Consts ℝ} (hm : c.stabilityCorrection = .ri ∨ c.stabilityCorrection = .mo) {wrf : Bool} {g : Grid ℝ}
    {i : EbInput ℝ} {t0 : ℝ} {fl : Fluxes ℝ} (h : ebFluxes c wrf g i t0 = .ok fl) :
    fl.q2 = i.rh2 / 100 * (0.622 * (methodEWSonntag i.t2 / (i.p - methodEWSonntag i.t2))) ∧
    fl.q0 = 0.622 * (methodEWSonntag t0 / (i.p - methodEWSonntag t0)) := by
  have h2 : fl.q2 = i.rh2 * 0.622 * (methodEWSonntag i.t2 / (i.p - methodEWSonntag i.t2)) / 100 := by
    rcases hm with hm | hm
    · exact (ri_fluxes hm h).2.2.2.2.1
    · exact (mo_fluxes hm h (fun _ => True) (fun _ _ _ _ _ => trivial)).2.1
  obtain ⟨_, _, _, _, _, _, _, _, h0⟩ := ebFluxes_parts h
  rw [h2, h0]
  constructor <;> ring

/-- The directions of both schemes. -/
theorem flux_directions {c : Consts ℝ} (hc : c.Phys) (hm : c.stabilityCorrection = .ri ∨ c.stabilityCorrection = .mo)
    {wrf : Bool} {g : Grid ℝ} {i : EbInput ℝ} (hi : SaneInput i) {t0 : ℝ} {fl : Fluxes ℝ}
    (h : ebFluxes c wrf g i t0 = .ok fl) :
    (t0 ≤ i.t2 → 0 ≤ fl.h) ∧ (i.t2 ≤ t0 → fl.h ≤ 0) ∧ (fl.q0 ≤ fl.q2 → 0 ≤ fl.le) ∧ (fl.q2 ≤ fl.q0 → fl.le ≤ 0) := by
  rcases hm with hm | hm
  · exact C35_direction hc hm hi h
  · exact C74_direction hc hm hi h

/-- **C75, latent heat.** Towards a surface at least as warm as the air, air that is not supersaturated carries no latent
heat; away from a surface at most as warm as the air, saturated air carries none; at equal temperatures and saturation
there is no exchange. -/
theorem C75_latent {c : Consts ℝ} (hc : c.Phys) (hm : c.stabilityCorrection = .ri ∨ c.stabilityCorrection = .mo)
    {wrf : Bool} {g : Grid ℝ} {i : EbInput ℝ} (hi : SaneInput i) {t0 : ℝ} (hp : methodEWSonntag t0 < i.p)
    {fl : Fluxes ℝ} (h : ebFluxes c wrf g i t0 = .ok fl) :
    (0.55 < i.t2 → i.t2 ≤ t0 → i.rh2 ≤ 100 → fl.le ≤ 0) ∧ (0.55 < t0 → t0 ≤ i.t2 → 100 ≤ i.rh2 → 0 ≤ fl.le) := by
  obtain ⟨e2, e0⟩ := mixing_ratios hm h
  obtain ⟨_, _, d1, d2⟩ := flux_directions hc hm hi h
  constructor
  · intro h1 ht hr
    apply d2
    rw [e2, e0]
    have m := mixing_mono h1 ht hp
    have hpos : 0 ≤ methodEWSonntag i.t2 / (i.p - methodEWSonntag i.t2) :=
      div_nonneg (ew_pos _).le (by linarith [hi.pres])
    have : i.rh2 / 100 * (0.622 * (methodEWSonntag i.t2 / (i.p - methodEWSonntag i.t2))) ≤
        1 * (0.622 * (methodEWSonntag i.t2 / (i.p - methodEWSonntag i.t2))) := by
      apply mul_le_mul_of_nonneg_right (by linarith) (by positivity)
    rw [one_mul] at this
    refine this.trans ?_
    apply mul_le_mul_of_nonneg_left m (by norm_num)
  · intro h1 ht hr
    apply d1
    rw [e2, e0]
    have m := mixing_mono h1 ht hi.pres
    have hpos : 0 ≤ methodEWSonntag i.t2 / (i.p - methodEWSonntag i.t2) :=
      div_nonneg (ew_pos _).le (by linarith [hi.pres])
    have : 1 * (0.622 * (methodEWSonntag i.t2 / (i.p - methodEWSonntag i.t2))) ≤
        i.rh2 / 100 * (0.622 * (methodEWSonntag i.t2 / (i.p - methodEWSonntag i.t2))) := by
      apply mul_le_mul_of_nonneg_right (by linarith) (by positivity)
    rw [one_mul] at this
    refine le_trans ?_ this
    apply mul_le_mul_of_nonneg_left m (by norm_num)

/-- Forcing and settings of a step for which the flux formulas make sense. -/
structure SaneStep (r : RunCfg ℝ) (f : Forcing ℝ) (o : StepOut ℝ) : Prop where
  wind : 0 ≤ f.u2
  air : 1 ≤ f.t2
  hum : 0 ≤ f.rh2
  pres : methodEWSonntag f.t2 < f.pres
  pres0 : methodEWSonntag o.ts < f.pres
  z0 : 0 < o.z0
  z : o.z0 < r.z
  slope : -90 ≤ r.slope ∧ r.slope ≤ 90

/-- The fluxes of a step as one flux computation. -/
theorem step_fluxes {sv : Solvers ℝ} {fuel : Nat} {c : Consts ℝ} {r : RunCfg ℝ} {s s' : SimState ℝ} {f : Forcing ℝ}
    {o : StepOut ℝ} (h : step sv fuel c r s f = .ok (s', o)) : ∃ g i, ebFluxes c r.wrf g i o.ts = .ok o.fluxes ∧
      i.t2 = f.t2 ∧ i.rh2 = f.rh2 ∧ i.p = f.pres ∧ i.u2 = f.u2 ∧ i.z0 = o.z0 ∧ i.z = r.z ∧ i.slope = r.slope ∧
      i.lwin = f.lwin ∧ i.n = f.n := by
  obtain ⟨st⟩ := step_stages h
  obtain ⟨tz1, tz2, top, x, h1, h2, h3, h4, h5⟩ := update_decomp st.surface
  exact ⟨_, _, h5, rfl, rfl, rfl, rfl, rfl, rfl, rfl, rfl, rfl⟩

theorem SaneStep.input {r : RunCfg ℝ} {f : Forcing ℝ} {o : StepOut ℝ} (hs : SaneStep r f o) {i : EbInput ℝ}
    (e1 : i.t2 = f.t2) (e2 : i.rh2 = f.rh2) (e3 : i.p = f.pres) (e4 : i.u2 = f.u2) (e5 : i.z0 = o.z0) (e6 : i.z = r.z)
    (e7 : i.slope = r.slope) : SaneInput i := by
  refine ⟨?_, ?_, ?_, ?_, ?_, ?_, ?_⟩
  · rw [e4]; exact hs.wind
  · rw [e1]; linarith [hs.air]
  · rw [e2]; exact hs.hum
  · rw [e1, e3]; exact hs.pres
  · rw [e5]; exact hs.z0
  · rw [e5, e6]; exact hs.z
  · rw [e7]; exact hs.slope

/-- **C75, no uptake.** In a step whose surface is at least as warm as the air, and with a humidity of at most 100 per cent,
nothing is deposited or condensed, and the surface gets neither sensible nor latent heat. -/
theorem C75_no_uptake {sv : Solvers ℝ} {fuel : Nat} {c : Consts ℝ} (hc : c.Phys)
    (hm : c.stabilityCorrection = .ri ∨ c.stabilityCorrection = .mo) {r : RunCfg ℝ} {s s' : SimState ℝ} {f : Forcing ℝ}
    {o : StepOut ℝ} (h : step sv fuel c r s f = .ok (s', o)) (hs : SaneStep r f o) (ht : f.t2 ≤ o.ts) (hr : f.rh2 ≤ 100) :
    o.deposition = 0 ∧ o.condensation = 0 ∧ o.fluxes.h ≤ 0 ∧ o.fluxes.le ≤ 0 := by
  obtain ⟨g, i, hf, e1, e2, e3, e4, e5, e6, e7, _⟩ := step_fluxes h
  have hi := hs.input e1 e2 e3 e4 e5 e6 e7
  have hle := (C75_latent hc hm hi (by rw [e3]; exact hs.pres0) hf).1 (by rw [e1]; have := hs.air; norm_num; linarith)
    (by rw [e1]; exact ht) (by rw [e2]; exact hr)
  have hh := (flux_directions hc hm hi hf).2.1 (by rw [e1]; exact ht)
  obtain ⟨st⟩ := step_stages h
  have hv := st.vapour
  have hmax : ∀ L : ℝ, 0 < L → max (o.fluxes.le / (c.waterDensity * L)) 0 = 0 := fun L hL =>
    max_eq_right (div_nonpos_of_nonpos_of_nonneg hle (mul_pos hc.water hL).le)
  unfold vapourFluxes at hv
  refine ⟨?_, ?_, hh, hle⟩
  · split_ifs at hv with hz <;> rw [Vapour.mk.injEq] at hv
    · rw [← hv.2.1, pyMax_eq, hmax _ hc.subl, zero_mul]
    · exact hv.2.1.symm
  · split_ifs at hv with hz <;> rw [Vapour.mk.injEq] at hv
    · exact hv.2.2.2.symm
    · rw [← hv.2.2.2, pyMax_eq, hmax _ hc.vap, zero_mul]

/-- **C75, no loss.** In a step whose surface is at most as warm as saturated air, nothing sublimates or evaporates, and the
surface loses neither sensible nor latent heat to the air. -/
theorem C75_no_loss {sv : Solvers ℝ} {fuel : Nat} {c : Consts ℝ} (hc : c.Phys)
    (hm : c.stabilityCorrection = .ri ∨ c.stabilityCorrection = .mo) {r : RunCfg ℝ} {s s' : SimState ℝ} {f : Forcing ℝ}
    {o : StepOut ℝ} (h : step sv fuel c r s f = .ok (s', o)) (hs : SaneStep r f o) (h1 : 1 ≤ o.ts) (ht : o.ts ≤ f.t2)
    (hr : 100 ≤ f.rh2) :
    o.sublimation = 0 ∧ o.evaporation = 0 ∧ 0 ≤ o.fluxes.h ∧ 0 ≤ o.fluxes.le := by
  obtain ⟨g, i, hf, e1, e2, e3, e4, e5, e6, e7, _⟩ := step_fluxes h
  have hi := hs.input e1 e2 e3 e4 e5 e6 e7
  have hle := (C75_latent hc hm hi (by rw [e3]; exact hs.pres0) hf).2 (by norm_num; linarith)
    (by rw [e1]; exact ht) (by rw [e2]; exact hr)
  have hh := (flux_directions hc hm hi hf).1 (by rw [e1]; exact ht)
  obtain ⟨st⟩ := step_stages h
  have hv := st.vapour
  have hmin : ∀ L : ℝ, 0 < L → min (o.fluxes.le / (c.waterDensity * L)) 0 = 0 := fun L hL =>
    min_eq_right (div_nonneg hle (mul_pos hc.water hL).le)
  unfold vapourFluxes at hv
  refine ⟨?_, ?_, hh, hle⟩
  · split_ifs at hv with hz <;> rw [Vapour.mk.injEq] at hv
    · rw [← hv.1, pyMin_eq, hmin _ hc.subl, zero_mul]
    · exact hv.1.symm
  · split_ifs at hv with hz <;> rw [Vapour.mk.injEq] at hv
    · exact hv.2.2.1.symm
    · rw [← hv.2.2.1, pyMin_eq, hmin _ hc.vap, zero_mul]

/-- Non-vacuity of `C75_latent`: a surface at 271 K below air at 270 K in the scheme of Monin and Obukhov. -/
example : ∃ fl, ebFluxes { Consts.default ℝ with stabilityCorrection := .mo } false
    ⟨[⟨1/10, 268, 0, 1/2, 0⟩], 1, 0, 0, 0⟩ exMo 271 = .ok fl ∧ fl.le ≤ 0 := by
  obtain ⟨fl, h⟩ := exMo_fluxes 271
  have hp : ({ Consts.default ℝ with stabilityCorrection := .mo } : Consts ℝ).Phys := by
    constructor <;> norm_num [Consts.default]
  refine ⟨fl, h, (C75_latent hp (Or.inr rfl) exMo_sane ?_ h).1 (by norm_num [exMo]) (by norm_num [exMo]) (by norm_num [exMo])⟩
  rw [ew_ice (by norm_num)]
  have : Real.exp (22.46 * (271 - 273.16) / (271 - 0.55)) ≤ 1 := by rw [Real.exp_le_one_iff]; norm_num
  show 6.112 * _ < (700 : ℝ)
  linarith

end Cosipy
