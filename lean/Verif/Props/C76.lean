import Verif.Lemmas.Quiet
import Verif.Props.C70
import Verif.Props.C75

/-!
# C76 A time step on a good column ends, in a result or for one of five stated reasons
The hypotheses are those of `Ready` (settings and solvers), `Supplied` (the forcing of the step) and `GoodLayer` (every
layer of the column). The reasons are the constructors of `StepFails`.
-/

set_option autoImplicit false
set_option linter.unusedSectionVars false

namespace Cosipy

/-- **C76, one step.** From some fuel on, the step always ends in the same way; if that is an exception, one of the
reasons of `StepFails` holds. -/
theorem C76_step {sv : Solvers ℝ} {c : Consts ℝ} {r : RunCfg ℝ} {tlo : ℝ} (hr : Ready sv c r tlo) {s : SimState ℝ}
    {f : Forcing ℝ} (hf : Supplied c tlo f) (hw : s.grid.WF) (hg : ∀ n ∈ s.grid.nodes, GoodLayer c tlo n) :
    ∃ N, (∃ s' o, ∀ n, N ≤ n → step sv n c r s f = .ok (s', o)) ∨
      ∃ e, e ≠ .diverge ∧ ∀ n, N ≤ n → step sv n c r s f = .error e ∧ StepFails sv n c r s f := by
  obtain ⟨res, hd, N, h⟩ := step_terminates hr hf hw hg
  refine ⟨N, ?_⟩
  rcases res with e | ⟨s', o⟩
  · have hne : e ≠ .diverge := by rintro rfl; exact hd rfl
    exact .inr ⟨e, hne, fun n hn => ⟨h n hn, (step_safe hr hf hw hg n e (h n hn)).resolve_left hne⟩⟩
  · exact .inl ⟨s', o, h⟩

/-- **C76, completion.** If none of the reasons holds, the step completes. -/
theorem C76_completes {sv : Solvers ℝ} {c : Consts ℝ} {r : RunCfg ℝ} {tlo : ℝ} (hr : Ready sv c r tlo) {s : SimState ℝ}
    {f : Forcing ℝ} (hf : Supplied c tlo f) (hw : s.grid.WF) (hg : ∀ n ∈ s.grid.nodes, GoodLayer c tlo n)
    (hn : ∀ n, ¬ StepFails sv n c r s f) : ∃ N s' o, ∀ n, N ≤ n → step sv n c r s f = .ok (s', o) := by
  obtain ⟨N, ⟨s', o, h⟩ | ⟨e, _, h⟩⟩ := C76_step hr hf hw hg
  · exact ⟨N, s', o, h⟩
  · exact absurd (h N le_rfl).2 (hn N)

/-- **C76, simulation.** For a forcing sequence of any length: from some fuel on the simulation always completes with the
same result, or it always stops with the same exception at the same step, and there either the column reached has a
layer that is not good, or one of the reasons of `StepFails` holds. -/
theorem C76_run {sv : Solvers ℝ} {c : Consts ℝ} {r : RunCfg ℝ} {tlo : ℝ} (hr : Ready sv c r tlo) :
    ∀ (fs : List (Forcing ℝ)) {s : SimState ℝ}, s.grid.WF → (∀ f ∈ fs, Supplied c tlo f) →
      (∃ N s' os, ∀ n, N ≤ n → run sv n c r s fs = .ok (s', os)) ∨
        ∃ N pre f post s1 os, fs = pre ++ f :: post ∧ (∀ n, N ≤ n → run sv n c r s pre = .ok (s1, os)) ∧
          ((∃ m ∈ s1.grid.nodes, ¬ GoodLayer c tlo m) ∨
            ∃ e, e ≠ .diverge ∧ ∀ n, N ≤ n → run sv n c r s fs = .error e ∧ StepFails sv n c r s1 f) := by
  intro fs
  induction fs with
  | nil => intro s _ _; exact .inl ⟨0, s, [], fun _ _ => rfl⟩
  | cons f fs ih =>
    intro s hw hf
    by_cases hg : ∀ m ∈ s.grid.nodes, GoodLayer c tlo m
    swap
    · push Not at hg
      exact .inr ⟨0, [], f, fs, s, [], rfl, fun _ _ => rfl, .inl hg⟩
    obtain ⟨N, ⟨s1, o, h⟩ | ⟨e, he, h⟩⟩ := C76_step hr (hf f (by simp)) hw hg
    swap
    · refine .inr ⟨N, [], f, fs, s, [], rfl, fun _ _ => rfl, .inr ⟨e, he, fun n hn => ⟨?_, (h n hn).2⟩⟩⟩
      rw [run, (h n hn).1]; rfl
    have hw1 : s1.grid.WF := by
      obtain ⟨st⟩ := step_stages (h N le_rfl)
      exact (st.wfs hw).w9
    have cons : ∀ n, N ≤ n → ∀ gs, run sv n c r s (f :: gs) = do
        let x ← run sv n c r s1 gs
        return (x.1, o :: x.2) := by
      intro n hn gs
      rw [run, h n hn]; rfl
    rcases ih hw1 (fun x hx => hf x (by simp [hx])) with ⟨N2, s2, os, h2⟩ | ⟨N2, pre, f2, post, s2, os, e1, h2, h3⟩
    · refine .inl ⟨max N N2, s2, o :: os, fun n hn => ?_⟩
      rw [cons n (le_trans (le_max_left _ _) hn), h2 n (le_trans (le_max_right _ _) hn)]; rfl
    · refine .inr ⟨max N N2, f :: pre, f2, post, s2, o :: os, by rw [e1]; rfl, fun n hn => ?_, ?_⟩
      · rw [cons n (le_trans (le_max_left _ _) hn), h2 n (le_trans (le_max_right _ _) hn)]; rfl
      · rcases h3 with h3 | ⟨e, he, h3⟩
        · exact .inl h3
        · refine .inr ⟨e, he, fun n hn => ?_⟩
          obtain ⟨a, b⟩ := h3 n (le_trans (le_max_right _ _) hn)
          refine ⟨?_, b⟩
          rw [cons n (le_trans (le_max_left _ _) hn), a]; rfl

/-- With constant density a step keeps all layers good. -/
theorem good_step {sv : Solvers ℝ} {c : Consts ℝ} {r : RunCfg ℝ} {tlo : ℝ} (hr : Ready sv c r tlo)
    (hd : c.densificationMethod = .constant) {fuel : Nat} {s s' : SimState ℝ} {f : Forcing ℝ} {o : StepOut ℝ}
    (hf : Supplied c tlo f) (hw : s.grid.WF) (hg : ∀ n ∈ s.grid.nodes, GoodLayer c tlo n)
    (h : step sv fuel c r s f = .ok (s', o)) : ∀ n ∈ s'.grid.nodes, GoodLayer c tlo n := by
  obtain ⟨st⟩ := step_stages h
  have ws := st.wfs hw
  have hs := hr.sane
  have hc := hs.phys
  have ph := st.phys hr.bounded hs hw (fun n hn => (hg n hn).phys) hf.air h
  have p0 : ∀ n ∈ (applySnowfall c r.dt s.grid o.snowfall o.densityFreshSnow f.t2).nodes, GoodLayer c tlo n := by
    have e := st.rho
    exact good_snowfall hs (e ▸ hf.freshLo) (e ▸ hf.freshHi) hf.air hg
  have p1 := good_updateGrid ws.w0 hs.first hs.stretch p0 st.remesh
  have e2 := updateAlbedo_grid st.albedo
  have s2 := getSurfaceProperties_nodes c st.g1
  simp only at e2
  rw [← e2] at s2
  have p2 : ∀ n ∈ st.g2.nodes, GoodLayer c tlo n := by rw [s2.1]; exact p1
  have p3 : ∀ n ∈ st.g3.nodes, GoodLayer c tlo n := by
    by_cases hne : st.g2.nodes = []
    · intro n hn
      have hrad := st.radiation
      unfold radiationStep at hrad
      split_ifs at hrad with hsw
      · unfold penetratingRadiation at hrad
        split at hrad
        · obtain ⟨init, last, _, _, a1, _⟩ := C26_outcome hc hsw.le hs.dt.le (fun n hn => (p2 n hn).mesh) hrad
          rw [hne] at a1; simp at a1
        · cases hrad
      · have e := (Prod.mk.inj (ok_inj.1 hrad)).1
        rw [← e, hne] at hn; cases hn
    · exact (good_radiation hc hs.dt hne p2 st.radiation).1
  have p4 := (good_surface hr.bounded hs.low hs.zero p3 st.surface).1
  have p5 := (good_removal hc ws.w4 p4 st.removal).1
  have hin : 0 ≤ o.melt + o.condensation + o.rain / 1000.0 + o.lwcFromLayers := by
    have h1 := (C33_melt hc hs.dt.le h).2.1
    have h2 := (C33_signs hs.dt.le h).2.2.2.1
    have h4 : 0 ≤ o.rain / 1000.0 := div_nonneg ph.rain (by norm_num)
    linarith [ph.lwcOut]
  have p6 := (good_percolation ws.w5 hin p5 st.perc).1
  have p7 := (good_refreezing hc hs.cold (fun n hn => (p6 n hn).1) st.refr).1
  have p8 := (good_heat hc ws.w7 p7 st.heat).1
  have h9 := st.dens
  unfold densification at h9
  rw [hd, ok_inj] at h9
  rw [← h9]; exact p8

/-- **C76, simulation with constant density.** Then the columns stay good, so the simulation completes, or stops at a step
for one of the reasons of `StepFails`. -/
theorem C76_run_constant {sv : Solvers ℝ} {c : Consts ℝ} {r : RunCfg ℝ} {tlo : ℝ} (hr : Ready sv c r tlo)
    (hd : c.densificationMethod = .constant) {fs : List (Forcing ℝ)} {s : SimState ℝ} (hw : s.grid.WF)
    (hg : ∀ n ∈ s.grid.nodes, GoodLayer c tlo n) (hf : ∀ f ∈ fs, Supplied c tlo f) :
    (∃ N s' os, ∀ n, N ≤ n → run sv n c r s fs = .ok (s', os)) ∨
      ∃ N pre f post s1 os e, fs = pre ++ f :: post ∧ e ≠ .diverge ∧ ∀ n, N ≤ n → run sv n c r s pre = .ok (s1, os) ∧
        run sv n c r s fs = .error e ∧ StepFails sv n c r s1 f := by
  rcases C76_run hr fs hw hf with h | ⟨N, pre, f, post, s1, os, e1, h2, ⟨m, hm, hbad⟩ | ⟨e, he, h3⟩⟩
  · exact .inl h
  · exfalso
    have key : ∀ (gs : List (Forcing ℝ)) {s s1 : SimState ℝ} {os : List (StepOut ℝ)}, s.grid.WF →
        (∀ n ∈ s.grid.nodes, GoodLayer c tlo n) → (∀ f ∈ gs, Supplied c tlo f) → run sv N c r s gs = .ok (s1, os) →
        ∀ n ∈ s1.grid.nodes, GoodLayer c tlo n := by
      intro gs
      induction gs with
      | nil => intro s s1 os _ hg _ h; rw [run] at h; cases h; exact hg
      | cons f gs ih =>
        intro s s1 os hw hg hf h
        obtain ⟨s2, o2, os2, a, b, _⟩ := run_cons h
        obtain ⟨st⟩ := step_stages a
        exact ih (st.wfs hw).w9 (good_step hr hd (hf f (by simp)) hw hg a) (fun x hx => hf x (by simp [hx])) b
    exact hbad (key pre hw hg (fun x hx => hf x (by rw [e1]; simp [hx])) (h2 N le_rfl) m hm)
  · exact .inr ⟨N, pre, f, post, s1, os, e, e1, he, fun n hn => ⟨h2 n hn, h3 n hn⟩⟩

/-- Non-vacuity: the hypotheses of all four theorems hold for a quiet night with the shipped physical constants, no reason
for failure holds, and the step completes. -/
theorem C76_quiet : ∃ N s' o, ∀ n, N ≤ n →
    step quietSolvers n quietConsts quietCfg quietState quietForcing = .ok (s', o) :=
  C76_completes quiet_ready quiet_supplied quiet_good.1 quiet_good.2 (quiet_not_fails (by norm_num))

example : quietConsts.densificationMethod = .constant ∧ Ready quietSolvers quietConsts quietCfg 200 ∧
    (∀ f ∈ [quietForcing, quietForcing], Supplied quietConsts 200 f) := by
  refine ⟨rfl, quiet_ready, fun f hf => ?_⟩
  have : f = quietForcing := by simpa using hf
  exact this ▸ quiet_supplied

/-- The quiet step in figures: it also meets the hypotheses of `C75_no_uptake` and `C75_no_loss` (surface and air are both
at 270 K), so that by these theorems no vapour is exchanged and no sensible or latent heat. -/
theorem C76_quiet_outcome : ∃ N s' o, step quietSolvers N quietConsts quietCfg quietState quietForcing = .ok (s', o) ∧
    o.ts = quietForcing.t2 ∧ SaneStep quietCfg quietForcing o ∧ o.melt = 0 ∧
    o.deposition = 0 ∧ o.condensation = 0 ∧ o.sublimation = 0 ∧ o.evaporation = 0 ∧ o.fluxes.h = 0 ∧ o.fluxes.le = 0 := by
  obtain ⟨N, s', o, h⟩ := C76_quiet
  have h := h N le_rfl
  obtain ⟨S⟩ := step_stages h
  have hw := (S.wfs quiet_good.1).w3
  obtain ⟨-, -, hage⟩ := S.ages (by norm_num [quietCfg]) ⟨le_rfl, le_rfl⟩
  have hs : snowedColumn quietConsts quietCfg quietState quietForcing = .ok (applySnowfall quietConsts quietCfg.dt
      quietState.grid o.snowfall o.densityFreshSnow quietForcing.t2) := by
    have h0 := S.precip
    unfold snowedColumn
    rw [← S.rho, h0, S.snowfall]; rfl
  obtain ⟨e0, _⟩ := quiet_snowed hs
  have h1 := S.remesh
  rw [quiet_updateGrid e0, ok_inj] at h1
  have e2 := updateAlbedo_grid S.albedo
  have s2 := getSurfaceProperties_nodes quietConsts S.g1
  simp only at e2
  rw [← e2, ← h1] at s2
  obtain ⟨e3, e3b⟩ := quiet_night S.radiation
  have hsw : o.swnet = 0 := by
    rw [S.swnet, e3b, pyMax_eq]; simp [quietForcing, quietWeather]
  obtain ⟨t1, _, _, t4, _⟩ := quiet_balance (by norm_num) (e3 ▸ s2.1.trans e0) hw hsw S.surface
  have hts : o.ts = quietForcing.t2 := t1
  have hz : 0 < o.z0 ∧ o.z0 < 2 := by
    obtain ⟨top, rest, hn, -⟩ := roughness_ok S.roughness
    have ho : quietConsts.RoughnessOrder := by constructor <;> norm_num [quietConsts, Consts.default]
    obtain ⟨a, b⟩ := C31_range ho hn hage S.roughness
    rcases le_or_gt (top.density quietConsts) quietConsts.snowIceThreshold with hd | hd
    · obtain ⟨a1, a2⟩ := a hd
      norm_num [quietConsts, Consts.default] at a1 a2
      constructor <;> linarith
    · rw [b hd]; norm_num [quietConsts, Consts.default]
  have hew : methodEWSonntag (270 : ℝ) < 700 := by
    rw [ew_ice (by norm_num)]
    have : Real.exp (22.46 * (270 - 273.16) / (270 - 0.55)) ≤ 1 := by rw [Real.exp_le_one_iff]; norm_num
    linarith
  have hsane : SaneStep quietCfg quietForcing o := by
    refine ⟨?_, ?_, ?_, hew, ?_, hz.1, hz.2, ?_⟩
    · norm_num [quietForcing, quietWeather]
    · norm_num [quietForcing, quietWeather]
    · norm_num [quietForcing, quietWeather]
    · rw [hts]; exact hew
    · norm_num [quietCfg]
  obtain ⟨u1, u2, u3, u4⟩ := C75_no_uptake quiet_phys (.inl rfl) h hsane hts.ge le_rfl
  obtain ⟨v1, v2, v3, v4⟩ := C75_no_loss quiet_phys (.inl rfl) h hsane (by rw [hts]; norm_num [quietForcing, quietWeather]) hts.le le_rfl
  refine ⟨N, s', o, h, hts, hsane, ?_, u1, u2, v1, v2, le_antisymm u3 v3, le_antisymm u4 v4⟩
  rw [S.melt, S.meltEnergy, t4]; simp

end Cosipy
