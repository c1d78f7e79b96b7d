import Verif.Lemmas.NanStep
import Verif.Lemmas.Example

/-!
# C96 A missing forcing value is noticed

Full statement: if a forcing value used by a time step is missing (NaN), the step stops with an error or the mass balance it reports is
NaN. The program checks its input for NaN before a standalone run only; in a coupled run the atmospheric model hands over the values.

The code violates it: the melt energy is `max(0, …)`, and the maximum of 0 and NaN is 0. `C96_swallowed`: if the global radiation, the
incoming longwave radiation or (without it) the cloud cover is missing, every step that returns reports no melt.
`C96_not_noticed`: the mass balance can then be an ordinary number. `C96_noticed_partial`: a missing air temperature, humidity, pressure,
wind speed, snowfall or precipitation always makes the reported balance NaN. What is missing from the full statement are the three
radiation inputs.
-/

set_option autoImplicit false
set_option linter.unusedSectionVars false

namespace Cosipy
section
variable {K : Type} [Field K] [LinearOrder K] [IsStrictOrderedRing K] [Transc K]

theorem nan_add (x : Nan K) : (.nan : Nan K) + x = .nan := rfl
theorem add_nan (x : Nan K) : x + (.nan : Nan K) = .nan := by cases x <;> rfl
theorem nan_sub (x : Nan K) : (.nan : Nan K) - x = .nan := rfl
theorem sub_nan (x : Nan K) : x - (.nan : Nan K) = .nan := by cases x <;> rfl
theorem nan_mul (x : Nan K) : (.nan : Nan K) * x = .nan := rfl
theorem mul_nan (x : Nan K) : x * (.nan : Nan K) = .nan := by cases x <;> rfl
theorem nan_div (x : Nan K) : (.nan : Nan K) / x = .nan := by
  show (if x = .num 0 then (.nan : Nan K) else Nan.lift₂ (· / ·) .nan x) = .nan
  split <;> rfl
theorem div_nan (x : Nan K) : x / (.nan : Nan K) = .nan := by
  show (if (.nan : Nan K) = .num 0 then (.nan : Nan K) else Nan.lift₂ (· / ·) x .nan) = .nan
  rw [if_neg (by intro h; cases h)]
  cases x <;> rfl
theorem not_nan_lt (x : Nan K) : ¬ (.nan : Nan K) < x := fun h => h
theorem not_lt_nan (x : Nan K) : ¬ x < (.nan : Nan K) := fun h => by cases x <;> exact h
theorem not_le_nan (x : Nan K) : ¬ x ≤ (.nan : Nan K) := fun h => by cases x <;> exact h
theorem ew_nan : methodEWSonntag (.nan : Nan K) = .nan := by
  unfold methodEWSonntag
  rw [if_neg (not_le_nan _), nan_sub, mul_nan, nan_div]
  rfl
theorem pow_nan (b : Nan K) : Transc.pow (.nan : Nan K) b = .nan := by
  show (if (.nan : Nan K) < 0 ∧ _ ∨ (.nan : Nan K) = .num 0 ∧ _ then (.nan : Nan K) else Nan.lift₂ Transc.pow .nan b) = .nan
  split <;> rfl
theorem pyMin_nan (x : Nan K) : pyMin (.nan : Nan K) x = .nan := by unfold pyMin; rw [if_neg (not_lt_nan _)]
theorem pyMax_nan (x : Nan K) : pyMax (.nan : Nan K) x = .nan := by unfold pyMax; rw [if_neg (not_nan_lt _)]
theorem pyMax_zero_nan : pyMax (0 : Nan K) .nan = 0 := by unfold pyMax; rw [if_neg (not_lt_nan _)]

/-- The fluxes reported by the surface temperature module are those at the reported temperature. -/
theorem surface_fluxes {α : Type} [Add α] [Sub α] [Mul α] [Div α] [Neg α] [LT α] [LE α] [DecidableLT α] [DecidableLE α] [BEq α]
    [Zero α] [One α] [NatCast α] [OfScientific α] [Transc α] {sv : Solvers α} {c : Consts α} {wrf : Bool} {g g' : Grid α}
    {mk : α → α → EbInput α} {sw ts : α} {fl : Fluxes α} (h : updateSurfaceTemperature sv c wrf g mk sw = .ok (g', ts, fl)) :
    ∃ a b, ebFluxes c wrf g' (mk a b) ts = .ok fl := by
  unfold updateSurfaceTemperature at h
  simp only [bind_eq_ok] at h
  obtain ⟨⟨a, b⟩, -, _, -, r, -, g1, -, fl1, h5, h⟩ := h
  rw [pure_eq_ok] at h
  cases h
  exact ⟨a, b, h5⟩

/-- Incoming longwave radiation without its inputs. -/
theorem fluxes_longwave {c : Consts (Nan K)} {wrf : Bool} {g : Grid (Nan K)} {i : EbInput (Nan K)} {t : Nan K}
    {fl : Fluxes (Nan K)} (hl : i.lwin = some .nan ∨ i.lwin = none ∧ i.n = some .nan) (h : ebFluxes c wrf g i t = .ok fl) :
    fl.li = .nan := by
  unfold ebFluxes at h
  simp only [bind_eq_ok] at h
  obtain ⟨li, h1, _, -, _, -, _, -, h⟩ := h
  rw [pure_eq_ok] at h
  subst h
  show li = .nan
  unfold incomingLongwave at h1
  rcases hl with e | ⟨e1, e2⟩
  · rw [e] at h1
    exact (ok_inj.1 h1).symm
  · rw [e1, e2] at h1
    simp only [pow_nan, sub_nan, mul_nan, add_nan, nan_mul] at h1
    exact (ok_inj.1 h1).symm

/-- Latent heat flux without one of its inputs. -/
theorem fluxes_latent {c : Consts (Nan K)} {wrf : Bool} {g : Grid (Nan K)} {i : EbInput (Nan K)} {t : Nan K}
    {fl : Fluxes (Nan K)} (hi : i.t2 = .nan ∨ i.rh2 = .nan ∨ i.p = .nan ∨ i.u2 = .nan) (h : ebFluxes c wrf g i t = .ok fl) :
    fl.le = .nan := by
  have hq : ∀ a b d e f : Nan K, latentHeatFlux a b d i.u2
      ((i.rh2 * 0.622 * (methodEWSonntag i.t2 / (i.p - methodEWSonntag i.t2))) / 100 - e) f = .nan := by
    intro a b d e f
    unfold latentHeatFlux
    rcases hi with e | e | e | e <;>
      simp only [e, ew_nan, nan_sub, sub_nan, nan_div, div_nan, mul_nan, nan_mul]
  unfold ebFluxes at h
  simp only [bind_eq_ok] at h
  obtain ⟨li, h1, ⟨hh, le, mol, csT, csQ⟩, h2, _, -, _, -, h⟩ := h
  rw [pure_eq_ok] at h
  subst h
  show le = .nan
  split at h2
  · rw [bind_eq_ok] at h2
    obtain ⟨s, h2, h3⟩ := h2
    rw [pure_eq_ok] at h3
    cases h3
    obtain ⟨a, b⟩ := whileM_ind h2 (fun s => s.optim = true ∨ s.le = .nan) (.inl rfl) (fun s s' _ hb => by
      unfold moPass at hb
      by_cases ho : s.optim = true
      · rw [if_pos ho] at hb
        simp only [hq] at hb
        cases hb
        exact .inr rfl
      · rw [if_neg ho] at hb
        cases hb)
    rcases a with a | a
    · unfold moPass at b
      rw [if_pos a] at b
      cases b
    · exact a
  · simp only [hq, mul_nan] at h2
    cases h2
    rfl
  · cases h2

/-- **C96, what is swallowed.** If the global radiation, the incoming longwave radiation or (without it) the cloud cover of a step is
missing, a step that returns reports no melt, whatever the column, the constants and the other inputs. -/
theorem C96_swallowed {sv : Solvers (Nan K)} {fuel : Nat} {c : Consts (Nan K)} {r : RunCfg (Nan K)} {s s' : SimState (Nan K)}
    {f : Forcing (Nan K)} {o : StepOut (Nan K)}
    (hm : f.g = .nan ∨ f.lwin = some .nan ∨ f.lwin = none ∧ f.n = some .nan) (h : step sv fuel c r s f = .ok (s', o)) :
    o.meltEnergy = 0 := by
  obtain ⟨st⟩ := step_stages h
  obtain ⟨a, b, hfl⟩ := surface_fluxes st.surface
  rw [st.meltEnergy]
  unfold meltEnergy
  rcases hm with hm | hm
  · rw [st.swnet, hm, pyMax_nan]
    simp only [nan_mul, nan_sub, nan_add, pyMax_zero_nan]
  · rw [fluxes_longwave (i := ⟨r.dt, r.z, o.z0, f.t2, f.rh2, f.pres, f.u2, o.rain, r.slope, a, b, f.lwin, f.n⟩) hm hfl]
    simp only [add_nan, nan_add, pyMax_zero_nan]

/-- **C96, partial.** If the air temperature, the humidity, the pressure, the wind speed, a given snowfall or the precipitation of a
step is missing, a step that returns reports the mass balance NaN, and the accumulated balance is NaN from then on. -/
theorem C96_noticed_partial {sv : Solvers (Nan K)} {fuel : Nat} {c : Consts (Nan K)} {r : RunCfg (Nan K)}
    {s s' : SimState (Nan K)} {f : Forcing (Nan K)} {o : StepOut (Nan K)}
    (hm : f.t2 = .nan ∨ f.rh2 = .nan ∨ f.pres = .nan ∨ f.u2 = .nan ∨ f.snowf = some .nan ∨
      f.snowf = none ∧ f.rrr = some .nan) (h : step sv fuel c r s f = .ok (s', o)) :
    o.mb = .nan ∧ s'.mbCum = .nan := by
  obtain ⟨st⟩ := step_stages h
  have key : o.mb = .nan := by
    rw [st.mb, st.surfMB]
    by_cases hp : f.snowf = some .nan ∨ f.snowf = none ∧ f.rrr = some .nan
    · have e : o.snowfall = .nan := by
        have hpr := st.precip
        unfold precipitation at hpr
        have : st.sr.1 = .nan := by
          rcases hp with e | ⟨e1, e2⟩
          · rw [e] at hpr
            rcases hr : f.rrr with _ | x
            · rw [hr] at hpr; cases hpr
            · rw [hr] at hpr; rw [← ok_inj.1 hpr]
          · rw [e1, e2] at hpr
            rw [← ok_inj.1 hpr]
            simp only [nan_div, nan_mul]
        rw [st.snowfall]
        unfold thresholdPrecip
        simp only [this]
        rw [if_neg (not_nan_lt _)]
      simp only [e, nan_mul, nan_sub, nan_add]
    · obtain ⟨a, b, hfl⟩ := surface_fluxes st.surface
      have hle : o.fluxes.le = .nan := by
        refine fluxes_latent ?_ hfl
        rcases hm with e | e | e | e | e
        · exact .inl e
        · exact .inr (.inl e)
        · exact .inr (.inr (.inl e))
        · exact .inr (.inr (.inr e))
        · exact absurd e hp
      have hv := st.vapour
      rw [hle] at hv
      unfold vapourFluxes at hv
      simp only [nan_div, pyMin_nan, pyMax_nan, nan_mul] at hv
      split_ifs at hv
      · injection hv with h1 h2 h3 h4
        simp only [← h1, add_nan, nan_add]
      · injection hv with h1 h2 h3 h4
        simp only [← h3, add_nan, nan_add]
  exact ⟨key, by rw [st.mbCum, key, add_nan]⟩

end

section
attribute [local instance] exTransc

/-- A solver that always answers 270 K. -/
def steadySolvers : Solvers (Nan ℚ) := ⟨fun _ _ => .ok (.num 270), fun _ _ _ _ _ => .ok (.num 270)⟩

/-- The forcing without the incoming longwave radiation. -/
def noLongwave : Forcing (Nan ℚ) := { exDry.toNan with lwin := some .nan }

/-- The forcing without the global radiation. -/
def noShortwave : Forcing (Nan ℚ) := { exDry.toNan with g := .nan }

/-- Reported mass balance of the example step. -/
def reportedBalance (f : Forcing (Nan ℚ)) : Option (Nan ℚ) :=
  (step steadySolvers 40 exConsts.toNan exCfg.toNan (initState exConsts false exGrid).toNan f).toOption.map (·.2.mb)

/-- **C96 refuted.** A step of an ordinary column without incoming longwave radiation, and one without global radiation, return an
ordinary number as mass balance. -/
theorem C96_not_noticed :
    ¬ ∀ (sv : Solvers (Nan ℚ)) (fuel : Nat) (c : Consts (Nan ℚ)) (r : RunCfg (Nan ℚ)) (s s' : SimState (Nan ℚ))
      (f : Forcing (Nan ℚ)) (o : StepOut (Nan ℚ)), f.lwin = some .nan ∨ f.g = .nan → step sv fuel c r s f = .ok (s', o) →
        o.mb = .nan := by
  intro hall
  have h : (reportedBalance noLongwave).any (fun x => decide (x ≠ .nan)) = true := by decide +kernel
  unfold reportedBalance at h
  rcases hs : step steadySolvers 40 exConsts.toNan exCfg.toNan (initState exConsts false exGrid).toNan noLongwave with e | ⟨s', o⟩
  · rw [hs] at h
    cases h
  · rw [hs] at h
    have := hall _ _ _ _ _ _ _ _ (.inl rfl) hs
    simp [Except.toOption, this] at h

/-! Non-vacuity: the steps return, with and without the values; with a missing humidity the balance is NaN. -/
example : (reportedBalance noLongwave).isSome ∧ (reportedBalance noShortwave).isSome ∧
    reportedBalance noLongwave ≠ some .nan ∧ reportedBalance noShortwave ≠ some .nan ∧
    reportedBalance { exDry.toNan with rh2 := .nan } = some .nan ∧
    reportedBalance { exDry.toNan with rrr := some .nan } = some .nan := by decide +kernel

end
end Cosipy
