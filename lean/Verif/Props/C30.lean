import Verif.Props.C29
import Verif.Lemmas.StepInv
import Verif.Lemmas.Example
import Mathlib.Algebra.Order.Archimedean.Basic

/-!
# C30 Bougamont snow albedo stays between firn and fresh-snow albedo

Refuted for the shipped constants and hourly steps on a melting surface. Full statement: after any number of albedo
updates, starting from a snow albedo between those of firn and fresh snow, the snow albedo is still between them.
`C30_range_partial` proves it when the decay time scale times the step in days is at least one in every update.
`C30_melting_factor` gives the exact law on a melting surface, `C30_refuted` that the value leaves every bound. With the other
method the snow albedo is not used and is handed on unchanged (`C30_oerlemans_run`).
-/

set_option autoImplicit false
set_option linter.unusedSectionVars false

namespace Cosipy
section
variable {K : Type} [Field K] [LinearOrder K] [IsStrictOrderedRing K] [Transc K]

/-- Successive calls of the Bougamont method on arbitrary columns and surface temperatures; the snow albedo is handed
from one to the next. -/
def bougamontCalls (c : Consts K) : K → List (Grid K × K) → M K
  | a, [] => .ok a
  | a, (g, t) :: rest => do
    let r ← methodBougamont c g t a
    bougamontCalls c r.2.2 rest

/-- Decay time scale in days at a surface temperature: `c.tStarWet` on a melting surface, and below it growing linearly
down to the cut-off temperature. -/
def decayDays (c : Consts K) (t : K) : K :=
  if c.zeroTemperature ≤ t then c.tStarWet else c.tStarDry + (c.zeroTemperature - max t c.tStarCutoff) * c.tStarK

theorem tStar_eq (c : Consts K) (t : K) : tStar c t = decayDays c t := by
  unfold tStar decayDays
  split_ifs with h1 h2
  · rfl
  · rw [max_eq_right h2.le]
  · rw [max_eq_left (not_lt.1 h2)]

/-- What one call does to the snow albedo. -/
theorem bougamont_snow {c : Consts K} {g g' : Grid K} {t a s a' : K} (h : methodBougamont c g t a = .ok (g', s, a')) :
    a' = a ∨ a' = c.albedoFreshSnow ∨ a' = bougamontDecay c t a := by
  unfold methodBougamont at h
  generalize getSurfaceProperties c g = p at *
  obtain ⟨g1, hours⟩ := p
  simp only [bind_eq_ok] at h
  obtain ⟨top, htop, h⟩ := h
  split_ifs at h with h1
  · simp only [bind_eq_ok] at h
    obtain ⟨hs, _, h⟩ := h
    rw [pure_eq_ok] at h
    cases h
    exact Or.inr (Or.inl rfl)
  · simp only [bind_eq_ok] at h
    obtain ⟨hs, _, h⟩ := h
    rw [pure_eq_ok] at h
    cases h
    exact Or.inr (Or.inr rfl)
  · rw [pure_eq_ok] at h
    cases h
    exact Or.inl rfl

theorem bougamontDecay_eq (c : Consts K) (t a : K) :
    bougamontDecay c t a = a - (a - c.albedoFirn) / (decayDays c t * (c.dt / 86400)) := by
  have e : (86400.0 : K) = 86400 := by norm_num
  unfold bougamontDecay
  simp only [tStar_eq c, e]

/-- **C30, the stable case.** If in every update the time scale times the step length in days is at least one, the snow
albedo stays between the albedos of firn and fresh snow for ever. Missing: shorter time scales, for which the claim is
false. -/
theorem C30_range_partial {c : Consts K} (ho : c.AlbedoOrder) :
    ∀ {calls : List (Grid K × K)} {a a' : K}, (∀ p ∈ calls, 1 ≤ decayDays c p.2 * (c.dt / 86400)) →
    c.albedoFirn ≤ a → a ≤ c.albedoFreshSnow → bougamontCalls c a calls = .ok a' →
    c.albedoFirn ≤ a' ∧ a' ≤ c.albedoFreshSnow := by
  intro calls
  induction calls with
  | nil =>
    intro a a' _ h1 h2 h
    rw [bougamontCalls] at h
    cases h
    exact ⟨h1, h2⟩
  | cons p calls ih =>
    intro a a' hq h1 h2 h
    obtain ⟨g, t⟩ := p
    rw [bougamontCalls] at h
    simp only [bind_eq_ok] at h
    obtain ⟨⟨g', s, a1⟩, hr, h⟩ := h
    have hf := ho.firn_le
    have hrange : c.albedoFirn ≤ a1 ∧ a1 ≤ c.albedoFreshSnow := by
      rcases bougamont_snow hr with rfl | rfl | rfl
      · exact ⟨h1, h2⟩
      · exact ⟨hf, le_rfl⟩
      · rw [bougamontDecay_eq]
        have hq0 := hq (g, t) (by simp)
        simp only at hq0
        generalize decayDays c t * (c.dt / 86400) = q at *
        have hq1 : 0 < q := by linarith
        have e1 : (a - c.albedoFirn) / q ≤ a - c.albedoFirn := by
          rw [div_le_iff₀ hq1]
          nlinarith
        have e2 : 0 ≤ (a - c.albedoFirn) / q := div_nonneg (by linarith) hq1.le
        constructor <;> linarith
    exact ih (fun p hp => hq p (by simp [hp])) hrange.1 hrange.2 h

/-- A column whose top is snow, on which some snow fell and has aged: the age is not zero and not replaced. -/
def AgedSnow (c : Consts K) (g : Grid K) : Prop :=
  g.WF ∧ 0 < g.newSnowHeight ∧ 0 < g.newSnowTimestamp ∧
    ∃ top rest, g.nodes = top :: rest ∧ top.density c ≤ c.snowIceThreshold

theorem bougamont_aged {c : Consts K} {g : Grid K} (hg : AgedSnow c g) (t a : K) :
    ∃ s, methodBougamont c g t a = .ok (g, s, bougamontDecay c t a) := by
  obtain ⟨hw, h1, h2, top, rest, hn, hd⟩ := hg
  unfold methodBougamont getSurfaceProperties
  have e : (3600.0 : K) = 3600 := by norm_num
  have hno : ¬ (g.newSnowTimestamp / 3600 < c.albedoModSnowAging * 24 ∧ g.newSnowHeight ≤ 0) :=
    fun h => absurd h.2 (not_le.2 h1)
  have htop : g.node 0 = .ok top := by unfold Grid.node; rw [hn, pyGet_zero]
  have hh : (g.newSnowTimestamp / 3600 == 0) = false := by
    have : g.newSnowTimestamp / 3600 ≠ 0 := by positivity
    simpa using h2.ne'
  simp only [e]
  simp only [if_neg hno, htop, ok_bind, if_pos hd, Grid.getTotalSnowheight_eq hw, hh]
  exact ⟨_, rfl⟩

/-- **C30, law on a melting surface.** With the shipped constants and hourly steps, each update of an aged snow surface
at the melting point multiplies the distance from the firn albedo by −1.4. -/
theorem C30_melting_factor {calls : List (Grid K × K)} {a : K}
    (hc : ∀ p ∈ calls, AgedSnow (Consts.default K) p.1 ∧ 273.16 ≤ p.2) :
    ∃ a', bougamontCalls (Consts.default K) a calls = .ok a' ∧ a' - 0.55 = (-1.4) ^ calls.length * (a - 0.55) := by
  induction calls generalizing a with
  | nil => exact ⟨a, rfl, by simp⟩
  | cons p calls ih =>
    obtain ⟨g, t⟩ := p
    obtain ⟨h1, h2⟩ := hc (g, t) (by simp)
    simp only at h1 h2
    obtain ⟨s, hs⟩ := bougamont_aged h1 t a
    have hd : bougamontDecay (Consts.default K) t a - 0.55 = -1.4 * (a - 0.55) := by
      rw [bougamontDecay_eq]
      have hz : (Consts.default K).zeroTemperature ≤ t := by
        have : (Consts.default K).zeroTemperature = (273.16 : K) := rfl
        rw [this]; exact h2
      unfold decayDays
      rw [if_pos hz]
      norm_num [Consts.default]
      ring
    obtain ⟨a', ha', he⟩ := ih (a := bougamontDecay (Consts.default K) t a) fun p hp => hc p (by simp [hp])
    refine ⟨a', ?_, ?_⟩
    · rw [bougamontCalls, hs, ok_bind]; exact ha'
    · rw [he, hd, List.length_cons, pow_succ]; ring

/-- **C30 refuted.** Hourly updates of an aged, melting snow surface drive the snow albedo beyond every bound, from every
starting value other than the firn albedo. -/
theorem C30_refuted [Archimedean K] {g : Grid K} (hg : AgedSnow (Consts.default K) g) {a : K} (ha : a ≠ 0.55) (B : K) :
    ∃ n a', bougamontCalls (Consts.default K) a (List.replicate n (g, 273.16)) = .ok a' ∧ B < |a'| := by
  have hpos : 0 < |a - 0.55| := abs_pos.2 (sub_ne_zero.2 ha)
  obtain ⟨n, hn⟩ := pow_unbounded_of_one_lt ((|B| + 0.55) / |a - 0.55|) (show (1 : K) < 1.4 by norm_num)
  obtain ⟨a', h1, h2⟩ := C30_melting_factor (a := a) (calls := List.replicate n (g, (273.16 : K))) (by
    intro p hp
    rw [List.mem_replicate] at hp
    rw [hp.2]
    exact ⟨hg, le_rfl⟩)
  refine ⟨n, a', h1, ?_⟩
  rw [List.length_replicate] at h2
  rw [div_lt_iff₀ hpos] at hn
  have e : |a' - 0.55| = 1.4 ^ n * |a - 0.55| := by
    rw [h2, abs_mul, abs_pow, abs_neg, abs_of_pos (show (0 : K) < 1.4 by norm_num)]
  have e2 : |a' - 0.55| ≤ |a'| + 0.55 := by
    have := abs_sub a' 0.55
    rwa [abs_of_pos (show (0 : K) < 0.55 by norm_num)] at this
  have := le_abs_self B
  linarith

/-- What a step makes of the snow albedo it is handed: with the Bougamont method it is kept, reset or decayed once, at the surface
temperature of the step before. -/
theorem C30_step {sv : Solvers K} {fuel : Nat} {c : Consts K} {r : RunCfg K} {s s' : SimState K} {f : Forcing K} {o : StepOut K}
    (hc : c.albedoMethod = .bougamont05) (h : step sv fuel c r s f = .ok (s', o)) :
    s'.albedoSnow = s.albedoSnow ∨ s'.albedoSnow = c.albedoFreshSnow ∨
      s'.albedoSnow = s.albedoSnow - (s.albedoSnow - c.albedoFirn) / (decayDays c s.surfaceTemperature * (c.dt / 86400)) := by
  obtain ⟨st⟩ := step_stages h
  have ha := st.albedo
  unfold updateAlbedo at ha
  rw [hc] at ha
  rw [← bougamontDecay_eq]
  exact bougamont_snow ha

/-- With the Oerlemans method a step hands on the snow albedo as it got it. -/
theorem C30_oerlemans_step {sv : Solvers K} {fuel : Nat} {c : Consts K} {r : RunCfg K} {s s' : SimState K} {f : Forcing K} {o : StepOut K}
    (hc : c.albedoMethod = .oerlemans98) (h : step sv fuel c r s f = .ok (s', o)) : s'.albedoSnow = s.albedoSnow := by
  obtain ⟨st⟩ := step_stages h
  have ha := st.albedo
  unfold updateAlbedo at ha
  rw [hc] at ha
  simp only [bind_eq_ok, pure_eq_ok] at ha
  obtain ⟨⟨g, a⟩, _, ha⟩ := ha
  exact (congrArg (fun x => x.2.2) ha).symm

/-- And so does a run of any length: changing to the Bougamont method at a restart starts from the initial snow albedo. -/
theorem C30_oerlemans_run {sv : Solvers K} {fuel : Nat} {c : Consts K} {r : RunCfg K} (hc : c.albedoMethod = .oerlemans98)
    (fs : List (Forcing K)) {s s' : SimState K} {os : List (StepOut K)} (h : run sv fuel c r s fs = .ok (s', os)) :
    s'.albedoSnow = s.albedoSnow :=
  run_ind (fun t => t.albedoSnow = s.albedoSnow) (fun ht hs => (C30_oerlemans_step hc hs).trans ht) fs rfl h

/-- Hourly steps on dry snow are stable. -/
example (t : K) (ht : t < 273.16) : 1 ≤ decayDays (Consts.default K) t * ((Consts.default K).dt / 86400) := by
  have hz : (Consts.default K).zeroTemperature = (273.16 : K) := rfl
  unfold decayDays
  rw [hz, if_neg (not_le.2 ht)]
  have : max t (Consts.default K).tStarCutoff ≤ 273.16 := by
    apply max_le ht.le
    norm_num [Consts.default]
  have e : (Consts.default K).tStarDry = 30 ∧ (Consts.default K).tStarK = 14 ∧ (Consts.default K).dt = 3600 := by
    norm_num [Consts.default]
  rw [e.1, e.2.1, e.2.2]
  generalize max t (Consts.default K).tStarCutoff = m at *
  linarith

/-- An aged snow surface exists. -/
example : AgedSnow (Consts.default K) ⟨[⟨1/10, 273.16, 0, 1/4, 0⟩, ⟨2, 270, 0, 1, 0⟩], 2, 1/100, 172800, 0⟩ := by
  refine ⟨rfl, by norm_num, by norm_num, _, _, rfl, ?_⟩
  unfold Node.density Node.airPorosity; rw [pyMax_eq]; norm_num [Consts.default]

end

attribute [local instance] exTransc

/-- Steps with both methods: an hour with snowfall and a dry one. With the Oerlemans method the snow albedo is the initial one, with the
Bougamont method it has decayed. -/
example : exConsts.albedoMethod = .oerlemans98 ∧
    (exRun [exSnow, exDry]).toOption.map (fun x => x.1.albedoSnow) = some exConsts.albedoFreshSnow := ⟨rfl, by decide +kernel⟩

example : ((run exSolvers 40 { exConsts with albedoMethod := .bougamont05 } exCfg
    (initState exConsts false exGrid) [exDry, exDry]).toOption.map fun x => decide (x.1.albedoSnow < exConsts.albedoFreshSnow)) = some true := by
  decide +kernel

end Cosipy
