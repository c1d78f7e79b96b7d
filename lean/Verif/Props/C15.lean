import Verif.Lemmas.StepInv
import Verif.Lemmas.Example

/-!
# C15 Snow age counts the time since the last significant snowfall
-/

set_option autoImplicit false
set_option linter.unusedSectionVars false

namespace Cosipy
section
variable {K : Type} [Field K] [LinearOrder K] [IsStrictOrderedRing K] [Transc K]
variable {sv : Solvers K} {fuel : Nat} {c : Consts K} {r : RunCfg K}

/-- Only snowfalls of at least `minimum_snowfall` count. -/
theorem C15_significant {s s' : SimState K} {f : Forcing K} {o : StepOut K}
    (h : step sv fuel c r s f = .ok (s', o)) (hs : o.snowfall ≠ 0) : c.minimumSnowfall ≤ o.snowfall := by
  obtain ⟨st⟩ := step_stages h
  have := st.snowfall
  unfold thresholdPrecip at this
  simp only at this
  split_ifs at this with h1
  · exact absurd this hs
  · rw [this]; exact not_lt.1 h1

/-- A step with snowfall resets the age, remembers the previous one as age of the underlying snow and records the
snowfall height as tracked height (which may then only grow). -/
theorem C15_step_snow {s s' : SimState K} {f : Forcing K} {o : StepOut K} (hw : s.grid.WF)
    (h : step sv fuel c r s f = .ok (s', o)) (hs : 0 < o.snowfall) :
    s'.grid.newSnowTimestamp = 0 ∧ s'.grid.oldSnowTimestamp = s.grid.newSnowTimestamp ∧
    o.snowfall ≤ s'.grid.newSnowHeight := by
  have hmin := C15_significant h hs.ne'
  obtain ⟨g0, g1, e0, e1, a, b, d⟩ := step_snowProps hw h
  have hg0 : g0.newSnowHeight = o.snowfall ∧ g0.newSnowTimestamp = 0 ∧ g0.oldSnowTimestamp = s.grid.newSnowTimestamp := by
    rw [e0]; unfold applySnowfall; rw [if_pos hs]; unfold Grid.addFreshSnow
    simp only; rw [if_neg (not_lt.2 hmin)]; exact ⟨rfl, rfl, rfl⟩
  simp only [Grid.snowProps, Prod.mk.injEq] at e1
  have hnot : ¬ (g1.newSnowTimestamp / 3600.0 < c.albedoModSnowAging * 24 ∧ g1.newSnowHeight ≤ 0) := by
    rw [e1.1, hg0.1]; exact fun h => absurd h.2 (not_le.2 hs)
  refine ⟨?_, ?_, ?_⟩
  · rw [a]; unfold getSurfaceProperties; simp only; rw [if_neg hnot, e1.2.1, hg0.2.1]
  · rw [b, e1.2.2, hg0.2.2]
  · rw [← hg0.1, ← e1.1]; exact d

/-- A step without snowfall ages both records by `dt`, as long as the tracked fresh-snow height is positive. -/
theorem C15_step_dry {s s' : SimState K} {f : Forcing K} {o : StepOut K} (hw : s.grid.WF)
    (h : step sv fuel c r s f = .ok (s', o)) (hs : ¬ 0 < o.snowfall) (hh : 0 < s.grid.newSnowHeight) :
    s'.grid.newSnowTimestamp = s.grid.newSnowTimestamp + r.dt ∧
    s'.grid.oldSnowTimestamp = s.grid.oldSnowTimestamp + r.dt ∧ 0 < s'.grid.newSnowHeight := by
  obtain ⟨g0, g1, e0, e1, a, b, d⟩ := step_snowProps hw h
  have hg0 : g0.newSnowHeight = s.grid.newSnowHeight ∧ g0.newSnowTimestamp = s.grid.newSnowTimestamp + r.dt ∧
      g0.oldSnowTimestamp = s.grid.oldSnowTimestamp + r.dt := by
    rw [e0]; unfold applySnowfall; rw [if_neg hs]; exact ⟨rfl, rfl, rfl⟩
  simp only [Grid.snowProps, Prod.mk.injEq] at e1
  have hnot : ¬ (g1.newSnowTimestamp / 3600.0 < c.albedoModSnowAging * 24 ∧ g1.newSnowHeight ≤ 0) := by
    rw [e1.1, hg0.1]; exact fun h => absurd h.2 (not_le.2 hh)
  refine ⟨?_, ?_, ?_⟩
  · rw [a]; unfold getSurfaceProperties; simp only; rw [if_neg hnot, e1.2.1, hg0.2.1]
  · rw [b, e1.2.2, hg0.2.2]
  · exact hh.trans_le (by rw [← hg0.1, ← e1.1]; exact d)

/-- Without any snowfall the ages just grow. -/
theorem C15_dry_run : ∀ (fs : List (Forcing K)) {s s' : SimState K} {os : List (StepOut K)}, s.grid.WF →
    run sv fuel c r s fs = .ok (s', os) → (∀ o ∈ os, ¬ 0 < o.snowfall) → 0 < s.grid.newSnowHeight →
    s'.grid.newSnowTimestamp = s.grid.newSnowTimestamp + os.length * r.dt ∧
    s'.grid.oldSnowTimestamp = s.grid.oldSnowTimestamp + os.length * r.dt := by
  intro fs
  induction fs with
  | nil => intro s s' os _ h _ _; rw [run] at h; cases h; simp
  | cons f fs ih =>
    intro s s' os hw h hs hh
    obtain ⟨s1, o1, os1, h1, h2, rfl⟩ := run_cons h
    obtain ⟨a, b, d⟩ := C15_step_dry hw h1 (hs o1 (by simp)) hh
    obtain ⟨st⟩ := step_stages h1
    obtain ⟨e1, e2⟩ := ih (st.wfs hw).w9 h2 (fun o ho => hs o (by simp [ho])) d
    rw [e1, e2, a, b]
    constructor <;> simp <;> ring

/-- **C15** In every simulation, whatever came before: if the outputs end in a step with snowfall followed by `n` steps
without, the recorded snow age is `n * dt`. -/
theorem C15_age : ∀ (fs : List (Forcing K)) {s s' : SimState K} {os : List (StepOut K)}, s.grid.WF →
    run sv fuel c r s fs = .ok (s', os) → ∀ {pre post : List (StepOut K)} {o : StepOut K}, os = pre ++ o :: post →
    0 < o.snowfall → (∀ o' ∈ post, ¬ 0 < o'.snowfall) →
    s'.grid.newSnowTimestamp = post.length * r.dt := by
  intro fs
  induction fs with
  | nil => intro s s' os _ h pre post o he; rw [run] at h; cases h; simp at he
  | cons f fs ih =>
    intro s s' os hw h pre post o he hs hpost
    obtain ⟨s1, o1, os1, h1, h2, rfl⟩ := run_cons h
    obtain ⟨st⟩ := step_stages h1
    have hw1 := (st.wfs hw).w9
    cases pre with
    | nil =>
      simp only [List.nil_append, List.cons.injEq] at he
      obtain ⟨rfl, rfl⟩ := he
      obtain ⟨a, _, d⟩ := C15_step_snow hw h1 hs
      rw [(C15_dry_run fs hw1 h2 hpost (hs.trans_le d)).1, a, zero_add]
    | cons p pre =>
      simp only [List.cons_append, List.cons.injEq] at he
      exact ih hw1 h2 he.2 hs hpost

/-- **C15** Before the first snowfall of a simulation that starts with equal ages (every new column), both ages are the
start value plus the elapsed time, whatever the tracked height. -/
theorem C15_before_first_snow : ∀ (fs : List (Forcing K)) {s s' : SimState K} {os : List (StepOut K)}, s.grid.WF →
    run sv fuel c r s fs = .ok (s', os) → (∀ o ∈ os, ¬ 0 < o.snowfall) →
    s.grid.newSnowTimestamp = s.grid.oldSnowTimestamp →
    s'.grid.newSnowTimestamp = s.grid.newSnowTimestamp + os.length * r.dt ∧
    s'.grid.oldSnowTimestamp = s'.grid.newSnowTimestamp := by
  intro fs
  induction fs with
  | nil => intro s s' os _ h _ he; rw [run] at h; cases h; simp [he]
  | cons f fs ih =>
    intro s s' os hw h hs he
    obtain ⟨s1, o1, os1, h1, h2, rfl⟩ := run_cons h
    obtain ⟨g0, g1, e0, e1, a, b, _⟩ := step_snowProps hw h1
    have hg0 : g0.newSnowTimestamp = s.grid.newSnowTimestamp + r.dt ∧
        g0.oldSnowTimestamp = s.grid.oldSnowTimestamp + r.dt := by
      rw [e0]; unfold applySnowfall; rw [if_neg (hs o1 (by simp))]; exact ⟨rfl, rfl⟩
    simp only [Grid.snowProps, Prod.mk.injEq] at e1
    have a' : s1.grid.newSnowTimestamp = s.grid.newSnowTimestamp + r.dt := by
      rw [a]; unfold getSurfaceProperties; simp only
      split_ifs
      · simp only [Grid.setFreshSnowPropsToOldProps]; rw [e1.2.2, hg0.2, he]
      · rw [e1.2.1, hg0.1]
    have b' : s1.grid.oldSnowTimestamp = s.grid.newSnowTimestamp + r.dt := by rw [b, e1.2.2, hg0.2, he]
    obtain ⟨st⟩ := step_stages h1
    obtain ⟨i1, i2⟩ := ih (st.wfs hw).w9 h2 (fun o ho => hs o (by simp [ho])) (by rw [a', b'])
    refine ⟨?_, i2⟩
    rw [i1, a']; simp; ring

/-- The ages are ordered: `0 ≤ age of fresh snow ≤ age of the underlying snow`. -/
def AgesOrdered (g : Grid K) : Prop := 0 ≤ g.newSnowTimestamp ∧ g.newSnowTimestamp ≤ g.oldSnowTimestamp

/-- One step keeps the ages ordered. -/
theorem C15_ordered_step (hdt : 0 ≤ r.dt) {s s' : SimState K} {f : Forcing K} {o : StepOut K} (hw : s.grid.WF)
    (ha : AgesOrdered s.grid) (h : step sv fuel c r s f = .ok (s', o)) : AgesOrdered s'.grid := by
  obtain ⟨h0, h1⟩ := ha
  by_cases hs : 0 < o.snowfall
  · obtain ⟨a, b, _⟩ := C15_step_snow hw h hs
    exact ⟨a.ge, by rw [a, b]; exact h0⟩
  · obtain ⟨g0, g1, e0, e1, a, b, d⟩ := step_snowProps hw h
    have hg0 : g0.newSnowTimestamp = s.grid.newSnowTimestamp + r.dt ∧
        g0.oldSnowTimestamp = s.grid.oldSnowTimestamp + r.dt := by
      rw [e0]; unfold applySnowfall; rw [if_neg hs]; exact ⟨rfl, rfl⟩
    simp only [Grid.snowProps, Prod.mk.injEq] at e1
    unfold AgesOrdered
    rw [a, b]; unfold getSurfaceProperties; simp only
    split_ifs
    · simp only [Grid.setFreshSnowPropsToOldProps]
      rw [e1.2.2, hg0.2]; constructor <;> linarith
    · rw [e1.2.1, e1.2.2, hg0.1, hg0.2]; constructor <;> linarith

/-- **C15** At every point of every simulation the ages are non-negative and the underlying snow is not younger. -/
theorem C15_ordered (hdt : 0 ≤ r.dt) (fs : List (Forcing K)) {s s' : SimState K} {os : List (StepOut K)} (hw : s.grid.WF)
    (ha : AgesOrdered s.grid) (h : run sv fuel c r s fs = .ok (s', os)) :
    0 ≤ s'.grid.newSnowTimestamp ∧ s'.grid.newSnowTimestamp ≤ s'.grid.oldSnowTimestamp := by
  exact (run_ind (fun s => s.grid.WF ∧ AgesOrdered s.grid) (fun {s f s' o} hs hst => by
    obtain ⟨st⟩ := step_stages hst
    exact ⟨(st.wfs hs.1).w9, C15_ordered_step hdt hs.1 hs.2 hst⟩) fs ⟨hw, ha⟩ h).2

end

/-! Non-vacuity: dry, snow, dry, dry. -/
example : ((exRun [exDry, exSnow, exDry, exDry]).toOption.map fun r =>
    (r.2.map fun o => decide (0 < o.snowfall), r.1.grid.newSnowTimestamp, r.1.grid.oldSnowTimestamp)) =
    some ([false, true, false, false], 7200, 10800) := by decide +kernel
example : exGrid.WF ∧ AgesOrdered exGrid := by unfold Grid.WF AgesOrdered; decide +kernel

end Cosipy
