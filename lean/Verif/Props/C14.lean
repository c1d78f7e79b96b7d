import Verif.Props.C11

/-!
# C14 The tracked fresh-snow height shrinks with melt
-/

set_option autoImplicit false

namespace Cosipy
section
variable {K : Type} [Field K] [LinearOrder K] [IsStrictOrderedRing K]

/-- The full claim C14 for one call: the tracked fresh-snow height decreases whenever melt is removed. -/
def TracksMelt (c : Consts K) (g : Grid K) (fuel : Nat) (m : K) : Prop :=
  ∀ g' w, 0 < m → g.removeMeltWeq fuel c m = .ok (g', w) → g'.newSnowHeight < g.newSnowHeight

/-- **C14** (violation, for every column): as long as some of the column is left, the tracked fresh-snow height is
*unchanged* by melt. -/
theorem C14_unchanged {g g' : Grid K} {fuel : Nat} {c : Consts K} {m w : K} (hw : g.WF) (hm : 0 ≤ m)
    (hlt : m < sumWeq c g.nodes) (h : g.removeMeltWeq fuel c m = .ok (g', w)) :
    g'.newSnowHeight = g.newSnowHeight := by
  obtain ⟨left, ⟨removed, rest, e1, _, e3⟩, _, hg⟩ := removeMelt_ok hw h
  have : left = 0 := by
    rcases e3 with ⟨f1, f2, f3, f4, _⟩ | ⟨f1, _⟩
    · have hl0 : 0 ≤ left := by
        by_cases hr : removed = []
        · rw [f1, hr]; simpa using hm
        · exact f4 hr
      rcases f3 with f3 | f3
      · exact le_antisymm f3 hl0
      · rw [e1, f3] at hlt
        unfold sumWeq at hlt
        simp at hlt
        linarith
    · exact f1
  rw [hg, this]; simp

/-- **C14** (violation): net deposition (`m < 0`) increases the tracked fresh-snow height by `-m`, although no layer
changes. -/
theorem C14_deposition {g g' : Grid K} {fuel : Nat} {c : Consts K} {m w : K} (hw : g.WF) (hm : m < 0)
    (h : g.removeMeltWeq fuel c m = .ok (g', w)) :
    g'.newSnowHeight = g.newSnowHeight - m ∧ g.newSnowHeight < g'.newSnowHeight ∧ g'.nodes = g.nodes := by
  unfold Grid.removeMeltWeq at h
  rw [bind_eq_ok] at h
  obtain ⟨s, hs, h⟩ := h
  rw [pure_eq_ok] at h
  cases fuel with
  | zero => cases hs
  | succ n =>
    have hb : Grid.removeMeltPass c 0 ⟨g, m, 0⟩ = .ok none := by
      unfold Grid.removeMeltPass
      rw [if_neg (fun h => absurd h.1 (not_lt.2 hm.le))]; rfl
    rw [whileM, hb] at hs
    simp only [Except.ok.injEq] at hs
    subst hs
    simp only [if_true, Prod.mk.injEq] at h
    rw [← h.1]
    refine ⟨rfl, ?_, rfl⟩
    show g.newSnowHeight < g.newSnowHeight - m
    linarith

/-- **C14** (what is true): when the whole column melts, the tracked height is reduced by the melt that exceeded the
column. Full statement: it decreases by any melt (`TracksMelt`); refuted by `C14_unchanged`. -/
theorem C14_column_gone_partial {g g' : Grid K} {fuel : Nat} {c : Consts K} {m w : K} (hw : g.WF)
    (hpos : ∀ n ∈ g.nodes, 0 < n.weq c) (hge : sumWeq c g.nodes ≤ m) (h : g.removeMeltWeq fuel c m = .ok (g', w)) :
    g'.newSnowHeight = g.newSnowHeight - (m - sumWeq c g.nodes) := by
  have hnil := C11_all hw hpos hge h
  obtain ⟨left, ⟨removed, rest, e1, _, e3⟩, _, hg⟩ := removeMelt_ok hw h
  rcases e3 with ⟨f1, f2, f3, f4, _⟩ | ⟨f1, _, _, _, _, _, _, f6⟩
  · rw [hnil] at f2
    have hr : rest = [] := by simpa using f2.symm
    rw [hg, f1, e1, hr]; simp [sumWeq]
  · rw [hnil] at f6; simp at f6

end

private def exCol : Grid ℚ :=
  ⟨[⟨1/10, 273, 1/100, 3/10, 0⟩, ⟨1/10, 273, 0, 3/10, 0⟩, ⟨1, 270, 0, 1, 0⟩], 3, 1/10, 0, 0⟩

/-- **C14** (violation): 5 cm w.e. of melt remove the whole fresh layer, the tracked height stays 10 cm. -/
theorem C14_refuted : ¬ TracksMelt (Consts.default ℚ) exCol 10 (1/20) := by
  intro h
  have hw : exCol.WF := by unfold Grid.WF; decide +kernel
  obtain ⟨g', w, hr⟩ := C11_returns (Consts.default ℚ) exCol hw (1/20) (fuel := 10) (by decide)
  have h1 := h g' w (by norm_num) hr
  have h2 := C14_unchanged hw (by norm_num) (by unfold sumWeq columnSum; decide +kernel) hr
  rw [h2] at h1
  exact lt_irrefl _ h1

/-! Non-vacuity. -/
example : exCol.WF ∧ (exCol.removeMeltWeq 10 (Consts.default ℚ) (-1/20)).toOption.map (fun r => r.1.newSnowHeight) =
      some (3/20) ∧
    (exCol.removeMeltWeq 10 (Consts.default ℚ) 2).isOk ∧ sumWeq (Consts.default ℚ) exCol.nodes ≤ 2 ∧
    (∀ n ∈ exCol.nodes, 0 < n.weq (Consts.default ℚ)) := by
  unfold Grid.WF sumWeq columnSum; decide +kernel

end Cosipy
