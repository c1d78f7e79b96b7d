import Verif.Lemmas.Melt
import Mathlib.Algebra.Field.Rat
import Mathlib.Algebra.Order.Ring.Unbundled.Rat

/-!
# C12 Melt is taken strictly from the top
-/

set_option autoImplicit false

namespace Cosipy
section
variable {K : Type} [Field K] [LinearOrder K] [IsStrictOrderedRing K]

/-- **C12**: the column after `remove_melt_weq(m)` is the old one without a prefix `removed`, and with at most its next
layer replaced by one that differs in height only; the height of that layer is smaller (and positive) if its density
and height are positive. The returned water is the liquid water stored in `removed`. -/
theorem C12_prefix {g g' : Grid K} {fuel : Nat} {c : Consts K} {m w : K} (hw : g.WF)
    (h : g.removeMeltWeq fuel c m = .ok (g', w)) :
    ∃ removed rest, g.nodes = removed ++ rest ∧ w = sumWater removed ∧
      (g'.nodes = rest ∨
       ∃ a below x, rest = a :: below ∧ g'.nodes = { a with height := x } :: below ∧
         (0 < a.density c / c.waterDensity → 0 < x ∧ x < a.height)) := by
  obtain ⟨left, ⟨removed, rest, e1, e2, e3⟩, _, _⟩ := removeMelt_ok hw h
  refine ⟨removed, rest, e1, ?_, ?_⟩
  · rw [e2]; unfold sumWater; congr 1; funext n; ring
  rcases e3 with ⟨_, f2, _, _, _⟩ | ⟨_, a, below, f2, f3, f4, f5, f6⟩
  · exact .inl f2
  · refine .inr ⟨a, below, _, f2, f6, fun hp => ⟨div_pos (sub_pos.2 f4) hp, ?_⟩⟩
    rw [div_lt_iff₀ hp]
    show a.weq c - _ < a.weq c
    linarith

/-- **C12** (minimality): no layer is removed that could have been kept: the layers removed together hold at most `m`,
and nothing is removed unless `m > 0`. -/
theorem C12_minimal {g g' : Grid K} {fuel : Nat} {c : Consts K} {m w : K} (hw : g.WF)
    (h : g.removeMeltWeq fuel c m = .ok (g', w)) :
    ∃ removed rest, g.nodes = removed ++ rest ∧ (g'.nodes.length = rest.length) ∧
      (removed ≠ [] → 0 < m ∧ sumWeq c removed ≤ m) := by
  obtain ⟨left, ⟨removed, rest, e1, e2, e3⟩, _, _⟩ := removeMelt_ok hw h
  refine ⟨removed, rest, e1, ?_, ?_⟩
  · rcases e3 with ⟨_, f2, _, _, _⟩ | ⟨_, a, below, f2, f3, f4, f5, f6⟩
    · rw [f2]; rfl
    · rw [f6, f2]; simp
  · intro hr
    rcases e3 with ⟨f1, f2, _, f4, f5⟩ | ⟨_, a, below, f2, f3, f4, f5, f6⟩
    · refine ⟨f5 hr, ?_⟩
      have := f4 hr
      unfold sumWeq
      linarith
    · have hle : sumWeq c removed ≤ m := by unfold sumWeq; linarith
      refine ⟨?_, hle⟩
      by_contra hm
      -- with m ≤ 0 the loop does not run at all
      rw [not_lt] at hm
      have hrun : g.removeMeltWeq fuel c m = .ok (g', w) := h
      unfold Grid.removeMeltWeq at hrun
      rw [bind_eq_ok] at hrun
      obtain ⟨s, hs, hrun⟩ := hrun
      rw [pure_eq_ok] at hrun
      cases fuel with
      | zero => cases hs
      | succ n =>
        have hb : Grid.removeMeltPass c 0 ⟨g, m, 0⟩ = .ok none := by
          unfold Grid.removeMeltPass
          rw [if_neg (fun h => absurd h.1 (not_lt.2 hm))]; rfl
        rw [whileM, hb] at hs
        simp only [Except.ok.injEq] at hs
        subst hs
        simp only [if_true, Prod.mk.injEq] at hrun
        have hn : g'.nodes = g.nodes := by rw [← hrun.1]; rfl
        rw [hn, e1, f2] at f6
        have := congrArg List.length f6
        simp at this
        exact hr this

/-- **C12** (no melt): a non-positive melt leaves all layers unchanged and returns no water. -/
theorem C12_no_melt {g : Grid K} {fuel : Nat} {c : Consts K} {m : K} (hm : m ≤ 0) (hf : 0 < fuel) :
    ∃ g', g.removeMeltWeq fuel c m = .ok (g', 0) ∧ g'.nodes = g.nodes := by
  obtain ⟨n, rfl⟩ : ∃ n, fuel = n + 1 := ⟨fuel - 1, by omega⟩
  have hb : Grid.removeMeltPass c 0 ⟨g, m, 0⟩ = .ok none := by
    unfold Grid.removeMeltPass
    rw [if_neg (fun h => absurd h.1 (not_lt.2 hm))]; rfl
  unfold Grid.removeMeltWeq
  rw [whileM, hb, ok_bind]
  exact ⟨_, rfl, rfl⟩

end

/-! Non-vacuity: one layer is removed, its water returned, the next one thinned. -/
private def exCol : Grid ℚ :=
  ⟨[⟨1/10, 273, 1/100, 3/10, 0⟩, ⟨1/10, 273, 0, 3/10, 0⟩, ⟨1, 270, 0, 1, 0⟩], 3, 1/10, 0, 0⟩

example : exCol.WF ∧ (exCol.removeMeltWeq 10 (Consts.default ℚ) (1/20)).toOption.map
    (fun r => (r.1.nodes.length, r.2)) = some (2, 1/1000) ∧
    (exCol.removeMeltWeq 10 (Consts.default ℚ) (-1/20)).toOption.map (fun r => (r.1.nodes == exCol.nodes, r.2)) =
      some (true, 0) := by
  unfold Grid.WF; decide +kernel

end Cosipy
