import Verif.Props.C11

/-!
# C13 Water handed to percolation equals the mass taken from the column
-/

set_option autoImplicit false

namespace Cosipy
section
variable {K : Type} [Field K] [LinearOrder K] [IsStrictOrderedRing K]

/-- **C13** (exact balance): for `0 ≤ m <` column water equivalent, the water released (`m` plus the returned water)
exceeds the water equivalent taken from the column by exactly the liquid water of the removed layers. Full statement:
the two are equal; that is false, see `C13_double_count`. -/
theorem C13_balance_partial {g g' : Grid K} {fuel : Nat} {c : Consts K} {m w : K} (hw : g.WF) (hm : 0 ≤ m)
    (hlt : m < sumWeq c g.nodes) (h : g.removeMeltWeq fuel c m = .ok (g', w)) :
    ∃ removed rest, g.nodes = removed ++ rest ∧ g'.nodes.length = rest.length ∧
      m + w = (sumWeq c g.nodes - sumWeq c g'.nodes) + sumWater removed := by
  have he := C11_exact hw hm hlt h
  obtain ⟨left, ⟨removed, rest, e1, e2, e3⟩, _, _⟩ := removeMelt_ok hw h
  refine ⟨removed, rest, e1, ?_, ?_⟩
  · rcases e3 with ⟨_, f2, _, _, _⟩ | ⟨_, a, below, f2, f3, f4, f5, f6⟩
    · rw [f2]; rfl
    · rw [f6, f2]; simp
  · have : w = sumWater removed := by
      rw [e2]; unfold sumWater; congr 1; funext n; ring
    rw [he, this]; ring

/-- **C13** (what is true): for a dry column the balance is exact. -/
theorem C13_dry_partial {g g' : Grid K} {fuel : Nat} {c : Consts K} {m w : K} (hw : g.WF) (hm : 0 ≤ m)
    (hlt : m < sumWeq c g.nodes) (hdry : ∀ n ∈ g.nodes, n.lwc = 0) (h : g.removeMeltWeq fuel c m = .ok (g', w)) :
    m + w = sumWeq c g.nodes - sumWeq c g'.nodes := by
  obtain ⟨removed, rest, e1, _, e3⟩ := C13_balance_partial hw hm hlt h
  have : sumWater removed = 0 := by
    unfold sumWater columnSum
    apply List.sum_eq_zero
    intro x hx
    obtain ⟨n, hn, rfl⟩ := List.mem_map.1 hx
    rw [hdry n (by rw [e1]; simp [hn]), mul_zero]
  rw [e3, this, add_zero]

end

private def exCol : Grid ℚ :=
  ⟨[⟨1/10, 273, 1/100, 3/10, 0⟩, ⟨1/10, 273, 0, 3/10, 0⟩, ⟨1, 270, 0, 1, 0⟩], 3, 1/10, 0, 0⟩

/-- **C13** (violation): 5 cm w.e. are taken from a column whose first layer holds 1 mm of liquid water; 5.1 cm are
handed on. -/
theorem C13_double_count :
    (exCol.removeMeltWeq 10 (Consts.default ℚ) (1/20)).toOption.map (fun r =>
      (sumWeq (Consts.default ℚ) exCol.nodes - sumWeq (Consts.default ℚ) r.1.nodes, 1/20 + r.2)) =
      some (1/20, 51/1000) := by
  unfold sumWeq columnSum; decide +kernel

/-! Non-vacuity. -/
example : exCol.WF ∧ (0 : ℚ) ≤ 1/20 ∧ 1/20 < sumWeq (Consts.default ℚ) exCol.nodes := by
  unfold Grid.WF sumWeq columnSum; decide +kernel

private def exDry : Grid ℚ := ⟨[⟨1/10, 273, 0, 3/10, 0⟩, ⟨1/10, 273, 0, 3/10, 0⟩], 2, 1/10, 0, 0⟩
example : exDry.WF ∧ (0 : ℚ) ≤ 1/20 ∧ 1/20 < sumWeq (Consts.default ℚ) exDry.nodes ∧ (∀ n ∈ exDry.nodes, n.lwc = 0) ∧
    (exDry.removeMeltWeq 10 (Consts.default ℚ) (1/20)).isOk := by
  unfold Grid.WF sumWeq columnSum; decide +kernel

end Cosipy
