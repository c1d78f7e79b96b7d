import Verif.Lemmas.Melt
import Mathlib.Algebra.Field.Rat
import Mathlib.Algebra.Order.Ring.Unbundled.Rat

/-!
# C11 Removing melt removes exactly the requested water equivalent
-/

set_option autoImplicit false

namespace Cosipy
section
variable {K : Type} [Field K] [LinearOrder K] [IsStrictOrderedRing K]

theorem thinned_weq {c : Consts K} {a : Node K} {x : K} (hne : a.density c / c.waterDensity ≠ 0) :
    Node.weq c { a with height := (a.weq c - x) / (a.density c / c.waterDensity) } = a.weq c - x := by
  show (a.weq c - x) / (a.density c / c.waterDensity) * (a.density c / c.waterDensity) = _
  exact div_mul_cancel₀ _ hne

theorem sumWeq_nonneg {c : Consts K} {ns : List (Node K)} (h : ∀ n ∈ ns, 0 < n.weq c) : 0 ≤ sumWeq c ns := by
  apply List.sum_nonneg
  intro x hx
  obtain ⟨n, hn, rfl⟩ := List.mem_map.1 hx
  exact (h n hn).le

/-- **C11**: `remove_melt_weq(m)` with `0 ≤ m <` column water equivalent lowers the column water equivalent by
exactly `m`. No assumption on the layers. -/
theorem C11_exact {g g' : Grid K} {fuel : Nat} {c : Consts K} {m w : K} (hw : g.WF) (hm : 0 ≤ m)
    (hlt : m < sumWeq c g.nodes) (h : g.removeMeltWeq fuel c m = .ok (g', w)) :
    sumWeq c g'.nodes = sumWeq c g.nodes - m := by
  obtain ⟨left, ⟨removed, rest, e1, _, e3⟩, _, _⟩ := removeMelt_ok hw h
  rw [e1]
  rw [e1] at hlt
  unfold sumWeq at hlt ⊢
  rcases e3 with ⟨f1, f2, f3, f4, _⟩ | ⟨_, a, below, f2, _, _, f5, f6⟩
  · rw [f2]
    simp only [columnSum_append, List.nil_append] at hlt ⊢
    have hl0 : 0 ≤ left := by
      by_cases hr : removed = []
      · rw [f1, hr]; simpa using hm
      · exact f4 hr
    rcases f3 with f3 | f3
    · have : left = 0 := le_antisymm f3 hl0
      rw [this] at f1; linarith
    · rw [f3] at hlt
      simp at hlt
      linarith
  · rw [f6, f2]
    simp only [columnSum_append, columnSum_cons, List.nil_append]
    rw [thinned_weq f5]; ring

/-- **C11**: with `m ≥` column water equivalent the column becomes empty (layers of positive water equivalent). -/
theorem C11_all {g g' : Grid K} {fuel : Nat} {c : Consts K} {m w : K} (hw : g.WF)
    (hpos : ∀ n ∈ g.nodes, 0 < n.weq c) (hge : sumWeq c g.nodes ≤ m) (h : g.removeMeltWeq fuel c m = .ok (g', w)) :
    g'.nodes = [] := by
  obtain ⟨left, ⟨removed, rest, e1, _, e3⟩, _, _⟩ := removeMelt_ok hw h
  have hs : sumWeq c g.nodes = columnSum (Node.weq c) removed + columnSum (Node.weq c) rest := by
    rw [e1]; unfold sumWeq; simp
  rw [hs] at hge
  have hcons : ∀ a below, rest = a :: below → 0 < a.weq c ∧ 0 ≤ columnSum (Node.weq c) below := by
    rintro a below rfl
    exact ⟨hpos a (by rw [e1]; simp), sumWeq_nonneg fun n hn => hpos n (by rw [e1]; simp [hn])⟩
  rcases e3 with ⟨f1, f2, f3, _, _⟩ | ⟨_, a, below, f2, _, f4, _, _⟩
  · cases rest with
    | nil => simpa using f2
    | cons a below =>
      exfalso
      obtain ⟨h1, h2⟩ := hcons a below rfl
      have f3' : left ≤ 0 := f3.resolve_right (by simp)
      simp only [columnSum_cons] at hge
      linarith
  · exfalso
    obtain ⟨h1, h2⟩ := hcons a below f2
    rw [f2] at hge
    simp only [columnSum_cons] at hge
    linarith

/-- **C11** (the call returns): `remove_melt_weq` returns for every column and every melt amount. -/
theorem C11_returns (c : Consts K) (g : Grid K) (hw : g.WF) (m : K) {fuel : Nat} (hf : g.nodes.length + 2 ≤ fuel) :
    ∃ g' w, g.removeMeltWeq fuel c m = .ok (g', w) := by
  obtain ⟨s, hs⟩ := meltLoop_returns (c := c) (pre := []) g.nodes fuel ⟨g, m, 0⟩ hw rfl hf
  unfold Grid.removeMeltWeq
  have hs' : whileM (Grid.removeMeltPass c 0) fuel ⟨g, m, 0⟩ = .ok s := hs
  rw [hs', ok_bind]
  exact ⟨_, _, rfl⟩

end

/-! Non-vacuity: 20 cm of fresh snow on ice; 5 cm w.e. of melt removes the first layer and thins the second. -/
private def exCol : Grid ℚ :=
  ⟨[⟨1/10, 273, 1/100, 3/10, 0⟩, ⟨1/10, 273, 0, 3/10, 0⟩, ⟨1, 270, 0, 1, 0⟩], 3, 1/10, 0, 0⟩

example : exCol.WF ∧ (0 : ℚ) ≤ 1/20 ∧ 1/20 < sumWeq (Consts.default ℚ) exCol.nodes ∧
    (∀ n ∈ exCol.nodes, 0 < n.weq (Consts.default ℚ)) ∧ (exCol.removeMeltWeq 10 (Consts.default ℚ) (1/20)).isOk ∧
    (exCol.removeMeltWeq 10 (Consts.default ℚ) (1/20)).toOption.map (fun r => r.1.nodes.length) = some 2 ∧
    sumWeq (Consts.default ℚ) exCol.nodes ≤ 2 ∧ (exCol.removeMeltWeq 10 (Consts.default ℚ) 2).isOk := by
  unfold Grid.WF sumWeq columnSum; decide +kernel

end Cosipy
