import Verif.Lemmas.Sum
import Mathlib.Algebra.Field.Rat
import Mathlib.Algebra.Order.Ring.Unbundled.Rat

/-!
# C03 A merged layer is a mixture of its parents
-/

set_option autoImplicit false

namespace Cosipy
section
variable {K : Type} [Field K] [LinearOrder K] [IsStrictOrderedRing K]

/-- `x` lies between `a` and `b`. -/
def Between (a x b : K) : Prop := min a b ≤ x ∧ x ≤ max a b

theorem between_convex {a b u v : K} (hu : 0 ≤ u) (hv : 0 ≤ v) (huv : u + v = 1) : Between a (u * a + v * b) b := by
  have hv' : v = 1 - u := by linear_combination huv
  subst hv'
  constructor
  · have h1 := min_le_left a b; have h2 := min_le_right a b
    nlinarith [mul_le_mul_of_nonneg_left h1 hu, mul_le_mul_of_nonneg_left h2 hv]
  · have h1 := le_max_left a b; have h2 := le_max_right a b
    nlinarith [mul_le_mul_of_nonneg_left h1 hu, mul_le_mul_of_nonneg_left h2 hv]

theorem merged_weights {a b : Node K} (ha : 0 < a.height) (hb : 0 < b.height) :
    ∃ u v : K, 0 ≤ u ∧ 0 ≤ v ∧ u + v = 1 ∧
      (Grid.merged a b).temperature = u * a.temperature + v * b.temperature ∧
      (Grid.merged a b).iceFraction = u * a.iceFraction + v * b.iceFraction ∧
      (Grid.merged a b).lwc = u * a.lwc + v * b.lwc := by
  have hs : 0 < a.height + b.height := by positivity
  refine ⟨a.height / (a.height + b.height), b.height / (a.height + b.height), by positivity, by positivity, ?_, rfl,
    ?_, ?_⟩
  · field_simp
  · simp [Grid.merged, Grid.upd]; field_simp
  · simp [Grid.merged, Grid.upd]; field_simp

/-- The merged density is at most the height-weighted mean, with equality when both layers are unsaturated. -/
theorem merged_density_le (c : Consts K) (hair : 0 ≤ c.airDensity) {a b : Node K} (ha : 0 < a.height)
    (hb : 0 < b.height) : ∃ u v : K, 0 ≤ u ∧ 0 ≤ v ∧ u + v = 1 ∧
      (Grid.merged a b).density c ≤ u * a.density c + v * b.density c ∧
      (a.iceFraction + a.lwc ≤ 1 → b.iceFraction + b.lwc ≤ 1 →
        (Grid.merged a b).density c = u * a.density c + v * b.density c) := by
  obtain ⟨u, v, hu, hv, huv, _, hi, hw⟩ := merged_weights ha hb
  have hv' : v = 1 - u := by linear_combination huv
  refine ⟨u, v, hu, hv, huv, ?_, ?_⟩
  · simp only [Node.density, Node.airPorosity, pyMax_eq, hi, hw]
    have h1 : max 0 (1 - (u * a.lwc + v * b.lwc) - (u * a.iceFraction + v * b.iceFraction)) ≤
        u * max 0 (1 - a.lwc - a.iceFraction) + v * max 0 (1 - b.lwc - b.iceFraction) := by
      apply max_le
      · positivity
      · have e1 := mul_le_mul_of_nonneg_left (le_max_right 0 (1 - a.lwc - a.iceFraction)) hu
        have e2 := mul_le_mul_of_nonneg_left (le_max_right 0 (1 - b.lwc - b.iceFraction)) hv
        rw [hv'] at e2 ⊢
        linarith
    have := mul_le_mul_of_nonneg_right h1 hair
    linarith
  · intro pa pb
    simp only [Node.density, Node.airPorosity, pyMax_eq, hi, hw]
    have q1 := mul_le_mul_of_nonneg_left pa hu
    have q2 := mul_le_mul_of_nonneg_left pb hv
    rw [max_eq_right (by linarith), max_eq_right (by linarith), max_eq_right (by rw [hv'] at *; linarith)]
    rw [hv']; ring

/-- **C03**: if `merge_nodes(i)` merges the layers `a`, `b` of positive height into `m`, then temperature, ice
fraction and water content of `m` lie between those of `a` and `b`, and its density does not exceed the larger
one; hence two snow layers give a snow layer. If no layer is oversaturated the density lies between both
densities; hence two ice layers give an ice layer. -/
theorem C03_merge_mixture (c : Consts K) (hair : 0 ≤ c.airDensity) {g g' : Grid K} {i : Int} (hi : 0 ≤ i)
    (h : g.mergeNodes i = .ok g') :
    ∃ pre a b post m, g.nodes = pre ++ a :: b :: post ∧ (pre.length : Int) = i ∧ g'.nodes = pre ++ m :: post ∧
      (0 < a.height → 0 < b.height →
        Between a.temperature m.temperature b.temperature ∧
        Between a.iceFraction m.iceFraction b.iceFraction ∧
        Between a.lwc m.lwc b.lwc ∧
        m.density c ≤ max (a.density c) (b.density c) ∧
        (a.density c < c.snowIceThreshold → b.density c < c.snowIceThreshold → m.density c < c.snowIceThreshold) ∧
        (a.iceFraction + a.lwc ≤ 1 → b.iceFraction + b.lwc ≤ 1 →
          Between (a.density c) (m.density c) (b.density c) ∧
          (c.snowIceThreshold ≤ a.density c → c.snowIceThreshold ≤ b.density c →
            c.snowIceThreshold ≤ m.density c))) := by
  obtain ⟨pre, a, b, post, hd, hl, hne, rfl⟩ := mergeNodes_decomp hi h
  refine ⟨pre, a, b, post, Grid.merged a b, hd, hl, rfl, fun ha hb => ?_⟩
  obtain ⟨u, v, hu, hv, huv, ht, hf, hw⟩ := merged_weights ha hb
  obtain ⟨x, y, hx, hy, hxy, hle, heq⟩ := merged_density_le c hair ha hb
  have hmax := (between_convex (a := a.density c) (b := b.density c) hx hy hxy)
  refine ⟨ht ▸ between_convex hu hv huv, hf ▸ between_convex hu hv huv, hw ▸ between_convex hu hv huv,
    hle.trans hmax.2, ?_, ?_⟩
  · intro h1 h2
    exact lt_of_le_of_lt (hle.trans hmax.2) (max_lt h1 h2)
  · intro p1 p2
    rw [heq p1 p2]
    exact ⟨hmax, fun h1 h2 => (le_min h1 h2).trans hmax.1⟩

end

/-! Non-vacuity: two snow layers of positive height and different content, merged into a snow layer. -/
private def exCol : Grid ℚ :=
  ⟨[⟨1/10, 265, 1/50, 3/10, 0⟩, ⟨1/5, 268, 1/20, 2/5, 0⟩, ⟨1/2, 270, 0, 1, 0⟩], 3, 0, 0, 0⟩

example : (exCol.mergeNodes 0).toOption.map (fun g => g.nodes.map fun n => (n.temperature, n.iceFraction, n.lwc)) =
    some [(267, 11/30, 1/25), (270, 1, 0)] := by decide +kernel

end Cosipy
