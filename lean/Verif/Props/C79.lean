import Verif.Lemmas.Correct
import Verif.Lemmas.Example
import Mathlib.Algebra.Field.Rat
import Mathlib.Algebra.Order.Ring.Unbundled.Rat
import Mathlib.Tactic.NormNum
import Mathlib.Tactic.Linarith
import Mathlib.Tactic.FieldSimp
import Mathlib.Tactic.Ring

/-!
# C79 Merging a snow layer into the glacier below

The layer below is thickened by the ice equivalent of the snow. The water equivalent of the column is kept if the ice below is
dry and pure; liquid water of the ice and the temperature of the snow are lost, and firn as lower layer changes the mass.
-/

set_option autoImplicit false
set_option linter.unusedSectionVars false

namespace Cosipy
section
variable {K : Type} [Field K] [LinearOrder K] [IsStrictOrderedRing K]

/-- The lower layer after the merge. -/
def mergedIce (c : Consts K) (a b : Node K) : Node K :=
  { b with height := b.height + a.height * (a.density c / c.iceDensity), lwc := 0 }

/-- **C79, effect.** Snow over ice: the snow layer disappears, the ice layer is thickened by the ice equivalent of the snow and
loses its liquid water; nothing else changes. Any other pair of layers is left alone. -/
theorem C79_effect {g : Grid K} {c : Consts K} {pre post : List (Node K)} {a b : Node K} (hd : g.nodes = pre ++ a :: b :: post) :
    (a.density c < c.snowIceThreshold ∧ c.snowIceThreshold ≤ b.density c →
      g.mergeSnowWithGlacier c pre.length =
        .ok { g with nodes := pre ++ mergedIce c a b :: post, numberNodes := g.numberNodes - 1 }) ∧
    (¬ (a.density c < c.snowIceThreshold ∧ c.snowIceThreshold ≤ b.density c) →
      g.mergeSnowWithGlacier c pre.length = .ok g) := by
  have ha : g.node pre.length = .ok a := node_of_decomp hd rfl
  have hd' : g.nodes = (pre ++ [a]) ++ b :: post := by rw [hd]; simp
  have hb : g.node ((pre.length : Int) + 1) = .ok b := node_of_decomp hd' (by simp)
  unfold Grid.mergeSnowWithGlacier
  rw [ha, ok_bind, hb, ok_bind]
  refine ⟨fun h => ?_, fun h => by rw [if_neg h]; rfl⟩
  rw [if_pos h]
  simp only
  have hu : g.updateNode ((pre.length : Int) + 1) (b.height + a.height * (a.density c / c.iceDensity)) b.temperature
      b.iceFraction 0 = .ok { g with nodes := pre ++ a :: mergedIce c a b :: post } := by
    refine Grid.updateNode_eq_ok.2 ⟨pre.length + 1, ?_, ?_⟩
    · rw [show ((pre.length : Int) + 1) = ((pre.length + 1 : Nat) : Int) by push_cast; rfl]
      exact normIdx_of_nat (by rw [hd]; simp)
    · have := modify_pre (pre ++ [a]) b post (Grid.upd (b.height + a.height * (a.density c / c.iceDensity)) b.temperature
        b.iceFraction 0)
      rw [List.length_append, List.length_singleton] at this
      rw [hd', this]
      simp [Grid.upd, mergedIce]
  rw [hu, ok_bind, Grid.removeNode_single (by simp)]
  refine ⟨pre.length, normIdx_of_nat (by simp), ?_⟩
  congr 1
  rw [List.eraseIdx_append_of_length_le (le_refl _)]; simp

/-- **C79, mass.** The exact change of the water equivalent of the column. -/
theorem C79_weq {g g' : Grid K} {c : Consts K} {pre post : List (Node K)} {a b : Node K} (hd : g.nodes = pre ++ a :: b :: post)
    (hs : a.density c < c.snowIceThreshold ∧ c.snowIceThreshold ≤ b.density c) (hi : c.iceDensity ≠ 0)
    (h : g.mergeSnowWithGlacier c pre.length = .ok g') :
    sumWeq c g'.nodes - sumWeq c g.nodes =
      a.weq c * ((({ b with lwc := 0 } : Node K).density c - c.iceDensity) / c.iceDensity)
        - b.height * ((b.density c - ({ b with lwc := 0 } : Node K).density c) / c.waterDensity) := by
  rw [(C79_effect hd).1 hs, ok_inj] at h
  subst h
  have hdens : (mergedIce c a b).density c = ({ b with lwc := 0 } : Node K).density c := rfl
  simp only [sumWeq, columnSum, hd, List.map_append, List.map_cons, List.sum_append, List.sum_cons]
  have e : (mergedIce c a b).weq c = (b.height + a.height * (a.density c / c.iceDensity)) *
      (({ b with lwc := 0 } : Node K).density c / c.waterDensity) := rfl
  rw [e]
  unfold Node.weq
  generalize ({ b with lwc := 0 } : Node K).density c = D
  field_simp
  ring

/-- **C79, mass (partial: dry pure ice below).** Then the water equivalent of the column is kept. The full statement has no
such hypothesis. -/
theorem C79_weq_partial {g g' : Grid K} {c : Consts K} {pre post : List (Node K)} {a b : Node K}
    (hd : g.nodes = pre ++ a :: b :: post) (hi : c.iceDensity ≠ 0) (hf : b.iceFraction = 1) (hl : b.lwc = 0)
    (h : g.mergeSnowWithGlacier c pre.length = .ok g') : sumWeq c g'.nodes = sumWeq c g.nodes := by
  by_cases hs : a.density c < c.snowIceThreshold ∧ c.snowIceThreshold ≤ b.density c
  · have hb : ({ b with lwc := 0 } : Node K) = b := by cases b; simp only at hl; subst hl; rfl
    have hdb : b.density c = c.iceDensity := by
      unfold Node.density Node.airPorosity
      rw [hf, hl, pyMax_eq]; simp
    have := C79_weq hd hs hi h
    rw [hb, hdb] at this
    simp only [sub_self, zero_div, mul_zero] at this
    exact sub_eq_zero.1 this
  · rw [(C79_effect hd).2 hs, ok_inj] at h
    subst h; rfl

end

/-- 10 cm of snow with an ice fraction of 3/10 over 1 m of the given layer. -/
def snowOver (b : Node ℚ) : Grid ℚ := ⟨[⟨1/10, 265, 0, 3/10, 0⟩, b], 2, 0, 0, 0⟩

/-- Non-vacuity: dry snow on pure ice is merged. -/
example : ((snowOver ⟨1, 270, 0, 1, 0⟩).mergeSnowWithGlacier (Consts.default ℚ) 0).toOption.map
    (fun g => (g.nodes.length, sumWeq (Consts.default ℚ) g.nodes == sumWeq (Consts.default ℚ) (snowOver ⟨1, 270, 0, 1, 0⟩).nodes)) =
      some (1, true) := by
  unfold sumWeq columnSum; decide +kernel

/-- **C79: violated (liquid water).** Water stored in the ice below disappears. -/
theorem C79_water_refuted : ((snowOver ⟨1, 270, 1/50, 49/50, 0⟩).mergeSnowWithGlacier (Consts.default ℚ) 0).toOption.map
    (fun g => (g.nodes.length, sumWater (snowOver ⟨1, 270, 1/50, 49/50, 0⟩).nodes, sumWater g.nodes)) = some (1, 1/50, 0) := by
  unfold sumWater columnSum; decide +kernel

/-- **C79: violated (firn).** Over dry ice with pores the mass of the column changes. -/
theorem C79_firn_refuted : ((snowOver ⟨1, 270, 0, 99/100, 0⟩).mergeSnowWithGlacier (Consts.default ℚ) 0).toOption.map
    (fun g => (g.nodes.length, sumWeq (Consts.default ℚ) g.nodes ==
      sumWeq (Consts.default ℚ) (snowOver ⟨1, 270, 0, 99/100, 0⟩).nodes)) = some (1, false) := by
  unfold sumWeq columnSum; decide +kernel

/-- **C79: violated (heat).** The temperature of the snow has no influence: snow of 265 K on ice of 270 K gives ice of 270 K. -/
theorem C79_heat_refuted : ((snowOver ⟨1, 270, 0, 1, 0⟩).mergeSnowWithGlacier (Consts.default ℚ) 0).toOption.map
    (fun g => g.nodes.map fun n => n.temperature) = some [270] := by
  decide +kernel

end Cosipy
