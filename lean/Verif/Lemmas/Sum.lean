import Verif.Spec.Column
import Verif.Lemmas.Grid
import Verif.Lemmas.Arith
import Mathlib.Data.Rat.Cast.OfScientific
import Mathlib.Tactic.Abel
import Mathlib.Tactic.LinearCombination

/-! Column totals under list surgery. -/

set_option linter.unusedSectionVars false

set_option autoImplicit false

namespace Cosipy

theorem list_sum_set {K : Type} [AddCommGroup K] : ∀ {xs : List K} {p : Nat} {a m : K}, xs[p]? = some a →
    (xs.set p m).sum = xs.sum - a + m := by
  intro xs
  induction xs with
  | nil => intro p a m h; simp at h
  | cons x xs ih =>
    intro p a m h
    cases p with
    | zero => simp at h; subst h; simp; abel
    | succ p => simp at h; simp [ih h]; abel

theorem list_sum_eraseIdx {K : Type} [AddCommGroup K] : ∀ {xs : List K} {q : Nat} {b : K}, xs[q]? = some b →
    (xs.eraseIdx q).sum = xs.sum - b := by
  intro xs
  induction xs with
  | nil => intro p a h; simp at h
  | cons x xs ih =>
    intro p a h
    cases p with
    | zero => simp at h; subst h; simp
    | succ p => simp at h; simp [ih h]; abel

theorem list_sum_insertIdx {K : Type} [AddCommGroup K] : ∀ {xs : List K} {q : Nat} {b : K}, q ≤ xs.length →
    (xs.insertIdx q b).sum = xs.sum + b := by
  intro xs
  induction xs with
  | nil => intro p a h; simp at h; subst h; simp
  | cons x xs ih =>
    intro p a h
    cases p with
    | zero => simp; abel
    | succ p => simp at h; simp [ih h]; abel

section
variable {K : Type} [Field K]

@[simp] theorem columnSum_nil (f : Node K → K) : columnSum f [] = 0 := rfl
@[simp] theorem columnSum_cons (f : Node K → K) (n : Node K) (ns : List (Node K)) :
    columnSum f (n :: ns) = f n + columnSum f ns := by simp [columnSum]
@[simp] theorem columnSum_append (f : Node K → K) (ns ms : List (Node K)) :
    columnSum f (ns ++ ms) = columnSum f ns + columnSum f ms := by simp [columnSum]

theorem columnSum_set (f : Node K → K) {ns : List (Node K)} {p : Nat} {a m : Node K} (h : ns[p]? = some a) :
    columnSum f (ns.set p m) = columnSum f ns - f a + f m := by
  unfold columnSum; rw [List.map_set, list_sum_set (a := f a)]; simp [h]

theorem columnSum_eraseIdx (f : Node K → K) {ns : List (Node K)} {p : Nat} {a : Node K} (h : ns[p]? = some a) :
    columnSum f (ns.eraseIdx p) = columnSum f ns - f a := by
  unfold columnSum; rw [← List.eraseIdx_map, list_sum_eraseIdx (b := f a)]; simp [h]

theorem columnSum_insertIdx (f : Node K → K) {ns : List (Node K)} {p : Nat} {a : Node K} (h : p ≤ ns.length) :
    columnSum f (ns.insertIdx p a) = columnSum f ns + f a := by
  unfold columnSum; rw [List.map_insertIdx, list_sum_insertIdx]; simpa using h

theorem columnSum_merge (f : Node K → K) {ns : List (Node K)} {p q : Nat} {a b m : Node K} (hpq : p ≠ q)
    (ha : ns[p]? = some a) (hb : ns[q]? = some b) :
    columnSum f ((ns.set p m).eraseIdx q) = columnSum f ns - f a - f b + f m := by
  rw [columnSum_eraseIdx (a := b), columnSum_set f ha]
  · ring
  · rw [List.getElem?_set_ne hpq]; exact hb

theorem SameTotals.refl (ns : List (Node K)) : SameTotals ns ns := ⟨rfl, rfl, rfl, rfl⟩
theorem SameTotals.symm {ns ms : List (Node K)} (h : SameTotals ns ms) : SameTotals ms ns :=
  ⟨h.height.symm, h.ice.symm, h.water.symm, h.heat.symm⟩
theorem SameTotals.trans {ns ms ks : List (Node K)} (h : SameTotals ns ms) (h' : SameTotals ms ks) : SameTotals ns ks :=
  ⟨h.height.trans h'.height, h.ice.trans h'.ice, h.water.trans h'.water, h.heat.trans h'.heat⟩

theorem SameTotals.append {ns ms ns' ms' : List (Node K)} (h : SameTotals ns ms) (h' : SameTotals ns' ms') :
    SameTotals (ns ++ ns') (ms ++ ms') := by
  constructor <;> simp only [sumHeight, sumIce, sumWater, sumHeat, columnSum_append]
  · exact congrArg₂ _ h.height h'.height
  · exact congrArg₂ _ h.ice h'.ice
  · exact congrArg₂ _ h.water h'.water
  · exact congrArg₂ _ h.heat h'.heat

end

section
variable {K : Type} [Field K] [LinearOrder K] [IsStrictOrderedRing K]

/-- A merged layer holds what its two parents held. -/
theorem merged_totals {a b : Node K} (h : a.height + b.height ≠ 0) :
    SameTotals [Grid.merged a b] [a, b] := by
  constructor <;> simp [sumHeight, sumIce, sumWater, sumHeat, Grid.merged, Grid.upd] <;> field_simp

theorem merge_totals {ns : List (Node K)} {p q : Nat} {a b : Node K} (hpq : p ≠ q)
    (ha : ns[p]? = some a) (hb : ns[q]? = some b) (h : a.height + b.height ≠ 0) :
    SameTotals ((ns.set p (Grid.merged a b)).eraseIdx q) ns := by
  have hm := merged_totals h
  constructor
  · have := hm.height; simp only [sumHeight, columnSum_merge _ hpq ha hb, columnSum_cons, columnSum_nil] at *
    linear_combination this
  · have := hm.ice; simp only [sumIce, columnSum_merge _ hpq ha hb, columnSum_cons, columnSum_nil] at *
    linear_combination this
  · have := hm.water; simp only [sumWater, columnSum_merge _ hpq ha hb, columnSum_cons, columnSum_nil] at *
    linear_combination this
  · have := hm.heat; simp only [sumHeat, columnSum_merge _ hpq ha hb, columnSum_cons, columnSum_nil] at *
    linear_combination this

/-- `merge_nodes` at a non-negative index, as a decomposition of the column. -/
theorem mergeNodes_decomp {g g' : Grid K} {i : Int} (hi : 0 ≤ i) (h : g.mergeNodes i = .ok g') :
    ∃ pre a b post, g.nodes = pre ++ a :: b :: post ∧ (pre.length : Int) = i ∧ a.height + b.height ≠ 0 ∧
      g' = { g with nodes := pre ++ Grid.merged a b :: post, numberNodes := g.numberNodes - 1 } := by
  obtain ⟨p, q, a, b, hp, hq, ha, hb, hne, rfl⟩ := Grid.mergeNodes_ok h
  have hp1 := normIdx_lt hp
  have hq1 := normIdx_lt hq
  obtain ⟨hp, _⟩ := normIdx_eq_some_nonneg hi hp
  obtain ⟨hq, _⟩ := normIdx_eq_some_nonneg (by omega) hq
  have hqp : q = p + 1 := by omega
  subst hqp
  have hsplit : g.nodes = g.nodes.take p ++ a :: b :: g.nodes.drop (p + 2) := by
    conv_lhs => rw [← List.take_append_drop p g.nodes]
    congr 1
    rw [List.drop_eq_getElem_cons hp1, List.drop_eq_getElem_cons (by omega)]
    rw [List.getElem?_eq_getElem hp1] at ha
    rw [List.getElem?_eq_getElem (by omega)] at hb
    simp only [Option.some.injEq] at ha hb
    rw [ha, hb]
  refine ⟨g.nodes.take p, a, b, g.nodes.drop (p + 2), hsplit, ?_, ?_, ?_⟩
  · simp; omega
  · simpa using hne
  · have hl : (g.nodes.take p).length = p := by simp; omega
    congr 1
    conv_lhs => rw [hsplit]
    generalize g.nodes.take p = pre at *
    subst hl
    rw [List.set_append_right _ _ (le_refl _)]
    simp [List.eraseIdx_append_of_length_le]
end
end Cosipy
