import Verif.Model.Init
import Verif.Lemmas.Grid

/-!
# Creating columns from arrays
-/

set_option autoImplicit false
set_option linter.unusedSectionVars false

namespace Cosipy

theorem range_mapM_get {ι γ : Type} {xs : List ι} {F : Nat → M γ} {f : ι → γ}
    (hF : ∀ (i : Nat) (x : ι), xs[i]? = some x → F i = .ok (f x)) :
    (List.range xs.length).mapM F = .ok (xs.map f) := by
  rw [mapM_eq_ok_iff, List.forall₂_iff_get]
  refine ⟨by simp, ?_⟩
  intro i h1 h2
  simp only [List.length_range] at h1
  simp only [List.get_eq_getElem, List.getElem_range, List.getElem_map]
  exact hF i _ (List.getElem?_eq_getElem h1)

section
variable {α : Type} [Add α] [Sub α] [Mul α] [Div α] [Neg α] [LT α] [LE α]
  [DecidableLT α] [DecidableLE α] [BEq α] [Zero α] [One α] [NatCast α] [OfScientific α]

/-- A column created from the arrays of a list of layers, without ice fractions. -/
theorem Grid.new_map {ι : Type} (c : Consts α) (xs : List ι) (h d t w : ι → α) :
    Grid.new c (xs.map h) (xs.map d) (xs.map t) (xs.map w) none none none none =
      .ok ⟨xs.map fun x => Node.new c (h x) (d x) (t x) (w x) none, xs.length, 0, 0, 0⟩ := by
  unfold Grid.new
  rw [List.length_map, range_mapM_get (f := fun x => Node.new c (h x) (d x) (t x) (w x) none)]
  · rfl
  · intro i x hx
    have e : ∀ f : ι → α, pyGet (xs.map f) (i : Int) = .ok (f x) := fun f =>
      pyGet_nat (by rw [List.getElem?_map, hx]; rfl)
    rw [e h, e d, e t, e w]
    rfl

/-- A column created from the arrays of a list of layers, with ice fractions and snow-age bookkeeping. -/
theorem Grid.new_map_restart {ι : Type} (c : Consts α) (xs : List ι) (h d t w f : ι → α) (a b o : α) :
    Grid.new c (xs.map h) (xs.map d) (xs.map t) (xs.map w) (some (xs.map f)) (some a) (some b) (some o) =
      .ok ⟨xs.map fun x => Node.new c (h x) (d x) (t x) (w x) (some (f x)), xs.length, a, b, o⟩ := by
  unfold Grid.new
  rw [List.length_map, range_mapM_get (f := fun x => Node.new c (h x) (d x) (t x) (w x) (some (f x)))]
  · rfl
  · intro i x hx
    have e : ∀ f : ι → α, pyGet (xs.map f) (i : Int) = .ok (f x) := fun f =>
      pyGet_nat (by rw [List.getElem?_map, hx]; rfl)
    rw [e h, e d, e t, e w]
    simp only [ok_bind, e f]
    rfl

end

section
variable {K : Type} [Field K] [LinearOrder K] [IsStrictOrderedRing K]

theorem createGrid_eq (c : Consts K) (hs ds ts ws : List K) (fs : Option (List K)) (a b o : Option K) :
    createGrid c hs ds ts ws fs a b o = Grid.new c hs ds ts ws fs a b o := by
  unfold createGrid
  have : (ts.any fun t => !(t == t)) = false := by simp
  rw [this]
  cases Grid.new c hs ds ts ws fs a b o <;> rfl

end
end Cosipy
