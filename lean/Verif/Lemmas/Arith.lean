import Verif.Lemmas.Basic
import Mathlib.Algebra.Order.Field.Basic
import Mathlib.Algebra.Order.AbsoluteValue.Basic
import Mathlib.Tactic.FieldSimp
import Mathlib.Tactic.Ring
import Mathlib.Tactic.NormNum
import Mathlib.Tactic.Positivity

/-! Arithmetic of the model in an ordered field. -/

set_option linter.unusedSectionVars false

set_option autoImplicit false

namespace Cosipy

section
variable {K : Type} [Field K] [LinearOrder K] [IsStrictOrderedRing K]

theorem pyMax_eq (a b : K) : pyMax a b = max a b := by
  unfold pyMax; split_ifs with h
  · exact (max_eq_right h.le).symm
  · exact (max_eq_left (not_lt.1 h)).symm

theorem pyMin_eq (a b : K) : pyMin a b = min a b := by
  unfold pyMin; split_ifs with h
  · exact (min_eq_right h.le).symm
  · exact (min_eq_left (not_lt.1 h)).symm

theorem pyAbs_eq (a : K) : pyAbs a = |a| := by
  unfold pyAbs; split_ifs with h
  · exact (abs_of_neg h).symm
  · exact (abs_of_nonneg (not_lt.1 h)).symm

theorem pySum_eq (xs : List K) : pySum xs = xs.sum := by
  unfold pySum
  rw [List.sum_eq_foldl]

theorem fdiv_eq_ok {x y z : K} : fdiv x y = .ok z ↔ y ≠ 0 ∧ z = x / y := by
  unfold fdiv
  by_cases h : y = 0
  · have hb : (y == 0) = true := beq_iff_eq.2 h
    rw [if_pos hb]
    constructor
    · intro h'; exact absurd h' (by simp)
    · rintro ⟨h', _⟩; exact absurd h h'
  · have hb : ¬ (y == 0) = true := fun h' => h (beq_iff_eq.1 h')
    rw [if_neg hb, ok_inj]
    constructor
    · intro h'; exact ⟨h, h'.symm⟩
    · rintro ⟨_, h'⟩; exact h'.symm

theorem fdiv_of_ne {x y : K} (h : y ≠ 0) : fdiv x y = .ok (x / y) := fdiv_eq_ok.2 ⟨h, rfl⟩

end

section
variable {α : Type} [Add α] [Sub α] [Mul α] [Div α] [Neg α] [LT α] [LE α]
  [DecidableLT α] [DecidableLE α] [BEq α] [Zero α] [One α] [NatCast α] [OfScientific α]

theorem fdiv_ne_diverge (x y : α) : fdiv x y ≠ .error .diverge := by
  unfold fdiv; split_ifs <;> simp

theorem fdiv_error {x y : α} {e : Err} (h : fdiv x y = .error e) : e = .zeroDiv := by
  unfold fdiv at h; split_ifs at h; simp at h; exact h.symm

theorem fdiv_ok {x y z : α} (h : fdiv x y = .ok z) : z = x / y := by
  unfold fdiv at h; split_ifs at h; simp at h; exact h.symm

end

end Cosipy
