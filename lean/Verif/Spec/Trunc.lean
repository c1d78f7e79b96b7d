import Verif.Model.Real
import Mathlib.Algebra.Order.Field.Basic
import Mathlib.Tactic.Linarith

/-!
# What `int(x)` means for non-negative numbers
-/

set_option autoImplicit false

namespace Cosipy

/-- `int(x)` of a non-negative number is the largest integer not above it. -/
def TruncSpec (K : Type) [Field K] [LinearOrder K] [HasTrunc K] : Prop :=
  ∀ x : K, 0 ≤ x → ((HasTrunc.trunc x : Int) : K) ≤ x ∧ x < ((HasTrunc.trunc x : Int) : K) + 1

theorem TruncSpec.nonneg {K : Type} [Field K] [LinearOrder K] [IsStrictOrderedRing K] [HasTrunc K] (h : TruncSpec K)
    {x : K} (hx : 0 ≤ x) : 0 ≤ HasTrunc.trunc x := by
  have h1 := (h x hx).2
  have : (0 : K) < ((HasTrunc.trunc x + 1 : Int) : K) := by push_cast; linarith
  have : (0 : Int) < HasTrunc.trunc x + 1 := by exact_mod_cast this
  omega

theorem TruncSpec.nat {K : Type} [Field K] [LinearOrder K] [IsStrictOrderedRing K] [HasTrunc K] (h : TruncSpec K)
    (k : Nat) : HasTrunc.trunc (k : K) = (k : Int) := by
  obtain ⟨h1, h2⟩ := h (k : K) (Nat.cast_nonneg k)
  have a : HasTrunc.trunc (k : K) ≤ (k : Int) := by
    have : ((HasTrunc.trunc (k : K) : Int) : K) ≤ ((k : Int) : K) := by push_cast; exact h1
    exact_mod_cast this
  have b : (k : Int) < HasTrunc.trunc (k : K) + 1 := by
    have : (((k : Int)) : K) < ((HasTrunc.trunc (k : K) + 1 : Int) : K) := by push_cast; exact h2
    exact_mod_cast this
  omega

/-- The real instance satisfies it. -/
theorem truncSpec_real : TruncSpec ℝ := by
  intro x hx
  have : HasTrunc.trunc x = ⌊x⌋ := by
    show (if x < 0 then ⌈x⌉ else ⌊x⌋) = _
    rw [if_neg (not_lt.2 hx)]
  rw [this]
  exact ⟨Int.floor_le x, Int.lt_floor_add_one x⟩

end Cosipy
