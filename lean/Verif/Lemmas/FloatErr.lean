import Verif.Lemmas.HeatFloat
import Mathlib.Algebra.Order.Ring.Pow
import Mathlib.Algebra.Order.BigOperators.Group.List

/-!
# Accumulated rounding errors of sums
-/

set_option autoImplicit false
set_option linter.unusedSectionVars false

namespace Cosipy
section
variable {K : Type} [Field K] [LinearOrder K] [IsStrictOrderedRing K] [FloorRing K] {p : ℕ} {emin : ℤ} {hp : 23 ≤ p} {he : emin ≤ -30}

local notation "F" => Fl (binary K p emin hp he)

/-- Unit roundoff: half the spacing above one, for `p + 1` bits. -/
def unitRoundoff (K : Type) [Field K] (p : ℕ) : K := 2 ^ (-(p : ℤ) - 1)

theorem unit_pos : 0 < unitRoundoff K p := ulp_pos _

/-- `a` is `A` up to a relative error of `i` roundings, relative to `S`, a bound for the sizes of all terms of `A`. -/
structure Approx (i : ℕ) (S A : K) (a : F) : Prop where
  err : |a.1 - A| ≤ ((1 + unitRoundoff K p) ^ i - 1) * S
  size : |A| ≤ S

theorem Approx.nonneg {i : ℕ} {S A : K} {a : F} (h : Approx i S A a) : 0 ≤ S := (abs_nonneg _).trans h.size

theorem Approx.self (a : F) : Approx 0 |a.1| a.1 a := ⟨by simp, le_rfl⟩

theorem unit_pow_mono {i j : ℕ} (h : i ≤ j) : (1 + unitRoundoff K p) ^ i ≤ (1 + unitRoundoff K p) ^ j :=
  pow_le_pow_right₀ (by have := unit_pos (K := K) (p := p); linarith) h

theorem Approx.weaken {i j : ℕ} {S A : K} {a : F} (h : Approx i S A a) (hij : i ≤ j) : Approx j S A a :=
  ⟨h.err.trans (mul_le_mul_of_nonneg_right (sub_le_sub_right (unit_pow_mono hij) 1) h.nonneg), h.size⟩

theorem Approx.neg {i : ℕ} {S A : K} {a : F} (h : Approx i S A a) : Approx i S (-A) (-a) := by
  refine ⟨?_, by rw [abs_neg]; exact h.size⟩
  have : (-a).1 - -A = -(a.1 - A) := by show -a.1 - -A = _; ring
  rw [this, abs_neg]; exact h.err

theorem Approx.add {i j : ℕ} {S T A B : K} {a b : F} (ha : Approx i S A a) (hb : Approx j T B b) :
    Approx (max i j + 1) (S + T) (A + B) (a + b) := by
  have ha' := (ha.weaken (le_max_left i j)).err
  have hb' := (hb.weaken (le_max_right i j)).err
  set n := max i j
  have hu := unit_pos (K := K) (p := p)
  have hS := ha.nonneg
  have hT := hb.nonneg
  refine ⟨?_, (abs_add_le A B).trans (add_le_add ha.size hb.size)⟩
  have h1 : |(a + b).1 - (a.1 + b.1)| ≤ unitRoundoff K p * |a.1 + b.1| := add_rel (Fl.kept a) (Fl.kept b)
  have h2 : |a.1 + b.1 - (A + B)| ≤ ((1 + unitRoundoff K p) ^ n - 1) * (S + T) := by
    have e : a.1 + b.1 - (A + B) = (a.1 - A) + (b.1 - B) := by ring
    rw [e, mul_add]
    exact (abs_add_le _ _).trans (add_le_add ha' hb')
  have h3 : |a.1 + b.1| ≤ (1 + unitRoundoff K p) ^ n * (S + T) := by
    have e : a.1 + b.1 = (a.1 + b.1 - (A + B)) + (A + B) := by ring
    have := abs_add_le (a.1 + b.1 - (A + B)) (A + B)
    rw [← e] at this
    have h4 := (abs_add_le A B).trans (add_le_add ha.size hb.size)
    calc _ ≤ _ := this
      _ ≤ ((1 + unitRoundoff K p) ^ n - 1) * (S + T) + (S + T) := add_le_add h2 h4
      _ = _ := by ring
  have e : (a + b).1 - (A + B) = ((a + b).1 - (a.1 + b.1)) + (a.1 + b.1 - (A + B)) := by ring
  rw [e]
  calc _ ≤ |(a + b).1 - (a.1 + b.1)| + |a.1 + b.1 - (A + B)| := abs_add_le _ _
    _ ≤ unitRoundoff K p * ((1 + unitRoundoff K p) ^ n * (S + T)) + ((1 + unitRoundoff K p) ^ n - 1) * (S + T) :=
      add_le_add (h1.trans (mul_le_mul_of_nonneg_left h3 hu.le)) h2
    _ = _ := by rw [pow_succ]; ring

theorem Fl.sub_eq (a b : F) : a - b = a + -b := by
  apply Subtype.ext
  show binRound p emin (a.1 - b.1) = binRound p emin (a.1 + -b.1)
  rw [sub_eq_add_neg]

theorem Approx.sub {i j : ℕ} {S T A B : K} {a b : F} (ha : Approx i S A a) (hb : Approx j T B b) :
    Approx (max i j + 1) (S + T) (A - B) (a - b) := by
  rw [Fl.sub_eq, sub_eq_add_neg]; exact ha.add hb.neg

/-- A running sum of terms that are themselves approximate. -/
theorem Approx.foldl {β : Type} {i k : ℕ} {f : β → F} {A S : β → K} {xs : List β} (hx : ∀ x ∈ xs, Approx k (S x) (A x) (f x)) :
    ∀ {a : F} {B T : K}, k ≤ i → Approx i T B a →
      Approx (i + xs.length) (T + (xs.map S).sum) (B + (xs.map A).sum) (xs.foldl (fun a x => a + f x) a) := by
  induction xs generalizing i with
  | nil => intro a B T _ h; simpa using h
  | cons x xs ih =>
    intro a B T hk h
    have h1 := h.add (hx x (by simp))
    rw [max_eq_left hk] at h1
    have := ih (fun y hy => hx y (by simp [hy])) (hk.trans (Nat.le_succ i)) h1
    rw [List.foldl_cons, List.map_cons, List.map_cons, List.sum_cons, List.sum_cons, List.length_cons, ← add_assoc T,
      ← add_assoc B]
    rwa [show i + (xs.length + 1) = i + 1 + xs.length by omega]

/-- `n` roundings: the relative error is at most `2 n` units as long as `n` units make less than a half. -/
theorem unit_pow_le {n : ℕ} (h : (n : K) * unitRoundoff K p ≤ 1 / 2) :
    (1 + unitRoundoff K p) ^ n - 1 ≤ 2 * (n : K) * unitRoundoff K p := by
  set u := unitRoundoff K p with hu
  have hu0 : 0 < u := unit_pos
  have hu1 : u < 1 := two_small
  have h1 : 1 - (n : K) * u ≤ (1 - u) ^ n := by
    have := one_add_mul_le_pow (show (-2 : K) ≤ -u by linarith) n
    rw [sub_eq_add_neg 1 u]
    linarith
  have h2 : (1 + u) ^ n * (1 - u) ^ n ≤ 1 := by
    rw [← mul_pow]
    exact pow_le_one₀ (by nlinarith) (by nlinarith)
  have h3 : (0 : K) ≤ (1 + u) ^ n := pow_nonneg (by linarith) n
  have h4 : (1 + u) ^ n * (1 - n * u) ≤ 1 := (mul_le_mul_of_nonneg_left h1 h3).trans h2
  have h5 : (0 : K) ≤ n * u := mul_nonneg (Nat.cast_nonneg n) hu0.le
  have h6 : (1 + u) ^ n ≤ 2 := by nlinarith
  nlinarith

end
end Cosipy
