import Verif.Lemmas.FloatErr
import Verif.Lemmas.Rounded

/-!
# Accumulated rounding errors of sums, products and quotients of amounts that are not negative, with underflow
-/

set_option autoImplicit false
set_option linter.unusedSectionVars false

namespace Cosipy
section
variable {K : Type} [Field K] [LinearOrder K] [IsStrictOrderedRing K] [FloorRing K]

/-- Largest error of a rounding below the normal range: half the spacing of the subnormal numbers. -/
def underflowUnit (K : Type) [Field K] (p : ℕ) (emin : ℤ) : K := 2 ^ (emin - p - 1)

variable {p : ℕ} {emin : ℤ}

theorem underflow_pos : 0 < underflowUnit K p emin := ulp_pos _

/-- Growth of the relative error in one rounding. -/
def grow (K : Type) [Field K] (p : ℕ) : K := 1 + unitRoundoff K p

theorem grow_one : (1 : K) ≤ grow K p := by have := unit_pos (K := K) (p := p); unfold grow; linarith
theorem grow_pos : (0 : K) < grow K p := zero_lt_one.trans_le grow_one
theorem grow_pow_one (i : ℕ) : (1 : K) ≤ grow K p ^ i := one_le_pow₀ grow_one
theorem grow_pow_mono {i j : ℕ} (h : i ≤ j) : grow K p ^ i ≤ grow K p ^ j := pow_le_pow_right₀ grow_one h

/-- `a` is the amount `A ≥ 0` up to `i` roundings and an absolute error `δ`. -/
structure Amount (p : ℕ) (i : ℕ) (δ A a : K) : Prop where
  nonneg : 0 ≤ A
  slack : 0 ≤ δ
  err : |a - A| ≤ (grow K p ^ i - 1) * A + δ

theorem Amount.refl {a : K} (h : 0 ≤ a) : Amount p 0 0 a a := ⟨h, le_rfl, by simp⟩

theorem Amount.size {i : ℕ} {δ A a : K} (h : Amount p i δ A a) : |a| ≤ grow K p ^ i * A + δ := by
  have h1 := abs_add_le (a - A) A
  rw [sub_add_cancel, abs_of_nonneg h.nonneg] at h1
  linarith [h.err]

theorem Amount.weaken {i j : ℕ} {δ ε A a : K} (h : Amount p i δ A a) (hij : i ≤ j) (hδ : δ ≤ ε) : Amount p j ε A a := by
  refine ⟨h.nonneg, h.slack.trans hδ, h.err.trans (add_le_add ?_ hδ)⟩
  exact mul_le_mul_of_nonneg_right (sub_le_sub_right (grow_pow_mono hij) 1) h.nonneg

theorem Amount.add {i : ℕ} {δ ε A B a b : K} (h : Amount p i δ A a) (h' : Amount p i ε B b) : Amount p i (δ + ε) (A + B) (a + b) := by
  refine ⟨add_nonneg h.nonneg h'.nonneg, add_nonneg h.slack h'.slack, ?_⟩
  rw [add_sub_add_comm]
  refine (abs_add_le _ _).trans ?_
  linarith [h.err, h'.err]

theorem Amount.scale {i : ℕ} {δ A a c : K} (h : Amount p i δ A a) (hc : 0 ≤ c) : Amount p i (δ * c) (A * c) (a * c) := by
  refine ⟨mul_nonneg h.nonneg hc, mul_nonneg h.slack hc, ?_⟩
  rw [← sub_mul, abs_mul, abs_of_nonneg hc]
  refine (mul_le_mul_of_nonneg_right h.err hc).trans (le_of_eq ?_)
  ring

theorem Amount.quot {i : ℕ} {δ A a c : K} (h : Amount p i δ A a) (hc : 0 < c) : Amount p i (δ / c) (A / c) (a / c) := by
  rw [div_eq_mul_inv, div_eq_mul_inv, div_eq_mul_inv]; exact h.scale (inv_pos.2 hc).le

theorem Amount.round {i : ℕ} {δ e A a b : K} (h : Amount p i δ A a) (he : 0 ≤ e) (hb : |b - a| ≤ unitRoundoff K p * |a| + e) :
    Amount p (i + 1) (grow K p * δ + e) A b := by
  have hu := unit_pos (K := K) (p := p)
  refine ⟨h.nonneg, add_nonneg (mul_nonneg grow_pos.le h.slack) he, ?_⟩
  have h1 := mul_le_mul_of_nonneg_left h.size hu.le
  have h2 : b - A = (b - a) + (a - A) := by ring
  rw [h2]
  refine (abs_add_le _ _).trans ?_
  have h3 := h.err
  rw [pow_succ]
  unfold grow at *
  linarith

/-- Rounding of any result. -/
theorem Amount.rnd {i : ℕ} {δ A a : K} (h : Amount p i δ A a) :
    Amount p (i + 1) (grow K p * δ + underflowUnit K p emin) A (binRound p emin a) :=
  h.round underflow_pos.le (binRound_fine a)

/-- Rounding of a sum of kept numbers. -/
theorem Amount.rnd_add {i : ℕ} {δ A x y : K} (h : Amount p i δ A (x + y)) (hx : binRound p emin x = x) (hy : binRound p emin y = y) :
    Amount p (i + 1) (grow K p * δ) A (binRound p emin (x + y)) := by
  have := h.round le_rfl (b := binRound p emin (x + y)) (by rw [add_zero]; exact add_rel hx hy)
  rwa [add_zero] at this

theorem Amount.rnd_sub {i : ℕ} {δ A x y : K} (h : Amount p i δ A (x - y)) (hx : binRound p emin x = x) (hy : binRound p emin y = y) :
    Amount p (i + 1) (grow K p * δ) A (binRound p emin (x - y)) := by
  have := h.round le_rfl (b := binRound p emin (x - y)) (by rw [add_zero]; exact sub_rel hx hy)
  rwa [add_zero] at this

/-- Errors of consecutive computations. -/
theorem Amount.trans {i j : ℕ} {δ ε A a b : K} (h : Amount p i δ A a) (h' : Amount p j ε a b) :
    Amount p (i + j) (grow K p ^ j * δ + ε) A b := by
  refine ⟨h.nonneg, add_nonneg (mul_nonneg (pow_pos grow_pos j).le h.slack) h'.slack, ?_⟩
  have h1 : a ≤ grow K p ^ i * A + δ := (le_abs_self a).trans h.size
  have h2 := mul_le_mul_of_nonneg_left h1 (sub_nonneg.2 (grow_pow_one (K := K) (p := p) j))
  have h3 : b - A = (b - a) + (a - A) := by ring
  rw [h3]
  refine (abs_add_le _ _).trans ?_
  have h4 := h.err
  have h5 := h'.err
  rw [pow_add]
  linarith

/-- Sum of a quantity over the layers of a column, without rounding. -/
def exactTotal {β : Type} (f : β → K) (ns : List β) : K := (ns.map f).sum

section
variable {β : Type} (f : β → K)

@[simp] theorem exactTotal_nil : exactTotal f [] = 0 := rfl
@[simp] theorem exactTotal_cons (n : β) (ns : List β) : exactTotal f (n :: ns) = f n + exactTotal f ns := by simp [exactTotal]
@[simp] theorem exactTotal_append (ns ms : List β) : exactTotal f (ns ++ ms) = exactTotal f ns + exactTotal f ms := by simp [exactTotal]

theorem exactTotal_nonneg {ns : List β} (h : ∀ n ∈ ns, 0 ≤ f n) : 0 ≤ exactTotal f ns := by
  induction ns with
  | nil => simp
  | cons n ns ih => rw [exactTotal_cons]; exact add_nonneg (h n (by simp)) (ih fun m hm => h m (by simp [hm]))

end

/-- Few roundings: the growth is at most twice the first order. -/
theorem grow_pow_le {i : ℕ} (h : 2 * (i : K) * unitRoundoff K p ≤ 1) : grow K p ^ i ≤ 1 + 2 * i * unitRoundoff K p := by
  have hu := unit_pos (K := K) (p := p)
  induction i with
  | zero => simp
  | succ i ih =>
    have hi : 2 * (i : K) * unitRoundoff K p ≤ 1 := by push_cast at h; linarith
    have h1 := ih hi
    have h3 := mul_le_mul_of_nonneg_right hi hu.le
    rw [pow_succ]
    push_cast
    calc grow K p ^ i * grow K p ≤ (1 + 2 * i * unitRoundoff K p) * grow K p := mul_le_mul_of_nonneg_right h1 grow_pos.le
      _ ≤ _ := by unfold grow; linarith

end
end Cosipy
