import Verif.Model.Float

/-!
# Exact operations and errors of binary floating point
-/

set_option autoImplicit false
set_option linter.unusedSectionVars false

namespace Cosipy
section
variable {K : Type} [Field K] [LinearOrder K] [IsStrictOrderedRing K] [FloorRing K] {p : ℕ} {emin : ℤ}

theorem two_ne : (2 : K) ≠ 0 := by norm_num

/-- A number kept by the rounding is a multiple of its spacing. -/
theorem float_repr {x : K} (h : binRound p emin x = x) : ∃ m : ℤ, x = m * (2 : K) ^ ulpExp p emin x := by
  refine ⟨roundEven (x / (2 : K) ^ ulpExp p emin x), ?_⟩
  conv_lhs => rw [← h]
  rw [binRound, mul_comm]

/-- A multiple of a power of two is a multiple of every smaller one. -/
theorem mul_pow_finer (m : ℤ) {i j : ℤ} (h : i ≤ j) : ∃ n : ℤ, (m : K) * 2 ^ j = n * 2 ^ i := by
  obtain ⟨k, hk⟩ := Int.eq_ofNat_of_zero_le (Int.sub_nonneg.2 h)
  refine ⟨m * 2 ^ k, ?_⟩
  rw [show j = k + i by omega, zpow_add₀ two_ne, zpow_natCast]
  push_cast; ring

theorem ulpExp_mono {x y : K} (hx : x ≠ 0) (h : |x| ≤ |y|) : ulpExp p emin x ≤ ulpExp p emin y := by
  unfold ulpExp
  have := max_le_max_right emin (Int.log_mono_right (b := 2) (abs_pos.2 hx) h)
  omega

/-- Sterbenz: close numbers are subtracted exactly. -/
theorem sub_exact {x y : K} (hx : binRound p emin x = x) (hy : binRound p emin y = y) (h0 : 0 ≤ y) (h1 : y ≤ x) (h2 : x ≤ 2 * y) :
    binRound p emin (x - y) = x - y := by
  rcases eq_or_ne (x - y) 0 with h | h
  · rw [h, binRound_zero]
  obtain ⟨m, hm⟩ := float_repr hx
  obtain ⟨n, hn⟩ := float_repr hy
  have hxy : |x - y| ≤ |y| := by rw [abs_of_nonneg (sub_nonneg.2 h1), abs_of_nonneg h0]; linarith
  have hyx : |y| ≤ |x| := by rw [abs_of_nonneg h0, abs_of_nonneg (h0.trans h1)]; exact h1
  have hy0 : y ≠ 0 := by rintro rfl; apply h; apply le_antisymm <;> linarith
  obtain ⟨m', hm'⟩ := mul_pow_finer (K := K) m (ulpExp_mono (p := p) (emin := emin) hy0 hyx)
  refine binRound_exact (m' - n) (ulpExp p emin y) ?_ (ulpExp_mono h hxy)
  push_cast
  rw [sub_mul, ← hm', ← hm, ← hn]

/-- Doubling is exact. -/
theorem double_exact {x : K} (hx : binRound p emin x = x) : binRound p emin (x + x) = x + x := by
  rcases eq_or_ne x 0 with rfl | h
  · rw [add_zero, binRound_zero]
  obtain ⟨m, hm⟩ := float_repr hx
  refine binRound_exact m (ulpExp p emin x + 1) ?_ ?_
  · rw [zpow_add_one₀ two_ne, ← mul_assoc, ← hm]; ring
  · unfold ulpExp
    have e : |x + x| = 2 * |x| := by rw [← two_mul, abs_mul, abs_of_pos (by norm_num : (0 : K) < 2)]
    have hx' := abs_pos.2 h
    have : Int.log 2 |x + x| ≤ Int.log 2 |x| + 1 := by
      have h1 := lt_log |x|
      have : |x + x| < ((2 : ℕ) : K) ^ (Int.log 2 |x| + 2) := by
        rw [e, show Int.log 2 |x| + 2 = Int.log 2 |x| + 1 + 1 by ring]
        push_cast
        rw [zpow_add_one₀ two_ne]; linarith
      have := (Int.lt_zpow_iff_log_lt (b := 2) one_lt_two (by rw [e]; linarith)).1 this
      omega
    have h2 := max_le_max_right emin this
    have h3 : max (Int.log 2 |x| + 1) emin ≤ max (Int.log 2 |x|) emin + 1 := max_le
      (by have := le_max_left (Int.log 2 |x|) emin; omega) (by have := le_max_right (Int.log 2 |x|) emin; omega)
    omega

/-- Relative error away from underflow. -/
theorem binRound_rel {x : K} (h : emin ≤ Int.log 2 |x|) : |binRound p emin x - x| ≤ 2 ^ (-(p : ℤ) - 1) * |x| := by
  rcases eq_or_ne x 0 with rfl | hx
  · rw [binRound_zero]; simp
  have hx' := abs_pos.2 hx
  refine (binRound_near x).trans ?_
  have e : (2 : K) ^ ulpExp p emin x / 2 = 2 ^ (ulpExp p emin x - 1) := by rw [zpow_sub_one₀ two_ne, div_eq_mul_inv]
  rw [e, ulpExp, max_eq_left h]
  have h3 := mul_le_mul_of_nonneg_left (le_log hx') (ulp_pos (K := K) (-(p : ℤ) - 1)).le
  rwa [← zpow_add₀ two_ne, show -(p : ℤ) - 1 + Int.log 2 |x| = Int.log 2 |x| - p - 1 by ring] at h3

/-- The sum of two numbers is rounded with a relative error of at most `2 ^ -(p+1)`, however small it is. -/
theorem add_rel {x y : K} (hx : binRound p emin x = x) (hy : binRound p emin y = y) :
    |binRound p emin (x + y) - (x + y)| ≤ 2 ^ (-(p : ℤ) - 1) * |x + y| := by
  rcases le_total emin (Int.log 2 |x + y|) with h | h
  · exact binRound_rel h
  · obtain ⟨m, hm⟩ := float_repr hx
    obtain ⟨n, hn⟩ := float_repr hy
    obtain ⟨m', hm'⟩ := mul_pow_finer (K := K) m (ulpExp_ge (p := p) (emin := emin) x)
    obtain ⟨n', hn'⟩ := mul_pow_finer (K := K) n (ulpExp_ge (p := p) (emin := emin) y)
    have : binRound p emin (x + y) = x + y := by
      refine binRound_exact (m' + n') (emin - p) ?_ ?_
      · push_cast
        rw [add_mul, ← hm', ← hn', ← hm, ← hn]
      · unfold ulpExp
        rw [max_eq_right h]
    rw [this, sub_self, abs_zero]
    exact mul_nonneg (ulp_pos _).le (abs_nonneg _)

theorem neg_kept {x : K} (hx : binRound p emin x = x) : binRound p emin (-x) = -x := by rw [binRound_neg, hx]

/-- The same for differences. -/
theorem sub_rel {x y : K} (hx : binRound p emin x = x) (hy : binRound p emin y = y) :
    |binRound p emin (x - y) - (x - y)| ≤ 2 ^ (-(p : ℤ) - 1) * |x - y| := by
  rw [sub_eq_add_neg x y]; exact add_rel hx (neg_kept hy)

/-- A power of two absorbs anything up to half its spacing. -/
theorem absorb {k : ℤ} {d : K} (hk : emin ≤ k) (h0 : 0 ≤ d) (h : d ≤ 2 ^ (k - p - 1)) (hp : 1 ≤ p) :
    binRound p emin ((2 : K) ^ k + d) = 2 ^ k := by
  have hpos := ulp_pos (K := K) k
  have hlt : (2 : K) ^ (k - p - 1) < 2 ^ k := zpow_lt_zpow_right₀ (by norm_num) (by omega)
  have hs : (0 : K) < 2 ^ k + d := by linarith
  have hlog : Int.log 2 |(2 : K) ^ k + d| = k := by
    rw [abs_of_pos hs]
    have h1 := (Int.zpow_le_iff_le_log (b := 2) (x := k) one_lt_two hs).1 (by push_cast; linarith)
    have h2 := (Int.lt_zpow_iff_log_lt (b := 2) (x := k + 1) one_lt_two hs).1 (by
      push_cast; rw [zpow_add_one₀ two_ne]; linarith)
    omega
  have hu : ulpExp p emin ((2 : K) ^ k + d) = k - p := by unfold ulpExp; rw [hlog, max_eq_left hk]
  unfold binRound
  rw [hu]
  have hup := ulp_pos (K := K) (k - p)
  have e : ((2 : K) ^ k + d) / 2 ^ (k - (p : ℤ)) = ((2 ^ p : ℤ) : K) + d / 2 ^ (k - (p : ℤ)) := by
    rw [add_div, ← zpow_sub₀ two_ne, show k - (k - (p : ℤ)) = p by ring, zpow_natCast]; push_cast; rfl
  have hd0 : 0 ≤ d / (2 : K) ^ (k - (p : ℤ)) := div_nonneg h0 hup.le
  have hd1 : d / (2 : K) ^ (k - (p : ℤ)) ≤ 1 / 2 := by
    rw [div_le_iff₀ hup]
    refine h.trans (le_of_eq ?_)
    rw [zpow_sub_one₀ two_ne, mul_comm, one_div]
  have hf : ⌊((2 ^ p : ℤ) : K) + d / 2 ^ (k - (p : ℤ))⌋ = 2 ^ p := by
    rw [Int.floor_intCast_add, (Int.floor_eq_zero_iff (a := d / (2 : K) ^ (k - (p : ℤ)))).2 ⟨hd0, by linarith⟩, add_zero]
  have : roundEven (((2 ^ p : ℤ) : K) + d / 2 ^ (k - (p : ℤ))) = 2 ^ p := by
    unfold roundEven
    rw [hf]
    have hev : (2 : ℤ) ^ p % 2 = 0 := by
      obtain ⟨q, rfl⟩ : ∃ q, p = q + 1 := ⟨p - 1, by omega⟩
      rw [pow_succ]; omega
    rw [if_pos hev]
    have : ¬ (1 / 2 : K) < ((2 ^ p : ℤ) : K) + d / 2 ^ (k - (p : ℤ)) - ((2 ^ p : ℤ) : K) := by rw [not_lt]; linarith
    rw [if_neg this, ite_self]
  rw [e, this]
  push_cast
  rw [← zpow_natCast, ← zpow_add₀ two_ne]
  congr 1; omega

end
end Cosipy
