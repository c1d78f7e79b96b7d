import Verif.Spec.Rounded
import Verif.Model.Real
import Mathlib.Data.Int.Log
import Mathlib.Algebra.Order.Floor.Ring
import Mathlib.Algebra.Ring.Int.Parity
import Mathlib.Tactic.FieldSimp
import Mathlib.Tactic.Ring

/-!
# Floating point numbers
The model is written for any type with arithmetic operations. Here are such types with rounding: numbers of an ordered field kept
fixed by a rounding function, every operation being the exact one followed by rounding, as IEEE 754 prescribes for
`+ - * /`. Binary64 (the `float64` of numpy, used throughout /repo) is the instance `binary64`: 53 bits, round to nearest, ties to
even, gradual underflow. Left out: overflow (the exponent is not bounded above), hence infinities and NaN; the sign of zero;
division by zero, which the model answers by an exception where Python does and by 0 where numpy would answer `inf` or NaN.
-/

set_option autoImplicit false
set_option linter.unusedSectionVars false

namespace Cosipy

section
variable {K : Type} [Field K] [LinearOrder K] [IsStrictOrderedRing K]

/-- A rounding function: monotone, idempotent, exact on 0 and 1, symmetric, with a relative error of at most 1e-7 (and an absolute
one of 1e-9 near zero). -/
structure Rounding (K : Type) [Field K] [LinearOrder K] [IsStrictOrderedRing K] where
  rnd : K → K
  mono : ∀ {x y : K}, x ≤ y → rnd x ≤ rnd y
  idem : ∀ x : K, rnd (rnd x) = rnd x
  zero : rnd 0 = 0
  one : rnd 1 = 1
  neg : ∀ x : K, rnd (-x) = -rnd x
  fine : ∀ x : K, |rnd x - x| ≤ 1e-7 * |x| + 1e-9

/-- The numbers a rounding keeps. -/
def Fl (r : Rounding K) : Type := {x : K // r.rnd x = x}

namespace Fl
variable {r : Rounding K}

/-- Rounding of an exact result. -/
def mk (r : Rounding K) (x : K) : Fl r := ⟨r.rnd x, r.idem x⟩

instance : LinearOrder (Fl r) := inferInstanceAs (LinearOrder {x : K // r.rnd x = x})
instance : Zero (Fl r) := ⟨⟨0, r.zero⟩⟩
instance : One (Fl r) := ⟨⟨1, r.one⟩⟩
instance : Add (Fl r) := ⟨fun a b => mk r (a.1 + b.1)⟩
instance : Sub (Fl r) := ⟨fun a b => mk r (a.1 - b.1)⟩
instance : Mul (Fl r) := ⟨fun a b => mk r (a.1 * b.1)⟩
instance : Div (Fl r) := ⟨fun a b => mk r (a.1 / b.1)⟩
instance : Neg (Fl r) := ⟨fun a => ⟨-a.1, by rw [r.neg, a.2]⟩⟩
instance : NatCast (Fl r) := ⟨fun n => mk r n⟩
/-- Decimal literals are rounded once. -/
instance : OfScientific (Fl r) := ⟨fun m s e => mk r (OfScientific.ofScientific m s e)⟩
/-- Elementary functions: the exact value, rounded. -/
instance [Transc K] : Transc (Fl r) where
  exp a := mk r (Transc.exp a.1)
  log a := mk r (Transc.log a.1)
  sqrt a := mk r (Transc.sqrt a.1)
  tanh a := mk r (Transc.tanh a.1)
  cos a := mk r (Transc.cos a.1)
  sin a := mk r (Transc.sin a.1)
  arctan a := mk r (Transc.arctan a.1)
  pow a b := mk r (Transc.pow a.1 b.1)
  pi := mk r Transc.pi

theorem mk_val (a : Fl r) : mk r a.1 = a := Subtype.ext a.2

theorem mk_mono {x y : K} (h : x ≤ y) : mk r x ≤ mk r y := r.mono h

theorem mk_zero : mk r 0 = 0 := Subtype.ext r.zero

theorem mk_one : mk r 1 = 1 := Subtype.ext r.one

theorem mk_nonneg {x : K} (h : 0 ≤ x) : (0 : Fl r) ≤ mk r x := by
  rw [← mk_zero]; exact mk_mono h

theorem mk_le {x e : K} (h : x + (1e-7 * |x| + 1e-9) ≤ e) : (mk r x).1 ≤ e := by
  have := (abs_le.1 (r.fine x)).2
  show r.rnd x ≤ e
  linarith

theorem le_mk {x e : K} (h : e ≤ x - (1e-7 * |x| + 1e-9)) : e ≤ (mk r x).1 := by
  have := (abs_le.1 (r.fine x)).1
  show e ≤ r.rnd x
  linarith

instance : Rounded (Fl r) where
  zero_le_one := _root_.zero_le_one (α := K)
  add_mono h1 h2 := mk_mono (add_le_add h1 h2)
  add_zero a := by
    show mk r (a.1 + 0) = a
    rw [_root_.add_zero, mk_val]
  zero_add a := by
    show mk r (0 + a.1) = a
    rw [_root_.zero_add, mk_val]
  sub_mono h1 h2 := mk_mono (sub_le_sub h1 h2)
  sub_zero a := by
    show mk r (a.1 - 0) = a
    rw [_root_.sub_zero, mk_val]
  sub_self a := by
    show mk r (a.1 - a.1) = 0
    rw [_root_.sub_self, mk_zero]
  zero_sub a := by
    show mk r (0 - a.1) = -a
    rw [_root_.zero_sub]; exact mk_val (-a)
  mul_mono_left h1 h2 := mk_mono (mul_le_mul_of_nonneg_left h2 h1)
  mul_mono_right h1 h2 := mk_mono (mul_le_mul_of_nonneg_right h2 h1)
  mul_anti_left h1 h2 := mk_mono (mul_le_mul_of_nonpos_left h2 h1)
  mul_zero a := by
    show mk r (a.1 * 0) = 0
    rw [MulZeroClass.mul_zero, mk_zero]
  zero_mul a := by
    show mk r (0 * a.1) = 0
    rw [MulZeroClass.zero_mul, mk_zero]
  one_mul a := by
    show mk r (1 * a.1) = a
    rw [_root_.one_mul, mk_val]
  mul_one a := by
    show mk r (a.1 * 1) = a
    rw [_root_.mul_one, mk_val]
  div_mono h1 h2 := mk_mono (div_le_div_of_nonneg_right h2 h1)
  zero_div a := by
    show mk r (0 / a.1) = 0
    rw [_root_.zero_div, mk_zero]
  neg_anti h := neg_le_neg (α := K) h
  neg_zero := Subtype.ext (_root_.neg_zero (G := K))
  add_neg a := by
    show mk r (a.1 + -a.1) = 0
    rw [_root_.add_neg_cancel, mk_zero]
  lit_nonneg m s e := mk_nonneg (Rounded.lit_nonneg m s e)
  nat_nonneg n := mk_nonneg (Nat.cast_nonneg n)
  small := by
    show mk r 0.23 ≤ 1
    rw [← mk_one]
    exact mk_mono (by norm_num)
  irreducible := by
    have a1 : (mk r (0.1023 : K)).1 ≤ 0.10230002 := mk_le (by rw [abs_of_nonneg] <;> norm_num)
    have b1 : (mk r (0.812 : K)).1 ≤ 0.8120001 := mk_le (by rw [abs_of_nonneg] <;> norm_num)
    have c1 : (0.0299999 : K) ≤ (mk r (0.03 : K)).1 := le_mk (by rw [abs_of_nonneg] <;> norm_num)
    have d1 : (mk r ((mk r (0.812 : K)).1 - (mk r (0.03 : K)).1)).1 ≤ 0.7820004 :=
      le_trans (r.mono (show _ ≤ (0.7820002 : K) by linarith)) (mk_le (by rw [abs_of_nonneg] <;> norm_num))
    have a0 : (0 : K) ≤ (mk r (0.1023 : K)).1 := mk_nonneg (by norm_num)
    have p1 : (mk r (0.1023 : K)).1 * (mk r ((mk r (0.812 : K)).1 - (mk r (0.03 : K)).1)).1 ≤ 0.10230002 * 0.7820004 :=
      le_trans (mul_le_mul_of_nonneg_left d1 a0) (mul_le_mul_of_nonneg_right a1 (by norm_num))
    have e1 : (mk r (0.10230002 * 0.7820004 : K)).1 ≤ 0.0799987 := mk_le (by rw [abs_of_nonneg] <;> norm_num)
    have f1 : (0.0799999 : K) ≤ (mk r (0.08 : K)).1 := le_mk (by rw [abs_of_nonneg] <;> norm_num)
    have h1 : (mk r ((mk r (0.1023 : K)).1 * (mk r ((mk r (0.812 : K)).1 - (mk r (0.03 : K)).1)).1)).1 ≤
        (mk r (0.10230002 * 0.7820004 : K)).1 := r.mono p1
    show (mk r ((mk r (0.1023 : K)).1 * (mk r ((mk r (0.812 : K)).1 - (mk r (0.03 : K)).1)).1)).1 ≤ (mk r (0.08 : K)).1
    have : (0.0799987 : K) ≤ 0.0799999 := by norm_num
    exact h1.trans (e1.trans (this.trans f1))

end Fl

/-! ## Binary floating point -/

section
variable [FloorRing K]

/-- Nearest integer, ties to the even one. -/
def roundEven (x : K) : ℤ :=
  if x - ⌊x⌋ < 1 / 2 then ⌊x⌋
  else if 1 / 2 < x - ⌊x⌋ then ⌊x⌋ + 1
  else if ⌊x⌋ % 2 = 0 then ⌊x⌋ else ⌊x⌋ + 1

theorem roundEven_near (x : K) : |(roundEven x : K) - x| ≤ 1 / 2 := by
  have h0 := Int.floor_le x
  have h1 := Int.lt_floor_add_one x
  unfold roundEven
  rw [abs_le]
  split_ifs with a b c
  · constructor <;> linarith
  · push_cast; constructor <;> linarith
  · constructor <;> linarith
  · push_cast; constructor <;> linarith

theorem roundEven_int (n : ℤ) : roundEven (n : K) = n := by
  unfold roundEven
  rw [Int.floor_intCast]
  simp

theorem roundEven_mono {x y : K} (h : x ≤ y) : roundEven x ≤ roundEven y := by
  rcases h.eq_or_lt with rfl | h
  · exact le_rfl
  have hf := Int.floor_mono h.le
  have ub : roundEven x ≤ ⌊x⌋ + 1 := by unfold roundEven; split_ifs <;> omega
  have lb : ⌊y⌋ ≤ roundEven y := by unfold roundEven; split_ifs <;> omega
  rcases hf.lt_or_eq with hlt | heq
  · omega
  · unfold roundEven
    rw [← heq]
    split_ifs <;> first | omega | (exfalso; linarith)

theorem roundEven_neg (x : K) : roundEven (-x) = -roundEven x := by
  by_cases hx : (⌊x⌋ : K) = x
  · rw [← hx, ← Int.cast_neg, roundEven_int, roundEven_int]
  · have h0 : (⌊x⌋ : K) < x := lt_of_le_of_ne (Int.floor_le x) hx
    have h1 := Int.lt_floor_add_one x
    have hn : ⌊-x⌋ = -⌊x⌋ - 1 := by
      rw [Int.floor_eq_iff]; push_cast; constructor <;> linarith
    unfold roundEven
    rw [hn]; push_cast
    split_ifs <;> first | omega | (exfalso; linarith)

/-- Exponent of the spacing of the numbers around `x`: `p` binary places below the leading one, not below `emin - p`. -/
def ulpExp (p : ℕ) (emin : ℤ) (x : K) : ℤ := max (Int.log 2 |x|) emin - p

/-- Round to nearest, ties to even, `p + 1` bits, least normal exponent `emin`. -/
def binRound (p : ℕ) (emin : ℤ) (x : K) : K :=
  (2 : K) ^ ulpExp p emin x * roundEven (x / (2 : K) ^ ulpExp p emin x)

variable {p : ℕ} {emin : ℤ}

theorem ulp_pos (j : ℤ) : (0 : K) < 2 ^ j := zpow_pos (by norm_num) j

theorem binRound_neg (x : K) : binRound p emin (-x) = -binRound p emin x := by
  unfold binRound ulpExp
  rw [abs_neg, neg_div, roundEven_neg]; push_cast; ring

theorem binRound_zero : binRound p emin (0 : K) = 0 := by
  unfold binRound
  rw [zero_div, show (0 : K) = ((0 : ℤ) : K) by norm_num, roundEven_int]; simp

/-- Multiples of a power of two that is not below the spacing are kept. -/
theorem binRound_exact {z : K} (m j : ℤ) (hz : z = m * (2 : K) ^ j) (hj : ulpExp p emin z ≤ j) : binRound p emin z = z := by
  obtain ⟨k, hk⟩ := Int.eq_ofNat_of_zero_le (Int.sub_nonneg.2 hj)
  have e : z / (2 : K) ^ ulpExp p emin z = ((m * 2 ^ k : ℤ) : K) := by
    rw [div_eq_iff (ulp_pos _).ne']
    conv_lhs => rw [hz]
    rw [show j = k + ulpExp p emin z by omega, zpow_add₀ (by norm_num : (2 : K) ≠ 0)]
    rw [zpow_natCast]; push_cast; ring
  unfold binRound
  rw [e, roundEven_int, ← e]
  field_simp

theorem le_log {x : K} (hx : 0 < x) : (2 : K) ^ Int.log 2 x ≤ x := by
  simpa using Int.zpow_log_le_self (b := 2) one_lt_two hx

theorem lt_log (x : K) : x < (2 : K) ^ (Int.log 2 x + 1) := by
  simpa using Int.lt_zpow_succ_log_self (b := 2) one_lt_two x

theorem abs_lt_ulp (x : K) : |x| < (2 : K) ^ (ulpExp p emin x + p + 1) := by
  refine (lt_log |x|).trans_le (zpow_le_zpow_right₀ (by norm_num) ?_)
  unfold ulpExp
  have := le_max_left (Int.log 2 |x|) emin
  omega

/-- Within one binade rounding is monotone. -/
theorem binRound_same {x y : K} (h : x ≤ y) (he : ulpExp p emin x = ulpExp p emin y) : binRound p emin x ≤ binRound p emin y := by
  unfold binRound
  rw [he]
  refine mul_le_mul_of_nonneg_left ?_ (ulp_pos _).le
  exact_mod_cast roundEven_mono (div_le_div_of_nonneg_right h (ulp_pos _).le)

/-- The binade above bounds a rounded number. -/
theorem binRound_le_top {x : K} : binRound p emin x ≤ 2 ^ (ulpExp p emin x + p + 1) := by
  have h := abs_lt.1 (abs_lt_ulp (p := p) (emin := emin) x)
  have e : (2 : K) ^ (ulpExp p emin x + p + 1) / 2 ^ ulpExp p emin x = ((2 ^ (p + 1) : ℤ) : K) := by
    rw [← zpow_sub₀ (by norm_num : (2 : K) ≠ 0)]
    rw [show ulpExp p emin x + p + 1 - ulpExp p emin x = ((p + 1 : ℕ) : ℤ) by push_cast; ring, zpow_natCast]
    push_cast; rfl
  have h2 : roundEven (x / (2 : K) ^ ulpExp p emin x) ≤ 2 ^ (p + 1) := by
    have := roundEven_mono (div_le_div_of_nonneg_right h.2.le (ulp_pos (K := K) (ulpExp p emin x)).le)
    rwa [e, roundEven_int] at this
  have h3 : ((roundEven (x / (2 : K) ^ ulpExp p emin x) : ℤ) : K) ≤ ((2 ^ (p + 1) : ℤ) : K) := by exact_mod_cast h2
  rw [← e, le_div_iff₀ (ulp_pos _)] at h3
  unfold binRound
  linarith

theorem binRound_mono_nonneg {x y : K} (hx : 0 ≤ x) (h : x ≤ y) : binRound p emin x ≤ binRound p emin y := by
  rcases eq_or_ne (ulpExp p emin x) (ulpExp p emin y) with he | he
  · exact binRound_same h he
  rcases hx.eq_or_lt with rfl | hx
  · rw [binRound_zero]
    refine mul_nonneg (ulp_pos _).le ?_
    have := roundEven_mono (div_nonneg h (ulp_pos (K := K) (ulpExp p emin y)).le)
    rw [show (0 : K) = ((0 : ℤ) : K) by norm_num, roundEven_int] at this
    exact_mod_cast this
  have hy : 0 < y := hx.trans_le h
  have hl : Int.log 2 x ≤ Int.log 2 y := Int.log_mono_right hx h
  have hlt : ulpExp p emin x < ulpExp p emin y := by
    refine lt_of_le_of_ne ?_ he
    unfold ulpExp
    rw [abs_of_pos hx, abs_of_pos hy]
    have := max_le_max_right emin hl
    omega
  have hym : ulpExp p emin y = Int.log 2 y - p := by
    unfold ulpExp at hlt ⊢
    rw [abs_of_pos hy] at hlt ⊢
    have h1 := le_max_right (Int.log 2 |x|) emin
    rcases le_total (Int.log 2 y) emin with h2 | h2
    · rw [max_eq_right h2] at hlt; omega
    · rw [max_eq_left h2]
  refine binRound_le_top.trans ?_
  refine (zpow_le_zpow_right₀ (by norm_num : (1 : K) ≤ 2) (show ulpExp p emin x + p + 1 ≤ Int.log 2 y by omega)).trans ?_
  have e : (2 : K) ^ Int.log 2 y / 2 ^ ulpExp p emin y = ((2 ^ p : ℤ) : K) := by
    rw [← zpow_sub₀ (by norm_num : (2 : K) ≠ 0)]
    rw [show Int.log 2 y - ulpExp p emin y = ((p : ℕ) : ℤ) by omega, zpow_natCast]
    push_cast; rfl
  have h2 : 2 ^ p ≤ roundEven (y / (2 : K) ^ ulpExp p emin y) := by
    have := roundEven_mono (div_le_div_of_nonneg_right (le_log hy) (ulp_pos (K := K) (ulpExp p emin y)).le)
    rwa [e, roundEven_int] at this
  have h3 : ((2 ^ p : ℤ) : K) ≤ ((roundEven (y / (2 : K) ^ ulpExp p emin y) : ℤ) : K) := by exact_mod_cast h2
  rw [← e, div_le_iff₀ (ulp_pos _)] at h3
  unfold binRound
  linarith

theorem binRound_nonneg {x : K} (hx : 0 ≤ x) : 0 ≤ binRound p emin x := by
  have := binRound_mono_nonneg (p := p) (emin := emin) le_rfl hx
  rwa [binRound_zero] at this

theorem binRound_mono {x y : K} (h : x ≤ y) : binRound p emin x ≤ binRound p emin y := by
  rcases le_total 0 x with hx | hx
  · exact binRound_mono_nonneg hx h
  rcases le_total 0 y with hy | hy
  · have := binRound_nonneg (p := p) (emin := emin) (neg_nonneg.2 hx)
    rw [binRound_neg] at this
    exact (neg_nonneg.1 this).trans (binRound_nonneg hy)
  · have := binRound_mono_nonneg (p := p) (emin := emin) (neg_nonneg.2 hy) (neg_le_neg h)
    rw [binRound_neg, binRound_neg] at this
    exact neg_le_neg_iff.1 this

theorem ulpExp_ge (x : K) : emin - p ≤ ulpExp p emin x := by
  unfold ulpExp
  have := le_max_right (Int.log 2 |x|) emin
  omega

theorem binRound_idem_nonneg {x : K} (hx : 0 ≤ x) : binRound p emin (binRound p emin x) = binRound p emin x := by
  have h0 := binRound_nonneg (p := p) (emin := emin) hx
  have hge := ulpExp_ge (p := p) (emin := emin) x
  rcases h0.eq_or_lt with h0 | h0
  · rw [← h0, binRound_zero]
  rcases (binRound_le_top (p := p) (emin := emin) (x := x)).lt_or_eq with h | h
  · refine binRound_exact (roundEven (x / (2 : K) ^ ulpExp p emin x)) (ulpExp p emin x) ?_ ?_
    · rw [binRound]; ring
    · have hl := (Int.lt_zpow_iff_log_lt (b := 2) one_lt_two (x := ulpExp p emin x + p + 1) h0).1 (by simpa using h)
      rw [show ulpExp p emin (binRound p emin x) = max (Int.log 2 |binRound p emin x|) emin - p from rfl, abs_of_pos h0]
      have : max (Int.log 2 (binRound p emin x)) emin ≤ ulpExp p emin x + p := max_le (by omega) (by omega)
      omega
  · refine binRound_exact 1 (ulpExp p emin x + p + 1) (by rw [h]; push_cast; ring) ?_
    have hl : Int.log 2 (binRound p emin x) = ulpExp p emin x + p + 1 := by
      rw [h]; simpa using Int.log_zpow (R := K) (b := 2) one_lt_two (ulpExp p emin x + p + 1)
    rw [show ulpExp p emin (binRound p emin x) = max (Int.log 2 |binRound p emin x|) emin - p from rfl, abs_of_pos h0, hl]
    have : max (ulpExp p emin x + p + 1) emin ≤ ulpExp p emin x + p + 1 := max_le le_rfl (by omega)
    omega

theorem binRound_idem (x : K) : binRound p emin (binRound p emin x) = binRound p emin x := by
  rcases le_total 0 x with hx | hx
  · exact binRound_idem_nonneg hx
  · have := binRound_idem_nonneg (p := p) (emin := emin) (neg_nonneg.2 hx)
    rw [binRound_neg, binRound_neg] at this
    exact neg_inj.1 this

theorem binRound_one (he : emin ≤ 0) : binRound p emin (1 : K) = 1 := by
  refine binRound_exact 1 0 (by simp) ?_
  unfold ulpExp
  rw [abs_one, Int.log_one_right, max_eq_left he]
  omega

/-- Half a unit in the last place. -/
theorem binRound_near (x : K) : |binRound p emin x - x| ≤ 2 ^ ulpExp p emin x / 2 := by
  have h := roundEven_near (x / (2 : K) ^ ulpExp p emin x)
  have e : binRound p emin x - x =
      (2 : K) ^ ulpExp p emin x * (roundEven (x / (2 : K) ^ ulpExp p emin x) - x / (2 : K) ^ ulpExp p emin x) := by
    unfold binRound
    rw [mul_sub, mul_div_cancel₀ _ (ulp_pos _).ne']
  rw [e, abs_mul, abs_of_pos (ulp_pos _)]
  have := mul_le_mul_of_nonneg_left h (ulp_pos (K := K) (ulpExp p emin x)).le
  linarith

/-- The error is at most `2 ^ -(p+1)` relative, or half the least positive number. -/
theorem binRound_fine (x : K) : |binRound p emin x - x| ≤ 2 ^ (-(p : ℤ) - 1) * |x| + 2 ^ (emin - p - 1) := by
  have two : (2 : K) ≠ 0 := by norm_num
  rcases eq_or_ne x 0 with rfl | hx
  · rw [binRound_zero, sub_zero, abs_zero, mul_zero, zero_add]; exact (ulp_pos _).le
  have hx' := abs_pos.2 hx
  refine (binRound_near x).trans ?_
  have e : (2 : K) ^ ulpExp p emin x / 2 = 2 ^ (ulpExp p emin x - 1) := by rw [zpow_sub_one₀ two, div_eq_mul_inv]
  rw [e]
  have h1 := mul_pos (ulp_pos (K := K) (-(p : ℤ) - 1)) hx'
  have h2 := ulp_pos (K := K) (emin - p - 1)
  unfold ulpExp
  rcases le_total (Int.log 2 |x|) emin with h | h
  · rw [max_eq_right h]; linarith
  · rw [max_eq_left h]
    have h3 := mul_le_mul_of_nonneg_left (le_log hx') (ulp_pos (K := K) (-(p : ℤ) - 1)).le
    rw [← zpow_add₀ two, show -(p : ℤ) - 1 + Int.log 2 |x| = Int.log 2 |x| - p - 1 by ring] at h3
    linarith

/-- Binary floating point with `p + 1` bits, at least those of single precision. -/
def binary (K : Type) [Field K] [LinearOrder K] [IsStrictOrderedRing K] [FloorRing K] (p : ℕ) (emin : ℤ) (hp : 23 ≤ p)
    (he : emin ≤ -30) : Rounding K where
  rnd := binRound p emin
  mono := binRound_mono
  idem := binRound_idem
  zero := binRound_zero
  one := binRound_one (by omega)
  neg := binRound_neg
  fine x := by
    refine (binRound_fine x).trans (add_le_add (mul_le_mul_of_nonneg_right ?_ (abs_nonneg x)) ?_)
    · refine (zpow_le_zpow_right₀ (by norm_num : (1 : K) ≤ 2) (show -(p : ℤ) - 1 ≤ -24 by omega)).trans ?_
      norm_num
    · refine (zpow_le_zpow_right₀ (by norm_num : (1 : K) ≤ 2) (show emin - p - 1 ≤ -54 by omega)).trans ?_
      norm_num

/-- IEEE 754 binary64 without overflow. -/
def binary64 (K : Type) [Field K] [LinearOrder K] [IsStrictOrderedRing K] [FloorRing K] : Rounding K :=
  binary K 52 (-1022) (by norm_num) (by norm_num)

end
end

/-- The exponential of real analysis, rounded, keeps its bounds. -/
theorem expSigns_real (r : Rounding ℝ) : ExpSigns (Fl r) where
  nonneg x := Fl.mk_nonneg (Real.exp_pos _).le
  le_one x hx := by
    rw [← Fl.mk_one (r := r)]
    exact Fl.mk_mono (Real.exp_le_one_iff.2 hx)

end Cosipy
