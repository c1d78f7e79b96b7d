import Verif.Model.Secant
import Verif.Model.Real
import Verif.Lemmas.Arith
import Verif.Spec.Column

/-!
# C36 The secant solver terminates, never divides by zero and solves affine balances exactly

The solver of the model is a function by recursion on the number of iterations left, so it always ends; the theorems
bound its function evaluations, show that the two denominators of its update are never zero, that the update is the
zero of the chord, and what it returns.
-/

set_option autoImplicit false
set_option linter.unusedSectionVars false

namespace Cosipy
section
variable {K : Type} [Field K] [LinearOrder K] [IsStrictOrderedRing K]

/-- **C36, denominators.** The update is only evaluated for different function values, and then the denominators of the
branch taken are not zero. -/
theorem C36_denominators {q0 q1 : K} (hne : q1 ≠ q0) :
    (pyAbs q0 < pyAbs q1 → q1 ≠ 0 ∧ 1 - q0 / q1 ≠ 0) ∧ (¬ pyAbs q0 < pyAbs q1 → q0 ≠ 0 ∧ 1 - q1 / q0 ≠ 0) := by
  simp only [pyAbs_eq]
  constructor
  · intro h
    have h1 : q1 ≠ 0 := by
      rintro rfl
      rw [abs_zero] at h
      exact absurd h (not_lt.2 (abs_nonneg _))
    refine ⟨h1, fun he => hne ?_⟩
    have : q0 / q1 = 1 := by linarith
    rw [div_eq_one_iff_eq h1] at this
    exact this.symm
  · intro h
    have h0 : q0 ≠ 0 := by
      rintro rfl
      rw [abs_zero, not_lt] at h
      exact hne (abs_nonpos_iff.1 h)
    refine ⟨h0, fun he => hne ?_⟩
    have : q1 / q0 = 1 := by linarith
    rwa [div_eq_one_iff_eq h0] at this

/-- **C36, update.** In both branches the new point is the zero of the straight line through the last two points. -/
theorem C36_chord {p0 p1 q0 q1 : K} (hne : q1 ≠ q0) :
    secantPoint p0 p1 q0 q1 = p1 - q1 * (p1 - p0) / (q1 - q0) ∧
    q1 * (secantPoint p0 p1 q0 q1 - p0) = q0 * (secantPoint p0 p1 q0 q1 - p1) := by
  have hd : q1 - q0 ≠ 0 := sub_ne_zero.2 hne
  have key : secantPoint p0 p1 q0 q1 = p1 - q1 * (p1 - p0) / (q1 - q0) := by
    obtain ⟨h1, h2⟩ := C36_denominators hne
    unfold secantPoint
    split_ifs with h
    · obtain ⟨a, b⟩ := h1 h
      rw [div_eq_iff b]
      field_simp
      ring
    · obtain ⟨a, b⟩ := h2 h
      rw [div_eq_iff b]
      field_simp
      ring
  refine ⟨key, ?_⟩
  rw [key]
  field_simp
  ring

theorem secantLoop_calls {f : K → M K} {tol rtol : K} : ∀ {n : Nat} {p0 p1 q0 q1 : K} {k : Nat} {r : K × Nat},
    secantLoop f tol rtol n p0 p1 q0 q1 k = .ok r → k ≤ r.2 ∧ r.2 ≤ k + n := by
  intro n
  induction n with
  | zero => intro p0 p1 q0 q1 k r h; rw [secantLoop] at h; cases h; exact ⟨le_rfl, le_rfl⟩
  | succ n ih =>
    intro p0 p1 q0 q1 k r h
    rw [secantLoop] at h
    simp only at h
    split_ifs at h with h1 h2 h3
    · cases h; exact ⟨le_rfl, Nat.le_add_right _ _⟩
    · cases h; exact ⟨le_rfl, Nat.le_add_right _ _⟩
    · simp only [bind_eq_ok] at h
      obtain ⟨q, _, h⟩ := h
      have := ih h
      omega

/-- **C36, evaluations.** The function is evaluated at least twice and at most `maxiter + 2` times. -/
theorem C36_evaluations {f : K → M K} {x0 tol rtol : K} {maxiter : Nat} {x1 : Option K} {r : K × Nat}
    (h : secant f x0 tol maxiter x1 rtol = .ok r) : 2 ≤ r.2 ∧ r.2 ≤ maxiter + 2 := by
  unfold secant at h
  split_ifs at h with h1 h2
  have tail : ∀ p1, (do
      let q0 ← f x0
      let q1 ← f p1
      if pyAbs q1 < pyAbs q0 then secantLoop f tol rtol maxiter p1 x0 q1 q0 2
      else secantLoop f tol rtol maxiter x0 p1 q0 q1 2) = .ok r → 2 ≤ r.2 ∧ r.2 ≤ maxiter + 2 := by
    intro p1 h
    simp only [bind_eq_ok] at h
    obtain ⟨q0, _, q1, _, h⟩ := h
    split_ifs at h
    · have := secantLoop_calls h; omega
    · have := secantLoop_calls h; omega
  cases x1 with
  | none => exact tail _ h
  | some x =>
    simp only at h
    split_ifs at h
    · cases h
    · exact tail _ h

theorem secantLoop_error {f : K → M K} {tol rtol : K} : ∀ {n : Nat} {p0 p1 q0 q1 : K} {k : Nat} {e : Err},
    secantLoop f tol rtol n p0 p1 q0 q1 k = .error e → e = .runtime ∨ ∃ x, f x = .error e := by
  intro n
  induction n with
  | zero => intro p0 p1 q0 q1 k e h; rw [secantLoop] at h; cases h
  | succ n ih =>
    intro p0 p1 q0 q1 k e h
    rw [secantLoop] at h
    simp only at h
    split_ifs at h with h1 h2 h3
    · cases h; exact Or.inl rfl
    · rcases bind_eq_error.1 h with h | ⟨q, _, h⟩
      · exact Or.inr ⟨_, h⟩
      · exact ih h

/-- **C36, failures.** With a positive tolerance, at least one iteration and no second start value, the only exceptions
are RuntimeError (equal function values at different points) and those the function itself raises. -/
theorem C36_errors {f : K → M K} {x0 tol rtol : K} {maxiter : Nat} (hm : maxiter ≠ 0) (ht : 0 < tol) {e : Err}
    (h : secant f x0 tol maxiter none rtol = .error e) : e = .runtime ∨ ∃ x, f x = .error e := by
  unfold secant at h
  rw [if_neg hm, if_neg (not_not.2 ht)] at h
  simp only [ok_bind] at h
  rcases bind_eq_error.1 h with h | ⟨q0, _, h⟩
  · exact Or.inr ⟨_, h⟩
  rcases bind_eq_error.1 h with h | ⟨q1, _, h⟩
  · exact Or.inr ⟨_, h⟩
  split_ifs at h <;> exact secantLoop_error h

theorem secantStart_ne (x0 : K) : secantStart x0 ≠ x0 := by
  unfold secantStart
  simp only
  split_ifs with h
  · intro he
    have h1 : (0 : K) ≤ x0 := by
      by_contra hn
      have : x0 * (1 + 0.0001) < 0 := mul_neg_of_neg_of_pos (not_le.1 hn) (by norm_num)
      linarith
    norm_num at he
    linarith
  · intro he
    have h1 : x0 < 0 := by
      by_contra hn
      exact h (mul_nonneg (not_lt.1 hn) (by norm_num))
    norm_num at he
    linarith

/-- On a straight line the loop returns the root. -/
theorem secantLoop_affine {a root tol rtol : K} (ha : a ≠ 0) (ht : 0 < tol) (hr : 0 ≤ rtol) {n : Nat} {p0 p1 : K} {k : Nat}
    (hp : p1 ≠ p0) :
    ∃ k', secantLoop (fun x => .ok (a * (x - root))) tol rtol (n + 1) p0 p1 (a * (p0 - root)) (a * (p1 - root)) k =
      .ok (root, k') := by
  have hpoint : ∀ {p0 p1 : K}, p1 ≠ p0 → a * (p1 - root) ≠ a * (p0 - root) ∧
      secantPoint p0 p1 (a * (p0 - root)) (a * (p1 - root)) = root := by
    intro p0 p1 hp
    have hq : a * (p1 - root) ≠ a * (p0 - root) := by
      intro he
      have := mul_left_cancel₀ ha he
      exact hp (by linarith)
    refine ⟨hq, ?_⟩
    rw [(C36_chord hq).1]
    have hsub : p1 - p0 ≠ 0 := sub_ne_zero.2 hp
    have : a * (p1 - root) - a * (p0 - root) = a * (p1 - p0) := by ring
    rw [this]
    field_simp
    ring
  obtain ⟨hq, hpt⟩ := hpoint hp
  have hqb : (a * (p1 - root) == a * (p0 - root)) = false := by simpa using hq
  rw [secantLoop, hqb]
  simp only [hpt]
  by_cases hclose : isClose root p1 rtol tol
  · rw [if_pos hclose]; exact ⟨_, rfl⟩
  · rw [if_neg hclose]
    simp only [ok_bind]
    cases n with
    | zero => rw [secantLoop]; exact ⟨_, rfl⟩
    | succ n =>
      have hself : isClose root root rtol tol = true := by
        unfold isClose
        rw [pyAbs_eq, pyAbs_eq, sub_self, abs_zero]
        have : 0 ≤ rtol * |root| := mul_nonneg hr (abs_nonneg _)
        simp only [decide_eq_true_eq]
        linarith
      have hp' : root ≠ p1 := by
        intro he
        rw [← he] at hclose
        exact hclose hself
      obtain ⟨hq', hpt'⟩ := hpoint hp'
      have hqb' : (a * (root - root) == a * (p1 - root)) = false := by simpa using hq'
      rw [secantLoop, hqb']
      simp only [hpt', if_pos hself]
      exact ⟨_, rfl⟩

/-- **C36, affine functions.** For a straight line of non-zero slope the solver returns its root exactly, from every
start value. -/
theorem C36_affine {a root x0 tol rtol : K} {maxiter : Nat} (ha : a ≠ 0) (ht : 0 < tol) (hr : 0 ≤ rtol) (hm : maxiter ≠ 0) :
    ∃ k, secant (fun x => .ok (a * (x - root))) x0 tol maxiter none rtol = .ok (root, k) := by
  obtain ⟨n, rfl⟩ := Nat.exists_eq_succ_of_ne_zero hm
  unfold secant
  rw [if_neg hm, if_neg (not_not.2 ht)]
  simp only [ok_bind]
  have hs := secantStart_ne x0
  split_ifs
  · exact secantLoop_affine ha ht hr hs.symm
  · exact secantLoop_affine ha ht hr hs

end

section Unconverged
open Real

/-- A positive function on which the solver marches on by equal steps. -/
noncomputable def marching (x : ℝ) : ℝ := if x = 270.0271 then 1 else 2 * (1 / 2) ^ ((x - 270) / 0.0542)

theorem marching_pos (x : ℝ) : 0 < marching x := by
  unfold marching
  split_ifs
  · norm_num
  · positivity

theorem marching_at (k : Nat) : marching (270 + 0.0542 * k) = 2 * (1 / 2) ^ k := by
  unfold marching
  rw [if_neg]
  · congr 1
    rw [← Real.rpow_natCast]
    congr 1
    field_simp
    ring
  · intro h
    have h2 : (2 * k : ℝ) = 1 := by norm_num at h ⊢; linarith
    have h3 : 2 * k = 1 := by exact_mod_cast h2
    omega

theorem marching_loop : ∀ (n k c : Nat), ∃ r, secantLoop (fun x => .ok (marching x)) (0.01 : ℝ) 0 n (270 + 0.0542 * k)
    (270 + 0.0542 * (k + 1 : Nat)) (2 * (1 / 2) ^ k) (2 * (1 / 2) ^ (k + 1)) c = .ok r := by
  intro n
  induction n with
  | zero => intro k c; exact ⟨_, rfl⟩
  | succ n ih =>
    intro k c
    have hpos : (0 : ℝ) < (1 / 2) ^ k := by positivity
    have hne : (2 * (1 / 2) ^ (k + 1) : ℝ) ≠ 2 * (1 / 2) ^ k := by rw [pow_succ]; intro h; linarith
    have hb : ((2 * (1 / 2) ^ (k + 1) : ℝ) == 2 * (1 / 2) ^ k) = false := by simpa using hne
    have hp : secantPoint (270 + 0.0542 * k : ℝ) (270 + 0.0542 * (k + 1 : Nat)) (2 * (1 / 2) ^ k) (2 * (1 / 2) ^ (k + 1)) =
        270 + 0.0542 * (k + 1 + 1 : Nat) := by
      rw [(C36_chord hne).1, pow_succ]
      have : (2 * ((1 / 2) ^ k * (1 / 2)) - 2 * (1 / 2) ^ k : ℝ) ≠ 0 := by intro h; linarith
      rw [eq_comm, eq_sub_iff_add_eq, ← eq_sub_iff_add_eq', div_eq_iff this]
      push_cast
      ring
    have hclose : isClose (270 + 0.0542 * (k + 1 + 1 : Nat) : ℝ) (270 + 0.0542 * (k + 1 : Nat)) 0 0.01 = false := by
      unfold isClose
      rw [pyAbs_eq]
      have e : (270 + 0.0542 * (k + 1 + 1 : Nat) : ℝ) - (270 + 0.0542 * (k + 1 : Nat)) = 0.0542 := by push_cast; ring
      rw [e]
      norm_num [abs_of_pos]
    rw [secantLoop, hb]
    simp only [hp, hclose, ok_bind, marching_at]
    exact ih (k + 1) (c + 1)

/-- **C36, unconverged result.** For every iteration limit there is a function without zeros for which the solver, called
as the energy balance calls it (start 270, tolerance 0.01), returns a value without reporting that it did not
converge. -/
theorem C36_unconverged (maxiter : Nat) (hm : maxiter ≠ 0) :
    ∃ f : ℝ → ℝ, (∀ x, 0 < f x) ∧ ∃ r, secant (fun x => .ok (f x)) 270 0.01 maxiter none 0 = .ok r := by
  refine ⟨marching, marching_pos, ?_⟩
  obtain ⟨n, rfl⟩ := Nat.exists_eq_succ_of_ne_zero hm
  have hs : secantStart (270 : ℝ) = 270.0271 := by unfold secantStart; norm_num
  have m0 : marching 270 = 2 := by have := marching_at 0; norm_num at this; exact this
  have m1 : marching 270.0271 = 1 := by unfold marching; simp
  unfold secant
  rw [if_neg hm, if_neg (by norm_num)]
  simp only [ok_bind, hs, m0, m1]
  rw [if_pos (by rw [pyAbs_eq, pyAbs_eq]; norm_num)]
  have hb : ((2 : ℝ) == 1) = false := by simp
  have hp : secantPoint (270.0271 : ℝ) 270 1 2 = 270 + 0.0542 * (0 + 1 : Nat) := by
    rw [(C36_chord (by norm_num)).1]; norm_num
  have hclose : isClose (270 + 0.0542 * (0 + 1 : Nat) : ℝ) 270 0 0.01 = false := by
    unfold isClose
    rw [pyAbs_eq]
    norm_num [abs_of_pos]
  rw [secantLoop, hb]
  simp only [hp, hclose, ok_bind, marching_at]
  obtain ⟨r, hr⟩ := marching_loop n 0 3
  refine ⟨r, ?_⟩
  simpa using hr

end Unconverged

/-- Non-vacuity: the solver as called by the energy balance, on a balance that falls by 4 W per kelvin. -/
example : ∃ k, secant (fun x : ℝ => .ok (-4 * (x - 265))) 270 0.01 50 none 0 = .ok (265, k) :=
  C36_affine (by norm_num) (by norm_num) le_rfl (by norm_num)

end Cosipy
