import Verif.Model.Profile
import Verif.Lemmas.Basic
import Mathlib.Algebra.Order.Field.Basic
import Mathlib.Algebra.Order.Ring.Rat
import Mathlib.Algebra.Order.BigOperators.Group.List
import Mathlib.Tactic.Linarith
import Mathlib.Tactic.Ring

/-!
# C88: profiles show the value of the layer at a depth

`plot_profiles.py` prints density and temperature for given depths and draws profiles over time.
-/

set_option autoImplicit false
set_option linter.unusedSectionVars false

namespace Cosipy.Profile

section
variable {K : Type} [Field K] [LinearOrder K] [IsStrictOrderedRing K]

/-- Depth of the top of layer `k` (layers counted from the surface); the bottom of the column for `k = hs.length`. -/
def top (hs : List K) (k : Nat) : K := (hs.take k).sum

/-- A profile as stored in the file: the layers' values, then NaN. -/
def stored (xs : List K) (pad : Nat) : List (Option K) := xs.map some ++ List.replicate pad none

/-! ## Smallest element -/

theorem argmin_spec : ∀ {xs : List (Option K)} {i : Nat} {a : K}, argmin xs = some (i, a) →
    xs[i]? = some (some a) ∧ ∀ j b, xs[j]? = some (some b) → a ≤ b ∧ (j < i → a < b) := by
  intro xs
  induction xs with
  | nil => intro i a h; cases h
  | cons x xs ih =>
    intro i a h
    unfold argmin at h
    cases hx : x with
    | none =>
      rw [hx] at h
      cases hr : argmin xs with
      | none => rw [hr] at h; cases h
      | some p =>
        obtain ⟨i', a'⟩ := p
        rw [hr] at h
        cases h
        obtain ⟨h1, h2⟩ := ih hr
        refine ⟨by rw [List.getElem?_cons_succ]; exact h1, fun j b hj => ?_⟩
        cases j with
        | zero => cases hj
        | succ j =>
          rw [List.getElem?_cons_succ] at hj
          obtain ⟨g1, g2⟩ := h2 j b hj
          exact ⟨g1, fun hlt => g2 (by omega)⟩
    | some x' =>
      rw [hx] at h
      cases hr : argmin xs with
      | none =>
        rw [hr] at h
        cases h
        refine ⟨rfl, fun j b hj => ?_⟩
        cases j with
        | zero => cases hj; exact ⟨le_refl _, fun h => absurd h (by omega)⟩
        | succ j =>
          rw [List.getElem?_cons_succ] at hj
          exfalso
          clear ih hx
          have : ∀ (ys : List (Option K)) (j : Nat), argmin ys = none → ys[j]? = some (some b) → False := by
            intro ys
            induction ys with
            | nil => intro j _ h; cases h
            | cons y ys ih =>
              intro j hn hj
              unfold argmin at hn
              cases y with
              | none =>
                cases ht : argmin ys with
                | some p => rw [ht] at hn; cases hn
                | none =>
                  cases j with
                  | zero => cases hj
                  | succ j => exact ih j ht (by rwa [List.getElem?_cons_succ] at hj)
              | some y =>
                cases ht : argmin ys with
                | none => rw [ht] at hn; cases hn
                | some p => rw [ht] at hn; dsimp only at hn; split_ifs at hn
          exact this xs j hr hj
      | some p =>
        obtain ⟨i', a'⟩ := p
        rw [hr] at h
        obtain ⟨h1, h2⟩ := ih hr
        dsimp only at h
        split_ifs at h with hlt
        · cases h
          refine ⟨by rw [List.getElem?_cons_succ]; exact h1, fun j b hj => ?_⟩
          cases j with
          | zero => cases hj; exact ⟨hlt.le, fun _ => hlt⟩
          | succ j =>
            rw [List.getElem?_cons_succ] at hj
            obtain ⟨g1, g2⟩ := h2 j b hj
            exact ⟨g1, fun h => g2 (by omega)⟩
        · cases h
          refine ⟨rfl, fun j b hj => ?_⟩
          cases j with
          | zero => cases hj; exact ⟨le_refl _, fun h => absurd h (by omega)⟩
          | succ j =>
            rw [List.getElem?_cons_succ] at hj
            exact ⟨(not_lt.1 hlt).trans (h2 j b hj).1, fun h => absurd h (by omega)⟩

theorem argmin_isSome : ∀ {xs : List (Option K)} {j : Nat} {b : K}, xs[j]? = some (some b) → ∃ p, argmin xs = some p := by
  intro xs
  induction xs with
  | nil => intro j b h; cases h
  | cons x xs ih =>
    intro j b h
    unfold argmin
    cases x with
    | none =>
      cases j with
      | zero => cases h
      | succ j =>
        obtain ⟨p, hp⟩ := ih (by rwa [List.getElem?_cons_succ] at h)
        rw [hp]
        exact ⟨_, rfl⟩
    | some x =>
      cases argmin xs with
      | none => exact ⟨_, rfl⟩
      | some p =>
        dsimp only
        split_ifs
        · exact ⟨_, rfl⟩
        · exact ⟨_, rfl⟩

/-- A candidate that is smaller than all before it and not larger than all after it is what `nanargmin` finds. -/
theorem nanargmin_eq {xs : List (Option K)} {c : Nat} {a : K} (hc : xs[c]? = some (some a))
    (h1 : ∀ j b, j < c → xs[j]? = some (some b) → a < b) (h2 : ∀ j b, c < j → xs[j]? = some (some b) → a ≤ b) :
    nanargmin xs = .ok c := by
  obtain ⟨⟨i, m⟩, hp⟩ := argmin_isSome hc
  obtain ⟨e1, e2⟩ := argmin_spec hp
  unfold nanargmin
  rw [hp]
  show Except.ok i = Except.ok c
  rw [ok_inj]
  rcases lt_trichotomy i c with h | h | h
  · have := h1 i m h e1
    exact absurd (e2 c a hc).1 (not_le.2 this)
  · exact h
  · have := h2 i m h e1
    exact absurd ((e2 c a hc).2 h) (not_lt.2 this)

theorem abs_eq (x : K) : absOpt (some x) = some |x| := by
  unfold absOpt
  rw [Option.map_some]
  congr 1
  split_ifs with h
  · exact (abs_of_neg h).symm
  · exact (abs_of_nonneg (not_lt.1 h)).symm

/-- Distances to increasing numbers: between the `k`-th and the next, the nearer one is found, the first if both are
equally near. -/
theorem nearest_between {xs : List (Option K)} {f : Nat → K} {n : Nat} {d : K}
    (hf : ∀ i, i < n → xs[i]? = some (some |f i - d|)) (hg : ∀ i b, n ≤ i → xs[i]? ≠ some (some b))
    (hm : ∀ i j, i < j → j < n → f i < f j) {k : Nat} (hk : k + 1 < n) (h1 : f k ≤ d) (h2 : d ≤ f (k + 1)) :
    nanargmin xs = .ok (if d - f k ≤ f (k + 1) - d then k else k + 1) := by
  have hval : ∀ j b, xs[j]? = some (some b) → j < n ∧ b = |f j - d| := by
    intro j b hj
    by_cases hn : j < n
    · rw [hf j hn] at hj
      exact ⟨hn, by cases hj; rfl⟩
    · exact absurd hj (hg j b (by omega))
  have hmono : ∀ i j, i ≤ j → j < n → f i ≤ f j := by
    intro i j hij hj
    rcases Nat.eq_or_lt_of_le hij with rfl | h
    · exact le_refl _
    · exact (hm i j h hj).le
  split_ifs with h
  · refine nanargmin_eq (hf k (by omega)) ?_ ?_
    · intro j b hj hb
      obtain ⟨hn, rfl⟩ := hval j b hb
      have := hm j k hj (by omega)
      rw [abs_sub_comm, abs_of_nonneg (by linarith : 0 ≤ d - f k), abs_sub_comm,
        abs_of_nonneg (by linarith : 0 ≤ d - f j)]
      linarith
    · intro j b hj hb
      obtain ⟨hn, rfl⟩ := hval j b hb
      have := hmono (k + 1) j hj hn
      rw [abs_sub_comm, abs_of_nonneg (by linarith : 0 ≤ d - f k), abs_of_nonneg (by linarith : 0 ≤ f j - d)]
      linarith
  · refine nanargmin_eq (hf (k + 1) hk) ?_ ?_
    · intro j b hj hb
      obtain ⟨hn, rfl⟩ := hval j b hb
      have := hmono j k (by omega) (by omega)
      rw [abs_of_nonneg (by linarith : 0 ≤ f (k + 1) - d), abs_sub_comm, abs_of_nonneg (by linarith : 0 ≤ d - f j)]
      linarith
    · intro j b hj hb
      obtain ⟨hn, rfl⟩ := hval j b hb
      have := hm (k + 1) j hj hn
      rw [abs_of_nonneg (by linarith : 0 ≤ f (k + 1) - d), abs_of_nonneg (by linarith : 0 ≤ f j - d)]
      linarith

/-- Left of all numbers the first, right of all the last. -/
theorem nearest_first {xs : List (Option K)} {f : Nat → K} {n : Nat} {d : K}
    (hf : ∀ i, i < n → xs[i]? = some (some |f i - d|)) (hg : ∀ i b, n ≤ i → xs[i]? ≠ some (some b))
    (hm : ∀ i j, i < j → j < n → f i < f j) (hn : 0 < n) (h : d ≤ f 0) : nanargmin xs = .ok 0 := by
  refine nanargmin_eq (hf 0 hn) (fun j b hj => absurd hj (by omega)) ?_
  intro j b hj hb
  by_cases hjn : j < n
  · rw [hf j hjn] at hb
    cases hb
    have := hm 0 j hj hjn
    rw [abs_of_nonneg (by linarith : 0 ≤ f 0 - d), abs_of_nonneg (by linarith : 0 ≤ f j - d)]
    linarith
  · exact absurd hb (hg j b (by omega))

theorem nearest_last {xs : List (Option K)} {f : Nat → K} {n : Nat} {d : K}
    (hf : ∀ i, i < n → xs[i]? = some (some |f i - d|)) (hg : ∀ i b, n ≤ i → xs[i]? ≠ some (some b))
    (hm : ∀ i j, i < j → j < n → f i < f j) {m : Nat} (hn : n = m + 1) (h : f m ≤ d) : nanargmin xs = .ok m := by
  refine nanargmin_eq (hf m (by omega)) ?_ (fun j b hj hb => absurd hb (hg j b (by omega)))
  intro j b hj hb
  rw [hf j (by omega)] at hb
  cases hb
  have := hm j m hj (by omega)
  rw [abs_sub_comm, abs_of_nonneg (by linarith : 0 ≤ d - f m), abs_sub_comm, abs_of_nonneg (by linarith : 0 ≤ d - f j)]
  linarith

/-! ## Depths -/

theorem cumsum_get : ∀ (hs : List K) (pad : Nat) (a : K) (i : Nat),
    (cumsumFrom (some a) (stored hs pad))[i]? =
      if i < hs.length then some (some (a + top hs (i + 1))) else if i < hs.length + pad then some none else none := by
  intro hs
  induction hs with
  | nil =>
    intro pad a i
    have key : ∀ (pad : Nat) (acc : Option K) (i : Nat),
        (cumsumFrom acc (List.replicate pad none))[i]? = if i < pad then some none else none := by
      intro pad
      induction pad with
      | zero => intro acc i; simp [cumsumFrom]
      | succ pad ih =>
        intro acc i
        rw [List.replicate_succ]
        unfold cumsumFrom
        cases i with
        | zero => cases acc <;> simp
        | succ i =>
          rw [List.getElem?_cons_succ]
          cases acc <;> simp [ih]
    unfold stored
    rw [List.map_nil, List.nil_append, key]
    simp
  | cons h hs ih =>
    intro pad a i
    have e : stored (h :: hs) pad = some h :: stored hs pad := rfl
    rw [e]
    unfold cumsumFrom
    cases i with
    | zero => simp [top]
    | succ i =>
      rw [List.getElem?_cons_succ, ih]
      simp only [List.length_cons, Nat.add_lt_add_iff_right]
      have e2 : a + h + top hs (i + 1) = a + top (h :: hs) (i + 1 + 1) := by
        unfold top
        rw [List.take_succ_cons, List.sum_cons]
        ring
      have e3 : (i + 1 < hs.length + 1 + pad) ↔ i < hs.length + pad := by omega
      simp only [e2, e3]

theorem top_lt {hs : List K} (hp : ∀ h ∈ hs, 0 < h) {i j : Nat} (hij : i < j) (hj : j ≤ hs.length) :
    top hs i < top hs j := by
  have step : ∀ i, i < hs.length → top hs i < top hs (i + 1) := by
    intro i hi
    unfold top
    rw [List.take_add_one, List.sum_append, List.getElem?_eq_getElem hi]
    simp only [Option.toList_some, List.sum_cons, List.sum_nil, add_zero]
    linarith [hp _ (List.getElem_mem hi)]
  obtain ⟨m, rfl⟩ := Nat.exists_eq_add_of_lt hij
  induction m with
  | zero => exact step i (by omega)
  | succ m ih => exact (ih (by omega) (by omega)).trans (step _ (by omega))

theorem top_step {hs : List K} {k : Nat} {h : K} (hk : hs[k]? = some h) : top hs (k + 1) = top hs k + h := by
  unfold top
  rw [List.take_add_one, List.sum_append, hk]
  simp

theorem stored_get {vs : List K} {pad k : Nat} {v : K} (h : vs[k]? = some v) :
    pyGet (stored vs pad) (k : Int) = .ok (some v) := by
  refine pyGet_nat ?_
  unfold stored
  have := (List.getElem?_eq_some_iff.1 h).1
  rw [List.getElem?_append_left (by rw [List.length_map]; exact this), List.getElem?_map, h]
  rfl

theorem head_get {vs : List K} {pad k : Nat} {v w : K} (h0 : vs[0]? = some w)
    (h : k = 0 ∧ v = w ∨ ∃ j, k = j + 1 ∧ vs[j]? = some v) :
    pyGet (some w :: stored vs pad) (k : Int) = .ok (some v) := by
  rcases h with ⟨rfl, rfl⟩ | ⟨j, rfl, hj⟩
  · exact pyGet_nat rfl
  · refine pyGet_nat ?_
    rw [List.getElem?_cons_succ]
    have := stored_get (pad := pad) hj
    rw [pyGet_eq_ok] at this
    obtain ⟨i, hi, he⟩ := this
    have hn : normIdx (stored vs pad).length ((j : Nat) : Int) = some j := normIdx_of_nat (by
      have := (List.getElem?_eq_some_iff.1 hj).1
      unfold stored
      rw [List.length_append, List.length_map]
      omega)
    rw [hn] at hi
    cases hi
    exact he

/-- The distances `plot_profile_1D` compares. -/
theorem depth_get (hs : List K) (pad : Nat) (d : K) (i : Nat) :
    ((some 0 :: cumsumFrom (some 0) (stored hs pad)).map fun a => absOpt (subOpt a d))[i]? =
      if i ≤ hs.length then some (some |top hs i - d|) else if i ≤ hs.length + pad then some none else none := by
  rw [List.getElem?_map]
  cases i with
  | zero =>
    simp only [List.getElem?_cons_zero, Option.map_some, Nat.zero_le, if_true]
    unfold subOpt
    rw [Option.map_some, abs_eq]
    simp [top]
  | succ i =>
    rw [List.getElem?_cons_succ, cumsum_get]
    by_cases h1 : i < hs.length
    · rw [if_pos h1, if_pos (by omega)]
      unfold subOpt
      rw [Option.map_some, Option.map_some, abs_eq, zero_add]
    · have h1' : ¬ i + 1 ≤ hs.length := by omega
      rw [if_neg h1, if_neg h1']
      by_cases h2 : i < hs.length + pad
      · have h2' : i + 1 ≤ hs.length + pad := by omega
        rw [if_pos h2, if_pos h2']; rfl
      · have h2' : ¬ i + 1 ≤ hs.length + pad := by omega
        rw [if_neg h2, if_neg h2']; rfl

theorem depth_at (hs : List K) (pad : Nat) {i : Nat} (hi : i ≤ hs.length) :
    pyGet (some 0 :: cumsumFrom (some 0) (stored hs pad)) (i : Int) = .ok (some (top hs i)) := by
  refine pyGet_nat ?_
  cases i with
  | zero => simp [top]
  | succ i => rw [List.getElem?_cons_succ, cumsum_get, if_pos (by omega), zero_add]

/-- The interface `c` is found: what is printed is its depth and the value of the layer above it (of the first layer for
the surface). -/
theorem printed_of {hs vs : List K} {pad : Nat} {d : K} {c : Nat} {v w : K} (hc : c ≤ hs.length)
    (hidx : nanargmin ((some 0 :: cumsumFrom (some 0) (stored hs pad)).map fun a => absOpt (subOpt a d)) = .ok c)
    (h0 : vs[0]? = some w) (h : c = 0 ∧ v = w ∨ ∃ j, c = j + 1 ∧ vs[j]? = some v) :
    printedAt (stored hs pad) (stored vs pad) d = .ok (some (top hs c), some v) := by
  have hf : pyGet (stored vs pad) 0 = .ok (some w) := stored_get (k := 0) h0
  unfold printedAt findNearest
  rw [hf, ok_bind]
  dsimp only
  rw [hidx, ok_bind, depth_at hs pad hc, ok_bind, pure_bind]
  dsimp only
  rw [head_get h0 h]
  rfl

/-- **C88, printed values.** For every profile of positive layer heights, every depth `d` inside layer `k` and every
padding: below the middle of the layer, its bottom and its own value are printed. -/
theorem C88_printed_partial {hs vs : List K} (hp : ∀ h ∈ hs, 0 < h) (hl : vs.length = hs.length) (pad : Nat) {k : Nat}
    {h v d : K} (hk : hs[k]? = some h) (hv : vs[k]? = some v) (h1 : top hs k ≤ d) (h2 : d ≤ top hs k + h)
    (hhalf : h < 2 * (d - top hs k)) :
    printedAt (stored hs pad) (stored vs pad) d = .ok (some (top hs k + h), some v) := by
  have hkl := (List.getElem?_eq_some_iff.1 hk).1
  have ht := top_step hk
  have := nearest_between (f := top hs) (n := hs.length + 1) (d := d)
    (xs := (some 0 :: cumsumFrom (some 0) (stored hs pad)).map fun a => absOpt (subOpt a d))
    (fun i hi => by rw [depth_get, if_pos (by omega)])
    (fun i b hi hc => by rw [depth_get, if_neg (by omega)] at hc; split_ifs at hc; cases hc)
    (fun i j hij hj => top_lt hp hij (by omega)) (k := k) (by omega) h1 (by rw [ht]; exact h2)
  rw [if_neg (by rw [ht]; intro hc; linarith)] at this
  obtain ⟨w, hw⟩ : ∃ w, vs[0]? = some w := ⟨vs[0], List.getElem?_eq_getElem (by omega)⟩
  rw [← ht]
  exact printed_of (by omega) this hw (Or.inr ⟨k, rfl, hv⟩)

/-- In its upper half, the top of the layer is printed with the value of the layer **above** it (of the layer itself only
if it is the first). -/
theorem C88_printed_upper {hs vs : List K} (hp : ∀ h ∈ hs, 0 < h) (hl : vs.length = hs.length) (pad : Nat) {k : Nat}
    {h v d : K} (hk : hs[k]? = some h) (hv : vs[k - 1]? = some v) (h1 : top hs k ≤ d) (h2 : d ≤ top hs k + h)
    (hhalf : 2 * (d - top hs k) ≤ h) :
    printedAt (stored hs pad) (stored vs pad) d = .ok (some (top hs k), some v) := by
  have hkl := (List.getElem?_eq_some_iff.1 hk).1
  have ht := top_step hk
  have := nearest_between (f := top hs) (n := hs.length + 1) (d := d)
    (xs := (some 0 :: cumsumFrom (some 0) (stored hs pad)).map fun a => absOpt (subOpt a d))
    (fun i hi => by rw [depth_get, if_pos (by omega)])
    (fun i b hi hc => by rw [depth_get, if_neg (by omega)] at hc; split_ifs at hc; cases hc)
    (fun i j hij hj => top_lt hp hij (by omega)) (k := k) (by omega) h1 (by rw [ht]; exact h2)
  rw [if_pos (by rw [ht]; linarith)] at this
  obtain ⟨w, hw⟩ : ∃ w, vs[0]? = some w := ⟨vs[0], List.getElem?_eq_getElem (by omega)⟩
  refine printed_of (by omega) this hw ?_
  cases k with
  | zero =>
    rw [hw] at hv
    exact Or.inl ⟨rfl, (Option.some.inj hv).symm⟩
  | succ j => exact Or.inr ⟨j, rfl, hv⟩

/-- Below the column the lowest layer is printed, above the surface the first. -/
theorem C88_printed_outside {hs vs : List K} (hp : ∀ h ∈ hs, 0 < h) (hl : vs.length = hs.length) (pad : Nat) {v w d : K}
    (hw : vs.head? = some w) (hv : vs.getLast? = some v) :
    (d ≤ 0 → printedAt (stored hs pad) (stored vs pad) d = .ok (some 0, some w)) ∧
    (hs.sum ≤ d → printedAt (stored hs pad) (stored vs pad) d = .ok (some hs.sum, some v)) := by
  have h0 : vs[0]? = some w := by rw [← List.head?_eq_getElem?]; exact hw
  have hlen : 0 < vs.length := (List.getElem?_eq_some_iff.1 h0).1
  have hf : ∀ i, i < hs.length + 1 →
      ((some 0 :: cumsumFrom (some 0) (stored hs pad)).map fun a => absOpt (subOpt a d))[i]? =
        some (some |top hs i - d|) := fun i hi => by rw [depth_get, if_pos (by omega)]
  have hg : ∀ i b, hs.length + 1 ≤ i →
      ((some 0 :: cumsumFrom (some 0) (stored hs pad)).map fun a => absOpt (subOpt a d))[i]? ≠ some (some b) :=
    fun i b hi hc => by rw [depth_get, if_neg (by omega)] at hc; split_ifs at hc; cases hc
  have hm : ∀ i j, i < j → j < hs.length + 1 → top hs i < top hs j := fun i j hij hj => top_lt hp hij (by omega)
  constructor
  · intro hd
    have := nearest_first hf hg hm (by omega) (by unfold top; simpa using hd)
    have := printed_of (pad := pad) (by omega) this h0 (Or.inl ⟨rfl, rfl⟩)
    simpa [top] using this
  · intro hd
    have ht : top hs hs.length = hs.sum := by unfold top; rw [List.take_length]
    have := nearest_last hf hg hm rfl (by rw [ht]; exact hd)
    have := printed_of (pad := pad) (le_refl _) this h0 (Or.inr ⟨hs.length - 1, by omega, by
      rw [List.getLast?_eq_getElem?, hl] at hv
      exact hv⟩)
    rwa [ht] at this

/-- **C88, drawn values.** `y` is a height above the bottom of the snow, `snow - y` the depth, inside layer `k`: in the
first layer, and below the middle of the others, the layer's value is drawn. -/
theorem C88_drawn_partial {hs vs : List K} (hp : ∀ h ∈ hs, 0 < h) (pad : Nat) {k : Nat} {h v snow y : K}
    (hk : hs[k]? = some h) (hv : vs[k]? = some v) (h1 : top hs k < snow - y) (h2 : snow - y ≤ top hs k + h)
    (hhalf : k = 0 ∨ h < 2 * (snow - y - top hs k)) :
    drawnAt (stored hs pad) (stored vs pad) snow y = .ok (some v) ∧ y < snow := by
  have hkl := (List.getElem?_eq_some_iff.1 hk).1
  have ht := top_step hk
  have h0 : 0 ≤ top hs k := by
    unfold top
    exact List.sum_nonneg fun x hx => (hp x (List.mem_of_mem_take hx)).le
  have hy : y < snow := by linarith
  refine ⟨?_, hy⟩
  have hget : ∀ i, (((cumsumFrom (some 0) (stored hs pad)).map fun c => (subOpt c snow).map fun x => -x).map
      fun a => absOpt (subOpt a y))[i]? = if i < hs.length then some (some |top hs (i + 1) - (snow - y)|)
        else if i < hs.length + pad then some none else none := by
    intro i
    rw [List.getElem?_map, List.getElem?_map, cumsum_get]
    split_ifs
    · unfold subOpt
      rw [Option.map_some, Option.map_some, Option.map_some, Option.map_some, Option.map_some, abs_eq]
      congr 2
      rw [abs_sub_comm]
      congr 1
      ring
    · rfl
    · rfl
  have hf : ∀ i, i < hs.length → (((cumsumFrom (some 0) (stored hs pad)).map fun c => (subOpt c snow).map
      fun x => -x).map fun a => absOpt (subOpt a y))[i]? = some (some |top hs (i + 1) - (snow - y)|) :=
    fun i hi => by rw [hget, if_pos hi]
  have hg : ∀ i b, hs.length ≤ i → (((cumsumFrom (some 0) (stored hs pad)).map fun c => (subOpt c snow).map
      fun x => -x).map fun a => absOpt (subOpt a y))[i]? ≠ some (some b) :=
    fun i b hi hc => by rw [hget, if_neg (by omega)] at hc; split_ifs at hc; cases hc
  have hm : ∀ i j, i < j → j < hs.length → top hs (i + 1) < top hs (j + 1) :=
    fun i j hij hj => top_lt hp (by omega) (by omega)
  have hidx : nanargmin (((cumsumFrom (some 0) (stored hs pad)).map fun c => (subOpt c snow).map fun x => -x).map
      fun a => absOpt (subOpt a y)) = .ok k := by
    cases k with
    | zero => exact nearest_first (f := fun i => top hs (i + 1)) hf hg hm hkl (by rw [ht]; exact h2)
    | succ j =>
      have := nearest_between (f := fun i => top hs (i + 1)) hf hg hm (k := j) hkl h1.le (by rw [ht]; exact h2)
      rw [if_neg] at this
      · exact this
      · rw [ht]
        rcases hhalf with hc | hc
        · omega
        · intro hd; linarith
  unfold drawnAt
  rw [if_pos hy]
  dsimp only
  rw [hidx, ok_bind, stored_get hv]

/-- Nothing is drawn at and above the surface. -/
theorem C88_drawn_above (heights values : List (Option K)) {snow y : K} (h : snow ≤ y) :
    drawnAt heights values snow y = .ok none := by
  unfold drawnAt
  rw [if_neg (not_lt.2 h)]

/-- **C88, grid point.** The point of the search has the smallest squared difference of coordinates (in degrees) of all
grid points. -/
theorem C88_cell {nx : Nat} (hnx : 0 < nx) {lat lon : List K} {lat0 lon0 : K} {y x : Nat}
    (h : nearestCell nx lat lon lat0 lon0 = .ok (y, x)) : x < nx ∧ ∃ a b : K, lat[y * nx + x]? = some a ∧
      lon[y * nx + x]? = some b ∧ ∀ (i : Nat) (a' b' : K), lat[i]? = some a' → lon[i]? = some b' →
        (a - lat0) ^ 2 + (b - lon0) ^ 2 ≤ (a' - lat0) ^ 2 + (b' - lon0) ^ 2 := by
  unfold nearestCell at h
  simp only [bind_eq_ok, pure_eq_ok] at h
  obtain ⟨idx, hi, he⟩ := h
  cases he
  refine ⟨Nat.mod_lt _ hnx, ?_⟩
  have hxy : idx / nx * nx + idx % nx = idx := by rw [Nat.mul_comm]; exact Nat.div_add_mod idx nx
  rw [hxy]
  unfold nanargmin at hi
  cases ha : argmin ((lat.zip lon).map fun p =>
    some ((p.1 - lat0) * (p.1 - lat0) + (p.2 - lon0) * (p.2 - lon0))) with
  | none => rw [ha] at hi; cases hi
  | some p =>
    obtain ⟨i, m⟩ := p
    rw [ha, ok_inj] at hi
    obtain rfl : i = idx := hi
    obtain ⟨e1, e2⟩ := argmin_spec ha
    rw [List.getElem?_map] at e1
    cases hz : (lat.zip lon)[i]? with
    | none => rw [hz] at e1; cases e1
    | some q =>
      obtain ⟨a, b⟩ := q
      rw [hz] at e1
      obtain ⟨h1, h2⟩ := List.getElem?_zip_eq_some.1 hz
      refine ⟨a, b, h1, h2, fun j a' b' hj1 hj2 => ?_⟩
      have hz' : (lat.zip lon)[j]? = some (a', b') := List.getElem?_zip_eq_some.2 ⟨hj1, hj2⟩
      have := (e2 j _ (by rw [List.getElem?_map, hz']; rfl)).1
      have hm : (a - lat0) * (a - lat0) + (b - lon0) * (b - lon0) = m := by
        have := Option.some.inj e1
        exact Option.some.inj this
      rw [← hm] at this
      rw [pow_two, pow_two, pow_two, pow_two]
      exact this

end

/-- **C88 is refuted.** Snow of 0.1 m and 200 kg/m³ above ice of 1 m and 900 kg/m³: at the depth 0.5 m, in the ice, the
density of snow is printed (with the depth 0.1 m); likewise drawn. -/
theorem C88_refuted : (printedAt (α := ℚ) [some 0.1, some 1, none] [some 200, some 900, none] 0.5).toOption =
      some (some 0.1, some 200) ∧
    (drawnAt (α := ℚ) [some 0.1, some 1, none] [some 200, some 900, none] 1.1 0.6).toOption = some (some 200) := by
  decide +kernel

/-- The hypotheses of the theorems are met: the same column at 0.7 m. -/
example : (printedAt (α := ℚ) [some 0.1, some 1, none] [some 200, some 900, none] 0.7).toOption =
      some (some 1.1, some 900) ∧
    (printedAt (α := ℚ) [some 0.1, some 1, none] [some 200, some 900, none] 7).toOption = some (some 1.1, some 900) ∧
    (drawnAt (α := ℚ) [some 0.1, some 1, none] [some 200, some 900, none] 1.1 0.4).toOption = some (some 900) ∧
    (nearestCell (α := ℚ) 2 [30, 30, 31, 31] [90, 91, 90, 91] 30.7 90.1).toOption = some (1, 0) := by
  decide +kernel

example : printedAt (stored [(0.1 : ℚ), 1] 1) (stored [200, 900] 1) 0.7 = .ok (some (top [0.1, 1] 1 + 1), some 900) := by
  refine C88_printed_partial (hs := [0.1, 1]) (vs := [200, 900]) (k := 1) (h := 1) (v := 900) ?_ rfl 1 rfl rfl ?_ ?_ ?_
  · intro h hh
    simp only [List.mem_cons, List.not_mem_nil, or_false] at hh
    rcases hh with rfl | rfl <;> norm_num
  all_goals (simp [top]; norm_num)

end Cosipy.Profile
