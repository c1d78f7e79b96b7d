import Verif.Model.Input
import Mathlib.Algebra.Order.Field.Basic
import Mathlib.Algebra.Field.Rat
import Mathlib.Algebra.Order.Ring.Unbundled.Rat
import Mathlib.Tactic.NormNum
import Mathlib.Tactic.NormNum.OfScientific
import Mathlib.Tactic.Linarith
import Verif.Lemmas.IO

/-!
# C50 Input range checks

`C50_routine`: the routine flags exactly the fields with a value outside the given bounds. `C50_others_partial`: hence
right for every field but SLOPE. `C50_slope`: every SLOPE field with at least one value is flagged. `C50_always_true`: the
overall check never fails for values out of range. `C50_empty`: it raises for an empty field.
-/

set_option autoImplicit false
set_option linter.unusedSectionVars false

namespace Cosipy

section
variable {K : Type} [LinearOrder K]

theorem optGt_fold (mx : K) : ∀ (l : List (Option K)) (a : Option K),
    optGt (l.foldl fmaxOpt a) mx = true ↔ ∃ v, some v ∈ a :: l ∧ mx < v
  | [], a => by
    cases a with
    | none => simp [optGt]
    | some a => simp [optGt]
  | b :: l, a => by
    rw [List.foldl_cons, optGt_fold mx l]
    have key : (∃ v, some v = fmaxOpt a b ∧ mx < v) ↔ (∃ v, some v = a ∧ mx < v) ∨ ∃ v, some v = b ∧ mx < v := by
      cases a with
      | none => simp [fmaxOpt]
      | some a =>
        cases b with
        | none => simp [fmaxOpt]
        | some b =>
          unfold fmaxOpt
          simp only [Option.some.injEq, exists_eq_left]
          split_ifs with h
          · simp only [Option.some.injEq, exists_eq_left]
            exact ⟨Or.inr, fun e => e.elim (fun e => e.trans h) id⟩
          · simp only [Option.some.injEq, exists_eq_left]
            exact ⟨Or.inl, fun e => e.elim id (fun e => lt_of_lt_of_le e (not_lt.1 h))⟩
    simp only [List.mem_cons, or_and_right, exists_or] at key ⊢
    rw [key, or_assoc]

theorem optLt_fold (mn : K) : ∀ (l : List (Option K)) (a : Option K),
    optLt (l.foldl fminOpt a) mn = true ↔ ∃ v, some v ∈ a :: l ∧ v < mn
  | [], a => by
    cases a with
    | none => simp [optLt]
    | some a => simp [optLt]
  | b :: l, a => by
    rw [List.foldl_cons, optLt_fold mn l]
    have key : (∃ v, some v = fminOpt a b ∧ v < mn) ↔ (∃ v, some v = a ∧ v < mn) ∨ ∃ v, some v = b ∧ v < mn := by
      cases a with
      | none => simp [fminOpt]
      | some a =>
        cases b with
        | none => simp [fminOpt]
        | some b =>
          unfold fminOpt
          simp only [Option.some.injEq, exists_eq_left]
          split_ifs with h
          · simp only [Option.some.injEq, exists_eq_left]
            exact ⟨Or.inr, fun e => e.elim (fun e => h.trans e) id⟩
          · simp only [Option.some.injEq, exists_eq_left]
            exact ⟨Or.inl, fun e => e.elim id (fun e => lt_of_le_of_lt (not_lt.1 h) e)⟩
    simp only [List.mem_cons, or_and_right, exists_or] at key ⊢
    rw [key, or_assoc]

/-- All values that are not NaN lie between the bounds. -/
def InRange (field : List (Option K)) (mn mx : K) : Prop := ∀ v, some v ∈ field → mn ≤ v ∧ v ≤ mx

/-- **C50, the routine.** For every non-empty field and all bounds the check returns, and says ok iff no value is outside
the bounds; NaNs are ignored. -/
theorem C50_routine {field : List (Option K)} (hne : field ≠ []) (mx mn : K) :
    ∃ b, checkField field mx mn = .ok b ∧ (b = true ↔ InRange field mn mx) := by
  obtain ⟨a, l, rfl⟩ := List.exists_cons_of_ne_nil hne
  have h1 := optGt_fold mx l a
  have h2 := optLt_fold mn l a
  unfold checkField nanMax nanMin
  simp only [ok_bind]
  cases hg : optGt (l.foldl fmaxOpt a) mx
  · cases hl : optLt (l.foldl fminOpt a) mn
    · refine ⟨true, rfl, iff_of_true rfl fun v hv => ⟨?_, ?_⟩⟩
      · by_contra hc
        have := h2.2 ⟨v, hv, not_le.1 hc⟩
        rw [hl] at this; cases this
      · by_contra hc
        have := h1.2 ⟨v, hv, not_le.1 hc⟩
        rw [hg] at this; cases this
    · refine ⟨false, rfl, iff_of_false (by simp) fun h => ?_⟩
      obtain ⟨v, hv, hlt⟩ := h2.1 hl
      exact absurd (h v hv).1 (not_le.2 hlt)
  · refine ⟨false, rfl, iff_of_false (by simp) fun h => ?_⟩
    obtain ⟨v, hv, hlt⟩ := h1.1 hg
    exact absurd (h v hv).2 (not_le.2 hlt)

/-- An empty field raises ValueError. -/
theorem C50_empty (mx mn : K) : checkField ([] : List (Option K)) mx mn = .error .value := rfl

end

section
variable {K : Type} [Field K] [LinearOrder K] [IsStrictOrderedRing K]

theorem checkFields_mem {data : Store (List (Option K))} : ∀ {es : List (String × K × K)} {flags},
    checkFields data es = .ok flags → ∀ {name b}, (name, b) ∈ flags →
    ∃ mx mn field, (name, mx, mn) ∈ es ∧ data name = some field ∧ checkField field mx mn = .ok b
  | [], flags, h, name, b, hm => by cases h; cases hm
  | e :: es, flags, h, name, b, hm => by
    unfold checkFields at h
    cases hd : data e.1 with
    | none =>
      rw [hd] at h
      obtain ⟨mx, mn, f, h1, h2⟩ := checkFields_mem h hm
      exact ⟨mx, mn, f, List.mem_cons_of_mem _ h1, h2⟩
    | some field =>
      rw [hd] at h
      simp only [bind_eq_ok] at h
      obtain ⟨b', h1, bs, h2, h3⟩ := h
      rw [pure_eq_ok] at h3
      subst h3
      rcases List.mem_cons.1 hm with e' | hm
      · cases e'
        exact ⟨_, _, field, List.mem_cons_self .., hd, h1⟩
      · obtain ⟨mx, mn, f, h1, h2⟩ := checkFields_mem h2 hm
        exact ⟨mx, mn, f, List.mem_cons_of_mem _ h1, h2⟩

/-- The ranges as a user reads them: minimum and maximum of each variable. -/
def documentedRange : List (String × K × K) :=
  [("T2", 243.16, 313.16), ("RH2", 0, 100), ("G", 0, 1600), ("U2", 0, 50), ("RRR", 0, 20), ("N", 0, 1),
   ("PRES", 400, 1080), ("LWin", 200, 400), ("SNOWFALL", 0, 0.1), ("SLOPE", 0, 90)]

/-- **C50, what holds.** For every dataset on which the check returns and every variable other than SLOPE, "ok" is printed
iff all its values lie in the range. Missing: SLOPE, for which it is false (`C50_slope`). -/
theorem C50_others_partial {data : Store (List (Option K))} {r : Bool} {flags : List (String × Bool)}
    (h : checkInputData data = .ok (r, flags)) {name : String} {b : Bool} (hm : (name, b) ∈ flags)
    (hs : name ≠ "SLOPE") : ∃ field mn mx, data name = some field ∧ (name, mn, mx) ∈ documentedRange (K := K) ∧
      (b = true ↔ InRange field mn mx) := by
  unfold checkInputData at h
  rw [bind_eq_ok] at h
  obtain ⟨fl, h1, h2⟩ := h
  rw [pure_eq_ok] at h2
  cases h2
  obtain ⟨mx, mn, field, k1, k2, k3⟩ := checkFields_mem h1 hm
  have hne : field ≠ [] := by
    rintro rfl
    cases k3
  obtain ⟨b', k4, k5⟩ := C50_routine hne mx mn
  rw [k3] at k4
  cases k4
  refine ⟨field, mn, mx, k2, ?_, k5⟩
  simp only [dataBounds, documentedRange, List.mem_cons, Prod.mk.injEq, List.not_mem_nil, or_false] at k1 ⊢
  have e0 : (0.0 : K) = 0 := by norm_num
  have e1 : (100.0 : K) = 100 := by norm_num
  have e2 : (1600.0 : K) = 1600 := by norm_num
  have e3 : (50.0 : K) = 50 := by norm_num
  have e4 : (20.0 : K) = 20 := by norm_num
  have e5 : (1.0 : K) = 1 := by norm_num
  have e6 : (400.0 : K) = 400 := by norm_num
  have e7 : (1080.0 : K) = 1080 := by norm_num
  have e8 : (200.0 : K) = 200 := by norm_num
  simp only [e0, e1, e2, e3, e4, e5, e6, e7, e8] at k1
  rcases k1 with k | k | k | k | k | k | k | k | k | k
  all_goals first
    | exact absurd k.1 hs
    | (obtain ⟨rfl, rfl, rfl⟩ := k; simp)

/-- **C50 is false for SLOPE**: every slope field with at least one value is flagged, whatever the values. -/
theorem C50_slope {data : Store (List (Option K))} {r : Bool} {flags : List (String × Bool)}
    (h : checkInputData data = .ok (r, flags)) {field : List (Option K)} (hd : data "SLOPE" = some field) {v : K}
    (hv : some v ∈ field) {b : Bool} (hm : ("SLOPE", b) ∈ flags) : b = false := by
  unfold checkInputData at h
  rw [bind_eq_ok] at h
  obtain ⟨fl, h1, h2⟩ := h
  rw [pure_eq_ok] at h2
  cases h2
  obtain ⟨mx, mn, field', k1, k2, k3⟩ := checkFields_mem h1 hm
  rw [hd] at k2
  cases k2
  obtain ⟨b', k4, k5⟩ := C50_routine (List.ne_nil_of_mem hv) mx mn
  rw [k3] at k4
  cases k4
  have hb : mx = 0 ∧ mn = 90 := by
    simp [dataBounds] at k1
    exact ⟨k1.1.trans (by norm_num), k1.2.trans (by norm_num)⟩
  rw [Bool.eq_false_iff]
  intro ht
  have := k5.1 ht v hv
  rw [hb.1, hb.2] at this
  linarith [this.1, this.2]

/-- **C50, overall.** Whenever it returns, the check returns True: values out of range never stop the program. -/
theorem C50_always_true {data : Store (List (Option K))} {r : Bool} {flags : List (String × Bool)}
    (h : checkInputData data = .ok (r, flags)) : r = true := by
  unfold checkInputData at h
  rw [bind_eq_ok] at h
  obtain ⟨fl, _, h2⟩ := h
  rw [pure_eq_ok] at h2
  cases h2
  rfl

/-- The check returns on every dataset without empty fields, and covers every listed variable that is present. -/
theorem C50_returns {data : Store (List (Option K))} (hne : ∀ n field, data n = some field → field ≠ []) :
    ∃ flags, checkInputData data = .ok (true, flags) ∧
      flags.map Prod.fst = (["T2", "RH2", "G", "U2", "RRR", "N", "PRES", "LWin", "SNOWFALL", "SLOPE"].filter
        fun n => (data n).isSome) := by
  have key : ∀ es : List (String × K × K), ∃ flags, checkFields data es = .ok flags ∧
      flags.map Prod.fst = (es.map Prod.fst).filter fun n => (data n).isSome := by
    intro es
    induction es with
    | nil => exact ⟨[], rfl, rfl⟩
    | cons e es ih =>
      obtain ⟨fl, h1, h2⟩ := ih
      unfold checkFields
      cases hd : data e.1 with
      | none => exact ⟨fl, h1, by simp [hd, h2]⟩
      | some field =>
        obtain ⟨b, hb, _⟩ := C50_routine (hne _ _ hd) e.2.1 e.2.2
        refine ⟨(e.1, b) :: fl, ?_, by simp [hd, h2]⟩
        simp only [hb, h1, ok_bind]
        rfl
  obtain ⟨flags, h1, h2⟩ := key dataBounds
  refine ⟨flags, ?_, h2⟩
  unfold checkInputData
  rw [h1]
  rfl

end

/-- Non-vacuity: a field with a NaN and a value out of range, and a valid slope that is flagged. -/
example : checkInputData (α := ℚ) (fun n => if n = "T2" then some [some 270, none, some 320] else
      if n = "N" then some [some 1, none] else if n = "SLOPE" then some [some 10] else none) =
    .ok (true, [("T2", false), ("N", true), ("SLOPE", false)]) := by decide +kernel

end Cosipy
