import Verif.Spec.Numbers
import Verif.Spec.Phys
import Verif.Lemmas.NanAttr
import Verif.Lemmas.Erase
import Mathlib.Tactic.NormNum

/-! Layer and column operations commute with `toNan`: on numbers the arithmetic with NaN computes the same as the one
without, wherever nothing is divided by zero. -/

set_option autoImplicit false
set_option linter.unusedSectionVars false

namespace Cosipy

/-! ## Exceptions, loops and lists -/

section
variable {β γ δ : Type}

@[nanpush] theorem map_ok_eq (f : β → γ) (x : β) : Except.map f (.ok x : M β) = .ok (f x) := rfl
@[nanpush] theorem map_error_eq (f : β → γ) (e : Err) : Except.map f (.error e : M β) = .error e := rfl
@[nanpush] theorem pure_is_ok (x : β) : (pure x : M β) = .ok x := rfl
@[nanpush] theorem map_of_bind (f : γ → δ) (x : M β) (k : β → M γ) :
    Except.map f (x >>= k) = x >>= fun a => Except.map f (k a) := by cases x <;> rfl
@[nanpush] theorem bind_of_map (f : β → γ) (x : M β) (k : γ → M δ) : (Except.map f x >>= k) = x >>= fun a => k (f a) := by
  cases x <;> rfl
@[nanpush] theorem ok_bind_eq (x : β) (k : β → M γ) : ((.ok x : M β) >>= k) = k x := rfl
@[nanpush] theorem error_bind_eq (e : Err) (k : β → M γ) : ((.error e : M β) >>= k) = .error e := rfl
@[nanpush] theorem map_of_ite (f : β → γ) (p : Prop) [Decidable p] (a b : M β) :
    Except.map f (if p then a else b) = if p then Except.map f a else Except.map f b := by split <;> rfl

theorem whileM_hom {σ τ : Type} {φ : σ → τ} {body : σ → M (Option σ)} {body' : τ → M (Option τ)} {P : σ → Prop}
    (hP : ∀ s s', P s → body s = .ok (some s') → P s')
    (h : ∀ s, P s → body' (φ s) = (body s).map (Option.map φ)) :
    ∀ fuel s, P s → whileM body' fuel (φ s) = (whileM body fuel s).map φ := by
  intro fuel
  induction fuel with
  | zero => intro s _; rfl
  | succ n ih =>
    intro s hs
    unfold whileM
    rw [h s hs]
    rcases hb : body s with err | (_ | s')
    · rfl
    · rfl
    · exact ih s' (hP s s' hs hb)

theorem whileM_hom' {σ τ : Type} {φ : σ → τ} {body : σ → M (Option σ)} {body' : τ → M (Option τ)}
    (h : ∀ s, body' (φ s) = (body s).map (Option.map φ)) (fuel : Nat) (s : σ) :
    whileM body' fuel (φ s) = (whileM body fuel s).map φ :=
  whileM_hom (P := fun _ => True) (fun _ _ _ _ => trivial) (fun s _ => h s) fuel s trivial

theorem foldlM_hom {σ τ ι : Type} {φ : σ → τ} {f : σ → ι → M σ} {f' : τ → ι → M τ}
    (h : ∀ s i, f' (φ s) i = (f s i).map φ) :
    ∀ (is : List ι) (s : σ), is.foldlM f' (φ s) = (is.foldlM f s).map φ := by
  intro is
  induction is with
  | nil => intro s; rfl
  | cons i is ih =>
    intro s
    rw [List.foldlM_cons, List.foldlM_cons, h]
    cases f s i with
    | error _ => rfl
    | ok a => exact ih a

theorem mapM_hom {ι : Type} {φ : β → γ} {f : ι → M β} : ∀ (is : List ι),
    (is.mapM fun i => (f i).map φ) = (is.mapM f).map (List.map φ) := by
  intro is
  induction is with
  | nil => rfl
  | cons i is ih =>
    rw [List.mapM_cons, List.mapM_cons, ih]
    cases f i with
    | error _ => rfl
    | ok a => cases is.mapM f <;> rfl

theorem pyModify_hom {e : β → γ} {f : β → β} {f' : γ → γ} (h : ∀ n, f' (e n) = e (f n)) (xs : List β) (i : Int) :
    pyModify (xs.map e) i f' = (pyModify xs i f).map (List.map e) := by
  unfold pyModify
  rw [List.length_map]
  cases normIdx xs.length i with
  | none => rfl
  | some k =>
    show Except.ok _ = Except.ok _
    congr 1
    apply List.ext_getElem?
    intro j
    simp only [List.getElem?_modify, List.getElem?_map]
    cases xs[j]? with
    | none => simp
    | some x => by_cases hj : k = j <;> simp [hj, h]

end

attribute [nanpush] ne_eq not_false_eq_true

/-! ## Numbers -/

namespace Nan
section
variable {K : Type} [Field K] [LinearOrder K] [IsStrictOrderedRing K]

@[nanpush] theorem num_inj' (a b : K) : (num a = num b) = (a = b) := by simp
@[nanpush] theorem zero_num : (0 : Nan K) = num 0 := rfl
@[nanpush] theorem one_num : (1 : Nan K) = num 1 := rfl
@[nanpush] theorem ofNat_num (n : Nat) [n.AtLeastTwo] : (OfNat.ofNat n : Nan K) = num (OfNat.ofNat n) := rfl
@[nanpush] theorem sci_num (m : Nat) (s : Bool) (e : Nat) :
    (OfScientific.ofScientific m s e : Nan K) = num (OfScientific.ofScientific m s e) := rfl
@[nanpush] theorem add_num (a b : K) : num a + num b = num (a + b) := rfl
@[nanpush] theorem sub_num (a b : K) : num a - num b = num (a - b) := rfl
@[nanpush] theorem mul_num (a b : K) : num a * num b = num (a * b) := rfl
@[nanpush] theorem neg_num (a : K) : -num a = num (-a) := rfl
@[nanpush] theorem lt_num (a b : K) : num a < num b ↔ a < b := ⟨fun h => h, fun h => h⟩
@[nanpush] theorem le_num (a b : K) : num a ≤ num b ↔ a ≤ b := ⟨fun h => h, fun h => h⟩
@[nanpush] theorem beq_num (a b : K) : (num a == num b) = (a == b) := rfl
@[nanpush] theorem div_num {a b : K} (hb : b ≠ 0) : num a / num b = num (a / b) := by
  show (if num b = num 0 then nan else lift₂ (· / ·) (num a) (num b)) = _
  rw [if_neg (by simpa using hb)]; rfl
@[nanpush] theorem fdiv_num (a b : K) : fdiv (num a) (num b) = (fdiv a b).map num := by
  unfold fdiv
  show (if (b == 0) = true then _ else _) = _
  by_cases h : b = 0
  · simp [h, Except.map]
  · have : ¬ (b == 0) = true := by simpa using h
    rw [if_neg this, if_neg this, div_num h]; rfl
@[nanpush] theorem ite_num (p : Prop) [Decidable p] (a b : K) : (if p then num a else num b) = num (if p then a else b) := by
  split <;> rfl
@[nanpush] theorem pyMax_num (a b : K) : pyMax (num a) (num b) = num (pyMax a b) := by
  unfold pyMax; simp only [nanpush]
@[nanpush] theorem pyMin_num (a b : K) : pyMin (num a) (num b) = num (pyMin a b) := by
  unfold pyMin; simp only [nanpush]
@[nanpush] theorem pyAbs_num (a : K) : pyAbs (num a) = num (pyAbs a) := by
  unfold pyAbs; simp only [nanpush]
@[nanpush] theorem pySum_num (xs : List K) : pySum (xs.map num) = num (pySum xs) := by
  unfold pySum
  have : ∀ (xs : List K) (s : K), (xs.map num).foldl (· + ·) (num s) = num (xs.foldl (· + ·) s) := by
    intro xs
    induction xs with
    | nil => intro s; rfl
    | cons x xs ih => intro s; simp only [List.map_cons, List.foldl_cons, nanpush, ih]
  exact this xs 0

@[nanpush] theorem ne_2f : (2.0 : K) ≠ 0 := by norm_num
@[nanpush] theorem ne_2 : (2 : K) ≠ 0 := by norm_num
@[nanpush] theorem ne_1000f : (1000.0 : K) ≠ 0 := by norm_num
@[nanpush] theorem ne_1000 : (1000 : K) ≠ 0 := by norm_num
@[nanpush] theorem ne_3600f : (3600.0 : K) ≠ 0 := by norm_num
@[nanpush] theorem ne_100f : (100.0 : K) ≠ 0 := by norm_num
@[nanpush] theorem ne_100 : (100 : K) ≠ 0 := by norm_num
@[nanpush] theorem ne_10 : (10 : K) ≠ 0 := by norm_num
@[nanpush] theorem ne_8 : (8 : K) ≠ 0 := by norm_num
@[nanpush] theorem ne_180 : (180 : K) ≠ 0 := by norm_num
@[nanpush] theorem ne_250 : (250 : K) ≠ 0 := by norm_num
@[nanpush] theorem ne_800000 : (800000 : K) ≠ 0 := by norm_num
@[nanpush] theorem ne_86400f : (86400.0 : K) ≠ 0 := by norm_num

end

section
variable {K : Type} [Field K] [LinearOrder K] [IsStrictOrderedRing K] [Transc K]
@[nanpush] theorem exp_num (a : K) : Transc.exp (num a) = num (Transc.exp a) := rfl
@[nanpush] theorem tanh_num (a : K) : Transc.tanh (num a) = num (Transc.tanh a) := rfl
@[nanpush] theorem cos_num (a : K) : Transc.cos (num a) = num (Transc.cos a) := rfl
@[nanpush] theorem pi_num : (Transc.pi : Nan K) = num Transc.pi := rfl
@[nanpush] theorem log_num {a : K} (h : 0 < a) : Transc.log (num a) = num (Transc.log a) := by
  show (if 0 < num a then lift Transc.log (num a) else nan) = _
  simp only [nanpush]; rw [if_pos h]; rfl
@[nanpush] theorem sqrt_num {a : K} (h : 0 ≤ a) : Transc.sqrt (num a) = num (Transc.sqrt a) := by
  show (if num a < 0 then nan else lift Transc.sqrt (num a)) = _
  simp only [nanpush]; rw [if_neg (not_lt.2 h)]; rfl
@[nanpush] theorem pow_two_num (a : K) : Transc.pow (num a) (num 2) = num (Transc.pow a 2) := by
  show (if num a < 0 ∧ ¬ (num 2 = 2 ∨ num 2 = 3 ∨ num 2 = 4) ∨ num a = num 0 ∧ num 2 < 0 then nan
    else lift₂ Transc.pow (num a) (num 2)) = _
  simp only [nanpush]; rw [if_neg (by simp)]; rfl
@[nanpush] theorem pow_four_num (a : K) : Transc.pow (num a) (num 4) = num (Transc.pow a 4) := by
  show (if num a < 0 ∧ ¬ (num 4 = 2 ∨ num 4 = 3 ∨ num 4 = 4) ∨ num a = num 0 ∧ num 4 < 0 then nan
    else lift₂ Transc.pow (num a) (num 4)) = _
  simp only [nanpush]; rw [if_neg (by simp)]; rfl
theorem pow_num {a b : K} (h : 0 ≤ a) (hb : 0 ≤ b) : Transc.pow (num a) (num b) = num (Transc.pow a b) := by
  show (if num a < 0 ∧ ¬ (num b = 2 ∨ num b = 3 ∨ num b = 4) ∨ num a = num 0 ∧ num b < 0 then nan
    else lift₂ Transc.pow (num a) (num b)) = _
  simp only [nanpush]; rw [if_neg (by simp [not_lt.2 h, not_lt.2 hb])]; rfl
end
end Nan

end Cosipy
