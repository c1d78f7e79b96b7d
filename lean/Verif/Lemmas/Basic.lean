import Verif.Model.Num
import Mathlib.Data.List.Basic
import Mathlib.Data.List.InsertIdx
import Mathlib.Data.List.Induction
import Mathlib.Tactic.Linarith
import Mathlib.Tactic.SplitIfs

/-! Proof machinery: exceptions, loops and index access. No statements about the program live here. -/

set_option linter.unusedSectionVars false
set_option linter.unnecessarySeqFocus false

set_option autoImplicit false

namespace Cosipy

section Except
variable {β γ : Type}

theorem bind_eq_ok {x : M β} {f : β → M γ} {c : γ} :
    (x >>= f) = Except.ok c ↔ ∃ b, x = .ok b ∧ f b = .ok c := by
  cases x with
  | error e => simp [bind, Except.bind]
  | ok b => simp [bind, Except.bind]

theorem pure_eq_ok {a b : β} : (pure a : M β) = Except.ok b ↔ a = b := by
  simp [pure, Except.pure]

theorem ok_bind {b : β} {f : β → M γ} : ((Except.ok b : M β) >>= f) = f b := rfl

theorem error_bind {e : Err} {f : β → M γ} : ((Except.error e : M β) >>= f) = Except.error e := rfl

theorem ok_inj {a b : β} : (Except.ok a : M β) = Except.ok b ↔ a = b := by simp

theorem bind_eq_error {x : M β} {f : β → M γ} {e : Err} :
    (x >>= f) = Except.error e ↔ x = .error e ∨ ∃ b, x = .ok b ∧ f b = .error e := by
  cases x with
  | error e' => simp [bind, Except.bind]
  | ok b => simp [bind, Except.bind]

end Except

section While
variable {σ : Type}

/-- Invariant rule: an invariant of every pass holds at the end, where the body signals the end. -/
theorem whileM_inv {body : σ → M (Option σ)} (P : σ → Prop)
    (hstep : ∀ s s', P s → body s = .ok (some s') → P s') :
    ∀ (fuel : Nat) (s r : σ), P s → whileM body fuel s = .ok r → P r ∧ body r = .ok none := by
  intro fuel
  induction fuel with
  | zero => intro s r _ h; simp [whileM] at h
  | succ n ih =>
    intro s r hs h
    unfold whileM at h
    split at h
    · simp at h
    · next hb => simp at h; subst h; exact ⟨hs, hb⟩
    · next s' hb => exact ih s' r (hstep s s' hs hb) h

/-- The same rule with the run given first. -/
theorem whileM_ind {body : σ → M (Option σ)} {n : Nat} {s r : σ} (h : whileM body n s = .ok r) (P : σ → Prop)
    (h0 : P s) (hstep : ∀ s s', P s → body s = .ok (some s') → P s') : P r ∧ body r = .ok none :=
  whileM_inv P hstep n s r h0 h

/-- Invariant rule for a relation between start and current state. -/
theorem whileM_rel {body : σ → M (Option σ)} (R : σ → σ → Prop) (hrefl : ∀ s, R s s)
    (hstep : ∀ s s' r, body s = .ok (some s') → R s' r → R s r) :
    ∀ (fuel : Nat) (s r : σ), whileM body fuel s = .ok r → R s r := by
  intro fuel
  induction fuel with
  | zero => intro s r h; simp [whileM] at h
  | succ n ih =>
    intro s r h
    unfold whileM at h
    split at h
    · simp at h
    · simp at h; subst h; exact hrefl s
    · next s' hb => exact hstep s s' r hb (ih s' r h)

/-- A result other than fuel exhaustion does not depend on the fuel. -/
theorem whileM_mono {body : σ → M (Option σ)} :
    ∀ (n m : Nat) (s : σ), n ≤ m → whileM body n s ≠ .error .diverge → whileM body m s = whileM body n s := by
  intro n
  induction n with
  | zero => intro m s _ h; simp [whileM] at h
  | succ n ih =>
    intro m s hm h
    obtain ⟨m, rfl⟩ : ∃ k, m = k + 1 := ⟨m - 1, by omega⟩
    unfold whileM at h ⊢
    split
    · rfl
    · rfl
    · next s' hb => rw [hb] at h; exact ih m s' (by omega) h

/-- Termination rule: a natural measure that drops with every pass bounds the number of passes; the body
itself must not run out of fuel. -/
theorem whileM_terminates {body : σ → M (Option σ)} (P : σ → Prop) (μ : σ → Nat)
    (hnd : ∀ s, P s → body s ≠ .error .diverge)
    (hstep : ∀ s s', P s → body s = .ok (some s') → P s' ∧ μ s' < μ s) :
    ∀ (fuel : Nat) (s : σ), P s → μ s < fuel → whileM body fuel s ≠ .error .diverge := by
  intro fuel
  induction fuel with
  | zero => intro s _ h; omega
  | succ n ih =>
    intro s hs h
    unfold whileM
    split
    · next e hb => intro he; simp at he; subst he; exact hnd s hs hb
    · simp
    · next s' hb =>
      obtain ⟨hs', hμ⟩ := hstep s s' hs hb
      exact ih s' hs' (by omega)

/-- A body that never stops exhausts every fuel. -/
theorem whileM_diverges {body : σ → M (Option σ)} (P : σ → Prop)
    (hstep : ∀ s, P s → ∃ s', body s = .ok (some s') ∧ P s') :
    ∀ (fuel : Nat) (s : σ), P s → whileM body fuel s = .error .diverge := by
  intro fuel
  induction fuel with
  | zero => intro s _; rfl
  | succ n ih =>
    intro s hs
    obtain ⟨s', hb, hs'⟩ := hstep s hs
    simp [whileM, hb, ih s' hs']

end While

section Index
variable {β : Type}

theorem normIdx_lt {n : Nat} {i : Int} {k : Nat} (h : normIdx n i = some k) : k < n := by
  unfold normIdx at h
  split_ifs at h <;> simp at h <;> omega

theorem normIdx_nonneg {n : Nat} {i : Int} (h0 : 0 ≤ i) (h : i < n) : normIdx n i = some i.toNat := by
  simp [normIdx, h0, h]

theorem normIdx_of_nat {n k : Nat} (h : k < n) : normIdx n (k : Int) = some k := by
  rw [normIdx_nonneg (by omega) (by omega)]; simp

theorem normIdx_eq_some_nonneg {n : Nat} {i : Int} {k : Nat} (h0 : 0 ≤ i) (h : normIdx n i = some k) :
    (k : Int) = i ∧ k < n := by
  unfold normIdx at h
  split_ifs at h <;> simp at h <;> omega

theorem normIdx_isSome_iff {n : Nat} {i : Int} : (∃ k, normIdx n i = some k) ↔ -(n : Int) ≤ i ∧ i < n := by
  unfold normIdx
  split_ifs <;> simp <;> omega

theorem pyGet_eq_ok {xs : List β} {i : Int} {x : β} :
    pyGet xs i = .ok x ↔ ∃ k, normIdx xs.length i = some k ∧ xs[k]? = some x := by
  unfold pyGet
  split
  · next k hk =>
    split
    · next y hy => simp [hk, hy]
    · next hy => simp [hk, hy]
  · next hk => simp [hk]

theorem pyGet_ok_iff {xs : List β} {i : Int} : (∃ x, pyGet xs i = .ok x) ↔ -(xs.length : Int) ≤ i ∧ i < xs.length := by
  rw [← normIdx_isSome_iff]
  constructor
  · rintro ⟨x, hx⟩
    obtain ⟨k, hk, _⟩ := pyGet_eq_ok.1 hx
    exact ⟨k, hk⟩
  · rintro ⟨k, hk⟩
    have := normIdx_lt hk
    exact ⟨xs[k], pyGet_eq_ok.2 ⟨k, hk, by simp [this]⟩⟩

theorem pyGet_error {xs : List β} {i : Int} {e : Err} (h : pyGet xs i = .error e) : e = .index := by
  unfold pyGet at h
  split at h
  · split at h <;> simp at h; exact h.symm
  · simp at h; exact h.symm

theorem pyGet_nat {xs : List β} {k : Nat} {x : β} (h : xs[k]? = some x) : pyGet xs (k : Int) = .ok x := by
  have hk : k < xs.length := by
    by_contra hk
    rw [List.getElem?_eq_none (by omega)] at h; simp at h
  exact pyGet_eq_ok.2 ⟨k, normIdx_of_nat hk, h⟩

theorem pyGet_zero {x : β} {xs : List β} : pyGet (x :: xs) 0 = .ok x := by
  simpa using pyGet_nat (xs := x :: xs) (k := 0) (x := x) (by simp)

theorem pyModify_eq_ok {xs ys : List β} {i : Int} {f : β → β} :
    pyModify xs i f = .ok ys ↔ ∃ k, normIdx xs.length i = some k ∧ ys = xs.modify k f := by
  unfold pyModify
  split
  · next k hk => simp [hk, eq_comm]
  · next hk => simp [hk]

theorem pyModify_error {xs : List β} {i : Int} {f : β → β} {e : Err} (h : pyModify xs i f = .error e) :
    e = .index := by
  unfold pyModify at h
  split at h <;> simp at h
  exact h.symm

theorem pyDel_eq_ok {xs ys : List β} {i : Int} :
    pyDel xs i = .ok ys ↔ ∃ k, normIdx xs.length i = some k ∧ ys = xs.eraseIdx k := by
  unfold pyDel
  split
  · next k hk => simp [hk, eq_comm]
  · next hk => simp [hk]

theorem pyDel_error {xs : List β} {i : Int} {e : Err} (h : pyDel xs i = .error e) : e = .index := by
  unfold pyDel at h
  split at h <;> simp at h
  exact h.symm

theorem pyDel_length {xs ys : List β} {i : Int} (h : pyDel xs i = .ok ys) : ys.length + 1 = xs.length := by
  obtain ⟨k, hk, rfl⟩ := pyDel_eq_ok.1 h
  have := normIdx_lt hk
  rw [List.length_eraseIdx_of_lt this]; omega

theorem pyInsert_length {xs : List β} {i : Int} {x : β} : (pyInsert xs i x).length = xs.length + 1 := by
  unfold pyInsert
  rw [List.length_insertIdx_of_le_length]; omega

theorem pyInsert_nat {xs : List β} {k : Nat} {x : β} (h : k ≤ xs.length) :
    pyInsert xs (k : Int) x = xs.insertIdx k x := by
  unfold pyInsert
  have h1 : ¬ ((k : Int) < 0) := by omega
  simp only [h1, if_false]
  congr 1
  simp; omega

theorem pyInsert_zero {xs : List β} {x : β} : pyInsert xs 0 x = x :: xs := by
  simpa using pyInsert_nat (xs := xs) (k := 0) (x := x) (by omega)

end Index

/-- `mapM` over `M` as a relation, element by element. -/
theorem mapM_eq_ok_iff {β γ : Type} {f : β → M γ} :
    ∀ {xs : List β} {ys : List γ}, xs.mapM f = .ok ys ↔ List.Forall₂ (fun x y => f x = .ok y) xs ys := by
  intro xs
  induction xs with
  | nil =>
    intro ys
    rw [List.mapM_nil, pure_eq_ok]
    constructor
    · rintro rfl; exact List.Forall₂.nil
    · intro h; cases h; rfl
  | cons x xs ih =>
    intro ys
    rw [List.mapM_cons, bind_eq_ok]
    constructor
    · rintro ⟨y, hy, h⟩
      rw [bind_eq_ok] at h
      obtain ⟨ys', h1, h2⟩ := h
      rw [pure_eq_ok] at h2; subst h2
      exact List.Forall₂.cons hy (ih.1 h1)
    · intro h
      cases h with
      | cons hy h => exact ⟨_, hy, by rw [bind_eq_ok]; exact ⟨_, ih.2 h, rfl⟩⟩

end Cosipy
