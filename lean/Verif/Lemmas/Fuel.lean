import Verif.Spec.Termination
import Verif.Lemmas.Basic

/-! Termination calculus: outcomes do not depend on the fuel once they are proper outcomes. -/

set_option autoImplicit false

namespace Cosipy

/-- More fuel does not change a proper outcome. -/
def FuelMono {β : Type} (f : Nat → M β) : Prop := ∀ n m, n ≤ m → f n ≠ .error .diverge → f m = f n

section
variable {β γ σ : Type}

theorem FuelMono.const (x : M β) : FuelMono fun _ => x := fun _ _ _ _ => rfl

theorem FuelMono.bind {f : Nat → M β} {k : Nat → β → M γ} (hf : FuelMono f) (hk : ∀ b, FuelMono fun n => k n b) :
    FuelMono fun n => f n >>= k n := by
  intro n m hnm h
  rcases hfn : f n with e | b
  · have : f n ≠ .error .diverge := by
      intro he; simp only [he, error_bind] at h; exact h rfl
    simp only [hf n m hnm this, hfn, error_bind]
  · simp only [hfn, ok_bind] at h ⊢
    rw [hf n m hnm (by rw [hfn]; simp), hfn, ok_bind]
    exact hk b n m hnm h

theorem FuelMono.ite {p : Prop} [Decidable p] {f g : Nat → M β} (hf : FuelMono f) (hg : FuelMono g) :
    FuelMono fun n => if p then f n else g n := by
  split_ifs
  · exact hf
  · exact hg

theorem whileM_mono2 {body : Nat → σ → M (Option σ)} (hb : ∀ s, FuelMono fun n => body n s) {j j' : Nat} (hj : j ≤ j') :
    ∀ (n m : Nat) (s : σ), n ≤ m → whileM (body j) n s ≠ .error .diverge →
      whileM (body j') m s = whileM (body j) n s := by
  intro n
  induction n with
  | zero => intro m s _ h; simp [whileM] at h
  | succ n ih =>
    intro m s hm h
    obtain ⟨m, rfl⟩ : ∃ k, m = k + 1 := ⟨m - 1, by omega⟩
    unfold whileM at h ⊢
    have hbody : body j' s = body j s := by
      apply hb s j j' hj
      intro he; simp only [he] at h; exact h rfl
    rw [hbody]
    split
    · rfl
    · rfl
    · next s' hbs => rw [hbs] at h; exact ih m s' (by omega) h

theorem FuelMono.while {body : Nat → σ → M (Option σ)} (hb : ∀ s, FuelMono fun n => body n s) (s : σ) :
    FuelMono fun n => whileM (body n) n s :=
  fun n m hnm h => whileM_mono2 hb hnm n m s hnm h

theorem TerminatesWith.of_mono {f : Nat → M β} (hf : FuelMono f) {n : Nat} (h : f n ≠ .error .diverge) :
    TerminatesWith f (f n) := ⟨h, n, fun m hm => hf n m hm h⟩

theorem Terminates.const {x : M β} (h : x ≠ .error .diverge) : Terminates fun _ => x := ⟨x, h, 0, fun _ _ => rfl⟩

theorem Terminates.of_lt {f : Nat → M β} (hf : FuelMono f) (h : ∃ n, f n ≠ .error .diverge) : Terminates f := by
  obtain ⟨n, hn⟩ := h
  exact ⟨_, TerminatesWith.of_mono hf hn⟩

theorem Terminates.bind {f : Nat → M β} {k : Nat → β → M γ} (hf : Terminates f)
    (hk : ∀ b n, f n = .ok b → Terminates fun n => k n b) : Terminates fun n => f n >>= k n := by
  obtain ⟨r, hr, N, hN⟩ := hf
  rcases r with e | b
  · refine ⟨.error e, by simpa using hr, N, fun n hn => by simp only [hN n hn, error_bind]⟩
  · obtain ⟨r', hr', N', hN'⟩ := hk b N (hN N le_rfl)
    refine ⟨r', hr', max N N', fun n hn => ?_⟩
    simp only [hN n (le_trans (le_max_left _ _) hn), ok_bind]
    exact hN' n (le_trans (le_max_right _ _) hn)

theorem Terminates.ite {p : Prop} [Decidable p] {f g : Nat → M β} (hf : p → Terminates f) (hg : ¬ p → Terminates g) :
    Terminates fun n => if p then f n else g n := by
  split_ifs with h
  · exact hf h
  · exact hg h

/-- Termination of a loop by a measure. -/
theorem Terminates.while {body : Nat → σ → M (Option σ)} (hb : ∀ s, FuelMono fun n => body n s)
    (P : σ → Prop) (μ : σ → Nat) (ht : ∀ s, P s → Terminates fun n => body n s)
    (hstep : ∀ n s s', P s → body n s = .ok (some s') → P s' ∧ μ s' < μ s) :
    ∀ s, P s → Terminates fun n => whileM (body n) n s := by
  suffices h : ∀ (k : Nat) (s : σ), P s → μ s < k → Terminates fun n => whileM (body n) n s from
    fun s hs => h (μ s + 1) s hs (by omega)
  intro k
  induction k with
  | zero => intro s _ h; omega
  | succ k ih =>
    intro s hs hμ
    apply Terminates.of_lt (FuelMono.while hb s)
    obtain ⟨r, hr, N, hN⟩ := ht s hs
    rcases r with e | o | s'
    · refine ⟨N + 1, ?_⟩
      simp only [whileM, hN (N + 1) (by omega)]; simpa using hr
    · refine ⟨N + 1, ?_⟩
      simp [whileM, hN (N + 1) (by omega)]
    · obtain ⟨hs', hμ'⟩ := hstep N s s' hs (hN N le_rfl)
      obtain ⟨r', hr', N', hN'⟩ := ih s' hs' (by omega)
      refine ⟨max N N' + 1, ?_⟩
      simp only [whileM, hN (max N N' + 1) (by omega)]
      have h1 : whileM (body (max N N')) (max N N') s' = r' := hN' (max N N') (le_max_right _ _)
      have h2 : whileM (body (max N N')) (max N N') s' ≠ .error .diverge := by rw [h1]; exact hr'
      rw [whileM_mono2 hb (show max N N' ≤ max N N' + 1 by omega) _ _ s' le_rfl h2]
      exact h2

theorem Terminates.not_diverges {f : Nat → M β} (h : Terminates f) : ¬ Diverges f := by
  rintro hd
  obtain ⟨r, hr, N, hN⟩ := h
  exact hr ((hN N le_rfl).symm.trans (hd N))

end
end Cosipy
