import Verif.Model.SurfaceTemp
import Verif.Model.Real
import Verif.Lemmas.Basic
import Verif.Lemmas.Grid
import Verif.Lemmas.Arith
import Verif.Spec.Termination
import Verif.Spec.Column
import Mathlib.Algebra.Field.Rat
import Mathlib.Algebra.Order.Ring.Unbundled.Rat

/-!
# C37 The Monin-Obukhov iteration stops within seven passes

For every arithmetic, in particular without any assumption on rounding or on the elementary functions.
-/

set_option autoImplicit false
set_option linter.unusedSectionVars false

namespace Cosipy
section
variable {α : Type} [Add α] [Sub α] [Mul α] [Div α] [Neg α] [LT α] [LE α]
  [DecidableLT α] [DecidableLE α] [BEq α] [Zero α] [One α] [NatCast α] [OfScientific α] [Transc α]

/-- The iteration as coded, with a bound on the number of passes. -/
def moIterate (c : Consts α) (wrf : Bool) (i : EbInput α) (t0 rho lv q0 q2 cosSlope : α) (passes : Nat) : M (MoState α) :=
  whileM (moPass c wrf i t0 rho lv q0 q2 cosSlope) passes ⟨0, none, true, 0, 0, 0, 0, 0⟩

theorem moPass_some {c : Consts α} {wrf : Bool} {i : EbInput α} {t0 rho lv q0 q2 cosSlope : α} {s : MoState α}
    (ho : s.optim = true) : ∃ s', moPass c wrf i t0 rho lv q0 q2 cosSlope s = .ok (some s') ∧ s'.niter = s.niter + 1 ∧
      (5 < s.niter → s'.optim = false) := by
  unfold moPass
  rw [if_pos ho]
  refine ⟨_, rfl, rfl, fun h => ?_⟩
  simp [h]

theorem moPass_none {c : Consts α} {wrf : Bool} {i : EbInput α} {t0 rho lv q0 q2 cosSlope : α} {s : MoState α}
    (ho : s.optim = false) : moPass c wrf i t0 rho lv q0 q2 cosSlope s = .ok none := by
  unfold moPass
  rw [if_neg (by simp [ho])]

theorem mo_loop {c : Consts α} {wrf : Bool} {i : EbInput α} {t0 rho lv q0 q2 cosSlope : α} : ∀ (m : Nat) (s : MoState α),
    s.optim = true → s.niter + m = 7 → 0 < m → ∃ r, s.niter < r.niter ∧ r.niter ≤ 7 ∧ r.optim = false ∧
      (∃ p, p.optim = true ∧ moPass c wrf i t0 rho lv q0 q2 cosSlope p = .ok (some r)) ∧
      ∀ n, m + 1 ≤ n → whileM (moPass c wrf i t0 rho lv q0 q2 cosSlope) n s = .ok r := by
  intro m
  induction m with
  | zero => intro s _ _ h; exact absurd h (lt_irrefl _)
  | succ m ih =>
    intro s ho hn _
    obtain ⟨s', h1, h2, h3⟩ := moPass_some (c := c) (wrf := wrf) (i := i) (t0 := t0) (rho := rho) (lv := lv) (q0 := q0)
      (q2 := q2) (cosSlope := cosSlope) ho
    have hstop : s'.optim = false → ∀ n, m + 1 + 1 ≤ n →
        whileM (moPass c wrf i t0 rho lv q0 q2 cosSlope) n s = .ok s' := by
      intro hf n hn
      obtain ⟨n, rfl⟩ : ∃ k, n = k + 2 := ⟨n - 2, by omega⟩
      rw [whileM, h1]
      simp only
      rw [whileM, moPass_none hf]
    cases hopt : s'.optim with
    | false => exact ⟨s', by omega, by omega, hopt, ⟨s, ho, h1⟩, hstop hopt⟩
    | true =>
      have hm : 0 < m := by
        rcases Nat.eq_zero_or_pos m with h | h
        · have := h3 (by omega); rw [this] at hopt; cases hopt
        · exact h
      obtain ⟨r, r1, r2, r3, r4, r5⟩ := ih s' hopt (by omega) hm
      refine ⟨r, by omega, r2, r3, r4, fun n hn => ?_⟩
      obtain ⟨n, rfl⟩ : ∃ k, n = k + 1 := ⟨n - 1, by omega⟩
      rw [whileM, h1]
      simp only
      exact r5 n (by omega)

/-- **C37, passes.** The iteration terminates with a value; it takes at least one and at most seven passes, and the
values are those of its last pass. -/
theorem C37_terminates (c : Consts α) (wrf : Bool) (i : EbInput α) (t0 rho lv q0 q2 cosSlope : α) :
    ∃ r, TerminatesWith (moIterate c wrf i t0 rho lv q0 q2 cosSlope) (.ok r) ∧ 1 ≤ r.niter ∧ r.niter ≤ 7 ∧
      (∀ n, 8 ≤ n → moIterate c wrf i t0 rho lv q0 q2 cosSlope n = .ok r) ∧
      ∃ p, moPass c wrf i t0 rho lv q0 q2 cosSlope p = .ok (some r) := by
  obtain ⟨r, h1, h2, h3, ⟨p, _, h4⟩, h5⟩ := mo_loop (c := c) (wrf := wrf) (i := i) (t0 := t0) (rho := rho) (lv := lv)
    (q0 := q0) (q2 := q2) (cosSlope := cosSlope) 7 ⟨0, none, true, 0, 0, 0, 0, 0⟩ rfl rfl (by omega)
  exact ⟨r, ⟨by simp, 8, h5⟩, h1, h2, h5, p, h4⟩

/-- **C37, flux routine.** Computing the fluxes never runs out of passes. -/
theorem C37_fluxes (c : Consts α) (wrf : Bool) (g : Grid α) (i : EbInput α) (t0 : α) :
    raised (ebFluxes c wrf g i t0) ≠ some .diverge := by
  have hcond : ∀ n : Node α, raised (n.thermalConductivity c) ≠ some .diverge := by
    intro n
    unfold Node.thermalConductivity
    split <;> simp [raised]
  have hnode : raised (g.node 0) ≠ some .diverge := by
    unfold Grid.node
    cases h : pyGet g.nodes 0 with
    | error e => rw [pyGet_error h]; simp [raised]
    | ok _ => simp [raised]
  have hlw : ∀ ea, raised (incomingLongwave c i ea) ≠ some .diverge := by
    intro ea; unfold incomingLongwave; split <;> simp [raised]
  have hbind : ∀ {β γ : Type} {x : M β} {f : β → M γ}, raised x ≠ some .diverge → (∀ b, raised (f b) ≠ some .diverge) →
      raised (x >>= f) ≠ some .diverge := by
    intro β γ x f hx hf
    cases x with
    | error e => exact hx
    | ok b => exact hf b
  unfold ebFluxes
  refine hbind (hlw _) fun li => hbind ?_ fun x => hbind hnode fun top => hbind (hcond top) fun _ => by simp [raised, pure, Except.pure]
  split
  · obtain ⟨r, _, _, _, h8, _⟩ := C37_terminates c wrf i t0 _ _ _ _ _
    refine hbind ?_ fun s => by simp [raised, pure, Except.pure]
    have := h8 8 le_rfl
    unfold moIterate at this
    rw [this]; simp [raised]
  · simp [raised]
  · simp [raised]

end

section
variable {K : Type} [Field K] [LinearOrder K] [IsStrictOrderedRing K] [Transc K]

/-- **C37, calm air.** Without wind both turbulent fluxes are zero, whatever else is measured. -/
theorem C37_calm {c : Consts K} (hm : c.stabilityCorrection = .mo) {wrf : Bool} {g : Grid K} {i : EbInput K} {t0 : K}
    {fl : Fluxes K} (hu : i.u2 = 0) (h : ebFluxes c wrf g i t0 = .ok fl) : fl.h = 0 ∧ fl.le = 0 := by
  unfold ebFluxes at h
  simp only [bind_eq_ok, hm] at h
  obtain ⟨li, _, ⟨hh, le, mol, csT, csQ⟩, ⟨s, hs, he⟩, top, _, lam, _, h⟩ := h
  rw [pure_eq_ok] at h he
  cases he
  cases h
  obtain ⟨r, _, _, _, h8, p, hp⟩ := C37_terminates c wrf i t0 _ _ _ _ _
  have h8' := h8 8 le_rfl
  unfold moIterate at h8'
  rw [hs, ok_inj] at h8'
  subst h8'
  unfold moPass at hp
  by_cases ho : p.optim = true
  · rw [if_pos ho] at hp
    simp only [Except.ok.injEq, Option.some.injEq] at hp
    rw [← hp]
    simp [sensibleHeatFlux, latentHeatFlux, hu]
  · rw [if_neg ho] at hp
    cases hp

end

/-- Non-vacuity: with the real functions and shipped constants (and the Monin-Obukhov scheme) fluxes are returned. -/
example : ∃ fl, ebFluxes { Consts.default ℝ with stabilityCorrection := .mo } false
    ⟨[⟨1/10, 268, 0, 1/2, 0⟩], 1, 0, 0, 0⟩ ⟨3600, 2, 1/1000, 270, 60, 700, 0, 0, 0, 268, 268, some 250, none⟩ 268 = .ok fl ∧
    fl.h = 0 := by
  have : ∃ fl, ebFluxes { Consts.default ℝ with stabilityCorrection := .mo } false
      ⟨[⟨1/10, 268, 0, 1/2, 0⟩], 1, 0, 0, 0⟩ ⟨3600, 2, 1/1000, 270, 60, 700, 0, 0, 0, 268, 268, some 250, none⟩ 268 = .ok fl := by
    unfold ebFluxes
    obtain ⟨r, _, _, _, h8, _⟩ := C37_terminates { Consts.default ℝ with stabilityCorrection := .mo } false
      ⟨3600, 2, 1/1000, 270, 60, 700, 0, 0, 0, 268, 268, some 250, none⟩ 268 _ _ _ _ _
    have h8' := h8 8 le_rfl
    unfold moIterate at h8'
    simp only [incomingLongwave, ok_bind]
    rw [h8']
    exact ⟨_, rfl⟩
  obtain ⟨fl, h⟩ := this
  exact ⟨fl, h, (C37_calm rfl rfl h).1⟩

end Cosipy
