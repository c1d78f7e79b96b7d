import Verif.Lemmas.HeatFloat
import Mathlib.Algebra.Field.Rat
import Mathlib.Algebra.Order.Ring.Unbundled.Rat
import Mathlib.Data.Rat.Floor

/-!
# C82 Heat conduction sub-stepping in double precision

`solveHeatEquation` adds up its sub-steps in floating point until the sum reaches `dt`. A sum of rounded numbers could miss `dt`
or stop growing. It never misses: the sum ends exactly at `dt`. It does stop growing if the stability bound of the column is below
about `2^-55 dt`; from `2^-51 dt` on the loop ends.
-/

set_option autoImplicit false
set_option linter.unusedSectionVars false

namespace Cosipy
section
variable {K : Type} [Field K] [LinearOrder K] [IsStrictOrderedRing K] [FloorRing K] {p : ℕ} {emin : ℤ} {hp : 23 ≤ p} {he : emin ≤ -30}

local notation "F" => Fl (binary K p emin hp he)

/-- **C82, exact integration.** In binary floating point of any precision from single on, with gradual underflow: if the stability
bound of the column is positive, the new temperatures are those reached by positive sub-steps, none above the bound, whose sum,
rounded after each addition, is exactly `dt`. -/
theorem C82_integrates {fuel : Nat} {c : Consts F} {g g' : Grid F} {dt bound : F} {cells : List (HeatCell F)} (hw : g.WF) (hdt : 0 ≤ dt)
    (hcells : List.Forall₂ (fun n x => x.h = n.height ∧ x.t = n.temperature ∧ n.thermalDiffusivity c = .ok x.k) g.nodes cells)
    (hbound : heatDtStab cells = .ok bound) (hpos : 0 < bound) (h : solveHeatEquation fuel c g dt = .ok g') :
    ∃ τs : List F, (∀ τ ∈ τs, 0 < τ ∧ τ ≤ bound) ∧ τs.foldl (· + ·) 0 = dt ∧
      g'.nodes.map (fun n => n.temperature) = (τs.foldl (fun cs τ => heatPass τ cs) cells).map (fun x => x.t) := by
  unfold solveHeatEquation at h
  rw [mapNodes_cells hw hcells, ok_bind, hbound, ok_bind, bind_eq_ok] at h
  obtain ⟨r, h3, h4⟩ := h
  obtain ⟨τs, t1, t2, t3⟩ := heatLoop_float hpos _ _ _ ⟨hdt, Or.inl rfl⟩ h3
  refine ⟨τs, t1, t2, ?_⟩
  have hl : (r.2.map HeatCell.t).length = g.nodes.length := by
    rw [t3, List.length_map, foldl_heatPass_len, hcells.length_eq]
  have h5 : g.setAll Node.setTemperature (r.2.map HeatCell.t) = .ok g' := h4
  rw [Grid.setAll_eq hw _ hl, ok_inj] at h5
  subst h5
  simp only
  rw [zip_setTemperature _ _ hl, t3]

/-- **C82, termination.** The solve returns if the stability bound is at least `2^(1-p)` of `dt` (`p + 1` bits;
`2^-51 dt` in double precision). -/
theorem C82_terminates [Archimedean K] {c : Consts F} {g : Grid F} {dt bound : F} {cells : List (HeatCell F)} (hw : g.WF) (hdt : 0 ≤ dt)
    (hcells : List.Forall₂ (fun n x => x.h = n.height ∧ x.t = n.temperature ∧ n.thermalDiffusivity c = .ok x.k) g.nodes cells)
    (hbound : heatDtStab cells = .ok bound) (hpos : 0 < bound) (hf : (2 : K) ^ (1 - (p : ℤ)) * dt.1 ≤ bound.1) :
    ∃ g', TerminatesWith (fun fuel => solveHeatEquation fuel c g dt) (.ok g') := by
  obtain ⟨r, N, hr⟩ := heatLoop_float_terminates hpos hdt hf cells
  obtain ⟨τs, t1, t2, t3⟩ := heatLoop_float hpos _ _ _ ⟨hdt, Or.inl rfl⟩ (hr N le_rfl)
  have hl : (r.2.map HeatCell.t).length = g.nodes.length := by
    rw [t3, List.length_map, foldl_heatPass_len, hcells.length_eq]
  refine ⟨{ g with nodes := List.zipWith Node.setTemperature (r.2.map HeatCell.t) g.nodes }, ⟨nofun, N, fun n hn => ?_⟩⟩
  show solveHeatEquation n c g dt = .ok _
  unfold solveHeatEquation
  rw [mapNodes_cells hw hcells, ok_bind, hbound, ok_bind, hr n hn, ok_bind]
  exact Grid.setAll_eq hw _ hl

/-- **C82, negation.** If the stability bound is at most `2^-(p+3)` of `dt` (`2^-55 dt` in double precision) the solve never
returns, however long one waits: the running sum gets stuck below `dt`. -/
theorem C82_diverges {c : Consts F} {g : Grid F} {dt bound : F} {cells : List (HeatCell F)} (hw : g.WF) (hdt : 1 ≤ dt.1)
    (hcells : List.Forall₂ (fun n x => x.h = n.height ∧ x.t = n.temperature ∧ n.thermalDiffusivity c = .ok x.k) g.nodes cells)
    (hbound : heatDtStab cells = .ok bound) (hf : bound.1 ≤ (2 : K) ^ (-(p : ℤ) - 3) * dt.1) :
    Diverges fun fuel => solveHeatEquation fuel c g dt := by
  have h0 : (0 : K) < dt.1 := by linarith
  set k := Int.log 2 dt.1 - 1 with hk
  have hlog : 0 ≤ Int.log 2 dt.1 := (Int.zpow_le_iff_le_log (b := 2) (x := 0) one_lt_two h0).1 (by simpa using hdt)
  have hkept : binRound p emin ((2 : K) ^ k) = 2 ^ k := by
    have := absorb (K := K) (p := p) (emin := emin) (k := k) (d := 0) (by omega) le_rfl (ulp_pos _).le (by omega)
    rwa [add_zero] at this
  let b : F := ⟨2 ^ k, hkept⟩
  have hd : bound.1 ≤ 2 ^ (k - p - 1) := by
    refine hf.trans ?_
    have h1 := mul_le_mul_of_nonneg_left (lt_log dt.1).le (ulp_pos (K := K) (-(p : ℤ) - 3)).le
    rw [← zpow_add₀ two_ne, show -(p : ℤ) - 3 + (Int.log 2 dt.1 + 1) = k - p - 1 by omega] at h1
    exact h1
  have hb : b + bound ≤ b := by
    show binRound p emin ((2 : K) ^ k + bound.1) ≤ 2 ^ k
    have h1 : binRound p emin ((2 : K) ^ k + max bound.1 0) = 2 ^ k :=
      absorb (by omega) (le_max_right _ _) (max_le hd (ulp_pos _).le) (by omega)
    conv_rhs => rw [← h1]
    exact binRound_mono (by have := le_max_left bound.1 0; linarith)
  have hlt : b < dt := by
    show (2 : K) ^ k < dt.1
    have h1 := le_log h0
    have h2 : (2 : K) ^ k < 2 ^ Int.log 2 dt.1 := zpow_lt_zpow_right₀ (by norm_num) (by omega)
    linarith
  intro n
  show solveHeatEquation n c g dt = _
  unfold solveHeatEquation
  rw [mapNodes_cells hw hcells, ok_bind, hbound, ok_bind, heatLoop_stuck (show (0 : F) ≤ b from (ulp_pos _).le) hb hlt]
  rfl

end

/-! ## In double precision -/

section
private abbrev D64 := Fl (binary64 ℚ)

/-- A column of snow and ice. -/
private def exCol : Grid D64 :=
  ⟨[⟨0.1, 260, 0, 0.3, 0⟩, ⟨0.1, 270, 0.01, 0.5, 0⟩, ⟨0.2, 265, 0, 1, 0⟩, ⟨0.5, 272, 0, 1, 0⟩], 4, 0, 0, 0⟩

/-- Three layers of a tenth of a nanometre. -/
private def exThin : Grid D64 :=
  ⟨[⟨0.0000000001, 260, 0, 1, 0⟩, ⟨0.0000000001, 270, 0, 1, 0⟩, ⟨0.0000000001, 265, 0, 1, 0⟩], 3, 0, 0, 0⟩

/-- Cells of a column, as a computation. -/
private def cellsOf (g : Grid D64) : M (List (HeatCell D64)) :=
  g.nodes.mapM fun n => do
    let k ← n.thermalDiffusivity (Consts.default D64)
    return HeatCell.mk n.height k n.temperature

private def boundOf (g : Grid D64) : M D64 := do heatDtStab (← cellsOf g)

private theorem cellsOf_ok {g : Grid D64} {cells : List (HeatCell D64)} (h : cellsOf g = .ok cells) :
    List.Forall₂ (fun n x => x.h = n.height ∧ x.t = n.temperature ∧ n.thermalDiffusivity (Consts.default D64) = .ok x.k)
      g.nodes cells := by
  unfold cellsOf at h
  rw [mapM_eq_ok_iff] at h
  refine h.imp fun n x hx => ?_
  rw [bind_eq_ok] at hx
  obtain ⟨k, hk, hx⟩ := hx
  rw [pure_eq_ok] at hx
  subst hx
  exact ⟨rfl, rfl, hk⟩

private def boundIs (g : Grid D64) (q : ℚ → Bool) : Bool :=
  match boundOf g with
  | .ok b => q b.1
  | .error _ => false

private theorem boundIs_ok {g : Grid D64} {q : ℚ → Bool} (h : boundIs g q = true) :
    ∃ cells bound, List.Forall₂ (fun n x => x.h = n.height ∧ x.t = n.temperature ∧
      n.thermalDiffusivity (Consts.default D64) = .ok x.k) g.nodes cells ∧ heatDtStab cells = .ok bound ∧ q bound.1 = true := by
  unfold boundIs at h
  split at h
  · next b hb =>
    unfold boundOf at hb
    rw [bind_eq_ok] at hb
    obtain ⟨cells, h1, h2⟩ := hb
    exact ⟨cells, b, cellsOf_ok h1, h2, h⟩
  · cases h

/-- Snow and ice of ordinary thickness: an hour is solved in finitely many sub-steps. -/
example : ∃ g', TerminatesWith (fun fuel => solveHeatEquation fuel (Consts.default D64) exCol 3600) (.ok g') := by
  have hb : boundIs exCol (fun b => decide (0 < b ∧ (2 : ℚ) ^ (-51 : ℤ) * 3600 ≤ b)) = true := by decide +kernel
  obtain ⟨cells, bound, h1, h2, h3⟩ := boundIs_ok hb
  have h4 := of_decide_eq_true h3
  have e : (3600 : D64).1 = 3600 := by decide +kernel
  exact C82_terminates (p := 52) rfl (by show (0 : D64) ≤ 3600; decide +kernel) h1 h2 h4.1 (by
    rw [e]; exact h4.2)

/-- Layers of a tenth of a nanometre: an hour is never over. -/
example : Diverges fun fuel => solveHeatEquation fuel (Consts.default D64) exThin 3600 := by
  have hb : boundIs exThin (fun b => decide (b ≤ (2 : ℚ) ^ (-55 : ℤ) * 3600)) = true := by decide +kernel
  obtain ⟨cells, bound, h1, h2, h3⟩ := boundIs_ok hb
  have e : (3600 : D64).1 = 3600 := by decide +kernel
  exact C82_diverges (p := 52) rfl (by rw [e]; norm_num) h1 h2 (by
    rw [e]; exact of_decide_eq_true h3)

/-- The sum of equal sub-steps is not their product: ten steps of 0.1 s do not make one second, and the loop adds an eleventh. -/
example : (List.replicate 10 (0.1 : D64)).foldl (· + ·) 0 < 1 := by decide +kernel

end
end Cosipy
