import Verif.Lemmas.Heat
import Verif.Spec.Termination
import Mathlib.Algebra.Field.Rat
import Mathlib.Algebra.Order.Ring.Unbundled.Rat

/-!
# C23 Heat conduction sub-stepping terminates and integrates exactly dt
-/

set_option autoImplicit false
set_option linter.unusedSectionVars false

namespace Cosipy
section
variable {K : Type} [Field K] [LinearOrder K] [IsStrictOrderedRing K]

/-- **C23, exact integration.** For a non-negative `dt` the new temperatures are those reached by sub-steps with
positive lengths, none above the stability bound of the column, that add up to exactly `dt`. -/
theorem C23_integrates {fuel : Nat} {c : Consts K} (hc : c.Phys) {g g' : Grid K} {dt : K} (hw : g.WF) (hdt : 0 ≤ dt)
    (hn : ∀ n ∈ g.nodes, Conducting n) (h : solveHeatEquation fuel c g dt = .ok g') :
    ∃ (cells : List (HeatCell K)) (bound : K) (τs : List K),
      List.Forall₂ (fun n x => x.h = n.height ∧ x.t = n.temperature ∧ n.thermalDiffusivity c = .ok x.k) g.nodes cells ∧
      heatDtStab cells = .ok bound ∧ (∀ τ ∈ τs, 0 < τ ∧ τ ≤ bound) ∧ τs.sum = dt ∧
      g'.nodes.map (fun n => n.temperature) =
        (τs.foldl (fun cs τ => heatPass τ cs) cells).map (fun x => x.t) := by
  obtain ⟨cells, st, r, h1, h2, h3, h4⟩ := solveHeat_ok hw h
  obtain ⟨_, hs, hp⟩ := heatDtStab_ok h2
  have hst := hp (cells_pos hc h1 hn)
  obtain ⟨τs, t1, t2, t3, t4⟩ := heatLoop_steps hst _ _ _ h3
  refine ⟨cells, st, τs, h1, h2, t1, by simpa using t2 hdt, ?_⟩
  have hl : (r.2.map HeatCell.t).length = g.nodes.length := by
    have := congrArg List.length (foldl_heatPass_geo τs cells)
    rw [t4, List.length_map]
    rw [List.length_map, List.length_map] at this
    rw [this, h1.length_eq]
  rw [Grid.setAll_eq hw _ hl, ok_inj] at h4
  subst h4
  simp only
  rw [setTemperature_zip _ _ hl, t4]

/-- A negative `dt` changes nothing. -/
theorem C23_negative_dt {fuel : Nat} {c : Consts K} (hc : c.Phys) {g g' : Grid K} {dt : K} (hw : g.WF) (hdt : dt ≤ 0)
    (hn : ∀ n ∈ g.nodes, Conducting n) (h : solveHeatEquation fuel c g dt = .ok g') :
    g'.nodes.map (fun n => n.temperature) = g.nodes.map (fun n => n.temperature) := by
  obtain ⟨cells, st, r, h1, h2, h3, h4⟩ := solveHeat_ok hw h
  obtain ⟨_, hs, hp⟩ := heatDtStab_ok h2
  have hst := hp (cells_pos hc h1 hn)
  obtain ⟨τs, t1, t2, t3, t4⟩ := heatLoop_steps hst _ _ _ h3
  rw [t3 hdt, List.foldl_nil] at t4
  have hl : (r.2.map HeatCell.t).length = g.nodes.length := by rw [t4, List.length_map, h1.length_eq]
  rw [Grid.setAll_eq hw _ hl, ok_inj] at h4
  subst h4
  simp only
  rw [setTemperature_zip _ _ hl, t4, cells_t h1]

theorem diffusivity_returns {c : Consts K} (hc : c.Phys) (hm : c.thermalConductivityMethod ≠ .other) {n : Node K}
    (hn : Conducting n) : ∃ k, n.thermalDiffusivity c = .ok k := by
  have h0 := hn.2.1
  have h1 := hn.2.2
  unfold Node.thermalDiffusivity
  have hair : 0 ≤ n.airPorosity := by
    unfold Node.airPorosity; rw [pyMax_eq]; exact le_max_left _ _
  have hsum : 1 ≤ n.iceFraction + n.lwc + n.airPorosity := by
    unfold Node.airPorosity; rw [pyMax_eq]
    have := le_max_right 0 (1 - n.lwc - n.iceFraction)
    linarith
  have hany : ∀ a b d : K, 0 < a → 0 < b → 0 < d → n.iceFraction * a + n.lwc * b + n.airPorosity * d ≠ 0 := by
    intro a b d ha hb hd
    have e1 := mul_nonneg h0 ha.le
    have e2 := mul_nonneg h1 hb.le
    have e3 := mul_nonneg hair hd.le
    intro he
    have z1 : n.iceFraction = 0 := by
      have : n.iceFraction * a = 0 := by linarith
      exact (mul_eq_zero.1 this).resolve_right ha.ne'
    have z2 : n.lwc = 0 := by
      have : n.lwc * b = 0 := by linarith
      exact (mul_eq_zero.1 this).resolve_right hb.ne'
    have z3 : n.airPorosity = 0 := by
      have : n.airPorosity * d = 0 := by linarith
      exact (mul_eq_zero.1 this).resolve_right hd.ne'
    rw [z1, z2, z3] at hsum
    linarith
  have hrho : n.density c ≠ 0 := hany _ _ _ hc.ice hc.water hc.air
  have hcp : n.specificHeat c ≠ 0 := by
    have := hany _ _ _ hc.cIce hc.cW hc.cAir
    unfold Node.specificHeat; rwa [add_right_comm]
  have : ∃ q, n.thermalConductivity c = .ok q := by
    unfold Node.thermalConductivity
    split
    · exact ⟨_, rfl⟩
    · exact ⟨_, rfl⟩
    · next h => exact absurd h hm
  obtain ⟨q, hq⟩ := this
  exact ⟨_, by rw [hq, ok_bind, fdiv_of_ne (mul_ne_zero hrho hcp)]⟩

theorem mapM_cells {c : Consts K} {ns : List (Node K)} (h : ∀ n ∈ ns, ∃ k, n.thermalDiffusivity c = .ok k) :
    ∃ cells, List.Forall₂ (CellOf c) ns cells ∧
      ns.mapM (fun n => do
        let k ← n.thermalDiffusivity c
        return HeatCell.mk n.height k n.temperature) = .ok cells := by
  induction ns with
  | nil => exact ⟨[], List.Forall₂.nil, rfl⟩
  | cons n ns ih =>
    obtain ⟨cells, h1, h2⟩ := ih fun m hm => h m (by simp [hm])
    obtain ⟨k, hk⟩ := h n (by simp)
    refine ⟨⟨n.height, k, n.temperature⟩ :: cells, List.Forall₂.cons ⟨rfl, rfl, hk⟩ h1, ?_⟩
    rw [List.mapM_cons, h2, hk]
    rfl

/-- **C23, termination.** On a column of at least three conducting layers the solve returns a column, whatever the
integration time, after finitely many sub-steps. -/
theorem C23_terminates [Archimedean K] {c : Consts K} (hc : c.Phys) (hm : c.thermalConductivityMethod ≠ .other)
    {g : Grid K} (dt : K) (hw : g.WF) (hn : ∀ n ∈ g.nodes, Conducting n) (h3 : 3 ≤ g.nodes.length) :
    ∃ g', TerminatesWith (fun fuel => solveHeatEquation fuel c g dt) (.ok g') := by
  obtain ⟨cells, hc1, hc2⟩ := mapM_cells fun n hnm => diffusivity_returns hc hm (hn n hnm)
  have hlen := hc1.length_eq
  have hif := heatIfaces_length cells
  have hd : ∃ st, heatDtStab cells = .ok st := by
    unfold heatDtStab
    have hmin : ∀ xs : List K, xs ≠ [] → ∃ m, pyMinList xs = .ok m := by
      intro xs h; cases xs with
      | nil => exact absurd rfl h
      | cons x xs => exact ⟨_, rfl⟩
    obtain ⟨u, hu⟩ := hmin (heatIfaces cells).dropLast (by
      intro h; have := congrArg List.length h; rw [List.length_dropLast] at this; simp at this; omega)
    obtain ⟨l, hl⟩ := hmin (heatIfaces cells).tail (by
      intro h; have := congrArg List.length h; rw [List.length_tail] at this; simp at this; omega)
    rw [hu, ok_bind, hl, ok_bind]
    exact ⟨_, rfl⟩
  obtain ⟨st, hst⟩ := hd
  obtain ⟨_, hs, hp⟩ := heatDtStab_ok hst
  obtain ⟨r, N, hr⟩ := heatLoop_terminates (dt := dt) (hp (cells_pos hc hc1 hn)) cells
  have hl : (r.2.map HeatCell.t).length = g.nodes.length := by
    have : r.2.length = cells.length := (whileM_ind (hr N le_rfl) (fun s => s.2.length = cells.length) rfl (by
      rintro s s' i hb
      unfold heatLoopPass at hb
      split_ifs at hb
      · simp only [ok_inj, Option.some.injEq] at hb
        subst hb; exact (heatPass_length _ _).trans i
      · simp at hb)).1
    rw [List.length_map, this, hlen]
  refine ⟨{ g with nodes := List.zipWith Node.setTemperature (r.2.map HeatCell.t) g.nodes }, by simp, N, fun n hN => ?_⟩
  show solveHeatEquation n c g dt = _
  unfold solveHeatEquation
  rw [Grid.mapNodes_eq hw, hc2, ok_bind, hst, ok_bind, hr n hN, ok_bind]
  exact Grid.setAll_eq hw _ hl

/-- **C23, the limit of termination.** If two neighbouring layers both have height 0 (all diffusivities defined), the
stability bound is 0 and the sub-stepping never ends for any positive `dt`. -/
theorem C23_zero_heights_diverge {c : Consts K} {g : Grid K} {dt : K} (hw : g.WF) (hdt : 0 < dt)
    (hk : ∀ n ∈ g.nodes, ∃ k, n.thermalDiffusivity c = .ok k) (h3 : 3 ≤ g.nodes.length)
    {up down : List (Node K)} {a b : Node K} (hg : g.nodes = up ++ a :: b :: down) (ha : a.height = 0) (hb : b.height = 0) :
    Diverges (fun fuel => solveHeatEquation fuel c g dt) := by
  obtain ⟨cells, hc1, hc2⟩ := mapM_cells hk
  have hlen := hc1.length_eq
  have hif := heatIfaces_length cells
  have hz : 0 ∈ heatIfaces cells := by
    rw [hg] at hc1
    clear hlen hif hc2 hk hg h3
    induction up generalizing cells with
    | nil =>
      cases hc1 with | @cons _ x _ _ h1 h' =>
      cases h' with | @cons _ y _ _ h2 h' =>
      rw [heatIfaces]
      have e : x.dist y = 0 := by
        unfold HeatCell.dist; rw [h1.1, h2.1, ha, hb]; simp
      rw [e]; simp
    | cons n up ih =>
      cases hc1 with | @cons _ x _ l h1 h' =>
      have := ih _ h'
      cases l with
      | nil => simp [heatIfaces] at this
      | cons y l => rw [heatIfaces]; exact List.mem_cons_of_mem _ this
  have hd : ∃ st, heatDtStab cells = .ok st := by
    unfold heatDtStab
    have hmin : ∀ xs : List K, xs ≠ [] → ∃ m, pyMinList xs = .ok m := by
      intro xs h; cases xs with
      | nil => exact absurd rfl h
      | cons x xs => exact ⟨_, rfl⟩
    obtain ⟨u, hu⟩ := hmin (heatIfaces cells).dropLast (by
      intro h; have := congrArg List.length h; rw [List.length_dropLast] at this; simp at this; omega)
    obtain ⟨l, hl⟩ := hmin (heatIfaces cells).tail (by
      intro h; have := congrArg List.length h; rw [List.length_tail] at this; simp at this; omega)
    rw [hu, ok_bind, hl, ok_bind]
    exact ⟨_, rfl⟩
  obtain ⟨st, hst⟩ := hd
  obtain ⟨_, hs, _⟩ := heatDtStab_ok hst
  have hst0 : st ≤ 0 := by simpa using hs 0 hz
  intro n
  show solveHeatEquation n c g dt = _
  unfold solveHeatEquation
  rw [Grid.mapNodes_eq hw, hc2, ok_bind, hst, ok_bind]
  rw [whileM_diverges (fun s : K × List (HeatCell K) => s.1 < dt) (fun s hs => ⟨_, by
    unfold heatLoopPass; rw [if_pos hs], by
    simp only; rw [pyMin_eq]; have := min_le_left st (dt - s.1); linarith⟩) n (0, cells) hdt]
  rfl

end

private def exCol : Grid ℚ :=
  ⟨[⟨1/10, 260, 0, 3/10, 0⟩, ⟨1/10, 270, 1/100, 1/2, 0⟩, ⟨1/5, 265, 0, 1, 0⟩, ⟨1/2, 272, 0, 1, 0⟩], 4, 0, 0, 0⟩
private def exFlat : Grid ℚ :=
  ⟨[⟨1/10, 260, 0, 3/10, 0⟩, ⟨0, 270, 0, 1/2, 0⟩, ⟨0, 265, 0, 1, 0⟩], 3, 0, 0, 0⟩

/-! Non-vacuity: a column on which two sub-steps do not suffice for two hours and nine do; and one with two layers of
height 0. -/
example : exCol.WF ∧ 3 ≤ exCol.nodes.length ∧ ∀ n ∈ exCol.nodes, Conducting n := by
  refine ⟨rfl, by decide, ?_⟩
  simp only [exCol, Conducting]; decide +kernel
example : raised (solveHeatEquation 2 (Consts.default ℚ) exCol 7200) = some .diverge ∧
    raised (solveHeatEquation 9 (Consts.default ℚ) exCol 7200) = none := by decide +kernel
example : exFlat.WF ∧ (∀ n ∈ exFlat.nodes, (n.thermalDiffusivity (Consts.default ℚ)).toOption.isSome = true) ∧
    exFlat.nodes = [⟨1/10, 260, 0, 3/10, 0⟩] ++ ⟨0, 270, 0, 1/2, 0⟩ :: ⟨0, 265, 0, 1, 0⟩ :: [] := by
  refine ⟨rfl, by decide +kernel, rfl⟩

end Cosipy
