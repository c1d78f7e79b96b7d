import Verif.Lemmas.Penetrate
import Verif.Spec.Radiation
import Verif.Model.Real

/-!
# C25 Penetrating radiation never exceeds its share of net shortwave
-/

set_option autoImplicit false
set_option linter.unusedSectionVars false

namespace Cosipy
section
variable {K : Type} [Field K] [LinearOrder K] [IsStrictOrderedRing K] [Transc K]

/-- **C25, share.** What is withdrawn from the surface is exactly 10% of the net shortwave radiation over snow (first
layer not denser than the snow/ice threshold) and 20% over ice; it is never more than the radiation. -/
theorem C25_share {c : Consts K} {g g' : Grid K} {swnet dt melt si : K}
    (h : methodBintanja c g swnet dt = .ok (g', melt, si)) :
    ∃ top rest, g.nodes = top :: rest ∧
      si = swnet * (if top.density c ≤ c.snowIceThreshold then 1 / 10 else 1 / 5) ∧
      (0 ≤ swnet → 0 ≤ si ∧ si ≤ swnet) := by
  obtain ⟨top, rest, depths, init, last, es, outs, h1, _, _, _, _, _, _, _, h9⟩ := bintanja_ok h
  have e : si = swnet * (if top.density c ≤ c.snowIceThreshold then 1 / 10 else 1 / 5) := by
    simp only at h9
    rw [h9]; unfold penCoeffs; split_ifs <;> norm_num
  refine ⟨top, rest, h1, e, fun hs => ?_⟩
  rw [e]
  split_ifs <;> constructor <;> linarith

/-- Energy uptake of one layer. -/
theorem penLayer_uptake {c : Consts K} (hc : c.Phys) {dt e : K} {n : Node K} {o : Node K × Bool × K}
    (hn : 0 < n.height ∧ 0 < n.iceFraction ∧ 0 ≤ n.lwc) (h : penLayer c dt e n = .ok o) :
    uptake c n (fateOf o) ≤ e * dt ∧
      ((∃ m, fateOf o = some m ∧ m.height = n.height) → uptake c n (fateOf o) = e * dt) := by
  obtain ⟨hr, hri⟩ := density_pos hc hn.2.1.le hn.2.2
  have hci := hc.cIce
  have hL := hc.melt
  have hwd := hc.water
  have hh := hn.1
  have hE := radTemp_energy hc (dt := dt) (e := e) hr hn.1
  have hf : radFrac c dt e n * c.latHeatMelting = c.specHeatIce * (radTemp c dt e n - c.zeroTemperature) := by
    unfold radFrac; field_simp
  rcases penLayer_cases hc hn.2.1.ne' h with ⟨h1, rfl⟩ | ⟨h1, h2, rfl⟩ | ⟨h1, h2, rfl⟩
  · have : uptake c n (fateOf (({ n with temperature := radTemp c dt e n }, false, 0) : Node K × Bool × K)) = e * dt := by
      simp only [fateOf, uptake, ← hE]; simp
    exact ⟨this.le, fun _ => this⟩
  · have hdT : 0 < radTemp c dt e n - c.zeroTemperature := by linarith
    have hpos : 0 < radFrac c dt e n := by
      unfold radFrac; positivity
    simp only [fateOf, uptake, Bool.false_eq_true, if_false]
    have key : c.latHeatMelting * (c.iceDensity * (n.iceFraction * (n.height - (1 - radFrac c dt e n) * n.height))) ≤
        n.density c * c.specHeatIce * n.height * (radTemp c dt e n - c.zeroTemperature) := by
      calc c.latHeatMelting * (c.iceDensity * (n.iceFraction * (n.height - (1 - radFrac c dt e n) * n.height)))
          = (n.iceFraction * c.iceDensity) * n.height * (radFrac c dt e n * c.latHeatMelting) := by ring
        _ = (n.iceFraction * c.iceDensity) * (n.height * (c.specHeatIce * (radTemp c dt e n - c.zeroTemperature))) := by
            rw [hf]; ring
        _ ≤ n.density c * (n.height * (c.specHeatIce * (radTemp c dt e n - c.zeroTemperature))) := by
            apply mul_le_mul_of_nonneg_right hri; positivity
        _ = _ := by ring
    refine ⟨by rw [← hE]; linarith [key], ?_⟩
    rintro ⟨m, hm, hmh⟩
    simp only [Option.some.injEq] at hm
    subst hm
    simp only at hmh
    exfalso
    have : radFrac c dt e n * n.height = 0 := by linarith
    have := mul_pos hpos hh
    linarith
  · refine ⟨?_, by rintro ⟨m, hm, _⟩; simp [fateOf] at hm⟩
    simp only [fateOf, uptake, if_true]
    have := (radFrac_ge_one hc hr hn.1).1 h2
    have h3 : c.latHeatMelting * (c.iceDensity * (n.iceFraction * n.height)) ≤
        c.latHeatMelting * (n.density c * n.height) := by
      apply mul_le_mul_of_nonneg_left _ hL.le
      calc c.iceDensity * (n.iceFraction * n.height) = (n.iceFraction * c.iceDensity) * n.height := by ring
        _ ≤ _ := mul_le_mul_of_nonneg_right hri hh.le
    linarith

end

section Reals

/-- Depth of the middle of the lowest of a stack of layers. -/
noncomputable def midDepth (hs : List ℝ) : ℝ := hs.dropLast.sum + hs.getLastD 0 / 2

theorem depths_sum (f : ℝ → ℝ) (hf : ∀ x y, x ≤ y → f y ≤ f x) : ∀ (hs tl : List ℝ) (z acc : ℝ), (∀ h ∈ hs, 0 ≤ h) → z ≤ acc →
    ((absDiff ((z :: Grid.depthFrom acc (hs ++ tl)).map f)).take hs.length).sum =
      f z - f (if hs = [] then z else acc + midDepth hs)
  | [], tl, z, acc, _, _ => by simp
  | h :: hs, tl, z, acc, hp, hz => by
    have h0 := hp h (by simp)
    have hz' : z ≤ acc + 0.5 * h := by norm_num; linarith
    rw [List.cons_append, Grid.depthFrom, List.map_cons, List.map_cons, absDiff, List.length_cons, List.take_succ_cons, List.sum_cons,
      pyAbs_eq, abs_of_nonpos (by linarith [hf _ _ hz'])]
    have ih := depths_sum f hf hs tl (acc + 0.5 * h) (acc + h) (fun x hx => hp x (by simp [hx])) (by norm_num; linarith)
    rw [List.map_cons] at ih
    have e : (if hs = [] then acc + 0.5 * h else acc + h + midDepth hs) = acc + midDepth (h :: hs) := by
      split_ifs with he
      · subst he; simp [midDepth]; norm_num; ring
      · unfold midDepth
        obtain ⟨a, l, rfl⟩ := List.exists_cons_of_ne_nil he
        simp [List.dropLast_cons_of_ne_nil]; ring
    rw [ih, e, if_neg (List.cons_ne_nil h hs)]; ring

/-- **C25, absorbed energy.** The energies absorbed per second by the layers (all but the last) are non-negative, add
up to exactly the share times `1 - exp(-k z)` with `z` the depth of the middle of the lowest of them, hence to at
most the share. No layer takes up more than its energy times `dt`, and a layer that does not melt exactly that. -/
theorem C25_energy {c : Consts ℝ} (hc : c.Phys) {g g' : Grid ℝ} {swnet dt melt si : ℝ} (hw : g.WF) (hs : 0 ≤ swnet)
    (hn : ∀ n ∈ g.nodes, 0 < n.height ∧ 0 < n.iceFraction ∧ 0 ≤ n.lwc)
    (h : methodBintanja c g swnet dt = .ok (g', melt, si)) :
    ∃ (init : List (Node ℝ)) (last : Node ℝ) (k : ℝ) (es : List ℝ) (fates : List (Option (Node ℝ))),
      g.nodes = init ++ [last] ∧ (k = 17.1 ∨ k = 2.5) ∧
      g'.nodes = fates.reduceOption ++ [last] ∧ es.length = init.length ∧ (∀ e ∈ es, 0 ≤ e) ∧
      es.sum = si * (1 - Real.exp (-(k * midDepth (init.map fun n => n.height)))) ∧ es.sum ≤ si ∧
      List.Forall₂ (fun p o => uptake c p.1 o ≤ p.2 * dt ∧
        ((∃ m, o = some m ∧ m.height = p.1.height) → uptake c p.1 o = p.2 * dt)) (init.zip es) fates := by
  obtain ⟨top, rest, depths, init, last, es, outs, h1, h2, h3, h4, h5, h6, h7, h8, h9⟩ := bintanja_ok h
  have hsi : 0 ≤ si := by
    obtain ⟨_, _, _, _, hh⟩ := C25_share h
    exact (hh hs).1
  simp only at h9
  have hk : (penCoeffs c top).2 = 17.1 ∨ (penCoeffs c top).2 = 2.5 := by
    unfold penCoeffs; split_ifs <;> simp
  have hkp : (0 : ℝ) ≤ (penCoeffs c top).2 := by rcases hk with h | h <;> rw [h] <;> norm_num
  have hinit : ∀ n ∈ init, 0 < n.height ∧ 0 < n.iceFraction ∧ 0 ≤ n.lwc := fun n hm => hn n (by rw [h3]; simp [hm])
  have hd : depths = Grid.depthFrom 0 (init.map (fun n => n.height) ++ [last.height]) := by
    unfold Grid.getDepth at h2
    rw [Grid.getHeight_eq hw, ok_bind, h1] at h2
    simp only [List.map_cons] at h2
    rw [pure_eq_ok] at h2
    have e : init.map (fun n => n.height) ++ [last.height] = top.height :: rest.map (fun n => n.height) := by
      have := congrArg (List.map fun n : Node ℝ => n.height) (h3.symm.trans h1)
      simpa using this
    rw [e, Grid.depthFrom, ← h2]
    simp
  have hsum : es.sum = si * (1 - Real.exp (-((penCoeffs c top).2 * midDepth (init.map fun n => n.height)))) := by
    rw [h4, penEnergy, ← h9, ← List.map_take, hd]
    rw [List.sum_map_mul_left, List.map_id'']
    · have := depths_sum (fun d => Real.exp ((penCoeffs c top).2 * -d)) (fun x y hxy => by
          apply Real.exp_le_exp.2; nlinarith) (init.map fun n => n.height) [last.height] 0 0 (by
          intro h hm; obtain ⟨n, hn', rfl⟩ := List.mem_map.1 hm; exact (hinit n hn').1.le) le_rfl
      rw [List.length_map] at this
      change si * ((absDiff _).take init.length).sum = _
      have hcg : (fun d => (Transc.exp ((penCoeffs c top).2 * -d) : ℝ)) = fun d => Real.exp ((penCoeffs c top).2 * -d) := rfl
      rw [hcg, this]
      congr 1
      by_cases he : init = []
      · simp [he, midDepth]
      · rw [if_neg (by simpa using he)]
        simp
    · intro x; rfl
  refine ⟨init, last, _, es, outs.map fateOf, h3, hk, ?_, h5, ?_, hsum, ?_, ?_⟩
  · rw [fates_kept]
    simp only at h7
    rw [h7]
  · intro e he
    rw [h4] at he
    have he := List.mem_of_mem_take he
    unfold penEnergy at he
    obtain ⟨x, hx, rfl⟩ := List.mem_map.1 he
    rw [← h9]
    exact mul_nonneg hsi (absDiff_nonneg _ x hx)
  · rw [hsum]
    have := Real.exp_pos (-((penCoeffs c top).2 * midDepth (init.map fun n => n.height)))
    nlinarith
  · rw [List.forall₂_map_right_iff]
    have hmem : ∀ p ∈ init.zip es, 0 < p.1.height ∧ 0 < p.1.iceFraction ∧ 0 ≤ p.1.lwc := fun p hp =>
      hinit p.1 (List.of_mem_zip hp).1
    clear h4 h5 h7 h8 hsum
    generalize init.zip es = ps at *
    induction h6 with
    | nil => exact List.Forall₂.nil
    | @cons p o ps outs hpo _ ih =>
      exact List.Forall₂.cons (penLayer_uptake hc (hmem p (by simp)) hpo) (ih fun q hq => hmem q (by simp [hq]))

/-- **C25, total.** Altogether the layers take up at most the withdrawn share times `dt`. -/
theorem C25_total {c : Consts ℝ} (hc : c.Phys) {g g' : Grid ℝ} {swnet dt melt si : ℝ} (hw : g.WF) (hs : 0 ≤ swnet)
    (hdt : 0 ≤ dt) (hn : ∀ n ∈ g.nodes, 0 < n.height ∧ 0 < n.iceFraction ∧ 0 ≤ n.lwc)
    (h : methodBintanja c g swnet dt = .ok (g', melt, si)) :
    ∃ (init : List (Node ℝ)) (last : Node ℝ) (fates : List (Option (Node ℝ))),
      g.nodes = init ++ [last] ∧ g'.nodes = fates.reduceOption ++ [last] ∧ fates.length = init.length ∧
      (List.zipWith (uptake c) init fates).sum ≤ si * dt := by
  obtain ⟨init, last, k, es, fates, h1, _, h2, h3, h0, hk, h4, h5⟩ := C25_energy hc hw hs hn h
  refine ⟨init, last, fates, h1, h2, ?_, ?_⟩
  · rw [← h5.length_eq, List.length_zip, h3]; simp
  · refine le_trans ?_ (mul_le_mul_of_nonneg_right h4 hdt)
    clear h0 hk h1 h2 h4 hn h hw
    induction init generalizing es fates with
    | nil =>
      have : es = [] := by simpa using h3
      subst this; simp
    | cons n init ih =>
      match es, h3 with
      | e :: es, h3 =>
        rw [List.zip_cons_cons] at h5
        cases h5 with
        | @cons _ o _ fates a b =>
          rw [List.zipWith_cons_cons, List.sum_cons, List.sum_cons, add_mul]
          have := ih es _ (by simpa using h3) b
          have := a.1
          linarith

private noncomputable def exCol : Grid ℝ :=
  ⟨[⟨1/10, 273, 0, 1/2, 0⟩, ⟨1/10, 270, 1/100, 1/2, 0⟩, ⟨1, 265, 0, 1, 0⟩], 3, 0, 0, 0⟩

/-! Non-vacuity: a valid three-layer column on which the method returns for any radiation and time. -/
example (sw dt : ℝ) : (Consts.default ℝ).Phys ∧ exCol.WF ∧
    (∀ n ∈ exCol.nodes, 0 < n.height ∧ 0 < n.iceFraction ∧ 0 ≤ n.lwc) ∧
    ∃ r, methodBintanja (Consts.default ℝ) exCol sw dt = .ok r := by
  have hn : ∀ n ∈ exCol.nodes, 0 < n.height ∧ 0 < n.iceFraction ∧ 0 ≤ n.lwc := by
    intro n hn
    simp only [exCol, List.mem_cons, List.not_mem_nil, or_false] at hn
    rcases hn with rfl | rfl | rfl <;> norm_num
  exact ⟨Consts.default_phys, rfl, hn, bintanja_returns (g := exCol) Consts.default_phys rfl (by simp [exCol]) hn sw dt⟩

end Reals
end Cosipy
