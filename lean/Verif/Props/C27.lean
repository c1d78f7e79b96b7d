import Verif.Lemmas.Penetrate
import Verif.Spec.Radiation
import Verif.Model.Real

/-!
# C27 Reported subsurface melt equals the ice that melted

Refuted. Full statement, for every valid column: if `method_Bintanja` returns `melt`, then `melt` is the water
equivalent of the ice the layers lost, `Σ iceLost`. What holds is the exact formula `C27_formula_partial`: a layer that
loses the fraction `φ < 1` of its ice reports `1 - φ` times its loss, a removed layer `φ ≥ 1` times.
-/

set_option autoImplicit false
set_option linter.unusedSectionVars false

namespace Cosipy
section
variable {K : Type} [Field K] [LinearOrder K] [IsStrictOrderedRing K] [Transc K]

/-- Loss and report of one layer. -/
theorem penLayer_report {c : Consts K} (hc : c.Phys) {dt e : K} {n : Node K} {o : Node K × Bool × K}
    (hn : 0 < n.height ∧ 0 < n.iceFraction ∧ 0 ≤ n.lwc) (h : penLayer c dt e n = .ok o) :
    (∃ m, fateOf o = some m ∧ o.2.2 = m.height / n.height * iceLost c n (some m) ∧
      (m.height < n.height → o.2.2 < iceLost c n (some m)) ∧ (m.height = n.height → o.2.2 = iceLost c n (some m)) ∧
      m.height ≤ n.height) ∨
    (fateOf o = none ∧ iceLost c n none ≤ o.2.2) := by
  have hci := hc.cIce
  have hL := hc.melt
  have hwd := hc.water
  have hid := hc.ice
  have hh := hn.1
  have hi := hn.2.1
  rcases penLayer_cases hc hi.ne' h with ⟨h1, rfl⟩ | ⟨h1, h2, rfl⟩ | ⟨h1, h2, rfl⟩
  · exact Or.inl ⟨_, rfl, by simp [iceLost], fun h => absurd h (lt_irrefl _), fun _ => by simp [iceLost], le_rfl⟩
  · have hpos : 0 < radFrac c dt e n := by
      unfold radFrac; have : 0 < radTemp c dt e n - c.zeroTemperature := by linarith
      positivity
    set φ := radFrac c dt e n
    have h1f : 0 < 1 - φ := by linarith
    refine Or.inl ⟨_, rfl, ?_, ?_, ?_, by simp only; nlinarith⟩
    · simp only [iceLost]; field_simp; ring
    · intro _
      simp only [iceLost]
      have e : c.iceDensity / c.waterDensity * (n.iceFraction * n.height - n.iceFraction * ((1 - φ) * n.height)) =
          φ * n.iceFraction * (c.iceDensity / c.waterDensity) * n.height := by ring
      rw [e]
      apply mul_lt_mul_of_pos_left _ (by positivity)
      nlinarith
    · intro he
      simp only at he
      exfalso
      have : φ * n.height = 0 := by linarith
      have := mul_pos hpos hh
      linarith
  · refine Or.inr ⟨rfl, ?_⟩
    simp only [iceLost]
    have h0 : 0 < c.iceDensity / c.waterDensity * (n.iceFraction * n.height) := by positivity
    nlinarith

/-- **C27, what holds.** The returned melt is the sum over the layers of a report that is, for a kept layer, its ice
loss times the ratio of new to old height, and for a removed layer at least its whole ice. -/
theorem C27_formula_partial {c : Consts K} (hc : c.Phys) {g g' : Grid K} {swnet dt melt si : K}
    (hn : ∀ n ∈ g.nodes, 0 < n.height ∧ 0 < n.iceFraction ∧ 0 ≤ n.lwc)
    (h : methodBintanja c g swnet dt = .ok (g', melt, si)) :
    ∃ (init : List (Node K)) (last : Node K) (fates : List (Option (Node K) × K)),
      g.nodes = init ++ [last] ∧ g'.nodes = (fates.map Prod.fst).reduceOption ++ [last] ∧
      melt = (fates.map Prod.snd).sum ∧
      List.Forall₂ (fun n o =>
        (∃ m, o.1 = some m ∧ m.height ≤ n.height ∧ o.2 = m.height / n.height * iceLost c n (some m)) ∨
        (o.1 = none ∧ iceLost c n none ≤ o.2)) init fates := by
  obtain ⟨top, rest, depths, init, last, es, outs, h1, h2, h3, h4, h5, h6, h7, h8, h9⟩ := bintanja_ok h
  simp only at h9 h7 h8
  have hinit : ∀ n ∈ init, 0 < n.height ∧ 0 < n.iceFraction ∧ 0 ≤ n.lwc := fun n hm => hn n (by rw [h3]; simp [hm])
  refine ⟨init, last, outs.map fun o => (fateOf o, o.2.2), h3, ?_, ?_, ?_⟩
  · rw [List.map_map]
    have : (outs.map (Prod.fst ∘ fun o : Node K × Bool × K => (fateOf o, o.2.2))) = outs.map fateOf := rfl
    rw [this, fates_kept, h7]
  · rw [List.map_map]; exact h8
  · rw [List.forall₂_map_right_iff]
    clear h4 h7 h8 h3
    induction init generalizing es outs with
    | nil => simp at h6; subst h6; exact List.Forall₂.nil
    | cons n init ih =>
      match es, h5 with
      | e :: es, h5 =>
        rw [List.zip_cons_cons] at h6
        cases h6 with
        | @cons _ o _ outs hpo h6 =>
          refine List.Forall₂.cons ?_ (ih es outs (by simpa using h5) h6 fun m hm => hinit m (by simp [hm]))
          rcases penLayer_report hc (hinit n (by simp)) hpo with ⟨m, e1, e2, _, _, e5⟩ | ⟨e1, e2⟩
          · exact Or.inl ⟨m, e1, e5, e2⟩
          · exact Or.inr ⟨e1, e2⟩

theorem bintanja_underreports {c : Consts K} (hc : c.Phys) {g g' : Grid K} {swnet dt melt si : K}
    (hn : ∀ n ∈ g.nodes, 0 < n.height ∧ 0 < n.iceFraction ∧ 0 ≤ n.lwc)
    (h : methodBintanja c g swnet dt = .ok (g', melt, si)) (hlen : g'.nodes.length = g.nodes.length) :
    melt ≤ c.iceDensity / c.waterDensity *
      ((g.nodes.map fun n => n.iceFraction * n.height).sum - (g'.nodes.map fun n => n.iceFraction * n.height).sum) ∧
    ((g'.nodes.map fun n => n.height) ≠ (g.nodes.map fun n => n.height) → melt < c.iceDensity / c.waterDensity *
      ((g.nodes.map fun n => n.iceFraction * n.height).sum - (g'.nodes.map fun n => n.iceFraction * n.height).sum)) := by
  obtain ⟨top, rest, depths, init, last, es, outs, h1, h2, h3, h4, h5, h6, h7, h8, h9⟩ := bintanja_ok h
  simp only at h9 h7 h8
  have hinit : ∀ n ∈ init, 0 < n.height ∧ 0 < n.iceFraction ∧ 0 ≤ n.lwc := fun n hm => hn n (by rw [h3]; simp [hm])
  have hol : outs.length = init.length := by
    rw [← h6.length_eq, List.length_zip, h5]; simp
  have hall : ∀ o ∈ outs, o.2.1 = false := by
    have e : g'.nodes.length = (outs.filter (fun o => !o.2.1)).length + 1 := by rw [h7]; simp
    rw [hlen, h3] at e
    have e' : (outs.filter (fun o => !o.2.1)).length = outs.length := by simp at e; omega
    have := List.length_filter_eq_length_iff.1 e'
    intro o ho
    simpa using this o ho
  have hfil : outs.filter (fun o => !o.2.1) = outs := List.filter_eq_self.2 fun o ho => by simp [hall o ho]
  rw [hfil] at h7
  have hg' : g'.nodes = outs.map (fun o => o.1) ++ [last] := by rw [h7]
  rw [hg', h3, h8]
  simp only [List.map_append, List.map_cons, List.map_nil, List.sum_append, List.sum_cons, List.sum_nil, List.map_map]
  have key : ∀ (init : List (Node K)) (es : List K) (outs : List (Node K × Bool × K)), es.length = init.length →
      (∀ n ∈ init, 0 < n.height ∧ 0 < n.iceFraction ∧ 0 ≤ n.lwc) → (∀ o ∈ outs, o.2.1 = false) →
      List.Forall₂ (fun p o => penLayer c dt p.2 p.1 = .ok o) (init.zip es) outs →
      (outs.map (fun o => o.2.2)).sum ≤ c.iceDensity / c.waterDensity *
        ((init.map fun n => n.iceFraction * n.height).sum - (outs.map fun o => o.1.iceFraction * o.1.height).sum) ∧
      ((outs.map fun o => o.1.height) ≠ (init.map fun n => n.height) →
        (outs.map (fun o => o.2.2)).sum < c.iceDensity / c.waterDensity *
        ((init.map fun n => n.iceFraction * n.height).sum - (outs.map fun o => o.1.iceFraction * o.1.height).sum)) := by
    intro init
    induction init with
    | nil => intro es outs _ _ _ h; simp at h; subst h; simp
    | cons n init ih =>
      intro es outs hl hin hd h
      match es, hl with
      | e :: es, hl =>
        rw [List.zip_cons_cons] at h
        cases h with
        | @cons _ o _ outs hpo h =>
          obtain ⟨i1, i2⟩ := ih es outs (by simpa using hl) (fun m hm => hin m (by simp [hm]))
            (fun o ho => hd o (by simp [ho])) h
          have hd0 := hd o (by simp)
          rcases penLayer_report hc (hin n (by simp)) hpo with ⟨m, e1, e2, e3, e4, e5⟩ | ⟨e1, e2⟩
          · simp only [fateOf, hd0, Bool.false_eq_true, if_false, Option.some.injEq] at e1
            subst e1
            simp only [List.map_cons, List.sum_cons]
            have split : c.iceDensity / c.waterDensity * (n.iceFraction * n.height +
                (init.map fun n => n.iceFraction * n.height).sum - (o.1.iceFraction * o.1.height +
                (outs.map fun o => o.1.iceFraction * o.1.height).sum)) = iceLost c n (some o.1) +
                c.iceDensity / c.waterDensity * ((init.map fun n => n.iceFraction * n.height).sum -
                (outs.map fun o => o.1.iceFraction * o.1.height).sum) := by
              simp only [iceLost]; ring
            rw [split]
            rcases e5.lt_or_eq with hlt | heq
            · have := e3 hlt
              exact ⟨by linarith, fun _ => by linarith⟩
            · have := e4 heq
              refine ⟨by linarith, fun hne => ?_⟩
              have := i2 (fun he => hne (by rw [heq, he]))
              linarith
          · simp [fateOf, hd0] at e1
  obtain ⟨k1, k2⟩ := key init es outs h5 hinit hall h6
  have e : c.iceDensity / c.waterDensity *
      ((init.map fun n => n.iceFraction * n.height).sum - (outs.map fun o => o.1.iceFraction * o.1.height).sum) =
      c.iceDensity / c.waterDensity * ((init.map fun n => n.iceFraction * n.height).sum + (last.iceFraction * last.height + 0) -
        ((outs.map ((fun n : Node K => n.iceFraction * n.height) ∘ fun o => o.1)).sum + (last.iceFraction * last.height + 0))) := by
    simp only [Function.comp_def]; ring
  rw [← e]
  refine ⟨k1, fun hthin => k2 fun he => hthin ?_⟩
  have : (outs.map ((fun n : Node K => n.height) ∘ fun o => o.1)) = init.map fun n => n.height := he
  rw [this]

/-- **C27, general refutation.** Whenever no layer is removed and some layer melts, the returned melt is strictly less
than the water equivalent of the ice lost. -/
theorem C27_underreports {c : Consts K} (hc : c.Phys) {g g' : Grid K} {swnet dt melt si : K}
    (hn : ∀ n ∈ g.nodes, 0 < n.height ∧ 0 < n.iceFraction ∧ 0 ≤ n.lwc)
    (h : methodBintanja c g swnet dt = .ok (g', melt, si)) (hlen : g'.nodes.length = g.nodes.length)
    (hthin : (g'.nodes.map fun n => n.height) ≠ (g.nodes.map fun n => n.height)) :
    melt < c.iceDensity / c.waterDensity *
      ((g.nodes.map fun n => n.iceFraction * n.height).sum - (g'.nodes.map fun n => n.iceFraction * n.height).sum) :=
  (bintanja_underreports hc hn h hlen).2 hthin

end

section Witness

/-- Two layers, the upper one at melting point. -/
noncomputable def meltCol : Grid ℝ :=
  ⟨[⟨1/10, 273.16, 0, 1/2, 0⟩, ⟨1, 265, 0, 1, 0⟩], 2, 0, 0, 0⟩

/-- **C27 refuted.** On this column, with 100 W m⁻² for an hour and the shipped constants, the method returns, no layer
is removed, and the reported melt is less than the water equivalent of the ice lost. -/
theorem C27_refuted : ∃ g' melt si, methodBintanja (Consts.default ℝ) meltCol 100 3600 = .ok (g', melt, si) ∧
    g'.nodes.length = meltCol.nodes.length ∧
    melt < (Consts.default ℝ).iceDensity / (Consts.default ℝ).waterDensity *
      ((meltCol.nodes.map fun n => n.iceFraction * n.height).sum - (g'.nodes.map fun n => n.iceFraction * n.height).sum) := by
  have hn : ∀ n ∈ meltCol.nodes, 0 < n.height ∧ 0 < n.iceFraction ∧ 0 ≤ n.lwc := by
    intro n hn
    simp only [meltCol, List.mem_cons, List.not_mem_nil, or_false] at hn
    rcases hn with rfl | rfl <;> norm_num
  have hc : (Consts.default ℝ).Phys := Consts.default_phys
  obtain ⟨⟨g', melt, si⟩, hr⟩ := bintanja_returns (g := meltCol) hc rfl (by simp [meltCol]) hn 100 3600
  obtain ⟨top, rest, depths, init, last, es, outs, h1, h2, h3, h4, h5, h6, h7, h8, h9⟩ := bintanja_ok hr
  have hi : init = [⟨1/10, 273.16, 0, 1/2, 0⟩] ∧ last = ⟨1, 265, 0, 1, 0⟩ := by
    have : init ++ [last] = [(⟨1/10, 273.16, 0, 1/2, 0⟩ : Node ℝ)] ++ [⟨1, 265, 0, 1, 0⟩] := by rw [← h3]; rfl
    have := List.append_inj' this rfl
    simpa using this
  obtain ⟨rfl, rfl⟩ := hi
  have ht : top = ⟨1/10, 273.16, 0, 1/2, 0⟩ := by
    have : top :: rest = [(⟨1/10, 273.16, 0, 1/2, 0⟩ : Node ℝ), ⟨1, 265, 0, 1, 0⟩] := by rw [← h1]; rfl
    simp only [List.cons.injEq] at this
    exact this.1
  have hden : (⟨1/10, 273.16, 0, 1/2, 0⟩ : Node ℝ).density (Consts.default ℝ) = 459.05 := by
    unfold Node.density Node.airPorosity; rw [pyMax_eq]; norm_num [Consts.default]
  have hcoef : penCoeffs (Consts.default ℝ) top = (0.1, 17.1) := by
    rw [ht]; unfold penCoeffs; rw [hden, if_pos (by norm_num [Consts.default])]
  have hd : depths = [0.05, 0.6] := by
    have hgh : meltCol.getHeight = .ok [1/10, 1] := by rw [Grid.getHeight_eq (g := meltCol) rfl]; rfl
    unfold Grid.getDepth at h2
    rw [hgh, ok_bind, pure_eq_ok] at h2
    rw [← h2]; simp [Grid.depthFrom]; norm_num
  rw [hcoef, hd] at h4
  have hexp : ∃ x : ℝ, Real.exp (17.1 * -0.05) = x ∧ 0 < x ∧ x < 1 := ⟨_, rfl, Real.exp_pos _, by
    rw [Real.exp_lt_one_iff]; norm_num⟩
  obtain ⟨x, hx, hx0, hx1⟩ := hexp
  have hes : es = [10 * (1 - x)] := by
    rw [h4]
    simp only [penEnergy, List.map_cons, absDiff, List.length_cons, List.length_nil, List.take_succ_cons, List.take_zero, pyAbs_eq]
    have e0 : (Transc.exp (17.1 * -(0 : ℝ)) : ℝ) = 1 := by
      show Real.exp _ = 1; norm_num
    have e1 : (Transc.exp (17.1 * -(0.05 : ℝ)) : ℝ) = x := hx
    rw [e0, e1, abs_of_nonpos (by linarith)]
    norm_num
  rw [hes] at h6
  simp only [List.zip_cons_cons, List.zip_nil_right] at h6
  cases h6 with
  | @cons _ o _ outs hpo h6 =>
  cases h6
  have hT : radTemp (Consts.default ℝ) 3600 (10 * (1 - x)) ⟨1/10, 273.16, 0, 1/2, 0⟩ =
      273.16 + 10 * (1 - x) / (459.05 * 2050) * 36000 := by
    unfold radTemp; rw [hden]; norm_num [Consts.default]
  have hF : radFrac (Consts.default ℝ) 3600 (10 * (1 - x)) ⟨1/10, 273.16, 0, 1/2, 0⟩ =
      2050 * (10 * (1 - x) / (459.05 * 2050) * 36000) / 334000 := by
    unfold radFrac; rw [hT]; norm_num [Consts.default]
  have hthin : o.2.1 = false ∧ o.1.height < 1/10 := by
    rcases penLayer_cases hc (by norm_num) hpo with ⟨a1, rfl⟩ | ⟨a1, a2, rfl⟩ | ⟨a1, a2, rfl⟩
    · exfalso; rw [hT] at a1
      have : (Consts.default ℝ).zeroTemperature = 273.16 := rfl
      rw [this] at a1
      have : 0 < 10 * (1 - x) / (459.05 * 2050) * 36000 := by
        have : 0 < 1 - x := by linarith
        positivity
      linarith
    · refine ⟨rfl, ?_⟩
      simp only
      rw [hF]
      have : 0 < 2050 * (10 * (1 - x) / (459.05 * 2050) * 36000) / 334000 := by
        have : 0 < 1 - x := by linarith
        positivity
      linarith
    · exfalso; rw [hF, le_div_iff₀ (by norm_num)] at a2
      norm_num at a2
      linarith
  simp only [List.filter_cons, hthin.1, Bool.not_false, if_true, List.filter_nil, List.map_cons, List.map_nil,
    List.cons_append, List.nil_append] at h7
  have hg' : g'.nodes = [o.1, ⟨1, 265, 0, 1, 0⟩] := by rw [h7]
  refine ⟨g', melt, si, hr, by rw [hg']; rfl, ?_⟩
  exact C27_underreports hc hn hr (by rw [hg']; rfl) (by
    rw [hg']; simp only [meltCol, List.map_cons, List.map_nil]
    intro he
    simp only [List.cons.injEq, and_true] at he
    linarith [hthin.2])

end Witness
end Cosipy
