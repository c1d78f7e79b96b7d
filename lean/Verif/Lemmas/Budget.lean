import Verif.Lemmas.Physical
import Verif.Props.C05
import Verif.Props.C06
import Verif.Props.C11
import Verif.Props.C18
import Verif.Spec.Budget

/-! Mass of a column along the stages of a step. -/

set_option autoImplicit false
set_option linter.unusedSectionVars false

namespace Cosipy
section
variable {K : Type} [Field K] [LinearOrder K] [IsStrictOrderedRing K]

theorem columnMass_append (c : Consts K) (a b : List (Node K)) : columnMass c (a ++ b) = columnMass c a + columnMass c b := by
  simp [columnMass, columnSum]

theorem columnMass_cons (c : Consts K) (a : Node K) (b : List (Node K)) : columnMass c (a :: b) = a.mass c + columnMass c b := by
  simp [columnMass, columnSum]

theorem columnMass_eq (c : Consts K) (ns : List (Node K)) :
    columnMass c ns = c.iceDensity * sumIce ns + c.waterDensity * sumWater ns := by
  induction ns with
  | nil => simp [columnMass, columnSum, sumIce, sumWater]
  | cons n ns ih =>
    have e1 : sumIce (n :: ns) = n.height * n.iceFraction + sumIce ns := by simp [sumIce, columnSum]
    have e2 : sumWater (n :: ns) = n.height * n.lwc + sumWater ns := by simp [sumWater, columnSum]
    rw [columnMass_cons, ih, e1, e2]; unfold Node.mass; ring

theorem SameTotals.mass {c : Consts K} {ns ms : List (Node K)} (h : SameTotals ns ms) : columnMass c ns = columnMass c ms := by
  rw [columnMass_eq, columnMass_eq, h.ice, h.water]

theorem sumWeq_mass {c : Consts K} (hw : c.waterDensity ≠ 0) (ns : List (Node K)) :
    c.waterDensity * sumWeq c ns = columnMass c ns + airMass c ns := by
  induction ns with
  | nil => simp [sumWeq, columnMass, airMass, columnSum]
  | cons n ns ih =>
    have e1 : sumWeq c (n :: ns) = n.weq c + sumWeq c ns := by simp [sumWeq, columnSum]
    have e2 : airMass c (n :: ns) = n.height * (max 0 (1 - n.lwc - n.iceFraction)) * c.airDensity + airMass c ns := by
      simp [airMass, columnSum]
    rw [columnMass_cons, e1, e2, mul_add, ih]
    unfold Node.weq Node.mass Node.density Node.airPorosity
    rw [pyMax_eq]
    field_simp
    ring

theorem SameTotals.rotate {a : Node K} {ns ms : List (Node K)} (h : SameTotals (a :: ns) ms) : SameTotals (ns ++ [a]) ms := by
  refine ⟨?_, ?_, ?_, ?_⟩
  · rw [← h.height]; simp [sumHeight, columnSum, add_comm]
  · rw [← h.ice]; simp [sumIce, columnSum, add_comm]
  · rw [← h.water]; simp [sumWater, columnSum, add_comm]
  · rw [← h.heat]; simp [sumHeat, columnSum, add_comm]

/-- The layers `adaptive_profile()` deletes are thin and satisfy every property closed under merging and splitting. -/
theorem adaptiveProfile_removed {P : Node K → Prop} (hP : Closed P) {g g' : Grid K} {fuel : Nat} {c : Consts K} (hw : g.WF)
    (ha : ∀ n ∈ g.nodes, P n) (h : g.adaptiveProfile fuel c = .ok g') :
    ∃ removed : List (Node K), (∀ n ∈ removed, n.height ≤ c.minimumSnowLayerHeight ∧ P n) ∧
      SameTotals (g'.nodes ++ removed) g.nodes := by
  obtain ⟨s, n, g2, g3, i2, i3, h1, hn, h2, h3, h4⟩ := adaptiveProfile_cases h
  have k1 := (whileM_ind h1
    (fun s : Grid.AdaptState K => s.g.WF ∧ 0 ≤ s.idx ∧ (∀ n ∈ s.g.nodes, P n) ∧ ∃ removed : List (Node K),
      (∀ n ∈ removed, n.height ≤ c.minimumSnowLayerHeight ∧ P n) ∧ SameTotals (s.g.nodes ++ removed) g.nodes)
    ⟨hw, le_rfl, ha, [], by simp, by simpa using SameTotals.refl _⟩ (by
      rintro s s' ⟨hws, hi, hall, rm, hrm, ht⟩ hb
      refine ⟨hws.adaptSnowPass hb, ?_⟩
      rcases adaptSnowPass_ok hi hb with ⟨e, _, _, hm⟩ | ⟨e, _, pre, a, post, hd, _, hle, hg⟩ | ⟨e, _, hg⟩
      · exact ⟨by omega, hP.mergeNodes hall hm, rm, hrm, ((mergeNodes_totals hi hm).append (SameTotals.refl rm)).trans ht⟩
      · refine ⟨by omega, ?_, a :: rm, ?_, ?_⟩
        · intro n hn
          refine hall n ?_
          rw [hg] at hn; rw [hd]
          simp only [List.mem_append, List.mem_cons] at hn ⊢
          tauto
        · intro n hn
          rcases List.mem_cons.1 hn with rfl | hn
          · exact ⟨hle, hall n (by rw [hd]; simp)⟩
          · exact hrm n hn
        · refine SameTotals.trans ?_ ht
          rw [hg, hd]
          constructor <;> simp [sumHeight, sumIce, sumWater, sumHeat] <;> ring
      · exact ⟨by omega, by rw [hg]; exact hall, rm, hrm, by rw [hg]; exact ht⟩)).1
  obtain ⟨hw1, _, _, rm, hrm, ht⟩ := k1
  refine ⟨rm, hrm, ?_⟩
  have h2' : g2.WF ∧ 0 ≤ i2 ∧ SameTotals g2.nodes s.g.nodes := by
    rcases h2 with ⟨rfl, rfl⟩ | ⟨hc, rfl⟩
    · exact ⟨hw1, by omega, SameTotals.refl _⟩
    · exact ⟨hw1.correctLayer hc, by omega, correctLayer_totals (by omega) hw1 hc⟩
  have k3 := (whileM_ind h3 (fun p : Grid K × Int => p.1.WF ∧ 0 ≤ p.2 ∧ SameTotals p.1.nodes s.g.nodes) h2' (by
      rintro p p' ⟨hwp, hi, ht⟩ hb
      refine ⟨hwp.adaptIcePass hb, ?_⟩
      obtain ⟨_, ⟨e, hm⟩ | ⟨e, hm⟩⟩ := adaptIcePass_ok hb
      · exact ⟨by omega, (mergeNodes_totals hi hm).trans ht⟩
      · exact ⟨by omega, by rw [hm]; exact ht⟩)).1
  exact (((correctLayer_totals le_rfl k3.1 h4).trans k3.2.2).append (SameTotals.refl rm)).trans ht

/-- Remeshing loses at most layers not thicker than the minimum height, and these are as physical as the column was. -/
theorem updateGrid_thin {P : Node K → Prop} (hP : Closed P) {g g' : Grid K} {fuel : Nat} {c : Consts K} (hw : g.WF)
    (hf : 0 < c.firstLayerHeight) (hs : 0 < c.layerStretching) (ha : ∀ n ∈ g.nodes, P n)
    (h : g.updateGrid fuel c = .ok g') :
    ∃ thin : List (Node K), (∀ n ∈ thin, n.height ≤ c.minimumSnowLayerHeight ∧ P n) ∧
      SameTotals (g'.nodes ++ thin) g.nodes := by
  obtain ⟨g1, top, rest, hr, hd, hcase⟩ := updateGrid_cases h
  have hall := hP.remesh hw hf hs ha hr
  obtain ⟨rm, hrm, ht⟩ : ∃ rm : List (Node K), (∀ n ∈ rm, n.height ≤ c.minimumSnowLayerHeight ∧ P n) ∧
      SameTotals (g1.nodes ++ rm) g.nodes := by
    unfold Grid.remesh at hr
    split at hr
    · rcases C05_log_profile_alone hw hr with h1 | h1
      · exact ⟨[], by simp, by simpa using h1⟩
      · rw [h1] at hd; cases hd
    · exact adaptiveProfile_removed hP hw ha hr
    · cases hr; exact ⟨[], by simp, by simpa using SameTotals.refl _⟩
  rcases hcase with ⟨_, rfl⟩ | ⟨hc, rfl⟩
  · exact ⟨rm, hrm, ht⟩
  · refine ⟨top :: rm, ?_, SameTotals.trans ?_ ht⟩
    · intro n hn
      rcases List.mem_cons.1 hn with rfl | hn
      · exact ⟨hc.le, hall n (by rw [hd]; simp)⟩
      · exact hrm n hn
    · rw [hd]
      constructor <;> simp [sumHeight, sumIce, sumWater, sumHeat] <;> ring

theorem columnMass_nonneg {c : Consts K} (hc : c.Phys) {ns : List (Node K)}
    (h : ∀ n ∈ ns, 0 < n.height ∧ 0 ≤ n.iceFraction ∧ 0 ≤ n.lwc) : 0 ≤ columnMass c ns := by
  induction ns with
  | nil => simp [columnMass, columnSum]
  | cons n ns ih =>
    have := h n (by simp)
    have h1 := hc.ice
    have h2 := hc.water
    rw [columnMass_cons]
    refine add_nonneg ?_ (ih fun m hm => h m (by simp [hm]))
    unfold Node.mass
    have := this.1.le
    have := (h n (by simp)).2.1
    have := (h n (by simp)).2.2
    positivity

end
end Cosipy
