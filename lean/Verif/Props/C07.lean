import Verif.Lemmas.GridFuel
import Verif.Lemmas.Remesh
import Mathlib.Algebra.Order.Floor.Semiring
import Mathlib.Data.Rat.Floor

/-!
# C07 Remeshing always terminates
-/

set_option autoImplicit false
set_option linter.unusedSectionVars false

namespace Cosipy
section AnyArithmetic
variable {α : Type} [Add α] [Sub α] [Mul α] [Div α] [Neg α] [LT α] [LE α]
  [DecidableLT α] [DecidableLE α] [BEq α] [Zero α] [One α] [NatCast α] [OfScientific α]

/-- **C07**: `correct_layer` terminates on every grid, index and target, in any arithmetic (NaN included). -/
theorem C07_correct_layer (c : Consts α) (g : Grid α) (i : Int) (h : α) :
    Terminates fun n => g.correctLayer n c i h := correctLayer_terminates c g i h

theorem updateGrid_terminates (c : Consts α) (g : Grid α) (h : Terminates fun n => g.remesh n c) :
    Terminates fun n => g.updateGrid n c := by
  unfold Grid.updateGrid
  refine Terminates.bind h fun g1 _ _ => Terminates.bind (.const (pyGet_nd _ _)) fun a _ _ => ?_
  refine Terminates.ite (fun _ => .const (removeNode_nd _ _)) fun _ => .const fun h => by cases h

/-- **C07**: with adaptive remeshing (or an unknown `remesh_method`, which does nothing) `update_grid()` terminates on
every grid, in any arithmetic. -/
theorem C07_adaptive (c : Consts α) (g : Grid α) (hw : g.WF) (hm : c.remeshMethod ≠ .logProfile) :
    Terminates fun n => g.updateGrid n c := by
  apply updateGrid_terminates
  unfold Grid.remesh
  cases h : c.remeshMethod with
  | logProfile => exact absurd h hm
  | adaptiveProfile => exact adaptiveProfile_terminates c g hw
  | other => exact .const fun h => by cases h

theorem logSnowPass_lt {fuel : Nat} {c : Consts α} {s s' : Grid.LogState α} (hw : s.g.WF)
    (h : Grid.logSnowPass fuel c s = .ok (some s')) : s.idx < (s.g.nodes.length : Int) := by
  unfold Grid.logSnowPass at h
  rw [Grid.getNumberSnowLayers_eq hw, ok_bind] at h
  have := Grid.nSnow_le c s.g.nodes
  by_cases hc : s.idx < (Grid.nSnow c s.g.nodes : Int)
  · omega
  · rw [if_neg hc] at h; cases h

end AnyArithmetic

section Field
variable {K : Type} [Field K] [LinearOrder K] [IsStrictOrderedRing K] [FloorSemiring K]

theorem floor_drop {hrest last first : K} (h0 : 0 < first) (h1 : first ≤ last) (h2 : last ≤ hrest) :
    ⌊(hrest - last) / first⌋₊ + 1 ≤ ⌊hrest / first⌋₊ := by
  have e1 : 1 ≤ hrest / first := (one_le_div h0).2 (h1.trans h2)
  have e2 : (hrest - last) / first ≤ hrest / first - 1 := by
    rw [sub_div]; exact sub_le_sub_left ((one_le_div h0).2 h1) _
  have e3 : (0 : K) ≤ (hrest - last) / first := div_nonneg (sub_nonneg.2 h2) h0.le
  apply Nat.le_floor
  push_cast
  have := Nat.floor_le e3
  linarith

theorem logProfile_terminates (c : Consts K) (g : Grid K) (hw : g.WF) (h0 : 0 < c.firstLayerHeight)
    (h1 : 1 ≤ c.layerStretching) : Terminates fun n => g.logProfile n c := by
  unfold Grid.logProfile
  simp only [Grid.getTotalSnowheight_eq hw, ok_bind]
  have hstretch : ∀ x : K, c.firstLayerHeight ≤ x → c.firstLayerHeight ≤ c.layerStretching * x := by
    intro x hx; nlinarith
  refine Terminates.bind (Terminates.while (body := fun n => Grid.logSnowPass n c) (fun s => logSnowPass_mono c s)
    (fun s => s.g.WF ∧ c.firstLayerHeight ≤ s.last)
    (fun s => ((s.g.nodes.length : Int) - s.idx).toNat + ⌊s.hrest / c.firstLayerHeight⌋₊)
    (fun s hs => logSnowPass_terminates c hs.1) ?_ _ ⟨hw, le_rfl⟩) ?_
  · rintro n s s' ⟨hws, hl⟩ hb
    have hlt := logSnowPass_lt hws hb
    have hws' := hws.logSnowPass hb
    obtain ⟨e, hcase⟩ := logSnowPass_ok hb
    rcases hcase with ⟨hle, hc, hr, hla⟩ | ⟨_, _, hc, hr, hla⟩ | ⟨_, _, hc, hr, hla⟩
    · refine ⟨⟨hws', by rw [hla]; exact hstretch _ hl⟩, ?_⟩
      have h3 := floor_drop h0 hl hle
      have h4 := correctLayer_length hc
      rw [hr]; omega
    · refine ⟨⟨hws', by rw [hla]; exact hl⟩, ?_⟩
      have h4 := mergeNodes_length hc
      rw [hr]; omega
    · refine ⟨⟨hws', by rw [hla]; exact hl⟩, ?_⟩
      rw [hr, hc]; omega
  intro s n hs
  obtain ⟨hws, hl⟩ := (whileM_ind hs (fun s : Grid.LogState K => s.g.WF ∧ c.firstLayerHeight ≤ s.last) ⟨hw, le_rfl⟩ (by
    rintro s s' ⟨hws, hl⟩ hb
    refine ⟨hws.logSnowPass hb, ?_⟩
    obtain ⟨e, hcase⟩ := logSnowPass_ok hb
    rcases hcase with ⟨_, _, _, hla⟩ | ⟨_, _, _, _, hla⟩ | ⟨_, _, _, _, hla⟩ <;> rw [hla]
    · exact hstretch _ hl
    · exact hl
    · exact hl)).1
  simp only [Grid.getTotalSnowheight_eq hws, Grid.getTotalHeight_eq hws, Grid.getNumberSnowLayers_eq hws, ok_bind]
  refine Terminates.bind (Terminates.while (body := fun n => Grid.logIcePass n c) (fun s => logIcePass_mono c s)
    (fun s => s.g.WF ∧ c.firstLayerHeight ≤ s.last)
    (fun s => ((s.g.nodes.length : Int) - s.idx).toNat + ⌊s.hrest / c.firstLayerHeight⌋₊)
    (fun s _ => logIcePass_terminates c s) ?_ _ ⟨hws, hl⟩) fun _ _ _ => .const fun h => by cases h
  rintro n s s' ⟨hws, hl⟩ hb
  have hws' := hws.logIcePass hb
  obtain ⟨hlt, e, hcase⟩ := logIcePass_ok hb
  rw [hws] at hlt
  rcases hcase with ⟨hle, hc, hr, hla⟩ | ⟨_, hc, hr, hla⟩
  · refine ⟨⟨hws', by rw [hla]; exact hstretch _ hl⟩, ?_⟩
    have h3 := floor_drop h0 hl hle
    have h4 := correctLayer_length hc
    rw [hr]; omega
  · refine ⟨⟨hws', by rw [hla]; exact hl⟩, ?_⟩
    have h4 := mergeNodes_length hc
    rw [hr]; omega

/-- **C07**: with logarithmic remeshing `update_grid()` terminates on every column whenever
`first_layer_height > 0` and `layer_stretching ≥ 1`. -/
theorem C07_log (c : Consts K) (g : Grid K) (hw : g.WF) (h0 : 0 < c.firstLayerHeight) (h1 : 1 ≤ c.layerStretching) :
    Terminates fun n => g.updateGrid n c := by
  apply updateGrid_terminates
  unfold Grid.remesh
  cases h : c.remeshMethod with
  | logProfile => exact logProfile_terminates c g hw h0 h1
  | adaptiveProfile => exact adaptiveProfile_terminates c g hw
  | other => exact .const fun h => by cases h

end Field

section Diverge
variable {K : Type} [Field K] [LinearOrder K] [IsStrictOrderedRing K]

/-- Settings with a shrinking layer sequence: 0.5 m, 0.25 m, 0.125 m, … -/
def cShrink : Consts K := { Consts.default K with firstLayerHeight := 1 / 2, layerStretching := 1 / 2 }
/-- One metre of dry snow. -/
def snowMetre : Grid K := ⟨[⟨1, 270, 0, 3 / 10, 0⟩], 1, 0, 0, 0⟩

theorem dry_density (n : Node K) (h1 : n.lwc = 0) (h2 : n.iceFraction = 3 / 10) :
    n.density cShrink < (cShrink (K := K)).snowIceThreshold := by
  simp only [Node.density, Node.airPorosity, pyMax_eq, h1, h2, cShrink, Consts.default]
  rw [max_eq_right (by norm_num)]; norm_num

theorem nSnow_all (c : Consts K) (ns : List (Node K)) (h : ∀ n ∈ ns, n.density c < c.snowIceThreshold) :
    Grid.nSnow c ns = ns.length := by
  unfold Grid.nSnow
  rw [List.filter_eq_self.2]
  intro n hn
  simpa using h n hn

/-- State of the endless loop: the remaining snow is one dry layer twice as thick as the next target. -/
def ShrinkInv (s : Grid.LogState K) : Prop :=
  ∃ pre r, s.g.nodes = pre ++ [⟨2 * s.last, 270, 0, 3 / 10, r⟩] ∧ (pre.length : Int) = s.idx ∧ s.g.WF ∧ 0 < s.last ∧
    s.hrest = 2 * s.last ∧ ∀ n ∈ pre, n.lwc = 0 ∧ n.iceFraction = 3 / 10

theorem shrink_step (m : Nat) (s : Grid.LogState K) (hs : ShrinkInv s) :
    ∃ s', Grid.logSnowPass (m + 1) cShrink s = .ok (some s') ∧ ShrinkInv s' := by
  obtain ⟨pre, r, hd, hl, hw, h0, hr, hall⟩ := hs
  have hn : Grid.nSnow cShrink s.g.nodes = pre.length + 1 := by
    rw [nSnow_all, hd]
    · simp
    · intro n hn
      rw [hd] at hn
      rcases List.mem_append.1 hn with hn | hn
      · exact dry_density n (hall n hn).1 (hall n hn).2
      · simp at hn; subst hn; exact dry_density _ rfl rfl
  have hnode : s.g.node s.idx = .ok ⟨2 * s.last, 270, 0, 3 / 10, r⟩ := node_of_decomp (post := []) (by rw [hd]) hl
  -- the merging loop stops at once
  have hloop : whileM (Grid.correctLayerPass cShrink s.idx s.last) (m + 1) s.g = .ok s.g := by
    rw [whileM]
    have : Grid.correctLayerPass cShrink s.idx s.last s.g = .ok none := by
      unfold Grid.correctLayerPass
      rw [hnode, ok_bind, if_neg]
      · rfl
      · rintro ⟨hlt, _⟩
        simp only at hlt; linarith
    rw [this]
  have hsplit : ∃ g', Grid.correctLayerSplit cShrink s.idx s.last s.g = .ok g' ∧
      g'.nodes = (pre ++ [⟨s.last, 270, 0, 3 / 10, r⟩]) ++ [⟨s.last, 270, 0, 3 / 10, 0⟩] := by
    rcases hg : Grid.correctLayerSplit cShrink s.idx s.last s.g with e | g'
    · exfalso
      unfold Grid.correctLayerSplit at hg
      rw [hnode, ok_bind, if_pos (by simp only; linarith)] at hg
      have hirr : (⟨2 * s.last, 270, 0, 3 / 10, r⟩ : Node K).irreducibleWaterContent =
          .ok (0.08 - 0.1023 * ((3 / 10 : K) - 0.03)) := by
        unfold Node.irreducibleWaterContent
        rw [if_neg (by norm_num), if_pos (by norm_num)]
      rw [hirr, ok_bind] at hg
      dsimp only at hg
      rw [fdiv_of_ne h0.ne', ok_bind, fdiv_of_ne (by linarith), ok_bind] at hg
      have hlt : pre.length < s.g.nodes.length := by rw [hd]; simp
      have hu := fun H T F W => (Grid.updateNode_eq_ok (g := s.g) (i := s.idx) (h := H) (t := T) (f := F) (w := W)
        (g' := { s.g with nodes := s.g.nodes.modify pre.length (Grid.upd H T F W) })).2
          ⟨pre.length, by rw [← hl]; exact normIdx_of_nat hlt, rfl⟩
      rw [hu, ok_bind] at hg
      have hnode2 := fun f : Node K → Node K =>
        node_of_decomp (g := { s.g with nodes := s.g.nodes.modify pre.length f }) (i := s.idx) (pre := pre) (post := [])
          (a := f ⟨2 * s.last, 270, 0, 3 / 10, r⟩) (by simp only; rw [hd, modify_pre]) hl
      rw [hnode2, ok_bind] at hg
      cases hg
    · refine ⟨g', rfl, ?_⟩
      rcases correctSplit_ok (by omega) hd hl hg with ⟨hn, _⟩ | ⟨x, y, hs, rfl⟩
      · simp only at hn; exfalso; apply hn; linarith
      · obtain ⟨θ, hθ, _, _, _, rfl, rfl⟩ := hs.ex
        have : ¬ (0 : K) < 0 - θ := by
          unfold Node.irreducibleWaterContent at hθ
          rw [if_neg (by norm_num), if_pos (by norm_num)] at hθ
          cases hθ; norm_num
        simp only [if_neg this, zero_mul, zero_div]
        have e : 2 * s.last - s.last = s.last := by ring
        rw [e]; simp
  obtain ⟨g', hg', hd'⟩ := hsplit
  have hcorr : s.g.correctLayer (m + 1) cShrink s.idx s.last = .ok g' := by
    unfold Grid.correctLayer; rw [hloop, ok_bind, hg']
  refine ⟨⟨g', s.hrest - s.last, (cShrink (K := K)).layerStretching * s.last, s.idx + 1⟩, ?_, ?_⟩
  · unfold Grid.logSnowPass
    rw [Grid.getNumberSnowLayers_eq hw, ok_bind, hn, if_pos (by omega), if_pos (by rw [hr]; linarith), hcorr, ok_bind]
    rfl
  · have e2 : (cShrink (K := K)).layerStretching * s.last = s.last / 2 := by simp only [cShrink]; ring
    simp only [ShrinkInv, e2]
    refine ⟨pre ++ [⟨s.last, 270, 0, 3 / 10, r⟩], 0, ?_, ?_, hw.correctLayer hcorr, by linarith, ?_, ?_⟩
    · rw [hd']; simp; ring
    · simp; omega
    · rw [hr]; ring
    · intro n hn
      rcases List.mem_append.1 hn with hn | hn
      · exact hall n hn
      · simp at hn; subst hn; exact ⟨rfl, rfl⟩

/-- **C07** (limit): with `layer_stretching < 1` `update_grid()` can run forever: one metre of dry snow,
`first_layer_height = 0.5 m`, `layer_stretching = 0.5`. -/
theorem C07_shrinking_diverges : Diverges fun n => (snowMetre (K := K)).updateGrid n cShrink := by
  have hw : (snowMetre (K := K)).WF := by simp [snowMetre, Grid.WF]
  intro n
  have hlog : (snowMetre (K := K)).logProfile n cShrink = .error .diverge := by
    unfold Grid.logProfile
    rw [Grid.getTotalSnowheight_eq hw, ok_bind]
    cases n with
    | zero => rw [whileM, error_bind]
    | succ m =>
      have hn : Grid.nSnow cShrink (snowMetre (K := K)).nodes = 1 := by
        rw [nSnow_all]
        · rfl
        · intro n hn
          simp [snowMetre] at hn; subst hn; exact dry_density _ rfl rfl
      rw [whileM_diverges ShrinkInv (shrink_step m) (m + 1), error_bind]
      refine ⟨[], 0, ?_, rfl, hw, by simp [cShrink], ?_, by simp⟩
      · simp [snowMetre, cShrink]
      · rw [hn, pySum_eq]; simp [snowMetre, cShrink]
  show (snowMetre (K := K)).updateGrid n cShrink = _
  unfold Grid.updateGrid Grid.remesh
  rw [show (cShrink (K := K)).remeshMethod = .logProfile from rfl]
  simp only [hlog, error_bind]

end Diverge

/-! Non-vacuity: the shipped constants satisfy the hypotheses, and the outcome is a proper result. -/
example : (0 : ℚ) < (Consts.default ℚ).firstLayerHeight ∧ 1 ≤ (Consts.default ℚ).layerStretching ∧
    ((⟨[⟨1/50, 265, 0, 3/10, 0⟩, ⟨1/2, 270, 0, 1, 0⟩], 2, 0, 0, 0⟩ : Grid ℚ).updateGrid 50 (Consts.default ℚ)).isOk := by
  decide +kernel

end Cosipy
