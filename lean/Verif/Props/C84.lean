import Verif.Lemmas.GridFuel
import Verif.Lemmas.FloatErr
import Verif.Props.C07
import Mathlib.Data.Rat.Floor

/-!
# C84 Remeshing terminates in double precision

`C07` shows that remeshing ends, in exact arithmetic where heights matter. With rounding, subtracting a thin target layer from a
large remaining height might change nothing, and the loop would go on for ever. That needs a first layer below about `2^-52` of the
height. (The adaptive method ends in any arithmetic: `C07_adaptive`.)
-/

set_option autoImplicit false
set_option linter.unusedSectionVars false

namespace Cosipy
section Generic
variable {α : Type} [LinearOrder α] [Zero α] [One α] [Add α] [Sub α] [Mul α] [Div α] [Neg α] [NatCast α] [OfScientific α] [Rounded α]

/-- Subtracting a target layer from a remaining height of at most `H` makes progress. -/
def Progresses (first H : α) (μ : α → ℕ) : Prop :=
  ∀ last hrest : α, first ≤ last → last ≤ hrest → hrest ≤ H → μ (hrest - last) + 1 ≤ μ hrest ∧ hrest - last ≤ H

theorem stretch_ge {c : Consts α} (h0 : 0 < c.firstLayerHeight) (h1 : 1 ≤ c.layerStretching) {x : α} (hx : c.firstLayerHeight ≤ x) :
    c.firstLayerHeight ≤ c.layerStretching * x := by
  have := Rounded.mul_mono_right (α := α) (h0.le.trans hx) h1
  rw [Rounded.one_mul] at this
  exact hx.trans this

/-- The snow loop of `log_profile`. -/
theorem logSnow_cases {s s' : Grid.LogState α} {fuel : Nat} {c : Consts α}
    (h : Grid.logSnowPass fuel c s = .ok (some s')) :
    s'.idx = s.idx + 1 ∧
    ((s.last ≤ s.hrest ∧ s.g.correctLayer fuel c s.idx s.last = .ok s'.g ∧ s'.hrest = s.hrest - s.last ∧
        s'.last = c.layerStretching * s.last) ∨
     (s.hrest < s.last ∧ 0 < s.idx ∧ s.g.mergeNodes (s.idx - 1) = .ok s'.g ∧ s'.hrest = s.hrest ∧ s'.last = s.last) ∨
     (s.hrest < s.last ∧ s.idx ≤ 0 ∧ s'.g = s.g ∧ s'.hrest = s.hrest ∧ s'.last = s.last)) := by
  unfold Grid.logSnowPass at h
  rw [bind_eq_ok] at h; obtain ⟨n, _, h⟩ := h
  split_ifs at h with h1 h2 h3
  · rw [bind_eq_ok] at h; obtain ⟨g1, hg1, h⟩ := h
    rw [pure_eq_ok] at h; cases h
    exact ⟨rfl, .inl ⟨h2, hg1, rfl, rfl⟩⟩
  · rw [bind_eq_ok] at h; obtain ⟨g1, hg1, h⟩ := h
    rw [pure_eq_ok] at h; cases h
    exact ⟨rfl, .inr (.inl ⟨h3.1, h3.2, hg1, rfl, rfl⟩)⟩
  · rw [pure_eq_ok] at h; cases h
    have h4 := not_le.1 h2
    exact ⟨rfl, .inr (.inr ⟨h4, not_lt.1 fun h5 => h3 ⟨h4, h5⟩, rfl, rfl, rfl⟩)⟩
  · cases h

/-- The glacier loop of `log_profile`. -/
theorem logIce_cases {s s' : Grid.LogState α} {fuel : Nat} {c : Consts α}
    (h : Grid.logIcePass fuel c s = .ok (some s')) :
    s.idx < s.g.numberNodes ∧ s'.idx = s.idx + 1 ∧
    ((s.last ≤ s.hrest ∧ s.g.correctLayer fuel c s.idx s.last = .ok s'.g ∧ s'.hrest = s.hrest - s.last ∧
        s'.last = c.layerStretching * s.last) ∨
     (s.hrest < s.last ∧ s.g.mergeNodes (s.idx - 1) = .ok s'.g ∧ s'.hrest = s.hrest ∧ s'.last = s.last)) := by
  unfold Grid.logIcePass at h
  split_ifs at h with h1 h2 h3
  · rw [bind_eq_ok] at h; obtain ⟨g1, hg1, h⟩ := h
    rw [pure_eq_ok] at h; cases h
    exact ⟨h1, rfl, .inl ⟨h2, hg1, rfl, rfl⟩⟩
  · rw [bind_eq_ok] at h; obtain ⟨g1, hg1, h⟩ := h
    rw [pure_eq_ok] at h; cases h
    exact ⟨h1, rfl, .inr ⟨h3, hg1, rfl, rfl⟩⟩
  · exact absurd (not_le.1 h2) h3
  · cases h

theorem snow_loop (c : Consts α) (g : Grid α) (hw : g.WF) (h0 : 0 < c.firstLayerHeight) (h1 : 1 ≤ c.layerStretching) {H : α} {μ : α → ℕ}
    (hn : Progresses c.firstLayerHeight H μ) :
    Terminates fun n => whileM (Grid.logSnowPass n c) n ⟨g, H, c.firstLayerHeight, 0⟩ := by
  refine Terminates.while (body := fun n => Grid.logSnowPass n c) (fun s => logSnowPass_mono c s)
    (fun s => s.g.WF ∧ c.firstLayerHeight ≤ s.last ∧ s.hrest ≤ H)
    (fun s => ((s.g.nodes.length : Int) - s.idx).toNat + μ s.hrest)
    (fun s hs => logSnowPass_terminates c hs.1) ?_ ⟨g, H, c.firstLayerHeight, 0⟩ ⟨hw, le_rfl, le_rfl⟩
  rintro n s s' ⟨hws, hl, hH⟩ hb
  have hlt := logSnowPass_lt hws hb
  have hws' := hws.logSnowPass hb
  obtain ⟨e, hcase⟩ := logSnow_cases hb
  rcases hcase with ⟨hle, hc, hr, hla⟩ | ⟨_, _, hc, hr, hla⟩ | ⟨_, _, hc, hr, hla⟩
  · obtain ⟨h3, h5⟩ := hn _ _ hl hle hH
    refine ⟨⟨hws', by rw [hla]; exact stretch_ge h0 h1 hl, by rw [hr]; exact h5⟩, ?_⟩
    have h4 := correctLayer_length hc
    rw [hr]; omega
  · refine ⟨⟨hws', by rw [hla]; exact hl, by rw [hr]; exact hH⟩, ?_⟩
    have h4 := mergeNodes_length hc
    rw [hr]; omega
  · refine ⟨⟨hws', by rw [hla]; exact hl, by rw [hr]; exact hH⟩, ?_⟩
    rw [hr, hc]; omega

theorem ice_loop (c : Consts α) (s : Grid.LogState α) (hw : s.g.WF) (h0 : 0 < c.firstLayerHeight) (h1 : 1 ≤ c.layerStretching)
    (hl : c.firstLayerHeight ≤ s.last) {μ : α → ℕ} (hn : Progresses c.firstLayerHeight s.hrest μ) :
    Terminates fun n => whileM (Grid.logIcePass n c) n s := by
  refine Terminates.while (body := fun n => Grid.logIcePass n c) (fun s => logIcePass_mono c s)
    (fun t => t.g.WF ∧ c.firstLayerHeight ≤ t.last ∧ t.hrest ≤ s.hrest)
    (fun s => ((s.g.nodes.length : Int) - s.idx).toNat + μ s.hrest)
    (fun s _ => logIcePass_terminates c s) ?_ s ⟨hw, hl, le_rfl⟩
  rintro n t t' ⟨hws, hl, hH⟩ hb
  have hws' := hws.logIcePass hb
  obtain ⟨hlt, e, hcase⟩ := logIce_cases hb
  rw [hws] at hlt
  rcases hcase with ⟨hle, hc, hr, hla⟩ | ⟨_, hc, hr, hla⟩
  · obtain ⟨h3, h5⟩ := hn _ _ hl hle hH
    refine ⟨⟨hws', by rw [hla]; exact stretch_ge h0 h1 hl, by rw [hr]; exact h5⟩, ?_⟩
    have h4 := correctLayer_length hc
    rw [hr]; omega
  · refine ⟨⟨hws', by rw [hla]; exact hl, by rw [hr]; exact hH⟩, ?_⟩
    have h4 := mergeNodes_length hc
    rw [hr]; omega

theorem log_loop (c : Consts α) (g : Grid α) (hw : g.WF) (h0 : 0 < c.firstLayerHeight) (h1 : 1 ≤ c.layerStretching)
    (hsnow : ∀ H, g.getTotalSnowheight c = .ok H → ∃ μ, Progresses c.firstLayerHeight H μ)
    (hice : ∀ n H s total snow, g.getTotalSnowheight c = .ok H →
      whileM (Grid.logSnowPass n c) n ⟨g, H, c.firstLayerHeight, 0⟩ = .ok s → s.g.getTotalHeight = .ok total →
      s.g.getTotalSnowheight c = .ok snow → ∃ μ, Progresses c.firstLayerHeight (total - snow) μ) :
    Terminates fun n => g.updateGrid n c := by
  apply updateGrid_terminates
  unfold Grid.remesh
  cases hm : c.remeshMethod with
  | adaptiveProfile => exact adaptiveProfile_terminates c g hw
  | other => exact .const fun h => by cases h
  | logProfile =>
    show Terminates fun n => g.logProfile n c
    unfold Grid.logProfile
    have e := Grid.getTotalSnowheight_eq (c := c) hw
    simp only [e, ok_bind]
    obtain ⟨μ, hμ⟩ := hsnow _ e
    refine Terminates.bind (snow_loop c g hw h0 h1 hμ) ?_
    intro s n hs
    obtain ⟨hws, hl⟩ := (whileM_ind hs (fun s : Grid.LogState α => s.g.WF ∧ c.firstLayerHeight ≤ s.last) ⟨hw, le_rfl⟩ (by
      rintro s s' ⟨hws, hl⟩ hb
      refine ⟨hws.logSnowPass hb, ?_⟩
      obtain ⟨e, hcase⟩ := logSnow_cases hb
      rcases hcase with ⟨_, _, _, hla⟩ | ⟨_, _, _, _, hla⟩ | ⟨_, _, _, _, hla⟩ <;> rw [hla]
      · exact stretch_ge h0 h1 hl
      · exact hl
      · exact hl)).1
    obtain ⟨ν, hν⟩ := hice n _ s _ _ e hs (Grid.getTotalHeight_eq hws) (Grid.getTotalSnowheight_eq hws c)
    simp only [Grid.getTotalSnowheight_eq hws, Grid.getTotalHeight_eq hws, Grid.getNumberSnowLayers_eq hws, ok_bind]
    refine Terminates.bind (ice_loop c ⟨s.g, _, s.last, _⟩ hws h0 h1 hl hν) ?_
    intro _ _ _
    exact .const fun h => by cases h

end Generic

section
variable {K : Type} [Field K] [LinearOrder K] [IsStrictOrderedRing K] [FloorRing K] {p : ℕ} {emin : ℤ} {hp : 23 ≤ p} {he : emin ≤ -30}

local notation "F" => Fl (binary K p emin hp he)

/-- The first layer is not negligible beside the height `H`: at least two units of roundoff (`2^-52 H` in double precision). -/
def NotNegligible (first H : F) : Prop := 2 * unitRoundoff K p * H.1 ≤ first.1

/-- Number of half first layers in a height. -/
noncomputable def halfLayers (first h : F) : ℕ := ⌊h.1 / (first.1 / 2)⌋₊

theorem halfLayers_drop {first last hrest H : F} (h0 : 0 < first) (h1 : first ≤ last) (h2 : last ≤ hrest) (hH : hrest ≤ H)
    (hn : NotNegligible first H) : halfLayers first (hrest - last) + 1 ≤ halfLayers first hrest ∧ hrest - last ≤ H := by
  have h0' : 0 < first.1 := h0
  have h1' : first.1 ≤ last.1 := h1
  have h2' : last.1 ≤ hrest.1 := h2
  have hH' : hrest.1 ≤ H.1 := hH
  have hu := unit_pos (K := K) (p := p)
  have hd : 0 ≤ hrest.1 - last.1 := sub_nonneg.2 h2'
  have hs := (abs_le.1 (sub_rel (Fl.kept hrest) (Fl.kept last))).2
  rw [abs_of_nonneg hd] at hs
  have hs' : (hrest - last).1 - (hrest.1 - last.1) ≤ unitRoundoff K p * (hrest.1 - last.1) := hs
  have hle : unitRoundoff K p * (hrest.1 - last.1) ≤ first.1 / 2 := by
    have : unitRoundoff K p * (hrest.1 - last.1) ≤ unitRoundoff K p * H.1 := mul_le_mul_of_nonneg_left (by linarith) hu.le
    unfold NotNegligible at hn
    linarith
  have hdrop : (hrest - last).1 ≤ hrest.1 - first.1 / 2 := by linarith
  refine ⟨?_, show (hrest - last).1 ≤ H.1 by linarith⟩
  have hnn : 0 ≤ (hrest - last).1 := by
    have := binRound_nonneg (p := p) (emin := emin) hd
    exact this
  have hpos : 0 < first.1 / 2 := by linarith
  unfold halfLayers
  apply Nat.le_floor
  push_cast
  have e1 : (hrest - last).1 / (first.1 / 2) ≤ hrest.1 / (first.1 / 2) - 1 := by
    rw [div_le_iff₀ hpos, sub_mul, div_mul_cancel₀ _ hpos.ne']; linarith
  have := Nat.floor_le (div_nonneg hnn hpos.le)
  linarith

theorem progresses {first H : F} (h0 : 0 < first) (hn : NotNegligible first H) : Progresses first H (halfLayers first) :=
  fun _ _ h1 h2 hH => halfLayers_drop h0 h1 h2 hH hn

/-- **C84, snow part.** The loop over the snow layers ends whatever the column, if the first layer is not negligible beside the
height still to be distributed. -/
theorem C84_snow_loop (c : Consts F) (g : Grid F) (hw : g.WF) (h0 : 0 < c.firstLayerHeight) (h1 : 1 ≤ c.layerStretching) {H : F}
    (hn : NotNegligible c.firstLayerHeight H) :
    Terminates fun n => whileM (Grid.logSnowPass n c) n ⟨g, H, c.firstLayerHeight, 0⟩ :=
  snow_loop c g hw h0 h1 (progresses h0 hn)

/-- **C84, glacier part.** The same for the loop over the glacier layers, from any state the first loop can leave. -/
theorem C84_ice_loop (c : Consts F) (s : Grid.LogState F) (hw : s.g.WF) (h0 : 0 < c.firstLayerHeight) (h1 : 1 ≤ c.layerStretching)
    (hl : c.firstLayerHeight ≤ s.last) (hn : NotNegligible c.firstLayerHeight s.hrest) :
    Terminates fun n => whileM (Grid.logIcePass n c) n s :=
  ice_loop c s hw h0 h1 hl (progresses h0 hn)

/-- **C84**: logarithmic remeshing terminates in binary floating point, if the first layer is not negligible beside the snow height
it starts with and the glacier height `total - snow` it computes half way. -/
theorem C84_log (c : Consts F) (g : Grid F) (hw : g.WF) (h0 : 0 < c.firstLayerHeight) (h1 : 1 ≤ c.layerStretching)
    (hsnow : ∀ H, g.getTotalSnowheight c = .ok H → NotNegligible c.firstLayerHeight H)
    (hice : ∀ n H s total snow, g.getTotalSnowheight c = .ok H →
      whileM (Grid.logSnowPass n c) n ⟨g, H, c.firstLayerHeight, 0⟩ = .ok s → s.g.getTotalHeight = .ok total →
      s.g.getTotalSnowheight c = .ok snow → NotNegligible c.firstLayerHeight (total - snow)) :
    Terminates fun n => g.updateGrid n c :=
  log_loop c g hw h0 h1 (fun H h => ⟨_, progresses h0 (hsnow H h)⟩)
    fun n H s total snow e1 e2 e3 e4 => ⟨_, progresses h0 (hice n H s total snow e1 e2 e3 e4)⟩

end

/-! ## In double precision -/

section
private abbrev D64 := Fl (binary ℚ 52 (-1022) (by norm_num) (by norm_num))

/-- The first layer of the shipped settings (1 cm) is not negligible beside ten thousand kilometres. -/
example : NotNegligible (K := ℚ) (p := 52) (Consts.default D64).firstLayerHeight 10000000 := by
  show 2 * unitRoundoff ℚ 52 * (10000000 : D64).1 ≤ (Consts.default D64).firstLayerHeight.1
  unfold unitRoundoff
  decide +kernel

/-- Two metres of snow on ice. -/
private def exColD : Grid D64 := ⟨[⟨2, 270, 0, 0.3, 0⟩, ⟨50, 270, 0, 1, 0⟩], 2, 0, 0, 0⟩

/-- The snow loop of the shipped settings ends on it. -/
example : Terminates fun n => whileM (Grid.logSnowPass n (Consts.default D64)) n ⟨exColD, 2, (Consts.default D64).firstLayerHeight, 0⟩ :=
  C84_snow_loop (p := 52) _ exColD (show exColD.WF from rfl) (by show (0 : D64) < _; decide +kernel) (by show (1 : D64) ≤ _; decide +kernel) (by
    show 2 * unitRoundoff ℚ 52 * (2 : D64).1 ≤ (Consts.default D64).firstLayerHeight.1
    unfold unitRoundoff
    decide +kernel)

/-- Two layers of ice. -/
private def exIceD : Grid D64 := ⟨[⟨2, 270, 0, 1, 0⟩, ⟨50, 270, 0, 1, 0⟩], 2, 0, 0, 0⟩

/-- Remeshing them ends: all hypotheses of `C84_log` hold. -/
example : Terminates fun n => exIceD.updateGrid n (Consts.default D64) := by
  have hw : exIceD.WF := rfl
  have hsnow := Grid.getTotalSnowheight_eq hw (Consts.default D64)
  have hz : Grid.nSnow (Consts.default D64) exIceD.nodes = 0 := by decide +kernel
  have hloop : ∀ n H s, whileM (Grid.logSnowPass n (Consts.default D64)) n ⟨exIceD, H, (Consts.default D64).firstLayerHeight, 0⟩ = .ok s →
      s.g = exIceD := by
    intro n H s h
    cases n with
    | zero => cases h
    | succ n =>
      rw [whileM] at h
      have : Grid.logSnowPass (n + 1) (Consts.default D64) ⟨exIceD, H, (Consts.default D64).firstLayerHeight, 0⟩ = .ok none := by
        unfold Grid.logSnowPass
        rw [Grid.getNumberSnowLayers_eq hw, ok_bind, hz]
        rfl
      rw [this] at h
      cases h
      rfl
  refine C84_log (p := 52) _ exIceD hw (by show (0 : D64) < _; decide +kernel) (by show (1 : D64) ≤ _; decide +kernel) ?_ ?_
  · intro H h
    rw [hsnow, ok_inj, hz] at h
    subst h
    show 2 * unitRoundoff ℚ 52 * (0 : D64).1 ≤ (Consts.default D64).firstLayerHeight.1
    unfold unitRoundoff
    decide +kernel
  · intro n H s total snow _ hs ht hn
    rw [hloop n H s hs] at ht hn
    rw [hsnow, ok_inj, hz] at hn
    rw [Grid.getTotalHeight_eq hw, ok_inj] at ht
    subst hn; subst ht
    show 2 * unitRoundoff ℚ 52 * (pySum (exIceD.nodes.map Node.height) - 0 : D64).1 ≤ (Consts.default D64).firstLayerHeight.1
    unfold unitRoundoff
    decide +kernel

/-- The condition cannot be dropped: subtracting a layer of half a unit of roundoff from a metre changes nothing. -/
example : (1 - Fl.mk _ (2 ^ (-54 : ℤ)) : D64) = 1 ∧ 0 < Fl.mk (binary ℚ 52 (-1022) (by norm_num) (by norm_num)) (2 ^ (-54 : ℤ)) := by decide +kernel

end
end Cosipy
