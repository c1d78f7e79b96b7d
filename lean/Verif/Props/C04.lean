import Verif.Lemmas.Correct
import Verif.Props.C03

/-!
# C04 Adjusting a layer to a target height conserves the column and never mixes snow and ice
-/

set_option autoImplicit false

namespace Cosipy
section
variable {K : Type} [Field K] [LinearOrder K] [IsStrictOrderedRing K]

/-- A layer below the snow/ice threshold. -/
def IsSnow (c : Consts K) (n : Node K) : Prop := n.density c < c.snowIceThreshold
/-- A layer at or above the snow/ice threshold. -/
def IsIce (c : Consts K) (n : Node K) : Prop := c.snowIceThreshold ≤ n.density c
/-- A layer of positive height whose volume fractions leave room for air. -/
def Sound (n : Node K) : Prop := 0 < n.height ∧ n.iceFraction + n.lwc ≤ 1

theorem merged_sound {a b : Node K} (ha : Sound a) (hb : Sound b) : Sound (Grid.merged a b) := by
  obtain ⟨u, v, hu, hv, huv, _, hi, hw⟩ := merged_weights ha.1 hb.1
  refine ⟨add_pos ha.1 hb.1, ?_⟩
  rw [hi, hw]
  have q1 := mul_le_mul_of_nonneg_left ha.2 hu
  have q2 := mul_le_mul_of_nonneg_left hb.2 hv
  linarith

theorem MergesTo.side {c : Consts K} (hair : 0 ≤ c.airDensity) {h : K} {run : List (Node K)} {m : Node K}
    (hm : MergesTo c h run m) (hs : ∀ n ∈ run, Sound n) :
    ((∀ n ∈ run, IsSnow c n) ∧ IsSnow c m) ∨ ((∀ n ∈ run, IsIce c n) ∧ IsIce c m) := by
  induction hm with
  | single a =>
    rcases lt_or_ge (a.density c) c.snowIceThreshold with h | h
    · exact .inl ⟨by simpa [IsSnow] using h, h⟩
    · exact .inr ⟨by simpa [IsIce] using h, h⟩
  | @step run m b hrun _ _ hside ih =>
    have hrs : ∀ n ∈ run, Sound n := fun n hn => hs n (by simp [hn])
    have hbs : Sound b := hs b (by simp)
    have hms : Sound m := hrun.all Sound (fun _ _ => merged_sound) hrs
    obtain ⟨x, y, hx, hy, hxy, hle, heq⟩ := merged_density_le c hair hms.1 hbs.1
    have hmax := between_convex (a := m.density c) (b := b.density c) hx hy hxy
    rcases ih hrs with ⟨h1, h2⟩ | ⟨h1, h2⟩
    · rcases hside with hb | hb
      · refine .inl ⟨?_, lt_of_le_of_lt (hle.trans hmax.2) (max_lt hb.1 hb.2)⟩
        intro n hn
        rcases List.mem_append.1 hn with hn | hn
        · exact h1 n hn
        · simp at hn; subst hn; exact hb.2
      · exact absurd h2 (not_lt.2 hb.1)
    · rcases hside with hb | hb
      · exact absurd hb.1 (not_lt.2 h2)
      · refine .inr ⟨?_, ?_⟩
        · intro n hn
          rcases List.mem_append.1 hn with hn | hn
          · exact h1 n hn
          · simp at hn; subst hn; exact hb.2
        · unfold IsIce
          rw [heq hms.2 hbs.2]
          exact (le_min hb.1 hb.2).trans hmax.1

/-- **C04**: if `correct_layer(i, h)` returns, the column was `pre ++ run ++ post` with `i` layers in `pre`, and
only the layers `run` (starting with layer `i`) were replaced, by one layer of height at most `h` or by two layers
of which the first has height exactly `h`; the replacement holds the same height, ice, water and heat. All layers
of `run` are snow or all are ice (for layers of positive height that are not oversaturated). If the layer stays
thinner than `h`, the column ended or the next layer is on the other side of the threshold. -/
theorem C04_correct_layer {g g' : Grid K} {fuel : Nat} {c : Consts K} {i : Int} {h : K} (hair : 0 ≤ c.airDensity)
    (hi : 0 ≤ i) (hw : g.WF) (he : g.correctLayer fuel c i h = .ok g') :
    ∃ pre run post new, g.nodes = pre ++ run ++ post ∧ (pre.length : Int) = i ∧ run ≠ [] ∧
      g'.nodes = pre ++ new ++ post ∧ SameTotals new run ∧
      ((∃ m, new = [m] ∧ m.height ≤ h ∧
          (m.height < h → ∀ b rest, post = b :: rest →
            (IsSnow c m ∧ IsIce c b) ∨ (IsIce c m ∧ IsSnow c b))) ∨
       (∃ x y, new = [x, y] ∧ x.height = h ∧ 0 < y.height)) ∧
      ((∀ n ∈ run, Sound n) → (∀ n ∈ run, IsSnow c n) ∨ (∀ n ∈ run, IsIce c n)) := by
  obtain ⟨pre, run, post, m, new, hd, hl, hm, hg', _, hend, hnew⟩ := correctLayer_ok hi hw he
  refine ⟨pre, run, post, new, hd, hl, hm.ne_nil, by rw [hg'], ?_, ?_, ?_⟩
  · rcases hnew with ⟨_, rfl⟩ | ⟨x, y, hs, rfl⟩
    · exact hm.totals
    · exact hs.totals.trans hm.totals
  · rcases hnew with ⟨hle, rfl⟩ | ⟨x, y, hs, rfl⟩
    · refine .inl ⟨m, rfl, hle, fun hlt b rest hb => ?_⟩
      have hns := hend hlt b rest hb
      rcases lt_or_ge (m.density c) c.snowIceThreshold with h1 | h1 <;>
        rcases lt_or_ge (b.density c) c.snowIceThreshold with h2 | h2
      · exact absurd (.inl ⟨h1, h2⟩) hns
      · exact .inl ⟨h1, h2⟩
      · exact .inr ⟨h1, h2⟩
      · exact absurd (.inr ⟨h1, h2⟩) hns
    · obtain ⟨θ, _, _, _, hlt, rfl, rfl⟩ := hs.ex
      exact .inr ⟨_, _, rfl, rfl, by simpa using hlt⟩
  · intro hsd
    rcases hm.side hair hsd with h | h
    · exact .inl h.1
    · exact .inr h.1

/-- **C04** (column totals). -/
theorem C04_conserves {g g' : Grid K} {fuel : Nat} {c : Consts K} {i : Int} {h : K}
    (hi : 0 ≤ i) (hw : g.WF) (he : g.correctLayer fuel c i h = .ok g') : SameTotals g'.nodes g.nodes :=
  correctLayer_totals hi hw he

end

/-! Non-vacuity: three thin snow layers are merged and cut at 5 cm; the ice below stays separate. -/
private def exCol : Grid ℚ :=
  ⟨[⟨1/50, 265, 0, 3/10, 0⟩, ⟨1/50, 268, 1/100, 2/5, 0⟩, ⟨3/10, 270, 0, 1/2, 0⟩, ⟨1/2, 270, 0, 1, 0⟩], 4, 0, 0, 0⟩

example : exCol.WF ∧ (exCol.correctLayer 10 (Consts.default ℚ) 0 (1/20)).toOption.map
    (fun g => g.nodes.map fun n => n.height) = some [1/20, 29/100, 1/2] ∧
    (∀ n ∈ exCol.nodes, Sound n) := by
  unfold Grid.WF Sound; decide +kernel

/-- and with a target thicker than all the snow, merging stops at the ice. -/
example : (exCol.correctLayer 10 (Consts.default ℚ) 0 (2/5)).toOption.map
    (fun g => g.nodes.map fun n => n.height) = some [17/50, 1/2] := by decide +kernel

end Cosipy
