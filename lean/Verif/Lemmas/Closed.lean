import Verif.Lemmas.RemeshAll
import Verif.Props.C03

/-! Instances of layer-wise properties preserved by remeshing. -/

set_option autoImplicit false
set_option linter.unusedSectionVars false

namespace Cosipy
section
variable {K : Type} [Field K] [LinearOrder K] [IsStrictOrderedRing K]

/-- The irreducible water content is never negative for a layer with ice in it. -/
theorem irr_nonneg {n : Node K} {θ : K} (hi : 0 < n.iceFraction) (h : n.irreducibleWaterContent = .ok θ) : 0 ≤ θ := by
  unfold Node.irreducibleWaterContent at h
  split_ifs at h with h1 h2
  · rw [bind_eq_ok] at h
    obtain ⟨q, hq, h⟩ := h
    rw [fdiv_eq_ok] at hq
    rw [pure_eq_ok] at h
    have h23 : n.iceFraction ≤ 1 := h1.trans (by norm_num)
    have : 0 ≤ q := by rw [hq.2]; exact div_nonneg (sub_nonneg.2 h23) hi.le
    rw [← h]
    have e1 : (0 : K) ≤ 0.0264 := by norm_num
    have e2 : (0 : K) ≤ 0.0099 := by norm_num
    positivity
  · simp only [Except.ok.injEq] at h
    rw [← h]
    have h2' := h2.2
    have : (0.1023 : K) * (n.iceFraction - 0.03) ≤ 0.1023 * (0.812 - 0.03) := by
      apply mul_le_mul_of_nonneg_left _ (by norm_num)
      linarith
    have h3 : (0.08 : K) - 0.1023 * (0.812 - 0.03) ≥ 0 := by norm_num
    linarith
  · simp only [Except.ok.injEq] at h; rw [← h]

/-- It is always defined for such a layer. -/
theorem irr_ok {n : Node K} (hi : 0 < n.iceFraction) : ∃ θ, n.irreducibleWaterContent = .ok θ := by
  unfold Node.irreducibleWaterContent
  split_ifs
  · rw [fdiv_of_ne hi.ne', ok_bind]; exact ⟨_, rfl⟩
  · exact ⟨_, rfl⟩
  · exact ⟨_, rfl⟩

theorem between_mono {a b x lo hi : K} (h : Between a x b) (ha : lo ≤ a ∧ a ≤ hi) (hb : lo ≤ b ∧ b ≤ hi) :
    lo ≤ x ∧ x ≤ hi := ⟨(le_min ha.1 hb.1).trans h.1, h.2.trans (max_le ha.2 hb.2)⟩

/-- Positive height. -/
theorem closed_height : Closed fun n : Node K => 0 < n.height where
  merge a b _ ha hb := add_pos ha hb
  split h m x y hh hm hs := by
    obtain ⟨θ, _, _, _, hlt, rfl, rfl⟩ := hs.ex
    exact ⟨hh, sub_pos.2 hlt⟩

/-- Positive height, ice fraction and temperature in given ranges. -/
theorem closed_ranges (lo hi tlo thi : K) : Closed fun n : Node K =>
    0 < n.height ∧ (lo ≤ n.iceFraction ∧ n.iceFraction ≤ hi) ∧ (tlo ≤ n.temperature ∧ n.temperature ≤ thi) where
  merge a b _ ha hb := by
    obtain ⟨u, v, hu, hv, huv, ht, hi, hw⟩ := merged_weights ha.1 hb.1
    refine ⟨add_pos ha.1 hb.1, ?_, ?_⟩
    · rw [hi]; exact between_mono (between_convex hu hv huv) ha.2.1 hb.2.1
    · rw [ht]; exact between_mono (between_convex hu hv huv) ha.2.2 hb.2.2
  split h m x y hh hm hs := by
    obtain ⟨θ, _, _, _, hlt, rfl, rfl⟩ := hs.ex
    exact ⟨⟨hh, hm.2⟩, ⟨sub_pos.2 hlt, hm.2⟩⟩

/-- Positive height and ice fraction, non-negative liquid water. -/
theorem closed_water : Closed fun n : Node K => 0 < n.height ∧ 0 < n.iceFraction ∧ 0 ≤ n.lwc where
  merge a b _ ha hb := by
    have hs := add_pos ha.1 hb.1
    refine ⟨hs, ?_, ?_⟩
    · exact div_pos (add_pos (mul_pos ha.2.1 ha.1) (mul_pos hb.2.1 hb.1)) hs
    · exact div_nonneg (add_nonneg (mul_nonneg ha.2.2 ha.1.le) (mul_nonneg hb.2.2 hb.1.le)) hs.le
  split h m x y hh hm hs := by
    obtain ⟨θ, hθ, _, _, hlt, rfl, rfl⟩ := hs.ex
    have hθ0 := irr_nonneg hm.2.1 hθ
    have h1 := sub_pos.2 hlt
    refine ⟨⟨hh, hm.2.1, ?_⟩, ⟨h1, hm.2.1, ?_⟩⟩
    · apply div_nonneg _ hh.le
      split_ifs
      · exact mul_nonneg hθ0 hm.1.le
      · exact mul_nonneg hm.2.2 hm.1.le
    · apply div_nonneg _ h1.le
      split_ifs with h2
      · have := mul_nonneg h2.le hm.1.le
        linarith
      · exact le_rfl

/-- No liquid water (with ice present, so that the irreducible content is non-negative). -/
theorem closed_dry : Closed fun n : Node K => 0 < n.iceFraction ∧ 0 < n.height ∧ n.lwc = 0 where
  merge a b _ ha hb := by
    have hs := add_pos ha.2.1 hb.2.1
    refine ⟨div_pos (add_pos (mul_pos ha.1 ha.2.1) (mul_pos hb.1 hb.2.1)) hs, hs, ?_⟩
    simp [Grid.merged, Grid.upd, ha.2.2, hb.2.2]
  split h m x y hh hm hs := by
    obtain ⟨θ, hθ, _, _, hlt, rfl, rfl⟩ := hs.ex
    have hθ0 := irr_nonneg hm.1 hθ
    have h0 : ¬ (0 : K) < 0 - θ := by linarith
    refine ⟨⟨hm.1, hh, ?_⟩, ⟨hm.1, sub_pos.2 hlt, ?_⟩⟩ <;> simp [hm.2.2, not_lt.2 hθ0]

end
end Cosipy
