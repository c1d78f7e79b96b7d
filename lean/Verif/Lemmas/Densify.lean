import Verif.Model.Densification
import Verif.Model.Real
import Verif.Lemmas.Grid
import Verif.Lemmas.Arith
import Verif.Lemmas.Penetrate
import Verif.Spec.Column
import Verif.Spec.Phys

/-! Densification: the layer loops as relations. -/

set_option autoImplicit false
set_option linter.unusedSectionVars false

namespace Cosipy
section
variable {K : Type} [Field K] [LinearOrder K] [IsStrictOrderedRing K]

/-- A layer with positive height, some ice and no negative water. -/
def SnowLike (n : Node K) : Prop := 0 < n.height ∧ 0 < n.iceFraction ∧ 0 ≤ n.lwc

/-- `m` is the layer `n` compacted by the relative amount `d`. -/
structure Compacted (c : Consts K) (d : K) (n m : Node K) : Prop where
  light : n.density c < c.snowIceThreshold
  thick : c.minimumSnowLayerHeight < n.height
  temp : m.temperature = n.temperature
  refr : m.refreeze = n.refreeze
  height : m.height = (1 - d) * n.height
  dry : n.lwc = 0 → m.iceFraction = (1 + d) * n.iceFraction ∧ m.lwc = 0
  wet : n.lwc ≠ 0 → m.iceFraction = (1 + d / 2) * n.iceFraction ∧ m.lwc = (1 + d / 2) * n.lwc

theorem booneUpdate_compacted {c : Consts K} {d : K} {n : Node K}
    (h : n.density c < c.snowIceThreshold ∧ c.minimumSnowLayerHeight < n.height) :
    Compacted c d n (booneUpdate d n) := by
  refine ⟨h.1, h.2, rfl, rfl, rfl, fun h0 => ?_, fun h0 => ?_⟩
  · simp [booneUpdate, h0]
  · have : (n.lwc == 0) = false := by simpa using h0
    simp only [booneUpdate, this]
    norm_num

theorem vionnetUpdate_eq (d : K) (n : Node K) : vionnetUpdate d n = booneUpdate (-d) n := by
  unfold vionnetUpdate booneUpdate
  simp only [sub_neg_eq_add]

theorem density_mono {c : Consts K} (hc : c.Phys) {n m : Node K} (h1 : n.iceFraction ≤ m.iceFraction) (h2 : n.lwc ≤ m.lwc) :
    n.density c ≤ m.density c := by
  unfold Node.density Node.airPorosity
  rw [pyMax_eq, pyMax_eq]
  have ha := hc.air
  have hai : c.airDensity ≤ c.iceDensity := hc.air_lt.le.trans hc.thr_le
  have haw : c.airDensity ≤ c.waterDensity := hai.trans hc.ice_le
  have e1 : max 0 (1 - n.lwc - n.iceFraction) ≤ max 0 (1 - m.lwc - m.iceFraction) + (m.lwc - n.lwc) + (m.iceFraction - n.iceFraction) := by
    apply max_le
    · have := le_max_left 0 (1 - m.lwc - m.iceFraction)
      linarith
    · have := le_max_right 0 (1 - m.lwc - m.iceFraction)
      linarith
  have e2 := mul_le_mul_of_nonneg_right e1 ha.le
  nlinarith [mul_nonneg (sub_nonneg.2 h1) (sub_nonneg.2 hai), mul_nonneg (sub_nonneg.2 h2) (sub_nonneg.2 haw)]

theorem Compacted.mass {c : Consts K} {d : K} {n m : Node K} (h : Compacted c d n m) :
    (n.lwc = 0 → m.mass c = (1 - d * d) * n.mass c) ∧ (n.lwc ≠ 0 → m.mass c = (1 + d / 2) * (1 - d) * n.mass c) := by
  constructor <;> intro h0
  · obtain ⟨e1, e2⟩ := h.dry h0
    unfold Node.mass; rw [e1, e2, h.height, h0]; ring
  · obtain ⟨e1, e2⟩ := h.wet h0
    unfold Node.mass; rw [e1, e2, h.height]; ring

theorem Compacted.loses {c : Consts K} (hc : c.Phys) {d : K} (hd : 0 < d) {n m : Node K} (hn : SnowLike n)
    (h : Compacted c d n m) : m.mass c < n.mass c := by
  obtain ⟨h1, h2, h3⟩ := hn
  have hid := hc.ice
  have hwd := hc.water
  have hm : 0 < n.mass c := by unfold Node.mass; positivity
  by_cases h0 : n.lwc = 0
  · rw [h.mass.1 h0]
    nlinarith [mul_pos (mul_pos hd hd) hm]
  · rw [h.mass.2 h0]
    nlinarith [mul_pos (mul_pos hd hd) hm, mul_pos hd hm]

theorem Compacted.monotone {c : Consts K} (hc : c.Phys) {d : K} (hd : 0 ≤ d) {n m : Node K} (hn : SnowLike n)
    (h : Compacted c d n m) : m.height ≤ n.height ∧ n.density c ≤ m.density c ∧ n.iceFraction ≤ m.iceFraction ∧ n.lwc ≤ m.lwc := by
  obtain ⟨h1, h2, h3⟩ := hn
  have hi : n.iceFraction ≤ m.iceFraction ∧ n.lwc ≤ m.lwc := by
    by_cases h0 : n.lwc = 0
    · obtain ⟨e1, e2⟩ := h.dry h0
      rw [e1, e2, h0]; exact ⟨by nlinarith, le_rfl⟩
    · obtain ⟨e1, e2⟩ := h.wet h0
      rw [e1, e2]; exact ⟨by nlinarith, by nlinarith⟩
  refine ⟨by rw [h.height]; nlinarith, density_mono hc hi.1 hi.2, hi⟩

end

section Reals

theorem booneRate_ok {c : Consts ℝ} {dt ms t rho d : ℝ} (h : booneRate c dt ms t rho = .ok d) :
    d = (ms * 9.81 / (37000000 * Real.exp (0.081 * (c.zeroTemperature - t) + 0.018 * rho)) +
      0.0000028 * Real.exp (-0.042 * (c.zeroTemperature - t) - 0.046 * max 0 (rho - 150))) * dt := by
  unfold booneRate at h
  simp only [bind_eq_ok] at h
  obtain ⟨a, ha, h⟩ := h
  rw [fdiv_eq_ok] at ha
  rw [pure_eq_ok] at h
  rw [← h, ha.2, pyMax_eq]
  rfl

theorem booneRate_pos {c : Consts ℝ} {dt ms t rho d : ℝ} (hms : 0 ≤ ms) (h : booneRate c dt ms t rho = .ok d) :
    (0 ≤ dt → 0 ≤ d) ∧ (0 < dt → 0 < d) := by
  rw [booneRate_ok h]
  have h1 := Real.exp_pos (0.081 * (c.zeroTemperature - t) + 0.018 * rho)
  have h2 := Real.exp_pos (-0.042 * (c.zeroTemperature - t) - 0.046 * max 0 (rho - 150))
  have h3 : 0 < ms * 9.81 / (37000000 * Real.exp (0.081 * (c.zeroTemperature - t) + 0.018 * rho)) +
      0.0000028 * Real.exp (-0.042 * (c.zeroTemperature - t) - 0.046 * max 0 (rho - 150)) := by positivity
  exact ⟨fun h => mul_nonneg h3.le h, fun h => mul_pos h3 h⟩

theorem booneLoad_nonneg {c : Consts ℝ} (hc : c.Phys) {p : Option (Node ℝ)} {n : Node ℝ} (hp : ∀ m, p = some m → SnowLike m)
    (hn : SnowLike n) : 0 ≤ booneLoad c p n := by
  cases p with
  | none =>
    obtain ⟨h1, h2, h3⟩ := hn
    have := (density_pos hc h2.le h3).1
    simp only [booneLoad]; positivity
  | some m =>
    obtain ⟨h1, h2, h3⟩ := hp m rfl
    have := (density_pos hc h2.le h3).1
    simp only [booneLoad]; positivity

theorem booneLayers_ok {c : Consts ℝ} (hc : c.Phys) {dt : ℝ} : ∀ {k : Nat} {ms : ℝ} {p : Option (Node ℝ)} {ns rs : List (Node ℝ)},
    0 ≤ ms → (∀ m, p = some m → SnowLike m) → (∀ n ∈ ns, SnowLike n) → booneLayers c dt k ms p ns = .ok rs →
    List.Forall₂ (fun n m => m = n ∨ ∃ d, (0 ≤ dt → 0 ≤ d) ∧ (0 < dt → 0 < d) ∧ Compacted c d n m) ns rs := by
  intro k
  induction k with
  | zero =>
    intro ms p ns rs _ _ _ h
    rw [booneLayers] at h
    cases h
    exact List.forall₂_same.2 fun _ _ => Or.inl rfl
  | succ k ih =>
    intro ms p ns rs hms hp hns h
    cases ns with
    | nil => rw [booneLayers] at h; cases h
    | cons n ns =>
      rw [booneLayers] at h
      have hp' : ∀ m, some n = some m → SnowLike m := fun m hm => by cases hm; exact hns n (by simp)
      split_ifs at h with hcond
      · simp only [bind_eq_ok] at h
        obtain ⟨d, hd, tl, htl, h⟩ := h
        rw [pure_eq_ok] at h; subst h
        have hms' : 0 ≤ ms + booneLoad c p n := add_nonneg hms (booneLoad_nonneg hc hp (hns n (by simp)))
        obtain ⟨d1, d2⟩ := booneRate_pos hms' hd
        exact List.Forall₂.cons (Or.inr ⟨d, d1, d2, booneUpdate_compacted hcond⟩)
          (ih hms' hp' (fun m hm => hns m (by simp [hm])) htl)
      · simp only [bind_eq_ok] at h
        obtain ⟨tl, htl, h⟩ := h
        rw [pure_eq_ok] at h; subst h
        exact List.Forall₂.cons (Or.inl rfl) (ih hms hp' (fun m hm => hns m (by simp [hm])) htl)

/-- Stress over viscosity: the sign of the Vionnet rate is the sign of the cosine. -/
theorem vionnetRate_sign {c : Consts ℝ} (hc : c.Phys) {n : Node ℝ} (hn : SnowLike n) {dt sig : ℝ} (hdt : 0 < dt) :
    (0 ≤ sig → vionnetRate dt sig c n ≤ 0) ∧ (0 < sig → vionnetRate dt sig c n < 0) ∧ (sig < 0 → 0 < vionnetRate dt sig c n) := by
  obtain ⟨h1, h2, h3⟩ := hn
  have hr := (density_pos hc h2.le h3).1
  have he : 0 < 1 / (1 + 60.0 * (n.lwc / n.height)) * 1 * 7622370 * (n.density c / 250) *
      Transc.exp (0.1 * (273.14 - n.temperature) + 0.023 * n.density c) := by
    have : 0 < (Transc.exp (0.1 * (273.14 - n.temperature) + 0.023 * n.density c) : ℝ) := Real.exp_pos _
    have : (0 : ℝ) < 1 + 60.0 * (n.lwc / n.height) := by positivity
    positivity
  unfold vionnetRate
  simp only
  generalize 1 / (1 + 60.0 * (n.lwc / n.height)) * 1 * 7622370 * (n.density c / 250) *
      Transc.exp (0.1 * (273.14 - n.temperature) + 0.023 * n.density c) = eta at *
  refine ⟨fun h => ?_, fun h => ?_, fun h => ?_⟩
  · rw [neg_div, neg_mul]; have : 0 ≤ sig / eta * dt := by positivity
    linarith
  · rw [neg_div, neg_mul]; have : 0 < sig / eta * dt := by positivity
    linarith
  · have : 0 < -sig := by linarith
    positivity

theorem vionnetLoad_sign {c : Consts ℝ} (hc : c.Phys) {slope : ℝ} {p : Option (Node ℝ)} {n : Node ℝ}
    (hp : ∀ m, p = some m → SnowLike m) (hn : SnowLike n) :
    ∃ w, 0 < w ∧ vionnetLoad c slope p n = Real.cos slope * w := by
  cases p with
  | none =>
    obtain ⟨h1, h2, h3⟩ := hn
    have := (density_pos hc h2.le h3).1
    refine ⟨9.81 * n.density c * (n.height / 2.0), by positivity, ?_⟩
    have e : ∀ a b x y : ℝ, a * b * x * y = b * (a * x * y) := fun a b x y => by ring
    exact e _ _ _ _
  | some m =>
    obtain ⟨h1, h2, h3⟩ := hp m rfl
    have := (density_pos hc h2.le h3).1
    refine ⟨9.81 * m.density c * m.height, by positivity, ?_⟩
    have e : ∀ a b x y : ℝ, a * b * x * y = b * (a * x * y) := fun a b x y => by ring
    exact e _ _ _ _

/-- The Vionnet loop: every layer is either unchanged or compacted by `d`, and `d` has the sign of the cosine. -/
theorem vionnetLayers_ok {c : Consts ℝ} (hc : c.Phys) {slope dt : ℝ} (hdt : 0 < dt) : ∀ {k : Nat} {W : ℝ} {p : Option (Node ℝ)}
    {ns rs : List (Node ℝ)}, 0 ≤ W → (∀ m, p = some m → SnowLike m) → (∀ n ∈ ns, SnowLike n) →
    vionnetLayers c slope dt k (Real.cos slope * W) p ns = .ok rs →
    List.Forall₂ (fun n m => m = n ∨ ∃ d, (0 ≤ Real.cos slope → 0 ≤ d) ∧ (0 < Real.cos slope → 0 < d) ∧
      (Real.cos slope < 0 → d < 0) ∧ Compacted c d n m) ns rs := by
  intro k
  induction k with
  | zero =>
    intro W p ns rs _ _ _ h
    rw [vionnetLayers] at h
    cases h
    exact List.forall₂_same.2 fun _ _ => Or.inl rfl
  | succ k ih =>
    intro W p ns rs hW hp hns h
    cases ns with
    | nil => rw [vionnetLayers] at h; cases h
    | cons n ns =>
      rw [vionnetLayers] at h
      have hp' : ∀ m, some n = some m → SnowLike m := fun m hm => by cases hm; exact hns n (by simp)
      obtain ⟨w, hw, hload⟩ := vionnetLoad_sign hc (slope := slope) hp (hns n (by simp))
      have hsig : Real.cos slope * W + vionnetLoad c slope p n = Real.cos slope * (W + w) := by rw [hload]; ring
      split_ifs at h with hcond
      · simp only [bind_eq_ok, hsig] at h
        obtain ⟨tl, htl, h⟩ := h
        rw [pure_eq_ok] at h; subst h
        have hWw : 0 < W + w := by linarith
        obtain ⟨s1, s2, s3⟩ := vionnetRate_sign hc (hns n (by simp)) (sig := Real.cos slope * (W + w)) hdt
        refine List.Forall₂.cons (Or.inr ⟨-vionnetRate dt (Real.cos slope * (W + w)) c n, ?_, ?_, ?_, ?_⟩)
          (ih hWw.le hp' (fun m hm => hns m (by simp [hm])) htl)
        · intro h; have := s1 (by positivity); linarith
        · intro h; have := s2 (by positivity); linarith
        · intro h; have := s3 (mul_neg_of_neg_of_pos h hWw); linarith
        · rw [vionnetUpdate_eq]; exact booneUpdate_compacted hcond
      · simp only [bind_eq_ok] at h
        obtain ⟨tl, htl, h⟩ := h
        rw [pure_eq_ok] at h; subst h
        exact List.Forall₂.cons (Or.inl rfl) (ih hW hp' (fun m hm => hns m (by simp [hm])) htl)

/-- One layer of the empirical method. -/
theorem empiricalLayer_ok {c : Consts ℝ} (hc : c.Phys) {dt : ℝ} {n m : Node ℝ} (hdt : 0 ≤ dt) (hn : SnowLike n)
    (h : empiricalLayer c dt n = .ok m) :
    m = n ∨ (n.density c < 600 ∧ m.temperature = n.temperature ∧ m.refreeze = n.refreeze ∧ m.lwc = n.lwc ∧
      n.iceFraction ≤ m.iceFraction ∧ n.density c ≤ m.density c ∧ m.height ≤ n.height ∧
      m.density c * m.height = (m.density c - 1 / 800000 * (600 - n.density c) * dt) * n.height) := by
  obtain ⟨h1, h2, h3⟩ := hn
  obtain ⟨hr, hri⟩ := density_pos hc h2.le h3
  have hid := hc.ice
  unfold empiricalLayer at h
  simp only [bind_eq_ok] at h
  obtain ⟨q, hq, h⟩ := h
  rw [fdiv_eq_ok] at hq
  split_ifs at h with hlt
  · simp only [bind_eq_ok] at h
    obtain ⟨q', hq', h⟩ := h
    rw [fdiv_eq_ok] at hq'
    rw [pure_eq_ok] at h
    have hqp : 0 < q := by linarith
    have h600 : (600.0 : ℝ) = 600 := by norm_num
    rw [h600] at hq hq' h
    have hrate : 0 < 1 / 800000 * (600 - n.density c) * dt := by
      rw [hq.2] at hqp
      rcases div_pos_iff.1 hqp with ⟨a, _⟩ | ⟨_, b⟩
      · exact a
      · linarith
    have hlt6 : n.density c < 600 := by
      by_contra hge
      have : 1 / 800000 * (600 - n.density c) * dt ≤ 0 := by
        apply mul_nonpos_of_nonpos_of_nonneg _ hdt
        apply mul_nonpos_of_nonneg_of_nonpos (by norm_num)
        linarith [not_lt.1 hge]
      linarith
    right
    set f : ℝ := (600 + (n.density c - 600) * Transc.exp (-dt / 800000)) / c.iceDensity with hf
    have hexp : Transc.exp (-dt / 800000) ≤ (1 : ℝ) := by
      show Real.exp _ ≤ 1
      rw [Real.exp_le_one_iff]
      have : 0 ≤ dt / 800000 := by positivity
      rw [neg_div]; linarith
    have hge : n.density c ≤ 600 + (n.density c - 600) * Transc.exp (-dt / 800000) := by nlinarith
    have hfi : n.iceFraction ≤ f := by
      rw [hf, le_div_iff₀ hid]; linarith
    subst h
    have hden : (({ n with iceFraction := f } : Node ℝ).setHeight ((1 - q') * n.height)).density c =
        (n.setIceFraction f).density c := rfl
    have hmono : n.density c ≤ (n.setIceFraction f).density c := density_mono hc hfi le_rfl
    have hq2 : q' * (n.setIceFraction f).density c = 1 / 800000 * (600 - n.density c) * dt := by
      rw [hq'.2, div_mul_cancel₀ _ hq'.1]
    have hq'0 : 0 ≤ q' := by
      rw [hq'.2]; exact div_nonneg hrate.le (hr.le.trans hmono)
    refine ⟨hlt6, rfl, rfl, rfl, hfi, hmono, ?_, ?_⟩
    · show (1 - q') * n.height ≤ n.height
      nlinarith
    · show (n.setIceFraction f).density c * ((1 - q') * n.height) = ((n.setIceFraction f).density c - _) * n.height
      rw [← hq2]; ring
  · rw [pure_eq_ok] at h; exact Or.inl h.symm

theorem empiricalLayers_ok {c : Consts ℝ} {dt : ℝ} {P : Node ℝ → Node ℝ → Prop} (hP : ∀ n, P n n) :
    ∀ {k : Nat} {ns rs : List (Node ℝ)}, (∀ n ∈ ns, ∀ m, empiricalLayer c dt n = .ok m → P n m) →
    empiricalLayers c dt k ns = .ok rs → List.Forall₂ P ns rs := by
  intro k
  induction k with
  | zero =>
    intro ns rs _ h
    rw [empiricalLayers] at h
    cases h
    exact List.forall₂_same.2 fun n _ => hP n
  | succ k ih =>
    intro ns rs hs h
    cases ns with
    | nil => rw [empiricalLayers] at h; cases h
    | cons n ns =>
      rw [empiricalLayers] at h
      simp only [bind_eq_ok] at h
      obtain ⟨n', hn', tl, htl, h⟩ := h
      rw [pure_eq_ok] at h; subst h
      exact List.Forall₂.cons (hs n (by simp) _ hn') (ih (fun m hm => hs m (by simp [hm])) htl)

theorem booneRate_returns (c : Consts ℝ) (dt ms t rho : ℝ) : ∃ d, booneRate c dt ms t rho = .ok d := by
  unfold booneRate
  have : (37000000 * Transc.exp (0.081 * (c.zeroTemperature - t) + 0.018 * rho) : ℝ) ≠ 0 := by
    have : 0 < Real.exp (0.081 * (c.zeroTemperature - t) + 0.018 * rho) := Real.exp_pos _
    exact (mul_pos (by norm_num) this).ne'
  simp only [fdiv_of_ne this, ok_bind]
  exact ⟨_, rfl⟩

theorem booneLayers_returns {c : Consts ℝ} {dt : ℝ} : ∀ {k : Nat} {ms : ℝ} {p : Option (Node ℝ)} {ns : List (Node ℝ)},
    k ≤ ns.length → ∃ rs, booneLayers c dt k ms p ns = .ok rs := by
  intro k
  induction k with
  | zero => intro ms p ns _; rw [booneLayers]; exact ⟨_, rfl⟩
  | succ k ih =>
    intro ms p ns hk
    cases ns with
    | nil => simp at hk
    | cons n ns =>
      rw [booneLayers]
      have hk' : k ≤ ns.length := by simpa using hk
      split_ifs
      · obtain ⟨d, hd⟩ := booneRate_returns c dt (ms + booneLoad c p n) n.temperature (n.density c)
        obtain ⟨tl, htl⟩ := ih (ms := ms + booneLoad c p n) (p := some n) hk'
        simp only [hd, ok_bind, htl]
        exact ⟨_, rfl⟩
      · obtain ⟨tl, htl⟩ := ih (ms := ms) (p := some n) hk'
        simp only [htl, ok_bind]
        exact ⟨_, rfl⟩

theorem vionnetLayers_returns {c : Consts ℝ} {slope dt : ℝ} : ∀ {k : Nat} {sig : ℝ} {p : Option (Node ℝ)} {ns : List (Node ℝ)},
    k ≤ ns.length → ∃ rs, vionnetLayers c slope dt k sig p ns = .ok rs := by
  intro k
  induction k with
  | zero => intro sig p ns _; rw [vionnetLayers]; exact ⟨_, rfl⟩
  | succ k ih =>
    intro sig p ns hk
    cases ns with
    | nil => simp at hk
    | cons n ns =>
      rw [vionnetLayers]
      have hk' : k ≤ ns.length := by simpa using hk
      split_ifs
      · obtain ⟨tl, htl⟩ := ih (sig := sig + vionnetLoad c slope p n) (p := some n) hk'
        simp only [htl, ok_bind]
        exact ⟨_, rfl⟩
      · obtain ⟨tl, htl⟩ := ih (sig := sig) (p := some n) hk'
        simp only [htl, ok_bind]
        exact ⟨_, rfl⟩

theorem booneUpdate_ne {d : ℝ} (hd : 0 < d) {n : Node ℝ} (h : 0 < n.height) : booneUpdate d n ≠ n := by
  intro he
  have := congrArg Node.height he
  simp only [booneUpdate] at this
  nlinarith

end Reals
end Cosipy
