import Verif.Lemmas.FloatErr
import Verif.Lemmas.Rounded

/-!
# One sub-step of heat conduction in binary floating point
Relative errors of products and quotients, and the update of a layer: the factor 0.8 of the stability bound leaves more room than all
roundings of the update need.
-/

set_option autoImplicit false
set_option linter.unusedSectionVars false

namespace Cosipy
section
variable {K : Type} [Field K] [LinearOrder K] [IsStrictOrderedRing K]

/-- More than the relative error of one rounding to at least 24 bits. -/
def relStep (K : Type) [Field K] : K := 1 + 1 / 1048576

theorem relStep_one : (1 : K) ≤ relStep K := by unfold relStep; norm_num
theorem relStep_pos : (0 : K) < relStep K := by unfold relStep; norm_num
theorem relStep_pow_pos (i : ℕ) : (0 : K) < relStep K ^ i := pow_pos relStep_pos i
theorem relStep_pow_mono {i j : ℕ} (h : i ≤ j) : relStep K ^ i ≤ relStep K ^ j := pow_le_pow_right₀ relStep_one h
theorem relStep_room : relStep K ^ 20 ≤ 5 / 4 := by unfold relStep; norm_num

/-- `x` is the positive number `X` up to the relative error of `i` roundings. -/
structure Rel (i : ℕ) (X x : K) : Prop where
  pos : 0 < X
  above : X ≤ relStep K ^ i * x
  below : x ≤ relStep K ^ i * X

theorem Rel.refl {x : K} (h : 0 < x) : Rel 0 x x := ⟨h, by simp, by simp⟩

theorem Rel.pos' {i : ℕ} {X x : K} (h : Rel i X x) : 0 < x := by
  have h1 := h.pos.trans_le h.above
  exact pos_of_mul_pos_right h1 (relStep_pow_pos i).le

theorem Rel.weaken {i j : ℕ} (hij : i ≤ j) {X x : K} (h : Rel i X x) : Rel j X x :=
  ⟨h.pos, h.above.trans (mul_le_mul_of_nonneg_right (relStep_pow_mono hij) h.pos'.le),
    h.below.trans (mul_le_mul_of_nonneg_right (relStep_pow_mono hij) h.pos.le)⟩

theorem Rel.mul {i j : ℕ} {X Y x y : K} (hx : Rel i X x) (hy : Rel j Y y) : Rel (i + j) (X * Y) (x * y) := by
  refine ⟨mul_pos hx.pos hy.pos, ?_, ?_⟩
  · calc X * Y ≤ (relStep K ^ i * x) * (relStep K ^ j * y) :=
          mul_le_mul hx.above hy.above hy.pos.le (mul_pos (relStep_pow_pos i) hx.pos').le
      _ = _ := by rw [pow_add]; ring
  · calc x * y ≤ (relStep K ^ i * X) * (relStep K ^ j * Y) :=
          mul_le_mul hx.below hy.below hy.pos'.le (mul_pos (relStep_pow_pos i) hx.pos).le
      _ = _ := by rw [pow_add]; ring

theorem Rel.inv {i : ℕ} {X x : K} (h : Rel i X x) : Rel i X⁻¹ x⁻¹ := by
  have h1 := h.pos
  have h2 := h.pos'
  refine ⟨inv_pos.2 h1, ?_, ?_⟩
  · rw [← div_eq_mul_inv, le_div_iff₀ h2, inv_mul_le_iff₀ h1, mul_comm]; exact h.below
  · rw [← div_eq_mul_inv, le_div_iff₀ h1, inv_mul_le_iff₀ h2, mul_comm]; exact h.above

theorem Rel.div {i j : ℕ} {X Y x y : K} (hx : Rel i X x) (hy : Rel j Y y) : Rel (i + j) (X / Y) (x / y) := by
  rw [div_eq_mul_inv, div_eq_mul_inv]; exact hx.mul hy.inv

theorem Rel.add {i : ℕ} {X Y x y : K} (hx : Rel i X x) (hy : Rel i Y y) : Rel i (X + Y) (x + y) :=
  ⟨add_pos hx.pos hy.pos, by rw [mul_add]; exact add_le_add hx.above hy.above,
    by rw [mul_add]; exact add_le_add hx.below hy.below⟩

/-- Up to twenty roundings change the size by less than a half. -/
theorem Rel.half {i : ℕ} (hi : i ≤ 20) {X x : K} (h : Rel i X x) : X / 2 ≤ x := by
  have h1 := (h.weaken hi).above
  have h2 := mul_le_mul_of_nonneg_right (relStep_room (K := K)) h.pos'.le
  have := h.pos'
  linarith

theorem Rel.most {i : ℕ} (hi : i ≤ 20) {X x : K} (h : Rel i X x) : x ≤ 5 / 4 * X :=
  (h.weaken hi).below.trans (mul_le_mul_of_nonneg_right relStep_room h.pos.le)

end

section
variable {K : Type} [Field K] [LinearOrder K] [IsStrictOrderedRing K] [FloorRing K] {p : ℕ} {emin : ℤ}

theorem unit_fine (hp : 23 ≤ p) : (2 : K) ^ (-(p : ℤ) - 1) ≤ 1 / 16777216 := by
  have : (2 : K) ^ (-(p : ℤ) - 1) ≤ 2 ^ (-24 : ℤ) := zpow_le_zpow_right₀ (by norm_num) (by omega)
  refine this.trans (le_of_eq ?_)
  norm_num

theorem Rel.of_err (hp : 23 ≤ p) {i : ℕ} {X x y : K} (h : Rel i X x) (he : |y - x| ≤ 2 ^ (-(p : ℤ) - 1) * |x|) : Rel (i + 1) X y := by
  have h0 := h.pos'
  rw [abs_of_pos h0] at he
  have hu := mul_le_mul_of_nonneg_right (unit_fine (K := K) hp) h0.le
  obtain ⟨e1, e2⟩ := abs_le.1 he
  have hr := relStep_pow_pos (K := K) i
  refine ⟨h.pos, ?_, ?_⟩
  · have : x ≤ relStep K * y := by unfold relStep; linarith
    calc X ≤ relStep K ^ i * x := h.above
      _ ≤ relStep K ^ i * (relStep K * y) := mul_le_mul_of_nonneg_left this hr.le
      _ = _ := by rw [pow_succ]; ring
  · have : y ≤ relStep K * x := by unfold relStep; linarith
    calc y ≤ relStep K * x := this
      _ ≤ relStep K * (relStep K ^ i * X) := mul_le_mul_of_nonneg_left h.below relStep_pos.le
      _ = _ := by rw [pow_succ]; ring

/-- Rounding of a number that is not below the normal range. -/
theorem Rel.rnd (hp : 23 ≤ p) {i : ℕ} {X x : K} (h : Rel i X x) (hi : i ≤ 20) (hX : (2 : K) ^ (emin + 1) ≤ X) :
    Rel (i + 1) X (binRound p emin x) := by
  refine h.of_err hp (binRound_rel ?_)
  have h1 := h.half hi
  rw [abs_of_pos h.pos']
  refine (Int.zpow_le_iff_le_log (b := 2) one_lt_two h.pos').1 ?_
  have : ((2 : ℕ) : K) ^ emin = 2 ^ (emin + 1) / 2 := by
    rw [zpow_add₀ two_ne]; push_cast; rw [zpow_one, mul_div_cancel_right₀ _ two_ne]
  rw [this]
  linarith

/-- Rounding of a sum of kept numbers. -/
theorem Rel.rnd_add (hp : 23 ≤ p) {i : ℕ} {X x y : K} (h : Rel i X (x + y)) (hx : binRound p emin x = x) (hy : binRound p emin y = y) :
    Rel (i + 1) X (binRound p emin (x + y)) := h.of_err hp (add_rel hx hy)

/-- Numbers of at least one differ by at least the spacing above one. -/
theorem kept_gap {x y : K} (hx : binRound p emin x = x) (hy : binRound p emin y = y) (h1 : 1 ≤ x) (h : x < y) :
    (2 : K) ^ (-(p : ℤ)) ≤ y - x := by
  have low : ∀ z : K, 1 ≤ z → -(p : ℤ) ≤ ulpExp p emin z := by
    intro z hz
    unfold ulpExp
    have : (0 : ℤ) ≤ Int.log 2 |z| := by
      rw [abs_of_pos (by linarith)]
      exact (Int.zpow_le_iff_le_log (b := 2) (x := 0) one_lt_two (by linarith)).1 (by simpa using hz)
    have := le_max_left (Int.log 2 |z|) emin
    omega
  obtain ⟨m, hm⟩ := float_repr hx
  obtain ⟨n, hn⟩ := float_repr hy
  obtain ⟨m', hm'⟩ := mul_pow_finer (K := K) m (low x h1)
  obtain ⟨n', hn'⟩ := mul_pow_finer (K := K) n (low y (by linarith))
  rw [hm'] at hm
  rw [hn'] at hn
  have hpos := ulp_pos (K := K) (-(p : ℤ))
  rw [hm, hn] at h ⊢
  have : m' < n' := by
    have := lt_of_mul_lt_mul_right h hpos.le
    exact_mod_cast this
  have h2 : (1 : K) ≤ (n' : K) - m' := by
    have : (m' + 1 : ℤ) ≤ n' := this
    have : ((m' + 1 : ℤ) : K) ≤ n' := by exact_mod_cast this
    push_cast at this
    linarith
  rw [← sub_mul]
  calc (2 : K) ^ (-(p : ℤ)) = 1 * 2 ^ (-(p : ℤ)) := (one_mul _).symm
    _ ≤ _ := mul_le_mul_of_nonneg_right h2 hpos.le

end

section
variable {K : Type} [Field K] [LinearOrder K] [IsStrictOrderedRing K] [FloorRing K] {p : ℕ} {emin : ℤ} {hp : 23 ≤ p} {he : emin ≤ -30}

local notation "F" => Fl (binary K p emin hp he)

theorem emin_small {k : ℤ} (h : emin + 1 ≤ k) : (2 : K) ^ (emin + 1) ≤ 2 ^ k := zpow_le_zpow_right₀ (by norm_num) h

theorem Rel.lit {x : K} (hp : 23 ≤ p) (he : emin ≤ -30) (h : 1 / 4 ≤ x) : Rel 1 x (binRound p emin x) := by
  refine (Rel.refl (by linarith)).rnd hp (by norm_num) ((emin_small (k := -2) (by omega)).trans (le_trans ?_ h))
  norm_num

theorem lit_08 : Rel 1 (4 / 5 : K) (0.8 : F).1 := by
  have : (0.8 : F).1 = binRound p emin (4 / 5 : K) := by
    show binRound p emin (0.8 : K) = _
    norm_num
  rw [this]; exact Rel.lit hp he (by norm_num)

theorem lit_05 : Rel 1 (1 / 2 : K) (0.5 : F).1 := by
  have : (0.5 : F).1 = binRound p emin (1 / 2 : K) := by
    show binRound p emin (0.5 : K) = _
    norm_num
  rw [this]; exact Rel.lit hp he (by norm_num)

theorem lit_20 : Rel 1 (2 : K) (2.0 : F).1 := by
  have : (2.0 : F).1 = binRound p emin (2 : K) := by
    show binRound p emin (2.0 : K) = _
    norm_num
  rw [this]; exact Rel.lit hp he (by norm_num)

theorem lit_2 : Rel 1 (2 : K) (2 : F).1 := by
  have : (2 : F).1 = binRound p emin (2 : K) := by
    show binRound p emin (((2 : ℕ) : K)) = _
    norm_num
  rw [this]; exact Rel.lit hp he (by norm_num)

/-- Stability limit of one interface, as the program computes it. -/
def ifaceBound (D k : F) : F := 0.8 * (D * D / k / 2)

/-- The largest sub-step moves, across one interface, at most about two fifths of the difference times the distance. -/
theorem flux_rel {D k δ : F} {δ0 : K} (hs : emin ≤ -(p : ℤ) - 90) (hD : (2 : K) ^ (-31 : ℤ) ≤ D.1) (hk0 : 0 < k.1) (hk1 : k.1 ≤ 1048576)
    (hδ : Rel 1 δ0 δ.1) (hδ0 : (2 : K) ^ (-(p : ℤ)) ≤ δ0) :
    Rel 10 (2 / 5 * (D.1 * δ0)) (k * ifaceBound D k * δ / D).1 := by
  have p31 := ulp_pos (K := K) (-31)
  have pp := ulp_pos (K := K) (-(p : ℤ))
  have hDp : 0 < D.1 := p31.trans_le hD
  have dd : (2 : K) ^ (-62 : ℤ) ≤ D.1 * D.1 := by
    rw [show (-62 : ℤ) = -31 + -31 by norm_num, zpow_add₀ two_ne]
    exact mul_le_mul hD hD p31.le hDp.le
  have e66 : (2 : K) ^ (-86 : ℤ) = 2 ^ (-62 : ℤ) / 16777216 := by norm_num
  have base : (2 : K) ^ (emin + 1) ≤ 2 ^ (-62 : ℤ) / 16777216 := by rw [← e66]; exact emin_small (by omega)
  have basep : (2 : K) ^ (emin + 1) ≤ 2 ^ (-62 : ℤ) / 8 * 2 ^ (-(p : ℤ)) := by
    have : (2 : K) ^ (-62 : ℤ) / 8 * 2 ^ (-(p : ℤ)) = 2 ^ (-65 - (p : ℤ)) := by
      rw [sub_eq_add_neg, zpow_add₀ two_ne]; norm_num
    rw [this]; exact emin_small (by omega)
  have q62 := ulp_pos (K := K) (-62)
  have q31 : (2 : K) ^ (-62 : ℤ) ≤ 2 ^ (-31 : ℤ) := zpow_le_zpow_right₀ (by norm_num) (by norm_num)
  clear e66
  generalize (2 : K) ^ (-62 : ℤ) = w at *
  generalize (2 : K) ^ (-31 : ℤ) = w' at *
  have ddk : D.1 * D.1 / 1048576 ≤ D.1 * D.1 / k.1 :=
    div_le_div_of_nonneg_left (mul_pos hDp hDp).le hk0 hk1
  have r1 : Rel 1 (D.1 * D.1) (D * D).1 :=
    ((Rel.refl hDp).mul (Rel.refl hDp)).rnd hp (by norm_num) (by linarith)
  have r2 : Rel 2 (D.1 * D.1 / k.1) (D * D / k).1 :=
    (r1.div (Rel.refl hk0)).rnd hp (by norm_num) (by linarith)
  have r3 : Rel 4 (D.1 * D.1 / k.1 / 2) (D * D / k / 2).1 :=
    (r2.div lit_2).rnd hp (by norm_num) (by linarith)
  have r4 : Rel 6 (4 / 5 * (D.1 * D.1 / k.1 / 2)) (ifaceBound D k).1 :=
    (lit_08.mul r3).rnd hp (by norm_num) (by linarith)
  have e5 : k.1 * (4 / 5 * (D.1 * D.1 / k.1 / 2)) = 2 / 5 * (D.1 * D.1) := by field_simp; ring
  have r5 : Rel 7 (2 / 5 * (D.1 * D.1)) (k * ifaceBound D k).1 := by
    have := (Rel.refl hk0).mul r4
    rw [e5] at this
    exact this.rnd hp (by norm_num) (by linarith)
  have b6 : w / 8 * 2 ^ (-(p : ℤ)) ≤ 2 / 5 * (D.1 * D.1) * δ0 :=
    mul_le_mul (by linarith) hδ0 pp.le (by linarith)
  have r6 : Rel 9 (2 / 5 * (D.1 * D.1) * δ0) (k * ifaceBound D k * δ).1 :=
    (r5.mul hδ).rnd hp (by norm_num) (basep.trans b6)
  have e7 : 2 / 5 * (D.1 * D.1) * δ0 / D.1 = 2 / 5 * (D.1 * δ0) := by field_simp
  have b7 : w / 8 * 2 ^ (-(p : ℤ)) ≤ 2 / 5 * (D.1 * δ0) := by
    rw [← mul_assoc]
    have : w / 8 ≤ 2 / 5 * D.1 := by linarith
    exact mul_le_mul this hδ0 pp.le (by positivity)
  have := r6.div (Rel.refl hDp)
  rw [e7] at this
  exact this.rnd hp (by norm_num) (basep.trans b7)

/-- The largest change of a layer in one sub-step is below the difference that drives it. -/
theorem change_le {D E j k δ : F} {δ0 : K} (hs : emin ≤ -(p : ℤ) - 90) (hD : (2 : K) ^ (-31 : ℤ) ≤ D.1) (hE : (2 : K) ^ (-31 : ℤ) ≤ E.1)
    (hj0 : 0 < j.1) (hj1 : j.1 ≤ 1048576) (hk0 : 0 < k.1) (hk1 : k.1 ≤ 1048576) (hδ : Rel 1 δ0 δ.1) (hδ0 : (2 : K) ^ (-(p : ℤ)) ≤ δ0) :
    ((k * ifaceBound E k * δ / E + j * ifaceBound D j * δ / D) / (0.5 * (D + E))).1 ≤ δ0 := by
  have p31 := ulp_pos (K := K) (-31)
  have pp := ulp_pos (K := K) (-(p : ℤ))
  have hDp : 0 < D.1 := p31.trans_le hD
  have hEp : 0 < E.1 := p31.trans_le hE
  have hδp := hδ.pos
  have r1 := flux_rel hs hD hj0 hj1 hδ hδ0
  have r2 := flux_rel hs hE hk0 hk1 hδ hδ0
  have r3 : Rel 11 (2 / 5 * (E.1 * δ0) + 2 / 5 * (D.1 * δ0)) (k * ifaceBound E k * δ / E + j * ifaceBound D j * δ / D).1 :=
    (r2.add r1).rnd_add hp (Fl.kept _) (Fl.kept _)
  have r4 : Rel 1 (D.1 + E.1) (D + E).1 :=
    ((Rel.refl hDp).add (Rel.refl hEp)).rnd_add hp (Fl.kept _) (Fl.kept _)
  have b5 : (2 : K) ^ (emin + 1) ≤ 1 / 2 * (D.1 + E.1) :=
    (emin_small (k := -31) (by omega)).trans (by generalize (2 : K) ^ (-31 : ℤ) = w at *; linarith)
  have r5 : Rel 3 (1 / 2 * (D.1 + E.1)) (0.5 * (D + E)).1 := (lit_05.mul r4).rnd hp (by norm_num) b5
  have e6 : (2 / 5 * (E.1 * δ0) + 2 / 5 * (D.1 * δ0)) / (1 / 2 * (D.1 + E.1)) = 4 / 5 * δ0 := by
    have : D.1 + E.1 ≠ 0 := by positivity
    field_simp
    ring
  have b6 : (2 : K) ^ (emin + 1) ≤ 4 / 5 * δ0 := by
    have : (2 : K) ^ (emin + 1) ≤ 2 ^ (-(p : ℤ) - 1) := emin_small (by omega)
    rw [zpow_sub₀ two_ne, zpow_one] at this
    generalize (2 : K) ^ (-(p : ℤ)) = w at *
    generalize (2 : K) ^ (emin + 1) = w' at *
    linarith
  have r6 := r3.div r5
  rw [e6] at r6
  have := (r6.rnd hp (by norm_num) b6).most (by norm_num)
  refine this.trans (le_of_eq ?_)
  ring


/-- A layer for which the error bounds hold: at least a nanometre thick, with a diffusivity in a range far wider than that of snow and ice
(about 1e-6). -/
def HeatCell.Sane (c : HeatCell F) : Prop := (2 : K) ^ (-29 : ℤ) ≤ c.h.1 ∧ (2 : K) ^ (-58 : ℤ) ≤ c.k.1 ∧ c.k.1 ≤ 524288

theorem HeatCell.Sane.dist {a b : HeatCell F} (ha : a.Sane) (hb : b.Sane) : (2 : K) ^ (-31 : ℤ) ≤ (a.dist b).1 := by
  have h1 := ha.1
  have h2 := hb.1
  have p29 := ulp_pos (K := K) (-29)
  have e : (2 : K) ^ (-31 : ℤ) = 2 ^ (-29 : ℤ) / 4 := by norm_num
  have base : (2 : K) ^ (emin + 1) ≤ 2 ^ (-29 : ℤ) := emin_small (by omega)
  rw [e]
  clear e
  generalize (2 : K) ^ (-29 : ℤ) = w at *
  have r1 : Rel 1 (a.h.1 + b.h.1) (a.h + b.h).1 :=
    ((Rel.refl (p29.trans_le h1)).add (Rel.refl (p29.trans_le h2))).rnd_add hp (Fl.kept _) (Fl.kept _)
  have r2 : Rel 3 ((a.h.1 + b.h.1) / 2) (a.dist b).1 := (r1.div lit_20).rnd hp (by norm_num) (by linarith)
  have := r2.half (by norm_num)
  linarith

theorem HeatCell.Sane.diffusivity (hs : emin ≤ -(p : ℤ) - 90) {a b : HeatCell F} (ha : a.Sane) (hb : b.Sane) :
    0 < (a.diffusivity b).1 ∧ (a.diffusivity b).1 ≤ 1048576 := by
  obtain ⟨_, h1, h1'⟩ := ha
  obtain ⟨_, h2, h2'⟩ := hb
  have p58 := ulp_pos (K := K) (-58)
  have base : (2 : K) ^ (emin + 1) ≤ 2 ^ (-58 : ℤ) := emin_small (by omega)
  generalize (2 : K) ^ (-58 : ℤ) = w at *
  have r1 : Rel 1 (a.k.1 + b.k.1) (a.k + b.k).1 :=
    ((Rel.refl (p58.trans_le h1)).add (Rel.refl (p58.trans_le h2))).rnd_add hp (Fl.kept _) (Fl.kept _)
  have r2 : Rel 3 ((a.k.1 + b.k.1) / 2) (a.diffusivity b).1 := (r1.div lit_20).rnd hp (by norm_num) (by linarith)
  have := r2.most (by norm_num)
  exact ⟨r2.pos', by linarith⟩

theorem Fl.mul_neg (a b : F) : a * -b = -(a * b) := by
  apply Subtype.ext
  show binRound p emin (a.1 * -b.1) = -binRound p emin (a.1 * b.1)
  rw [_root_.mul_neg, binRound_neg]

theorem Fl.neg_div (a b : F) : -a / b = -(a / b) := by
  apply Subtype.ext
  show binRound p emin (-a.1 / b.1) = -binRound p emin (a.1 / b.1)
  rw [_root_.neg_div, binRound_neg]

theorem Fl.neg_sub_neg (a b : F) : -a - b = -(a + b) := by
  apply Subtype.ext
  show binRound p emin (-a.1 - b.1) = -binRound p emin (a.1 + b.1)
  rw [← binRound_neg, neg_add']

theorem Fl.sub_neg (a b : F) : a - -b = a + b := by
  apply Subtype.ext
  show binRound p emin (a.1 - -b.1) = binRound p emin (a.1 + b.1)
  rw [sub_neg_eq_add]

/-- The flux across an interface grows with the difference of temperatures, and with the sub-step if the difference is positive. -/
theorem flux_mono {k τ σ D x δ : F} (hk : 0 ≤ k) (hτ : 0 ≤ τ) (hσ : τ ≤ σ) (hD : 0 ≤ D) (hx : x ≤ δ) (hδ : 0 ≤ δ) :
    k * τ * x / D ≤ k * σ * δ / D := by
  have h1 : k * τ ≤ k * σ := Rounded.mul_mono_left hk hσ
  have h0 : 0 ≤ k * τ := by
    have := Rounded.mul_mono_left hk hτ
    rwa [Rounded.mul_zero] at this
  exact Rounded.div_mono hD ((Rounded.mul_mono_left h0 hx).trans (Rounded.mul_mono_right hδ h1))

theorem flux_low {k τ σ D x δ : F} (hk : 0 ≤ k) (hτ : 0 ≤ τ) (hσ : τ ≤ σ) (hD : 0 ≤ D) (hx : -δ ≤ x) (hδ : 0 ≤ δ) :
    -(k * σ * δ / D) ≤ k * τ * x / D := by
  have h0 : 0 ≤ k * τ := by
    have := Rounded.mul_mono_left hk hτ
    rwa [Rounded.mul_zero] at this
  have h1 : k * τ * -δ / D ≤ k * τ * x / D := Rounded.div_mono hD (Rounded.mul_mono_left h0 hx)
  rw [Fl.mul_neg, Fl.neg_div] at h1
  exact (Rounded.neg_anti (flux_mono hk hτ hσ hD le_rfl hδ)).trans h1

theorem Fl.neg_sub (a b : F) : -(a - b) = b - a := by
  apply Subtype.ext
  show -binRound p emin (a.1 - b.1) = binRound p emin (b.1 - a.1)
  rw [← binRound_neg, _root_.neg_sub]

/-- The rounded distance between two numbers of at least one. -/
theorem gap_rel {x y : F} (h1 : 1 ≤ x.1) (h : x < y) : Rel 1 (y.1 - x.1) (y - x).1 ∧ (2 : K) ^ (-(p : ℤ)) ≤ y.1 - x.1 := by
  have h' : 0 < y.1 - x.1 := _root_.sub_pos.2 h
  exact ⟨(Rel.refl h').of_err hp (sub_rel (Fl.kept y) (Fl.kept x)), kept_gap (Fl.kept x) (Fl.kept y) h1 h⟩

/-- The update of a layer stays in the range of the three temperatures it uses, whatever is rounded. -/
theorem heatNewT_between_fl (hs : emin ≤ -(p : ℤ) - 90) {a b d : HeatCell F} (ha : a.Sane) (hb : b.Sane) (hd : d.Sane) {τ lo hi : F}
    (hτ : 0 ≤ τ) (h1 : τ ≤ ifaceBound (a.dist b) (a.diffusivity b)) (h2 : τ ≤ ifaceBound (b.dist d) (b.diffusivity d))
    (hlo : 1 ≤ lo.1) (ta : lo ≤ a.t ∧ a.t ≤ hi) (tb : lo ≤ b.t ∧ b.t ≤ hi) (td : lo ≤ d.t ∧ d.t ≤ hi) :
    lo ≤ heatNewT τ a b d ∧ heatNewT τ a b d ≤ hi := by
  obtain ⟨hj0, hj1⟩ := HeatCell.Sane.diffusivity hs ha hb
  obtain ⟨hk0, hk1⟩ := HeatCell.Sane.diffusivity hs hb hd
  have hD := ha.dist hb
  have hE := hb.dist hd
  unfold heatNewT
  generalize a.dist b = D at *
  generalize b.dist d = E at *
  generalize a.diffusivity b = j at *
  generalize b.diffusivity d = k at *
  have hD0 : (0 : F) ≤ D := ((ulp_pos (K := K) (-31)).trans_le hD).le
  have hE0 : (0 : F) ≤ E := ((ulp_pos (K := K) (-31)).trans_le hE).le
  have hj : (0 : F) ≤ j := hj0.le
  have hk : (0 : F) ≤ k := hk0.le
  have hM0 : (0 : F) ≤ 0.5 * (D + E) := by
    have : (0 : F) ≤ D + E := by
      have := Rounded.add_mono hD0 hE0
      rwa [Rounded.add_zero] at this
    have := Rounded.mul_mono_left (Rounded.lit_nonneg (α := F) 5 true 1) this
    rwa [Rounded.mul_zero] at this
  have size : ∀ {x y : F}, 1 ≤ x.1 → x < y →
      ((k * ifaceBound E k * (y - x) / E + j * ifaceBound D j * (y - x) / D) / (0.5 * (D + E))).1 ≤ y.1 - x.1 := by
    intro x y hx hxy
    obtain ⟨g1, g2⟩ := gap_rel hx hxy
    exact change_le hs hD hE hj0 hj1 hk0 hk1 g1 g2
  constructor
  · have low : -((k * ifaceBound E k * (b.t - lo) / E + j * ifaceBound D j * (b.t - lo) / D) / (0.5 * (D + E))) ≤
        (k * τ * (d.t - b.t) / E - j * τ * (b.t - a.t) / D) / (0.5 * (D + E)) := by
      have hδ : (0 : F) ≤ b.t - lo := by
        have := Rounded.sub_mono tb.1 (le_refl lo)
        rwa [Rounded.sub_self] at this
      rw [← Fl.neg_div]
      refine Rounded.div_mono hM0 ?_
      rw [← Fl.neg_sub_neg]
      refine Rounded.sub_mono (flux_low hk hτ h2 hE0 ?_ hδ) (flux_mono hj hτ h1 hD0 (Rounded.sub_mono le_rfl ta.1) hδ)
      rw [Fl.neg_sub]
      exact Rounded.sub_mono td.1 le_rfl
    have step := Rounded.add_mono (le_refl b.t) low
    refine le_trans ?_ step
    rcases tb.1.eq_or_lt with e | e
    · rw [e, Rounded.sub_self, Rounded.mul_zero, Rounded.mul_zero, Rounded.zero_div, Rounded.zero_div, Rounded.add_zero,
        Rounded.zero_div, Rounded.neg_zero, Rounded.add_zero]
    · have h3 := size hlo e
      show lo.1 ≤ binRound p emin (b.t.1 + -_)
      conv_lhs => rw [← Fl.kept lo]
      exact binRound_mono (by linarith)
  · have upp : (k * τ * (d.t - b.t) / E - j * τ * (b.t - a.t) / D) / (0.5 * (D + E)) ≤
        (k * ifaceBound E k * (hi - b.t) / E + j * ifaceBound D j * (hi - b.t) / D) / (0.5 * (D + E)) := by
      have hδ : (0 : F) ≤ hi - b.t := by
        have := Rounded.sub_mono tb.2 (le_refl b.t)
        rwa [Rounded.sub_self] at this
      refine Rounded.div_mono hM0 ?_
      rw [← Fl.sub_neg]
      refine Rounded.sub_mono (flux_mono hk hτ h2 hE0 (Rounded.sub_mono td.2 le_rfl) hδ) (flux_low hj hτ h1 hD0 ?_ hδ)
      rw [Fl.neg_sub]
      exact Rounded.sub_mono le_rfl ta.2
    have step := Rounded.add_mono (le_refl b.t) upp
    refine le_trans step ?_
    rcases tb.2.eq_or_lt with e | e
    · rw [e, Rounded.sub_self, Rounded.mul_zero, Rounded.mul_zero, Rounded.zero_div, Rounded.zero_div, Rounded.add_zero,
        Rounded.zero_div, Rounded.add_zero]
    · have h3 := size (le_trans hlo tb.1) e
      show binRound p emin (b.t.1 + _) ≤ hi.1
      conv_rhs => rw [← Fl.kept hi]
      exact binRound_mono (by linarith)


/-- Same height and diffusivity. -/
def SameCell (x y : HeatCell F) : Prop := x.h = y.h ∧ x.k = y.k

theorem heatBelow_shape (τ : F) : ∀ cs : List (HeatCell F), List.Forall₂ SameCell (heatBelow τ cs) cs.tail
  | [] => .nil
  | [_] => .nil
  | [_, _] => .cons ⟨rfl, rfl⟩ .nil
  | _ :: b :: d :: rest => .cons ⟨rfl, rfl⟩ (heatBelow_shape τ (b :: d :: rest))

theorem heatPass_shape (τ : F) : ∀ cs : List (HeatCell F), List.Forall₂ SameCell (heatPass τ cs) cs
  | [] => .nil
  | a :: rest => .cons ⟨rfl, rfl⟩ (heatBelow_shape τ (a :: rest))

theorem forall₂_shape_trans {xs ys zs : List (HeatCell F)} (h : List.Forall₂ SameCell xs ys) (h' : List.Forall₂ SameCell ys zs) :
    List.Forall₂ SameCell xs zs := by
  induction h generalizing zs with
  | nil => exact h'
  | cons h1 _ ih =>
    cases h' with
    | cons h2 h3 => exact .cons ⟨h1.1.trans h2.1, h1.2.trans h2.2⟩ (ih h3)

theorem heatIfaces_shape : ∀ {cs ds : List (HeatCell F)}, List.Forall₂ SameCell cs ds → heatIfaces cs = heatIfaces ds
  | [], _, h => by cases h; rfl
  | [_], _, h => by cases h with | cons h1 h2 => cases h2; rfl
  | a :: b :: cs, _, h => by
    cases h with
    | cons h1 h' =>
      have ih := heatIfaces_shape h'
      cases h' with
      | cons h2 h3 =>
        rw [heatIfaces, heatIfaces, ih]
        simp only [HeatCell.dist, HeatCell.diffusivity, h1.1, h1.2, h2.1, h2.2]

theorem sane_shape {cs ds : List (HeatCell F)} (h : List.Forall₂ SameCell cs ds) (hd : ∀ c ∈ ds, c.Sane) : ∀ c ∈ cs, c.Sane := by
  induction h with
  | nil => simp
  | cons h1 _ ih =>
    intro c hc
    rcases List.mem_cons.1 hc with rfl | hc
    · have := hd _ List.mem_cons_self
      unfold HeatCell.Sane at this ⊢
      rwa [h1.1, h1.2]
    · exact ih (fun x hx => hd x (List.mem_cons_of_mem _ hx)) c hc

/-- A sub-step within the limits of all interfaces. -/
def StableFl (τ : F) (cs : List (HeatCell F)) : Prop := ∀ x ∈ heatIfaces cs, τ ≤ 0.8 * (x / 2)

theorem StableFl.tail {τ : F} {a : HeatCell F} {cs : List (HeatCell F)} (h : StableFl τ (a :: cs)) : StableFl τ cs := by
  intro x hx
  apply h
  cases cs with
  | nil => simp [heatIfaces] at hx
  | cons b cs => rw [heatIfaces]; exact List.mem_cons_of_mem _ hx

theorem StableFl.head {τ : F} {a b : HeatCell F} {cs : List (HeatCell F)} (h : StableFl τ (a :: b :: cs)) :
    τ ≤ ifaceBound (a.dist b) (a.diffusivity b) := h _ (by rw [heatIfaces]; exact List.mem_cons_self)

theorem heatBelow_between_fl (hs : emin ≤ -(p : ℤ) - 90) {τ lo hi : F} (hτ : 0 ≤ τ) (hlo : 1 ≤ lo.1) : ∀ {cs : List (HeatCell F)},
    (∀ c ∈ cs, c.Sane) → StableFl τ cs → (∀ c ∈ cs, lo ≤ c.t ∧ c.t ≤ hi) → ∀ c ∈ heatBelow τ cs, lo ≤ c.t ∧ c.t ≤ hi
  | [], _, _, _ => by simp [heatBelow]
  | [_], _, _, _ => by simp [heatBelow]
  | [a, b], _, _, ht => by
    intro c hc
    simp only [heatBelow, List.mem_singleton] at hc
    exact ht c (by simp [hc])
  | a :: b :: d :: rest, hp', hst, ht => by
    intro c hc
    rw [heatBelow, List.mem_cons] at hc
    rcases hc with rfl | hc
    · exact heatNewT_between_fl hs (hp' a (by simp)) (hp' b (by simp)) (hp' d (by simp)) hτ hst.head hst.tail.head hlo
        (ht a (by simp)) (ht b (by simp)) (ht d (by simp))
    · exact heatBelow_between_fl hs hτ hlo (fun c hc => hp' c (List.mem_cons_of_mem _ hc)) hst.tail
        (fun c hc => ht c (List.mem_cons_of_mem _ hc)) c hc

theorem heatPass_between_fl (hs : emin ≤ -(p : ℤ) - 90) {τ lo hi : F} (hτ : 0 ≤ τ) (hlo : 1 ≤ lo.1) {cs : List (HeatCell F)}
    (hp' : ∀ c ∈ cs, c.Sane) (hst : StableFl τ cs) (ht : ∀ c ∈ cs, lo ≤ c.t ∧ c.t ≤ hi) :
    ∀ c ∈ heatPass τ cs, lo ≤ c.t ∧ c.t ≤ hi := by
  cases cs with
  | nil => simp [heatPass]
  | cons a rest =>
    intro c hc
    rw [heatPass, List.mem_cons] at hc
    rcases hc with rfl | hc
    · exact ht c (by simp)
    · exact heatBelow_between_fl hs hτ hlo hp' hst ht c hc

theorem pyMin_le_both (a b : F) : pyMin a b ≤ a ∧ pyMin a b ≤ b := by
  unfold pyMin
  split_ifs with h
  · exact ⟨h.le, le_rfl⟩
  · exact ⟨le_rfl, not_lt.1 h⟩

theorem foldl_pyMin_fl : ∀ (xs : List F) (m : F), xs.foldl pyMin m ≤ m ∧ ∀ x ∈ xs, xs.foldl pyMin m ≤ x := by
  intro xs
  induction xs with
  | nil => intro m; simp
  | cons y ys ih =>
    intro m
    obtain ⟨h1, h2⟩ := ih (pyMin m y)
    obtain ⟨q1, q2⟩ := pyMin_le_both m y
    rw [List.foldl_cons]
    refine ⟨h1.trans q1, fun x hx => ?_⟩
    rcases List.mem_cons.1 hx with rfl | hx
    · exact h1.trans q2
    · exact h2 x hx

theorem pyMinList_fl {xs : List F} {m : F} (h : pyMinList xs = .ok m) : xs ≠ [] ∧ ∀ x ∈ xs, m ≤ x := by
  cases xs with
  | nil => simp [pyMinList] at h
  | cons x xs =>
    simp only [pyMinList, ok_inj] at h
    subst h
    refine ⟨by simp, ?_⟩
    intro y hy
    rcases List.mem_cons.1 hy with rfl | hy
    · exact (foldl_pyMin_fl xs y).1
    · exact (foldl_pyMin_fl xs x).2 y hy

theorem heatDtStab_fl {cs : List (HeatCell F)} {s : F} (h : heatDtStab cs = .ok s) : StableFl s cs := by
  unfold heatDtStab at h
  simp only [bind_eq_ok] at h
  obtain ⟨up, hu, lo, hl, h⟩ := h
  rw [pure_eq_ok] at h
  obtain ⟨_, u2⟩ := pyMinList_fl hu
  obtain ⟨l1, l2⟩ := pyMinList_fl hl
  subst h
  obtain ⟨m1, m2⟩ := pyMin_le_both up lo
  have mono : ∀ x : F, pyMin up lo ≤ x → 0.8 * (pyMin up lo / 2) ≤ 0.8 * (x / 2) := fun x hx =>
    Rounded.mul_mono_left (Rounded.lit_nonneg (α := F) 8 true 1) (Rounded.div_mono (Rounded.nat_nonneg (α := F) 2) hx)
  intro x hx
  refine mono x ?_
  match hi : heatIfaces cs with
  | [] => rw [hi] at hx; simp at hx
  | y :: ys =>
    rw [hi] at hx u2 l2 l1
    rcases List.mem_cons.1 hx with rfl | hx
    · refine m1.trans (u2 x ?_)
      rw [List.dropLast_cons_of_ne_nil (by rintro rfl; simp at l1)]
      exact List.mem_cons_self
    · exact m2.trans (l2 x (by simpa using hx))

/-- Any number of sub-steps within the bound. -/
theorem heatSteps_between_fl (hs : emin ≤ -(p : ℤ) - 90) {lo hi st : F} (hlo : 1 ≤ lo.1) : ∀ (τs : List F) {cs : List (HeatCell F)},
    (∀ τ ∈ τs, 0 < τ ∧ τ ≤ st) → (∀ c ∈ cs, c.Sane) → StableFl st cs → (∀ c ∈ cs, lo ≤ c.t ∧ c.t ≤ hi) →
    ∀ c ∈ τs.foldl (fun cs τ => heatPass τ cs) cs, lo ≤ c.t ∧ c.t ≤ hi := by
  intro τs
  induction τs with
  | nil => intro cs _ _ _ h; exact h
  | cons τ τs ih =>
    intro cs h1 h2 h3 h4
    obtain ⟨t1, t2⟩ := h1 τ List.mem_cons_self
    rw [List.foldl_cons]
    refine ih (fun σ hσ => h1 σ (List.mem_cons_of_mem _ hσ)) (sane_shape (heatPass_shape τ cs) h2) ?_
      (heatPass_between_fl hs t1.le hlo h2 (fun x hx => t2.trans (h3 x hx)) h4)
    unfold StableFl
    rw [heatIfaces_shape (heatPass_shape τ cs)]
    exact h3


/-! ### Diffusivity of layers of ice, water and air -/

/-- Material constants of ordinary size: densities and heat capacities between 1 and 8192, conductivities between 1e-3 and 16. -/
structure Consts.Ranged (c : Consts F) : Prop where
  ice : 1 ≤ c.iceDensity.1 ∧ c.iceDensity.1 ≤ 8192
  water : 1 ≤ c.waterDensity.1 ∧ c.waterDensity.1 ≤ 8192
  air : 1 ≤ c.airDensity.1 ∧ c.airDensity.1 ≤ 8192
  cIce : 1 ≤ c.specHeatIce.1 ∧ c.specHeatIce.1 ≤ 8192
  cWater : 1 ≤ c.specHeatWater.1 ∧ c.specHeatWater.1 ≤ 8192
  cAir : 1 ≤ c.specHeatAir.1 ∧ c.specHeatAir.1 ≤ 8192
  kI : 1 / 1024 ≤ c.kI.1 ∧ c.kI.1 ≤ 16
  kW : 1 / 1024 ≤ c.kW.1 ∧ c.kW.1 ≤ 16
  kA : 1 / 1024 ≤ c.kA.1 ∧ c.kA.1 ≤ 16

theorem rnd_up {x B : K} (hp : 23 ≤ p) (he : emin ≤ -30) (h : x ≤ B) (hB : 1 ≤ B) : binRound p emin x ≤ 21 / 20 * B := by
  have h1 := binRound_mono (p := p) (emin := emin) h
  have h2 := (Rel.lit hp he (show (1 / 4 : K) ≤ B by linarith)).below
  rw [pow_one] at h2
  have : relStep K * B ≤ 21 / 20 * B := mul_le_mul_of_nonneg_right (by unfold relStep; norm_num) (by linarith)
  linarith

/-- A mixture of three materials. -/
theorem mix_bounds {x y z a b d : F} {A B : K} (hA : 1 / 1024 ≤ A) (hB : 1 ≤ B) (hx : 0 ≤ x ∧ x ≤ 1) (hy : 0 ≤ y ∧ y ≤ 1) (hz : 0 ≤ z ∧ z ≤ 1)
    (hone : 1 / 4 ≤ x.1 ∨ 1 / 4 ≤ y.1 ∨ 1 / 4 ≤ z.1) (ha : A ≤ a.1 ∧ a.1 ≤ B) (hb : A ≤ b.1 ∧ b.1 ≤ B) (hd : A ≤ d.1 ∧ d.1 ≤ B) :
    A / 8 ≤ (x * a + y * b + z * d).1 ∧ (x * a + y * b + z * d).1 ≤ 4 * B := by
  have term : ∀ {w e : F}, 0 ≤ w ∧ w ≤ 1 → A ≤ e.1 ∧ e.1 ≤ B → (0 : F) ≤ w * e ∧ (w * e).1 ≤ B ∧ (1 / 4 ≤ w.1 → A / 8 ≤ (w * e).1) := by
    intro w e hw he'
    have e0 : (0 : F) ≤ e := by show (0 : K) ≤ e.1; linarith [he'.1]
    refine ⟨Rounded.mul_nonneg hw.1 e0, le_trans (show (w * e).1 ≤ e.1 from Rounded.mul_le (α := F) e0 hw.2) he'.2, fun h => ?_⟩
    have h1 : A / 4 ≤ w.1 * e.1 := by
      have := mul_le_mul h he'.1 (by linarith) (hw.1 : (0 : K) ≤ w.1)
      linarith
    have h2 : Rel 1 (A / 4) (binRound p emin (A / 4)) := by
      refine (Rel.refl (by linarith)).rnd hp (by norm_num) ((emin_small (k := -12) (by omega)).trans ?_)
      norm_num
      linarith
    have h3 := h2.half (by norm_num)
    have h4 : binRound p emin (A / 4) ≤ (w * e).1 := binRound_mono h1
    linarith
  obtain ⟨x0, x1, x2⟩ := term hx ha
  obtain ⟨y0, y1, y2⟩ := term hy hb
  obtain ⟨z0, z1, z2⟩ := term hz hd
  have s0 : (0 : F) ≤ x * a + y * b := Rounded.add_nonneg x0 y0
  have sx : x * a ≤ x * a + y * b := by
    have := Rounded.add_mono (le_refl (x * a)) y0
    rwa [Rounded.add_zero] at this
  have sy : y * b ≤ x * a + y * b := by
    have := Rounded.add_mono x0 (le_refl (y * b))
    rwa [Rounded.zero_add] at this
  have t1 : x * a + y * b ≤ x * a + y * b + z * d := by
    have := Rounded.add_mono (le_refl (x * a + y * b)) z0
    rwa [Rounded.add_zero] at this
  have t2 : z * d ≤ x * a + y * b + z * d := by
    have := Rounded.add_mono s0 (le_refl (z * d))
    rwa [Rounded.zero_add] at this
  constructor
  · rcases hone with h | h | h
    · exact (x2 h).trans (sx.trans t1)
    · exact (y2 h).trans (sy.trans t1)
    · exact (z2 h).trans t2
  · have u1 : (x * a + y * b).1 ≤ 21 / 20 * (2 * B) :=
      rnd_up hp he (by linarith) (by linarith)
    have u2 : (x * a + y * b + z * d).1 ≤ 21 / 20 * (21 / 20 * (2 * B) + B) :=
      rnd_up hp he (by linarith) (by linarith)
    linarith

/-- One of the three fractions is at least a quarter. -/
theorem fraction_quarter {n : Node F} (hi : 0 ≤ n.iceFraction) (hw : 0 ≤ n.lwc) :
    ((0 : F) ≤ n.airPorosity ∧ n.airPorosity ≤ 1) ∧ (1 / 4 ≤ n.iceFraction.1 ∨ 1 / 4 ≤ n.lwc.1 ∨ 1 / 4 ≤ n.airPorosity.1) := by
  have h1 : 1 - n.lwc - n.iceFraction ≤ 1 := (Rounded.sub_le hi).trans (Rounded.sub_le hw)
  refine ⟨⟨Rounded.max_nonneg_left, ?_⟩, ?_⟩
  · unfold Node.airPorosity pyMax
    split_ifs
    · exact h1
    · exact Rounded.zero_le_one
  by_cases c1 : 1 / 4 ≤ n.iceFraction.1
  · exact Or.inl c1
  by_cases c2 : 1 / 4 ≤ n.lwc.1
  · exact Or.inr (Or.inl c2)
  refine Or.inr (Or.inr ?_)
  have e1 : (2 / 3 : K) ≤ (1 - n.lwc).1 := by
    have h2 : (3 / 4 : K) ≤ (1 : F).1 - n.lwc.1 := by
      show (3 / 4 : K) ≤ 1 - n.lwc.1
      linarith
    have h3 := (Rel.lit (p := p) (emin := emin) hp he (show (1 / 4 : K) ≤ 3 / 4 by norm_num)).above
    have h4 : binRound p emin (3 / 4 : K) ≤ (1 - n.lwc).1 := binRound_mono h2
    rw [pow_one] at h3
    unfold relStep at h3
    linarith
  have e2 : (1 / 4 : K) ≤ (1 - n.lwc - n.iceFraction).1 := by
    have h2 : (2 / 5 : K) ≤ (1 - n.lwc).1 - n.iceFraction.1 := by linarith
    have h3 := (Rel.lit (p := p) (emin := emin) hp he (show (1 / 4 : K) ≤ 2 / 5 by norm_num)).half (by norm_num)
    have h3' := (Rel.lit (p := p) (emin := emin) hp he (show (1 / 4 : K) ≤ 2 / 5 by norm_num)).above
    have h4 : binRound p emin (2 / 5 : K) ≤ (1 - n.lwc - n.iceFraction).1 := binRound_mono h2
    rw [pow_one] at h3'
    unfold relStep at h3'
    linarith
  exact e2.trans (Rounded.le_max_right (α := F) (a := 0))

/-- The diffusivity of a layer of ice, water and air is of ordinary size. -/
theorem diffusivity_range (hs : emin ≤ -(p : ℤ) - 90) {c : Consts F} (hc : c.Ranged) {n : Node F} (hi : 0 ≤ n.iceFraction ∧ n.iceFraction ≤ 1)
    (hw : 0 ≤ n.lwc ∧ n.lwc ≤ 1) {k : F} (h : n.thermalDiffusivity c = .ok k) : (2 : K) ^ (-58 : ℤ) ≤ k.1 ∧ k.1 ≤ 524288 := by
  obtain ⟨ha, hq⟩ := fraction_quarter hi.1 hw.1
  have hrho : (1 : K) / 8 ≤ (n.density c).1 ∧ (n.density c).1 ≤ 4 * 8192 :=
    mix_bounds (by norm_num) (by norm_num) hi hw ha hq hc.ice hc.water hc.air
  have hcp : (1 : K) / 8 ≤ (n.specificHeat c).1 ∧ (n.specificHeat c).1 ≤ 4 * 8192 :=
    mix_bounds (by norm_num) (by norm_num) hi ha hw (by tauto) hc.cIce hc.cAir hc.cWater
  unfold Node.thermalDiffusivity at h
  rw [bind_eq_ok] at h
  obtain ⟨q, hk, h⟩ := h
  have hqb : (1 : K) / 8192 ≤ q.1 ∧ q.1 ≤ 4096 := by
    unfold Node.thermalConductivity at hk
    split at hk
    · rw [ok_inj] at hk; subst hk
      have := mix_bounds (A := (1 / 1024 : K)) (B := 16) (by norm_num) (by norm_num) hi ha hw (by tauto) hc.kI hc.kA hc.kW
      exact ⟨by linarith [this.1], by linarith [this.2]⟩
    · simp only [ok_inj] at hk; subst hk
      have h0 : (0 : F) ≤ n.density c / 1000 :=
        Rounded.div_nonneg (show (0 : K) ≤ (n.density c).1 by linarith [hrho.1]) (Rounded.nat_nonneg (α := F) 1000)
      have l1000 : (999 : K) ≤ (1000 : F).1 := by
        have : (1000 : F).1 = binRound p emin (1000 : K) := by
          show binRound p emin (((1000 : ℕ) : K)) = _
          norm_num
        rw [this]
        have := (Rel.lit (p := p) (emin := emin) hp he (show (1 / 4 : K) ≤ 1000 by norm_num)).above
        rw [pow_one] at this
        unfold relStep at this
        linarith
      have r1 : (n.density c / 1000).1 ≤ 21 / 20 * 33 := by
        refine rnd_up hp he ?_ (by norm_num)
        rw [div_le_iff₀ (by linarith)]
        linarith [hrho.2]
      generalize n.density c / 1000 = r at h0 r1
      have h0' : (0 : K) ≤ r.1 := h0
      have r2 : (r * r).1 ≤ 21 / 20 * 1300 := by
        refine rnd_up hp he ?_ (by norm_num)
        nlinarith
      have r20 : (0 : F) ≤ r * r := Rounded.mul_nonneg h0 h0
      have l25 : (2.5 : F).1 ≤ 21 / 20 * 2.5 := rnd_up hp he (x := (2.5 : K)) le_rfl (by norm_num)
      have l250 : (0 : F) ≤ 2.5 := Rounded.lit_nonneg (α := F) 25 true 1
      have r3 : (2.5 * (r * r)).1 ≤ 21 / 20 * 3600 := by
        refine rnd_up hp he ?_ (by norm_num)
        have := mul_le_mul l25 r2 r20 (by norm_num)
        refine this.trans ?_
        norm_num
      have r30 : (0 : F) ≤ 2.5 * (r * r) := Rounded.mul_nonneg l250 r20
      have l21 : (1 / 8192 : K) ≤ (0.021 : F).1 := by
        have h2 : Rel 1 (0.021 : K) (0.021 : F).1 := by
          refine (Rel.refl (by norm_num)).rnd hp (by norm_num) ((emin_small (k := -6) (by omega)).trans ?_)
          norm_num
        have := h2.half (by norm_num)
        norm_num at this ⊢
        linarith
      have u21 : (0.021 : F).1 ≤ 21 / 20 * 1 := rnd_up hp he (x := (0.021 : K)) (by norm_num) le_rfl
      constructor
      · have := Rounded.add_mono (le_refl (0.021 : F)) r30
        rw [Rounded.add_zero] at this
        exact l21.trans this
      · have : (0.021 + 2.5 * (r * r)).1 ≤ 21 / 20 * 3800 := rnd_up hp he (by linarith) (by norm_num)
        linarith
    · simp at hk
  generalize n.density c = d at *
  generalize n.specificHeat c = s at *
  have hpr : (1 : K) / 64 ≤ d.1 * s.1 ∧ d.1 * s.1 ≤ 1073741824 := by
    obtain ⟨d1, d2⟩ := hrho
    obtain ⟨s1, s2⟩ := hcp
    constructor
    · have := mul_le_mul d1 s1 (by norm_num) (by linarith)
      linarith
    · have := mul_le_mul d2 s2 (by linarith) (by norm_num)
      linarith
  have r1 : Rel 1 (d.1 * s.1) (d * s).1 := by
    refine (Rel.refl (by linarith [hpr.1])).rnd hp (by norm_num) ((emin_small (k := -6) (by omega)).trans (le_trans ?_ hpr.1))
    norm_num
  have hq0 : 0 < q.1 := by linarith [hqb.1]
  have lowq : (2 : K) ^ (-43 : ℤ) ≤ q.1 / (d.1 * s.1) := by
    rw [le_div_iff₀ (by linarith [hpr.1])]
    calc (2 : K) ^ (-43 : ℤ) * (d.1 * s.1) ≤ 2 ^ (-43 : ℤ) * 1073741824 := mul_le_mul_of_nonneg_left hpr.2 (ulp_pos _).le
      _ = 1 / 8192 := by norm_num
      _ ≤ q.1 := hqb.1
  have r2 : Rel 2 (q.1 / (d.1 * s.1)) (q / (d * s)).1 :=
    ((Rel.refl hq0).div r1).rnd hp (by norm_num) ((emin_small (k := -43) (by omega)).trans lowq)
  have upq : q.1 / (d.1 * s.1) ≤ 262144 := by
    rw [div_le_iff₀ (by linarith [hpr.1])]
    linarith [hqb.2, hpr.1]
  unfold fdiv at h
  split_ifs at h
  rw [ok_inj] at h
  subst h
  constructor
  · have h1 := r2.half (by norm_num)
    have e : (2 : K) ^ (-58 : ℤ) = 2 ^ (-43 : ℤ) / 32768 := by norm_num
    have := ulp_pos (K := K) (-43)
    rw [e]
    clear e
    generalize (2 : K) ^ (-43 : ℤ) = w at *
    linarith
  · have := r2.most (by norm_num)
    linarith

end
end Cosipy
