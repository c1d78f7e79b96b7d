import Verif.Lemmas.MassErr
import Verif.Props.C105
import Verif.Props.C109
import Mathlib.Algebra.Field.Rat
import Mathlib.Algebra.Order.Ring.Unbundled.Rat
import Mathlib.Data.Rat.Floor

/-!
# C110 Water and ice are conserved in double precision up to the roundings

C05, C16 and C18 say in exact arithmetic that merging, percolation and refreezing conserve water and ice. In double precision they do not, but
the error is bounded: the totals below are the exact sums of the exact products of the numbers stored in the layers, so what is bounded is the error of
the state itself and not of a sum reported about it. With `u` the unit roundoff, `(1 + u)^k - 1` is the relative error of `k` roundings; `η` is
half of the smallest subnormal number. No cancellation spoils the bounds: they are relative to the water (or mass) of the column, and differences
of nearly equal numbers (the excess over the retained water) are harmless because the same rounded amount is taken away and handed on.
-/

set_option autoImplicit false
set_option linter.unusedSectionVars false

namespace Cosipy
section
variable {K : Type} [Field K] [LinearOrder K] [IsStrictOrderedRing K] [FloorRing K] {p : ℕ} {emin : ℤ} {hp : 23 ≤ p} {he : emin ≤ -30}

local notation "F" => Fl (binary K p emin hp he)
local notation "g" => grow K p
local notation "η" => underflowUnit K p emin

/-- Liquid water of a layer (m), the exact product of the stored numbers. -/
def waterOf (n : Node F) : K := n.lwc.1 * n.height.1
/-- Volume of the ice of a layer (m), the exact product of the stored numbers. -/
def iceOf (n : Node F) : K := n.iceFraction.1 * n.height.1
/-- Thickness of a layer. -/
def thickOf (n : Node F) : K := n.height.1

/-- A layer with a thickness and without negative contents. -/
structure SolidLayer (n : Node F) : Prop where
  thick : 0 < n.height
  ice : 0 ≤ n.iceFraction
  water : 0 ≤ n.lwc

theorem SolidLayer.nn {n : Node F} (h : SolidLayer n) : NonNegLayer n := ⟨h.thick.le, h.ice, h.water⟩
theorem SolidLayer.waterOf {n : Node F} (h : SolidLayer n) : 0 ≤ waterOf n := mul_nonneg h.water h.thick.le

/-- Water pressed from a layer into the next one. -/
theorem overflow_amount {L θ h B H : F} (hθ : θ ≤ L) (hh : 0 ≤ h) (hB : 0 ≤ B) (hH : 0 < H) :
    Amount p 4 (g ^ 2 * η * (1 + H.1)) (B.1 * H.1 + (L.1 - θ.1) * h.1) ((B + (L - θ) * h / H).1 * H.1) := by
  have hH' : (0 : K) < H.1 := hH
  have hη := underflow_pos (K := K) (p := p) (emin := emin)
  have hg := grow_pos (K := K) (p := p)
  have a1 := ((Amount.refl (p := p) (sub_nonneg.2 (show θ.1 ≤ L.1 from hθ))).rnd_sub (Fl.kept L) (Fl.kept θ)).scale (show (0 : K) ≤ h.1 from hh)
  have a2 := (a1.rnd (emin := emin)).quot hH'
  have a3 := a2.rnd (emin := emin)
  have a4 := (((Amount.refl (p := p) (show (0 : K) ≤ B.1 from hB)).weaken (Nat.zero_le 3) le_rfl).add a3).rnd_add (Fl.kept B)
    (binRound_idem _)
  have a5 := a4.scale hH'.le
  have e : (B.1 + (L.1 - θ.1) * h.1 / H.1) * H.1 = B.1 * H.1 + (L.1 - θ.1) * h.1 := by field_simp
  rw [e] at a5
  refine a5.weaken le_rfl ?_
  have h1 : g * η * H.1 ≤ g ^ 2 * η * H.1 := by
    rw [pow_two]
    have := mul_le_mul_of_nonneg_right (grow_one (K := K) (p := p)) (mul_pos (mul_pos hg hη) hH').le
    linarith
  have e2 : g * (0 + (g * ((g * (g * 0 * h.1) + η) / H.1) + η)) * H.1 = g ^ 2 * η + g * η * H.1 := by field_simp; ring
  rw [e2]; linarith

theorem percolateFrom_amount : ∀ (rest : List (Node F)) {a : Node F} {ms : List (Node F)}, SolidLayer a → (∀ n ∈ rest, SolidLayer n) →
    percolateFrom a rest = .ok ms →
    Amount p (4 * rest.length) (g ^ (4 * rest.length) * η * (rest.length + exactTotal thickOf rest)) (exactTotal waterOf (a :: rest))
      (exactTotal waterOf ms) := by
  intro rest
  have hη := underflow_pos (K := K) (p := p) (emin := emin)
  induction rest with
  | nil =>
    intro a ms ha _ h
    rw [percolateFrom] at h; cases h
    exact (Amount.refl (by simpa using ha.waterOf)).weaken (Nat.zero_le _) (by simp)
  | cons b rest ih =>
    intro a ms ha hr h
    have hb := hr b (by simp)
    have hr' : ∀ n ∈ rest, SolidLayer n := fun n hn => hr n (by simp [hn])
    have hT : 0 ≤ exactTotal thickOf rest := exactTotal_nonneg _ fun n hn => (hr' n hn).thick.le
    have hN : (0 : K) ≤ rest.length := Nat.cast_nonneg _
    have hbt : (0 : K) < thickOf b := hb.thick
    have hG : g ^ (4 * rest.length) ≤ g ^ (4 * (rest.length + 1)) := grow_pow_mono (by omega)
    have hG0 : (0 : K) < g ^ (4 * rest.length) := pow_pos grow_pos _
    rw [percolateFrom, bind_eq_ok] at h
    obtain ⟨e, he, h⟩ := h
    have he0 := irr_nn ha.ice he
    simp only at h
    rw [List.length_cons, exactTotal_cons, exactTotal_cons, exactTotal_cons]
    push_cast
    split_ifs at h with hp
    · simp only [bind_eq_ok] at h
      obtain ⟨q, hq, tl, htl, h⟩ := h
      rw [pure_eq_ok] at h; subst h
      have hq := fdiv_ok hq
      have hmax : pyMax (a.lwc - e) 0 = a.lwc - e := by
        unfold pyMax at hp ⊢
        split_ifs at hp ⊢ with h1
        · exact absurd hp (lt_irrefl _)
        · rfl
      rw [hmax] at hp hq
      have hlt : e ≤ a.lwc := by
        by_contra hc
        exact absurd hp (not_lt.2 (Rounded.sub_nonpos (not_le.1 hc).le))
      have hq0 : 0 ≤ q := by rw [hq]; exact Rounded.div_nonneg (Rounded.mul_nonneg hp.le ha.thick.le) hb.thick.le
      have h1 := ih (a := b.setLwc (b.lwc + q)) ⟨hb.thick, hb.ice, Rounded.add_nonneg hb.water hq0⟩ hr' htl
      have h2 := overflow_amount hlt ha.thick.le hb.water hb.thick
      rw [← hq] at h2
      have h3 : Amount p 4 (g ^ 2 * η * (1 + thickOf b)) (waterOf b + (a.lwc.1 - e.1) * a.height.1 + exactTotal waterOf rest)
          (exactTotal waterOf (b.setLwc (b.lwc + q) :: rest)) := by
        rw [exactTotal_cons]
        have := h2.add ((Amount.refl (p := p) (exactTotal_nonneg waterOf fun n hn => (hr' n hn).waterOf)).weaken (Nat.zero_le 4) le_rfl)
        rwa [add_zero] at this
      have h4 := (h3.trans h1).add ((Amount.refl (p := p) (mul_nonneg (show (0 : K) ≤ e.1 from he0) (show (0 : K) ≤ a.height.1 from ha.thick.le))).weaken
        (Nat.zero_le (4 + 4 * rest.length)) le_rfl)
      have e1 : waterOf b + (a.lwc.1 - e.1) * a.height.1 + exactTotal waterOf rest + e.1 * a.height.1
          = waterOf a + (waterOf b + exactTotal waterOf rest) := by unfold waterOf; ring
      have e2 : exactTotal waterOf tl + e.1 * a.height.1 = waterOf (a.setLwc e) + exactTotal waterOf tl := by rw [add_comm]; rfl
      rw [e1, e2] at h4
      rw [exactTotal_cons]
      refine h4.weaken (by omega) ?_
      have h5 : g ^ (4 * rest.length) * g ^ 2 ≤ g ^ (4 * (rest.length + 1)) := by
        rw [← pow_add]; exact grow_pow_mono (by omega)
      have h6 := mul_le_mul_of_nonneg_right h5 (mul_nonneg hη.le (by linarith : 0 ≤ 1 + thickOf b))
      have h7 := mul_le_mul_of_nonneg_right hG (mul_nonneg hη.le (add_nonneg hN hT))
      linarith
    · simp only [bind_eq_ok] at h
      obtain ⟨tl, htl, h⟩ := h
      rw [pure_eq_ok] at h; subst h
      have h1 := (ih hb hr' htl).add ((Amount.refl (p := p) ha.waterOf).weaken (Nat.zero_le _) le_rfl)
      rw [exactTotal_cons, add_comm _ (waterOf a), add_comm _ (waterOf a)] at h1
      rw [exactTotal_cons]
      refine h1.weaken (by omega) ?_
      have h7 := mul_le_mul_of_nonneg_right hG (mul_nonneg hη.le (add_nonneg hN hT))
      have h8 : 0 ≤ g ^ (4 * (rest.length + 1)) * η * (1 + thickOf b) := mul_nonneg (mul_pos (pow_pos grow_pos _) hη).le (by linarith)
      linarith

/-- **C110, percolation.** The water of the column and the runoff are together the water of the column before and the water supplied, up
to four roundings for each layer, and underflow. -/
theorem C110_percolation {gr gr' : Grid F} {w q : F} (hw : gr.WF) (hs : ∀ n ∈ gr.nodes, SolidLayer n) (h0 : 0 ≤ w)
    (h : percolation gr w = .ok (gr', q)) :
    |exactTotal waterOf gr'.nodes + q.1 - (exactTotal waterOf gr.nodes + w.1)| ≤
      (g ^ (4 * gr.nodes.length) - 1) * (exactTotal waterOf gr.nodes + w.1)
        + g ^ (4 * gr.nodes.length) * η * (gr.nodes.length + exactTotal thickOf gr.nodes) := by
  obtain ⟨top, rest, init, last, e1, e2, e3, e4⟩ := percolation_parts hw h
  have hη := underflow_pos (K := K) (p := p) (emin := emin)
  rw [e1] at hs ⊢
  have ht := hs top (by simp)
  have hr : ∀ n ∈ rest, SolidLayer n := fun n hn => hs n (by simp [hn])
  have hH : (0 : K) < top.height.1 := ht.thick
  have hT : 0 ≤ exactTotal thickOf rest := exactTotal_nonneg _ fun n hn => (hr n hn).thick.le
  have hN : (0 : K) ≤ rest.length := Nat.cast_nonneg _
  have hd : 0 ≤ w / top.height := Rounded.div_nonneg h0 ht.thick.le
  have a1 := ((Amount.refl (p := p) (show (0 : K) ≤ w.1 from h0)).quot hH).rnd (emin := emin)
  have a2 := (((((Amount.refl (p := p) (show (0 : K) ≤ top.lwc.1 from ht.water)).weaken (Nat.zero_le 1) le_rfl).add a1).rnd_add
    (Fl.kept top.lwc) (binRound_idem _)).scale hH.le)
  have a3 := a2.add ((Amount.refl (p := p) (exactTotal_nonneg waterOf fun n hn => (hr n hn).waterOf)).weaken (Nat.zero_le 2) le_rfl)
  have b1 := percolateFrom_amount rest (a := top.setLwc (top.lwc + w / top.height)) ⟨ht.thick, ht.ice, Rounded.add_nonneg ht.water hd⟩ hr e2
  have nn := percolateFrom_nn rest (a := top.setLwc (top.lwc + w / top.height)) ⟨ht.thick.le, ht.ice, Rounded.add_nonneg ht.water hd⟩
    (fun n hn => (hr n hn).nn) e2
  have nl := nn last (by simp)
  have hl : (0 : K) ≤ waterOf last := mul_nonneg nl.water nl.height
  have hi : 0 ≤ exactTotal waterOf init := exactTotal_nonneg _ fun n hn => mul_nonneg (nn n (by simp [hn])).water (nn n (by simp [hn])).height
  have c1 := ((Amount.refl (p := p) hi).weaken (Nat.zero_le 1) le_rfl).add ((Amount.refl (p := p) hl).rnd (emin := emin))
  rw [exactTotal_append, exactTotal_cons waterOf last, exactTotal_nil, add_zero] at b1
  have d1 := a3.trans (b1.trans c1)
  have e5 : exactTotal waterOf gr'.nodes + q.1 = exactTotal waterOf init + binRound p emin (waterOf last) := by
    rw [e3, e4]
    show exactTotal waterOf (init ++ [last.setLwc 0]) + _ = _
    rw [exactTotal_append, exactTotal_cons, exactTotal_nil]
    have : waterOf (last.setLwc 0) = 0 := zero_mul _
    rw [this, add_zero, add_zero]
    rfl
  have e6 : (top.lwc.1 + w.1 / top.height.1) * top.height.1 + exactTotal waterOf rest = exactTotal waterOf (top :: rest) + w.1 := by
    rw [exactTotal_cons]; unfold waterOf; field_simp; ring
  rw [e6, ← e5] at d1
  rw [List.length_cons]
  have hle : 0 + 1 + 1 + (4 * rest.length + 1) ≤ 4 * (rest.length + 1) := by omega
  refine (d1.weaken hle ?_).err
  rw [exactTotal_cons]
  push_cast
  have k1 : g ^ (4 * rest.length + 1) * g ≤ g ^ (4 * (rest.length + 1)) := by rw [← pow_succ]; exact grow_pow_mono (by omega)
  have k2 : g ^ 1 * g ^ (4 * rest.length) ≤ g ^ (4 * (rest.length + 1)) := by rw [← pow_add]; exact grow_pow_mono (by omega)
  have k3 : 1 ≤ g ^ (4 * (rest.length + 1)) := grow_pow_one _
  have m1 := mul_le_mul_of_nonneg_right k1 (mul_pos hη hH).le
  have m2 := mul_le_mul_of_nonneg_right k2 (mul_nonneg hη.le (add_nonneg hN hT))
  have m3 := mul_le_mul_of_nonneg_right k3 hη.le
  rw [zero_div, mul_zero, zero_add, zero_add, add_zero]
  have e7 : thickOf top = top.height.1 := rfl
  rw [e7]
  linarith

end

/-! ## Refreezing -/

section
variable {α : Type} [LinearOrder α] [Zero α] [One α] [Add α] [Sub α] [Mul α] [Div α] [Neg α] [NatCast α] [OfScientific α] [Rounded α]

/-- Signs of the constants of refreezing. -/
structure FreezeSigns (c : Consts α) : Prop where
  ice : 0 < c.iceDensity
  water : 0 ≤ c.waterDensity
  cIce : 0 ≤ c.specHeatIce
  cWater : 0 ≤ c.specHeatWater
  melt : 0 ≤ c.latHeatMelting

/-- The layer is not so cold (some 150 K below the melting point) that ice takes less heat to warm up than the same water gives off. -/
def NotAbsurdlyCold (c : Consts α) (n : Node α) : Prop :=
  (n.temperature - c.zeroTemperature) * (c.specHeatIce - c.specHeatWater) ≤ c.latHeatMelting

theorem pyMin_nonneg {a b : α} (ha : 0 ≤ a) (hb : 0 ≤ b) : 0 ≤ pyMin a b := by
  unfold pyMin; split_ifs
  · exact hb
  · exact ha

/-- What refreezing does to a layer, in rounded arithmetic. -/
theorem refreezeLayer_parts {c : Consts α} (hc : FreezeSigns c) {n m : Node α} {d : α} (hi : 0 ≤ n.iceFraction) (hl : 0 ≤ n.lwc)
    (hq : NotAbsurdlyCold c n) (h : refreezeLayer c n = .ok (m, d)) :
    ∃ x, 0 ≤ x ∧ x ≤ n.lwc ∧ m.height = n.height ∧ m.lwc = n.lwc - x ∧
      m.iceFraction = n.iceFraction + c.waterDensity / c.iceDensity * x ∧ d = x * n.height := by
  unfold refreezeLayer at h
  split_ifs at h with h0
  · simp only [bind_eq_ok] at h
    obtain ⟨x, hx, _, _, dT, _, h⟩ := h
    split_ifs at h
    rw [pure_eq_ok] at h; cases h
    refine ⟨x, ?_, ?_, rfl, rfl, rfl, rfl⟩
    · unfold refreezeAmount at hx
      simp only [bind_eq_ok] at hx
      obtain ⟨y, hy, hx⟩ := hx
      rw [pure_eq_ok] at hx; subst hx
      have hy := fdiv_ok hy
      have ht : n.temperature - c.zeroTemperature ≤ 0 := Rounded.sub_nonpos h0.1
      refine pyMin_nonneg (pyMin_nonneg (pyMin_nonneg hl Rounded.max_nonneg_right) ?_) ?_
      · rw [hy]
        refine Rounded.div_nonneg (Rounded.neg_nonneg (Rounded.mul_nonpos ht ?_)) (Rounded.mul_nonneg hc.water (Rounded.sub_nonneg hq))
        exact Rounded.add_nonneg (Rounded.mul_nonneg hi (Rounded.mul_nonneg hc.cIce hc.ice.le))
          (Rounded.mul_nonneg (Rounded.mul_nonneg hl hc.water) hc.cWater)
      · exact Rounded.div_nonneg (Rounded.neg_nonneg (Rounded.mul_nonpos' (Rounded.mul_nonneg (Rounded.mul_nonneg hc.cIce hc.ice.le) hi) ht))
          (Rounded.mul_nonneg hc.water hc.melt)
    · unfold refreezeAmount at hx
      simp only [bind_eq_ok] at hx
      obtain ⟨y, hy, hx⟩ := hx
      rw [pure_eq_ok] at hx; subst hx
      exact Rounded.min_le_left.trans (Rounded.min_le_left.trans Rounded.min_le_left)
  · rw [pure_eq_ok] at h; cases h
    refine ⟨0, le_rfl, hl, rfl, ?_, ?_, rfl⟩
    · rw [Rounded.sub_zero]; rfl
    · rw [Rounded.mul_zero, Rounded.add_zero]; rfl

end

section
variable {K : Type} [Field K] [LinearOrder K] [IsStrictOrderedRing K] [FloorRing K] {p : ℕ} {emin : ℤ} {hp : 23 ≤ p} {he : emin ≤ -30}

local notation "F" => Fl (binary K p emin hp he)
local notation "g" => grow K p
local notation "η" => underflowUnit K p emin

/-- Mass of the water and ice of a layer (kg m⁻²), computed exactly from the stored numbers. -/
def massOf (c : Consts F) (n : Node F) : K := c.iceDensity.1 * iceOf n + c.waterDensity.1 * waterOf n

/-- What underflow can change of the mass of a layer in refreezing, in units of the smallest number. -/
def freezeSlack (c : Consts F) (n : Node F) : K := (1 + n.lwc.1) * (c.iceDensity.1 * n.height.1)

theorem refreezeLayer_mass {c : Consts F} (hc : FreezeSigns c) {n m : Node F} {d : F} (hn : SolidLayer n) (hq : NotAbsurdlyCold c n)
    (h : refreezeLayer c n = .ok (m, d)) : Amount p 3 (g ^ 2 * η * freezeSlack c n) (massOf c n) (massOf c m) := by
  obtain ⟨x, x0, x1, e1, e2, e3, e4⟩ := refreezeLayer_parts hc hn.ice hn.water hq h
  have hη := underflow_pos (K := K) (p := p) (emin := emin)
  have hg := grow_pos (K := K) (p := p)
  have hi : (0 : K) < c.iceDensity.1 := hc.ice
  have hw : (0 : K) ≤ c.waterDensity.1 := hc.water
  have hh : (0 : K) < n.height.1 := hn.thick
  have hx : (0 : K) ≤ x.1 := x0
  have hxl : x.1 ≤ n.lwc.1 := x1
  have a1 := (((Amount.refl (p := p) hw).quot hi).rnd (emin := emin)).scale hx
  have a2 := a1.rnd (emin := emin)
  have a3 := (((Amount.refl (p := p) (show (0 : K) ≤ n.iceFraction.1 from hn.ice)).weaken (Nat.zero_le 2) le_rfl).add a2).rnd_add
    (Fl.kept n.iceFraction) (binRound_idem _)
  have a4 := a3.scale (mul_pos hi hh).le
  have b1 := ((((Amount.refl (p := p) (sub_nonneg.2 hxl)).rnd_sub (Fl.kept n.lwc) (Fl.kept x)).weaken (show 0 + 1 ≤ 3 by omega) le_rfl).scale
    (mul_nonneg hw hh.le))
  have d1 := a4.add b1
  have k1 : (n.iceFraction.1 + c.waterDensity.1 / c.iceDensity.1 * x.1) * (c.iceDensity.1 * n.height.1)
      + (n.lwc.1 - x.1) * (c.waterDensity.1 * n.height.1) = massOf c n := by
    unfold massOf iceOf waterOf; field_simp; ring
  have k2 : massOf c m = binRound p emin (n.iceFraction.1 + binRound p emin (binRound p emin (c.waterDensity.1 / c.iceDensity.1) * x.1))
      * (c.iceDensity.1 * n.height.1) + binRound p emin (n.lwc.1 - x.1) * (c.waterDensity.1 * n.height.1) := by
    have k3 : m.iceFraction.1 = binRound p emin (n.iceFraction.1 + binRound p emin (binRound p emin (c.waterDensity.1 / c.iceDensity.1) * x.1)) := by
      rw [e3]; rfl
    have k4 : m.lwc.1 = binRound p emin (n.lwc.1 - x.1) := by rw [e2]; rfl
    unfold massOf iceOf waterOf
    rw [k3, k4, e1]; ring
  rw [k1, ← k2] at d1
  refine d1.weaken le_rfl ?_
  have m0 : (0 : K) ≤ c.iceDensity.1 * n.height.1 := (mul_pos hi hh).le
  have m1 : g * η ≤ g ^ 2 * η := by
    rw [pow_two, mul_assoc]
    have := mul_le_mul_of_nonneg_right (grow_one (K := K) (p := p)) (mul_pos hg hη).le
    linarith
  have m2 := mul_le_mul_of_nonneg_left hxl (mul_pos (pow_pos hg 2) hη).le
  have m3 : g * (0 + (g * ((g * (0 / c.iceDensity.1) + η) * x.1) + η)) ≤ g ^ 2 * η * (1 + n.lwc.1) := by
    rw [zero_div, mul_zero, zero_add, zero_add]
    linarith
  have m4 := mul_le_mul_of_nonneg_right m3 m0
  unfold freezeSlack
  rw [mul_zero, zero_mul, add_zero]
  linarith

theorem refreezeLayers_mass {c : Consts F} (hc : FreezeSigns c) : ∀ (ns : List (Node F)) {acc : F} {r : List (Node F) × F},
    (∀ n ∈ ns, SolidLayer n ∧ NotAbsurdlyCold c n) → refreezeLayers c acc ns = .ok r →
    Amount p 3 (g ^ 2 * η * exactTotal (freezeSlack c) ns) (exactTotal (massOf c) ns) (exactTotal (massOf c) r.1) := by
  intro ns
  induction ns with
  | nil =>
    intro acc r _ h; rw [refreezeLayers] at h; cases h
    exact (Amount.refl (p := p) le_rfl).weaken (Nat.zero_le 3) (by simp)
  | cons n ns ih =>
    intro acc r hn h
    rw [refreezeLayers, bind_eq_ok] at h
    obtain ⟨⟨n', d⟩, h1, h⟩ := h
    simp only [bind_eq_ok] at h
    obtain ⟨⟨ns', t⟩, h2, h⟩ := h
    rw [pure_eq_ok] at h; subst h
    have a := (refreezeLayer_mass hc (hn n (by simp)).1 (hn n (by simp)).2 h1).add (ih (fun m hm => hn m (by simp [hm])) h2)
    rw [← mul_add] at a
    rw [exactTotal_cons, exactTotal_cons]
    show Amount p 3 _ _ (exactTotal (massOf c) (n' :: ns'))
    rw [exactTotal_cons]
    exact a

/-- **C110, refreezing.** The mass of the column, water and ice together, changes by no more than three roundings, and underflow, however
many layers there are. -/
theorem C110_refreezing {c : Consts F} (hc : FreezeSigns c) {gr gr' : Grid F} {q : F}
    (hs : ∀ n ∈ gr.nodes, SolidLayer n ∧ NotAbsurdlyCold c n) (h : refreezing c gr = .ok (gr', q)) :
    |exactTotal (massOf c) gr'.nodes - exactTotal (massOf c) gr.nodes| ≤
      (g ^ 3 - 1) * exactTotal (massOf c) gr.nodes + g ^ 2 * η * exactTotal (freezeSlack c) gr.nodes := by
  unfold refreezing at h
  rw [bind_eq_ok] at h; obtain ⟨⟨ns, t⟩, h1, h⟩ := h
  rw [pure_eq_ok] at h; cases h
  exact (refreezeLayers_mass hc _ hs h1).err

theorem refreezeLayer_water {c : Consts F} (hc : FreezeSigns c) {n m : Node F} {d : F} (hn : SolidLayer n) (hq : NotAbsurdlyCold c n)
    (h : refreezeLayer c n = .ok (m, d)) (acc : F) (ha : 0 ≤ acc) :
    0 ≤ d ∧ Amount p 2 (g * η) (acc.1 + waterOf n) ((acc + d).1 + waterOf m) := by
  obtain ⟨x, x0, x1, e1, e2, e3, e4⟩ := refreezeLayer_parts hc hn.ice hn.water hq h
  have hh : (0 : K) < n.height.1 := hn.thick
  have hx : (0 : K) ≤ x.1 := x0
  have hxl : x.1 ≤ n.lwc.1 := x1
  refine ⟨by rw [e4]; exact Rounded.mul_nonneg x0 hn.thick.le, ?_⟩
  have a1 := (Amount.refl (p := p) (mul_nonneg hx hh.le)).rnd (emin := emin)
  have a2 := (((Amount.refl (p := p) (show (0 : K) ≤ acc.1 from ha)).weaken (Nat.zero_le 1) le_rfl).add a1).rnd_add (Fl.kept acc) (binRound_idem _)
  have b1 := ((((Amount.refl (p := p) (sub_nonneg.2 hxl)).rnd_sub (Fl.kept n.lwc) (Fl.kept x)).weaken (show 0 + 1 ≤ 2 by omega) le_rfl).scale hh.le)
  have d1 := a2.add b1
  have k1 : acc.1 + x.1 * n.height.1 + (n.lwc.1 - x.1) * n.height.1 = acc.1 + waterOf n := by unfold waterOf; ring
  have k2 : (acc + d).1 + waterOf m = binRound p emin (acc.1 + binRound p emin (x.1 * n.height.1)) + binRound p emin (n.lwc.1 - x.1) * n.height.1 := by
    have k3 : (acc + d).1 = binRound p emin (acc.1 + binRound p emin (x.1 * n.height.1)) := by rw [e4]; rfl
    have k4 : m.lwc.1 = binRound p emin (n.lwc.1 - x.1) := by rw [e2]; rfl
    unfold waterOf
    rw [k3, k4, e1]
  rw [k1, ← k2] at d1
  refine d1.weaken le_rfl (le_of_eq ?_)
  ring

theorem refreezeLayers_water {c : Consts F} (hc : FreezeSigns c) : ∀ (ns : List (Node F)) {acc : F} {r : List (Node F) × F}, 0 ≤ acc →
    (∀ n ∈ ns, SolidLayer n ∧ NotAbsurdlyCold c n) → refreezeLayers c acc ns = .ok r →
    Amount p (2 * ns.length) (g ^ (2 * ns.length) * η * ns.length) (acc.1 + exactTotal waterOf ns) (r.2.1 + exactTotal waterOf r.1) := by
  intro ns
  have hη := underflow_pos (K := K) (p := p) (emin := emin)
  induction ns with
  | nil =>
    intro acc r ha _ h; rw [refreezeLayers] at h; cases h
    exact (Amount.refl (p := p) (by rw [exactTotal_nil, add_zero]; exact ha)).weaken (Nat.zero_le _) (by simp)
  | cons n ns ih =>
    intro acc r ha hn h
    rw [refreezeLayers, bind_eq_ok] at h
    obtain ⟨⟨n', d⟩, h1, h⟩ := h
    simp only [bind_eq_ok] at h
    obtain ⟨⟨ns', t⟩, h2, h⟩ := h
    rw [pure_eq_ok] at h; subst h
    obtain ⟨d0, a1⟩ := refreezeLayer_water hc (hn n (by simp)).1 (hn n (by simp)).2 h1 acc ha
    have hn' : ∀ m ∈ ns, SolidLayer m ∧ NotAbsurdlyCold c m := fun m hm => hn m (by simp [hm])
    have a2 := ih (Rounded.add_nonneg ha d0) hn' h2
    have hm : (0 : K) ≤ waterOf n' := by
      have := refreezeLayer_nn (hn n (by simp)).1.nn h1
      exact mul_nonneg this.water this.height
    have a3 := a1.add ((Amount.refl (p := p) (exactTotal_nonneg waterOf fun m hm => (hn' m hm).1.waterOf)).weaken (Nat.zero_le 2) le_rfl)
    have a4 := a2.add ((Amount.refl (p := p) hm).weaken (Nat.zero_le _) le_rfl)
    have e1 : (acc + d).1 + exactTotal waterOf ns + waterOf n' = (acc + d).1 + waterOf n' + exactTotal waterOf ns := by ring
    rw [e1] at a4
    have a5 := a3.trans a4
    have e2 : acc.1 + waterOf n + exactTotal waterOf ns = acc.1 + exactTotal waterOf (n :: ns) := by rw [exactTotal_cons]; ring
    have e3 : t.1 + exactTotal waterOf ns' + waterOf n' = t.1 + exactTotal waterOf (n' :: ns') := by rw [exactTotal_cons]; ring
    rw [e2] at a5
    have a6 : Amount p _ _ _ (t.1 + exactTotal waterOf ns' + waterOf n') := a5
    rw [e3] at a6
    rw [List.length_cons]
    refine a6.weaken (by omega) ?_
    have k1 : g ^ (2 * ns.length) * g ≤ g ^ (2 * (ns.length + 1)) := by rw [← pow_succ]; exact grow_pow_mono (by omega)
    have k2 : g ^ (2 * ns.length) ≤ g ^ (2 * (ns.length + 1)) := grow_pow_mono (by omega)
    have m1 := mul_le_mul_of_nonneg_right k1 hη.le
    have m2 := mul_le_mul_of_nonneg_right k2 (mul_nonneg hη.le (Nat.cast_nonneg (α := K) ns.length))
    push_cast
    linarith

/-- **C110, the refrozen water.** The reported amount is the liquid water the column has lost, up to two roundings for each layer. -/
theorem C110_refrozen {c : Consts F} (hc : FreezeSigns c) {gr gr' : Grid F} {q : F}
    (hs : ∀ n ∈ gr.nodes, SolidLayer n ∧ NotAbsurdlyCold c n) (h : refreezing c gr = .ok (gr', q)) :
    |q.1 + exactTotal waterOf gr'.nodes - exactTotal waterOf gr.nodes| ≤
      (g ^ (2 * gr.nodes.length) - 1) * exactTotal waterOf gr.nodes + g ^ (2 * gr.nodes.length) * η * gr.nodes.length := by
  unfold refreezing at h
  rw [bind_eq_ok] at h; obtain ⟨⟨ns, t⟩, h1, h⟩ := h
  rw [pure_eq_ok] at h; cases h
  have := (refreezeLayers_water hc _ le_rfl hs h1).err
  have e : (0 : F).1 = 0 := rfl
  rw [e, zero_add] at this
  exact this

/-! ## Merging -/

/-- A fraction of the merged layer. -/
theorem mix_amount {x y h k : F} (hx : 0 ≤ x) (hy : 0 ≤ y) (hh : 0 < h) (hk : 0 < k) :
    Amount p 3 (g ^ 2 * η * (2 + (h.1 + k.1))) (x.1 * h.1 + y.1 * k.1) (((x * h + y * k) / (h + k)).1 * (h + k).1) := by
  have hη := underflow_pos (K := K) (p := p) (emin := emin)
  have hg := grow_pos (K := K) (p := p)
  have hh' : (0 : K) < h.1 := hh
  have hk' : (0 : K) < k.1 := hk
  have hx' : (0 : K) ≤ x.1 := hx
  have hy' : (0 : K) ≤ y.1 := hy
  have hH : (0 : K) < (h + k).1 := by
    have h1 : h.1 ≤ (h + k).1 := by
      have := Rounded.add_mono (a := h) (b := h) (c := (0 : F)) (d := k) le_rfl hk.le
      rw [Rounded.add_zero] at this
      exact this
    linarith
  have a0 := (((Amount.refl (p := p) hh'.le).add (Amount.refl (p := p) hk'.le)).rnd_add (Fl.kept h) (Fl.kept k)).size
  have a1 := (Amount.refl (p := p) (mul_nonneg hx' hh'.le)).rnd (emin := emin)
  have a2 := (Amount.refl (p := p) (mul_nonneg hy' hk'.le)).rnd (emin := emin)
  have a3 := (((a1.add a2).rnd_add (binRound_idem _) (binRound_idem _)).quot hH).rnd (emin := emin)
  have a4 := a3.scale hH.le
  rw [div_mul_cancel₀ _ hH.ne'] at a4
  refine a4.weaken le_rfl ?_
  have e1 : (g * (g * (g * 0 + η + (g * 0 + η)) / (h + k).1) + η) * (h + k).1 = g ^ 2 * η * 2 + η * (h + k).1 := by
    field_simp; ring
  rw [e1]
  have h3 : (h + k).1 ≤ g ^ 2 * (h.1 + k.1) := by
    have h4 : (h + k).1 ≤ g ^ (0 + 1) * (h.1 + k.1) + g * (0 + 0) := (le_abs_self _).trans a0
    rw [add_zero, mul_zero, add_zero] at h4
    exact h4.trans (mul_le_mul_of_nonneg_right (grow_pow_mono (by omega)) (add_pos hh' hk').le)
  have h5 := mul_le_mul_of_nonneg_left h3 hη.le
  linarith

theorem mergeNodes_parts {gr gr' : Grid F} {i : Int} (hi : 0 ≤ i) (h : gr.mergeNodes i = .ok gr') :
    ∃ pre a b post, gr.nodes = pre ++ a :: b :: post ∧ gr'.nodes = pre ++ Grid.merged a b :: post := by
  obtain ⟨p, q, a, b, hp, hq, ha, hb, hne, rfl⟩ := Grid.mergeNodes_ok h
  have hp1 := normIdx_lt hp
  have hq1 := normIdx_lt hq
  obtain ⟨hp, _⟩ := normIdx_eq_some_nonneg hi hp
  obtain ⟨hq, _⟩ := normIdx_eq_some_nonneg (by omega) hq
  have hqp : q = p + 1 := by omega
  subst hqp
  have hsplit : gr.nodes = gr.nodes.take p ++ a :: b :: gr.nodes.drop (p + 2) := by
    conv_lhs => rw [← List.take_append_drop p gr.nodes]
    congr 1
    rw [List.drop_eq_getElem_cons hp1, List.drop_eq_getElem_cons (by omega)]
    rw [List.getElem?_eq_getElem hp1] at ha
    rw [List.getElem?_eq_getElem (by omega)] at hb
    simp only [Option.some.injEq] at ha hb
    rw [ha, hb]
  refine ⟨gr.nodes.take p, a, b, gr.nodes.drop (p + 2), hsplit, ?_⟩
  have hl : (gr.nodes.take p).length = p := by simp; omega
  show (gr.nodes.set p (Grid.merged a b)).eraseIdx (p + 1) = _
  conv_lhs => rw [hsplit]
  generalize gr.nodes.take p = pre at *
  subst hl
  rw [List.set_append_right _ _ (le_refl _)]
  simp [List.eraseIdx_append_of_length_le]

/-- **C110, merging.** Merging two layers changes the water and the ice of the column by no more than three roundings of the amounts merged,
and underflow, and its height by no more than one. -/
theorem C110_merge {gr gr' : Grid F} {i : Int} (hi : 0 ≤ i) (hs : ∀ n ∈ gr.nodes, SolidLayer n) (h : gr.mergeNodes i = .ok gr') :
    ∃ a b, a ∈ gr.nodes ∧ b ∈ gr.nodes ∧
      |exactTotal waterOf gr'.nodes - exactTotal waterOf gr.nodes| ≤
        (g ^ 3 - 1) * (waterOf a + waterOf b) + g ^ 2 * η * (2 + (thickOf a + thickOf b)) ∧
      |exactTotal iceOf gr'.nodes - exactTotal iceOf gr.nodes| ≤
        (g ^ 3 - 1) * (iceOf a + iceOf b) + g ^ 2 * η * (2 + (thickOf a + thickOf b)) ∧
      |exactTotal thickOf gr'.nodes - exactTotal thickOf gr.nodes| ≤ (g - 1) * (thickOf a + thickOf b) := by
  obtain ⟨pre, a, b, post, e1, e2⟩ := mergeNodes_parts hi h
  rw [e1] at hs ⊢
  rw [e2]
  have ha := hs a (by simp)
  have hb := hs b (by simp)
  have hd : ∀ f : Node F → K, exactTotal f (pre ++ Grid.merged a b :: post) - exactTotal f (pre ++ a :: b :: post) =
      f (Grid.merged a b) - (f a + f b) := by
    intro f; simp only [exactTotal_append, exactTotal_cons]; ring
  refine ⟨a, b, by simp, by simp, ?_, ?_, ?_⟩
  · rw [hd]; exact (mix_amount ha.water hb.water ha.thick hb.thick).err
  · rw [hd]; exact (mix_amount ha.ice hb.ice ha.thick hb.thick).err
  · rw [hd]
    have := (((Amount.refl (p := p) (show (0 : K) ≤ a.height.1 from ha.thick.le)).add (Amount.refl (p := p)
      (show (0 : K) ≤ b.height.1 from hb.thick.le))).rnd_add (Fl.kept a.height) (Fl.kept b.height)).err
    rw [add_zero, mul_zero, add_zero, zero_add, pow_one] at this
    exact this

/-! ## Shipped constants -/

theorem default_freezeSigns : FreezeSigns (Consts.default F) where
  ice := show (0 : K) < _ from lt_of_lt_of_le (by norm_num) (lit_in (x := (917.0 : K)) (A := 1) (B := 1000) hp he (by norm_num) (by norm_num) (by norm_num)).1
  water := show (0 : K) ≤ _ from binRound_nonneg (by norm_num)
  cIce := show (0 : K) ≤ _ from binRound_nonneg (by norm_num)
  cWater := show (0 : K) ≤ _ from binRound_nonneg (by norm_num)
  melt := show (0 : K) ≤ _ from binRound_nonneg (by norm_num)

/-- A layer of at least 200 K is not too cold. -/
theorem default_notCold {n : Node F} (h : 200 ≤ n.temperature.1) : NotAbsurdlyCold (Consts.default F) n := by
  have z := lit_in (x := (273.16 : K)) (A := 200) (B := 290) hp he (by norm_num) (by norm_num) (by norm_num)
  have ci := lit_in (x := (2050.00 : K)) (A := 1900) (B := 2200) hp he (by norm_num) (by norm_num) (by norm_num)
  have cw := lit_in (x := ((4217 : ℕ) : K)) (A := 4000) (B := 4500) hp he (by norm_num) (by norm_num) (by norm_num)
  have l := lit_in (x := ((334000 : ℕ) : K)) (A := 300000) (B := 400000) hp he (by norm_num) (by norm_num) (by norm_num)
  have r90 := lit_in (x := (90 : K)) (A := 80) (B := 95) hp he (by norm_num) (by norm_num) (by norm_num)
  have r26 := lit_in (x := (2600 : K)) (A := 2000) (B := 2730) hp he (by norm_num) (by norm_num) (by norm_num)
  have rpr := lit_in (x := (259350 : K)) (A := 200000) (B := 300000) hp he (by norm_num) (by norm_num) (by norm_num)
  show binRound p emin (binRound p emin (n.temperature.1 - binRound p emin (273.16 : K)) *
    binRound p emin (binRound p emin (2050.00 : K) - binRound p emin ((4217 : ℕ) : K))) ≤ binRound p emin ((334000 : ℕ) : K)
  generalize binRound p emin ((334000 : ℕ) : K) = zl at *
  generalize binRound p emin ((4217 : ℕ) : K) = zw at *
  generalize binRound p emin (2050.00 : K) = zi at *
  have d1 : -95 ≤ binRound p emin (n.temperature.1 - binRound p emin (273.16 : K)) := by
    have : binRound p emin (-90 : K) ≤ binRound p emin (n.temperature.1 - binRound p emin (273.16 : K)) := binRound_mono (by linarith)
    rw [binRound_neg] at this
    linarith
  have s1 : -2730 ≤ binRound p emin (zi - zw) := by
    have : binRound p emin (-2600 : K) ≤ binRound p emin (zi - zw) :=
      binRound_mono (by linarith)
    rw [binRound_neg] at this
    linarith
  have s2 : binRound p emin (zi - zw) ≤ 0 := by
    have : binRound p emin (zi - zw) ≤ binRound p emin 0 := binRound_mono (by linarith)
    rwa [binRound_zero] at this
  generalize binRound p emin (n.temperature.1 - binRound p emin (273.16 : K)) = d at *
  generalize binRound p emin (zi - zw) = s at *
  have : d * s ≤ 259350 := by nlinarith
  exact (binRound_mono this).trans (rpr.2.trans l.1)

theorem default_slack : ∀ ns : List (Node F), (∀ n ∈ ns, SolidLayer n ∧ n.lwc ≤ 1) →
    exactTotal (freezeSlack (Consts.default F)) ns ≤ 2000 * exactTotal thickOf ns := by
  have hρ := lit_in (x := (917.0 : K)) (A := 1) (B := 1000) hp he (by norm_num) (by norm_num) (by norm_num)
  intro ns
  induction ns with
  | nil => intro _; simp
  | cons n ns ih =>
    intro hns
    rw [exactTotal_cons, exactTotal_cons, mul_add]
    refine add_le_add ?_ (ih fun m hm => hns m (by simp [hm]))
    have h1 : (0 : K) < n.height.1 := (hns n (by simp)).1.thick
    have h2 : (0 : K) ≤ n.lwc.1 := (hns n (by simp)).1.water
    have h3 : n.lwc.1 ≤ 1 := (hns n (by simp)).2
    show (1 + n.lwc.1) * (binRound p emin (917.0 : K) * n.height.1) ≤ 2000 * n.height.1
    generalize binRound p emin (917.0 : K) = ρ at *
    have h4 : ρ * n.height.1 ≤ 1000 * n.height.1 := mul_le_mul_of_nonneg_right hρ.2 h1.le
    have h5 : 0 ≤ ρ * n.height.1 := mul_nonneg (by linarith) h1.le
    have h6 : (1 + n.lwc.1) * (ρ * n.height.1) ≤ 2 * (ρ * n.height.1) := mul_le_mul_of_nonneg_right (by linarith) h5
    linarith

end

/-! ## In double precision -/

section
variable {K : Type} [Field K] [LinearOrder K] [IsStrictOrderedRing K] [FloorRing K]

/-- The relative and absolute errors of up to 4000 roundings of amounts in layers of together less than a thousand kilometres. -/
theorem binary64_small {i : ℕ} {s : K} (hi : i ≤ 4000) (hs : s ≤ 2 ^ 21) :
    grow K 52 ^ i - 1 ≤ 1e-12 ∧ grow K 52 ^ i * underflowUnit K 52 (-1022) * s ≤ 2 ^ (-1000 : ℤ) := by
  have hu : unitRoundoff K 52 ≤ 1 / 9 * 1e-15 := by unfold unitRoundoff; norm_num
  have h0 := unit_pos (K := K) (p := 52)
  have hi' : (i : K) ≤ 4000 := by exact_mod_cast hi
  have h1 : (i : K) * unitRoundoff K 52 ≤ 4000 * unitRoundoff K 52 := mul_le_mul_of_nonneg_right hi' h0.le
  have h2 : 2 * (i : K) * unitRoundoff K 52 ≤ 1e-12 := by norm_num at hu ⊢; linarith
  have h3 := grow_pow_le (K := K) (p := 52) (i := i) (h2.trans (by norm_num))
  have hη := underflow_pos (K := K) (p := 52) (emin := -1022)
  refine ⟨by linarith, ?_⟩
  have h4 : grow K 52 ^ i ≤ 2 := h3.trans (by norm_num at h2 ⊢; linarith)
  have h5 : grow K 52 ^ i * underflowUnit K 52 (-1022) * s ≤ 2 * underflowUnit K 52 (-1022) * 2 ^ 21 := by
    refine (mul_le_mul_of_nonneg_left hs (mul_pos (pow_pos grow_pos _) hη).le).trans ?_
    exact mul_le_mul_of_nonneg_right (mul_le_mul_of_nonneg_right h4 hη.le) (by positivity)
  refine h5.trans ?_
  have e : (2 : K) * underflowUnit K 52 (-1022) * 2 ^ 21 = 2 ^ (-1053 : ℤ) := by
    unfold underflowUnit
    have h2' : (2 : K) ≠ 0 := two_ne_zero
    rw [show (2 : K) * 2 ^ ((-1022 : ℤ) - (52 : ℕ) - 1) * 2 ^ 21 = 2 ^ (1 : ℤ) * 2 ^ ((-1022 : ℤ) - (52 : ℕ) - 1) * 2 ^ (21 : ℤ) by
      rw [zpow_one]; norm_cast]
    rw [← zpow_add₀ h2', ← zpow_add₀ h2']
    norm_num
  rw [e]
  exact zpow_le_zpow_right₀ (by norm_num) (by norm_num)

/-- **C110 in double precision, percolation.** For columns of up to a thousand layers and a thousand kilometres: 10⁻¹² of the water. -/
theorem C110_percolation_binary64 {gr gr' : Grid (Fl (binary64 K))} {w q : Fl (binary64 K)} (hw : gr.WF) (hs : ∀ n ∈ gr.nodes, SolidLayer n)
    (h0 : 0 ≤ w) (hn : gr.nodes.length ≤ 1000) (hh : exactTotal thickOf gr.nodes ≤ 1000000) (h : percolation gr w = .ok (gr', q)) :
    |exactTotal waterOf gr'.nodes + q.1 - (exactTotal waterOf gr.nodes + w.1)| ≤
      1e-12 * (exactTotal waterOf gr.nodes + w.1) + 2 ^ (-1000 : ℤ) := by
  have hn' : (gr.nodes.length : K) ≤ 1000 := by exact_mod_cast hn
  obtain ⟨k1, k2⟩ := binary64_small (K := K) (i := 4 * gr.nodes.length) (s := gr.nodes.length + exactTotal thickOf gr.nodes) (by omega)
    (by norm_num; linarith)
  refine (C110_percolation hw hs h0 h).trans (add_le_add (mul_le_mul_of_nonneg_right k1 ?_) k2)
  exact add_nonneg (exactTotal_nonneg _ fun n hn => (hs n hn).waterOf) h0

/-- **C110 in double precision, refreezing.** With the shipped constants, for layers of at least 200 K: 10⁻¹⁵ of the mass. -/
theorem C110_refreezing_binary64 {gr gr' : Grid (Fl (binary64 K))} {q : Fl (binary64 K)} (hs : ∀ n ∈ gr.nodes, SolidLayer n)
    (ht : ∀ n ∈ gr.nodes, 200 ≤ n.temperature.1) (hl : ∀ n ∈ gr.nodes, n.lwc ≤ 1) (hh : exactTotal thickOf gr.nodes ≤ 1000)
    (h : refreezing (Consts.default _) gr = .ok (gr', q)) :
    |exactTotal (massOf (Consts.default _)) gr'.nodes - exactTotal (massOf (Consts.default _)) gr.nodes| ≤
      1e-15 * exactTotal (massOf (Consts.default _)) gr.nodes + 2 ^ (-1000 : ℤ) := by
  have hm : ∀ n ∈ gr.nodes, SolidLayer n ∧ NotAbsurdlyCold (Consts.default (Fl (binary64 K))) n := fun n hn => ⟨hs n hn, default_notCold (ht n hn)⟩
  have k2 := (binary64_small (K := K) (i := 2) (by omega) (((default_slack _ fun n hn => ⟨hs n hn, hl n hn⟩).trans
    (mul_le_mul_of_nonneg_left hh (by norm_num))).trans (by norm_num))).2
  have k1 : grow K 52 ^ 3 - 1 ≤ 1e-15 := by
    have := grow_pow_le (K := K) (p := 52) (i := 3) (by unfold unitRoundoff; norm_num)
    have hu : unitRoundoff K 52 ≤ 1 / 9 * 1e-15 := by unfold unitRoundoff; norm_num
    norm_num at hu this ⊢
    linarith
  refine (C110_refreezing default_freezeSigns hm h).trans (add_le_add (mul_le_mul_of_nonneg_right k1 ?_) k2)
  refine exactTotal_nonneg _ fun n hn => ?_
  unfold massOf iceOf waterOf
  have h1 : (0 : K) ≤ _ := (default_freezeSigns (K := K) (p := 52) (emin := -1022) (hp := by norm_num) (he := by norm_num)).ice.le
  have h2 : (0 : K) ≤ _ := (default_freezeSigns (K := K) (p := 52) (emin := -1022) (hp := by norm_num) (he := by norm_num)).water
  exact add_nonneg (mul_nonneg h1 (mul_nonneg (hs n hn).ice (hs n hn).thick.le)) (mul_nonneg h2 (hs n hn).waterOf)

end

/-! Non-vacuity: a wet column in double precision that drains and refreezes; neither conserves exactly. -/
section
private abbrev V64 := Fl (binary64 ℚ)

private def exWet : Grid V64 :=
  ⟨[⟨0.1, 273.16, 0.15, 0.3, 0⟩, ⟨0.1, 270, 0.07, 0.5, 0⟩, ⟨0.3, 268.3, 0.011, 0.9, 0⟩], 3, 0, 0, 0⟩

private theorem exWet_solid : ∀ n ∈ exWet.nodes, SolidLayer n ∧ n.lwc ≤ 1 ∧ 200 ≤ n.temperature.1 := by
  have all : ∀ n ∈ exWet.nodes, (0 < n.height ∧ 0 ≤ n.iceFraction ∧ 0 ≤ n.lwc) ∧ n.lwc ≤ 1 ∧ 200 ≤ n.temperature.1 := by
    unfold exWet; decide +kernel
  exact fun n hn => ⟨⟨(all n hn).1.1, (all n hn).1.2.1, (all n hn).1.2.2⟩, (all n hn).2⟩

example : exWet.WF ∧ exWet.nodes.length ≤ 1000 ∧ exactTotal thickOf exWet.nodes ≤ 1000 := ⟨rfl, by decide, by decide +kernel⟩

/-- Runoff, and not exactly the water that is missing. -/
example : (percolation exWet 0.0013).toOption.map (fun r => (decide (0 < r.2),
    decide (exactTotal waterOf r.1.nodes + r.2.1 = exactTotal waterOf exWet.nodes + (0.0013 : V64).1))) = some (true, false) := by decide +kernel

/-- Refreezing, and not exactly the same mass. -/
example : (refreezing (Consts.default V64) exWet).toOption.map (fun r => (decide (0 < r.2),
    decide (exactTotal (massOf (Consts.default V64)) r.1.nodes = exactTotal (massOf (Consts.default V64)) exWet.nodes))) = some (true, false) := by
  decide +kernel

/-- Merging, and not exactly the same water. -/
example : (exWet.mergeNodes 0).toOption.map (fun r => (r.nodes.length, decide (exactTotal waterOf r.nodes = exactTotal waterOf exWet.nodes))) =
    some (2, false) := by decide +kernel

end
end Cosipy
