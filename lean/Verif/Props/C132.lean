import Verif.Props.C110
import Verif.Lemmas.Penetrate
import Verif.Lemmas.Example
import Mathlib.Tactic.NormNum

/-!
# C132 Penetrating radiation conserves the mass of the layers it thins in double precision up to the roundings

C26 says in exact arithmetic that a layer thinned by melt below the surface keeps its mass: the ice it loses is the water it gains. In double
precision the ice lost is computed by way of a relative height loss and the water by way of the new height, with eight roundings. The theorems
bound what the column gains or loses by them, for any number of layers. What the code drops with the layers it removes (C26, C27) is the only other
difference: the totals are compared with the removed layers added back.
-/

set_option autoImplicit false
set_option linter.unusedSectionVars false

namespace Cosipy

/-! ## The layer loop, for any arithmetic -/

section
variable {α : Type} [Add α] [Sub α] [Mul α] [Div α] [Neg α] [LT α] [LE α]
  [DecidableLT α] [DecidableLE α] [BEq α] [Zero α] [One α] [NatCast α] [OfScientific α] [Transc α]

theorem penLayers_rel {c : Consts α} {dt : α} : ∀ (ns : List (Node α)) (i : Int) (es : List α) (rm : List Int) (m : α)
    {r : List (Node α) × List Int × α}, penLayers c dt i ns es rm m = .ok r → ns ≠ [] →
    ∃ init last outs, ns = init ++ [last] ∧ List.Forall₂ (fun n o => ∃ e, penLayer c dt e n = .ok o) init outs ∧
      r.1 = outs.map (fun o => o.1) ++ [last] ∧ r.2.1 = rm ++ flagIdx i (outs.map (fun o => o.2.1))
  | [], _, _, _, _, _, _, h => absurd rfl h
  | [a], i, es, rm, m, r, h, _ => by
    rw [penLayers] at h
    cases h
    exact ⟨[], a, [], rfl, by simp, rfl, by simp [flagIdx]⟩
  | a :: b :: rest, i, [], rm, m, r, h, _ => by rw [penLayers] at h; cases h
  | a :: b :: rest, i, e :: es, rm, m, r, h, _ => by
    rw [penLayers, bind_eq_ok] at h
    obtain ⟨⟨a', del, m'⟩, ha, h⟩ := h
    simp only [bind_eq_ok] at h
    obtain ⟨⟨ns', rm', t⟩, h2, h⟩ := h
    rw [pure_eq_ok] at h; subst h
    obtain ⟨init, last, outs, e1, e3, e5, e6⟩ := penLayers_rel (b :: rest) (i + 1) es _ _ h2 (by simp)
    refine ⟨a :: init, last, (a', del, m') :: outs, by rw [e1]; rfl, List.Forall₂.cons ⟨e, ha⟩ e3, ?_, ?_⟩
    · simp only at e5 ⊢; rw [e5]; rfl
    · simp only at e6 ⊢
      rw [e6, List.map_cons, flagIdx]
      cases del <;> simp

theorem bintanja_rel {c : Consts α} {g : Grid α} {swnet dt : α} {r : Grid α × α × α} (h : methodBintanja c g swnet dt = .ok r) :
    ∃ init last outs, g.nodes = init ++ [last] ∧ List.Forall₂ (fun n o => ∃ e, penLayer c dt e n = .ok o) init outs ∧
      r.1.nodes = (outs.filter (fun o => !o.2.1)).map (fun o => o.1) ++ [last] := by
  unfold methodBintanja at h
  simp only [bind_eq_ok] at h
  obtain ⟨depths, hd, top, ht, ⟨ns, rm, melt⟩, hp, h⟩ := h
  have hne : g.nodes ≠ [] := by
    rintro hn; unfold Grid.node at ht; rw [hn] at ht; simp [pyGet, normIdx] at ht
  obtain ⟨init, last, outs, e1, e3, e5, e6⟩ := penLayers_rel _ _ _ _ _ hp hne
  simp only [List.nil_append] at e6
  refine ⟨init, last, outs, e1, e3, ?_⟩
  have hk : keep (outs.map fun o => o.2.1) (outs.map (fun o => o.1) ++ [last]) =
      (outs.filter (fun o => !o.2.1)).map (fun o => o.1) ++ [last] := by
    clear e6 e5 e3 e1 hp h
    induction outs with
    | nil => rfl
    | cons o outs ih =>
      rw [List.map_cons, List.map_cons, List.cons_append, keep, ih]
      cases h : o.2.1 <;> simp [h]
  simp only at e5 e6
  subst e5 e6
  split_ifs at h with hem
  · rw [pure_eq_ok] at h; subst h
    rw [flagIdx_isEmpty] at hem
    have : outs.filter (fun o => !o.2.1) = outs := List.filter_eq_self.2 fun o ho => by
      simp [hem o.2.1 (List.mem_map_of_mem ho)]
    rw [this]
  · rw [bind_eq_ok] at h
    obtain ⟨g1, h1, h⟩ := h
    rw [pure_eq_ok] at h; subst h
    rw [removeNode_flags (by simp) (by simp) hem, ok_inj] at h1
    subst h1
    simp only [hk]

end

/-! ## What happens to a layer, in rounded arithmetic -/

section
variable {α : Type} [LinearOrder α] [Zero α] [One α] [Add α] [Sub α] [Mul α] [Div α] [Neg α] [NatCast α] [OfScientific α] [Rounded α]

theorem fdiv_denom {x y z : α} (h : fdiv x y = .ok z) : y ≠ 0 := by
  rintro rfl
  unfold fdiv at h
  rw [if_pos (by simp)] at h
  cases h

/-- A layer is removed, or keeps its ice fraction and, if it melts, is thinned. -/
theorem penLayer_parts {c : Consts α} (hc : FreezeSigns c) {dt e : α} {n : Node α} {o : Node α × Bool × α} (hi : 0 ≤ n.iceFraction)
    (h : penLayer c dt e n = .ok o) :
    (o.2.1 = true ∧ o.1 = n) ∨
    (o.2.1 = false ∧ o.1.height = n.height ∧ o.1.lwc = n.lwc ∧ o.1.iceFraction = n.iceFraction) ∨
    ∃ x r : α, 0 ≤ x ∧ n.iceFraction ≠ 0 ∧ r = -(c.waterDensity / c.iceDensity * -x) / n.iceFraction ∧ r < 1 ∧ o.2.1 = false ∧
      o.1.iceFraction = n.iceFraction ∧ o.1.height = (1 - r) * n.height ∧ o.1.height ≠ 0 ∧
      o.1.lwc = (n.lwc + x) * n.height / o.1.height := by
  unfold penLayer at h
  simp only [bind_eq_ok] at h
  obtain ⟨q, hq, r0, hr0, h⟩ := h
  split_ifs at h with h0
  · rw [bind_eq_ok] at h
    obtain ⟨r, hr, h⟩ := h
    have hx : 0 ≤ penA c * (n.temperature + q * r0 - c.zeroTemperature) * n.iceFraction := by
      refine Rounded.mul_nonneg (Rounded.mul_nonneg ?_ (Rounded.sub_nonneg h0.le)) hi
      exact Rounded.div_nonneg (Rounded.mul_nonneg hc.cIce hc.ice.le) (Rounded.mul_nonneg hc.water hc.melt)
    split_ifs at h with h1
    · rw [pure_eq_ok] at h; subst h; exact Or.inl ⟨rfl, rfl⟩
    · rw [bind_eq_ok] at h
      obtain ⟨w, hw, h⟩ := h
      rw [pure_eq_ok] at h; subst h
      refine Or.inr (Or.inr ⟨_, r, hx, ?_, fdiv_ok hr, not_le.1 h1, rfl, rfl, rfl, ?_, fdiv_ok hw⟩)
      · exact fdiv_denom hr
      · exact fdiv_denom hw
  · rw [pure_eq_ok] at h; subst h
    exact Or.inr (Or.inl ⟨rfl, rfl, rfl, rfl⟩)

end

section
variable {K : Type} [Field K] [LinearOrder K] [IsStrictOrderedRing K] [FloorRing K] {p : ℕ} {emin : ℤ} {hp : 23 ≤ p} {he : emin ≤ -30}

local notation "F" => Fl (binary K p emin hp he)
local notation "g" => grow K p
local notation "η" => underflowUnit K p emin

/-- What underflow can change of the mass of a layer, in units of the smallest number. -/
def thinSlack (c : Consts F) (n : Node F) : K := 8 * (c.iceDensity.1 + c.waterDensity.1) * (1 + n.height.1)

/-- A few roundings are less than a tenth. -/
theorem grow_three (hp : 23 ≤ p) : g ≤ 11 / 10 ∧ g ^ 3 - 1 ≤ 1 / 10 := by
  have hu : unitRoundoff K p ≤ 1 / 100 := by
    unfold unitRoundoff
    refine (zpow_le_zpow_right₀ (by norm_num) (show -(p : ℤ) - 1 ≤ -24 by omega)).trans ?_
    norm_num
  have h1 := grow_pow_le (K := K) (p := p) (i := 3) (by push_cast; linarith)
  push_cast at h1
  exact ⟨by unfold grow; linarith, by linarith⟩

/-- Error budget of a thinned layer: water `A`, melt `X`, ice `I`, relative height loss `r`. -/
theorem thin_budget {ε A X I r D1 D2 D3 W' I' : K} (h0 : 0 ≤ ε) (h1 : ε ≤ 1 / 10) (hA : 0 ≤ A) (hX : 0 ≤ X) (hI : 0 ≤ I) (hr : 0 ≤ r * I)
    (hrI : r * I ≤ I)     (d3 : 0 ≤ D3)
    (a : |W' - (A + X)| ≤ ε * (A + X) + D1) (b : |I' - I * (1 - r)| ≤ ε * (I * (1 - r)) + D2) (m : |r * I - X| ≤ ε * X + D3) :
    |I' + W' - (I + A)| ≤ 3 * ε * (I + A) + (D1 + D2 + 4 / 3 * D3) := by
  have m1 := (abs_le.1 m).1
  have e : I' + W' - (I + A) = (W' - (A + X)) + (I' - I * (1 - r)) - (r * I - X) := by ring
  have t : |I' + W' - (I + A)| ≤ |W' - (A + X)| + |I' - I * (1 - r)| + |r * I - X| := by
    rw [e]
    exact (abs_sub _ _).trans (add_le_add (abs_add_le _ _) le_rfl)
  have k0 : ε * X ≤ 1 / 10 * X := mul_le_mul_of_nonneg_right h1 hX
  have k1 : X ≤ 10 / 9 * (r * I + D3) := by linarith
  have k2 : ε * X ≤ ε * (10 / 9 * (r * I + D3)) := mul_le_mul_of_nonneg_left k1 h0
  have k3 : ε * D3 ≤ 1 / 10 * D3 := mul_le_mul_of_nonneg_right h1 d3
  have k4 : 0 ≤ ε * (r * I) := mul_nonneg h0 hr
  have k5 : 0 ≤ ε * A := mul_nonneg h0 hA
  have k6 : 0 ≤ ε * I := mul_nonneg h0 hI
  have e1 : ε * (10 / 9 * (r * I + D3)) = 10 / 9 * (ε * (r * I)) + 10 / 9 * (ε * D3) := by ring
  have e2 : ε * (I * (1 - r)) = ε * I - ε * (r * I) := by ring
  have e3 : ε * (A + X) = ε * A + ε * X := by ring
  have e4 : 3 * ε * (I + A) = 3 * (ε * I) + 3 * (ε * A) := by ring
  rw [e4]
  rw [e3] at a
  rw [e2] at b
  rw [e1] at k2
  have k7 : ε * (r * I) ≤ ε * I := mul_le_mul_of_nonneg_left hrI h0
  linarith

/-- A layer `n` after melt below the surface. -/
structure Thinned (c : Consts F) (n m : Node F) : Prop where
  solid : SolidLayer m
  ice : m.iceFraction = n.iceFraction
  height : m.height ≤ n.height
  mass : |massOf c m - massOf c n| ≤ 3 * (g ^ 3 - 1) * massOf c n + η * thinSlack c n

theorem penLayer_mass {c : Consts F} (hc : FreezeSigns c) (hd : c.iceDensity ≤ c.waterDensity) {dt e : F} {n : Node F} {o : Node F × Bool × F}
    (hn : SolidLayer n) (h1 : n.iceFraction ≤ 1) (h : penLayer c dt e n = .ok o) :
    (o.2.1 = true ∧ o.1 = n) ∨ (o.2.1 = false ∧ Thinned c n o.1) := by
  have hη := underflow_pos (K := K) (p := p) (emin := emin)
  have hg := grow_pos (K := K) (p := p)
  obtain ⟨g1, g3⟩ := grow_three (K := K) (p := p) hp
  have hi : (0 : K) < c.iceDensity.1 := hc.ice
  have hw : (0 : K) ≤ c.waterDensity.1 := hc.water
  have hh : (0 : K) < n.height.1 := hn.thick
  have hl : (0 : K) ≤ n.lwc.1 := hn.water
  have hθ0 : (0 : K) ≤ n.iceFraction.1 := hn.ice
  have hε : 0 ≤ g ^ 3 - 1 := sub_nonneg.2 (grow_pow_one 3)
  have hm0 : 0 ≤ massOf c n := by
    unfold massOf iceOf waterOf
    exact add_nonneg (mul_nonneg hi.le (mul_nonneg hθ0 hh.le)) (mul_nonneg hw (mul_nonneg hl hh.le))
  have hs0 : 0 ≤ thinSlack c n := by
    unfold thinSlack
    exact mul_nonneg (mul_nonneg (by norm_num) (add_nonneg hi.le hw)) (add_nonneg zero_le_one hh.le)
  rcases penLayer_parts hc hn.ice h with h | ⟨k0, k1, k2, k3⟩ | ⟨x, r, x0, θ0, er, r1, k0, e3, e1, h0, e2⟩
  · exact Or.inl h
  · refine Or.inr ⟨k0, ⟨k1 ▸ hn.thick, k3 ▸ hn.ice, k2 ▸ hn.water⟩, k3, k1.le, ?_⟩
    have : massOf c o.1 = massOf c n := by unfold massOf iceOf waterOf; rw [k1, k2, k3]
    rw [this, sub_self, abs_zero]
    exact add_nonneg (mul_nonneg (mul_nonneg (by norm_num) hε) hm0) (mul_nonneg hη.le hs0)
  · refine Or.inr ⟨k0, ?_⟩
    have hθ : (0 : K) < n.iceFraction.1 := lt_of_le_of_ne hn.ice fun hh => θ0 (Subtype.ext hh.symm)
    have hθ1 : n.iceFraction.1 ≤ 1 := h1
    have hx : (0 : K) ≤ x.1 := x0
    have hr1 : r.1 < 1 := r1
    have hd' : c.iceDensity.1 ≤ c.waterDensity.1 := hd
    have er' : r.1 = binRound p emin (binRound p emin (binRound p emin (c.waterDensity.1 / c.iceDensity.1) * x.1) / n.iceFraction.1) := by
      rw [er]
      show binRound p emin (-(binRound p emin (binRound p emin (c.waterDensity.1 / c.iceDensity.1) * -x.1)) / n.iceFraction.1) = _
      rw [mul_neg, binRound_neg, neg_neg]
    have eh : o.1.height.1 = binRound p emin (binRound p emin (1 - r.1) * n.height.1) := by rw [e1]; rfl
    have ew : o.1.lwc.1 = binRound p emin (binRound p emin (binRound p emin (n.lwc.1 + x.1) * n.height.1) / o.1.height.1) := by rw [e2]; rfl
    have q1 : (1 : K) ≤ binRound p emin (c.waterDensity.1 / c.iceDensity.1) := by
      have := binRound_mono (p := p) (emin := emin) ((one_le_div hi).2 hd')
      rwa [show binRound p emin (1 : K) = 1 from (1 : F).2] at this
    have y0 : x.1 ≤ binRound p emin (binRound p emin (c.waterDensity.1 / c.iceDensity.1) * x.1) := by
      have := binRound_mono (p := p) (emin := emin) (le_mul_of_one_le_left hx q1)
      rwa [Fl.kept x] at this
    have xr : x.1 ≤ r.1 := by
      rw [er']
      have := binRound_mono (p := p) (emin := emin) (y0.trans ((le_div_iff₀ hθ).2 (mul_le_of_le_one_right (hx.trans y0) hθ1)))
      rwa [Fl.kept x] at this
    have r0 : 0 ≤ r.1 := hx.trans xr
    have s1 : binRound p emin (1 - r.1) ≤ 1 := by
      have := binRound_mono (p := p) (emin := emin) (show 1 - r.1 ≤ 1 by linarith)
      rwa [show binRound p emin (1 : K) = 1 from (1 : F).2] at this
    have hle : o.1.height.1 ≤ n.height.1 := by
      rw [eh]
      have := binRound_mono (p := p) (emin := emin) (mul_le_of_le_one_left hh.le s1)
      rwa [Fl.kept n.height] at this
    have hpos : (0 : K) < o.1.height.1 := by
      refine lt_of_le_of_ne ?_ fun hh => h0 (Subtype.ext hh.symm)
      rw [eh]
      exact binRound_nonneg (mul_nonneg (binRound_nonneg (by linarith)) hh.le)
    have a1 := ((((Amount.refl (p := p) (add_nonneg hl hx)).rnd_add (Fl.kept n.lwc) (Fl.kept x)).scale hh.le).rnd (emin := emin)).quot hpos
    have a2 := ((a1.rnd (emin := emin)).scale hpos.le).scale hw
    rw [← ew] at a2
    have b1 := ((((Amount.refl (p := p) (show (0 : K) ≤ 1 - r.1 by linarith)).rnd_sub (x := 1) (y := r.1) (emin := emin)
      (show binRound p emin (1 : K) = 1 from (1 : F).2) (Fl.kept r)).scale hh.le).rnd (emin := emin)).scale (mul_pos hi hθ).le
    rw [← eh] at b1
    have b2 := b1.weaken (show 0 + 1 + 1 ≤ 3 by omega) le_rfl
    have m1 := ((((((Amount.refl (p := p) hw).quot hi).rnd (emin := emin)).scale hx).rnd (emin := emin)).quot hθ).rnd (emin := emin)
    rw [← er'] at m1
    have m2 := m1.scale (mul_pos (mul_pos hi hθ) hh).le
    have hw' : (0 : K) ≤ o.1.lwc.1 := by
      rw [ew]
      exact binRound_nonneg (div_nonneg (binRound_nonneg (mul_nonneg (binRound_nonneg (add_nonneg hl hx)) hh.le)) hpos.le)
    refine ⟨⟨hpos, e3 ▸ hn.ice, hw'⟩, e3, hle, ?_⟩
    have A := a2.err
    have B := b2.err
    have Mm := m2.err
    have hX : c.waterDensity.1 / c.iceDensity.1 * x.1 / n.iceFraction.1 * (c.iceDensity.1 * n.iceFraction.1 * n.height.1) =
        c.waterDensity.1 * x.1 * n.height.1 := by field_simp
    have hA : (n.lwc.1 + x.1) * n.height.1 / o.1.height.1 * o.1.height.1 * c.waterDensity.1 =
        c.waterDensity.1 * waterOf n + c.waterDensity.1 * x.1 * n.height.1 := by unfold waterOf; field_simp
    have hI : (1 - r.1) * n.height.1 * (c.iceDensity.1 * n.iceFraction.1) = c.iceDensity.1 * iceOf n * (1 - r.1) := by unfold iceOf; ring
    have hR : r.1 * (c.iceDensity.1 * n.iceFraction.1 * n.height.1) = r.1 * (c.iceDensity.1 * iceOf n) := by unfold iceOf; ring
    rw [hX, hR] at Mm
    rw [hA] at A
    rw [hI] at B
    have key := thin_budget hε g3 (mul_nonneg hw hn.waterOf) (mul_nonneg (mul_nonneg hw hx) hh.le)
      (mul_nonneg hi.le (mul_nonneg hθ0 hh.le)) (mul_nonneg r0 (mul_nonneg hi.le (mul_nonneg hθ0 hh.le)))
      (mul_le_of_le_one_left (mul_nonneg hi.le (mul_nonneg hθ0 hh.le)) hr1.le) m2.slack A B Mm
    have em : massOf c o.1 = o.1.height.1 * (c.iceDensity.1 * n.iceFraction.1) + o.1.lwc.1 * o.1.height.1 * c.waterDensity.1 := by
      unfold massOf iceOf waterOf; rw [e3]; ring
    have en : massOf c n = c.iceDensity.1 * iceOf n + c.waterDensity.1 * waterOf n := rfl
    rw [em, en]
    refine key.trans (add_le_add le_rfl ?_)
    have f1 : (g * ((g * (g * 0 * n.height.1) + η) / o.1.height.1) + η) * o.1.height.1 * c.waterDensity.1 =
        η * (c.waterDensity.1 * (g + o.1.height.1)) := by field_simp; ring
    have f2 : (g * (g * 0 * n.height.1) + η) * (c.iceDensity.1 * n.iceFraction.1) = η * (c.iceDensity.1 * n.iceFraction.1) := by ring
    have f3 : (g * ((g * ((g * (0 / c.iceDensity.1) + η) * x.1) + η) / n.iceFraction.1) + η) *
        (c.iceDensity.1 * n.iceFraction.1 * n.height.1) = η * (c.iceDensity.1 * n.height.1 * (g * (g * x.1) + g + n.iceFraction.1)) := by
      field_simp; ring
    rw [f1, f2, f3]
    have x1 : x.1 ≤ 1 := xr.trans hr1.le
    have j1 : c.waterDensity.1 * (g + o.1.height.1) ≤ c.waterDensity.1 * (11 / 10 + n.height.1) :=
      mul_le_mul_of_nonneg_left (add_le_add g1 hle) hw
    have j2 : c.iceDensity.1 * n.iceFraction.1 ≤ c.iceDensity.1 * 1 := mul_le_mul_of_nonneg_left hθ1 hi.le
    have j3 : g * (g * x.1) + g + n.iceFraction.1 ≤ 5 := by
      have l1 : g * x.1 ≤ 11 / 10 := (mul_le_of_le_one_right hg.le x1).trans g1
      have l2 : g * (g * x.1) ≤ 11 / 10 * (11 / 10) := mul_le_mul g1 l1 (mul_nonneg hg.le hx) (by norm_num)
      linarith
    have j4 : c.iceDensity.1 * n.height.1 * (g * (g * x.1) + g + n.iceFraction.1) ≤ c.iceDensity.1 * n.height.1 * 5 :=
      mul_le_mul_of_nonneg_left j3 (mul_pos hi hh).le
    have j5 : 0 ≤ c.iceDensity.1 * n.height.1 := (mul_pos hi hh).le
    have j6 : 0 ≤ c.waterDensity.1 * n.height.1 := mul_nonneg hw hh.le
    have j7 : c.waterDensity.1 * (g + o.1.height.1) + c.iceDensity.1 * n.iceFraction.1 +
        4 / 3 * (c.iceDensity.1 * n.height.1 * (g * (g * x.1) + g + n.iceFraction.1)) ≤ thinSlack c n := by
      unfold thinSlack
      have : 8 * (c.iceDensity.1 + c.waterDensity.1) * (1 + n.height.1) = 8 * c.iceDensity.1 + 8 * c.waterDensity.1 +
        8 * (c.iceDensity.1 * n.height.1) + 8 * (c.waterDensity.1 * n.height.1) := by ring
      rw [this]
      linarith
    have j8 := mul_le_mul_of_nonneg_left j7 hη.le
    linarith

theorem keptLayers {c : Consts F} (hc : FreezeSigns c) (hd : c.iceDensity ≤ c.waterDensity) {dt : F} {ns : List (Node F)}
    {outs : List (Node F × Bool × F)} (h : List.Forall₂ (fun n o => ∃ e, penLayer c dt e n = .ok o) ns outs) :
    (∀ n ∈ ns, SolidLayer n ∧ n.iceFraction ≤ 1) →
    ∃ kept gone, List.Forall₂ (Thinned c) kept ((outs.filter (fun o => !o.2.1)).map (fun o => o.1)) ∧ gone.Sublist ns ∧
      (kept ++ gone).Perm ns := by
  induction h with
  | nil => intro _; exact ⟨[], [], .nil, .slnil, .nil⟩
  | @cons n o ns outs h _ ih =>
    intro hn
    obtain ⟨kept, gone, h1, h2, h3⟩ := ih fun m hm => hn m (by simp [hm])
    obtain ⟨e, h⟩ := h
    rcases penLayer_mass hc hd (hn n (by simp)).1 (hn n (by simp)).2 h with ⟨k, _⟩ | ⟨k, ht⟩
    · refine ⟨kept, n :: gone, ?_, h2.cons_cons n, List.perm_middle.trans (h3.cons n)⟩
      rw [List.filter_cons_of_neg (by simp [k])]
      exact h1
    · refine ⟨n :: kept, gone, ?_, h2.cons n, h3.cons n⟩
      rw [List.filter_cons_of_pos (by simp [k]), List.map_cons]
      exact .cons ht h1

theorem exactTotal_perm {β : Type} (f : β → K) {ns ms : List β} (h : ns.Perm ms) : exactTotal f ns = exactTotal f ms :=
  (h.map f).sum_eq

theorem thinned_total {c : Consts F} {ns ms : List (Node F)} (h : List.Forall₂ (Thinned c) ns ms) :
    |exactTotal (massOf c) ms - exactTotal (massOf c) ns| ≤
      3 * (g ^ 3 - 1) * exactTotal (massOf c) ns + η * exactTotal (thinSlack c) ns := by
  induction h with
  | nil => simp
  | @cons n m ns ms h _ ih =>
    simp only [exactTotal_cons]
    rw [add_sub_add_comm]
    refine (abs_add_le _ _).trans ?_
    have := h.mass
    linarith

/-- **C132, layers.** Every layer but the last is removed or kept with its ice fraction, no thicker than before and still with a thickness;
the mass of a kept layer, ice and water together, changes by no more than nine roundings, and underflow. The last layer is not touched. -/
theorem C132_layers [Transc K] {c : Consts F} (hc : FreezeSigns c) (hd : c.iceDensity ≤ c.waterDensity) {gr : Grid F} {swnet dt : F}
    {r : Grid F × F × F} (hs : ∀ n ∈ gr.nodes, SolidLayer n ∧ n.iceFraction ≤ 1) (h : methodBintanja c gr swnet dt = .ok r) :
    ∃ kept gone kept' last, (kept ++ gone ++ [last]).Perm gr.nodes ∧ gone.Sublist gr.nodes ∧ r.1.nodes = kept' ++ [last] ∧
      List.Forall₂ (fun n m => SolidLayer m ∧ m.iceFraction = n.iceFraction ∧ m.height ≤ n.height ∧
        |massOf c m - massOf c n| ≤ 3 * (g ^ 3 - 1) * massOf c n + η * thinSlack c n) kept kept' := by
  obtain ⟨init, last, outs, e1, e2, e3⟩ := bintanja_rel h
  obtain ⟨kept, gone, k1, k2, k3⟩ := keptLayers hc hd e2 fun n hn => hs n (by rw [e1]; simp [hn])
  refine ⟨kept, gone, _, last, ?_, ?_, e3, k1.imp fun n m ht => ⟨ht.solid, ht.ice, ht.height, ht.mass⟩⟩
  · rw [e1]; exact k3.append_right _
  · rw [e1]; exact k2.trans (List.sublist_append_left _ _)

/-- **C132.** The mass of the column, with that of the removed layers added, changes by no more than nine roundings, and underflow, however
many layers there are. -/
theorem C132_mass [Transc K] {c : Consts F} (hc : FreezeSigns c) (hd : c.iceDensity ≤ c.waterDensity) {gr : Grid F} {swnet dt : F}
    {r : Grid F × F × F} (hs : ∀ n ∈ gr.nodes, SolidLayer n ∧ n.iceFraction ≤ 1) (h : methodBintanja c gr swnet dt = .ok r) :
    ∃ gone : List (Node F), gone.Sublist gr.nodes ∧ r.1.nodes.length + gone.length = gr.nodes.length ∧
      |exactTotal (massOf c) r.1.nodes + exactTotal (massOf c) gone - exactTotal (massOf c) gr.nodes| ≤
        3 * (g ^ 3 - 1) * exactTotal (massOf c) gr.nodes + η * exactTotal (thinSlack c) gr.nodes := by
  obtain ⟨init, last, outs, e1, e2, e3⟩ := bintanja_rel h
  obtain ⟨kept, gone, k1, k2, k3⟩ := keptLayers hc hd e2 fun n hn => hs n (by rw [e1]; simp [hn])
  have hη := underflow_pos (K := K) (p := p) (emin := emin)
  have hi : (0 : K) < c.iceDensity.1 := hc.ice
  have hw : (0 : K) ≤ c.waterDensity.1 := hc.water
  have hε : 0 ≤ g ^ 3 - 1 := sub_nonneg.2 (grow_pow_one 3)
  have pos : ∀ n, SolidLayer n → 0 ≤ massOf c n ∧ 0 ≤ thinSlack c n := by
    intro n hn
    have hh : (0 : K) < n.height.1 := hn.thick
    have hl : (0 : K) ≤ n.lwc.1 := hn.water
    have hθ0 : (0 : K) ≤ n.iceFraction.1 := hn.ice
    unfold massOf iceOf waterOf thinSlack
    exact ⟨add_nonneg (mul_nonneg hi.le (mul_nonneg hθ0 hh.le)) (mul_nonneg hw (mul_nonneg hl hh.le)),
      mul_nonneg (mul_nonneg (by norm_num) (add_nonneg hi.le hw)) (add_nonneg zero_le_one hh.le)⟩
  have hperm : (kept ++ gone ++ [last]).Perm gr.nodes := by rw [e1]; exact k3.append_right _
  have s : ∀ n ∈ gone ++ [last], SolidLayer n := fun n hn => (hs n (hperm.mem_iff.1 (by
    rw [List.append_assoc]; exact List.mem_append_right _ hn))).1
  have p1 := exactTotal_nonneg (massOf c) fun n hn => (pos n (s n hn)).1
  have p2 := exactTotal_nonneg (thinSlack c) fun n hn => (pos n (s n hn)).2
  have t := thinned_total k1
  refine ⟨gone, e1 ▸ k2.trans (List.sublist_append_left _ _), ?_, ?_⟩
  · have := hperm.length_eq
    rw [e3, ← this]
    simp only [List.length_append]
    rw [k1.length_eq]
    omega
  · rw [← exactTotal_perm (massOf c) hperm, ← exactTotal_perm (thinSlack c) hperm, e3]
    simp only [exactTotal_append] at p1 p2 ⊢
    have q1 := mul_nonneg (mul_nonneg (show (0 : K) ≤ 3 by norm_num) hε) p1
    have q2 := mul_nonneg hη.le p2
    have e : ∀ a l b k : K, a + l + b - (k + b + l) = a - k := by intro a l b k; ring
    rw [e]
    linarith

theorem default_thin : ∀ ns : List (Node F), (∀ n ∈ ns, SolidLayer n) →
    exactTotal (thinSlack (Consts.default F)) ns ≤ 18000 * (ns.length + exactTotal thickOf ns) := by
  have hρ := lit_in (x := (917.0 : K)) (A := 1) (B := 970) hp he (by norm_num) (by norm_num) (by norm_num)
  have hv := lit_in (x := (1000.0 : K)) (A := 1) (B := 1100) hp he (by norm_num) (by norm_num) (by norm_num)
  intro ns
  induction ns with
  | nil => intro _; simp
  | cons n ns ih =>
    intro hns
    have hh : (0 : K) < n.height.1 := (hns n (by simp)).thick
    have h1 := ih fun m hm => hns m (by simp [hm])
    have h2 : thinSlack (Consts.default F) n ≤ 18000 * (1 + n.height.1) := by
      show 8 * (binRound p emin (917.0 : K) + binRound p emin (1000.0 : K)) * (1 + n.height.1) ≤ _
      exact mul_le_mul_of_nonneg_right (by linarith [hρ.2, hv.2]) (by linarith)
    rw [exactTotal_cons, exactTotal_cons, List.length_cons]
    push_cast
    unfold thickOf at *
    linarith

end

/-! ## In double precision -/

section
variable {K : Type} [Field K] [LinearOrder K] [IsStrictOrderedRing K] [FloorRing K]

/-- **C132 in double precision.** With the shipped constants, for columns of up to a thousand layers and a thousand metres:
2·10⁻¹⁵ of the mass. -/
theorem C132_binary64 [Transc K] {gr : Grid (Fl (binary64 K))} {swnet dt : Fl (binary64 K)}
    {r : Grid (Fl (binary64 K)) × Fl (binary64 K) × Fl (binary64 K)} (hs : ∀ n ∈ gr.nodes, SolidLayer n ∧ n.iceFraction ≤ 1)
    (hn : gr.nodes.length ≤ 1000) (hh : exactTotal thickOf gr.nodes ≤ 1000) (h : methodBintanja (Consts.default _) gr swnet dt = .ok r) :
    ∃ gone : List (Node (Fl (binary64 K))), gone.Sublist gr.nodes ∧ r.1.nodes.length + gone.length = gr.nodes.length ∧
      |exactTotal (massOf (Consts.default _)) r.1.nodes + exactTotal (massOf (Consts.default _)) gone -
          exactTotal (massOf (Consts.default _)) gr.nodes| ≤
        2e-15 * exactTotal (massOf (Consts.default _)) gr.nodes + 2 ^ (-1000 : ℤ) := by
  have hd : (Consts.default (Fl (binary64 K))).iceDensity ≤ (Consts.default (Fl (binary64 K))).waterDensity := by
    show binRound 52 (-1022) (917.0 : K) ≤ binRound 52 (-1022) (1000.0 : K)
    exact binRound_mono (by norm_num)
  obtain ⟨gone, h1, h2, h3⟩ := C132_mass default_freezeSigns hd hs h
  refine ⟨gone, h1, h2, h3.trans (add_le_add (mul_le_mul_of_nonneg_right ?_ ?_) ?_)⟩
  · have := grow_pow_le (K := K) (p := 52) (i := 3) (by unfold unitRoundoff; norm_num)
    have hu : unitRoundoff K 52 ≤ 1 / 9 * 1e-15 := by unfold unitRoundoff; norm_num
    norm_num at hu this ⊢
    linarith
  · refine exactTotal_nonneg _ fun n hn => ?_
    unfold massOf iceOf waterOf
    have h1 : (0 : K) ≤ _ := (default_freezeSigns (K := K) (p := 52) (emin := -1022) (hp := by norm_num) (he := by norm_num)).ice.le
    have h2 : (0 : K) ≤ _ := (default_freezeSigns (K := K) (p := 52) (emin := -1022) (hp := by norm_num) (he := by norm_num)).water
    exact add_nonneg (mul_nonneg h1 (mul_nonneg (hs n hn).1.ice (hs n hn).1.thick.le)) (mul_nonneg h2 (hs n hn).1.waterOf)
  · have hn' : (gr.nodes.length : K) ≤ 1000 := by exact_mod_cast hn
    have hη := underflow_pos (K := K) (p := 52) (emin := -1022)
    have e : (2 : K) ^ (-1000 : ℤ) = underflowUnit K 52 (-1022) * 2 ^ (75 : ℤ) := by
      unfold underflowUnit
      rw [← zpow_add₀ two_ne_zero]
      norm_num
    rw [e]
    refine mul_le_mul_of_nonneg_left ((default_thin _ fun n hn => (hs n hn).1).trans ?_) hη.le
    have : (2 : K) ^ (75 : ℤ) = 37778931862957161709568 := by norm_num
    rw [this]
    refine (mul_le_mul_of_nonneg_left (add_le_add hn' hh) (by norm_num)).trans ?_
    norm_num

end

/-! Non-vacuity: in double precision, a column whose second layer melts and whose mass is not exactly conserved; and one that loses a layer. -/
section
private abbrev V64 := Fl (binary64 ℚ)

/-- Placeholder elementary functions with a decreasing exponential. -/
@[reducible] private def exDecay : Transc ℚ := { exTransc with exp := fun x => if x < 0 then 1 / (1 - x) else 1 + x }

attribute [local instance] exDecay

private def exCol : Grid V64 :=
  ⟨[⟨0.07, 273, 0, 0.3, 0⟩, ⟨0.05, 273.1, 0.011, 0.35, 0⟩, ⟨0.3, 268.3, 0, 0.9, 0⟩], 3, 0, 0, 0⟩

private theorem exCol_solid : ∀ n ∈ exCol.nodes, SolidLayer n ∧ n.iceFraction ≤ 1 := by
  have all : ∀ n ∈ exCol.nodes, (0 < n.height ∧ 0 ≤ n.iceFraction ∧ 0 ≤ n.lwc) ∧ n.iceFraction ≤ 1 := by
    unfold exCol; decide +kernel
  exact fun n hn => ⟨⟨(all n hn).1.1, (all n hn).1.2.1, (all n hn).1.2.2⟩, (all n hn).2⟩

example : exCol.nodes.length ≤ 1000 ∧ exactTotal thickOf exCol.nodes ≤ 1000 := ⟨by decide, by decide +kernel⟩

/-- Two layers get thinner; not exactly the same mass. -/
example : (methodBintanja (Consts.default V64) exCol 500 3600).toOption.map (fun r => (r.1.nodes.length,
    (List.zip r.1.nodes exCol.nodes).map (fun q => decide (q.1.height < q.2.height)),
    decide (exactTotal (massOf (Consts.default V64)) r.1.nodes = exactTotal (massOf (Consts.default V64)) exCol.nodes))) =
    some (3, [true, true, false], false) := by decide +kernel

/-- With more energy a layer is removed. -/
example : (penLayer (Consts.default V64) 3600 4000 (⟨0.07, 273, 0, 0.3, 0⟩ : Node V64)).toOption.map (fun o => o.2.1) = some true := by
  decide +kernel

/-- The bounds for this column. -/
example {r : Grid V64 × V64 × V64} (h : methodBintanja (Consts.default V64) exCol 500 3600 = .ok r) :
    ∃ gone : List (Node V64), gone.Sublist exCol.nodes ∧ r.1.nodes.length + gone.length = 3 ∧
      |exactTotal (massOf (Consts.default V64)) r.1.nodes + exactTotal (massOf (Consts.default V64)) gone -
        exactTotal (massOf (Consts.default V64)) exCol.nodes| ≤ 2e-15 * exactTotal (massOf (Consts.default V64)) exCol.nodes + 2 ^ (-1000 : ℤ) :=
  C132_binary64 exCol_solid (by decide) (by decide +kernel) h
end
end Cosipy
