import Verif.Lemmas.WithSolver
import Verif.Props.C115
import Verif.Props.C123
import Verif.Props.C129
import Verif.Props.C132

/-!
# C136 The mass budget of a whole time step in double precision

C58 says in exact arithmetic that a step changes the mass of the column by what came and what went. In double precision it does
so up to the roundings of all processes together, and these do not add up to more than a few parts in 10⁹ of the masses
involved: `C136_step`. The totals are exact sums of exact products of the stored numbers. What comes is the layer of fresh snow and the
water given to percolation, what goes is a top layer too thin to be kept, the layers that penetrating radiation uses up, what
`remove_melt_weq` takes (C128 says how much that is) and the runoff.
-/

set_option autoImplicit false
set_option linter.unusedSectionVars false

namespace Cosipy

section
variable {α : Type} [Add α] [Sub α] [Mul α] [Div α] [Neg α] [LT α] [LE α]
  [DecidableLT α] [DecidableLE α] [BEq α] [Zero α] [One α] [NatCast α] [OfScientific α]

/-- Columns that agree in a stored quantity have the same values of it. -/
theorem SameBut.values {qs : List Stored} {g g' : Grid α} (h : SameBut qs g g') (hw : g.WF) (hw' : g'.WF) {p : Stored} (hp : p ∉ qs) :
    g'.nodes.map p.of = g.nodes.map p.of := by
  have := h.2.2 p hp
  rw [C122_profile hw', C122_profile hw] at this
  exact ok_inj.1 this

theorem map_forall {β γ : Type} {f : β → γ} {P : γ → Prop} {ns ms : List β} (h : ms.map f = ns.map f) (hn : ∀ n ∈ ns, P (f n)) :
    ∀ m ∈ ms, P (f m) := by
  intro m hm
  have : f m ∈ ns.map f := h ▸ List.mem_map_of_mem hm
  obtain ⟨n, hn', e⟩ := List.mem_map.1 this
  exact e ▸ hn n hn'

end

section
variable {K : Type} [Field K] [LinearOrder K] [IsStrictOrderedRing K] [FloorRing K] {p : ℕ} {emin : ℤ} {hp : 23 ≤ p} {he : emin ≤ -30}

local notation "F" => Fl (binary K p emin hp he)

/-- The mass of a column is that of its ice and of its water. -/
theorem exactTotal_massOf (c : Consts F) (ns : List (Node F)) :
    exactTotal (massOf c) ns = c.iceDensity.1 * exactTotal iceOf ns + c.waterDensity.1 * exactTotal waterOf ns := by
  induction ns with
  | nil => simp
  | cons n ns ih => simp only [exactTotal_cons, ih, massOf]; ring

/-- Columns that agree in thickness, ice and water have the same mass. -/
theorem exactTotal_massOf_congr (c : Consts F) : ∀ {ns ms : List (Node F)}, ms.map Node.height = ns.map Node.height →
    ms.map Node.iceFraction = ns.map Node.iceFraction → ms.map Node.lwc = ns.map Node.lwc →
    exactTotal (massOf c) ms = exactTotal (massOf c) ns := by
  intro ns
  induction ns with
  | nil => intro ms h _ _; simp only [List.map_nil, List.map_eq_nil_iff] at h; rw [h]
  | cons n ns ih =>
    intro ms h1 h2 h3
    cases ms with
    | nil => simp at h1
    | cons m ms =>
      simp only [List.map_cons, List.cons.injEq] at h1 h2 h3
      rw [exactTotal_cons, exactTotal_cons, ih h1.2 h2.2 h3.2]
      unfold massOf iceOf waterOf
      rw [h1.1, h2.1, h3.1]

theorem exactTotal_ice_congr : ∀ {ns ms : List (Node F)}, ms.map Node.height = ns.map Node.height →
    ms.map Node.iceFraction = ns.map Node.iceFraction → exactTotal iceOf ms = exactTotal iceOf ns := by
  intro ns
  induction ns with
  | nil => intro ms h _; simp only [List.map_nil, List.map_eq_nil_iff] at h; rw [h]
  | cons n ns ih =>
    intro ms h1 h2
    cases ms with
    | nil => simp at h1
    | cons m ms =>
      simp only [List.map_cons, List.cons.injEq] at h1 h2
      rw [exactTotal_cons, exactTotal_cons, ih h1.2 h2.2]
      unfold iceOf
      rw [h1.1, h2.1]

theorem exactTotal_thick_congr {ns ms : List (Node F)} (h : ms.map Node.height = ns.map Node.height) :
    exactTotal thickOf ms = exactTotal thickOf ns := by
  have e : ∀ ls : List (Node F), exactTotal thickOf ls = ((ls.map Node.height).map (fun x : F => x.1)).sum := by
    intro ls
    rw [List.map_map]; rfl
  rw [e, e, h]

theorem massOf_nonneg {c : Consts F} (hi : 0 ≤ c.iceDensity) (hw : 0 ≤ c.waterDensity) {n : Node F} (hn : SolidLayer n) : 0 ≤ massOf c n :=
  add_nonneg (mul_nonneg hi (mul_nonneg hn.ice hn.thick.le)) (mul_nonneg hw hn.waterOf)

end

section
variable {K : Type} [Field K] [LinearOrder K] [IsStrictOrderedRing K] [FloorRing K]

local notation "D" => Fl (binary K 52 (-1022) (by norm_num) (by norm_num))

/-- Densities as they are: ice not denser than water, water of at most 2000 kg/m³. -/
structure Densities (c : Consts D) : Prop where
  signs : FreezeSigns c
  order : c.iceDensity ≤ c.waterDensity
  size : c.waterDensity.1 ≤ 2000

/-- At most a thousand layers and a thousand metres. -/
def SmallColumn (g : Grid D) : Prop := g.nodes.length ≤ 1000 ∧ exactTotal thickOf g.nodes ≤ 1000

theorem tiny_pos : (0 : K) < 2 ^ (-1000 : ℤ) := by positivity

/-- Remeshing. -/
theorem remesh_mass {c : Consts D} (hc : Densities c) {gr gr' : Grid D} {fuel : ℕ} (hm : c.remeshMethod = .logProfile)
    (hw : gr.WF) (hs : ∀ n ∈ gr.nodes, SolidLayer n) (h0 : 0 < c.firstLayerHeight) (h1 : 1 ≤ c.layerStretching)
    (hN : gr.nodes.length + 10 * (exactTotal thickOf gr.nodes / c.firstLayerHeight.1) ≤ 1000000) (hT : exactTotal thickOf gr.nodes ≤ 1000000)
    (h : gr.updateGrid fuel c = .ok gr') :
    ∃ thin : List (Node D), (thin = [] ∨ ∃ n : Node D, thin = [n] ∧ n.height < c.minimumSnowLayerHeight) ∧
      (∀ n ∈ thin, SolidLayer n) ∧ (∀ n ∈ gr'.nodes, SolidLayer n) ∧
      |exactTotal (massOf c) gr'.nodes + exactTotal (massOf c) thin - exactTotal (massOf c) gr.nodes| ≤
        1e-9 * exactTotal (massOf c) gr.nodes + 4000 * 2 ^ (-1000 : ℤ) := by
  have hx : ∃ ms : List (Node D), (ms = gr'.nodes ∨ ∃ top : Node D, top.height < c.minimumSnowLayerHeight ∧ SolidLayer top ∧ ms = top :: gr'.nodes) ∧
      |exactTotal waterOf ms - exactTotal waterOf gr.nodes| ≤ 1e-9 * exactTotal waterOf gr.nodes + 2 ^ (-1000 : ℤ) ∧
      |exactTotal iceOf ms - exactTotal iceOf gr.nodes| ≤ 1e-9 * exactTotal iceOf gr.nodes + 2 ^ (-1000 : ℤ) ∧
      |exactTotal thickOf ms - exactTotal thickOf gr.nodes| ≤ 1e-9 * exactTotal thickOf gr.nodes ∧ ∀ n ∈ gr'.nodes, SolidLayer n :=
    C129_update_binary64 hm hw hs h0 h1 hN hT h
  obtain ⟨ms, e, hwat, hice, _, hsol⟩ := hx
  have hi : (0 : K) ≤ c.iceDensity.1 := hc.signs.ice.le
  have hv : (0 : K) ≤ c.waterDensity.1 := hc.signs.water
  have hiv : c.iceDensity.1 ≤ c.waterDensity.1 := hc.order
  have hsz := hc.size
  have key : |exactTotal (massOf c) ms - exactTotal (massOf c) gr.nodes| ≤ 1e-9 * exactTotal (massOf c) gr.nodes + 4000 * 2 ^ (-1000 : ℤ) := by
    rw [exactTotal_massOf, exactTotal_massOf]
    generalize exactTotal iceOf ms = I' at *
    generalize exactTotal waterOf ms = W' at *
    generalize exactTotal iceOf gr.nodes = I at *
    generalize exactTotal waterOf gr.nodes = W at *
    generalize c.iceDensity.1 = a at *
    generalize c.waterDensity.1 = b at *
    have ht := tiny_pos (K := K)
    generalize (2 : K) ^ (-1000 : ℤ) = t at *
    have e : a * I' + b * W' - (a * I + b * W) = a * (I' - I) + b * (W' - W) := by ring
    rw [e]
    refine (abs_add_le _ _).trans ?_
    rw [abs_mul, abs_mul, abs_of_nonneg hi, abs_of_nonneg hv]
    have q1 := mul_le_mul_of_nonneg_left hice hi
    have q2 := mul_le_mul_of_nonneg_left hwat hv
    have q3 : a * t ≤ 2000 * t := mul_le_mul_of_nonneg_right (hiv.trans hsz) ht.le
    have q4 : b * t ≤ 2000 * t := mul_le_mul_of_nonneg_right hsz ht.le
    have e1 : a * (1e-9 * I + t) = 1e-9 * (a * I) + a * t := by ring
    have e2 : b * (1e-9 * W + t) = 1e-9 * (b * W) + b * t := by ring
    have e3 : (1e-9 : K) * (a * I + b * W) = 1e-9 * (a * I) + 1e-9 * (b * W) := by ring
    rw [e1] at q1; rw [e2] at q2; rw [e3]
    linarith
  rcases e with e | ⟨top, ht, hst, e⟩
  · refine ⟨[], .inl rfl, by simp, hsol, ?_⟩
    rw [e] at key
    simpa using key
  · refine ⟨[top], .inr ⟨top, rfl, ht⟩, by simpa using hst, hsol, ?_⟩
    rw [e, exactTotal_cons] at key
    simpa [add_comm] using key

theorem thinSlack_total {c : Consts D} (hc : Densities c) : ∀ {ns : List (Node D)}, (∀ n ∈ ns, SolidLayer n) →
    exactTotal (thinSlack c) ns ≤ 32000 * (ns.length + exactTotal thickOf ns) := by
  intro ns
  induction ns with
  | nil => intro _; simp
  | cons n ns ih =>
    intro hns
    have h1 := ih fun m hm => hns m (by simp [hm])
    have hh : (0 : K) < n.height.1 := (hns n (by simp)).thick
    have hiv : c.iceDensity.1 ≤ c.waterDensity.1 := hc.order
    have hsz := hc.size
    have h2 : thinSlack c n ≤ 32000 * (1 + n.height.1) := by
      unfold thinSlack
      exact mul_le_mul_of_nonneg_right (by linarith) (by linarith)
    rw [exactTotal_cons, exactTotal_cons, List.length_cons]
    push_cast
    unfold thickOf at *
    linarith

theorem tiny_units : (2 : K) ^ (-1000 : ℤ) = underflowUnit K 52 (-1022) * 2 ^ (75 : ℤ) := by
  unfold underflowUnit
  rw [← zpow_add₀ two_ne_zero]
  norm_num

theorem units_le_tiny {x : K} (hx : x ≤ 37778931862957161709568) : underflowUnit K 52 (-1022) * x ≤ 2 ^ (-1000 : ℤ) := by
  rw [tiny_units]
  refine mul_le_mul_of_nonneg_left ?_ underflow_pos.le
  have : (2 : K) ^ (75 : ℤ) = 37778931862957161709568 := by norm_num
  rw [this]; exact hx

theorem three_roundings : grow K 52 ^ 3 - 1 ≤ 7e-16 ∧ grow K 52 ^ 2 ≤ 2 := by
  have h3 := grow_pow_le (K := K) (p := 52) (i := 3) (by unfold unitRoundoff; norm_num)
  have h2 := grow_pow_le (K := K) (p := 52) (i := 2) (by unfold unitRoundoff; norm_num)
  have hu : unitRoundoff K 52 ≤ 1 / 9 * 1e-15 := by unfold unitRoundoff; norm_num
  have hu' : unitRoundoff K 52 = 1 / 9007199254740992 := by unfold unitRoundoff; norm_num
  rw [hu'] at h3 h2
  constructor
  · refine (sub_le_sub_right h3 1).trans ?_; norm_num
  · refine h2.trans ?_; norm_num

variable [Transc K]

/-- Penetrating radiation. -/
theorem radiation_mass {c : Consts D} (hc : Densities c) {gr gr' : Grid D} {sw dt m e : D}
    (hs : ∀ n ∈ gr.nodes, SolidLayer n ∧ n.iceFraction ≤ 1) (hN : SmallColumn gr) (h : radiationStep c gr sw dt = .ok (gr', m, e)) :
    ∃ burnt : List (Node D), burnt.Sublist gr.nodes ∧ (¬ 0 < sw → burnt = []) ∧ (∀ n ∈ gr'.nodes, SolidLayer n) ∧
      |exactTotal (massOf c) gr'.nodes + exactTotal (massOf c) burnt - exactTotal (massOf c) gr.nodes| ≤
        3e-15 * exactTotal (massOf c) gr.nodes + 2 ^ (-1000 : ℤ) := by
  have ht := tiny_pos (K := K)
  have hM : 0 ≤ exactTotal (massOf c) gr.nodes :=
    exactTotal_nonneg _ fun n hn => massOf_nonneg hc.signs.ice.le hc.signs.water (hs n hn).1
  unfold radiationStep at h
  split_ifs at h with hsw
  · unfold penetratingRadiation at h
    split at h
    · obtain ⟨burnt, h1, h2, h3⟩ := C132_mass hc.signs hc.order hs h
      obtain ⟨kept, gone, kept', last, k1, k2, k3, k4⟩ := C132_layers hc.signs hc.order hs h
      refine ⟨burnt, h1, fun hn => absurd hsw hn, ?_, h3.trans (add_le_add (mul_le_mul_of_nonneg_right ?_ hM) (units_le_tiny ?_))⟩
      · dsimp only at k3
        rw [k3]
        intro n hn
        rcases List.mem_append.1 hn with hn | hn
        · have : List.Forall₂ (fun _ m => SolidLayer m) kept kept' := k4.imp fun _ _ q => q.1
          obtain ⟨i, hi, rfl⟩ := List.getElem_of_mem hn
          have hl := this.length_eq
          exact (List.forall₂_iff_get.1 this).2 i (by omega) hi
        · rw [List.mem_singleton] at hn; subst hn
          exact (hs n (k1.subset (by simp))).1
      · have := (three_roundings (K := K)).1
        norm_num at this ⊢
        linarith
      · refine (thinSlack_total hc fun n hn => (hs n hn).1).trans ?_
        have hn' : (gr.nodes.length : K) ≤ 1000 := by exact_mod_cast hN.1
        have := hN.2
        refine (mul_le_mul_of_nonneg_left (add_le_add hn' this) (by norm_num)).trans ?_
        norm_num
    · cases h
  · have e := (Prod.mk.inj (ok_inj.1 h)).1
    refine ⟨[], List.nil_sublist _, fun _ => rfl, by rw [← e]; exact fun n hn => (hs n hn).1, ?_⟩
    rw [← e]
    simp only [exactTotal_nil, add_zero, sub_self, abs_zero]
    positivity

theorem freezeSlack_total {c : Consts D} : ∀ (ns : List (Node D)),
    exactTotal (freezeSlack c) ns = c.iceDensity.1 * (exactTotal thickOf ns + exactTotal waterOf ns) := by
  intro ns
  induction ns with
  | nil => simp
  | cons n ns ih =>
    rw [exactTotal_cons, exactTotal_cons, exactTotal_cons, ih]
    unfold freezeSlack thickOf waterOf
    ring

/-- Percolation, refreezing and conduction. -/
theorem C136_interior {c : Consts D} (hc : Densities c) {fuel : ℕ} {g5 g6 g7 g8 : Grid D} {w q x dt : D} (hw : g5.WF)
    (hs : ∀ n ∈ g5.nodes, SolidLayer n ∧ NotAbsurdlyCold c n) (hN : SmallColumn g5) (h0 : 0 ≤ w)
    (h6s : ∀ n ∈ g6.nodes, 0 ≤ n.iceFraction ∧ 0 ≤ n.lwc)
    (hp : percolation g5 w = .ok (g6, q)) (hr : refreezing c g6 = .ok (g7, x)) (hh : solveHeatEquation fuel c g7 dt = .ok g8) :
    |exactTotal (massOf c) g8.nodes + c.waterDensity.1 * q.1 - (exactTotal (massOf c) g5.nodes + c.waterDensity.1 * w.1)| ≤
      2e-12 * (exactTotal (massOf c) g5.nodes + c.waterDensity.1 * w.1) + 3000 * 2 ^ (-1000 : ℤ) := by
  have hw6 := hw.percolation hp
  have hw7 := hw6.refreezing hr
  have hw8 := hw7.solveHeatEquation hh
  have s6 := C123_percolation hw hp
  have s8 := C123_conduction hw7 hh
  have eh : g6.nodes.map Node.height = g5.nodes.map Node.height := s6.values hw hw6 (p := .height) (by simp)
  have ei : g6.nodes.map Node.iceFraction = g5.nodes.map Node.iceFraction := s6.values hw hw6 (p := .ice) (by simp)
  have et : g6.nodes.map Node.temperature = g5.nodes.map Node.temperature := s6.values hw hw6 (p := .temperature) (by simp)
  have m8 : exactTotal (massOf c) g8.nodes = exactTotal (massOf c) g7.nodes :=
    exactTotal_massOf_congr c (s8.values hw7 hw8 (p := .height) (by simp)) (s8.values hw7 hw8 (p := .ice) (by simp))
      (s8.values hw7 hw8 (p := .water) (by simp))
  have solid6 : ∀ n ∈ g6.nodes, SolidLayer n ∧ NotAbsurdlyCold c n := fun n hn =>
    ⟨⟨map_forall (P := fun y => 0 < y) eh (fun n hn => (hs n hn).1.thick) n hn, (h6s n hn).1, (h6s n hn).2⟩,
      map_forall (P := fun y => (y - c.zeroTemperature) * (c.specHeatIce - c.specHeatWater) ≤ c.latHeatMelting) et
        (fun n hn => (hs n hn).2) n hn⟩
  have p6 : |exactTotal waterOf g6.nodes + q.1 - (exactTotal waterOf g5.nodes + w.1)| ≤
      1e-12 * (exactTotal waterOf g5.nodes + w.1) + 2 ^ (-1000 : ℤ) := C110_percolation_binary64 hw (fun n hn => (hs n hn).1) h0 hN.1 (hN.2.trans (by norm_num)) hp
  have p7 := C110_refreezing hc.signs solid6 hr
  have e1 := exactTotal_massOf c g5.nodes
  have e2 := exactTotal_massOf c g6.nodes
  rw [exactTotal_ice_congr eh ei] at e2
  have hT : exactTotal thickOf g6.nodes ≤ 1000 := by rw [exactTotal_thick_congr eh]; exact hN.2
  have hi : (0 : K) ≤ c.iceDensity.1 := hc.signs.ice.le
  have hv : (0 : K) ≤ c.waterDensity.1 := hc.signs.water
  have hiv : c.iceDensity.1 ≤ c.waterDensity.1 := hc.order
  have hsz := hc.size
  have hI : 0 ≤ exactTotal iceOf g5.nodes := exactTotal_nonneg _ fun n hn => (hs n hn).1.iceOf
  have hW : 0 ≤ exactTotal waterOf g5.nodes := exactTotal_nonneg _ fun n hn => (hs n hn).1.waterOf
  have hW6 : 0 ≤ exactTotal waterOf g6.nodes := exactTotal_nonneg _ fun n hn => (solid6 n hn).1.waterOf
  have hw0 : (0 : K) ≤ w.1 := h0
  have hq : (0 : K) ≤ q.1 := (percolation_nn (fun n hn => ⟨(hs n hn).1.thick.le, (hs n hn).1.ice, (hs n hn).1.water⟩) h0 hp).2
  have ht := tiny_pos (K := K)
  -- the slack of refreezing
  have k7 : (grow K 52 ^ 3 - 1) * exactTotal (massOf c) g6.nodes +
      grow K 52 ^ 2 * underflowUnit K 52 (-1022) * exactTotal (freezeSlack c) g6.nodes ≤
      1e-15 * exactTotal (massOf c) g6.nodes + 2 ^ (-1000 : ℤ) := by
    rw [freezeSlack_total]
    have hη := underflow_pos (K := K) (p := 52) (emin := -1022)
    obtain ⟨g3, g2⟩ := three_roundings (K := K)
    have hη' : 2 * underflowUnit K 52 (-1022) ≤ (1e-16 : K) := by
      have := units_le_tiny (K := K) (x := 2) (by norm_num)
      have h3 : (2 : K) ^ (-1000 : ℤ) ≤ 2 ^ (-60 : ℤ) := zpow_le_zpow_right₀ (by norm_num) (by norm_num)
      have h4 : (2 : K) ^ (-60 : ℤ) ≤ 1e-16 := by norm_num
      rw [mul_comm]
      exact this.trans (h3.trans h4)
    have a1 : c.iceDensity.1 * exactTotal waterOf g6.nodes ≤ exactTotal (massOf c) g6.nodes := by
      rw [e2]
      have := mul_le_mul_of_nonneg_right hiv hW6
      have := mul_nonneg hi hI
      linarith
    have a0 : 0 ≤ c.iceDensity.1 * exactTotal waterOf g6.nodes := mul_nonneg hi hW6
    have hT0 : 0 ≤ exactTotal thickOf g6.nodes := exactTotal_nonneg _ fun n hn => (solid6 n hn).1.thick.le
    have a2 : c.iceDensity.1 * exactTotal thickOf g6.nodes ≤ 2000 * 1000 := mul_le_mul (hiv.trans hsz) hT hT0 (by norm_num)
    have a3 : underflowUnit K 52 (-1022) * (2 * (2000 * 1000)) ≤ (2 : K) ^ (-1000 : ℤ) := units_le_tiny (by norm_num)
    have b0 : 0 ≤ exactTotal (massOf c) g6.nodes := a0.trans a1
    have b1 : (grow K 52 ^ 3 - 1) * exactTotal (massOf c) g6.nodes ≤ 7e-16 * exactTotal (massOf c) g6.nodes :=
      mul_le_mul_of_nonneg_right g3 b0
    have b2 : grow K 52 ^ 2 * underflowUnit K 52 (-1022) ≤ 2 * underflowUnit K 52 (-1022) := mul_le_mul_of_nonneg_right g2 hη.le
    have b3 : 0 ≤ c.iceDensity.1 * (exactTotal thickOf g6.nodes + exactTotal waterOf g6.nodes) := mul_nonneg hi (add_nonneg hT0 hW6)
    have b4 := mul_le_mul_of_nonneg_right b2 b3
    have b5 : 2 * underflowUnit K 52 (-1022) * (c.iceDensity.1 * exactTotal waterOf g6.nodes) ≤ 1e-16 * exactTotal (massOf c) g6.nodes :=
      mul_le_mul hη' a1 a0 (by norm_num)
    have b6 : 2 * underflowUnit K 52 (-1022) * (c.iceDensity.1 * exactTotal thickOf g6.nodes) ≤ 2 * underflowUnit K 52 (-1022) * (2000 * 1000) :=
      mul_le_mul_of_nonneg_left a2 (by linarith)
    have e : 2 * underflowUnit K 52 (-1022) * (c.iceDensity.1 * (exactTotal thickOf g6.nodes + exactTotal waterOf g6.nodes)) =
      2 * underflowUnit K 52 (-1022) * (c.iceDensity.1 * exactTotal thickOf g6.nodes) +
        2 * underflowUnit K 52 (-1022) * (c.iceDensity.1 * exactTotal waterOf g6.nodes) := by ring
    rw [e] at b4
    have b7 : 2 * underflowUnit K 52 (-1022) * (2000 * 1000) ≤ (2 : K) ^ (-1000 : ℤ) := by
      rw [show 2 * underflowUnit K 52 (-1022) * (2000 * 1000) = underflowUnit K 52 (-1022) * (2 * (2000 * 1000) : K) by ring]
      exact a3
    have b8 := b6.trans b7
    clear a3 b7 b6 hη'
    generalize (2 : K) ^ (-1000 : ℤ) = t at *
    generalize 2 * underflowUnit K 52 (-1022) * (c.iceDensity.1 * exactTotal thickOf g6.nodes) = z1 at *
    generalize 2 * underflowUnit K 52 (-1022) * (c.iceDensity.1 * exactTotal waterOf g6.nodes) = z2 at *
    generalize exactTotal (massOf c) g6.nodes = M at *
    norm_num at b1 b5 ⊢
    linarith
  have p7' := p7.trans k7
  rw [m8]
  generalize exactTotal (massOf c) g7.nodes = M7 at *
  generalize exactTotal (massOf c) g6.nodes = M6 at *
  generalize exactTotal (massOf c) g5.nodes = M5 at *
  generalize exactTotal waterOf g6.nodes = W6 at *
  generalize exactTotal waterOf g5.nodes = W5 at *
  generalize exactTotal iceOf g5.nodes = I5 at *
  generalize c.waterDensity.1 = b at *
  generalize c.iceDensity.1 = a at *
  generalize (2 : K) ^ (-1000 : ℤ) = t at *
  generalize w.1 = w at *
  generalize q.1 = q at *
  have q1 := mul_le_mul_of_nonneg_left p6 hv
  rw [← abs_of_nonneg hv, ← abs_mul, abs_of_nonneg hv] at q1
  have e3 : b * (W6 + q - (W5 + w)) = M6 + b * q - (M5 + b * w) := by rw [e1, e2]; ring
  have e4 : b * (1e-12 * (W5 + w) + t) = 1e-12 * (b * W5) + 1e-12 * (b * w) + b * t := by ring
  rw [e3, e4] at q1
  have q3 : b * t ≤ 2000 * t := mul_le_mul_of_nonneg_right hsz ht.le
  have haI : 0 ≤ a * I5 := mul_nonneg hi hI
  have hbW : 0 ≤ b * W5 := mul_nonneg hv hW
  have hbw : 0 ≤ b * w := mul_nonneg hv hw0
  have hbq : 0 ≤ b * q := mul_nonneg hv hq
  have hM5 : b * W5 ≤ M5 := by rw [e1]; linarith
  obtain ⟨r1, r2⟩ := abs_le.1 q1
  obtain ⟨r3, r4⟩ := abs_le.1 p7'
  rw [abs_le]
  norm_num at r1 r2 r3 r4 ⊢
  constructor <;> linarith

/-- **C136.** A step in double precision, with logarithmic remeshing: there are a layer of fresh snow (or none), a top layer too thin to be kept
(or none) and the layers used up by penetrating radiation (none without sun), such that the mass of the column before densification and the
runoff are, up to 2·10⁻⁹ of the masses involved, the mass before, the fresh snow and the water given to percolation, less those layers and
what the removal of melt takes from the column. -/
theorem C136_step (hx : ExpSigns D) {sv : Solvers D} {fuel : ℕ} {c : Consts D} {r : RunCfg D} (hs : SignSane c r) (hc : Densities c)
    (hcos : c.densificationMethod = .vionnet → 0 ≤ Transc.cos r.slope) (hm : c.remeshMethod = .logProfile) (h0 : 0 < c.firstLayerHeight) (h1 : 1 ≤ c.layerStretching)
    {s s' : SimState D} {f : Forcing D} {o : StepOut D} (hw : s.grid.WF) (hg : CappedColumn s.grid)
    (hpos : ∀ n ∈ s.grid.nodes, 0 < n.height) (hρ : o.densityFreshSnow ≤ c.iceDensity)
    (hN : s.grid.nodes.length + 1 + 10 * ((exactTotal thickOf s.grid.nodes + o.snowfall.1) / c.firstLayerHeight.1) ≤ 1000000)
    (hT : exactTotal thickOf s.grid.nodes + o.snowfall.1 ≤ 1000000) (h : step sv fuel c r s f = .ok (s', o)) :
    ∃ (st : StepStages sv fuel c r s f s' o) (fresh thin burnt : List (Node D)),
      (fresh = [] ∨ ∃ n : Node D, fresh = [n] ∧ n.height = o.snowfall ∧ n.lwc = 0) ∧
      (thin = [] ∨ ∃ n : Node D, thin = [n] ∧ n.height < c.minimumSnowLayerHeight) ∧
      burnt.Sublist st.g2.nodes ∧ (f.g ≤ 0 → burnt = []) ∧
      (SmallColumn st.g2 → SmallColumn st.g5 → (∀ n ∈ st.g5.nodes, 0 < n.height ∧ NotAbsurdlyCold c n) →
        |exactTotal (massOf c) st.g8.nodes + c.waterDensity.1 * o.q.1
          - (exactTotal (massOf c) s.grid.nodes + exactTotal (massOf c) fresh - exactTotal (massOf c) thin - exactTotal (massOf c) burnt
              - (exactTotal (massOf c) st.g4.nodes - exactTotal (massOf c) st.g5.nodes)
              + c.waterDensity.1 * (o.melt + o.condensation + o.rain / 1000.0 + o.lwcFromLayers).1)| ≤
          2e-9 * (exactTotal (massOf c) s.grid.nodes + exactTotal (massOf c) fresh + exactTotal (massOf c) st.g5.nodes
            + c.waterDensity.1 * (o.melt + o.condensation + o.rain / 1000.0 + o.lwcFromLayers).1) + 10000 * 2 ^ (-1000 : ℤ)) := by
  obtain ⟨⟨st, hcap⟩, _⟩ := C115_step hx hs hg hρ h
  obtain ⟨so, _⟩ := C81_step hx hs hcos (fun n hn => ⟨(hg.layers n hn).height, (hg.layers n hn).ice, (hg.layers n hn).water⟩) h
  have ws := st.wfs hw
  have solid : ∀ n ∈ s.grid.nodes, SolidLayer n := fun n hn => ⟨hpos n hn, (hg.layers n hn).ice, (hg.layers n hn).water⟩
  have cap0 : (applySnowfall c r.dt s.grid o.snowfall o.densityFreshSnow f.t2).Capped :=
    applySnowfall_capped hs.ice hs.air so.rho hρ hg.layers
  -- fresh snow
  have hfresh : ∃ fresh : List (Node _), (applySnowfall c r.dt s.grid o.snowfall o.densityFreshSnow f.t2).nodes = fresh ++ s.grid.nodes ∧
      (fresh = [] ∨ ∃ n : Node _, fresh = [n] ∧ n.height = o.snowfall ∧ n.lwc = 0) ∧ (∀ n ∈ fresh, 0 < n.height) := by
    unfold applySnowfall
    split_ifs with hsn
    · refine ⟨[Node.new c o.snowfall o.densityFreshSnow (pyMin f.t2 c.zeroTemperature) 0 none], ?_, .inr ⟨_, rfl, rfl, rfl⟩, ?_⟩
      · have e : pyInsert s.grid.nodes 0 (Node.new c o.snowfall o.densityFreshSnow (pyMin f.t2 c.zeroTemperature) 0 none) =
            Node.new c o.snowfall o.densityFreshSnow (pyMin f.t2 c.zeroTemperature) 0 none :: s.grid.nodes := by simp [pyInsert]
        unfold Grid.addFreshSnow
        split_ifs <;> exact e
      · intro n hn
        rw [List.mem_singleton] at hn; subst hn
        exact hsn
    · exact ⟨[], rfl, .inl rfl, by simp⟩
  obtain ⟨fresh, ef, hf1, hf2⟩ := hfresh
  have solid0 : ∀ n ∈ (applySnowfall c r.dt s.grid o.snowfall o.densityFreshSnow f.t2).nodes, SolidLayer n := by
    intro n hn
    have hc0 := cap0 n hn
    refine ⟨?_, hc0.ice, hc0.water⟩
    rw [ef] at hn
    rcases List.mem_append.1 hn with hn | hn
    · exact hf2 n hn
    · exact hpos n hn
  have hlen : (applySnowfall c r.dt s.grid o.snowfall o.densityFreshSnow f.t2).nodes.length ≤ s.grid.nodes.length + 1 ∧
      exactTotal thickOf (applySnowfall c r.dt s.grid o.snowfall o.densityFreshSnow f.t2).nodes ≤
        exactTotal thickOf s.grid.nodes + o.snowfall.1 := by
    rw [ef]
    have hsn : (0 : K) ≤ o.snowfall.1 := so.snowfall
    rcases hf1 with e | ⟨n, e, eh, _⟩
    · rw [e]; simpa using hsn
    · rw [e]
      refine ⟨by simp, ?_⟩
      rw [exactTotal_append, exactTotal_cons, exactTotal_nil]
      unfold thickOf
      rw [eh]; linarith
  have hfl : (0 : K) < c.firstLayerHeight.1 := h0
  obtain ⟨thin, ht1, ht2, ht4, ht3⟩ := remesh_mass hc hm ws.w0 solid0 h0 h1 (by
      have a1 : ((applySnowfall c r.dt s.grid o.snowfall o.densityFreshSnow f.t2).nodes.length : K) ≤ s.grid.nodes.length + 1 := by
        exact_mod_cast hlen.1
      have a2 := div_le_div_of_nonneg_right hlen.2 hfl.le
      linarith) (hlen.2.trans hT) st.remesh
  -- albedo
  have e2 : st.g2.nodes = st.g1.nodes := (C123_albedo st.albedo).1
  have solid1 : ∀ n ∈ st.g1.nodes, SolidLayer n := ht4
  have solid2 : ∀ n ∈ st.g2.nodes, SolidLayer n ∧ n.iceFraction ≤ 1 := fun n hn =>
    ⟨solid1 n (e2 ▸ hn), ((hcap st.g2 (by simp)).layers n hn).full⟩
  have hswn : f.g ≤ 0 → ¬ 0 < pyMax f.g 0 * (1 - o.albedo) := by
    intro hf0
    have : pyMax f.g 0 = 0 := by
      unfold pyMax
      split_ifs with hlt
      · rfl
      · exact le_antisymm hf0 (not_lt.1 hlt)
    rw [this, Rounded.zero_mul]
    exact lt_irrefl _
  have hrad : ∃ burnt : List (Node D), burnt.Sublist st.g2.nodes ∧ (f.g ≤ 0 → burnt = []) ∧
      (SmallColumn st.g2 → |exactTotal (massOf c) st.g3.nodes + exactTotal (massOf c) burnt - exactTotal (massOf c) st.g2.nodes| ≤
        3e-15 * exactTotal (massOf c) st.g2.nodes + 2 ^ (-1000 : ℤ)) := by
    by_cases hsm : SmallColumn st.g2
    · obtain ⟨burnt, b1, b2, _, b4⟩ := radiation_mass hc solid2 hsm st.radiation
      exact ⟨burnt, b1, fun hf0 => b2 (hswn hf0), fun _ => b4⟩
    · exact ⟨[], List.nil_sublist _, fun _ => rfl, fun hh => absurd hh hsm⟩
  obtain ⟨burnt, hb1, hb2, hb3⟩ := hrad
  refine ⟨st, fresh, thin, burnt, hf1, ht1, hb1, hb2, fun s2 s5 h5 => ?_⟩
  have hb3 := hb3 s2
  have w4 := C123_surface ws.w3 st.surface
  have m4 : exactTotal (massOf c) st.g4.nodes = exactTotal (massOf c) st.g3.nodes :=
    exactTotal_massOf_congr c (w4.1.values ws.w3 ws.w4 (p := .height) (by simp)) (w4.1.values ws.w3 ws.w4 (p := .ice) (by simp))
      (w4.1.values ws.w3 ws.w4 (p := .water) (by simp))
  have cap5 := (hcap st.g5 (by simp)).layers
  have cap6 := (hcap st.g6 (by simp)).layers
  have hin : 0 ≤ o.melt + o.condensation + o.rain / 1000.0 + o.lwcFromLayers :=
    Rounded.add_nonneg (Rounded.add_nonneg (Rounded.add_nonneg so.melt so.condensation)
      (Rounded.div_nonneg so.rain (Rounded.lit_nonneg _ _ _))) so.freed
  have hint := C136_interior hc ws.w5 (fun n hn => ⟨⟨(h5 n hn).1, (cap5 n hn).ice, (cap5 n hn).water⟩, (h5 n hn).2⟩) s5 hin
    (fun n hn => ⟨(cap6 n hn).ice, (cap6 n hn).water⟩) st.perc st.refr st.heat
  have hi0 := hc.signs.ice.le
  have hv0 := hc.signs.water
  have n0 : 0 ≤ exactTotal (massOf c) s.grid.nodes := exactTotal_nonneg _ fun n hn => massOf_nonneg hi0 hv0 (solid n hn)
  have nf : 0 ≤ exactTotal (massOf c) fresh := exactTotal_nonneg _ fun n hn => massOf_nonneg hi0 hv0 (solid0 n (by rw [ef]; simp [hn]))
  have nt : 0 ≤ exactTotal (massOf c) thin := exactTotal_nonneg _ fun n hn => massOf_nonneg hi0 hv0 (ht2 n hn)
  have n5 : 0 ≤ exactTotal (massOf c) st.g5.nodes := exactTotal_nonneg _ fun n hn => massOf_nonneg hi0 hv0
    ⟨(h5 n hn).1, (cap5 n hn).ice, (cap5 n hn).water⟩
  have nw : 0 ≤ c.waterDensity.1 * (o.melt + o.condensation + o.rain / 1000.0 + o.lwcFromLayers).1 := mul_nonneg hv0 hin
  rw [ef, exactTotal_append] at ht3
  rw [e2] at hb3
  rw [m4]
  have tp := tiny_pos (K := K)
  generalize exactTotal (massOf c) st.g8.nodes = M8 at *
  generalize exactTotal (massOf c) st.g5.nodes = M5 at *
  generalize exactTotal (massOf c) st.g3.nodes = M3 at *
  generalize exactTotal (massOf c) st.g1.nodes = M1 at *
  generalize exactTotal (massOf c) s.grid.nodes = M0 at *
  generalize exactTotal (massOf c) fresh = Mf at *
  generalize exactTotal (massOf c) thin = Mt at *
  generalize exactTotal (massOf c) burnt = Mb at *
  generalize c.waterDensity.1 * (o.melt + o.condensation + o.rain / 1000.0 + o.lwcFromLayers).1 = w at *
  generalize c.waterDensity.1 * o.q.1 = q at *
  generalize (2 : K) ^ (-1000 : ℤ) = t at *
  clear hN hT hlen
  obtain ⟨r1, r2⟩ := abs_le.1 ht3
  obtain ⟨r3, r4⟩ := abs_le.1 hb3
  obtain ⟨r5, r6⟩ := abs_le.1 hint
  rw [abs_le]
  norm_num at r1 r2 r3 r4 r5 r6 ⊢
  constructor <;> linarith


/-- At constant density the column of `C136_step` is the one the step returns, and that no layer is left with thickness zero and the size
of the column can be read off there. -/
theorem C136_constant (hx : ExpSigns D) {sv : Solvers D} {fuel : ℕ} {c : Consts D} {r : RunCfg D} (hs : SignSane c r) (hc : Densities c)
    (hd : c.densificationMethod = .constant) (hm : c.remeshMethod = .logProfile) (h0 : 0 < c.firstLayerHeight) (h1 : 1 ≤ c.layerStretching)
    {s s' : SimState D} {f : Forcing D} {o : StepOut D} (hw : s.grid.WF) (hg : CappedColumn s.grid)
    (hpos : ∀ n ∈ s.grid.nodes, 0 < n.height) (hρ : o.densityFreshSnow ≤ c.iceDensity)
    (hN : s.grid.nodes.length + 1 + 10 * ((exactTotal thickOf s.grid.nodes + o.snowfall.1) / c.firstLayerHeight.1) ≤ 1000000)
    (hT : exactTotal thickOf s.grid.nodes + o.snowfall.1 ≤ 1000000) (h : step sv fuel c r s f = .ok (s', o))
    (hpos' : ∀ n ∈ s'.grid.nodes, 0 < n.height) (hsm : SmallColumn s'.grid) :
    ∃ (st : StepStages sv fuel c r s f s' o) (fresh thin burnt : List (Node D)),
      (fresh = [] ∨ ∃ n : Node D, fresh = [n] ∧ n.height = o.snowfall ∧ n.lwc = 0) ∧
      (thin = [] ∨ ∃ n : Node D, thin = [n] ∧ n.height < c.minimumSnowLayerHeight) ∧
      burnt.Sublist st.g2.nodes ∧ (f.g ≤ 0 → burnt = []) ∧
      (SmallColumn st.g2 → (∀ n ∈ st.g5.nodes, NotAbsurdlyCold c n) →
        |exactTotal (massOf c) s'.grid.nodes + c.waterDensity.1 * o.q.1
          - (exactTotal (massOf c) s.grid.nodes + exactTotal (massOf c) fresh - exactTotal (massOf c) thin - exactTotal (massOf c) burnt
              - (exactTotal (massOf c) st.g4.nodes - exactTotal (massOf c) st.g5.nodes)
              + c.waterDensity.1 * (o.melt + o.condensation + o.rain / 1000.0 + o.lwcFromLayers).1)| ≤
          2e-9 * (exactTotal (massOf c) s.grid.nodes + exactTotal (massOf c) fresh + exactTotal (massOf c) st.g5.nodes
            + c.waterDensity.1 * (o.melt + o.condensation + o.rain / 1000.0 + o.lwcFromLayers).1) + 10000 * 2 ^ (-1000 : ℤ)) := by
  obtain ⟨st, fresh, thin, burnt, a1, a2, a3, a4, a5⟩ :=
    C136_step hx hs hc (by rw [hd]; simp) hm h0 h1 hw hg hpos hρ hN hT h
  refine ⟨st, fresh, thin, burnt, a1, a2, a3, a4, fun b1 b2 => ?_⟩
  have ws := st.wfs hw
  have e : s'.grid = st.g8 := by
    have := st.dens
    unfold densification at this
    rw [hd] at this
    exact (ok_inj.1 this).symm
  have e6 : st.g6.nodes.map Node.height = st.g5.nodes.map Node.height :=
    (C123_percolation ws.w5 st.perc).values ws.w5 ws.w6 (p := .height) (by simp)
  have e7 : st.g7.nodes.map Node.height = st.g6.nodes.map Node.height :=
    (C123_refreezing ws.w6 st.refr).1.values ws.w6 ws.w7 (p := .height) (by simp)
  have e8 : st.g8.nodes.map Node.height = st.g7.nodes.map Node.height :=
    (C123_conduction ws.w7 st.heat).values ws.w7 ws.w8 (p := .height) (by simp)
  have eh : st.g5.nodes.map Node.height = s'.grid.nodes.map Node.height := by rw [e, e8, e7, e6]
  have el : st.g5.nodes.length = s'.grid.nodes.length := by simpa using congrArg List.length eh
  have hp5 : ∀ n ∈ st.g5.nodes, 0 < n.height := map_forall (P := fun y => 0 < y) eh hpos'
  have := a5 b1 ⟨by rw [el]; exact hsm.1, by rw [exactTotal_thick_congr eh]; exact hsm.2⟩ (fun n hn => ⟨hp5 n hn, b2 n hn⟩)
  rw [e]
  exact this

/-- The conditions of `C136_constant` along a run: columns of ordinary size, no layer without thickness, no layer colder than the latent heat
allows. -/
def OrdinaryRun (sv : Solvers D) (fuel : ℕ) (c : Consts D) (r : RunCfg D) : SimState D → List (Forcing D) → Prop
  | _, [] => True
  | s, f :: fs => ∀ (s1 : SimState D) (o : StepOut D) (st : StepStages sv fuel c r s f s1 o),
      s.grid.nodes.length + 1 + 10 * ((exactTotal thickOf s.grid.nodes + o.snowfall.1) / c.firstLayerHeight.1) ≤ 1000000 ∧
      exactTotal thickOf s.grid.nodes + o.snowfall.1 ≤ 1000000 ∧ SmallColumn st.g2 ∧ SmallColumn s1.grid ∧
      (∀ n ∈ st.g5.nodes, NotAbsurdlyCold c n) ∧ (∀ n ∈ s1.grid.nodes, 0 < n.height) ∧ OrdinaryRun sv fuel c r s1 fs

/-- What came and went in the steps of a run: `net` is the sum over the steps of fresh snow and the water given to percolation, minus top layers
too thin to be kept, layers used up by radiation, what melt and sublimation took and the runoff; `turnover` sums the masses of the columns,
of fresh snow and of that water. -/
inductive Booked (sv : Solvers D) (fuel : ℕ) (c : Consts D) (r : RunCfg D) :
    SimState D → List (Forcing D) → SimState D → List (StepOut D) → K → K → Prop
  | nil (s : SimState D) : Booked sv fuel c r s [] s [] 0 0
  | cons {s s1 s' : SimState D} {f : Forcing D} {fs : List (Forcing D)} {o : StepOut D} {os : List (StepOut D)} {net turnover : K}
      (st : StepStages sv fuel c r s f s1 o) (fresh thin burnt : List (Node D))
      (hfresh : fresh = [] ∨ ∃ n : Node D, fresh = [n] ∧ n.height = o.snowfall ∧ n.lwc = 0)
      (hthin : thin = [] ∨ ∃ n : Node D, thin = [n] ∧ n.height < c.minimumSnowLayerHeight)
      (hburnt : burnt.Sublist st.g2.nodes) (hdark : f.g ≤ 0 → burnt = [])
      (rest : Booked sv fuel c r s1 fs s' os net turnover) :
      Booked sv fuel c r s (f :: fs) s' (o :: os)
        (exactTotal (massOf c) fresh - exactTotal (massOf c) thin - exactTotal (massOf c) burnt
          - (exactTotal (massOf c) st.g4.nodes - exactTotal (massOf c) st.g5.nodes)
          + c.waterDensity.1 * (o.melt + o.condensation + o.rain / 1000.0 + o.lwcFromLayers).1 - c.waterDensity.1 * o.q.1 + net)
        (exactTotal (massOf c) s.grid.nodes + exactTotal (massOf c) fresh + exactTotal (massOf c) st.g5.nodes
          + c.waterDensity.1 * (o.melt + o.condensation + o.rain / 1000.0 + o.lwcFromLayers).1 + turnover)

/-- **C136, whole runs.** In double precision, at constant density, the mass of the column after any number of steps is the initial
mass plus what came minus what went, up to 2e-9 of the turnover. -/
theorem C136_run (hx : ExpSigns D) {sv : Solvers D} {fuel : ℕ} {c : Consts D} {r : RunCfg D} (hs : SignSane c r) (hc : Densities c)
    (hd : c.densificationMethod = .constant) (hm : c.remeshMethod = .logProfile) (h0 : 0 < c.firstLayerHeight) (h1 : 1 ≤ c.layerStretching)
    (hρ : c.constantDensity ≤ c.iceDensity) :
    ∀ (fs : List (Forcing D)) {s s' : SimState D} {os : List (StepOut D)}, s.grid.WF → CappedColumn s.grid →
      (∀ n ∈ s.grid.nodes, 0 < n.height) → OrdinaryRun sv fuel c r s fs → run sv fuel c r s fs = .ok (s', os) →
      ∃ net turnover, Booked sv fuel c r s fs s' os net turnover ∧
        |exactTotal (massOf c) s'.grid.nodes - (exactTotal (massOf c) s.grid.nodes + net)| ≤
          2e-9 * turnover + fs.length * (10000 * 2 ^ (-1000 : ℤ)) := by
  intro fs
  induction fs with
  | nil =>
    intro s s' os _ _ _ _ h
    rw [run] at h; cases h
    exact ⟨0, 0, .nil _, by simp⟩
  | cons f fs ih =>
    intro s s' os hw hg hpos hr h
    obtain ⟨s1, o1, os1, hs1, hs2, rfl⟩ := run_cons h
    obtain ⟨st0⟩ := step_stages hs1
    have hρ1 : o1.densityFreshSnow ≤ c.iceDensity := by
      rw [st0.rho]; unfold freshSnowDensity; rw [hd]; exact hρ
    obtain ⟨b1, b2, _, b4, _, b6, _⟩ := hr s1 o1 st0
    obtain ⟨st, fresh, thin, burnt, a1, a2, a3, a4, a5⟩ :=
      C136_constant hx hs hc hd hm h0 h1 hw hg hpos hρ1 b1 b2 hs1 b6 b4
    obtain ⟨_, _, c3, _, c5, _, c7⟩ := hr s1 o1 st
    obtain ⟨net, turnover, hb, he⟩ := ih (st.wfs hw).w9 ((C115_step hx hs hg hρ1 hs1).2.1 hd) b6 c7 hs2
    refine ⟨_, _, .cons st fresh thin burnt a1 a2 a3 a4 hb, ?_⟩
    have e := a5 c3 c5
    push_cast [List.length_cons]
    generalize (2 : K) ^ (-1000 : ℤ) = t at *
    rw [abs_le] at e he ⊢
    constructor <;> linarith [e.1, e.2, he.1, he.2]

end

/-! ## Non-vacuity -/

section
attribute [local instance] exTransc

theorem densitiesD : Densities (K := ℚ) exConstD where
  signs := ⟨by decide +kernel, by decide +kernel, by decide +kernel, by decide +kernel, by decide +kernel⟩
  order := by decide +kernel
  size := by decide +kernel

/-- The columns of the stages `g2` and `g5` of a step, as `step` computes them. -/
def stagesD (c : Consts D) (r : RunCfg D) (s : SimState D) (f : Forcing D) : M (Grid D × Grid D) := do
  let rho := freshSnowDensity c f
  let sr ← precipitation c f rho
  let (snowfall, rain) := thresholdPrecip c rho sr
  let g ← (applySnowfall c r.dt s.grid snowfall rho f.t2).updateGrid 4000 c
  let (g2, alpha, _) ← updateAlbedo c g s.surfaceTemperature s.albedoSnow
  let z0 ← updateRoughness c g2
  let swnet := pyMax f.g 0 * (1 - alpha)
  let (g, _, gPen) ← radiationStep c g2 swnet r.dt
  let (g, ts, fl) ← updateSurfaceTemperature exSolversD c r.wrf g
    (fun tz1 tz2 => ⟨r.dt, r.z, z0, f.t2, f.rh2, f.pres, f.u2, rain, r.slope, tz1, tz2, f.lwin, f.n⟩) (swnet - gPen)
  let v := vapourFluxes c r.dt ts fl.le
  let melt := meltEnergy (swnet - gPen) fl * r.dt / (1000 * c.latHeatMelting)
  let (g5, _) ← g.removeMeltWeq 4000 c (melt - v.sublimation - v.deposition)
  return (g2, g5)

theorem stagesD_eq {c : Consts D} {r : RunCfg D} {s s1 : SimState D} {f : Forcing D} {o : StepOut D}
    (st : StepStages exSolversD 4000 c r s f s1 o) : stagesD c r s f = .ok (st.g2, st.g5) := by
  unfold stagesD
  rw [← st.rho]
  simp only [st.precip, ok_bind, ← st.snowfall, ← st.rain, st.remesh, st.albedo, st.roughness, st.radiation, ← st.swnet,
    st.surface, st.vapour, ← st.meltEnergy, ← st.melt, st.removal]
  rfl

theorem saneConstD : SignSane exConstD exCfgD := by
  have h := signSane_default (binary64 ℚ) (r := exCfgD) (by decide +kernel)
  exact ⟨h.water, h.ice, h.air, h.airLow, h.airConst, h.melt, h.vap, h.subl, h.cIce, h.first, h.stretch, h.snowMin, h.dt⟩

set_option maxRecDepth 100000 in
/-- The hour with snowfall of C115: the columns before radiation and after the melt are small, their layers have a positive thickness and are
not absurdly cold. -/
theorem exStagesD : ((stagesD exConstD exCfgD (initState exConstD false exGridD) exSnowD).toOption.map fun x =>
    (decide (x.1.nodes.length ≤ 1000 ∧ exactTotal (K := ℚ) thickOf x.1.nodes ≤ 1000),
      decide (x.2.nodes.length ≤ 1000 ∧ exactTotal (K := ℚ) thickOf x.2.nodes ≤ 1000),
      decide (∀ n ∈ x.2.nodes, 0 < n.height ∧
        (n.temperature - exConstD.zeroTemperature) * (exConstD.specHeatIce - exConstD.specHeatWater) ≤ exConstD.latHeatMelting))) =
      some (true, true, true) := by decide +kernel

set_option maxRecDepth 100000 in
theorem exStepConstD : ((step exSolversD 4000 exConstD exCfgD (initState exConstD false exGridD) exSnowD).toOption.map
    fun x => (decide (x.2.densityFreshSnow ≤ exConstD.iceDensity), decide (0 < x.2.snowfall ∧ x.2.snowfall.1 ≤ 1),
      decide (x.1.grid.nodes.length ≤ 1000 ∧ exactTotal (K := ℚ) thickOf x.1.grid.nodes ≤ 1000), decide (∀ n ∈ x.1.grid.nodes, 0 < n.height))) =
      some (true, true, true, true) := by decide +kernel

theorem exStepFactsD {s1 : SimState D} {o : StepOut D}
    (h : step exSolversD 4000 exConstD exCfgD (initState exConstD false exGridD) exSnowD = .ok (s1, o)) :
    (0 < o.snowfall ∧ o.snowfall.1 ≤ 1) ∧ (s1.grid.nodes.length ≤ 1000 ∧ exactTotal (K := ℚ) thickOf s1.grid.nodes ≤ 1000) ∧
      ∀ n ∈ s1.grid.nodes, 0 < n.height := by
  have hv := exStepConstD
  rw [h] at hv
  simp only [Except.toOption, Option.map_some, Option.some.injEq, Prod.mk.injEq, decide_eq_true_eq] at hv
  exact hv.2

theorem exStageFactsD {g2 g5 : Grid D} (h : stagesD exConstD exCfgD (initState exConstD false exGridD) exSnowD = .ok (g2, g5)) :
    (g2.nodes.length ≤ 1000 ∧ exactTotal (K := ℚ) thickOf g2.nodes ≤ 1000) ∧ ∀ n ∈ g5.nodes, NotAbsurdlyCold exConstD n := by
  have hu := exStagesD
  rw [h] at hu
  simp only [Except.toOption, Option.map_some, Option.some.injEq, Prod.mk.injEq, decide_eq_true_eq] at hu
  exact ⟨hu.1, fun n hn => (hu.2.2 n hn).2⟩

theorem exOrdinaryD : OrdinaryRun (K := ℚ) exSolversD 4000 exConstD exCfgD (initState exConstD false exGridD) [exSnowD] := by
  intro s1 o st
  obtain ⟨v2, v3, v4⟩ := exStepFactsD (StepStages.step st)
  obtain ⟨u1, u3⟩ := exStageFactsD (stagesD_eq st)
  have hfl : (0.009 : ℚ) ≤ exConstD.firstLayerHeight.1 := by decide +kernel
  have e0 : exactTotal (K := ℚ) thickOf exGridD.nodes ≤ 2 := by decide +kernel
  have e1 : exactTotal (K := ℚ) thickOf exGridD.nodes + o.snowfall.1 ≤ 3 := by linarith [v2.2]
  have e2 : (exactTotal (K := ℚ) thickOf exGridD.nodes + o.snowfall.1) / exConstD.firstLayerHeight.1 ≤ 1000 := by
    rw [div_le_iff₀ (by linarith)]; linarith
  refine ⟨?_, ?_, u1, v3, u3, v4, trivial⟩
  · have : (exGridD.nodes.length : ℚ) = 4 := by decide +kernel
    show (exGridD.nodes.length : ℚ) + 1 + 10 * ((exactTotal (K := ℚ) thickOf exGridD.nodes + o.snowfall.1) / exConstD.firstLayerHeight.1) ≤ 1000000
    rw [this]; linarith
  · show exactTotal (K := ℚ) thickOf exGridD.nodes + o.snowfall.1 ≤ 1000000
    linarith

/-- The hour with snowfall in double precision: `C136_run`, and with it `C136_step`, `C136_constant` and `C136_interior`, apply. -/
example : ∃ s' os, run exSolversD 4000 exConstD exCfgD (initState exConstD false exGridD) [exSnowD] = .ok (s', os) ∧
    ∃ net turnover : ℚ, Booked (K := ℚ) exSolversD 4000 exConstD exCfgD (initState exConstD false exGridD) [exSnowD] s' os net turnover ∧
      |exactTotal (K := ℚ) (massOf exConstD) s'.grid.nodes - (exactTotal (K := ℚ) (massOf exConstD) exGridD.nodes + net)| ≤
        2e-9 * turnover + 1 * (10000 * 2 ^ (-1000 : ℤ)) := by
  rcases hr : run exSolversD 4000 exConstD exCfgD (initState exConstD false exGridD) [exSnowD] with e | ⟨s', os⟩
  · have := exRunConstD; rw [hr] at this; cases this
  · obtain ⟨net, turnover, hb, he⟩ := C136_run (K := ℚ) expSignsD saneConstD densitiesD rfl rfl (by decide +kernel) (by decide +kernel) (by decide +kernel)
      [exSnowD] (s := initState exConstD false exGridD) rfl exGridD_capped (by decide +kernel) exOrdinaryD hr
    refine ⟨s', os, rfl, net, turnover, hb, ?_⟩
    have e : (([exSnowD].length : ℕ) : ℚ) = 1 := by simp
    generalize (10000 * 2 ^ (-1000 : ℤ) : ℚ) = t at he ⊢
    exact he.trans (le_of_eq (congrArg (fun y : ℚ => 2e-9 * turnover + y * t) e))

end
end Cosipy
