import Verif.Lemmas.Init
import Verif.Spec.Trunc
import Verif.Spec.Column
import Verif.Props.C40
import Verif.Model.Nan
import Mathlib.Algebra.Field.Rat
import Mathlib.Algebra.Order.Ring.Unbundled.Rat

/-!
# C39 The initial snowpack is well formed

Everything holds except the density part: layers report slightly more than the density they are created with (C40), so
the lowest snow layer reports more than the configured bottom density (`C39_density_refuted`).
`C39_snowpack_partial` states the densities exactly instead.
-/

set_option autoImplicit false
set_option linter.unusedSectionVars false

namespace Cosipy
section
variable {K : Type} [Field K] [LinearOrder K] [IsStrictOrderedRing K]

/-- `x` lies between `a` and `b`, in whatever order they are. -/
def BetweenEnds (a b x : K) : Prop := min a b ≤ x ∧ x ≤ max a b

/-- A point on the straight line from `a` (at 0) to `b` (at `L`). -/
theorem between_linear {a b L x : K} (hL : 0 < L) (h0 : 0 ≤ x) (h1 : x ≤ L) : BetweenEnds b a (a - (a - b) / L * x) := by
  have hr0 : 0 ≤ x / L := by positivity
  have hr1 : x / L ≤ 1 := by rw [div_le_one hL]; exact h1
  have e : a - (a - b) / L * x = a - (a - b) * (x / L) := by field_simp
  rw [e]
  unfold BetweenEnds
  rcases le_total a b with h | h
  · rw [min_eq_right h, max_eq_left h]
    constructor <;> nlinarith
  · rw [min_eq_left h, max_eq_right h]
    constructor <;> nlinarith

variable [HasTrunc K]

/-- Initial snow height used: the given one, else the configured one. -/
def initialSnow (c : Consts K) : Option K → K
  | some h => h
  | none => c.initialSnowheightConstant

/-- The ice layers of the initial column: `k` layers of equal height on a linear temperature profile. -/
def iceLayers (c : Consts K) (t dT : K) (k : Nat) : List (K × K × K) :=
  (List.range k).map fun i => (c.initialGlacierLayerHeights, c.iceDensity,
    t - dT * c.initialGlacierLayerHeights * ((i + 1 : Nat) : K))

/-- The snow layers of the initial column. -/
def snowLayers (c : Consts K) (H t dT : K) (k : Nat) : List (K × K × K) :=
  if k = 0 then [(H, c.initialTopDensitySnowpack, t)]
  else (List.range k).map fun i => (H / (k : K),
    c.initialTopDensitySnowpack - (c.initialTopDensitySnowpack - c.initialBottomDensitySnowpack) / H * (H / (k : K)) *
      ((i + 1 : Nat) : K), t - dT * (H / (k : K)) * ((i + 1 : Nat) : K))

/-- Layers created from triples of height, density and temperature. -/
def mkLayers (c : Consts K) (xs : List (K × K × K)) : List (Node K) :=
  xs.map fun x => Node.new c x.1 x.2.1 x.2.2 0 none

theorem createGrid_layers (c : Consts K) (xs : List (K × K × K)) :
    createGrid c (xs.map fun x => x.1) (xs.map fun x => x.2.1) (xs.map fun x => x.2.2) (List.replicate xs.length 0)
      none none none none = .ok ⟨mkLayers c xs, xs.length, 0, 0, 0⟩ := by
  rw [createGrid_eq]
  have : List.replicate xs.length (0 : K) = xs.map fun _ => 0 := (List.map_const' ..).symm
  rw [this, Grid.new_map]
  rfl

theorem linearProfile_eq (c : Consts K) (t dT : K) (k : Nat) :
    linearProfile t dT c.initialGlacierLayerHeights k = (iceLayers c t dT k).map fun x => x.2.2 := by
  unfold linearProfile iceLayers
  rw [List.map_map]
  rfl

theorem replicate_eq_map_range {β : Type} (k : Nat) (x : β) : List.replicate k x = (List.range k).map fun _ => x := by
  rw [List.map_const', List.length_range]

/-- The column `init_snowpack` creates when there is snow. -/
theorem initSnowpack_snow (ht : TruncSpec K) {c : Consts K} {sh : Option K} {t2 : K}
    (hI : 0 < c.initialGlacierLayerHeights) (hG : 0 ≤ c.initialGlacierHeight) (hs : 0 < initialSnow c sh) :
    ∃ (k kI : Nat) (tl : K), (HasTrunc.trunc (min (initialSnow c sh / (1/10)) 5) : Int) = k ∧
      (HasTrunc.trunc (c.initialGlacierHeight / c.initialGlacierLayerHeights) : Int) = kI ∧
      tl = (if k = 0 then min t2 c.zeroTemperature else min t2 c.zeroTemperature -
        (min t2 c.zeroTemperature - c.temperatureBottom) / (initialSnow c sh + c.initialGlacierHeight) *
          initialSnow c sh) ∧
      initSnowpack c sh t2 = .ok ⟨mkLayers c (snowLayers c (initialSnow c sh) (min t2 c.zeroTemperature)
          ((min t2 c.zeroTemperature - c.temperatureBottom) / (initialSnow c sh + c.initialGlacierHeight)) k ++
        iceLayers c tl
          ((min t2 c.zeroTemperature - c.temperatureBottom) / (initialSnow c sh + c.initialGlacierHeight)) kI),
        ((if k = 0 then 1 else k) + kI : Nat), 0, 0, 0⟩ := by
  have hn0 : 0 ≤ c.initialGlacierHeight / c.initialGlacierLayerHeights := by positivity
  have hkI := ht.nonneg hn0
  obtain ⟨kI, hkI'⟩ := Int.eq_ofNat_of_zero_le hkI
  have hm0 : 0 ≤ min (initialSnow c sh / (1/10)) 5 := le_min (by positivity) (by norm_num)
  have hk := ht.nonneg hm0
  obtain ⟨k, hk'⟩ := Int.eq_ofNat_of_zero_le hk
  refine ⟨k, kI, _, hk', hkI', rfl, ?_⟩
  have hsm : initialSnowheight c sh = initialSnow c sh := by
    cases sh <;> simp [initialSnow, initialSnowheight]
  have e01 : (0.1 : K) = 1 / 10 := by norm_num
  unfold initSnowpack
  simp only [hsm, pyMin_eq, e01, hk', hkI']
  rw [if_neg (by simp), if_pos hs]
  generalize min t2 c.zeroTemperature = t
  generalize hH : initialSnow c sh = H at *
  generalize (t - c.temperatureBottom) / (H + c.initialGlacierHeight) = dT
  by_cases h0 : k = 0
  · subst h0
    simp only [Nat.cast_zero, if_true, Int.toNat_natCast]
    have e : pyGet [t] (-1) = .ok t := rfl
    rw [e, ok_bind, linearProfile_eq, replicate_eq_map_range kI, replicate_eq_map_range kI]
    have := createGrid_layers c (snowLayers c H t dT 0 ++ iceLayers c t dT kI)
    simp only [snowLayers, if_true, List.map_append, List.map_cons, List.map_nil, List.length_append, List.length_cons,
      List.length_nil] at this
    simp only [snowLayers, if_true, List.length_cons, List.length_nil]
    convert this using 3 <;> simp [iceLayers, Function.comp_def]
  · have hk0 : ((k : Nat) : Int) ≠ 0 := by exact_mod_cast h0
    have hkK : (k : K) ≠ 0 := by exact_mod_cast h0
    simp only [if_neg hk0, if_neg h0, Int.toNat_natCast]
    have e : pyGet (linearProfile t dT (H / (k : K)) k) (-1) = .ok (t - dT * H) := by
      rw [pyGet_eq_ok]
      refine ⟨k - 1, ?_, ?_⟩
      · have hl : (linearProfile t dT (H / (k : K)) k).length = k := by simp [linearProfile]
        rw [hl]
        unfold normIdx
        split_ifs <;> first | omega | (simp; omega)
      · unfold linearProfile
        rw [List.getElem?_map, List.getElem?_range (by omega)]
        simp only [Option.map_some, Nat.sub_add_cancel (Nat.one_le_iff_ne_zero.2 h0)]
        congr 1
        field_simp
    rw [e, ok_bind, linearProfile_eq, replicate_eq_map_range kI, replicate_eq_map_range kI]
    have := createGrid_layers c (snowLayers c H t dT k ++ iceLayers c (t - dT * H) dT kI)
    simp only [snowLayers, if_neg h0, List.map_append, List.length_append] at this
    simp only [snowLayers, if_neg h0]
    convert this using 3 <;> simp [iceLayers, linearProfile, Function.comp_def, List.map_const']

theorem sum_map_const {β : Type} (xs : List β) (h : K) : (xs.map fun _ => h).sum = (xs.length : K) * h := by
  rw [List.map_const', List.sum_replicate, nsmul_eq_mul]

theorem mkLayers_append (c : Consts K) (xs ys : List (K × K × K)) :
    mkLayers c (xs ++ ys) = mkLayers c xs ++ mkLayers c ys := List.map_append

theorem mkLayers_length (c : Consts K) (xs : List (K × K × K)) : (mkLayers c xs).length = xs.length := List.length_map _

theorem iceLayers_length (c : Consts K) (t dT : K) (k : Nat) : (iceLayers c t dT k).length = k := by simp [iceLayers]

theorem iceLayers_sum (c : Consts K) (t dT : K) (k : Nat) :
    ((mkLayers c (iceLayers c t dT k)).map Node.height).sum = (k : K) * c.initialGlacierLayerHeights := by
  unfold mkLayers iceLayers
  rw [List.map_map, List.map_map]
  have := sum_map_const (List.range k) c.initialGlacierLayerHeights
  rw [List.length_range] at this
  exact this

theorem snowLayers_length (c : Consts K) (H t dT : K) (k : Nat) :
    (snowLayers c H t dT k).length = if k = 0 then 1 else k := by
  unfold snowLayers
  split_ifs <;> simp

theorem snowLayers_sum (c : Consts K) (H t dT : K) (k : Nat) :
    ((mkLayers c (snowLayers c H t dT k)).map Node.height).sum = H := by
  unfold snowLayers mkLayers
  split_ifs with h0
  · simp [Node.new]
  · have hk : (k : K) ≠ 0 := by exact_mod_cast h0
    rw [List.map_map, List.map_map]
    have := sum_map_const (List.range k) (H / (k : K))
    rw [List.length_range] at this
    refine this.trans ?_
    field_simp

/-- The ice part of the column: equal layers of pure ice that fill the glacier height up to less than one layer. -/
structure IcePart (c : Consts K) (ice : List (Node K)) : Prop where
  le : (ice.map Node.height).sum ≤ c.initialGlacierHeight
  lt : c.initialGlacierHeight < (ice.map Node.height).sum + c.initialGlacierLayerHeights
  pure : ∀ n ∈ ice, n.height = c.initialGlacierLayerHeights ∧ n.iceFraction = 1

theorem icePart_mk (ht : TruncSpec K) {c : Consts K} (hc : c.Phys) (hI : 0 < c.initialGlacierLayerHeights)
    (hG : 0 ≤ c.initialGlacierHeight) {kI : Nat}
    (hk : (HasTrunc.trunc (c.initialGlacierHeight / c.initialGlacierLayerHeights) : Int) = kI) (t dT : K) :
    (kI : K) * c.initialGlacierLayerHeights ≤ c.initialGlacierHeight ∧ IcePart c (mkLayers c (iceLayers c t dT kI)) := by
  obtain ⟨h1, h2⟩ := ht (c.initialGlacierHeight / c.initialGlacierLayerHeights) (by positivity)
  rw [hk, Int.cast_natCast] at h1 h2
  rw [le_div_iff₀ hI] at h1
  rw [div_lt_iff₀ hI] at h2
  refine ⟨h1, ?_, ?_, ?_⟩
  · rw [iceLayers_sum]; exact h1
  · rw [iceLayers_sum]; linarith
  · intro n hn
    simp only [mkLayers, iceLayers, List.map_map, List.mem_map, Function.comp] at hn
    obtain ⟨i, _, rfl⟩ := hn
    have hi := hc.ice
    refine ⟨rfl, ?_⟩
    simp only [Node.new]
    rw [div_self hi.ne', sub_self, zero_mul, sub_zero, div_self hi.ne']

/-- **C39, with snow.** The column exists; its snow part adds up to the initial snow height in one to five layers (one
below 10 cm), its ice part fills the glacier height with pure ice, the column is dry, temperatures lie between bottom
temperature and the air temperature capped at the melting point, and each snow layer was created with a density between
the configured ones. Missing: reported densities between the configured ones, which is false. -/
theorem C39_snowpack_partial (ht : TruncSpec K) {c : Consts K} (hc : c.Phys) {sh : Option K} {t2 : K}
    (hI : 0 < c.initialGlacierLayerHeights) (hG : 0 ≤ c.initialGlacierHeight) (hs : 0 < initialSnow c sh)
    (hdt : c.initialTopDensitySnowpack ≤ c.iceDensity) (hdb : c.initialBottomDensitySnowpack ≤ c.iceDensity) :
    ∃ g snow ice, initSnowpack c sh t2 = .ok g ∧ g.WF ∧ g.nodes = snow ++ ice ∧
      (snow.map Node.height).sum = initialSnow c sh ∧ 1 ≤ snow.length ∧ snow.length ≤ 5 ∧
      (initialSnow c sh < 1/10 → snow.length = 1) ∧ IcePart c ice ∧
      (∀ n ∈ g.nodes, n.lwc = 0 ∧ n.refreeze = 0 ∧
        BetweenEnds c.temperatureBottom (min t2 c.zeroTemperature) n.temperature) ∧
      (∀ n ∈ snow, ∃ rho, BetweenEnds c.initialBottomDensitySnowpack c.initialTopDensitySnowpack rho ∧
        n.density c = rho + (1 - rho / c.iceDensity) * (c.airDensity * c.airDensity / c.iceDensity)) ∧
      g.newSnowHeight = 0 ∧ g.newSnowTimestamp = 0 ∧ g.oldSnowTimestamp = 0 := by
  obtain ⟨k, kI, tl, hk, hkI, htl, he⟩ := initSnowpack_snow ht (t2 := t2) hI hG hs
  set H := initialSnow c sh with hH
  set t := min t2 c.zeroTemperature
  set dT := (t - c.temperatureBottom) / (H + c.initialGlacierHeight) with hdT
  obtain ⟨hkG, hice⟩ := icePart_mk ht hc hI hG hkI tl dT
  have hL : 0 < H + c.initialGlacierHeight := by linarith
  have hm0 : 0 ≤ min (H / (1/10)) 5 := le_min (by positivity) (by norm_num)
  obtain ⟨hk1, hk2⟩ := ht _ hm0
  rw [hk, Int.cast_natCast] at hk1 hk2
  have hk5 : k ≤ 5 := by
    have : (k : K) ≤ ((5 : Nat) : K) := by push_cast; exact hk1.trans (min_le_right _ _)
    exact_mod_cast this
  have hsub : ∀ i < k, (H / (k : K)) * ((i + 1 : Nat) : K) ≤ H ∧ 0 ≤ (H / (k : K)) * ((i + 1 : Nat) : K) := by
    intro i hi
    have hkpos : (0 : K) < k := by exact_mod_cast (by omega : 0 < k)
    have : ((i + 1 : Nat) : K) ≤ (k : K) := by exact_mod_cast hi
    refine ⟨?_, by positivity⟩
    rw [div_mul_eq_mul_div, div_le_iff₀ hkpos]
    exact mul_le_mul_of_nonneg_left this hs.le
  refine ⟨_, mkLayers c (snowLayers c H t dT k), mkLayers c (iceLayers c tl dT kI), he, ?_, mkLayers_append .., ?_, ?_, ?_,
    ?_, hice, ?_, ?_, rfl, rfl, rfl⟩
  · show ((_ : Nat) : Int) = ((mkLayers c _).length : Int)
    rw [mkLayers_length, List.length_append, snowLayers_length, iceLayers_length]
  · exact snowLayers_sum ..
  · rw [mkLayers_length, snowLayers_length]; split_ifs <;> omega
  · rw [mkLayers_length, snowLayers_length]; split_ifs <;> omega
  · intro hlt
    have : (k : K) < 1 := by
      have h1 : H / (1/10) < 1 := by rw [div_lt_one (by norm_num)]; exact hlt
      exact lt_of_le_of_lt (hk1.trans (min_le_left _ _)) h1
    have : k = 0 := by
      have : k < 1 := by exact_mod_cast this
      omega
    rw [mkLayers_length, snowLayers_length, if_pos this]
  · intro n hn
    change n ∈ mkLayers c _ at hn
    rw [mkLayers, List.mem_map] at hn
    obtain ⟨x, hx, rfl⟩ := hn
    refine ⟨rfl, rfl, ?_⟩
    show BetweenEnds _ _ x.2.2
    rcases List.mem_append.1 hx with hx | hx
    · unfold snowLayers at hx
      split_ifs at hx with h0
      · rw [List.mem_singleton] at hx
        subst hx
        exact ⟨min_le_right _ _, le_max_right _ _⟩
      · rw [List.mem_map] at hx
        obtain ⟨i, hi, rfl⟩ := hx
        obtain ⟨h1, h2⟩ := hsub i (List.mem_range.1 hi)
        show BetweenEnds _ _ (t - dT * (H / (k : K)) * ((i + 1 : Nat) : K))
        rw [mul_assoc]
        exact between_linear hL h2 (by linarith)
    · unfold iceLayers at hx
      rw [List.mem_map] at hx
      obtain ⟨i, hi, rfl⟩ := hx
      have hi' : ((i + 1 : Nat) : K) ≤ (kI : K) := by exact_mod_cast List.mem_range.1 hi
      have h1 : c.initialGlacierLayerHeights * ((i + 1 : Nat) : K) ≤ c.initialGlacierHeight := by
        have := mul_le_mul_of_nonneg_left hi' hI.le
        linarith
      have h2 : 0 ≤ c.initialGlacierLayerHeights * ((i + 1 : Nat) : K) := by positivity
      show BetweenEnds _ _ (tl - dT * c.initialGlacierLayerHeights * ((i + 1 : Nat) : K))
      rw [mul_assoc, htl]
      split_ifs with h0
      · exact between_linear hL h2 (by linarith)
      · have e : t - dT * H - dT * (c.initialGlacierLayerHeights * ((i + 1 : Nat) : K)) =
            t - dT * (H + c.initialGlacierLayerHeights * ((i + 1 : Nat) : K)) := by ring
        rw [e]
        exact between_linear hL (by linarith) (by linarith)
  · intro n hn
    rw [mkLayers, List.mem_map] at hn
    obtain ⟨x, hx, rfl⟩ := hn
    have hb : BetweenEnds c.initialBottomDensitySnowpack c.initialTopDensitySnowpack x.2.1 := by
      unfold snowLayers at hx
      split_ifs at hx with h0
      · rw [List.mem_singleton] at hx
        subst hx
        exact ⟨min_le_right _ _, le_max_right _ _⟩
      · rw [List.mem_map] at hx
        obtain ⟨i, hi, rfl⟩ := hx
        obtain ⟨h1, h2⟩ := hsub i (List.mem_range.1 hi)
        show BetweenEnds _ _ (_ - _ * (H / (k : K)) * ((i + 1 : Nat) : K))
        rw [mul_assoc]
        exact between_linear hs h2 h1
    exact ⟨x.2.1, hb, C40_reported hc _ _ (hb.2.trans (max_le hdb hdt))⟩

/-- **C39, without snow.** -/
theorem C39_ice_only (ht : TruncSpec K) {c : Consts K} (hc : c.Phys) {sh : Option K} {t2 : K}
    (hI : 0 < c.initialGlacierLayerHeights) (hG : 0 < c.initialGlacierHeight) (hs : initialSnow c sh ≤ 0) :
    ∃ g, initSnowpack c sh t2 = .ok g ∧ g.WF ∧ IcePart c g.nodes ∧
      (∀ n ∈ g.nodes, n.lwc = 0 ∧ n.refreeze = 0 ∧
        BetweenEnds c.temperatureBottom (min t2 c.zeroTemperature) n.temperature) ∧
      g.newSnowHeight = 0 ∧ g.newSnowTimestamp = 0 ∧ g.oldSnowTimestamp = 0 := by
  have hkI := ht.nonneg (x := c.initialGlacierHeight / c.initialGlacierLayerHeights) (by positivity)
  obtain ⟨kI, hkI'⟩ := Int.eq_ofNat_of_zero_le hkI
  have hsm : initialSnowheight c sh = initialSnow c sh := by
    cases sh <;> simp [initialSnow, initialSnowheight]
  set t := min t2 c.zeroTemperature with hti
  set dT := (t - c.temperatureBottom) / c.initialGlacierHeight with hdT
  obtain ⟨hkG, hice⟩ := icePart_mk ht hc hI hG.le hkI' t dT
  have he : initSnowpack c sh t2 = .ok ⟨mkLayers c (iceLayers c t dT kI), kI, 0, 0, 0⟩ := by
    unfold initSnowpack
    simp only [hsm, pyMin_eq, hkI']
    rw [if_neg (by simp), if_neg (not_lt.2 hs), ← hti, ← hdT, Int.toNat_natCast, linearProfile_eq]
    have := createGrid_layers c (iceLayers c t dT kI)
    rw [iceLayers_length] at this
    rw [← this]
    congr 1 <;> simp [iceLayers, Function.comp_def, List.map_const']
  refine ⟨_, he, ?_, hice, ?_, rfl, rfl, rfl⟩
  · show ((_ : Nat) : Int) = ((mkLayers c _).length : Int)
    rw [mkLayers_length, iceLayers_length]
  · intro n hn
    change n ∈ mkLayers c _ at hn
    rw [mkLayers, List.mem_map] at hn
    obtain ⟨x, hx, rfl⟩ := hn
    refine ⟨rfl, rfl, ?_⟩
    show BetweenEnds _ _ x.2.2
    unfold iceLayers at hx
    rw [List.mem_map] at hx
    obtain ⟨i, hi, rfl⟩ := hx
    have hi' : ((i + 1 : Nat) : K) ≤ (kI : K) := by exact_mod_cast List.mem_range.1 hi
    have h1 : c.initialGlacierLayerHeights * ((i + 1 : Nat) : K) ≤ c.initialGlacierHeight := by
      have := mul_le_mul_of_nonneg_left hi' hI.le
      linarith
    have h2 : 0 ≤ c.initialGlacierLayerHeights * ((i + 1 : Nat) : K) := by positivity
    show BetweenEnds _ _ (t - dT * c.initialGlacierLayerHeights * ((i + 1 : Nat) : K))
    rw [mul_assoc]
    exact between_linear hG h2 h1

/-- **C39, density refuted.** With at least 10 cm of snow, some snow layer reports a density above the configured bottom
density (which is the larger of the two in the shipped configuration). -/
theorem C39_density_refuted (ht : TruncSpec K) {c : Consts K} (hc : c.Phys) {sh : Option K} {t2 : K}
    (hI : 0 < c.initialGlacierLayerHeights) (hG : 0 ≤ c.initialGlacierHeight) (hs : 1/10 ≤ initialSnow c sh)
    (hdb : c.initialBottomDensitySnowpack < c.iceDensity) :
    ∃ g n, initSnowpack c sh t2 = .ok g ∧ n ∈ g.nodes ∧ n.height ≤ initialSnow c sh ∧ n.density c < c.iceDensity ∧
      c.initialBottomDensitySnowpack < n.density c := by
  have hs0 : 0 < initialSnow c sh := lt_of_lt_of_le (by norm_num) hs
  obtain ⟨k, kI, tl, hk, hkI, htl, he⟩ := initSnowpack_snow ht (t2 := t2) hI hG hs0
  set H := initialSnow c sh with hH
  have hm1 : 1 ≤ min (H / (1/10)) 5 := le_min (by rw [le_div_iff₀ (by norm_num)]; linarith) (by norm_num)
  have hk2 := (ht _ (zero_le_one.trans hm1)).2
  rw [hk, Int.cast_natCast] at hk2
  have hk0 : k ≠ 0 := by
    rintro rfl
    rw [Nat.cast_zero, zero_add] at hk2
    exact absurd hk2 (not_lt.2 hm1)
  have hkK : (k : K) ≠ 0 := by exact_mod_cast hk0
  have hk1K : (1 : K) ≤ k := by exact_mod_cast Nat.one_le_iff_ne_zero.2 hk0
  generalize (min t2 c.zeroTemperature - c.temperatureBottom) / (H + c.initialGlacierHeight) = dT at he
  have hmem : ∃ T, Node.new c (H / (k : K)) c.initialBottomDensitySnowpack T 0 none ∈
      mkLayers c (snowLayers c H (min t2 c.zeroTemperature) dT k ++ iceLayers c tl dT kI) := by
    refine ⟨min t2 c.zeroTemperature - dT * (H / (k : K)) * (k : K), ?_⟩
    rw [mkLayers_append]
    refine List.mem_append_left _ ?_
    rw [mkLayers, List.mem_map]
    refine ⟨(H / (k : K), c.initialBottomDensitySnowpack, min t2 c.zeroTemperature - dT * (H / (k : K)) * (k : K)), ?_, rfl⟩
    rw [snowLayers, if_neg hk0, List.mem_map]
    refine ⟨k - 1, List.mem_range.2 (by omega), ?_⟩
    rw [Nat.sub_add_cancel (Nat.one_le_iff_ne_zero.2 hk0)]
    refine Prod.ext rfl (Prod.ext ?_ rfl)
    show _ - _ = _
    field_simp
    ring
  obtain ⟨T, hT⟩ := hmem
  refine ⟨_, _, he, hT, ?_, ?_, C40_refuted hc _ _ hdb⟩
  · exact div_le_self hs0.le hk1K
  · rw [C40_reported hc _ _ hdb.le]
    have hi := hc.ice
    have ha := hc.air
    have hai : c.airDensity < c.iceDensity := hc.air_lt.trans_le hc.thr_le
    have hq : c.airDensity * c.airDensity / c.iceDensity / c.iceDensity < 1 := by
      rw [div_div, div_lt_one (by positivity)]
      exact mul_lt_mul hai hai.le ha hi.le
    have e : c.iceDensity - (c.initialBottomDensitySnowpack + (1 - c.initialBottomDensitySnowpack / c.iceDensity) *
        (c.airDensity * c.airDensity / c.iceDensity)) = (c.iceDensity - c.initialBottomDensitySnowpack) *
          (1 - c.airDensity * c.airDensity / c.iceDensity / c.iceDensity) := by
      field_simp
      ring
    have : 0 < (c.iceDensity - c.initialBottomDensitySnowpack) *
        (1 - c.airDensity * c.airDensity / c.iceDensity / c.iceDensity) := mul_pos (by linarith) (by linarith)
    linarith

end

/-- Non-vacuity: the shipped configuration over the reals, with and without snow. -/
example : TruncSpec ℝ ∧ (Consts.default ℝ).Phys ∧ 0 < (Consts.default ℝ).initialGlacierLayerHeights ∧
    0 < (Consts.default ℝ).initialGlacierHeight ∧ 1/10 ≤ initialSnow (Consts.default ℝ) none ∧
    initialSnow (Consts.default ℝ) (some 0) ≤ 0 ∧
    (Consts.default ℝ).initialTopDensitySnowpack ≤ (Consts.default ℝ).iceDensity ∧
    (Consts.default ℝ).initialBottomDensitySnowpack < (Consts.default ℝ).iceDensity :=
  ⟨truncSpec_real, Consts.default_phys, by norm_num [Consts.default], by norm_num [Consts.default],
    by norm_num [Consts.default, initialSnow], by norm_num [initialSnow], by norm_num [Consts.default],
    by norm_num [Consts.default]⟩

/-- **C39, missing height.** A missing initial snow height (NaN, the value that differs from itself) means no snow, in any
arithmetic. -/
theorem C39_missing {α : Type} [Add α] [Sub α] [Mul α] [Div α] [Neg α] [LT α] [LE α] [DecidableLT α] [DecidableLE α] [BEq α] [Zero α]
    [One α] [NatCast α] [OfScientific α] [HasTrunc α] {c : Consts α} {h t2 : α} (hn : (h == h) = false) (h0 : ((0 : α) == 0) = true) :
    initSnowpack c (some h) t2 = initSnowpack c (some 0) t2 := by
  unfold initSnowpack
  have : initialSnowheight c (some h) = initialSnowheight c (some 0) := by
    simp only [initialSnowheight, hn, h0, Bool.false_eq_true, ite_false, ite_true]
  rw [this]

/-- Non-vacuity: the missing value of the arithmetic with NaN. -/
example : ((Nan.nan : Nan ℚ) == Nan.nan) = false ∧ ((0 : Nan ℚ) == 0) = true := by decide +kernel

end Cosipy
