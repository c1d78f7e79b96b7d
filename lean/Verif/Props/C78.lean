import Verif.Lemmas.Shading
import Verif.Spec.Sun
import Verif.Props.C63
import Verif.Props.C77
import Mathlib.Analysis.SpecialFunctions.Trigonometric.Inverse

/-!
# C78 Topographic shading

A cell is lit exactly if no point of the terrain on its profile towards the sun rises above the line of sight. Higher sun,
higher own elevation or lower terrain never put a lit cell into the shade, a constant added to all elevations changes nothing,
level ground and summits are lit. On grids with equal spacing and latitudes from north to south the computation returns for all
cells at least two cells away from the border; for latitudes from south to north, and next to the border, it raises.
-/

set_option autoImplicit false
set_option linter.unusedSectionVars false

namespace Cosipy
open RadCor

/-! ## What decides -/

theorem arctan_deg_le {x h : ℝ} (h1 : -90 < h) (h2 : h < 90) :
    Real.arctan x * 180.0 / Real.pi ≤ h ↔ x ≤ Real.tan (deg h) := by
  have hpi := Real.pi_pos
  have a1 : -(Real.pi / 2) < deg h := by unfold deg; nlinarith
  have a2 : deg h < Real.pi / 2 := by unfold deg; nlinarith
  rw [show (180.0 : ℝ) = 180 by norm_num, div_le_iff₀ hpi]
  have : Real.arctan x * 180 ≤ h * Real.pi ↔ Real.arctan x ≤ deg h := by
    unfold deg; rw [le_div_iff₀ (by norm_num)]
  rw [this]
  conv_lhs => rw [← Real.arctan_tan a1 a2]
  exact Real.arctan_strictMono.le_iff_le

/-- **C78, sight line.** For every direction there is one list of terrain points per cell, independent of the elevations and of
the height of the sun; a cell is lit exactly if none of them rises above the line of sight to the sun. -/
theorem C78_sight_line (lats lons : List ℝ) (dir : ℝ) : ∃ pts : Nat → Nat → List ((Nat × Nat) × ℝ),
    ∀ (dem : Nat → Nat → ℝ) (mask : Nat → Nat → Bool) (solh : ℝ) (A : Nat → Nat → Option Bool), -90 < solh → solh < 90 →
      relshad dem mask lats lons solh dir = .ok A → ∀ i j b, A i j = some b →
        pts i j ≠ [] ∧ (∀ q ∈ pts i j, 0 ≤ q.2 ∧ q.1.1 < lats.length ∧ q.1.2 < lons.length) ∧
          (b = true ↔ ∀ q ∈ pts i j, (dem q.1.1 q.1.2 - dem i j) / q.2 ≤ Real.tan (deg solh)) := by
  refine ⟨fun i j => match (do
      let r ← radius lats lons
      let nums ← profileSize lats r
      profile lats lons r nums dir i j) with
    | .ok (cells, ds) => cells.tail.zip ds.tail
    | .error _ => [], ?_⟩
  intro dem mask solh A h1 h2 h i j b hb
  obtain ⟨r, nums, hr, hn, -, hno, hyes⟩ := relshad_eq_ok h
  have hm : (i, j) ∈ shadeCells lats.length lons.length mask := by
    by_contra hc; rw [hno i j hc] at hb; cases hb
  obtain ⟨cs, ds, hp, hin, hne, hlit⟩ := litCell_eq_ok.1 ((hyes i j b hm).1 hb)
  simp only [hr, hn, ok_bind, hp, List.tail_cons]
  refine ⟨hne, fun q hq => ?_, ?_⟩
  · obtain ⟨q1, q2⟩ := q
    exact ⟨(profile_facts hp).2 _ (List.mem_of_mem_tail (List.of_mem_zip hq).2),
      hin _ (List.mem_cons_of_mem _ (List.of_mem_zip hq).1)⟩
  · rw [hlit]
    exact forall₂_congr fun q _ => arctan_deg_le h1 h2

/-- **C78, where.** Exactly the glacier cells that are not on the border get a value. -/
theorem C78_where {dem : Nat → Nat → ℝ} {mask : Nat → Nat → Bool} {lats lons : List ℝ} {solh dir : ℝ}
    {A : Nat → Nat → Option Bool} (h : relshad dem mask lats lons solh dir = .ok A) (i j : Nat) :
    (∃ b, A i j = some b) ↔ 1 ≤ i ∧ i + 1 < lats.length ∧ 1 ≤ j ∧ j + 1 < lons.length ∧ mask i j = true := by
  obtain ⟨r, nums, -, -, hall, hno, hyes⟩ := relshad_eq_ok h
  rw [← mem_shadeCells]
  constructor
  · rintro ⟨b, hb⟩
    by_contra hc
    rw [hno i j hc] at hb; cases hb
  · intro hm
    obtain ⟨b, hb⟩ := hall _ hm
    exact ⟨b, (hyes i j b hm).2 hb⟩

/-- Comparison of two computations on the same grid. -/
theorem relshad_compare {dem dem' : Nat → Nat → ℝ} {mask : Nat → Nat → Bool} {lats lons : List ℝ} {solh solh' dir : ℝ}
    {A : Nat → Nat → Option Bool} (h : relshad dem mask lats lons solh dir = .ok A) :
    ∃ A', relshad dem' mask lats lons solh' dir = .ok A' ∧
      ∀ i j, (∀ p q : Nat, ∀ d : ℝ, 0 ≤ d → horizonAngle dem i j ((p, q), d) ≤ solh → horizonAngle dem' i j ((p, q), d) ≤ solh') →
        A i j = some true → A' i j = some true := by
  obtain ⟨r, nums, hr, hn, hall, hno, hyes⟩ := relshad_eq_ok h
  have hall' : ∀ p ∈ shadeCells lats.length lons.length mask, ∃ b, litCell dem' lats lons r nums solh' dir p.1 p.2 = .ok b := by
    intro p hp
    obtain ⟨b, hb⟩ := hall p hp
    obtain ⟨cs, ds, hpr, hin, hne, -⟩ := litCell_eq_ok.1 hb
    by_cases hc : ∀ q ∈ cs.zip ds.tail, horizonAngle dem' p.1 p.2 q ≤ solh'
    · exact ⟨true, litCell_eq_ok.2 ⟨cs, ds, hpr, hin, hne, by simpa using hc⟩⟩
    · exact ⟨false, litCell_eq_ok.2 ⟨cs, ds, hpr, hin, hne, by simpa using hc⟩⟩
  obtain ⟨A', hA'⟩ := relshad_of_lit (dem := dem') (solh := solh') hr hn hall'
  refine ⟨A', hA', fun i j hcmp hlit => ?_⟩
  obtain ⟨r', nums', hr', hn', -, -, hyes'⟩ := relshad_eq_ok hA'
  rw [hr, ok_inj] at hr'; subst hr'
  rw [hn, ok_inj] at hn'; subst hn'
  have hm : (i, j) ∈ shadeCells lats.length lons.length mask := by
    by_contra hc; rw [hno i j hc] at hlit; cases hlit
  obtain ⟨cs, ds, hpr, hin, hne, hb⟩ := litCell_eq_ok.1 ((hyes i j true hm).1 hlit)
  refine (hyes' i j true hm).2 (litCell_eq_ok.2 ⟨cs, ds, hpr, hin, hne, ?_⟩)
  simp only [true_iff] at hb ⊢
  rintro ⟨⟨p, q⟩, d⟩ hq
  exact hcmp p q d ((profile_facts hpr).2 _ (List.mem_of_mem_tail (List.of_mem_zip hq).2)) (hb _ hq)

/-- **C78, height of the sun.** A cell lit by a low sun is lit by a higher sun in the same direction. -/
theorem C78_sun_height {dem : Nat → Nat → ℝ} {mask : Nat → Nat → Bool} {lats lons : List ℝ} {solh solh' dir : ℝ}
    (hs : solh ≤ solh') {A : Nat → Nat → Option Bool} (h : relshad dem mask lats lons solh dir = .ok A) :
    ∃ A', relshad dem mask lats lons solh' dir = .ok A' ∧ ∀ i j, A i j = some true → A' i j = some true := by
  obtain ⟨A', h1, h2⟩ := relshad_compare (dem' := dem) (solh' := solh') h
  exact ⟨A', h1, fun i j => h2 i j fun _ _ _ _ hq => hq.trans hs⟩

theorem horizonAngle_mono {dem dem' : Nat → Nat → ℝ} {i j p q : Nat} {d : ℝ} (hd : 0 ≤ d)
    (h : dem' p q - dem' i j ≤ dem p q - dem i j) : horizonAngle dem' i j ((p, q), d) ≤ horizonAngle dem i j ((p, q), d) := by
  unfold horizonAngle
  have := Real.pi_pos
  have h1 : Real.arctan ((dem' p q - dem' i j) / d) ≤ Real.arctan ((dem p q - dem i j) / d) :=
    Real.arctan_mono (by gcongr)
  have h2 : (0 : ℝ) < 180.0 := by norm_num
  gcongr

/-- **C78, terrain.** Lowering the other terrain, or raising the cell itself, never puts a lit cell into the shade. -/
theorem C78_terrain {dem dem' : Nat → Nat → ℝ} {mask : Nat → Nat → Bool} {lats lons : List ℝ} {solh dir : ℝ}
    {A : Nat → Nat → Option Bool} (h : relshad dem mask lats lons solh dir = .ok A) :
    ∃ A', relshad dem' mask lats lons solh dir = .ok A' ∧
      ∀ i j, (∀ p q, dem' p q - dem' i j ≤ dem p q - dem i j) → A i j = some true → A' i j = some true := by
  obtain ⟨A', h1, h2⟩ := relshad_compare (dem' := dem') (solh' := solh) h
  exact ⟨A', h1, fun i j hd => h2 i j fun p q d h0 hq => (horizonAngle_mono h0 (hd p q)).trans hq⟩

/-- **C78, reference height.** A constant added to all elevations changes nothing. -/
theorem C78_reference {dem : Nat → Nat → ℝ} {mask : Nat → Nat → Bool} {lats lons : List ℝ} {solh dir c : ℝ}
    {A : Nat → Nat → Option Bool} (h : relshad dem mask lats lons solh dir = .ok A) :
    relshad (fun i j => dem i j + c) mask lats lons solh dir = .ok A := by
  obtain ⟨A', h1, h2⟩ := C78_terrain (dem' := fun i j => dem i j + c) h
  obtain ⟨A'', h3, h4⟩ := C78_terrain (dem' := dem) h1
  rw [h, ok_inj] at h3
  subst h3
  rw [h1, ok_inj]
  funext i j
  have a := h2 i j fun p q => by linarith
  have b := h4 i j fun p q => by linarith
  have w := (C78_where h i j).trans (C78_where h1 i j).symm
  cases e : A i j with
  | none =>
    cases e' : A' i j with
    | none => rfl
    | some y => obtain ⟨z, hz⟩ := w.2 ⟨y, e'⟩; rw [e] at hz; cases hz
  | some x =>
    cases e' : A' i j with
    | none => obtain ⟨z, hz⟩ := w.1 ⟨x, e⟩; rw [e'] at hz; cases hz
    | some y => cases x <;> cases y <;> simp_all

/-- **C78, summits.** A cell that is at least as high as all terrain is lit while the sun is above the horizon. -/
theorem C78_summit {dem : Nat → Nat → ℝ} {mask : Nat → Nat → Bool} {lats lons : List ℝ} {solh dir : ℝ} (hs : 0 ≤ solh)
    {A : Nat → Nat → Option Bool} (h : relshad dem mask lats lons solh dir = .ok A) {i j : Nat} {b : Bool}
    (hmax : ∀ p q, dem p q ≤ dem i j) (hb : A i j = some b) : b = true := by
  obtain ⟨r, nums, -, -, -, hno, hyes⟩ := relshad_eq_ok h
  have hm : (i, j) ∈ shadeCells lats.length lons.length mask := by
    by_contra hc; rw [hno i j hc] at hb; cases hb
  obtain ⟨cs, ds, hpr, -, -, hlit⟩ := litCell_eq_ok.1 ((hyes i j b hm).1 hb)
  rw [hlit]
  rintro ⟨⟨p, q⟩, d⟩ hq
  have hd := (profile_facts hpr).2 _ (List.mem_of_mem_tail (List.of_mem_zip hq).2)
  have h1 : horizonAngle dem i j ((p, q), d) ≤ horizonAngle (fun _ _ => dem i j) i j ((p, q), d) :=
    horizonAngle_mono hd (by have := hmax p q; linarith)
  refine h1.trans (le_trans (le_of_eq ?_) hs)
  simp [horizonAngle]

/-! ## When it returns -/

/-- Latitudes from north to south. -/
def latRow (top h : ℝ) (ny : Nat) : List ℝ := (List.range ny).map fun (i : Nat) => top - (i : ℝ) * h

/-- Longitudes from west to east. -/
def lonRow (left h : ℝ) (nx : Nat) : List ℝ := (List.range nx).map fun (j : Nat) => left + (j : ℝ) * h

theorem latRow_max {top h : ℝ} {n : Nat} (hh : 0 < h) : listMax (latRow top h (n + 1)) = .ok top := by
  rw [listMax_eq_ok]
  refine ⟨List.mem_map.2 ⟨0, by simp, by simp⟩, ?_⟩
  intro x hx
  obtain ⟨k, -, rfl⟩ := List.mem_map.1 hx
  have : 0 ≤ (k : ℝ) * h := by positivity
  linarith

theorem latRow_min {top h : ℝ} {n : Nat} (hh : 0 < h) : listMin (latRow top h (n + 1)) = .ok (top - n * h) := by
  rw [listMin_eq_ok]
  refine ⟨List.mem_map.2 ⟨n, by simp, rfl⟩, ?_⟩
  intro x hx
  obtain ⟨k, hk, rfl⟩ := List.mem_map.1 hx
  rw [List.mem_range] at hk
  have h1 : (k : ℝ) ≤ n := by exact_mod_cast Nat.lt_succ_iff.1 hk
  nlinarith

theorem lonRow_max {left h : ℝ} {n : Nat} (hh : 0 < h) : listMax (lonRow left h (n + 1)) = .ok (left + n * h) := by
  rw [listMax_eq_ok]
  refine ⟨List.mem_map.2 ⟨n, by simp, rfl⟩, ?_⟩
  intro x hx
  obtain ⟨k, hk, rfl⟩ := List.mem_map.1 hx
  rw [List.mem_range] at hk
  have h1 : (k : ℝ) ≤ n := by exact_mod_cast Nat.lt_succ_iff.1 hk
  nlinarith

theorem lonRow_min {left h : ℝ} {n : Nat} (hh : 0 < h) : listMin (lonRow left h (n + 1)) = .ok left := by
  rw [listMin_eq_ok]
  refine ⟨List.mem_map.2 ⟨0, by simp, by simp⟩, ?_⟩
  intro x hx
  obtain ⟨k, -, rfl⟩ := List.mem_map.1 hx
  have : 0 ≤ (k : ℝ) * h := by positivity
  linarith

theorem radius_eq {top left h : ℝ} {n m : Nat} (hh : 0 < h) :
    radius (latRow top h (n + 1)) (lonRow left h (m + 1)) = .ok (h * Real.sqrt ((n : ℝ) ^ 2 + (m : ℝ) ^ 2)) := by
  unfold radius
  rw [latRow_max hh, latRow_min hh, lonRow_max hh, lonRow_min hh]
  simp only [ok_bind]
  rw [pure_eq_ok]
  rw [pyAbs_eq, pyAbs_eq, abs_mul_abs_self, abs_mul_abs_self]
  show ((top - (top - n * h)) * (top - (top - n * h)) + (left + m * h - left) * (left + m * h - left)) ^ (0.5 : ℝ) = _
  rw [show (0.5 : ℝ) = 1 / 2 by norm_num, ← Real.sqrt_eq_rpow]
  have e : (top - (top - n * h)) * (top - (top - n * h)) + (left + m * h - left) * (left + m * h - left) =
      h ^ 2 * ((n : ℝ) ^ 2 + (m : ℝ) ^ 2) := by ring
  rw [e, Real.sqrt_mul (by positivity), Real.sqrt_sq hh.le]

theorem profileSize_eq {top h r : ℝ} {n : Nat} (hh : 0 < h) (hn : 1 ≤ n) (hr : 0 ≤ r) :
    profileSize (latRow top h (n + 1)) r = .ok ⌊r * ((n + 1 : ℕ) : ℝ) / (n * h)⌋ := by
  have hl : (latRow top h (n + 1)).length = n + 1 := by simp [latRow]
  have h0 : pyGet (latRow top h (n + 1)) 0 = .ok top := by
    have := pyGet_nat (xs := latRow top h (n + 1)) (k := 0) (x := top) (by simp [latRow])
    simpa using this
  have h1 : pyGet (latRow top h (n + 1)) (-1) = .ok (top - n * h) := by
    refine pyGet_eq_ok.2 ⟨n, ?_, by simp [latRow]⟩
    rw [hl]; unfold normIdx; simp
  have hn' : (0 : ℝ) < n := by exact_mod_cast hn
  have hd : (0 : ℝ) < n * h := by positivity
  unfold profileSize
  rw [h0, ok_bind, h1, ok_bind, hl, show top - (top - (n : ℝ) * h) = n * h by ring, fdiv_of_ne hd.ne', ok_bind, pure_eq_ok]
  have hq : 0 ≤ r * ((n + 1 : ℕ) : ℝ) / (n * h) := by positivity
  show (if r * ((n + 1 : ℕ) : ℝ) / (n * h) < 0 then _ else _) = ⌊r * ((n + 1 : ℕ) : ℝ) / (n * h)⌋
  rw [if_neg (not_lt.2 hq)]

theorem distances_ok (lat lon : ℝ) (l : List (ℝ × ℝ)) : ∃ ds, l.mapM (fun p => haversine lat lon p.1 p.2) = .ok ds := by
  refine mapM_ok_iff.2 fun p _ => ?_
  have h := C56_haversine lat lon p.1 p.2
  generalize 6371000 * InnerProductGeometry.angle (place lat lon) (place p.1 p.2) = d at h
  exact ⟨d, h⟩

/-- `profile` step by step. -/
theorem profile_of {lats lons : List ℝ} {r : ℝ} {nums : Int} {dir lat lon latE lonE : ℝ} {i j iy ix : Nat}
    {latL lonL latI lonI ys xs ds : List ℝ} (hi : lats[i]? = some lat) (hj : lons[j]? = some lon)
    (e1 : linspace lat (lat + Real.sin (radians (90.0 - dir)) * r) nums = .ok latL)
    (e2 : linspace lon (lon + Real.cos (radians (90.0 - dir)) * r) nums = .ok lonL)
    (g1 : insideOf lats latL = .ok latI) (g2 : insideOf lons lonL = .ok lonI)
    (p1 : pyGet (latI.take (min latI.length lonI.length)) (-1) = .ok latE)
    (p2 : pyGet (lonI.take (min latI.length lonI.length)) (-1) = .ok lonE)
    (q1 : nearestIdx lats latE = .ok iy) (q2 : nearestIdx lons lonE = .ok ix)
    (s1 : linspace (i : ℝ) (iy : ℝ) (min latI.length lonI.length : ℕ) = .ok ys)
    (s2 : linspace (j : ℝ) (ix : ℝ) (min latI.length lonI.length : ℕ) = .ok xs)
    (s3 : ((latI.take (min latI.length lonI.length)).zip (lonI.take (min latI.length lonI.length))).mapM
      (fun p => haversine lat lon p.1 p.2) = .ok ds) :
    profile lats lons r nums dir i j = .ok ((ys.map roundIdx).zip (xs.map roundIdx), ds) := by
  have e1' : linspace lat (lat + Transc.sin (radians (90.0 - dir)) * r) nums = .ok latL := e1
  have e2' : linspace lon (lon + Transc.cos (radians (90.0 - dir)) * r) nums = .ok lonL := e2
  unfold profile
  simp only [pyGet_nat hi, pyGet_nat hj, e1', e2', ok_bind, g1, g2, p1, p2, q1, q2, s1, s2, s3]
  rfl

/-- A profile with two points inside the area has two cells, all in the area. -/
theorem profile_ok {lats lons : List ℝ} {r : ℝ} {nums : Int} {dir lat lon : ℝ} {i j : Nat} {latL lonL latI lonI : List ℝ}
    (hi : lats[i]? = some lat) (hj : lons[j]? = some lon)
    (e1 : linspace lat (lat + Real.sin (radians (90.0 - dir)) * r) nums = .ok latL)
    (e2 : linspace lon (lon + Real.cos (radians (90.0 - dir)) * r) nums = .ok lonL)
    (g1 : insideOf lats latL = .ok latI) (g2 : insideOf lons lonL = .ok lonI) (k1 : 2 ≤ latI.length) (k2 : 2 ≤ lonI.length) :
    ∃ cs ds, profile lats lons r nums dir i j = .ok ((i, j) :: cs, ds) ∧
      (∀ p ∈ (i, j) :: cs, p.1 < lats.length ∧ p.2 < lons.length) ∧ cs.zip ds.tail ≠ [] := by
  have hil : i < lats.length := by
    by_contra hc; rw [List.getElem?_eq_none (by omega)] at hi; cases hi
  have hjl : j < lons.length := by
    by_contra hc; rw [List.getElem?_eq_none (by omega)] at hj; cases hj
  obtain ⟨n, hn⟩ : ∃ n, n = min latI.length lonI.length := ⟨_, rfl⟩
  have hn2 : 2 ≤ n := by omega
  have ll : (latI.take n).length = n := by rw [List.length_take]; omega
  have lo' : (lonI.take n).length = n := by rw [List.length_take]; omega
  obtain ⟨latE, p1⟩ := pyGet_ok_iff.2 (show -((latI.take n).length : Int) ≤ -1 ∧ (-1 : Int) < (latI.take n).length by omega)
  obtain ⟨lonE, p2⟩ := pyGet_ok_iff.2 (show -((lonI.take n).length : Int) ≤ -1 ∧ (-1 : Int) < (lonI.take n).length by omega)
  obtain ⟨iy, q1⟩ := nearestIdx_ok (xs := lats) (by intro h0; rw [h0] at hil; simp at hil) latE
  obtain ⟨ix, q2⟩ := nearestIdx_ok (xs := lons) (by intro h0; rw [h0] at hjl; simp at hjl) lonE
  have iyl := nearestIdx_lt q1
  have ixl := nearestIdx_lt q2
  obtain ⟨ys, s1⟩ := linspace_ok (a := (i : ℝ)) (b := (iy : ℝ)) (n := (n : Int)) (by omega)
  obtain ⟨xs, s2⟩ := linspace_ok (a := (j : ℝ)) (b := (ix : ℝ)) (n := (n : Int)) (by omega)
  obtain ⟨ds, s3⟩ := distances_ok lat lon ((latI.take n).zip (lonI.take n))
  have in1 : ∀ y ∈ ys, roundIdx y < lats.length := by
    intro y hy
    obtain ⟨b1, b2⟩ := linspace_between s1 hy
    have : roundIdx y ≤ max i iy := roundIdx_le (le_trans (le_min (Nat.cast_nonneg _) (Nat.cast_nonneg _)) b1) (by rw [Nat.cast_max]; exact b2)
    exact lt_of_le_of_lt this (max_lt hil iyl)
  have in2 : ∀ x ∈ xs, roundIdx x < lons.length := by
    intro y hy
    obtain ⟨b1, b2⟩ := linspace_between s2 hy
    have : roundIdx y ≤ max j ix := roundIdx_le (le_trans (le_min (Nat.cast_nonneg _) (Nat.cast_nonneg _)) b1) (by rw [Nat.cast_max]; exact b2)
    exact lt_of_le_of_lt this (max_lt hjl ixl)
  have ly := (linspace_length s1).2
  have lx := (linspace_length s2).2
  rw [hn] at p1 p2 s1 s2 s3
  have hp := profile_of hi hj e1 e2 g1 g2 p1 p2 q1 q2 s1 s2 s3
  obtain ⟨⟨cs, hcs, hlen⟩, -⟩ := profile_facts hp
  have hcl : cs.length + 1 = n := by
    have := congrArg List.length hcs
    rw [List.length_cons, List.length_zip, List.length_map, List.length_map, ly, lx] at this
    simp at this
    omega
  refine ⟨cs, ds, by rw [← hcs]; exact hp, ?_, ?_⟩
  · rw [← hcs]
    rintro ⟨a, b⟩ hab
    obtain ⟨ha', hb'⟩ := List.of_mem_zip hab
    obtain ⟨y, hy, rfl⟩ := List.mem_map.1 ha'
    obtain ⟨x, hx, rfl⟩ := List.mem_map.1 hb'
    exact ⟨in1 y hy, in2 x hx⟩
  · intro h0
    have := congrArg List.length h0
    rw [List.length_zip, List.length_tail, List.length_nil] at this
    omega

/-- A profile with two points inside the area gives a value. -/
theorem litCell_ok {dem : Nat → Nat → ℝ} {lats lons : List ℝ} {r : ℝ} {nums : Int} {solh dir lat lon la lo ha ho : ℝ} {i j : Nat}
    (hi : lats[i]? = some lat) (hj : lons[j]? = some lon) (hnum : 3 ≤ nums)
    (hla : listMax lats = .ok ha) (hlo : listMin lats = .ok la) (hoa : listMax lons = .ok ho) (hol : listMin lons = .ok lo)
    (c1 : la < lat ∧ lat < ha) (c2 : lo < lon ∧ lon < ho)
    (c3 : la < lat + Real.sin (radians (90.0 - dir)) * r / ((nums : ℝ) - 1) ∧
      lat + Real.sin (radians (90.0 - dir)) * r / ((nums : ℝ) - 1) < ha)
    (c4 : lo < lon + Real.cos (radians (90.0 - dir)) * r / ((nums : ℝ) - 1) ∧
      lon + Real.cos (radians (90.0 - dir)) * r / ((nums : ℝ) - 1) < ho) :
    ∃ b, litCell dem lats lons r nums solh dir i j = .ok b := by
  obtain ⟨latL, e1⟩ := linspace_ok (a := lat) (b := lat + Real.sin (radians (90.0 - dir)) * r) (n := nums) (by omega)
  obtain ⟨lonL, e2⟩ := linspace_ok (a := lon) (b := lon + Real.cos (radians (90.0 - dir)) * r) (n := nums) (by omega)
  obtain ⟨t1, f1⟩ := linspace_second e1 hnum
  obtain ⟨t2, f2⟩ := linspace_second e2 hnum
  rw [add_sub_cancel_left] at f1 f2
  have g1 : insideOf lats latL = .ok (latL.filter fun x => decide (x < ha) && decide (la < x)) := by
    unfold insideOf; rw [hla, ok_bind, hlo, ok_bind]; rfl
  have g2 : insideOf lons lonL = .ok (lonL.filter fun x => decide (x < ho) && decide (lo < x)) := by
    unfold insideOf; rw [hoa, ok_bind, hol, ok_bind]; rfl
  have k1 : 2 ≤ (latL.filter fun x => decide (x < ha) && decide (la < x)).length := by
    rw [f1, List.filter_cons_of_pos (by simp [c1]), List.filter_cons_of_pos (by simp [c3])]; simp
  have k2 : 2 ≤ (lonL.filter fun x => decide (x < ho) && decide (lo < x)).length := by
    rw [f2, List.filter_cons_of_pos (by simp [c2]), List.filter_cons_of_pos (by simp [c4])]; simp
  obtain ⟨cs, ds, hp, hin, hne⟩ := profile_ok hi hj e1 e2 g1 g2 k1 k2
  by_cases hc : ∀ q ∈ cs.zip ds.tail, horizonAngle dem i j q ≤ solh
  · exact ⟨true, litCell_eq_ok.2 ⟨cs, ds, hp, hin, hne, by simpa using hc⟩⟩
  · exact ⟨false, litCell_eq_ok.2 ⟨cs, ds, hp, hin, hne, by simpa using hc⟩⟩

/-- **C78, returns.** On a grid with equal spacing and latitudes from north to south the shading is computed for every terrain,
every height and direction of the sun, if the glacier cells stay two cells away from the border. -/
theorem C78_returns (dem : Nat → Nat → ℝ) (mask : Nat → Nat → Bool) {top left h : ℝ} (hh : 0 < h) {n m : Nat}
    (hmask : ∀ i j, mask i j = true → 2 ≤ i ∧ i + 2 ≤ n ∧ 2 ≤ j ∧ j + 2 ≤ m) (hn : 4 ≤ n) (hm : 4 ≤ m) (solh dir : ℝ) :
    ∃ A, relshad dem mask (latRow top h (n + 1)) (lonRow left h (m + 1)) solh dir = .ok A := by
  set ρ := Real.sqrt ((n : ℝ) ^ 2 + (m : ℝ) ^ 2) with hρ
  have hnR : (4 : ℝ) ≤ n := by exact_mod_cast hn
  have hmR : (4 : ℝ) ≤ m := by exact_mod_cast hm
  have hρ5 : 5 < ρ := by
    rw [hρ]; exact Real.lt_sqrt_of_sq_lt (by nlinarith)
  have hr : 0 ≤ h * ρ := by positivity
  have hps := profileSize_eq (top := top) hh (show 1 ≤ n by omega) hr
  have hqe : h * ρ * ((n + 1 : ℕ) : ℝ) / (n * h) = ρ * (1 + 1 / n) := by
    have : (n : ℝ) ≠ 0 := by linarith
    push_cast; field_simp
  rw [hqe] at hps
  set nums := ⌊ρ * (1 + 1 / (n : ℝ))⌋ with hnums
  have hnum : ρ - 1 < (nums : ℝ) := by
    have h1 : ρ * (1 + 1 / (n : ℝ)) < nums + 1 := Int.lt_floor_add_one _
    have h2 : 0 ≤ ρ * (1 / (n : ℝ)) := by positivity
    linarith
  have h3 : 3 ≤ nums := by
    have : (4 : ℝ) < nums := by linarith
    have : (4 : Int) < nums := by exact_mod_cast this
    omega
  refine relshad_of_lit (radius_eq hh) hps ?_
  rintro ⟨i, j⟩ hij
  obtain ⟨-, -, -, -, hmk⟩ := mem_shadeCells.1 hij
  obtain ⟨i2, in2, j2, jm2⟩ := hmask i j hmk
  have i2R : (2 : ℝ) ≤ i := by exact_mod_cast i2
  have j2R : (2 : ℝ) ≤ j := by exact_mod_cast j2
  have inR : (i : ℝ) + 2 ≤ n := by exact_mod_cast in2
  have jmR : (j : ℝ) + 2 ≤ m := by exact_mod_cast jm2
  -- one step along the profile is shorter than two cells
  have step : ∀ c : ℝ, |c| ≤ 1 → |c * (h * ρ) / ((nums : ℝ) - 1)| < 2 * h := by
    intro c hc
    have hd : 0 < (nums : ℝ) - 1 := by linarith
    rw [abs_div, abs_of_pos hd, div_lt_iff₀ hd, abs_mul, abs_of_nonneg hr]
    calc |c| * (h * ρ) ≤ 1 * (h * ρ) := by gcongr
      _ < 2 * h * ((nums : ℝ) - 1) := by nlinarith
  obtain ⟨s1, s2⟩ := abs_lt.1 (step _ (Real.abs_sin_le_one (radians (90.0 - dir))))
  obtain ⟨c1, c2⟩ := abs_lt.1 (step _ (Real.abs_cos_le_one (radians (90.0 - dir))))
  refine litCell_ok (lat := top - i * h) (lon := left + j * h) ?_ ?_ h3 (latRow_max hh) (latRow_min hh) (lonRow_max hh)
    (lonRow_min hh) ⟨?_, ?_⟩ ⟨?_, ?_⟩ ⟨?_, ?_⟩ ⟨?_, ?_⟩
  · have : i < n + 1 := by omega
    simp [latRow, this]
  · have : j < m + 1 := by omega
    simp [lonRow, this]
  all_goals nlinarith

/-- Non-vacuity: a glacier of one cell in the middle of five by five cells. -/
example (solh dir : ℝ) : ∃ A, relshad (fun i _ => 1000 + 100 * (i : ℝ)) (fun i j => i == 2 && j == 2) (latRow 47 0.01 5) (lonRow 10 0.01 5)
    solh dir = .ok A ∧ ∃ b, A 2 2 = some b := by
  obtain ⟨A, hA⟩ := C78_returns (fun i _ => 1000 + 100 * (i : ℝ)) (fun i j => i == 2 && j == 2) (top := 47) (left := 10)
    (h := 0.01) (by norm_num) (n := 4) (m := 4) (fun i j h => by simp at h; omega) le_rfl le_rfl solh dir
  exact ⟨A, hA, (C78_where hA 2 2).2 (by simp [latRow, lonRow])⟩

theorem mapM_all_error {ι β : Type} {f : ι → M β} {e : Err} : ∀ {l : List ι}, l ≠ [] → (∀ a ∈ l, f a = .error e) →
    l.mapM f = .error e := by
  intro l hl h
  cases l with
  | nil => exact absurd rfl hl
  | cons a l => rw [List.mapM_cons, h a (by simp), error_bind]

/-- **C78, order of the latitudes.** If the latitudes that `relshad` gets run from south to north (the domain file from north to
south, since the rows are turned around), the shading of any glacier cell raises ValueError. -/
theorem C78_order_refuted {dem : Nat → Nat → ℝ} {mask : Nat → Nat → Bool} {lats lons : List ℝ} {solh dir l0 l1 : ℝ}
    (h0 : pyGet lats 0 = .ok l0) (h1 : pyGet lats (-1) = .ok l1) (hasc : l0 < l1) {i j : Nat}
    (hi : 1 ≤ i ∧ i + 1 < lats.length) (hj : 1 ≤ j ∧ j + 1 < lons.length) (hm : mask i j = true) :
    relshad dem mask lats lons solh dir = .error .value := by
  have hne : lats ≠ [] := by intro h; rw [h] at hi; simp at hi
  have hne' : lons ≠ [] := by intro h; rw [h] at hj; simp at hj
  have ex : ∀ l : List ℝ, l ≠ [] → (∃ t, listMax l = .ok t) ∧ ∃ t, listMin l = .ok t := by
    intro l hl
    cases l with
    | nil => exact absurd rfl hl
    | cons x xs => exact ⟨⟨_, rfl⟩, ⟨_, rfl⟩⟩
  obtain ⟨⟨a, ha⟩, b, hb⟩ := ex lats hne
  obtain ⟨⟨c, hc⟩, d, hd⟩ := ex lons hne'
  have hab : l1 - l0 ≤ a - b := by
    have := (listMax_eq_ok.1 ha).2 l1 (pyGet_mem h1)
    have := (listMin_eq_ok.1 hb).2 l0 (pyGet_mem h0)
    linarith
  obtain ⟨r, hr, hrr⟩ : ∃ r, radius lats lons = .ok r ∧ l1 - l0 ≤ r := by
    unfold radius
    rw [ha, hb, hc, hd]
    simp only [ok_bind]
    refine ⟨_, rfl, ?_⟩
    rw [pyAbs_eq, pyAbs_eq, abs_mul_abs_self, abs_mul_abs_self]
    show l1 - l0 ≤ ((a - b) * (a - b) + (c - d) * (c - d)) ^ (0.5 : ℝ)
    rw [show (0.5 : ℝ) = 1 / 2 by norm_num, ← Real.sqrt_eq_rpow]
    exact Real.le_sqrt_of_sq_le (by nlinarith [mul_self_nonneg (c - d)])
  obtain ⟨nums, hnums, hneg⟩ : ∃ nums, profileSize lats r = .ok nums ∧ nums < 0 := by
    unfold profileSize
    rw [h0, ok_bind, h1, ok_bind, fdiv_of_ne (by linarith), ok_bind]
    refine ⟨_, rfl, ?_⟩
    have hlen : (1 : ℝ) ≤ (lats.length : ℝ) := by
      have : 1 ≤ lats.length := by omega
      exact_mod_cast this
    have hq : r * (lats.length : ℝ) / (l0 - l1) ≤ -1 := by
      rw [div_le_iff_of_neg (by linarith)]
      nlinarith
    show (if r * (lats.length : ℝ) / (l0 - l1) < 0 then ⌈r * (lats.length : ℝ) / (l0 - l1)⌉ else _) < 0
    rw [if_pos (by linarith)]
    have : ⌈r * (lats.length : ℝ) / (l0 - l1)⌉ ≤ -1 := Int.ceil_le.2 (by push_cast; exact hq)
    omega
  unfold relshad
  rw [hr, ok_bind, hnums, ok_bind]
  simp only
  rw [mapM_all_error (e := .value) (List.ne_nil_of_mem (mem_shadeCells.2 ⟨hi.1, hi.2, hj.1, hj.2, hm⟩)), error_bind]
  rintro ⟨p, q⟩ hp
  obtain ⟨-, p2, -, q2, -⟩ := mem_shadeCells.1 hp
  obtain ⟨lat, hlat⟩ := pyGet_ok_iff.2 (show -(lats.length : Int) ≤ (p : Int) ∧ (p : Int) < lats.length by omega)
  obtain ⟨lon, hlon⟩ := pyGet_ok_iff.2 (show -(lons.length : Int) ≤ (q : Int) ∧ (q : Int) < lons.length by omega)
  unfold litCell profile
  simp only [hlat, hlon, ok_bind]
  rw [linspace, if_pos hneg]
  rfl

theorem profile_lons {lats lons : List ℝ} {r : ℝ} {nums : Int} {dir : ℝ} {i j : Nat} {cells : List (Nat × Nat)}
    {ds : List ℝ} (h : profile lats lons r nums dir i j = .ok (cells, ds)) :
    ∃ lon lonL lonI, pyGet lons j = .ok lon ∧ linspace lon (lon + Real.cos (radians (90.0 - dir)) * r) nums = .ok lonL ∧
      insideOf lons lonL = .ok lonI ∧ ds.length ≤ lonI.length := by
  unfold profile at h
  simp only [bind_eq_ok] at h
  obtain ⟨lat, h1, lon, h2, latL, h3, lonL, h4, latI, h5, lonI, h6, latE, h7, lonE, h8, iy, h9, ix, h10, ys, h11, xs, h12,
    ds', h13, h⟩ := h
  rw [pure_eq_ok] at h
  cases h
  refine ⟨lon, lonL, lonI, h2, h4, h6, ?_⟩
  rw [mapM_of_ok (g := fun p => 6371000 * InnerProductGeometry.angle (place lat lon) (place p.1 p.2))
      fun p _ => C56_haversine lat lon p.1 p.2, ok_inj] at h13
  rw [← h13, List.length_map, List.length_zip, List.length_take, List.length_take]
  omega

/-- **C78, border.** Four by four cells, the sun in the east: a glacier cell next to the eastern border makes the computation
raise, because the second point of its profile is already outside. -/
theorem C78_border_refuted (dem : Nat → Nat → ℝ) (solh : ℝ) (A : Nat → Nat → Option Bool) :
    relshad dem (fun i j => i == 1 && j == 2) (latRow 3 1 4) (lonRow 0 1 4) solh 90 ≠ .ok A := by
  intro h
  obtain ⟨r, nums, hr, hn, hall, -, -⟩ := relshad_eq_ok h
  have hmem : ((1, 2) : Nat × Nat) ∈ shadeCells (latRow 3 1 4).length (lonRow 0 1 4).length (fun i j => i == 1 && j == 2) :=
    mem_shadeCells.2 (by simp [latRow, lonRow])
  obtain ⟨b, hb⟩ := hall _ hmem
  rw [radius_eq one_pos, ok_inj] at hr
  set ρ := Real.sqrt ((3 : ℕ) ^ 2 + (3 : ℕ) ^ 2 : ℝ) with hρ
  have hρ2 : ρ * ρ = 18 := by rw [hρ, Real.mul_self_sqrt (by positivity)]; norm_num
  have hρ0 : 0 ≤ ρ := Real.sqrt_nonneg _
  rw [one_mul] at hr
  rw [profileSize_eq one_pos (by norm_num) (by rw [← hr]; exact hρ0), ok_inj, ← hr] at hn
  have hnum : nums = 5 := by
    rw [← hn, Int.floor_eq_iff]
    push_cast
    constructor
    · rw [le_div_iff₀ (by norm_num)]; nlinarith
    · rw [div_lt_iff₀ (by norm_num)]; nlinarith
  subst hnum
  obtain ⟨cs, ds, hp, -, hne, -⟩ := litCell_eq_ok.1 hb
  obtain ⟨⟨cs', hcs', hlen⟩, -⟩ := profile_facts hp
  obtain rfl : cs = cs' := (List.cons.inj hcs').2
  have hds : ds.length ≤ 1 := by
    obtain ⟨lon, lonL, lonI, h2, h4, h6, hle⟩ := profile_lons hp
    refine hle.trans ?_
    have hlon : lon = 2 := by
      have h2' := h2
      rw [pyGet_nat (xs := lonRow 0 1 4) (k := 2) (x := 2) (by simp [lonRow]), ok_inj] at h2'
      exact h2'.symm
    have hI : lonI = lonL.filter fun x => decide (x < 3) && decide ((0 : ℝ) < x) := by
      unfold insideOf at h6
      rw [lonRow_max one_pos, lonRow_min one_pos, ok_bind, ok_bind, pure_eq_ok] at h6
      rw [← h6]
      norm_num
    have hc : Real.cos (radians (90.0 - 90 : ℝ)) * r = ρ := by
      rw [show (90.0 - 90 : ℝ) = 0 by norm_num, radians_eq]
      simp [rad, hr]
    rw [hc, hlon] at h4
    have hρ4 : 4 < ρ := by nlinarith
    obtain ⟨t, ht⟩ := linspace_head h4 (by
      intro h0; have := (linspace_length h4).2; rw [h0] at this; simp at this)
    have htail : ∀ x ∈ t, 3 ≤ x := by
      unfold linspace at h4
      rw [if_neg (by norm_num), if_neg (by norm_num), ok_inj, ht] at h4
      rw [show (5 : Int).toNat = 5 from rfl, show List.range 5 = [0, 1, 2, 3, 4] from rfl] at h4
      simp only [List.map_cons, List.map_nil, List.cons.injEq] at h4
      rw [← h4.2]
      intro x hx
      simp only [List.mem_cons, List.not_mem_nil, or_false] at hx
      rcases hx with rfl | rfl | rfl | rfl <;> norm_num <;> linarith
    rw [hI, ht]
    have : t.filter (fun x => decide (x < 3) && decide ((0 : ℝ) < x)) = [] := by
      rw [List.filter_eq_nil_iff]
      intro x hx
      have := htail x hx
      simp; intro h; linarith
    rw [List.filter_cons, this]
    split_ifs <;> simp
  have : (cs.zip ds.tail).length = 0 := by
    rw [List.length_zip, List.length_tail]; omega
  exact hne (List.length_eq_zero_iff.1 this)

/-! ## Direction of the sun -/

/-- The computed position: elevation and north component are those of the sun, the east component has the right size and the
sign of the hour angle. -/
theorem sunPosition_eq {δ lat stime : ℝ} (hlat : 0 < Real.cos (deg lat)) (hu : |(sunDir δ (deg lat) (deg stime)).u| < 1) :
    ∃ h a, sunPosition δ lat stime = .ok (h, a) ∧ -90 < h ∧ h < 90 ∧
      compassDir (deg h) (deg a) = { sunDir δ (deg lat) (deg stime) with
        e := if 0 < stime then |(sunDir δ (deg lat) (deg stime)).e| else -|(sunDir δ (deg lat) (deg stime)).e| } := by
  have hunit := sunDir_unit δ (deg lat) (deg stime)
  have harg : sinElev δ lat stime * Real.sin (deg lat) - Real.sin δ = -(sunDir δ (deg lat) (deg stime)).n * Real.cos (deg lat) := by
    rw [sinElev_eq]
    simp only [sunDir]
    have := Real.sin_sq_add_cos_sq (deg lat)
    linear_combination Real.sin δ * this
  generalize hD : sunDir δ (deg lat) (deg stime) = D at *
  have hs : sinElev δ lat stime = D.u := by rw [sinElev_eq, hD]
  rw [hs] at harg
  obtain ⟨e, n, u⟩ := D
  simp only [Dir.dot] at hunit harg hu hs
  obtain ⟨u1, u2⟩ := abs_lt.1 hu
  obtain ⟨k, hk⟩ : ∃ k, k = Real.cos (Real.arcsin u) := ⟨_, rfl⟩
  have hk2 : k ^ 2 = 1 - u ^ 2 := by rw [hk, Real.cos_arcsin, Real.sq_sqrt (by nlinarith)]
  have hk0 : 0 < k := by rw [hk, Real.cos_arcsin]; exact Real.sqrt_pos.2 (by nlinarith)
  have hken : k ^ 2 = e ^ 2 + n ^ 2 := by rw [hk2]; linarith
  have hc1 : |-n / k| ≤ 1 := by
    rw [abs_div, abs_neg, abs_of_pos hk0, div_le_one hk0]
    exact abs_le_of_sq_le_sq (by nlinarith [sq_nonneg e]) hk0.le
  obtain ⟨c1, c2⟩ := abs_le.1 hc1
  have hcosaz : Real.cos (Real.arccos (-n / k)) = -n / k := Real.cos_arccos c1 c2
  have hsinaz : k * Real.sin (Real.arccos (-n / k)) = |e| := by
    rw [Real.sin_arccos]
    have : 1 - (-n / k) ^ 2 = (|e| / k) ^ 2 := by
      rw [div_pow, div_pow, sq_abs]
      field_simp
      rw [hken]; ring
    rw [this, Real.sqrt_sq (by positivity)]
    field_simp
  have hpi := Real.pi_pos
  have hback : ∀ x : ℝ, deg (x * 180.0 / Real.pi) = x := by
    intro x; unfold deg
    rw [show (180.0 : ℝ) = 180 by norm_num]
    field_simp
  have e1 : pyAsin (sinElev δ lat stime) = .ok (Real.arcsin u) := by
    unfold pyAsin
    rw [hs, if_neg (by norm_num; linarith), if_neg (by norm_num; linarith)]
    rfl
  have e2 : fdiv (u * Transc.sin (lat * Transc.pi / 180.0) - Transc.sin δ) (Transc.cos (Real.arcsin u)) =
      .ok (-n * Real.cos (deg lat) / k) := by
    rw [deg_eq]
    show fdiv (u * Real.sin (deg lat) - Real.sin δ) (Real.cos (Real.arcsin u)) = _
    rw [← hk, fdiv_of_ne hk0.ne', harg]
  have e3 : fdiv (-n * Real.cos (deg lat) / k) (Transc.cos (lat * Transc.pi / 180.0)) = .ok (-n / k) := by
    rw [deg_eq]
    show fdiv (-n * Real.cos (deg lat) / k) (Real.cos (deg lat)) = _
    rw [fdiv_of_ne hlat.ne', ok_inj]
    field_simp
  have e4 : pyAcos (-n / k) = .ok (Real.arccos (-n / k)) := by
    unfold pyAcos
    rw [if_neg (by norm_num at c1 ⊢; linarith), if_neg (by norm_num at c2 ⊢; linarith)]
    rfl
  have hup : ∀ a : ℝ, Real.cos (deg a) = n / k → ∀ e', k * Real.sin (deg a) = e' →
      compassDir (deg (Real.arcsin u * 180.0 / Real.pi)) (deg a) = ⟨e', n, u⟩ := by
    intro a ha e' he
    unfold compassDir
    rw [hback, ← hk, ha, he, Real.sin_arcsin u1.le u2.le]
    congr 1
    field_simp
  have hr1 : -90 < Real.arcsin u * 180.0 / Real.pi := by
    have := Real.neg_pi_div_two_lt_arcsin.2 u1
    rw [show (180.0 : ℝ) = 180 by norm_num, lt_div_iff₀ hpi]; linarith
  have hr2 : Real.arcsin u * 180.0 / Real.pi < 90 := by
    have := Real.arcsin_lt_pi_div_two.2 u2
    rw [show (180.0 : ℝ) = 180 by norm_num, div_lt_iff₀ hpi]; linarith
  have hrun : sunPosition δ lat stime = .ok (Real.arcsin u * 180.0 / Real.pi,
      180.0 - if 0.0 < stime then Real.arccos (-n / k) * 180.0 / Real.pi else Real.arccos (-n / k) * 180.0 / Real.pi * (-1.0)) := by
    unfold sunPosition
    simp only [e1, ok_bind]
    simp only [hs, e2, e3, e4, ok_bind]
    rfl
  refine ⟨_, _, hrun, hr1, hr2, ?_⟩
  have e0 : (0.0 : ℝ) = 0 := by norm_num
  have d180 : ∀ x : ℝ, deg (180.0 - x) = Real.pi - deg x := by intro x; unfold deg; norm_num; ring
  rw [e0]
  split_ifs with h0
  · refine hup _ ?_ _ ?_
    · rw [d180, hback, Real.cos_pi_sub, hcosaz]; ring
    · rw [d180, hback, Real.sin_pi_sub, hsinaz]
  · have hm : ∀ x : ℝ, deg (x * (-1.0)) = -deg x := by intro x; unfold deg; norm_num; ring
    refine hup _ ?_ _ ?_
    · rw [d180, hm, hback, sub_neg_eq_add, add_comm, Real.cos_add_pi, hcosaz]; ring
    · rw [d180, hm, hback, sub_neg_eq_add, add_comm, Real.sin_add_pi, mul_neg, hsinaz]

/-- **C78, sun (partial: hour angles up to 180 degrees).** The elevation and compass direction computed for the shading table
are those of the sun, except in the zenith and at the poles. The full statement has no bound on the hour angle. -/
theorem C78_sun_partial {δ lat stime : ℝ} (hlat : 0 < Real.cos (deg lat)) (hδ : 0 ≤ Real.cos δ)
    (hu : |(sunDir δ (deg lat) (deg stime)).u| < 1) (h1 : -180 ≤ stime) (h2 : stime ≤ 180) :
    ∃ h a, sunPosition δ lat stime = .ok (h, a) ∧ compassDir (deg h) (deg a) = sunDir δ (deg lat) (deg stime) := by
  obtain ⟨h, a, hp, -, -, hd⟩ := sunPosition_eq hlat hu
  refine ⟨h, a, hp, hd.trans ?_⟩
  have hpi := Real.pi_pos
  have he : (sunDir δ (deg lat) (deg stime)).e = if 0 < stime then |(sunDir δ (deg lat) (deg stime)).e| else
      -|(sunDir δ (deg lat) (deg stime)).e| := by
    show Real.cos δ * Real.sin (deg stime) = if 0 < stime then |Real.cos δ * Real.sin (deg stime)| else
      -|Real.cos δ * Real.sin (deg stime)|
    split_ifs with h0
    · rw [abs_of_nonneg (mul_nonneg hδ (Real.sin_nonneg_of_nonneg_of_le_pi (by unfold deg; positivity)
        (by unfold deg; nlinarith)))]
    · push Not at h0
      rw [abs_of_nonpos (mul_nonpos_of_nonneg_of_nonpos hδ (Real.sin_nonpos_of_nonpos_of_neg_pi_le
        (by unfold deg; nlinarith) (by unfold deg; nlinarith)))]
      ring
  rw [← he]

/-- **C78, sun.** Beyond 180 degrees (the first hours of the day if the clock is ahead of the sun) the direction is mirrored:
an evening sun in the west is put in the east. -/
theorem C78_sun_mirrored {δ lat stime : ℝ} (hlat : 0 < Real.cos (deg lat)) (hδ : 0 ≤ Real.cos δ)
    (hu : |(sunDir δ (deg lat) (deg stime)).u| < 1) (h1 : 180 ≤ stime) (h2 : stime ≤ 360) :
    ∃ h a, sunPosition δ lat stime = .ok (h, a) ∧
      compassDir (deg h) (deg a) = { sunDir δ (deg lat) (deg stime) with e := -(sunDir δ (deg lat) (deg stime)).e } := by
  obtain ⟨h, a, hp, -, -, hd⟩ := sunPosition_eq hlat hu
  refine ⟨h, a, hp, hd.trans ?_⟩
  have hpi := Real.pi_pos
  have he : (sunDir δ (deg lat) (deg stime)).e ≤ 0 := by
    show Real.cos δ * Real.sin (deg stime) ≤ 0
    have : Real.sin (deg stime) = -Real.sin (deg stime - Real.pi) := by rw [Real.sin_sub_pi]; ring
    rw [this]
    have : 0 ≤ Real.sin (deg stime - Real.pi) := Real.sin_nonneg_of_nonneg_of_le_pi (by unfold deg; linarith [mul_le_mul_of_nonneg_right h1 hpi.le])
      (by unfold deg; linarith [mul_le_mul_of_nonneg_right h2 hpi.le])
    nlinarith
  rw [if_pos (by linarith), abs_of_nonpos he]

/-- **C78, sun: violated.** 60 degrees north at the June solstice, clock 52.5 degrees ahead of the sun: at hour 0 the sun is
above the cut-off in the west, and the table is computed with a sun in the east. -/
theorem C78_sun_refuted : lutHourAngle (0 : ℝ) 0 52.5 = 240 ∧ 0.01 < sinElev (0.4 : ℝ) 60 240 ∧
    (sunDir 0.4 (deg 60) (deg 240)).e < 0 ∧
    ∃ h a, sunPosition (0.4 : ℝ) 60 240 = .ok (h, a) ∧ 0 < (compassDir (deg h) (deg a)).e := by
  have hc60 : Real.cos (deg 60) = 1 / 2 := by
    rw [show deg 60 = Real.pi / 3 by unfold deg; ring, Real.cos_pi_div_three]
  have hs60 : Real.sin (deg 60) = Real.sqrt 3 / 2 := by
    rw [show deg 60 = Real.pi / 3 by unfold deg; ring, Real.sin_pi_div_three]
  have hc240 : Real.cos (deg 240) = -(1 / 2) := by
    rw [show deg 240 = Real.pi / 3 + Real.pi by unfold deg; ring, Real.cos_add_pi, Real.cos_pi_div_three]
  have hs240 : Real.sin (deg 240) = -(Real.sqrt 3 / 2) := by
    rw [show deg 240 = Real.pi / 3 + Real.pi by unfold deg; ring, Real.sin_add_pi, Real.sin_pi_div_three]
  have h3 : (1.73 : ℝ) < Real.sqrt 3 := Real.lt_sqrt_of_sq_lt (by norm_num)
  have h3' : Real.sqrt 3 < 2 := by rw [Real.sqrt_lt' (by norm_num)]; norm_num
  have hsin : 0.384 < Real.sin 0.4 := by
    have := Real.sin_gt_sub_cube (x := 0.4) (by norm_num)
    norm_num at this ⊢; linarith
  have hsin' : Real.sin 0.4 < 0.4 := Real.sin_lt (by norm_num)
  have hcos : 0 < Real.cos 0.4 := Real.cos_pos_of_mem_Ioo ⟨by linarith [Real.pi_gt_three], by linarith [Real.pi_gt_three]⟩
  have hcos1 := Real.cos_le_one 0.4
  have hu : (sunDir 0.4 (deg 60) (deg 240)).u = Real.sin 0.4 * (Real.sqrt 3 / 2) - Real.cos 0.4 / 4 := by
    simp only [sunDir]; rw [hs60, hc60, hc240]; ring
  have he : (sunDir 0.4 (deg 60) (deg 240)).e = -(Real.cos 0.4 * (Real.sqrt 3 / 2)) := by
    simp only [sunDir]; rw [hs240]; ring
  have hep : 0 < Real.cos 0.4 * (Real.sqrt 3 / 2) := by positivity
  have hlow : 0.01 < (sunDir 0.4 (deg 60) (deg 240)).u := by
    rw [hu]; norm_num at hsin h3 ⊢; nlinarith
  refine ⟨by unfold lutHourAngle; norm_num, by rw [sinElev_eq]; exact hlow, by rw [he]; linarith, ?_⟩
  obtain ⟨h, a, hp, hd⟩ := C78_sun_mirrored (δ := 0.4) (lat := 60) (stime := 240) (by rw [hc60]; norm_num) hcos.le
    (by
      rw [abs_of_pos (lt_trans (by norm_num) hlow), hu]
      norm_num at hsin' ⊢; nlinarith) (by norm_num) (by norm_num)
  refine ⟨h, a, hp, ?_⟩
  rw [hd]
  show 0 < -(sunDir 0.4 (deg 60) (deg 240)).e
  rw [he]; linarith

/-! ## Sky view -/

/-- **C78, sky view.** On a level plain every glacier cell sees the whole sky, if the shading is computed at all. -/
theorem C78_svf_plain {z : ℝ} {mask : Nat → Nat → Bool} {aspect : Nat → Nat → ℝ} {lats lons : List ℝ} {svf : Nat → Nat → Option ℝ}
    (h : lutSvf (fun _ _ => z) mask (fun _ _ => 0) aspect lats lons = .ok svf) {i j : Nat} (hm : mask i j = true) :
    svf i j = some 1 := by
  unfold lutSvf at h
  rw [bind_eq_ok] at h
  obtain ⟨bs, hbs, h⟩ := h
  rw [pure_eq_ok] at h
  subst h
  show (if mask i j = true then _ else none) = some 1
  rw [if_pos hm]
  have hsh : ∀ azi el : Nat, (match relshad (fun _ _ => z) mask lats lons (el : ℝ) (azi : ℝ) with
      | .ok illu => illu i j == some false
      | .error _ => false) = false := by
    intro azi el
    split
    · next illu hi =>
      cases hv : illu i j with
      | none => rfl
      | some b =>
        have := C78_summit (Nat.cast_nonneg el) hi (i := i) (j := j) (fun _ _ => le_rfl) hv
        subst this
        rfl
    · rfl
  exact congrArg some ((congrArg (skyViewFactor 0 (aspect i j)) (funext fun azi => funext fun el => hsh azi el)).trans
    (C63_svf_flat _))

/-- Non-vacuity of `C78_svf_plain`: the table exists for a glacier cell in the middle of five by five cells. -/
example : ∃ svf, lutSvf (fun _ _ => (1000 : ℝ)) (fun i j => i == 2 && j == 2) (fun _ _ => 0) (fun _ _ => 0) (latRow 47 0.01 5)
    (lonRow 10 0.01 5) = .ok svf ∧ svf 2 2 = some 1 := by
  obtain ⟨bs, hbs⟩ := (mapM_ok_iff (l := azimuths.flatMap fun a => elevations.map fun e => (a, e))
    (f := fun p : Nat × Nat => relshad (fun _ _ => (1000 : ℝ)) (fun i j => i == 2 && j == 2) (latRow 47 0.01 5)
      (lonRow 10 0.01 5) (p.2 : ℝ) (p.1 : ℝ))).2 fun p _ =>
    C78_returns (fun _ _ => (1000 : ℝ)) (fun i j => i == 2 && j == 2) (top := 47) (left := 10)
      (h := 0.01) (by norm_num) (n := 4) (m := 4) (fun i j h => by simp at h; omega) le_rfl le_rfl (p.2 : ℝ) (p.1 : ℝ)
  have h : ∃ svf, lutSvf (fun _ _ => (1000 : ℝ)) (fun i j => i == 2 && j == 2) (fun _ _ => 0) (fun _ _ => 0) (latRow 47 0.01 5)
      (lonRow 10 0.01 5) = .ok svf := by
    unfold lutSvf
    rw [hbs, ok_bind]
    exact ⟨_, rfl⟩
  obtain ⟨svf, hs⟩ := h
  exact ⟨svf, hs, C78_svf_plain hs (by rfl)⟩

/-- Non-vacuity of `C78_order_refuted`: three latitudes from south to north. -/
example : relshad (fun _ _ => (0 : ℝ)) (fun _ _ => true) [46, 47, 48] [10, 11, 12] 30 180 = .error .value :=
  C78_order_refuted (l0 := 46) (l1 := 48) rfl rfl (by norm_num) (i := 1) (j := 1) (by simp) (by simp) rfl

/-- Non-vacuity of `C78_sun_partial`: 60 degrees north at the equinox, three hours before noon. -/
example : ∃ h a, sunPosition (0 : ℝ) 60 45 = .ok (h, a) ∧ compassDir (deg h) (deg a) = sunDir 0 (deg 60) (deg 45) := by
  have hc60 : Real.cos (deg 60) = 1 / 2 := by
    rw [show deg 60 = Real.pi / 3 by unfold deg; ring, Real.cos_pi_div_three]
  refine C78_sun_partial (by rw [hc60]; norm_num) (by simp) ?_ (by norm_num) (by norm_num)
  have : (sunDir 0 (deg 60) (deg 45)).u = Real.cos (deg 45) / 2 := by simp [sunDir, hc60]; ring
  rw [this, abs_div]
  have := Real.abs_cos_le_one (deg 45)
  norm_num
  linarith

end Cosipy
