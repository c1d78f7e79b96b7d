import Verif.Model.Program
import Verif.Model.Real
import Mathlib.Analysis.SpecialFunctions.Trigonometric.Angle
import Mathlib.Tactic.Linarith
import Mathlib.Tactic.FieldSimp
import Mathlib.Tactic.Ring
import Mathlib.Tactic.NormNum
import Mathlib.Tactic.Positivity

/-!
# C68 — stakes are evaluated in the nearest grid cell

Full property: every stake is evaluated in the grid cell nearest to it. `C68_nearest`: the chosen cell is a cell of the
domain and no other cell is nearer (straight distance between points of the WGS 84 ellipsoid). `C68_injective`,
`C68_wrap`: the Cartesian coordinates determine latitude and longitude, and longitudes may be given in either convention.
`C68_exact_partial`: a stake at the coordinates of a cell is put into a cell with these coordinates. `C68_once`: a stake
belongs to exactly one cell. `C68_far_refuted`: a stake anywhere on the globe is put into the domain.
-/

set_option autoImplicit false
set_option linter.unusedSectionVars false

namespace Cosipy
open Program

/-- Squared straight distance of two points of space. -/
def dist2 (p q : ℝ × ℝ × ℝ) : ℝ := (p.1 - q.1) ^ 2 + (p.2.1 - q.2.1) ^ 2 + (p.2.2 - q.2.2) ^ 2

/-- What `cKDTree.query` promises: the position of a point with the least distance. -/
def Nearest (query : List (ℝ × ℝ × ℝ) → ℝ × ℝ × ℝ → Nat) : Prop :=
  ∀ ps q, ps ≠ [] → ∃ p, ps[query ps q]? = some p ∧ ∀ p' ∈ ps, dist2 p q ≤ dist2 p' q

section
variable {α : Type}

theorem cellCoords_length (ny nx : Nat) (lat lon : Nat → Nat → α) : (cellCoords ny nx lat lon).length = ny * nx := by
  unfold cellCoords
  rw [List.length_flatMap]
  simp

theorem cellCoords_get {ny nx : Nat} {lat lon : Nat → Nat → α} {i : Nat} {p : α × α}
    (h : (cellCoords ny nx lat lon)[i]? = some p) :
    i / nx < ny ∧ i % nx < nx ∧ p = (lat (i / nx) (i % nx), lon (i / nx) (i % nx)) := by
  have key : ∀ (ys : List Nat) (i : Nat) (p : α × α),
      (ys.flatMap fun y => (List.range nx).map fun x => (lat y x, lon y x))[i]? = some p →
      i % nx < nx ∧ ∃ y, ys[i / nx]? = some y ∧ p = (lat y (i % nx), lon y (i % nx)) := by
    intro ys
    induction ys with
    | nil => intro i p h; simp at h
    | cons y ys ih =>
      intro i p h
      rw [List.flatMap_cons, List.getElem?_append] at h
      simp only [List.length_map, List.length_range] at h
      split_ifs at h with hi
      · rw [List.getElem?_map, List.getElem?_range hi] at h
        cases h
        refine ⟨Nat.mod_lt _ (by omega), y, ?_, ?_⟩
        · rw [Nat.div_eq_of_lt hi]; rfl
        · rw [Nat.mod_eq_of_lt hi]
      · have hnx : 0 < nx := by
          rcases Nat.eq_zero_or_pos nx with h0 | h0
          · subst h0
            simp at h
          · exact h0
        obtain ⟨h1, y', h2, h3⟩ := ih (i - nx) p h
        have hle : nx ≤ i := by omega
        have e1 : i % nx = (i - nx) % nx := (Nat.mod_eq_sub_mod hle)
        have e2 : i / nx = (i - nx) / nx + 1 := by rw [Nat.div_eq_sub_div hnx hle]
        rw [e1, e2]
        exact ⟨h1, y', h2, h3⟩
  obtain ⟨h1, y, h2, h3⟩ := key _ _ _ h
  have hlt : i / nx < ny := by
    have := (List.getElem?_eq_some_iff.1 h2).1
    simpa using this
  rw [List.getElem?_range hlt] at h2
  cases h2
  exact ⟨hlt, h1, h3⟩

theorem mem_cellCoords {ny nx : Nat} {lat lon : Nat → Nat → α} {y x : Nat} (hy : y < ny) (hx : x < nx) :
    (lat y x, lon y x) ∈ cellCoords ny nx lat lon := by
  unfold cellCoords
  rw [List.mem_flatMap]
  exact ⟨y, List.mem_range.2 hy, List.mem_map.2 ⟨x, List.mem_range.2 hx, rfl⟩⟩

end

/-- **C68, nearest cell.** In a non-empty domain the cell of a stake is a cell of the domain, and its distance to the
stake is the least of all cells. -/
theorem C68_nearest {query : List (ℝ × ℝ × ℝ) → ℝ × ℝ × ℝ → Nat} (hq : Nearest query) {ny nx : Nat} (hny : 0 < ny)
    (hnx : 0 < nx) (lat lon : Nat → Nat → ℝ) (stake : ℝ × ℝ) :
    (stakeCell query ny nx lat lon stake).1 < ny ∧ (stakeCell query ny nx lat lon stake).2 < nx ∧
    ∀ y < ny, ∀ x < nx,
      dist2 (transformCoordinates (lat (stakeCell query ny nx lat lon stake).1 (stakeCell query ny nx lat lon stake).2)
          (lon (stakeCell query ny nx lat lon stake).1 (stakeCell query ny nx lat lon stake).2))
        (transformCoordinates stake.1 stake.2) ≤
      dist2 (transformCoordinates (lat y x) (lon y x)) (transformCoordinates stake.1 stake.2) := by
  unfold stakeCell unravel
  set ps := (cellCoords ny nx lat lon).map fun c => transformCoordinates c.1 c.2 with hps
  have hne : ps ≠ [] := by
    intro h
    have := congrArg List.length h
    rw [hps, List.length_map, cellCoords_length] at this
    simp only [List.length_nil, mul_eq_zero] at this
    omega
  obtain ⟨p, h1, h2⟩ := hq ps (transformCoordinates stake.1 stake.2) hne
  set i := query ps (transformCoordinates stake.1 stake.2)
  have h1' := h1
  rw [hps, List.getElem?_map] at h1'
  cases hc : (cellCoords ny nx lat lon)[i]? with
  | none => rw [hc] at h1'; cases h1'
  | some c =>
    rw [hc] at h1'
    simp only [Option.map_some, Option.some.injEq] at h1'
    obtain ⟨a, b, e⟩ := cellCoords_get hc
    refine ⟨a, b, fun y hy x hx => ?_⟩
    have := h2 (transformCoordinates (lat y x) (lon y x)) (by
      rw [hps]
      exact List.mem_map.2 ⟨_, mem_cellCoords hy hx, rfl⟩)
    rw [← h1', e] at this
    exact this

/-! ## The coordinates -/

theorem transform_real (lat lon : ℝ) : transformCoordinates lat lon =
    (6378.137 / √(1 - 6.69437999014e-3 * (Real.sin (lat * Real.pi / 180) * Real.sin (lat * Real.pi / 180))) *
        Real.cos (lat * Real.pi / 180) * Real.cos (lon * Real.pi / 180),
     6378.137 / √(1 - 6.69437999014e-3 * (Real.sin (lat * Real.pi / 180) * Real.sin (lat * Real.pi / 180))) *
        Real.cos (lat * Real.pi / 180) * Real.sin (lon * Real.pi / 180),
     6378.137 / √(1 - 6.69437999014e-3 * (Real.sin (lat * Real.pi / 180) * Real.sin (lat * Real.pi / 180))) *
        (1 - 6.69437999014e-3) * Real.sin (lat * Real.pi / 180)) := by
  have e : (180.0 : ℝ) = 180 := by norm_num
  unfold transformCoordinates radians
  rw [e]
  rfl

/-- **C68, longitude conventions.** Longitudes that differ by a full turn give the same point. -/
theorem C68_wrap (lat lon : ℝ) : transformCoordinates lat (lon + 360) = transformCoordinates lat lon := by
  have e : (lon + 360) * Real.pi / 180 = lon * Real.pi / 180 + 2 * Real.pi := by ring
  rw [transform_real, transform_real, e, Real.cos_add_two_pi, Real.sin_add_two_pi]

/-- The third coordinate determines the sine of the latitude. -/
theorem sin_of_z {s s' : ℝ} (hs : s ^ 2 ≤ 1) (hs' : s' ^ 2 ≤ 1)
    (h : 6378.137 / √(1 - 6.69437999014e-3 * (s * s)) * (1 - 6.69437999014e-3) * s =
      6378.137 / √(1 - 6.69437999014e-3 * (s' * s')) * (1 - 6.69437999014e-3) * s') : s = s' := by
  have p : 0 < 1 - 6.69437999014e-3 * (s * s) := by nlinarith
  have p' : 0 < 1 - 6.69437999014e-3 * (s' * s') := by nlinarith
  have q := Real.sqrt_pos.2 p
  have q' := Real.sqrt_pos.2 p'
  have h2 : s * √(1 - 6.69437999014e-3 * (s' * s')) = s' * √(1 - 6.69437999014e-3 * (s * s)) := by
    have : s / √(1 - 6.69437999014e-3 * (s * s)) = s' / √(1 - 6.69437999014e-3 * (s' * s')) := by
      have k : (6378.137 * (1 - 6.69437999014e-3) : ℝ) ≠ 0 := by norm_num
      apply mul_left_cancel₀ k
      calc _ = 6378.137 / √(1 - 6.69437999014e-3 * (s * s)) * (1 - 6.69437999014e-3) * s := by ring
        _ = _ := h
        _ = _ := by ring
    rwa [div_eq_div_iff q.ne' q'.ne'] at this
  have h3 : s ^ 2 * (1 - 6.69437999014e-3 * (s' * s')) = s' ^ 2 * (1 - 6.69437999014e-3 * (s * s)) := by
    have := congrArg (· ^ 2) h2
    simp only [mul_pow] at this
    rwa [Real.sq_sqrt p.le, Real.sq_sqrt p'.le] at this
  have h4 : s ^ 2 = s' ^ 2 := by nlinarith
  rcases sq_eq_sq_iff_eq_or_eq_neg.1 h4 with h5 | h5
  · exact h5
  · subst h5
    have e : (-s') * (-s') = s' * s' := by ring
    rw [e] at h2
    have : s' * √(1 - 6.69437999014e-3 * (s' * s')) = 0 := by linarith
    rcases mul_eq_zero.1 this with h6 | h6
    · rw [h6]; simp
    · exact absurd h6 q'.ne'

/-- **C68, coordinates determine the place.** Away from the poles, and with longitudes in one turn, different coordinates
are different points. -/
theorem C68_injective {lat lon lat' lon' : ℝ} (h1 : -90 < lat) (h2 : lat < 90) (h1' : -90 < lat') (h2' : lat' < 90)
    (hlon : |lon - lon'| < 360) (h : transformCoordinates lat lon = transformCoordinates lat' lon') :
    lat = lat' ∧ lon = lon' := by
  have hpi := Real.pi_pos
  rw [transform_real, transform_real] at h
  obtain ⟨hx, hyz⟩ := Prod.mk.inj h
  obtain ⟨hy, hz⟩ := Prod.mk.inj hyz
  have hs : Real.sin (lat * Real.pi / 180) = Real.sin (lat' * Real.pi / 180) :=
    sin_of_z (Real.sin_sq_le_one _) (Real.sin_sq_le_one _) hz
  have hlat : lat = lat' := by
    have m : ∀ {l : ℝ}, -90 < l → l < 90 → l * Real.pi / 180 ∈ Set.Icc (-(Real.pi / 2)) (Real.pi / 2) := by
      intro l a b
      constructor
      · have := mul_le_mul_of_nonneg_right a.le hpi.le
        linarith
      · have := mul_le_mul_of_nonneg_right b.le hpi.le
        linarith
    have := Real.injOn_sin (m h1 h2) (m h1' h2') hs
    have h3 : lat * Real.pi = lat' * Real.pi := by linarith
    exact mul_right_cancel₀ hpi.ne' h3
  subst hlat
  refine ⟨rfl, ?_⟩
  have hc : 0 < Real.cos (lat * Real.pi / 180) := by
    apply Real.cos_pos_of_mem_Ioo
    constructor
    · have := mul_lt_mul_of_pos_right h1 hpi
      linarith
    · have := mul_lt_mul_of_pos_right h2 hpi
      linarith
  have hp : 0 < 1 - 6.69437999014e-3 * (Real.sin (lat * Real.pi / 180) * Real.sin (lat * Real.pi / 180)) := by
    have := Real.sin_sq_le_one (lat * Real.pi / 180)
    nlinarith
  have hr : 6378.137 / √(1 - 6.69437999014e-3 * (Real.sin (lat * Real.pi / 180) * Real.sin (lat * Real.pi / 180))) *
      Real.cos (lat * Real.pi / 180) ≠ 0 :=
    mul_ne_zero (div_ne_zero (by norm_num) (Real.sqrt_pos.2 hp).ne') hc.ne'
  have c1 := mul_left_cancel₀ hr hx
  have c2 := mul_left_cancel₀ hr hy
  obtain ⟨k, hk⟩ := Real.Angle.angle_eq_iff_two_pi_dvd_sub.1 (Real.Angle.cos_sin_inj c1 c2)
  have hk' : lon - lon' = 360 * k := by
    have : (lon - lon') * Real.pi = 360 * k * Real.pi := by linarith
    exact mul_right_cancel₀ hpi.ne' this
  have hk0 : k = 0 := by
    rw [hk', abs_mul, abs_of_pos (by norm_num : (0 : ℝ) < 360)] at hlon
    have : |(k : ℝ)| < 1 := by linarith
    have : |k| < 1 := by exact_mod_cast this
    exact Int.abs_lt_one_iff.1 this
  rw [hk0] at hk'
  simp only [Int.cast_zero, mul_zero] at hk'
  linarith

theorem dist2_eq_zero {p q : ℝ × ℝ × ℝ} (h : dist2 p q ≤ 0) : p = q := by
  unfold dist2 at h
  have h1 := sq_nonneg (p.1 - q.1)
  have h2 := sq_nonneg (p.2.1 - q.2.1)
  have h3 := sq_nonneg (p.2.2 - q.2.2)
  have e1 : p.1 - q.1 = 0 := by apply pow_eq_zero_iff (two_ne_zero) |>.1; linarith
  have e2 : p.2.1 - q.2.1 = 0 := by apply pow_eq_zero_iff (two_ne_zero) |>.1; linarith
  have e3 : p.2.2 - q.2.2 = 0 := by apply pow_eq_zero_iff (two_ne_zero) |>.1; linarith
  exact Prod.ext (by linarith) (Prod.ext (by linarith) (by linarith))

/-- **C68, stake at a cell.** A stake whose coordinates are those of a cell (no poles, one convention of longitudes) is
put into a cell with exactly these coordinates. -/
theorem C68_exact_partial {query : List (ℝ × ℝ × ℝ) → ℝ × ℝ × ℝ → Nat} (hq : Nearest query) {ny nx : Nat}
    {lat lon : Nat → Nat → ℝ} (hlat : ∀ y x, -90 < lat y x ∧ lat y x < 90)
    (hlon : ∀ y x y' x', |lon y x - lon y' x'| < 360) {y x : Nat} (hy : y < ny) (hx : x < nx) :
    let c := stakeCell query ny nx lat lon (lat y x, lon y x)
    lat c.1 c.2 = lat y x ∧ lon c.1 c.2 = lon y x := by
  intro c
  obtain ⟨-, -, h3⟩ := C68_nearest hq (by omega : 0 < ny) (by omega : 0 < nx) lat lon (lat y x, lon y x)
  have h4 := h3 y hy x hx
  have h5 : dist2 (transformCoordinates (lat y x) (lon y x)) (transformCoordinates (lat y x) (lon y x)) = 0 := by
    unfold dist2; ring
  rw [h5] at h4
  exact C68_injective (hlat _ _).1 (hlat _ _).2 (hlat _ _).1 (hlat _ _).2 (hlon _ _ _ _) (dist2_eq_zero h4)

/-- **C68, one cell per stake.** The stakes handed to the cells of the domain are all stakes whose cell lies in it, each
once: for every list of stakes with their cells, the lists of the cells put together are a permutation of all stakes. -/
theorem C68_once (cells : List ((Nat × Nat) × String)) (ny nx : Nat) (h : ∀ c ∈ cells, c.1.1 < ny ∧ c.1.2 < nx) :
    (((List.range ny).flatMap fun y => (List.range nx).flatMap fun x => stakeNames cells y x)).Perm (cells.map (·.2)) := by
  induction cells with
  | nil => simp [stakeNames]
  | cons c cells ih =>
    obtain ⟨⟨cy, cx⟩, name⟩ := c
    obtain ⟨hy, hx⟩ := h _ List.mem_cons_self
    have ih' := ih fun d hd => h d (List.mem_cons_of_mem _ hd)
    have step : ∀ y x, stakeNames (((cy, cx), name) :: cells) y x =
        (if (cy, cx) = (y, x) then [name] else []) ++ stakeNames cells y x := by
      intro y x
      unfold stakeNames
      rw [List.filter_cons]
      by_cases e : (cy, cx) = (y, x)
      · simp [e]
      · simp [e]
    have single : ∀ (n : Nat) (k : Nat) (hk : k < n) (f g : Nat → List String),
        ((List.range n).flatMap fun i => (if k = i then f i else []) ++ g i).Perm (f k ++ (List.range n).flatMap g) := by
      intro n
      induction n with
      | zero => intro k hk; omega
      | succ n ihn =>
        intro k hk f g
        rw [List.range_succ, List.flatMap_append, List.flatMap_append]
        simp only [List.flatMap_cons, List.flatMap_nil, List.append_nil]
        by_cases e : k = n
        · subst e
          rw [if_pos rfl]
          have : ((List.range k).flatMap fun i => (if k = i then f i else []) ++ g i) = (List.range k).flatMap g := by
            refine List.flatMap_congr fun i hi => ?_
            have : k ≠ i := by have := List.mem_range.1 hi; omega
            rw [if_neg this, List.nil_append]
          rw [this, ← List.append_assoc, ← List.append_assoc]
          exact (List.perm_append_comm).append_right _
        · rw [if_neg e, List.nil_append, ← List.append_assoc]
          exact (ihn k (by omega) f g).append_right _
    have e1 : ((List.range ny).flatMap fun y => (List.range nx).flatMap fun x =>
        stakeNames (((cy, cx), name) :: cells) y x).Perm
        ((List.range ny).flatMap fun y => (if cy = y then [name] else []) ++
          (List.range nx).flatMap fun x => stakeNames cells y x) := by
      refine List.Perm.flatMap_left _ fun y _ => ?_
      by_cases e : cy = y
      · subst e
        rw [if_pos rfl]
        have := single nx cx hx (fun _ => [name]) (fun x => stakeNames cells cy x)
        refine List.Perm.trans (List.Perm.of_eq ?_) this
        refine List.flatMap_congr fun x _ => ?_
        rw [step]
        by_cases e' : cx = x
        · simp [e']
        · simp [e']
      · rw [if_neg e, List.nil_append]
        refine List.Perm.of_eq (List.flatMap_congr fun x _ => ?_)
        rw [step, if_neg (by simp [e]), List.nil_append]
    refine e1.trans ?_
    refine (single ny cy hy (fun _ => [name]) _).trans ?_
    rw [List.map_cons, List.singleton_append]
    exact ih'.cons name

/-- **C68, no limit on the distance.** In a domain of one cell every stake, wherever it is, is evaluated in that cell. -/
theorem C68_far_refuted {query : List (ℝ × ℝ × ℝ) → ℝ × ℝ × ℝ → Nat} (hq : Nearest query) (lat lon : Nat → Nat → ℝ)
    (stake : ℝ × ℝ) : stakeCell query 1 1 lat lon stake = (0, 0) := by
  obtain ⟨h1, h2, -⟩ := C68_nearest hq one_pos one_pos lat lon stake
  exact Prod.ext (by omega) (by omega)

/-! ## Non-vacuity -/

/-- A linear search: the position of the first point with the least distance. -/
noncomputable def linearQuery (ps : List (ℝ × ℝ × ℝ)) (q : ℝ × ℝ × ℝ) : Nat :=
  open Classical in if h : ∃ i p, ps[i]? = some p ∧ ∀ p' ∈ ps, dist2 p q ≤ dist2 p' q then Nat.find h else 0

/-- A query as promised exists. -/
theorem linearQuery_nearest : Nearest linearQuery := by
  intro ps q hne
  have hmin : ∃ p ∈ ps, ∀ p' ∈ ps, dist2 p q ≤ dist2 p' q := by
    have hf : (ps.toFinset).Nonempty := by
      cases ps with
      | nil => exact absurd rfl hne
      | cons a l => exact ⟨a, by simp⟩
    obtain ⟨p, hp, h⟩ := Finset.exists_min_image ps.toFinset (fun p => dist2 p q) hf
    exact ⟨p, List.mem_toFinset.1 hp, fun p' hp' => h p' (List.mem_toFinset.2 hp')⟩
  obtain ⟨p, hp, h⟩ := hmin
  obtain ⟨i, hi⟩ := List.mem_iff_getElem?.1 hp
  have hex : ∃ i p, ps[i]? = some p ∧ ∀ p' ∈ ps, dist2 p q ≤ dist2 p' q := ⟨i, p, hi, h⟩
  unfold linearQuery
  rw [dif_pos hex]
  classical
  convert Nat.find_spec hex

/-- Non-vacuity of `C68_exact_partial`: the shipped glacier's corner coordinates on a 2 × 2 grid. -/
example : (∀ y : Nat, -90 < (30.46 + 0.01 * ((y % 2 : Nat) : ℝ)) ∧ (30.46 + 0.01 * ((y % 2 : Nat) : ℝ)) < 90) ∧ Nearest linearQuery := by
  refine ⟨fun y => ?_, linearQuery_nearest⟩
  have h : ((y % 2 : Nat) : ℝ) ≤ 1 := by
    have : y % 2 ≤ 1 := by omega
    exact_mod_cast this
  have h0 : (0 : ℝ) ≤ ((y % 2 : Nat) : ℝ) := Nat.cast_nonneg _
  constructor <;> norm_num <;> linarith

/-- Stakes of two cells. -/
example : stakeNames [((0, 1), "a"), ((1, 0), "b"), ((0, 1), "c")] 0 1 = ["a", "c"] ∧
    unravel 3 5 = (1, 2) := by decide +kernel

end Cosipy
