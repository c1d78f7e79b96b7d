import Verif.Model.Prepared
import Verif.Lemmas.Config
import Verif.Lemmas.Collect
import Mathlib.Algebra.Order.Field.Basic
import Mathlib.Algebra.Order.Ring.Rat
import Mathlib.Algebra.Order.AbsoluteValue.Basic
import Mathlib.Tactic.Linarith

/-!
# C86: prepared input files say where and what their data are

Coordinates and units of the files aws2cosipy and wrf2cosipy write.
-/

set_option autoImplicit false
set_option linter.unusedSectionVars false

namespace Cosipy.Aws

/-! ## Coordinates -/

section
variable {α : Type}

/-- Latitude and longitude the coordinates give for row `i` and column `j`. -/
def Coords.at (c : Coords α) (i j : Nat) : Option (α × α) :=
  match c with
  | .axes lat lon => do
    let a ← lat[i]?
    let b ← lon[j]?
    return (a, b)
  | .fields lat lon => do
    let ra ← lat[i]?
    let rb ← lon[i]?
    let a ← ra[j]?
    let b ← rb[j]?
    return (a, b)

/-- **C86, grids of aws2cosipy.** With and without WRF dimensions: the cell in row `i` and column `j` lies at the `i`-th
latitude and the `j`-th longitude of the static file; there are no other cells. -/
theorem C86_grid (wrf : Bool) (lats lons : List α) (i j : Nat) :
    (gridCoords wrf lats lons).at i j = match lats[i]?, lons[j]? with
      | some a, some b => some (a, b)
      | _, _ => none := by
  cases wrf
  · unfold gridCoords Coords.at
    simp only [Bool.false_eq_true, if_false]
    cases lats[i]? <;> cases lons[j]? <;> rfl
  · unfold gridCoords meshgrid Coords.at
    simp only [if_true, List.getElem?_map]
    cases hi : lats[i]? with
    | none => rfl
    | some a =>
      cases hj : lons[j]? with
      | none => simp [hj]
      | some b =>
        obtain ⟨hlt, hb⟩ := List.getElem?_eq_some_iff.1 hj
        simp [hlt, hb]

/-- **C86, wrf2cosipy.** The coordinates are the fields of WRF at its first time. -/
theorem C86_wrf {xlat xlong : List (List (List α))} {c : Coords α} (h : wrfCoords xlat xlong = .ok c) (i j : Nat) :
    ∃ lat lon, xlat.head? = some lat ∧ xlong.head? = some lon ∧
      (c.at i j = do
        let ra ← lat[i]?
        let rb ← lon[i]?
        let a ← ra[j]?
        let b ← rb[j]?
        return (a, b)) := by
  unfold wrfCoords at h
  cases xlat with
  | nil => cases h
  | cons lat xlat =>
    cases xlong with
    | nil => cases h
    | cons lon xlong =>
      rw [ok_inj] at h
      subst h
      exact ⟨lat, lon, rfl, rfl, rfl⟩

end

section
variable {K : Type} [Field K] [LinearOrder K] [IsStrictOrderedRing K]

theorem dist_eq (a p : K) : (if a - p < 0 then -(a - p) else a - p) = |a - p| := by
  split_ifs with h
  · exact (abs_of_neg h).symm
  · exact (abs_of_nonneg (not_lt.1 h)).symm

theorem nearest_fold (p : K) : ∀ (xs : List K) (x : K),
    let r := xs.foldl (fun b x =>
      if (if x - p < 0 then -(x - p) else x - p) < (if b - p < 0 then -(b - p) else b - p) then x
      else if (if x - p < 0 then -(x - p) else x - p) == (if b - p < 0 then -(b - p) else b - p) then
        (if b < x then x else b) else b) x
    r ∈ x :: xs ∧ ∀ y ∈ x :: xs, |r - p| ≤ |y - p| := by
  intro xs
  induction xs with
  | nil => intro x; exact ⟨List.mem_cons_self, fun y hy => by rw [List.mem_singleton.1 hy]; exact le_refl _⟩
  | cons z xs ih =>
    intro x
    rw [List.foldl_cons]
    set b : K := if (if z - p < 0 then -(z - p) else z - p) < (if x - p < 0 then -(x - p) else x - p) then z
      else if (if z - p < 0 then -(z - p) else z - p) == (if x - p < 0 then -(x - p) else x - p) then
        (if x < z then z else x) else x with hb
    have hbm : (b = x ∨ b = z) ∧ |b - p| ≤ |x - p| ∧ |b - p| ≤ |z - p| := by
      rw [hb]
      simp only [dist_eq]
      split_ifs with h1 h2 h3
      · exact ⟨Or.inr rfl, le_of_lt h1, le_refl _⟩
      · rw [beq_iff_eq] at h2
        exact ⟨Or.inr rfl, le_of_eq h2, le_refl _⟩
      · rw [beq_iff_eq] at h2
        exact ⟨Or.inl rfl, le_refl _, le_of_eq h2.symm⟩
      · exact ⟨Or.inl rfl, le_refl _, not_lt.1 h1⟩
    obtain ⟨i1, i2⟩ := ih b
    have hle := i2 b List.mem_cons_self
    refine ⟨?_, fun y hy => ?_⟩
    · rcases List.mem_cons.1 i1 with h | h
      · rw [h]
        rcases hbm.1 with h | h <;> rw [h] <;> simp
      · exact List.mem_cons_of_mem _ (List.mem_cons_of_mem _ h)
    · rcases List.mem_cons.1 hy with rfl | hy
      · exact hle.trans hbm.2.1
      · rcases List.mem_cons.1 hy with rfl | hy
        · exact hle.trans hbm.2.2
        · exact i2 y (List.mem_cons_of_mem _ hy)

/-- The nearest value of an axis. -/
theorem nearest_ok {p r : K} {xs : List K} (h : nearest p xs = .ok r) : r ∈ xs ∧ ∀ y ∈ xs, |r - p| ≤ |y - p| := by
  cases xs with
  | nil => cases h
  | cons x xs =>
    unfold nearest at h
    rw [ok_inj] at h
    subst h
    exact nearest_fold p xs x

theorem nearest_exists (p : K) {xs : List K} (h : xs ≠ []) : ∃ r, nearest p xs = .ok r := by
  cases xs with
  | nil => exact absurd rfl h
  | cons x xs => exact ⟨_, rfl⟩

/-- **C86, points of aws2cosipy.** Full statement: the file's only point lies at the configured latitude and longitude.
Proved: without WRF dimensions the latitude is the configured one; so is the longitude without a static file, with one
it is the nearest longitude of that file. Missing: WRF dimensions (`C86_point_refuted`). -/
theorem C86_point_partial {static : Option (List K × List K)} {plat plon : K} {c : Coords K}
    (h : pointCoords false static plat plon = .ok c) :
    ∃ lon, c.at 0 0 = some (plat, lon) ∧ (∀ i j, 0 < i ∨ 0 < j → c.at i j = none) ∧
      match static with
      | none => lon = plon
      | some (_, lons) => lon ∈ lons ∧ ∀ l ∈ lons, |lon - plon| ≤ |l - plon| := by
  have none_of : ∀ (lon : K) (i j : Nat), 0 < i ∨ 0 < j → (Coords.axes [plat] [lon]).at i j = none := by
    intro lon i j hij
    unfold Coords.at
    rcases hij with hi | hj
    · obtain ⟨i, rfl⟩ := Nat.exists_eq_succ_of_ne_zero (by omega : i ≠ 0)
      rfl
    · obtain ⟨j, rfl⟩ := Nat.exists_eq_succ_of_ne_zero (by omega : j ≠ 0)
      cases i <;> rfl
  unfold pointCoords at h
  rw [if_neg (by decide)] at h
  cases static with
  | none =>
    rw [ok_inj] at h
    subst h
    exact ⟨plon, rfl, none_of plon, rfl⟩
  | some s =>
    obtain ⟨lats, lons⟩ := s
    simp only [bind_eq_ok, pure_eq_ok] at h
    obtain ⟨lon, hl, rfl⟩ := h
    exact ⟨lon, rfl, none_of lon, nearest_ok hl⟩

/-- With WRF dimensions the configured longitude is stored as latitude and the latitude as longitude, with any static
file. -/
theorem C86_point_refuted (static : Option (List K × List K)) (plat plon : K) :
    ∃ c, pointCoords true static plat plon = .ok c ∧ c.at 0 0 = some (plon, plat) := ⟨_, rfl, rfl⟩

/-- With a static file, slope, aspect and mask are those of a cell at another latitude than the one in the file, unless
the static file has exactly the configured latitude. -/
theorem C86_static_latitude {static : List K × List K} {plat plon r : K} {c : Coords K}
    (h : pointCoords false (some static) plat plon = .ok c) (hr : staticLat static plat = .ok r) :
    (∃ lon, c.at 0 0 = some (r, lon)) ↔ plat ∈ static.1 := by
  obtain ⟨lon, hc, _⟩ := C86_point_partial h
  obtain ⟨hm, hn⟩ := nearest_ok hr
  constructor
  · rintro ⟨l, hl⟩
    rw [hc] at hl
    cases hl
    exact hm
  · intro hp
    have := hn plat hp
    rw [sub_self, abs_zero] at this
    have : r = plat := sub_eq_zero.1 (abs_eq_zero.1 (le_antisymm this (abs_nonneg _)))
    exact ⟨lon, by rw [this]; exact hc⟩

end

/-- The sample configuration's point (30.47 N, 90.65 E): with WRF dimensions it lies beyond the pole. -/
example : (pointCoords (α := ℚ) true none 30.47 90.65).toOption.bind (·.at 0 0) = some (90.65, 30.47) ∧
    (pointCoords (α := ℚ) false (some ([30, 31], [90, 91])) 30.47 90.65).toOption.bind (·.at 0 0) = some (30.47, 91) ∧
    (staticLat (α := ℚ) ([30, 31], [90, 91]) 30.47).toOption = some 30 ∧
    (gridCoords (α := ℚ) true [30, 31] [90, 91, 92]).at 1 2 = some (31, 92) := by decide +kernel

/-! ## Units -/

/-- What a unit text means. -/
inductive Quantity
  | metre | millimetre | degree | number | percent | kelvin | metrePerSecond | hectopascal | wattPerSquareMetre
  deriving DecidableEq

/-- Different spellings of the same unit. -/
def quantity : String → Option Quantity
  | "m" => some .metre
  | "mm" => some .millimetre
  | "degrees" => some .degree
  | "boolean" | "-" => some .number
  | "%" => some .percent
  | "K" => some .kelvin
  | "m s⁻¹" | "m s^-1" => some .metrePerSecond
  | "hPa" => some .hectopascal
  | "W m⁻²" | "W m^-2" => some .wattPerSquareMetre
  | _ => none

/-- The unit in which the simulation takes a variable (cloud cover as a fraction: its range is 0 to 1, C50). -/
def taken : String → Option Quantity
  | "HGT" | "SNOWFALL" | "SNOWHEIGHT" => some .metre
  | "RRR" => some .millimetre
  | "SLOPE" | "ASPECT" => some .degree
  | "MASK" | "N" => some .number
  | "RH2" => some .percent
  | "T2" => some .kelvin
  | "U2" => some .metrePerSecond
  | "PRES" => some .hectopascal
  | "G" | "LWin" => some .wattPerSquareMetre
  | _ => none

/-- The variables aws2cosipy writes: nine always, four if the table has them. -/
theorem C86_aws_variables (has : String → Bool) : ∃ vs, awsVars has = .ok vs ∧
    vs.map Prod.fst = ["HGT", "ASPECT", "SLOPE", "MASK", "T2", "RH2", "U2", "G", "PRES"] ++
      ["RRR", "SNOWFALL", "LWin", "N"].filter has := by
  unfold awsVars
  have key : ∀ ns : List String, (∀ n ∈ ns, n ∈ awsLabels.map Prod.fst) →
      ∃ vs, (ns.mapM fun n => do
        let l ← awsLabels.get n
        return (n, l)) = (.ok vs : M (List (String × Label))) ∧ vs.map Prod.fst = ns := by
    intro ns
    induction ns with
    | nil => intro _; exact ⟨[], rfl, rfl⟩
    | cons n ns ih =>
      intro h
      obtain ⟨vs, h1, h2⟩ := ih fun m hm => h m (List.mem_cons_of_mem _ hm)
      have tab : ∀ n ∈ awsLabels.map Prod.fst, (awsLabels.lookup n).isSome = true := by decide +kernel
      obtain ⟨l, hl⟩ := Option.isSome_iff_exists.1 (tab n (h n List.mem_cons_self))
      refine ⟨(n, l) :: vs, ?_, by rw [List.map_cons, h2]⟩
      rw [List.mapM_cons, Dict.get_eq_ok.2 hl, ok_bind, h1]
      rfl
  refine key _ fun n hn => ?_
  have tab : ∀ n ∈ ["HGT", "ASPECT", "SLOPE", "MASK", "T2", "RH2", "U2", "G", "PRES"] ++ ["RRR", "SNOWFALL", "LWin", "N"],
      n ∈ awsLabels.map Prod.fst := by decide +kernel
  rcases List.mem_append.1 hn with h | h
  · exact tab n (List.mem_append_left _ h)
  · exact tab n (List.mem_append_right _ (List.mem_of_mem_filter h))

theorem forall₂_right {β δ : Type} {R : β → δ → Prop} : ∀ {xs : List β} {ys : List δ}, List.Forall₂ R xs ys →
    ∀ {y : δ}, y ∈ ys → ∃ x, R x y
  | _, _, .nil, _, hy => nomatch hy
  | _, _, .cons h t, _, hy => by
    rcases List.mem_cons.1 hy with rfl | hy
    · exact ⟨_, h⟩
    · exact forall₂_right t hy

theorem awsVars_mem {has : String → Bool} {vs : List (String × Label)} (h : awsVars has = .ok vs) {p : String × Label}
    (hp : p ∈ vs) : p ∈ awsLabels := by
  unfold awsVars at h
  rw [mapM_eq_ok_iff] at h
  obtain ⟨n, hn⟩ := forall₂_right h hp
  simp only [bind_eq_ok, pure_eq_ok] at hn
  obtain ⟨l, hl, rfl⟩ := hn
  exact mem_of_lookup (Dict.get_eq_ok.1 hl)

/-- **C86, units of aws2cosipy.** Full statement: every variable is labelled with the unit in which the simulation takes
it. Proved for all but cloud cover. -/
theorem C86_aws_units_partial {has : String → Bool} {vs : List (String × Label)} (h : awsVars has = .ok vs)
    {p : String × Label} (hp : p ∈ vs) (hn : p.1 ≠ "N") : (quantity p.2.units).isSome ∧
      quantity p.2.units = taken p.1 := by
  have tab : ∀ p ∈ awsLabels, p.1 ≠ "N" → (quantity p.2.units).isSome ∧ quantity p.2.units = taken p.1 := by
    decide +kernel
  exact tab p (awsVars_mem h hp) hn

/-- Cloud cover is labelled as a percentage, but taken (and checked, C87) as a fraction. -/
theorem C86_aws_units_refuted {has : String → Bool} {vs : List (String × Label)} (h : awsVars has = .ok vs)
    {l : Label} (hp : ("N", l) ∈ vs) : quantity l.units = some .percent ∧ taken "N" = some .number := by
  have tab : ∀ p ∈ awsLabels, p.1 = "N" → quantity p.2.units = some .percent := by decide +kernel
  exact ⟨tab _ (awsVars_mem h hp) rfl, rfl⟩

/-- **C86, units of wrf2cosipy.** Proved for all variables the simulation takes but temperature. -/
theorem C86_wrf_units_partial : ∀ p ∈ wrfVars, p.1 ≠ "T2" → (taken p.1).isSome → quantity p.2.units = taken p.1 := by
  decide +kernel

/-- Temperature is labelled as a length. -/
theorem C86_wrf_units_refuted : ∃ l, ("T2", l) ∈ wrfVars ∧ quantity l.units = some .metre ∧
    taken "T2" = some .kelvin := ⟨⟨"m", "Temperature at 2 m"⟩, by decide +kernel, rfl, rfl⟩

/-- A table without cloud cover, with longwave radiation. -/
example : ∃ vs, awsVars (· != "N") = .ok vs ∧ vs.length = 12 := by
  obtain ⟨vs, h1, h2⟩ := C86_aws_variables (· != "N")
  exact ⟨vs, h1, by rw [← List.length_map (f := Prod.fst), h2]; rfl⟩

example : ∃ vs l, awsVars (fun _ => true) = .ok vs ∧ ("N", l) ∈ vs := by
  obtain ⟨vs, h1, h2⟩ := C86_aws_variables fun _ => true
  have : "N" ∈ vs.map Prod.fst := by rw [h2]; decide
  obtain ⟨⟨n, l⟩, hp, rfl⟩ := List.mem_map.1 this
  exact ⟨vs, l, h1, hp⟩

end Cosipy.Aws
