import Verif.Model.Maps
import Verif.Props.C47
import Verif.Props.C85
import Mathlib.Algebra.Order.Field.Basic
import Mathlib.Algebra.Order.Ring.Rat
import Mathlib.Tactic.Linarith
import Mathlib.Tactic.Ring
import Mathlib.Tactic.FieldSimp
import Mathlib.Tactic.Positivity

/-!
# C92: maps show each value at its place and time

`plot_cosipy_fields.py` and `plot_cosipy_fields_vtk.py` draw maps and a surface of a result file, `plot_profiles.py` draws
profiles over time.
-/

set_option autoImplicit false
set_option linter.unusedSectionVars false

namespace Cosipy.Maps

/-! ## The surface -/

section
variable {K : Type} [Field K] [LinearOrder K] [IsStrictOrderedRing K]

theorem flatMap_get {β γ : Type} (f : β → List γ) (n : Nat) : ∀ (xs : List β), (∀ x ∈ xs, (f x).length = n) →
    ∀ {i j : Nat} {x : β}, xs[i]? = some x → j < n → (xs.flatMap f)[i * n + j]? = (f x)[j]? := by
  intro xs
  induction xs with
  | nil => intro _ i j x h; simp at h
  | cons a as ih =>
    intro hl i j x h hj
    rw [List.flatMap_cons]
    have ha := hl a List.mem_cons_self
    cases i with
    | zero =>
      rw [List.getElem?_cons_zero, Option.some_inj] at h
      subst h
      rw [Nat.zero_mul, Nat.zero_add, List.getElem?_append_left (by omega)]
    | succ i =>
      rw [List.getElem?_cons_succ] at h
      rw [List.getElem?_append_right (by rw [ha, Nat.succ_mul]; omega), ha]
      rw [show (i + 1) * n + j - n = i * n + j by rw [Nat.succ_mul]; omega]
      exact ih (fun x hx => hl x (List.mem_cons_of_mem _ hx)) h hj

theorem meshPoints_length (hgt : K → K → K) (lons lats : List K) :
    (meshPoints hgt lons lats).length = lons.length * lats.length := by
  induction lons with
  | nil => simp [meshPoints]
  | cons a as ih =>
    have : meshPoints hgt (a :: as) lats = (lats.map fun j => cellPt hgt a j) ++ meshPoints hgt as lats := by
      rw [meshPoints, List.flatMap_cons]; rfl
    rw [this, List.length_append, List.length_map, ih, List.length_cons, Nat.succ_mul]
    omega

/-- **C92, distributed results only.** The maps are drawn iff there are at least two cells along every dimension of space. -/
theorem C92_distributed (dims : List (String × Nat)) : (check2d dims = .ok () ∨ check2d dims = .error .value) ∧
    (check2d dims = .ok () ↔ ∀ name size, (name, size) ∈ dims → name ≠ "time" → name ≠ "layer" → 2 ≤ size) := by
  unfold check2d
  by_cases h : ∀ name size, (name, size) ∈ dims → name ≠ "time" → name ≠ "layer" → 2 ≤ size
  · have : (dims.any fun d => !["time", "layer"].contains d.1 && decide (d.2 ≤ 1)) = false := by
      rw [List.any_eq_false]
      intro d hd
      have := h d.1 d.2 hd
      by_cases h1 : d.1 = "time"
      · simp [h1]
      · by_cases h2 : d.1 = "layer"
        · simp [h2]
        · have := this h1 h2
          simp only [Bool.not_eq_true, Bool.and_eq_false_iff, decide_eq_false_iff_not]
          omega
    rw [this]
    exact ⟨Or.inl rfl, ⟨fun _ => h, fun _ => rfl⟩⟩
  · have : (dims.any fun d => !["time", "layer"].contains d.1 && decide (d.2 ≤ 1)) = true := by
      push Not at h
      obtain ⟨name, size, hm, h1, h2, h3⟩ := h
      rw [List.any_eq_true]
      exact ⟨_, hm, by simp [h1, h2]; omega⟩
    rw [this]
    exact ⟨Or.inr rfl, Iff.intro (fun hk => nomatch hk) (fun hk => absurd hk h)⟩

/-- A domain of three by two cells, and a point. -/
example : check2d [("time", 24), ("lat", 3), ("lon", 2), ("layer", 1)] = .ok () ∧ check2d [("time", 24), ("lat", 1), ("lon", 1)] = .error .value :=
  ⟨rfl, rfl⟩

/-- **C92, surface.** There is one point for every grid cell, at the cell's longitude, latitude and elevation: the point of
the `i`-th longitude and the `j`-th latitude has the number `i * nlat + j`. -/
theorem C92_points (hgt : K → K → K) (lons lats : List K) :
    (meshPoints hgt lons lats).length = lons.length * lats.length ∧
    ∀ {i j : Nat} {lon lat : K}, lons[i]? = some lon → lats[j]? = some lat →
      ∃ p, (meshPoints hgt lons lats)[i * lats.length + j]? = some p ∧ p.lon = lon ∧ p.lat = lat ∧
        p.alt * 6370000 = hgt lon lat := by
  refine ⟨meshPoints_length hgt lons lats, fun {i j lon lat} hi hj => ?_⟩
  have hlt : j < lats.length := (List.getElem?_eq_some_iff.1 hj).1
  refine ⟨cellPt hgt lon lat, ?_, rfl, rfl, ?_⟩
  · rw [meshPoints, flatMap_get (fun i => lats.map fun j => cellPt hgt i j) lats.length lons
      (fun x _ => List.length_map ..) hi hlt, List.getElem?_map, hj]
    rfl
  · show hgt lon lat / ((6370000 : Nat) : K) * 6370000 = _
    have : ((6370000 : Nat) : K) = 6370000 := by norm_num
    rw [this]
    field_simp

/-- Squared distance. -/
def dist2 (p q : Pt K) : K := (p.lon - q.lon) ^ 2 + (p.lat - q.lat) ^ 2 + (p.alt - q.alt) ^ 2

/-- The search for the closest of the points answers one of them that is closest. -/
def Locates (pts : List (Pt K)) (locate : Pt K → Option Nat) : Prop :=
  ∀ p, ∃ k q, locate p = some k ∧ pts[k]? = some q ∧ ∀ r ∈ pts, dist2 p q ≤ dist2 p r

theorem dist2_self (p : Pt K) : dist2 p p = 0 := by
  unfold dist2; ring

theorem eq_of_dist2 {p q : Pt K} (h : dist2 p q ≤ 0) : p.lon = q.lon ∧ p.lat = q.lat := by
  unfold dist2 at h
  have h1 := sq_nonneg (p.lon - q.lon)
  have h2 := sq_nonneg (p.lat - q.lat)
  have h3 := sq_nonneg (p.alt - q.alt)
  have e1 : (p.lon - q.lon) ^ 2 = 0 := by linarith
  have e2 : (p.lat - q.lat) ^ 2 = 0 := by linarith
  exact ⟨sub_eq_zero.1 (pow_eq_zero_iff (by norm_num) |>.1 e1), sub_eq_zero.1 (pow_eq_zero_iff (by norm_num) |>.1 e2)⟩

/-- The number of a point determines its cell. -/
theorem point_cell {hgt : K → K → K} {lons lats : List K} {k : Nat} {q : Pt K}
    (h : (meshPoints hgt lons lats)[k]? = some q) :
    ∃ i j, k = i * lats.length + j ∧ lons[i]? = some q.lon ∧ lats[j]? = some q.lat := by
  have hk : k < lons.length * lats.length := by
    have := (List.getElem?_eq_some_iff.1 h).1
    rwa [meshPoints_length] at this
  have hn : 0 < lats.length := by
    rcases Nat.eq_zero_or_pos lats.length with h0 | h0
    · rw [h0, Nat.mul_zero] at hk; exact absurd hk (Nat.not_lt_zero _)
    · exact h0
  have hi : k / lats.length < lons.length := (Nat.div_lt_iff_lt_mul hn).2 hk
  have hj : k % lats.length < lats.length := Nat.mod_lt _ hn
  refine ⟨k / lats.length, k % lats.length, ?_, ?_⟩
  · rw [Nat.mul_comm]; exact (Nat.div_add_mod k lats.length).symm
  obtain ⟨p, hp, e1, e2, -⟩ := (C92_points hgt lons lats).2 (List.getElem?_eq_getElem hi) (List.getElem?_eq_getElem hj)
  have : k / lats.length * lats.length + k % lats.length = k := by
    rw [Nat.mul_comm]; exact Nat.div_add_mod k lats.length
  rw [this, h, Option.some_inj] at hp
  subst hp
  exact ⟨by rw [e1]; exact List.getElem?_eq_getElem hi, by rw [e2]; exact List.getElem?_eq_getElem hj⟩

theorem idx_unique {xs : List K} (h : xs.Nodup) {i j : Nat} {x : K} (hi : xs[i]? = some x) (hj : xs[j]? = some x) :
    i = j := by
  obtain ⟨hi', ei⟩ := List.getElem?_eq_some_iff.1 hi
  obtain ⟨hj', ej⟩ := List.getElem?_eq_some_iff.1 hj
  exact (List.Nodup.getElem_inj_iff h).1 (ei.trans ej.symm)

theorem addScalar_length {β : Type} {locate : Pt K → Option Nat} {hgt : K → K → K} :
    ∀ (cs : List (K × K × Option β)) (acc : List (Option β)), (addScalar locate hgt cs acc).length = acc.length
  | [], _ => rfl
  | (_, _, none) :: cs, acc => addScalar_length cs acc
  | (lat, lon, some v) :: cs, acc => by
    unfold addScalar
    cases locate (cellPt hgt lon lat) with
    | none => exact addScalar_length cs acc
    | some k => exact (addScalar_length cs _).trans (List.length_set ..)

theorem addScalar_other {β : Type} {locate : Pt K → Option Nat} {hgt : K → K → K} {k : Nat} :
    ∀ (cs : List (K × K × Option β)) (acc : List (Option β)),
      (∀ c ∈ cs, c.2.2 ≠ none → locate (cellPt hgt c.2.1 c.1) ≠ some k) →
      (addScalar locate hgt cs acc)[k]? = acc[k]?
  | [], _, _ => rfl
  | (_, _, none) :: cs, acc, h => addScalar_other cs acc fun c hc => h c (List.mem_cons_of_mem _ hc)
  | (lat, lon, some v) :: cs, acc, h => by
    unfold addScalar
    have h0 := h _ List.mem_cons_self (by simp)
    have ih := fun acc => addScalar_other cs acc fun c hc => h c (List.mem_cons_of_mem _ hc)
    cases hl : locate (cellPt hgt lon lat) with
    | none => exact ih acc
    | some m =>
      have hm : m ≠ k := fun e => h0 (by rw [← e]; exact hl)
      exact (ih _).trans (List.getElem?_set_ne hm)

theorem addScalar_hit {β : Type} {locate : Pt K → Option Nat} {hgt : K → K → K} {k : Nat} {v : β} :
    ∀ (cs : List (K × K × Option β)) (acc : List (Option β)),
      (∀ c ∈ cs, locate (cellPt hgt c.2.1 c.1) = some k → c.2.2 = some v) → k < acc.length →
      (acc[k]? = some (some v) ∨ ∃ c ∈ cs, locate (cellPt hgt c.2.1 c.1) = some k) →
      (addScalar locate hgt cs acc)[k]? = some (some v)
  | [], _, _, _, h => by
    rcases h with h | ⟨c, hc, -⟩
    · exact h
    · cases hc
  | (lat, lon, none) :: cs, acc, h, hk, hh => by
    refine addScalar_hit cs acc (fun c hc => h c (List.mem_cons_of_mem _ hc)) hk ?_
    rcases hh with hh | ⟨c, hc, e⟩
    · exact Or.inl hh
    · rcases List.mem_cons.1 hc with rfl | hc
      · exact absurd (h _ List.mem_cons_self e) (by simp)
      · exact Or.inr ⟨c, hc, e⟩
  | (lat, lon, some w) :: cs, acc, h, hk, hh => by
    unfold addScalar
    have ih := fun acc => addScalar_hit cs acc (fun c hc => h c (List.mem_cons_of_mem _ hc))
    cases hl : locate (cellPt hgt lon lat) with
    | none =>
      refine ih acc hk ?_
      rcases hh with hh | ⟨c, hc, e⟩
      · exact Or.inl hh
      · rcases List.mem_cons.1 hc with rfl | hc
        · rw [hl] at e; cases e
        · exact Or.inr ⟨c, hc, e⟩
    | some m =>
      refine ih _ (by rw [List.length_set]; exact hk) ?_
      by_cases hm : m = k
      · subst hm
        have := h _ List.mem_cons_self hl
        refine Or.inl ?_
        rw [List.getElem?_set_self hk]
        exact congrArg some this
      · rcases hh with hh | ⟨c, hc, e⟩
        · exact Or.inl ((List.getElem?_set_ne hm).trans hh)
        · rcases List.mem_cons.1 hc with rfl | hc
          · rw [hl, Option.some_inj] at e; exact absurd e hm
          · exact Or.inr ⟨c, hc, e⟩

/-- There is an exact search on every non-empty surface. -/
theorem locates_exists {pts : List (Pt K)} (h : pts ≠ []) : ∃ locate, Locates pts locate := by
  have : ∀ p : Pt K, ∃ (k : Nat) (q : Pt K), pts[k]? = some q ∧ ∀ r ∈ pts, dist2 p q ≤ dist2 p r := by
    intro p
    have hmin : ∃ q ∈ pts, ∀ r ∈ pts, dist2 p q ≤ dist2 p r := by
      induction pts with
      | nil => exact absurd rfl h
      | cons a as ih =>
        by_cases has : as = []
        · subst has
          exact ⟨a, List.mem_cons_self, fun r hr => by rw [List.mem_singleton] at hr; rw [hr]⟩
        · obtain ⟨q, hq, hmin⟩ := ih has
          rcases le_total (dist2 p q) (dist2 p a) with hle | hle
          · refine ⟨q, List.mem_cons_of_mem _ hq, fun r hr => ?_⟩
            rcases List.mem_cons.1 hr with rfl | hr
            · exact hle
            · exact hmin r hr
          · refine ⟨a, List.mem_cons_self, fun r hr => ?_⟩
            rcases List.mem_cons.1 hr with rfl | hr
            · exact le_refl _
            · exact hle.trans (hmin r hr)
    obtain ⟨q, hq, hmin⟩ := hmin
    obtain ⟨k, hk⟩ := List.mem_iff_getElem?.1 hq
    exact ⟨k, q, hk, hmin⟩
  choose k hk using this
  exact ⟨fun p => some (k p), fun p => let ⟨q, h1, h2⟩ := hk p; ⟨k p, q, rfl, h1, h2⟩⟩

/-- **C92, colours.** On a grid whose longitudes and latitudes are all different, and with an exact search for the closest
point, the value at the point of a cell is the value of that cell; it is missing exactly where the cell has none. -/
theorem C92_scalars {β : Type} {hgt : K → K → K} {lons lats : List K} {locate : Pt K → Option Nat}
    (hlon : lons.Nodup) (hlat : lats.Nodup) (hloc : Locates (meshPoints hgt lons lats) locate)
    (value : K → K → Option β) {i j : Nat} {lon lat : K} (hi : lons[i]? = some lon) (hj : lats[j]? = some lat) :
    (meshScalars locate hgt lons lats value).length = lons.length * lats.length ∧
    (meshScalars locate hgt lons lats value)[i * lats.length + j]? = some (value lat lon) := by
  have hj' : j < lats.length := (List.getElem?_eq_some_iff.1 hj).1
  have hi' : i < lons.length := (List.getElem?_eq_some_iff.1 hi).1
  -- the search finds the cell's own point
  have own : ∀ {i j : Nat} {lon lat : K}, lons[i]? = some lon → lats[j]? = some lat →
      locate (cellPt hgt lon lat) = some (i * lats.length + j) := by
    intro i j lon lat hi hj
    obtain ⟨k, q, hk, hq, hmin⟩ := hloc (cellPt hgt lon lat)
    have hm : cellPt hgt lon lat ∈ meshPoints hgt lons lats :=
      List.mem_flatMap.2 ⟨lon, List.mem_of_getElem? hi, List.mem_map.2 ⟨lat, List.mem_of_getElem? hj, rfl⟩⟩
    have h0 := hmin _ hm
    rw [dist2_self] at h0
    obtain ⟨e1, e2⟩ := eq_of_dist2 h0
    obtain ⟨i', j', rfl, g1, g2⟩ := point_cell hq
    rw [← e1] at g1
    rw [← e2] at g2
    rw [hk, idx_unique hlon g1 hi, idx_unique hlat g2 hj]
  refine ⟨(addScalar_length ..).trans ?_, ?_⟩
  · rw [List.length_replicate, meshPoints_length]
  have hlt : i * lats.length + j < (List.replicate (meshPoints hgt lons lats).length (none : Option β)).length := by
    rw [List.length_replicate, meshPoints_length]
    calc i * lats.length + j < i * lats.length + lats.length := by omega
      _ = (i + 1) * lats.length := by rw [Nat.succ_mul]
      _ ≤ lons.length * lats.length := Nat.mul_le_mul_right _ hi'
  -- only the cell itself is found there
  have only : ∀ c ∈ lats.flatMap fun j => lons.map fun i => (j, i, value j i),
      locate (cellPt hgt c.2.1 c.1) = some (i * lats.length + j) → c.2.2 = value lat lon := by
    intro c hc e
    obtain ⟨lat', hlat', hc⟩ := List.mem_flatMap.1 hc
    obtain ⟨lon', hlon', rfl⟩ := List.mem_map.1 hc
    obtain ⟨j', hj1⟩ := List.mem_iff_getElem?.1 hlat'
    obtain ⟨i', hi1⟩ := List.mem_iff_getElem?.1 hlon'
    rw [own hi1 hj1, Option.some_inj] at e
    have hj1' : j' < lats.length := (List.getElem?_eq_some_iff.1 hj1).1
    have ej : j' = j := by
      have := congrArg (· % lats.length) e
      simpa [Nat.mul_comm, Nat.mul_add_mod, Nat.mod_eq_of_lt, hj', hj1'] using this
    subst ej
    have ei : i' = i := Nat.eq_of_mul_eq_mul_right (by omega : 0 < lats.length) (by omega)
    subst ei
    rw [hi, Option.some_inj] at hi1
    rw [hj, Option.some_inj] at hj1
    rw [hi1, hj1]
  unfold meshScalars
  cases hv : value lat lon with
  | none =>
    rw [addScalar_other]
    · rw [List.getElem?_replicate, if_pos (by simpa using hlt)]
    · intro c hc hne e
      exact hne ((only c hc e).trans hv)
  | some v =>
    refine addScalar_hit _ _ (fun c hc e => (only c hc e).trans hv) hlt (Or.inr ⟨(lat, lon, value lat lon), ?_, own hi hj⟩)
    exact List.mem_flatMap.2 ⟨lat, List.mem_of_getElem? hj, List.mem_map.2 ⟨lon, List.mem_of_getElem? hi, rfl⟩⟩

/-- Non-vacuity: a surface of two longitudes and three latitudes, with a search, and a field that is missing in one cell. -/
example : ∃ locate, Locates (meshPoints (fun i j => i + 100 * j) [(86 : ℚ), 87] [(30 : ℚ), 29, 28]) locate ∧
    [(86 : ℚ), 87].Nodup ∧ [(30 : ℚ), 29, 28].Nodup ∧
    (meshScalars locate (fun i j => i + 100 * j) [(86 : ℚ), 87] [(30 : ℚ), 29, 28]
      fun lat lon => if lat = 28 then none else some (lat + lon))[1 * 3 + 1]? = some (some 116) ∧
    (meshScalars locate (fun i j => i + 100 * j) [(86 : ℚ), 87] [(30 : ℚ), 29, 28]
      fun lat lon => if lat = 28 then none else some (lat + lon))[1 * 3 + 2]? = some none := by
  obtain ⟨locate, h⟩ := locates_exists (pts := meshPoints (fun i j => i + 100 * j) [(86 : ℚ), 87] [(30 : ℚ), 29, 28])
    (by simp [meshPoints])
  have h1 : [(86 : ℚ), 87].Nodup := by decide +kernel
  have h2 : [(30 : ℚ), 29, 28].Nodup := by decide +kernel
  refine ⟨locate, h, h1, h2, ?_, ?_⟩
  · refine ((C92_scalars h1 h2 h _ (i := 1) (j := 1) rfl rfl).2).trans ?_
    decide +kernel
  · exact (C92_scalars h1 h2 h _ (i := 1) (j := 2) rfl rfl).2

end

/-- The four corners of the patch between longitudes `i`, `i + 1` and latitudes `j`, `j + 1`. -/
def patch (nlat i j : Nat) : List Nat :=
  [i * nlat + j, i * nlat + (j + 1), (i + 1) * nlat + (j + 1), (i + 1) * nlat + j]

theorem mem_quads {nlat npts : Nat} {q : List Nat} : q ∈ quads nlat npts ↔
    ∃ idx, idx < npts - nlat ∧ idx % nlat ≠ 0 ∧ q = [idx, idx + 1, idx + nlat + 1, idx + nlat] := by
  unfold quads
  simp only [List.mem_map, List.mem_filter, List.mem_range, bne_iff_ne, ne_eq]
  constructor
  · rintro ⟨i, ⟨h1, h2⟩, rfl⟩; exact ⟨i, h1, h2, rfl⟩
  · rintro ⟨i, h1, h2, rfl⟩; exact ⟨i, ⟨h1, h2⟩, rfl⟩

/-- **C92, mesh by indexing (partial).** Full statement: the quads are the patches between neighbouring longitudes and
latitudes. Proved: every patch that does not touch the first latitude is a quad. The full statement fails, see
`C92_quads_refuted`. -/
theorem C92_quads_partial {nlat nlon i j : Nat} (hi : i + 1 < nlon) (h1 : 1 ≤ j) (hj : j + 1 < nlat) :
    patch nlat i j ∈ quads nlat (nlon * nlat) := by
  refine mem_quads.2 ⟨i * nlat + j, ?_, ?_, ?_⟩
  · have : (i + 2) * nlat ≤ nlon * nlat := Nat.mul_le_mul_right _ hi
    have e : (i + 2) * nlat = i * nlat + nlat + nlat := by ring
    omega
  · rw [Nat.mul_comm, Nat.mul_add_mod, Nat.mod_eq_of_lt (by omega)]
    omega
  · unfold patch
    have : (i + 1) * nlat = i * nlat + nlat := Nat.succ_mul ..
    rw [this]
    rw [Nat.add_right_comm (i * nlat) nlat j, ← Nat.add_assoc, ← Nat.add_assoc, Nat.add_right_comm (i * nlat) nlat j]

/-- On every grid of at least two by two cells the mesh by indexing lacks the patches along the first latitude, connects
the last latitude of a longitude with the first one of the next, and refers to a point that does not exist. -/
theorem C92_quads_refuted {nlat nlon : Nat} (hlat : 2 ≤ nlat) (hlon : 2 ≤ nlon) :
    (∀ i, patch nlat i 0 ∉ quads nlat (nlon * nlat)) ∧
    (∀ i, i + 1 < nlon → ∃ q ∈ quads nlat (nlon * nlat), i * nlat + (nlat - 1) ∈ q ∧ (i + 1) * nlat ∈ q) ∧
    ∃ q ∈ quads nlat (nlon * nlat), ∃ p ∈ q, nlon * nlat ≤ p := by
  have key : ∀ i, i + 1 < nlon → i * nlat + (nlat - 1) < nlon * nlat - nlat ∧ (i * nlat + (nlat - 1)) % nlat ≠ 0 := by
    intro i hi
    have h1 : (i + 2) * nlat ≤ nlon * nlat := Nat.mul_le_mul_right _ hi
    have e : (i + 2) * nlat = i * nlat + nlat + nlat := by ring
    refine ⟨by omega, ?_⟩
    rw [Nat.mul_comm, Nat.mul_add_mod, Nat.mod_eq_of_lt (by omega)]
    omega
  refine ⟨fun i h => ?_, fun i hi => ?_, ?_⟩
  · obtain ⟨idx, -, h2, h3⟩ := mem_quads.1 h
    have : i * nlat + 0 = idx := by injection h3
    rw [← this] at h2
    exact h2 (by simp)
  · refine ⟨_, mem_quads.2 ⟨_, (key i hi).1, (key i hi).2, rfl⟩, List.mem_cons_self, ?_⟩
    have : (i + 1) * nlat = i * nlat + (nlat - 1) + 1 := by rw [Nat.succ_mul]; omega
    rw [this]
    exact List.mem_cons_of_mem _ List.mem_cons_self
  · have hi : (nlon - 2) + 1 < nlon := by omega
    refine ⟨_, mem_quads.2 ⟨_, (key _ hi).1, (key _ hi).2, rfl⟩, (nlon - 2) * nlat + (nlat - 1) + nlat + 1, by simp, ?_⟩
    have e : ((nlon - 2) + 2) * nlat = (nlon - 2) * nlat + nlat + nlat := by ring
    rw [show nlon - 2 + 2 = nlon by omega] at e
    omega

/-- Non-vacuity: three by three cells. -/
example : patch 3 0 1 ∈ quads 3 (3 * 3) ∧ patch 3 0 0 ∉ quads 3 (3 * 3) ∧ [5, 6, 9, 8] ∈ quads 3 9 := by decide

/-! ## Selection of a time -/

theorem nearest_spec {t : Int} : ∀ {xs : List Int}, xs.Pairwise (· < ·) → ∀ {b : Int}, nearest t xs = .ok b →
    b ∈ xs ∧ ∀ a ∈ xs, (b - t).natAbs ≤ (a - t).natAbs ∧ ((b - t).natAbs = (a - t).natAbs → a ≤ b) := by
  intro xs
  induction xs with
  | nil => intro _ b h; cases h
  | cons x xs ih =>
    intro hp b h
    rw [List.pairwise_cons] at hp
    unfold nearest at h
    cases hr : nearest t xs with
    | error e =>
      rw [hr] at h
      cases h
      have : xs = [] := by
        cases xs with
        | nil => rfl
        | cons y ys =>
          exfalso
          unfold nearest at hr
          cases hr2 : nearest t ys with
          | error e => rw [hr2] at hr; cases hr
          | ok c => rw [hr2] at hr; dsimp only at hr; split_ifs at hr
      subst this
      exact ⟨List.mem_cons_self, fun a ha => by
        rw [List.mem_singleton] at ha; subst ha; exact ⟨le_refl _, fun _ => le_refl _⟩⟩
    | ok c =>
      rw [hr] at h
      obtain ⟨hc, hmin⟩ := ih hp.2 hr
      dsimp only at h
      by_cases hle : (c - t).natAbs ≤ (x - t).natAbs
      · rw [if_pos hle] at h
        obtain rfl : c = b := by injection h
        refine ⟨List.mem_cons_of_mem _ hc, fun a ha => ?_⟩
        rcases List.mem_cons.1 ha with rfl | ha
        · exact ⟨hle, fun _ => le_of_lt (hp.1 c hc)⟩
        · exact hmin a ha
      · rw [if_neg hle] at h
        cases h
        refine ⟨List.mem_cons_self, fun a ha => ?_⟩
        rcases List.mem_cons.1 ha with rfl | ha
        · exact ⟨le_refl _, fun _ => le_refl _⟩
        · have := (hmin a ha).1
          exact ⟨by omega, fun e => by omega⟩

theorem nearest_ok {t x : Int} : ∀ {xs : List Int}, x ∈ xs → ∃ b, nearest t xs = .ok b := by
  intro xs h
  cases xs with
  | nil => cases h
  | cons a as =>
    unfold nearest
    cases nearest t as with
    | error e => exact ⟨a, rfl⟩
    | ok c =>
      dsimp only
      by_cases hle : (c - t).natAbs ≤ (a - t).natAbs
      · exact ⟨c, if_pos hle⟩
      · exact ⟨a, if_neg hle⟩

theorem days_sorted (first : Int) (n : Nat) : (days first n).Pairwise (· < ·) := by
  unfold days
  rw [List.pairwise_map]
  refine List.pairwise_lt_range.imp fun h => ?_
  omega

theorem mem_days {first : Int} {n : Nat} {d : Int} :
    d ∈ days first n ↔ ∃ k : Nat, k ≤ n ∧ d = dayOf first + 86400 * (k : Int) := by
  unfold days
  rw [List.mem_map]
  constructor
  · rintro ⟨k, hk, rfl⟩; exact ⟨k, by rw [List.mem_range] at hk; omega, rfl⟩
  · rintro ⟨k, hk, rfl⟩; exact ⟨k, List.mem_range.2 (by omega), rfl⟩

section
variable {K : Type} [Field K] [LinearOrder K] [IsStrictOrderedRing K]

/-- Records of a day. -/
def ofDay (series : List (Int × Option K)) (d : Int) : List (Option K) :=
  (series.filter fun p => decide (d ≤ p.1 ∧ p.1 < d + 86400)).map Prod.snd

theorem filter_day (series : List (Int × Option K)) (m : Int) :
    (series.filter fun p => dayOf p.1 = m * 86400).map Prod.snd = ofDay series (m * 86400) := by
  unfold ofDay
  congr 1
  apply List.filter_congr
  intro p _
  unfold dayOf
  rw [decide_eq_decide]
  constructor
  · intro h; omega
  · intro h; omega

/-- What is selected for a time is the mean of one day. -/
theorem dailyMean_eq {series : List (Int × Option K)} {a b : Int × Option K} (ha : series.head? = some a)
    (hb : series.getLast? = some b) {t m : Int}
    (h : nearest t (days a.1 ((dayOf b.1 - dayOf a.1) / 86400).toNat) = .ok (m * 86400)) :
    dailyMean series t = .ok (meanSkipNan (ofDay series (m * 86400))) := by
  unfold dailyMean
  rw [ha, hb]
  dsimp only
  rw [h, ok_bind, ← filter_day]
  rfl

/-- **C92, daily mean (partial).** Full statement: for every time within the period of the data, the mean shown for it is
that of the calendar day of the time. Proved for times before noon (in particular for dates); it fails for all others
unless the day is the last, see `C92_mean_refuted`. -/
theorem C92_mean_partial {series : List (Int × Option K)} {a b : Int × Option K} (ha : series.head? = some a)
    (hb : series.getLast? = some b) {d s : Int} (hs : 0 ≤ s) (hnoon : s < 43200)
    (h1 : dayOf a.1 ≤ d * 86400) (h2 : d * 86400 ≤ b.1) :
    dailyMean series (d * 86400 + s) = .ok (meanSkipNan (ofDay series (d * 86400))) := by
  refine dailyMean_eq ha hb ?_
  have hmem : d * 86400 ∈ days a.1 ((dayOf b.1 - dayOf a.1) / 86400).toNat := by
    refine mem_days.2 ⟨(d - a.1 / 86400).toNat, ?_, ?_⟩ <;> unfold dayOf at * <;> omega
  obtain ⟨x, hx⟩ := nearest_ok (t := d * 86400 + s) hmem
  obtain ⟨h3, h4⟩ := nearest_spec (days_sorted _ _) hx
  obtain ⟨k, -, rfl⟩ := mem_days.1 h3
  have := (h4 _ hmem).1
  rw [hx]
  congr 1
  unfold dayOf at *
  omega

/-- In the afternoon the mean of the following day is shown, whenever the data reach it. -/
theorem C92_mean_refuted {series : List (Int × Option K)} {a b : Int × Option K} (ha : series.head? = some a)
    (hb : series.getLast? = some b) {d s : Int} (hs : 43200 ≤ s) (hday : s < 86400)
    (h1 : dayOf a.1 ≤ d * 86400) (h2 : (d + 1) * 86400 ≤ b.1) :
    dailyMean series (d * 86400 + s) = .ok (meanSkipNan (ofDay series ((d + 1) * 86400))) := by
  refine dailyMean_eq ha hb ?_
  have hmem : (d + 1) * 86400 ∈ days a.1 ((dayOf b.1 - dayOf a.1) / 86400).toNat := by
    refine mem_days.2 ⟨(d + 1 - a.1 / 86400).toNat, ?_, ?_⟩ <;> unfold dayOf at * <;> omega
  obtain ⟨x, hx⟩ := nearest_ok (t := d * 86400 + s) hmem
  obtain ⟨h3, h4⟩ := nearest_spec (days_sorted _ _) hx
  obtain ⟨k, -, rfl⟩ := mem_days.1 h3
  have := h4 _ hmem
  rw [hx]
  congr 1
  unfold dayOf at *
  omega

/-- Non-vacuity of both: hourly data of two days, 1 on the first, 2 on the second, one value missing. At 18 h of the first
day the value of the second is shown. -/
example : (let series : List (Int × Option ℚ) :=
      (List.range 48).map fun (k : Nat) => (3600 * (k : Int), if k = 5 then none else some (if k < 24 then 1 else 2))
    series.head? = some (0, some 1) ∧ series.getLast? = some (169200, some 2) ∧
      dailyMean series 21600 = .ok (some 1) ∧ dailyMean series 64800 = .ok (some 2) ∧
      dailyMean series (86400 + 64800) = .ok (some 2)) := by decide +kernel

/-- **C92, mean.** The mean of a day is the sum of its numbers divided by their count, hence between the smallest and the
largest; it is missing only if the day has no number. -/
theorem C92_mean (xs : List (Option K)) :
    (meanSkipNan xs = none ↔ ∀ x ∈ xs, x = none) ∧
    ∀ m, meanSkipNan xs = some m → m * ((xs.filterMap id).length : K) = (xs.filterMap id).sum ∧
      ∀ lo hi, (∀ y, some y ∈ xs → lo ≤ y ∧ y ≤ hi) → lo ≤ m ∧ m ≤ hi := by
  have hmem : ∀ y, y ∈ xs.filterMap id ↔ some y ∈ xs := by
    intro y
    rw [List.mem_filterMap]
    constructor
    · rintro ⟨x, hx, e⟩; rw [id] at e; rwa [e] at hx
    · intro h; exact ⟨_, h, rfl⟩
  unfold meanSkipNan
  generalize hys : xs.filterMap id = ys at *
  cases ys with
  | nil =>
    refine ⟨⟨fun _ x hx => ?_, fun _ => rfl⟩, fun m h => by cases h⟩
    cases x with
    | none => rfl
    | some y => exact absurd ((hmem y).2 hx) (by simp)
  | cons y ys =>
    refine ⟨⟨fun h => (by cases h), fun h => ?_⟩, fun m h => ?_⟩
    · exact absurd (h _ ((hmem y).1 List.mem_cons_self)) (by simp)
    · rw [Option.some_inj] at h
      have hsum : (y :: ys).foldl (· + ·) (0 : K) = (y :: ys).sum := by
        rw [List.sum_eq_foldl]
      rw [hsum] at h
      have hpos : (0 : K) < ((y :: ys).length : K) := by
        rw [Nat.cast_pos]; exact Nat.succ_pos _
      have e : m * ((y :: ys).length : K) = (y :: ys).sum := by
        rw [← h, div_mul_cancel₀ _ (ne_of_gt hpos)]
      refine ⟨e, fun lo hi hb => ?_⟩
      have h1 : ((y :: ys).length : K) * lo ≤ (y :: ys).sum := by
        have := List.card_nsmul_le_sum (y :: ys) lo fun z hz => (hb z ((hmem z).1 hz)).1
        rwa [nsmul_eq_mul] at this
      have h2 : (y :: ys).sum ≤ ((y :: ys).length : K) * hi := by
        have := List.sum_le_card_nsmul (y :: ys) hi fun z hz => (hb z ((hmem z).1 hz)).2
        rwa [nsmul_eq_mul] at this
      rw [← e, mul_comm] at h1 h2
      exact ⟨le_of_mul_le_mul_right (by rw [mul_comm lo, mul_comm m]; rw [mul_comm] at h1; linarith) hpos,
        le_of_mul_le_mul_right (by linarith) hpos⟩

example : meanSkipNan [some (1 : ℚ), none, some 4] = some (5 / 2) := by decide +kernel

theorem single_of_filter {p : Int × Option K → Bool} {series : List (Int × Option K)} {x : Option K}
    (h : (series.filter p).map Prod.snd = [x]) :
    ∃ t, (t, x) ∈ series ∧ p (t, x) = true ∧ ∀ r ∈ series, p r = true → r = (t, x) := by
  cases hf : series.filter p with
  | nil => rw [hf] at h; cases h
  | cons r rs =>
    rw [hf] at h
    cases rs with
    | cons _ _ => simp at h
    | nil =>
      have hx : r.2 = x := by simpa using h
      have hr : r ∈ series ∧ p r = true := List.mem_filter.1 (by rw [hf]; exact List.mem_cons_self)
      refine ⟨r.1, ?_, ?_, fun q hq hpq => ?_⟩
      · rw [← hx]; exact hr.1
      · rw [← hx]; exact hr.2
      · have : q ∈ series.filter p := List.mem_filter.2 ⟨hq, hpq⟩
        rw [hf, List.mem_singleton] at this
        rw [this, ← hx]

/-- **C92, single time.** A map for a time shows the record of that time, and there is only one. A map for a date without
`--mean` shows the only record of the day; with several there is no map. The 3D plot shows a record whose time is as near
as any. -/
theorem C92_time (series : List (Int × Option K)) (hs : (series.map Prod.fst).Pairwise (· < ·)) (t : Int) (x : Option K) :
    (atTime series t = .ok x ↔ (t, x) ∈ series) ∧
    (∀ d, atDate series (d * 86400) = .ok x → ∃ s, (s, x) ∈ series ∧ d * 86400 ≤ s ∧ s < (d + 1) * 86400) ∧
    (∀ d, 2 ≤ (ofDay series (d * 86400)).length → atDate series (d * 86400) = .error .key) ∧
    (nearestRecord series t = .ok x → ∃ s, (s, x) ∈ series ∧ ∀ r ∈ series, (s - t).natAbs ≤ (r.1 - t).natAbs) := by
  have hat : ∀ t x, atTime series t = .ok x ↔ (t, x) ∈ series := by
    intro t x
    unfold atTime
    constructor
    · intro h
      split at h
      · rename_i y hy
        cases h
        obtain ⟨s, h1, h2, -⟩ := single_of_filter hy
        have : s = t := by simpa using h2
        exact this ▸ h1
      · cases h
    · intro h
      have hf : series.filter (fun p => p.1 = t) = [(t, x)] := by
        clear * - hs h
        induction series with
        | nil => cases h
        | cons r rs ih =>
          rw [List.map_cons, List.pairwise_cons] at hs
          rcases List.mem_cons.1 h with rfl | h
          · rw [List.filter_cons_of_pos (by simp)]
            congr 1
            rw [List.filter_eq_nil_iff]
            intro q hq
            have := hs.1 q.1 (List.mem_map.2 ⟨q, hq, rfl⟩)
            simp only [decide_eq_true_eq]
            omega
          · have := hs.1 t (List.mem_map.2 ⟨_, h, rfl⟩)
            rw [List.filter_cons_of_neg (by simp only [decide_eq_true_eq]; omega)]
            exact ih hs.2 h
      rw [hf]
      rfl
  refine ⟨hat t x, fun d h => ?_, fun d h => ?_, fun h => ?_⟩
  · unfold atDate at h
    split at h
    · rename_i y hy
      cases h
      obtain ⟨s, h1, h2, -⟩ := single_of_filter hy
      refine ⟨s, h1, ?_⟩
      have : dayOf s = d * 86400 := by simpa using h2
      unfold dayOf at this
      omega
    · cases h
  · unfold atDate
    rw [filter_day]
    split
    · rename_i y hy
      rw [hy] at h
      simp at h
    · rfl
  · unfold nearestRecord at h
    rw [bind_eq_ok] at h
    obtain ⟨s, h1, h2⟩ := h
    refine ⟨s, (hat s x).1 h2, fun r hr => ?_⟩
    exact ((nearest_spec hs h1).2 r.1 (List.mem_map.2 ⟨r, hr, rfl⟩)).1

example : (let s : List (Int × Option ℚ) := [(0, some 1), (3600, some 2), (90000, none)]
    atTime s 3600 = .ok (some 2) ∧ atTime s 1800 = .error .key ∧ atDate s 0 = .error .key ∧
      atDate s 86400 = .ok none ∧ nearestRecord s 1800 = .ok (some 2)) := by decide +kernel

end

/-! ## File names -/

/-- The characters of a timestamp that the file name does not keep, at their places. -/
def shape (t : List Char) : List (Option Char) := t.map fun c => if isWord c then none else some c

theorem stampId_inj : ∀ {s t : List Char}, shape s = shape t →
    (stampId s).length = (stampId t).length ∧ (stampId s = stampId t → s = t) := by
  intro s
  induction s with
  | nil =>
    intro t h
    cases t with
    | nil => exact ⟨rfl, fun _ => rfl⟩
    | cons _ _ => cases h
  | cons a s ih =>
    intro t h
    cases t with
    | nil => cases h
    | cons b t =>
      rw [shape, shape, List.map_cons, List.map_cons] at h
      injection h with h1 h2
      obtain ⟨i1, i2⟩ := ih h2
      unfold stampId at *
      by_cases ha : isWord a = true
      · rw [if_pos ha] at h1
        have hb : isWord b = true := by
          by_contra hb
          rw [if_neg hb] at h1
          cases h1
        rw [List.filter_cons_of_pos ha, List.filter_cons_of_pos hb]
        refine ⟨by rw [List.length_cons, List.length_cons, i1], fun e => ?_⟩
        injection e with e1 e2
        rw [e1, i2 e2]
      · rw [if_neg ha] at h1
        have hb : isWord b ≠ true := by
          intro hb
          rw [if_pos hb] at h1
          cases h1
        rw [if_neg hb, Option.some_inj] at h1
        rw [List.filter_cons_of_neg ha, List.filter_cons_of_neg hb]
        exact ⟨i1, fun e => by rw [h1, i2 e]⟩

/-- **C92, file names (partial).** Full statement: pictures of different variables or different times go to different files.
Proved for timestamps written in the same form (the same separators at the same places, as in `2009-01-31T06:00`) and
pictures of the same kind. In general it fails, see `C92_names_refuted`. -/
theorem C92_names_partial {t t' : List Char} (hs : shape t = shape t') :
    (∀ (n n' suffix : List Char), n ≠ [] → n' ≠ [] → imageName t (some n) suffix = imageName t' (some n') suffix →
      t = t' ∧ n = n') ∧
    (∀ suffix, imageName t none suffix = imageName t' none suffix → t = t') ∧
    (∀ n n' fmt, vtkName n t fmt = vtkName n' t' fmt → t = t' ∧ n = n') := by
  obtain ⟨h1, h2⟩ := stampId_inj hs
  refine ⟨fun n n' suffix hn hn' h => ?_, fun suffix h => ?_, fun n n' fmt h => ?_⟩
  · have e : ∀ (t n : List Char), n ≠ [] → imageName t (some n) suffix =
        stampId t ++ ('_' :: n ++ (if suffix = [] then [] else '_' :: suffix) ++ ".png".toList) := by
      intro t n hn
      cases n with
      | nil => exact absurd rfl hn
      | cons c cs => simp only [imageName, List.append_assoc, List.cons_append]
    rw [e t n hn, e t' n' hn'] at h
    obtain ⟨a, b⟩ := List.append_inj h h1
    rw [List.append_cancel_right_eq, List.append_cancel_right_eq] at b
    injection b with _ b
    exact ⟨h2 a, b⟩
  · have e : ∀ t : List Char, imageName t none suffix =
        stampId t ++ ("_stamp_plot".toList ++ (if suffix = [] then [] else '_' :: suffix) ++ ".png".toList) := by
      intro t
      simp only [imageName, List.append_assoc]
    rw [e t, e t'] at h
    exact h2 (List.append_inj h h1).1
  · unfold vtkName at h
    rw [List.append_assoc, List.append_assoc, List.append_assoc, List.append_assoc] at h
    obtain ⟨a, b⟩ := List.append_inj h h1
    rw [← List.append_assoc, ← List.append_assoc, List.append_cancel_right_eq, List.append_cancel_right_eq] at b
    injection b with _ b
    exact ⟨h2 a, b⟩

/-- 11 January and 1 November 2009, written without leading zeros, give the same file name. -/
theorem C92_names_refuted : ¬ ∀ (t t' n suffix : List Char),
    imageName t (some n) suffix = imageName t' (some n) suffix → t = t' := by
  intro h
  exact absurd (h "2009-1-11".toList "2009-11-1".toList "TS".toList "mesh".toList (by decide +kernel)) (by decide +kernel)

example : shape "2009-01-11".toList = shape "2009-11-01".toList ∧
    imageName "2009-01-11".toList (some "TS".toList) "mesh".toList = "20090111_TS_mesh.png".toList ∧
    vtkName "TS".toList "2009-01-11T06:00".toList "png".toList = "20090111T0600_TS_vtk.png".toList := by decide +kernel

/-! ## The time axis of profile plots -/

theorem tick_eq {t0 t1 : Int} {k : Nat} (h : t0 + 3600 * (k : Int) ≤ t1) :
    (hours t0 t1).findIdx? (· = t0 + 3600 * (k : Int)) = some k := by
  have hlen : (hours t0 t1).length = ((t1 - t0) / 3600).toNat + 1 := by simp [hours]
  have hk : k < (hours t0 t1).length := by rw [hlen]; omega
  have hget : ∀ i (hi : i < (hours t0 t1).length), (hours t0 t1)[i] = t0 + 3600 * (i : Int) := by
    intro i hi
    simp [hours]
  rw [List.findIdx?_eq_some_iff_getElem]
  refine ⟨hk, by simp [hget], fun j hj => ?_⟩
  rw [hget]
  simp only [decide_eq_true_eq]
  omega

/-- **C92, time axis (partial).** Full statement: the label of a time is under the column of the record of that time, and a
measurement is drawn in the column of its time. Proved for hourly records, for labels of full hours and for measurements
after the first record; a column `k` holds the record at `t0 + dt * k`. -/
theorem C92_ticks_partial {t0 t1 dt : Int} (hdt : dt = 3600) {k : Nat} (h : t0 + dt * (k : Int) ≤ t1) :
    tickIndex t0 t1 (t0 + dt * (k : Int)) = .ok k ∧ (0 < k → stakeIndex t0 t1 (t0 + dt * (k : Int)) = some k) := by
  subst hdt
  refine ⟨?_, fun hk => ?_⟩
  · unfold tickIndex; rw [tick_eq h]
  · unfold stakeIndex; rw [tick_eq h]
    cases k with
    | zero => omega
    | succ k => rfl

/-- With another time step a label under the `k`-th column, other than the first, belongs to another time than the
column. -/
theorem C92_ticks_refuted {t0 t1 dt : Int} (hdt : dt ≠ 3600) {k : Nat} (hk : 0 < k) (h : t0 + 3600 * (k : Int) ≤ t1) :
    tickIndex t0 t1 (t0 + 3600 * (k : Int)) = .ok k ∧ t0 + dt * (k : Int) ≠ t0 + 3600 * (k : Int) := by
  refine ⟨?_, fun e => hdt ?_⟩
  · unfold tickIndex; rw [tick_eq h]
  · have : dt * (k : Int) = 3600 * (k : Int) := by omega
    exact Int.eq_of_mul_eq_mul_right (by omega) this

/-- A measurement at the first record is never drawn. -/
theorem C92_first_stake {t0 t1 : Int} (h : t0 ≤ t1) : stakeIndex t0 t1 t0 = none := by
  have := tick_eq (t0 := t0) (t1 := t1) (k := 0) (by simpa using h)
  unfold stakeIndex
  rw [show t0 + 3600 * ((0 : Nat) : Int) = t0 by simp] at this
  rw [this]
  rfl

/-- Non-vacuity: ten hours; a label of the second day's midnight in three-hourly data is at column 24, which shows the
fourth day. -/
example : tickIndex 0 36000 7200 = .ok 2 ∧ tickIndex 0 36000 1800 = .error .index ∧ stakeIndex 0 36000 7200 = some 2 ∧
    tickIndex 0 (3600 * 100) 86400 = .ok 24 ∧ (0 : Int) + 10800 * 24 = 3 * 86400 := by decide +kernel

/-! ## Maps of several fields -/

section
variable {α γ : Type}

/-- **C92, stamp plots.** With the shipped output lists, and radiation and elevation in the input, the variables of the maps
of several fields are in the result file, with a description. -/
theorem C92_fields {text : CfgVal → String} {nan : α} {cfg consts : Store CfgVal} {coords : Store γ}
    {data : Store (Arr α)} {r : ResultFile α γ} (h0 : initResult text nan cfg consts coords data = .ok r)
    {io : IOState α} {ds : Store (Var α)} (h : writeResultsLabelled io r.vars = .ok ds)
    (hatm : io.atm = (outputVariables defaultAtm.toList).filter fun n => !inputNames.contains n)
    (hint : io.internal = outputVariables defaultInternal.toList) (hg : data "G" ≠ none) (hh : data "HGT" ≠ none) :
    ∀ n ∈ "HGT" :: (stampMesh ++ stampContour), ∃ v, ds n = some v ∧ v.label.longName ≠ "" := by
  intro n hn
  have key : ∀ n ∈ "HGT" :: (stampMesh ++ stampContour), n = "HGT" ∨ n = "G" ∨
      n ∈ (outputVariables defaultAtm.toList).filter (fun n => !inputNames.contains n) ∨
      n ∈ outputVariables defaultInternal.toList := by decide +kernel
  have hlab : ∀ p ∈ resultLabels, p.2.longName ≠ "" := by decide +kernel
  rw [C85.writeResultsLabelled_eq] at h
  obtain ⟨w1, w2⟩ := C85.written_value h n
  by_cases hw : n ∈ (C85.written io).map Prod.snd
  · obtain ⟨a, l, -, hl, hv⟩ := w1 hw
    exact ⟨_, hv, hlab _ (mem_of_lookup hl)⟩
  · have hin : n = "HGT" ∨ n = "G" := by
      rcases key n hn with h | h | h | h
      · exact Or.inl h
      · exact Or.inr h
      · refine absurd ?_ hw
        unfold C85.written
        rw [List.map_append, List.mem_append, List.map_map]
        refine Or.inl (List.mem_map.2 ⟨n, List.mem_append_left _ (hatm ▸ h), rfl⟩)
      · refine absurd ?_ hw
        unfold C85.written
        rw [List.map_append, List.mem_append, List.map_map]
        refine Or.inl (List.mem_map.2 ⟨n, List.mem_append_right _ (hint ▸ h), rfl⟩)
    rw [w2 hw]
    have hl2 : ∀ n, n = "HGT" ∨ n = "G" → ∃ l, (seriesLabels.lookup n).or (spatialLabels.lookup n) = some l ∧
        l.longName ≠ "" := by
      rintro n (rfl | rfl)
      · exact ⟨_, rfl, by decide +kernel⟩
      · exact ⟨_, rfl, by decide +kernel⟩
    obtain ⟨l, hl, hne⟩ := hl2 n hin
    rcases C85.initResult_vars h0 n with ⟨h1, -⟩ | ⟨-, hv⟩
    · exfalso
      rcases hin with rfl | rfl <;> rcases h1 with h1 | h1 <;> exact absurd h1 (by decide +kernel)
    · cases hd : data n with
      | none => rcases hin with rfl | rfl; exacts [absurd hd hh, absurd hd hg]
      | some a =>
        rw [hl, hd] at hv
        exact ⟨_, hv, hne⟩

end

/-- **C92, panels.** Both maps of several fields fill the three columns of four rows, each panel with another variable; both
show the sensible, latent and ground heat fluxes, snow height, melt, surface temperature, global radiation, refreezing or incoming
longwave radiation, and both mass balances. -/
theorem C92_panels : stampMesh.length = 3 * 4 ∧ stampContour.length = 3 * 4 ∧ stampMesh.Nodup ∧ stampContour.Nodup ∧
    (∀ n ∈ ["H", "LE", "B", "SNOWHEIGHT", "surfM", "TS", "G", "Q", "LWout", "surfMB", "MB"], n ∈ stampMesh ∧ n ∈ stampContour) ∧
    "REFREEZE" ∈ stampMesh ∧ "LWin" ∈ stampContour := by
  decide

/-- Non-vacuity: an input with radiation and elevation, default output; the file is written and has the fields. -/
def exInput : Store (Arr Int) := fun n =>
  if n = "HGT" then some ⟨none, 2, 2, none, fun _ _ _ _ => 5000⟩
  else if n = "G" ∨ n = "T2" then some ⟨some 2, 2, 2, none, fun t _ _ _ => 270 + t⟩
  else none

example : exInput "G" ≠ none ∧ exInput "HGT" ≠ none ∧
    (((initResult C85.exText (-9999) C85.exCfg C85.exConsts (fun _ => some ()) exInput).bind fun f =>
      writeResultsLabelled ⟨(outputVariables defaultAtm.toList).filter fun n => !inputNames.contains n,
        outputVariables defaultInternal.toList, [], false, 5, 2, 2, 2,
        fun _ => some ⟨some 2, 2, 2, none, fun _ _ _ _ => 7⟩, fun _ => none, fun _ => none⟩ f.vars).toOption.map fun d =>
      ("HGT" :: (stampMesh ++ stampContour)).all fun n => (d n).any fun v => v.label.longName ≠ "") = some true := by
  decide +kernel

end Cosipy.Maps
