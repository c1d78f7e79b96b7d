import Verif.Model.Shading
import Verif.Model.RealTrig
import Verif.Lemmas.Basic
import Verif.Props.C56
import Mathlib.Tactic.Linarith
import Mathlib.Tactic.Positivity
import Mathlib.Tactic.NormNum
import Mathlib.Tactic.FieldSimp
import Mathlib.Tactic.Ring

/-! # Lemmas on the profiles of `relshad` over the real numbers -/

set_option autoImplicit false
set_option linter.unusedSectionVars false

namespace Cosipy
open RadCor

theorem mapM_of_ok {ι β : Type} {f : ι → M β} {g : ι → β} : ∀ {l : List ι}, (∀ a ∈ l, f a = .ok (g a)) →
    l.mapM f = .ok (l.map g) := by
  intro l
  induction l with
  | nil => intro _; rfl
  | cons a l ih =>
    intro h
    rw [List.mapM_cons, h a (by simp), ok_bind, ih fun b hb => h b (by simp [hb]), ok_bind]
    rfl

theorem mapM_ok_iff {ι β : Type} {f : ι → M β} : ∀ {l : List ι}, (∃ bs, l.mapM f = .ok bs) ↔ ∀ a ∈ l, ∃ b, f a = .ok b := by
  intro l
  induction l with
  | nil => simp only [List.mapM_nil]; exact ⟨fun _ a h => (by cases h), fun _ => ⟨[], rfl⟩⟩
  | cons a l ih =>
    constructor
    · rintro ⟨bs, h⟩ c hc
      rw [List.mapM_cons, bind_eq_ok] at h
      obtain ⟨x, hx, h⟩ := h
      rw [bind_eq_ok] at h
      obtain ⟨xs, hxs, _⟩ := h
      rcases List.mem_cons.1 hc with rfl | hc
      · exact ⟨x, hx⟩
      · exact ih.1 ⟨xs, hxs⟩ c hc
    · intro h
      obtain ⟨x, hx⟩ := h a (by simp)
      obtain ⟨xs, hxs⟩ := ih.2 fun b hb => h b (by simp [hb])
      exact ⟨x :: xs, by rw [List.mapM_cons, hx, ok_bind, hxs, ok_bind]; rfl⟩

/-! ## Lists of numbers -/

theorem foldl_pyMax (xs : List ℝ) : ∀ x : ℝ, (xs.foldl pyMax x ∈ x :: xs) ∧ ∀ y ∈ x :: xs, y ≤ xs.foldl pyMax x := by
  induction xs with
  | nil => intro x; simp
  | cons a xs ih =>
    intro x
    rw [List.foldl_cons]
    obtain ⟨h1, h2⟩ := ih (pyMax x a)
    rw [pyMax_eq] at *
    refine ⟨?_, fun y hy => ?_⟩
    · rcases List.mem_cons.1 h1 with h | h
      · rw [h]; rcases max_cases x a with ⟨e, _⟩ | ⟨e, _⟩ <;> rw [e] <;> simp
      · simp [h]
    · have h3 := h2 (max x a) (by simp)
      simp only [List.mem_cons] at hy
      rcases hy with rfl | rfl | hy
      · exact (le_max_left _ _).trans h3
      · exact (le_max_right _ _).trans h3
      · exact h2 y (by simp [hy])

theorem foldl_pyMin (xs : List ℝ) : ∀ x : ℝ, (xs.foldl pyMin x ∈ x :: xs) ∧ ∀ y ∈ x :: xs, xs.foldl pyMin x ≤ y := by
  induction xs with
  | nil => intro x; simp
  | cons a xs ih =>
    intro x
    rw [List.foldl_cons]
    obtain ⟨h1, h2⟩ := ih (pyMin x a)
    rw [pyMin_eq] at *
    refine ⟨?_, fun y hy => ?_⟩
    · rcases List.mem_cons.1 h1 with h | h
      · rw [h]; rcases min_cases x a with ⟨e, _⟩ | ⟨e, _⟩ <;> rw [e] <;> simp
      · simp [h]
    · have h3 := h2 (min x a) (by simp)
      simp only [List.mem_cons] at hy
      rcases hy with rfl | rfl | hy
      · exact h3.trans (min_le_left _ _)
      · exact h3.trans (min_le_right _ _)
      · exact h2 y (by simp [hy])

theorem listMax_eq_ok {l : List ℝ} {t : ℝ} : listMax l = .ok t ↔ t ∈ l ∧ ∀ x ∈ l, x ≤ t := by
  cases l with
  | nil => simp [listMax]
  | cons x xs =>
    obtain ⟨h1, h2⟩ := foldl_pyMax xs x
    rw [listMax, ok_inj]
    constructor
    · rintro rfl; exact ⟨h1, h2⟩
    · rintro ⟨h3, h4⟩; exact le_antisymm (h4 _ h1) (h2 _ h3)

theorem listMin_eq_ok {l : List ℝ} {t : ℝ} : listMin l = .ok t ↔ t ∈ l ∧ ∀ x ∈ l, t ≤ x := by
  cases l with
  | nil => simp [listMin]
  | cons x xs =>
    obtain ⟨h1, h2⟩ := foldl_pyMin xs x
    rw [listMin, ok_inj]
    constructor
    · rintro rfl; exact ⟨h1, h2⟩
    · rintro ⟨h3, h4⟩; exact le_antisymm (h2 _ h3) (h4 _ h1)

theorem roundIdx_nat (k : ℕ) : roundIdx (k : ℝ) = k := by
  have ht : HasTrunc.trunc (k : ℝ) = (k : Int) := by
    show (if (k : ℝ) < 0 then ⌈(k : ℝ)⌉ else ⌊(k : ℝ)⌋) = k
    rw [if_neg (not_lt.2 (Nat.cast_nonneg k))]; simp
  simp only [roundIdx]
  rw [ht, Int.toNat_natCast, sub_self, if_pos (by norm_num)]

theorem roundIdx_le {x : ℝ} {m : ℕ} (h0 : 0 ≤ x) (h : x ≤ m) : roundIdx x ≤ m := by
  have ht : HasTrunc.trunc x = ⌊x⌋ := by
    show (if x < 0 then ⌈x⌉ else ⌊x⌋) = ⌊x⌋
    rw [if_neg (not_lt.2 h0)]
  have hk : (HasTrunc.trunc x).toNat = ⌊x⌋₊ := by rw [ht]; rfl
  have hm : ⌊x⌋₊ ≤ m := Nat.floor_le_of_le h
  have up : ¬ (x - (⌊x⌋₊ : ℝ) < 0.5) → ⌊x⌋₊ + 1 ≤ m := by
    intro hd
    have h1 : (⌊x⌋₊ : ℝ) < m := by norm_num at hd; linarith
    exact_mod_cast h1
  simp only [roundIdx]
  rw [hk]
  split_ifs with a b c
  · exact hm
  · exact up a
  · exact hm
  · exact up a

theorem nearestIdx_lt {xs : List ℝ} {v : ℝ} {k : Nat} (h : nearestIdx xs v = .ok k) : k < xs.length := by
  cases xs with
  | nil => cases h
  | cons x xs =>
    rw [nearestIdx, ok_inj] at h
    subst h
    have key : ∀ (ys : List ℝ) (s : Nat × Nat × ℝ), s.2.1 ≤ s.1 →
        (ys.foldl (fun (s : Nat × Nat × ℝ) y =>
          let d := pyAbs (y - v)
          if d < s.2.2 then (s.1 + 1, s.1 + 1, d) else (s.1 + 1, s.2.1, s.2.2)) s).2.1 ≤ s.1 + ys.length := by
      intro ys
      induction ys with
      | nil => intro s hs; simpa using hs
      | cons y ys ih =>
        intro s hs
        rw [List.foldl_cons, List.length_cons]
        refine (ih _ ?_).trans (le_of_eq ?_)
        · simp only; split_ifs <;> simp only <;> omega
        · simp only; split_ifs <;> simp only <;> omega
    have := key xs (0, 0, pyAbs (x - v)) le_rfl
    rw [List.length_cons]
    exact Nat.lt_succ_of_le (by rw [Nat.zero_add] at this; exact this)

theorem nearestIdx_ok {xs : List ℝ} (h : xs ≠ []) (v : ℝ) : ∃ k, nearestIdx xs v = .ok k := by
  cases xs with
  | nil => exact absurd rfl h
  | cons x xs => exact ⟨_, rfl⟩

theorem linspace_length {a b : ℝ} {n : Int} {l : List ℝ} (h : linspace a b n = .ok l) : 0 ≤ n ∧ l.length = n.toNat := by
  unfold linspace at h
  split_ifs at h with h1 h2
  · rw [ok_inj] at h; subst h; subst h2; simp
  · rw [ok_inj] at h; subst h; simp; omega

theorem linspace_ok {a b : ℝ} {n : Int} (h : 0 ≤ n) : ∃ l, linspace a b n = .ok l := by
  unfold linspace
  rw [if_neg (not_lt.2 h)]
  split_ifs
  · exact ⟨_, rfl⟩
  · exact ⟨_, rfl⟩

theorem linspace_head {a b : ℝ} {n : Int} {l : List ℝ} (h : linspace a b n = .ok l) (hl : l ≠ []) : ∃ t, l = a :: t := by
  unfold linspace at h
  split_ifs at h with h1 h2
  · rw [ok_inj] at h; exact ⟨[], h.symm⟩
  · rw [ok_inj] at h
    subst h
    obtain ⟨m, hm⟩ : ∃ m, n.toNat = m + 2 := by
      refine ⟨n.toNat - 2, ?_⟩
      have : n.toNat ≠ 0 := by
        intro h0; apply hl; rw [h0]; rfl
      omega
    rw [hm, List.range_succ_eq_map, List.map_cons, if_neg (by omega)]
    generalize List.map _ (List.map Nat.succ _) = t
    exact ⟨t, by simp⟩

theorem linspace_second {a b : ℝ} {n : Int} {l : List ℝ} (h : linspace a b n = .ok l) (hn : 3 ≤ n) :
    ∃ t, l = a :: (a + (b - a) / ((n : ℝ) - 1)) :: t := by
  unfold linspace at h
  rw [if_neg (by omega), if_neg (by omega), ok_inj] at h
  subst h
  obtain ⟨m, hm⟩ : ∃ m, n.toNat = m + 3 := ⟨n.toNat - 3, by omega⟩
  have hn' : n = ((m + 3 : ℕ) : Int) := by omega
  rw [hm, List.range_succ_eq_map, List.range_succ_eq_map, List.map_cons, List.map_cons, List.map_cons,
    if_neg (by omega), if_neg (by omega)]
  generalize List.map _ (List.map Nat.succ (List.map Nat.succ _)) = t
  refine ⟨t, ?_⟩
  rw [hn']
  have : ((m + 3 - 1 : ℕ) : ℝ) = (((m + 3 : ℕ) : Int) : ℝ) - 1 := by
    rw [show m + 3 - 1 = m + 2 by omega]; push_cast; ring
  rw [this]
  congr 1
  · simp
  · congr 1
    push_cast
    ring

theorem linspace_between {a b : ℝ} {n : Int} {l : List ℝ} (h : linspace a b n = .ok l) {x : ℝ} (hx : x ∈ l) :
    min a b ≤ x ∧ x ≤ max a b := by
  unfold linspace at h
  split_ifs at h with h1 h2
  · rw [ok_inj] at h; subst h; rw [List.mem_singleton.1 hx]; exact ⟨min_le_left _ _, le_max_left _ _⟩
  · rw [ok_inj] at h
    subst h
    obtain ⟨i, hi, rfl⟩ := List.mem_map.1 hx
    rw [List.mem_range] at hi
    split_ifs with hl
    · exact ⟨min_le_right _ _, le_max_right _ _⟩
    · have hN : (0 : ℝ) < ((n.toNat - 1 : ℕ) : ℝ) := by
        have : 0 < n.toNat - 1 := by omega
        exact_mod_cast this
      set N : ℝ := ((n.toNat - 1 : ℕ) : ℝ)
      have hiN : (i : ℝ) ≤ N := by
        have : i ≤ n.toNat - 1 := by omega
        exact Nat.cast_le.2 this
      have e : (i : ℝ) * ((b - a) / N) + a = (1 - i / N) * a + i / N * b := by field_simp; ring
      have t0 : 0 ≤ (i : ℝ) / N := by positivity
      have t1 : (i : ℝ) / N ≤ 1 := (div_le_one hN).2 hiN
      rw [e]
      generalize (i : ℝ) / N = t at *
      rcases le_total a b with hab | hab
      · rw [min_eq_left hab, max_eq_right hab]; constructor <;> nlinarith
      · rw [min_eq_right hab, max_eq_left hab]; constructor <;> nlinarith

/-! ## The cells of a profile -/

theorem mapM_cellAt {ny nx : Nat} {dem : Nat → Nat → ℝ} {cells : List (Nat × Nat)} {zi : List ℝ} :
    cells.mapM (cellAt ny nx dem) = .ok zi ↔ (∀ p ∈ cells, p.1 < ny ∧ p.2 < nx) ∧ zi = cells.map fun p => dem p.1 p.2 := by
  constructor
  · intro h
    have h1 : ∀ p ∈ cells, p.1 < ny ∧ p.2 < nx := by
      intro p hp
      obtain ⟨b, hb⟩ := mapM_ok_iff.1 ⟨zi, h⟩ p hp
      unfold cellAt at hb
      by_contra hc
      rw [if_neg hc] at hb
      cases hb
    refine ⟨h1, ?_⟩
    rw [mapM_of_ok (g := fun p => dem p.1 p.2) fun p hp => by rw [cellAt, if_pos (h1 p hp)], ok_inj] at h
    exact h.symm
  · rintro ⟨h1, rfl⟩
    exact mapM_of_ok fun p hp => by rw [cellAt, if_pos (h1 p hp)]

/-- A profile starts at the cell itself, and its distances are not negative. -/
theorem profile_facts {lats lons : List ℝ} {r : ℝ} {nums : Int} {dir : ℝ} {i j : Nat} {cells : List (Nat × Nat)}
    {ds : List ℝ} (h : profile lats lons r nums dir i j = .ok (cells, ds)) :
    (∃ cs, cells = (i, j) :: cs ∧ ds.length = cs.length + 1) ∧ ∀ d ∈ ds, 0 ≤ d := by
  unfold profile at h
  simp only [bind_eq_ok] at h
  obtain ⟨lat, h1, lon, h2, latL, h3, lonL, h4, latI, h5, lonI, h6, latE, h7, lonE, h8, iy, h9, ix, h10, ys, h11, xs, h12,
    ds', h13, h⟩ := h
  rw [pure_eq_ok] at h
  cases h
  have hn : (latI.take (min latI.length lonI.length)) ≠ [] := by
    intro h0
    rw [h0] at h7
    obtain ⟨k, hk, _⟩ := pyGet_eq_ok.1 h7
    exact absurd (normIdx_lt hk) (by simp)
  have hn' : 0 < min latI.length lonI.length := by
    rcases Nat.eq_zero_or_pos (min latI.length lonI.length) with h0 | h0
    · rw [h0] at hn; simp at hn
    · exact h0
  have ly := linspace_length h11
  have lx := linspace_length h12
  obtain ⟨ty, hy⟩ := linspace_head h11 (by intro h0; rw [h0] at ly; simp at ly; omega)
  obtain ⟨tx, hx⟩ := linspace_head h12 (by intro h0; rw [h0] at lx; simp at lx; omega)
  have hd : ds = ((latI.take (min latI.length lonI.length)).zip (lonI.take (min latI.length lonI.length))).map
      fun p => 6371000 * InnerProductGeometry.angle (place lat lon) (place p.1 p.2) := by
    rw [mapM_of_ok (g := fun p => 6371000 * InnerProductGeometry.angle (place lat lon) (place p.1 p.2))
      fun p _ => C56_haversine lat lon p.1 p.2, ok_inj] at h13
    exact h13.symm
  constructor
  · refine ⟨(ty.map roundIdx).zip (tx.map roundIdx), ?_, ?_⟩
    · rw [hy, hx, List.map_cons, List.map_cons, List.zip_cons_cons, roundIdx_nat, roundIdx_nat]
    · rw [hy] at ly; rw [hx] at lx
      rw [hd]
      simp only [List.length_map, List.length_zip, List.length_take, List.length_cons] at ly lx ⊢
      omega
  · intro d hdm
    rw [hd] at hdm
    obtain ⟨p, _, rfl⟩ := List.mem_map.1 hdm
    have := InnerProductGeometry.angle_nonneg (place lat lon) (place p.1 p.2)
    positivity

/-- Angle in degrees of the terrain at a point of a profile above the cell `(i, j)`. -/
noncomputable def horizonAngle (dem : Nat → Nat → ℝ) (i j : Nat) (q : (Nat × Nat) × ℝ) : ℝ :=
  Real.arctan ((dem q.1.1 q.1.2 - dem i j) / q.2) * 180.0 / Real.pi

/-- `litCell` in one statement. -/
theorem litCell_eq_ok {dem : Nat → Nat → ℝ} {lats lons : List ℝ} {r : ℝ} {nums : Int} {solh dir : ℝ} {i j : Nat} {b : Bool} :
    litCell dem lats lons r nums solh dir i j = .ok b ↔
      ∃ cs ds, profile lats lons r nums dir i j = .ok ((i, j) :: cs, ds) ∧
        (∀ p ∈ (i, j) :: cs, p.1 < lats.length ∧ p.2 < lons.length) ∧ cs.zip ds.tail ≠ [] ∧
        (b = true ↔ ∀ q ∈ cs.zip ds.tail, horizonAngle dem i j q ≤ solh) := by
  have hz : ∀ (cs : List (Nat × Nat)) (ds : List ℝ), horizonAngles (((i, j) :: cs).map fun p => dem p.1 p.2) ds =
      .ok ((cs.zip ds.tail).map (horizonAngle dem i j)) := by
    intro cs ds
    rw [List.map_cons, horizonAngles, ok_inj, List.zipWith_map_left, List.zip, List.map_zipWith]
    rfl
  unfold litCell
  constructor
  · intro h
    simp only [bind_eq_ok] at h
    obtain ⟨⟨cells, ds⟩, h1, zi, h2, hang, h3, top, h4, h⟩ := h
    obtain ⟨⟨cs, rfl, hl⟩, -⟩ := profile_facts h1
    obtain ⟨hr, rfl⟩ := mapM_cellAt.1 h2
    rw [hz, ok_inj] at h3
    subst h3
    obtain ⟨m1, m2⟩ := listMax_eq_ok.1 h4
    rw [pure_eq_ok] at h
    subst h
    refine ⟨cs, ds, h1, hr, (fun h0 => by rw [h0] at m1; cases m1), ?_⟩
    simp only [Bool.not_eq_true', decide_eq_false_iff_not, not_lt]
    constructor
    · intro ht q hq
      exact (m2 _ (List.mem_map_of_mem hq)).trans ht
    · intro hall
      obtain ⟨q, hq, rfl⟩ := List.mem_map.1 m1
      exact hall q hq
  · rintro ⟨cs, ds, h1, hr, hne, hb⟩
    rw [h1, ok_bind]
    simp only
    rw [mapM_cellAt.2 ⟨hr, rfl⟩, ok_bind, hz, ok_bind]
    obtain ⟨q0, l, hq0⟩ := List.exists_cons_of_ne_nil hne
    obtain ⟨top, htop⟩ : ∃ top, listMax ((cs.zip ds.tail).map (horizonAngle dem i j)) = .ok top := by
      rw [hq0]; exact ⟨_, rfl⟩
    obtain ⟨m1, m2⟩ := listMax_eq_ok.1 htop
    rw [htop, ok_bind, pure_eq_ok]
    rw [Bool.eq_iff_iff, hb]
    simp only [Bool.not_eq_true', decide_eq_false_iff_not, not_lt]
    constructor
    · intro ht q hq
      exact (m2 _ (List.mem_map_of_mem hq)).trans ht
    · intro hall
      obtain ⟨q, hq, rfl⟩ := List.mem_map.1 m1
      exact hall q hq

theorem mem_shadeCells {ny nx : Nat} {mask : Nat → Nat → Bool} {i j : Nat} :
    (i, j) ∈ shadeCells ny nx mask ↔ 1 ≤ i ∧ i + 1 < ny ∧ 1 ≤ j ∧ j + 1 < nx ∧ mask i j = true := by
  unfold shadeCells
  simp only [List.mem_filter, List.mem_flatMap, List.mem_map, List.mem_range, Bool.and_eq_true, decide_eq_true_eq]
  constructor
  · rintro ⟨-, ⟨⟨⟨h1, h2⟩, h3⟩, h4⟩, h5⟩; exact ⟨h1, h2, h3, h4, h5⟩
  · rintro ⟨h1, h2, h3, h4, h5⟩
    exact ⟨⟨i, by omega, j, by omega, rfl⟩, ⟨⟨⟨h1, h2⟩, h3⟩, h4⟩, h5⟩

/-- `relshad` in one statement. -/
theorem relshad_eq_ok {dem : Nat → Nat → ℝ} {mask : Nat → Nat → Bool} {lats lons : List ℝ} {solh dir : ℝ}
    {A : Nat → Nat → Option Bool} (h : relshad dem mask lats lons solh dir = .ok A) :
    ∃ r nums, radius lats lons = .ok r ∧ profileSize lats r = .ok nums ∧
      (∀ p ∈ shadeCells lats.length lons.length mask, ∃ b, litCell dem lats lons r nums solh dir p.1 p.2 = .ok b) ∧
      (∀ i j, (i, j) ∉ shadeCells lats.length lons.length mask → A i j = none) ∧
      (∀ i j b, (i, j) ∈ shadeCells lats.length lons.length mask → (A i j = some b ↔ litCell dem lats lons r nums solh dir i j = .ok b)) := by
  unfold relshad at h
  simp only [bind_eq_ok] at h
  obtain ⟨r, h1, nums, h2, bs, h3, h⟩ := h
  rw [pure_eq_ok] at h
  subst h
  have hall := mapM_ok_iff.1 ⟨bs, h3⟩
  refine ⟨r, nums, h1, h2, hall, fun i j hn => if_neg hn, fun i j b hm => ?_⟩
  show (if (i, j) ∈ shadeCells lats.length lons.length mask then _ else none) = some b ↔ _
  rw [if_pos hm]
  obtain ⟨b', hb'⟩ := hall (i, j) hm
  simp only at hb'
  rw [hb']
  simp [Except.toOption]

theorem relshad_of_lit {dem : Nat → Nat → ℝ} {mask : Nat → Nat → Bool} {lats lons : List ℝ} {solh dir : ℝ} {r : ℝ} {nums : Int}
    (h1 : radius lats lons = .ok r) (h2 : profileSize lats r = .ok nums)
    (h3 : ∀ p ∈ shadeCells lats.length lons.length mask, ∃ b, litCell dem lats lons r nums solh dir p.1 p.2 = .ok b) :
    ∃ A, relshad dem mask lats lons solh dir = .ok A := by
  unfold relshad
  rw [h1, ok_bind, h2, ok_bind]
  obtain ⟨bs, hbs⟩ := mapM_ok_iff.2 h3
  simp only
  rw [hbs, ok_bind]
  exact ⟨_, rfl⟩

end Cosipy
