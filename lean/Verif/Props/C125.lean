import Verif.Model.SubArea
import Verif.Props.C116
import Verif.Props.C87

/-!
# C125 A part of the glacier is prepared as it is in the whole
-/

set_option autoImplicit false
set_option linter.unusedSectionVars false

namespace Cosipy
open Aws

/-- The field holds `x` at the coordinates `la`, `lo`. -/
def Area.At {α β : Type} (a : Area α β) (la lo : α) (x : β) : Prop :=
  ∃ (i j : Nat) (row : List β), a.lats[i]? = some la ∧ a.lons[j]? = some lo ∧ a.cells[i]? = some row ∧ row[j]? = some x

/-- A coordinate lies between two bounds, if they are given. -/
def WithinBounds {α : Type} [LE α] (a b : Option α) (x : α) : Prop := (∀ l ∈ a, l ≤ x) ∧ (∀ u ∈ b, x ≤ u)

/-- The coordinates lie in the box. -/
def Box.Has {α : Type} [LE α] (b : Box α) (la lo : α) : Prop := WithinBounds b.yl b.yu la ∧ WithinBounds b.xl b.xr lo

/-- Every row has a cell for each longitude, and there is a row for each latitude. -/
def Area.Full {α β : Type} (a : Area α β) : Prop :=
  a.cells.length = a.lats.length ∧ ∀ row ∈ a.cells, row.length = a.lons.length

theorem cut_get {β : Type} (lo hi k : Nat) (xs : List β) (x : β) :
    (cut lo hi xs)[k]? = some x ↔ lo + k < hi ∧ xs[lo + k]? = some x := by
  unfold cut
  rw [List.getElem?_drop, List.getElem?_take]
  split_ifs with h
  · simp [h]
  · simp [h]

section
variable {K : Type} [LinearOrder K]

theorem increasing_of {xs : List K} (h : xs.Pairwise (· < ·)) : increasing xs = true := by
  induction xs with
  | nil => rfl
  | cons a t ih =>
    cases t with
    | nil => rfl
    | cons b r =>
      rw [List.pairwise_cons] at h
      simp only [increasing, ih h.2, Bool.and_true, decide_eq_true_eq]
      exact (h.1 b List.mem_cons_self).le

theorem decreasing_of {xs : List K} (h : xs.Pairwise (· > ·)) : decreasing xs = true := by
  induction xs with
  | nil => rfl
  | cons a t ih =>
    cases t with
    | nil => rfl
    | cons b r =>
      rw [List.pairwise_cons] at h
      simp only [decreasing, ih h.2, Bool.and_true, decide_eq_true_eq]
      exact (h.1 b List.mem_cons_self).le

theorem not_increasing {xs : List K} (h : xs.Pairwise (· > ·)) (h2 : 2 ≤ xs.length) : increasing xs = false := by
  match xs, h, h2 with
  | a :: b :: r, h, _ =>
    rw [List.pairwise_cons] at h
    have : ¬ a ≤ b := not_le.2 (h.1 b List.mem_cons_self)
    simp [increasing, this]

/-- In a sorted list the entries with a property that is lost on the way come first. -/
theorem countP_pos {r : K → K → Prop} {p : K → Bool} (hp : ∀ a b, r a b → p b = true → p a = true) {xs : List K}
    (h : xs.Pairwise r) (k : Nat) (x : K) (hx : xs[k]? = some x) : p x = true ↔ k < xs.countP p := by
  induction xs generalizing k with
  | nil => simp at hx
  | cons a t ih =>
    rw [List.pairwise_cons] at h
    cases k with
    | zero =>
      simp only [List.getElem?_cons_zero, Option.some.injEq] at hx
      subst hx
      constructor
      · intro hpx; rw [List.countP_cons_of_pos hpx]; omega
      · intro hc
        by_contra hn
        have h0 : t.countP p = 0 := by
          rw [List.countP_eq_zero]
          intro b hb hpb
          exact hn (hp a b (h.1 b hb) hpb)
        rw [List.countP_cons_of_neg hn, h0] at hc
        omega
    | succ k =>
      rw [List.getElem?_cons_succ] at hx
      have hmem : x ∈ t := List.mem_of_getElem? hx
      rw [ih h.2 k hx]
      by_cases ha : p a = true
      · rw [List.countP_cons_of_pos ha]; omega
      · have h0 : t.countP p = 0 := by
          rw [List.countP_eq_zero]
          intro b hb hpb
          exact ha (hp a b (h.1 b hb) hpb)
        rw [List.countP_cons_of_neg ha, h0]
        omega

/-- The positions found on a sorted axis. -/
theorem positions {xs : List K} (h : xs.Pairwise (· < ·)) (a b : Option K) : ∃ lo hi, lowerPos xs a = .ok lo ∧
    upperPos xs b = .ok hi ∧ ∀ k x, xs[k]? = some x → (lo ≤ k ∧ k < hi ↔ WithinBounds a b x) := by
  have hi := increasing_of h
  have e1 : ∃ lo, lowerPos xs a = .ok lo ∧ ∀ k x, xs[k]? = some x → (lo ≤ k ↔ ∀ l ∈ a, l ≤ x) := by
    cases a with
    | none => exact ⟨0, rfl, fun k x _ => by simp⟩
    | some a =>
      refine ⟨_, by rw [lowerPos, if_pos hi], fun k x hx => ?_⟩
      have := countP_pos (p := fun x => decide (x < a)) (r := (· < ·)) (fun u v huv hv => by
        simp only [decide_eq_true_eq] at *; exact huv.trans hv) h k x hx
      simp only [decide_eq_true_eq] at this
      simp only [Option.mem_def, Option.some.injEq, forall_eq']
      rw [← not_lt, ← this, not_lt]
  have e2 : ∃ hi, upperPos xs b = .ok hi ∧ ∀ k x, xs[k]? = some x → (k < hi ↔ ∀ u ∈ b, x ≤ u) := by
    cases b with
    | none =>
      refine ⟨_, rfl, fun k x hx => ?_⟩
      obtain ⟨hk, _⟩ := List.getElem?_eq_some_iff.1 hx
      simp [hk]
    | some b =>
      refine ⟨_, by rw [upperPos, if_pos hi], fun k x hx => ?_⟩
      have := countP_pos (p := fun x => decide (x ≤ b)) (r := (· < ·)) (fun u v huv hv => by
        simp only [decide_eq_true_eq] at *; exact huv.le.trans hv) h k x hx
      simp only [decide_eq_true_eq] at this
      simp only [Option.mem_def, Option.some.injEq, forall_eq']
      exact this.symm
  obtain ⟨lo, h1, h2⟩ := e1
  obtain ⟨hi', h3, h4⟩ := e2
  exact ⟨lo, hi', h1, h3, fun k x hx => by rw [h2 k x hx, h4 k x hx]; rfl⟩

/-- **C125, selection.** From a static file whose axes ascend, exactly the cells in the box are taken, with their coordinates; bounds
belong to the box, a missing bound does not restrict it. -/
theorem C125_selection {β : Type} {s : Area K β} (hy : s.lats.Pairwise (· < ·)) (hx : s.lons.Pairwise (· < ·)) (b : Box K) :
    ∃ s', s.sel b = .ok s' ∧ ∀ la lo x, Area.At s' la lo x ↔ Area.At s la lo x ∧ Box.Has b la lo := by
  obtain ⟨y0, y1, e1, e2, e3⟩ := positions hy b.yl b.yu
  obtain ⟨x0, x1, e4, e5, e6⟩ := positions hx b.xl b.xr
  refine ⟨_, by rw [Area.sel, e1, ok_bind, e2, ok_bind, e4, ok_bind, e5, ok_bind]; rfl, fun la lo x => ?_⟩
  constructor
  · rintro ⟨i, j, row, h1, h2, h3, h4⟩
    rw [cut_get] at h1 h2
    rw [List.getElem?_map, Option.map_eq_some_iff] at h3
    obtain ⟨r, h3, rfl⟩ := h3
    rw [cut_get] at h3 h4
    refine ⟨⟨y0 + i, x0 + j, r, h1.2, h2.2, h3.2, h4.2⟩, ?_, ?_⟩
    · exact (e3 _ _ h1.2).1 ⟨by omega, h1.1⟩
    · exact (e6 _ _ h2.2).1 ⟨by omega, h2.1⟩
  · rintro ⟨⟨i, j, row, h1, h2, h3, h4⟩, h5, h6⟩
    obtain ⟨a1, a2⟩ := (e3 _ _ h1).2 h5
    obtain ⟨b1, b2⟩ := (e6 _ _ h2).2 h6
    have ei : y0 + (i - y0) = i := by omega
    have ej : x0 + (j - x0) = j := by omega
    refine ⟨i - y0, j - x0, cut x0 x1 row, (cut_get ..).2 ?_, (cut_get ..).2 ?_, ?_, (cut_get ..).2 ?_⟩
    · rw [ei]; exact ⟨a2, h1⟩
    · rw [ej]; exact ⟨b2, h2⟩
    · rw [List.getElem?_map, (cut_get ..).2 (by rw [ei]; exact ⟨a2, h3⟩)]; rfl
    · rw [ej]; exact ⟨b2, h4⟩

/-- Two neighbouring parts: a cell is in both only if it lies on their common border, and every cell of the large part is in one of
them. -/
theorem C125_parts {xl xr yl yu m la lo : K} (hm : yl ≤ m ∧ m ≤ yu) :
    (Box.Has ⟨some xl, some xr, some yl, some yu⟩ la lo ↔ Box.Has ⟨some xl, some xr, some yl, some m⟩ la lo ∨
      Box.Has ⟨some xl, some xr, some m, some yu⟩ la lo) ∧
    (Box.Has ⟨some xl, some xr, some yl, some m⟩ la lo ∧ Box.Has ⟨some xl, some xr, some m, some yu⟩ la lo ↔
      la = m ∧ xl ≤ lo ∧ lo ≤ xr) := by
  simp only [Box.Has, WithinBounds, Option.mem_def, Option.some.injEq, forall_eq']
  constructor
  · constructor
    · rintro ⟨⟨h1, h2⟩, h3⟩
      rcases le_total la m with h | h
      · exact .inl ⟨⟨h1, h⟩, h3⟩
      · exact .inr ⟨⟨h, h2⟩, h3⟩
    · rintro (⟨⟨h1, h2⟩, h3⟩ | ⟨⟨h1, h2⟩, h3⟩)
      · exact ⟨⟨h1, h2.trans hm.2⟩, h3⟩
      · exact ⟨⟨hm.1.trans h1, h2⟩, h3⟩
  · constructor
    · rintro ⟨⟨⟨h1, h2⟩, h3⟩, ⟨h4, h5⟩, h6⟩
      exact ⟨le_antisymm h2 h4, h3⟩
    · rintro ⟨rfl, h3⟩
      exact ⟨⟨⟨hm.1, le_rfl⟩, h3⟩, ⟨le_rfl, hm.2⟩, h3⟩

/-- **C125** (violation): with latitudes that descend, as in rasters stored from north to south, a box with a lower and an upper
bound is empty, whatever lies in it. -/
theorem C125_descending_refuted {β : Type} {s : Area K β} (hy : s.lats.Pairwise (· > ·)) (h2 : 2 ≤ s.lats.length)
    (hx : s.lons.Pairwise (· < ·)) {yl yu : K} (hb : yl < yu) (xl xr : Option K) :
    ∃ s', s.sel ⟨xl, xr, some yl, some yu⟩ = .ok s' ∧ s'.lats = [] ∧ s'.cells = [] := by
  obtain ⟨x0, x1, e4, e5, e6⟩ := positions hx xl xr
  have e1 : lowerPos s.lats (some yl) = .ok (s.lats.countP fun x => decide (yl < x)) := by
    rw [lowerPos, not_increasing hy h2, decreasing_of hy]; rfl
  have e2 : upperPos s.lats (some yu) = .ok (s.lats.countP fun x => decide (yu ≤ x)) := by
    rw [upperPos, not_increasing hy h2, decreasing_of hy]; rfl
  have hle : (s.lats.countP fun x => decide (yu ≤ x)) ≤ s.lats.countP fun x => decide (yl < x) :=
    List.countP_mono_left fun x _ h => by
      simp only [decide_eq_true_eq] at *; exact hb.trans_le h
  have hcut : ∀ {γ : Type} (xs : List γ), cut (s.lats.countP fun x => decide (yl < x))
      (s.lats.countP fun x => decide (yu ≤ x)) xs = [] := by
    intro γ xs
    unfold cut
    rw [List.drop_eq_nil_iff, List.length_take]
    omega
  refine ⟨_, by rw [Area.sel, e1, ok_bind, e2, ok_bind, e4, ok_bind, e5, ok_bind]; rfl, hcut _, ?_⟩
  show List.map _ (cut _ _ _) = []
  rw [hcut]; rfl

end

section
variable {K : Type} [Field K] [LinearOrder K] [IsStrictOrderedRing K] [Transc K]

theorem cut_zip {β γ : Type} (lo hi : Nat) (xs : List β) (ys : List γ) : (cut lo hi xs).zip (cut lo hi ys) = cut lo hi (xs.zip ys) := by
  unfold cut
  rw [List.zip_eq_zipWith, List.zip_eq_zipWith, ← List.drop_zipWith, ← List.take_zipWith]

theorem cut_forall₂ {β γ : Type} {r : β → γ → Prop} {xs : List β} {ys : List γ} (h : List.Forall₂ r xs ys) (lo hi : Nat) :
    List.Forall₂ r (cut lo hi xs) (cut lo hi ys) :=
  List.forall₂_drop lo (List.forall₂_take hi h)

theorem cut_map {β γ : Type} (f : β → γ) (lo hi : Nat) (xs : List β) : cut lo hi (xs.map f) = (cut lo hi xs).map f := by
  unfold cut; rw [List.map_drop, List.map_take]

/-- The whole domain. -/
def Box.all : Box K := ⟨none, none, none, none⟩

theorem sel_all {β : Type} (s : Area K β) (hf : Area.Full s) : s.sel Box.all = .ok s := by
  show Except.ok _ = Except.ok _
  congr 1
  have hc : ∀ {γ : Type} (xs : List γ) (n : Nat), xs.length = n → cut 0 n xs = xs := by
    intro γ xs n hn; unfold cut; rw [← hn, List.take_length, List.drop_zero]
  cases s with
  | mk lats lons cells =>
    congr 1
    · exact hc _ _ rfl
    · exact hc _ _ rfl
    · show List.map (cut 0 lons.length) (cut 0 lats.length cells) = cells
      rw [hc cells _ hf.1]
      conv_rhs => rw [← List.map_id cells]
      exact List.map_congr_left fun row hr => hc row _ (hf.2 row hr)

/-- **C125.** A part that is cut out of the static file is prepared exactly as it is in the whole glacier: the same times, and for
every cell of the box (and no other) the same series, with the same coordinates. -/
theorem C125_part {nm : Names} {c : Cfg K} {agg : Option Int} {correct : K → K → Static K → Option (Int → K → M K)} {s : Area K (Static K)}
    {df : Frame K} {r : Option (Int × Int)} {index : List Int} {whole : Area K (Store (List (Option K)))}
    (hf : Area.Full s) (hy : s.lats.Pairwise (· < ·)) (hx : s.lons.Pairwise (· < ·))
    (h : prepareArea nm c agg correct Box.all s df r = .ok (index, whole)) (b : Box K) :
    ∃ part, prepareArea nm c agg correct b s df r = .ok (index, part) ∧
      ∀ la lo ds, Area.At part la lo ds ↔ Area.At whole la lo ds ∧ Box.Has b la lo := by
  unfold prepareArea at h
  rw [sel_all s hf] at h
  simp only [bind_eq_ok, ok_bind] at h
  obtain ⟨d, hd, t2, ht, u, hu, o, ho, h⟩ := h
  rw [pure_eq_ok] at h
  cases h
  obtain ⟨y0, y1, e1, e2, e3⟩ := positions hy b.yl b.yu
  obtain ⟨x0, x1, e4, e5, e6⟩ := positions hx b.xl b.xr
  have hsel : s.sel b = .ok ⟨cut y0 y1 s.lats, cut x0 x1 s.lons, (cut y0 y1 s.cells).map (cut x0 x1)⟩ := by
    rw [Area.sel, e1, ok_bind, e2, ok_bind, e4, ok_bind, e5, ok_bind]; rfl
  have ho' : ((cut y0 y1 s.lats).zip ((cut y0 y1 s.cells).map (cut x0 x1))).mapM
      (fun r => ((cut x0 x1 s.lons).zip r.2).mapM fun q => createCell nm c d (correct r.1 q.1) q.2) =
      .ok ((cut y0 y1 o).map (cut x0 x1)) := by
    rw [mapM_eq_ok_iff] at ho ⊢
    have : (cut y0 y1 s.lats).zip ((cut y0 y1 s.cells).map (cut x0 x1)) =
        (cut y0 y1 (s.lats.zip s.cells)).map fun p => (p.1, cut x0 x1 p.2) := by
      rw [← cut_zip, List.zip_map_right]; rfl
    rw [this, List.forall₂_map_left_iff, List.forall₂_map_right_iff]
    refine (cut_forall₂ ho y0 y1).imp fun p q hpq => ?_
    rw [mapM_eq_ok_iff] at hpq ⊢
    rw [cut_zip]
    exact cut_forall₂ hpq x0 x1
  refine ⟨⟨cut y0 y1 s.lats, cut x0 x1 s.lons, (cut y0 y1 o).map (cut x0 x1)⟩, ?_, ?_⟩
  · unfold prepareArea
    rw [hd, ok_bind, hsel, ok_bind, ht, ok_bind, hu, ok_bind, ho', ok_bind]; rfl
  · obtain ⟨s', hs', hat⟩ := C125_selection (s := (⟨s.lats, s.lons, o⟩ : Area K _)) hy hx b
    have : (⟨s.lats, s.lons, o⟩ : Area K (Store (List (Option K)))).sel b =
        .ok ⟨cut y0 y1 s.lats, cut x0 x1 s.lons, (cut y0 y1 o).map (cut x0 x1)⟩ := by
      rw [Area.sel, e1, ok_bind, e2, ok_bind, e4, ok_bind, e5, ok_bind]; rfl
    rw [this] at hs'
    cases hs'
    exact hat

/-- **C125, the final check.** If any cell holds a temperature record, the check of a part of the glacier does not fail, and it warns exactly if some
temperature of some cell is below 223.16 K or above 316.16 K. -/
theorem C125_checked {part : Area K (Store (List (Option K)))}
    (hne : ∃ row ∈ part.cells, ∃ ds ∈ row, ∃ t2, ds "T2" = some t2 ∧ t2 ≠ []) :
    ∃ w, checkArea part = .ok w ∧ (w = true ↔
      ∃ row ∈ part.cells, ∃ ds ∈ row, ∃ t2, ds "T2" = some t2 ∧ ∃ v, some v ∈ t2 ∧ (v < 22316 / 100 ∨ 31616 / 100 < v)) := by
  obtain ⟨row, hr, ds, hd, t2, ht, hn⟩ := hne
  have hf : (part.cells.flatMap fun row => row.flatMap fun ds => (ds "T2").getD []) ≠ [] := by
    obtain ⟨x, hx⟩ := List.exists_mem_of_ne_nil _ hn
    exact List.ne_nil_of_mem (List.mem_flatMap.2 ⟨row, hr, List.mem_flatMap.2 ⟨ds, hd, by rw [ht]; exact hx⟩⟩)
  obtain ⟨w, h1, h2⟩ := C87_routine hf (316.16 : K) (223.16 : K)
  refine ⟨w, h1, ?_⟩
  have a : (223.16 : K) = 22316 / 100 := by norm_num
  have b : (316.16 : K) = 31616 / 100 := by norm_num
  rw [h2, InRange, a, b]
  push Not
  constructor
  · rintro ⟨v, hv, hb⟩
    obtain ⟨row, hr, hv⟩ := List.mem_flatMap.1 hv
    obtain ⟨ds, hd, hv⟩ := List.mem_flatMap.1 hv
    cases ht : ds "T2" with
    | none => rw [ht] at hv; cases hv
    | some t2 =>
      rw [ht] at hv
      refine ⟨row, hr, ds, hd, t2, ht, v, hv, ?_⟩
      by_cases hc : v < 22316 / 100
      · exact .inl hc
      · exact .inr (hb (not_lt.1 hc))
  · rintro ⟨row, hr, ds, hd, t2, ht, v, hv, hb⟩
    refine ⟨v, List.mem_flatMap.2 ⟨row, hr, List.mem_flatMap.2 ⟨ds, hd, by rw [ht]; exact hv⟩⟩, fun hc => ?_⟩
    exact hb.resolve_left (not_lt.2 hc)

/-- **C125** (violation, consequence): with descending latitudes the preparation succeeds with a file of no cells, and then the final
check raises. -/
theorem C125_empty_refuted {nm : Names} {c : Cfg K} {agg : Option Int} {correct : K → K → Static K → Option (Int → K → M K)}
    {s : Area K (Static K)} {df d : Frame K} {r : Option (Int × Int)} (hd : gridFrame nm agg df r = .ok d) {t2 : List (Option K)}
    (ht : d.cols nm.t2 = some t2) (hok : checkTemperatureBounds (t2.map fun x => if c.inK then x else x.map (· + 273.16)) = .ok ())
    (hy : s.lats.Pairwise (· > ·)) (h2 : 2 ≤ s.lats.length) (hx : s.lons.Pairwise (· < ·)) {yl yu : K} (hb : yl < yu)
    (xl xr : Option K) :
    ∃ part, prepareArea nm c agg correct ⟨xl, xr, some yl, some yu⟩ s df r = .ok (d.index, part) ∧ part.cells = [] ∧
      checkArea part = .error .value := by
  obtain ⟨s', hs, h3, h4⟩ := C125_descending_refuted hy h2 hx hb xl xr
  refine ⟨⟨[], s'.lons, []⟩, ?_, rfl, rfl⟩
  unfold prepareArea
  rw [hd, ok_bind, hs, ok_bind]
  have : getCol d.cols nm.t2 = .ok t2 := by unfold getCol; rw [ht]
  rw [this, ok_bind, hok, ok_bind, h3, h4]
  rfl

end

/-! ## Non-vacuity -/

section
local instance exTranscC125 : Transc ℚ := ⟨id, id, id, id, id, id, id, fun x _ => x, 3⟩

/-- Three rows, two columns. -/
private def exStatic : Area ℚ (Static ℚ) :=
  ⟨[30, 31, 32], [90, 91], [[⟨some 5000, some 1, some 0, some 0⟩, ⟨some 5100, some 1, some 0, some 0⟩],
    [⟨some 5200, some 1, some 0, some 0⟩, ⟨some 5300, some 1, some 0, some 0⟩],
    [⟨some 5400, none, some 0, some 0⟩, ⟨some 5500, some 1, some 0, some 0⟩]]⟩
private def exArea (b : Box ℚ) (s : Area ℚ (Static ℚ)) : Option (Area ℚ (Store (List (Option ℚ)))) :=
  ((prepareArea exNames ⟨true, -6/1000, 1/100, 1/100, 0, 5000, 5100⟩ none (fun _ _ _ => none) b s exStation none).map
    (·.2)).toOption
/-- The temperatures, row by row. -/
private def exT2 (b : Box ℚ) (s : Area ℚ (Static ℚ)) : List (List (List (Option ℚ))) :=
  ((exArea b s).map fun a => a.cells.map fun row => row.map fun d => (d "T2").getD []).getD []

example : (exArea Box.all exStatic).isSome = true ∧ Area.Full exStatic ∧ exStatic.lats.Pairwise (· < ·) ∧
    exStatic.lons.Pairwise (· < ·) := by unfold Area.Full; decide +kernel
/-- The box from 30.5 to 32 degrees north and from 91 degrees east. -/
example : ((exArea ⟨some 91, none, some (61/2), some 32⟩ exStatic).map fun a => (a.lats, a.lons)) = some ([31, 32], [91]) ∧
    exT2 ⟨some 91, none, some (61/2), some 32⟩ exStatic =
      [[[some (270 - 9/5), some (272 - 9/5), some (271 - 9/5)]], [[some 267, some 269, some 268]]] := by
  decide +kernel
/-- `C125_checked`: the part above is fine, 5 K too low a record is not. -/
example : ((exArea ⟨some 91, none, some (61/2), some 32⟩ exStatic).map fun a => checkArea a) = some (.ok false) ∧
    checkArea (⟨[31], [91], [[fun n => if n = "T2" then some [none, some 218] else none]]⟩ : Area ℚ (Store (List (Option ℚ)))) = .ok true := by
  decide +kernel
/-- The same file stored from north to south. -/
private def exNorthSouth : Area ℚ (Static ℚ) := ⟨exStatic.lats.reverse, exStatic.lons, exStatic.cells.reverse⟩
example : ((exArea ⟨some 91, none, some (61/2), some 32⟩ exNorthSouth).map fun a => (a.lats, a.lons)) = some ([], [91]) ∧
    exNorthSouth.lats.Pairwise (· > ·) ∧ (2 ≤ exNorthSouth.lats.length) ∧
    (gridFrame exNames none exStation none).toOption.isSome = true := by decide +kernel
example : (30 : ℚ) ≤ 31 ∧ (31 : ℚ) ≤ 32 := by norm_num

end
end Cosipy
