import Verif.Model.Program
import Verif.Props.C46
import Verif.Lemmas.ExampleIO

/-!
# C67 — simulating a tile of the domain

Full property: with `tile = true` the program simulates exactly the cells `ystart … yend-1`, `xstart … xend-1`, with the
results the simulation of the whole domain has there, for every file the program accepts without tiles. `C67_cells`: the
cells of a tile; `C67_cover`: tiles given by cut points cover every position exactly once; `C67_same_partial`: same
results; `C67_names_refuted`: the names of the dimensions are fixed, the settings `northing`, `easting` are not used.
-/

set_option autoImplicit false
set_option linter.unusedSectionVars false

namespace Cosipy
open Program

theorem sliceBound_le (n : Nat) (i : Int) : sliceBound n i ≤ n := by
  unfold sliceBound
  split_ifs
  · omega
  · exact Nat.min_le_right _ _

/-- **C67, cells.** For non-negative bounds the selected positions are those from `start` to `stop - 1` that exist, in
order. Negative bounds count from the end. -/
theorem C67_cells (n : Nat) (start stop : Int) :
    (0 ≤ start → 0 ≤ stop → slicePos n start stop =
      (List.range n).filter fun (i : Nat) => decide (start ≤ (i : Int) ∧ (i : Int) < stop)) ∧
    (∀ k : Nat, 0 < k → k ≤ n → sliceBound n (-(k : Int)) = n - k) := by
  refine ⟨fun h1 h2 => ?_, fun k hk hkn => ?_⟩
  · obtain ⟨a, rfl⟩ := Int.eq_ofNat_of_zero_le h1
    obtain ⟨b, rfl⟩ := Int.eq_ofNat_of_zero_le h2
    have e : ∀ c : Nat, sliceBound n (c : Int) = min c n := fun c => by
      unfold sliceBound; rw [if_neg (by omega), Int.toNat_natCast]
    unfold slicePos
    rw [e, e]
    refine List.Perm.eq_of_pairwise (le := (· ≤ · : Nat → Nat → Prop)) (fun a b _ _ h1 h2 => le_antisymm h1 h2) ?_ ?_ ?_
    · rw [List.pairwise_map]
      exact List.pairwise_le_range.imp fun h => by omega
    · exact List.pairwise_le_range.filter _
    · refine (List.perm_ext_iff_of_nodup ?_ ?_).2 fun i => ?_
      · exact (List.nodup_range).map fun x y h => by simpa using h
      · exact (List.nodup_range).filter _
      · simp only [List.mem_map, List.mem_range, List.mem_filter, decide_eq_true_eq]
        constructor
        · rintro ⟨j, hj, rfl⟩
          omega
        · rintro ⟨hi, h3, h4⟩
          exact ⟨i - min a n, by omega, by omega⟩
  · unfold sliceBound
    rw [if_pos (by omega)]
    omega

/-- Neighbouring slices. -/
theorem slicePos_append (n : Nat) {a b c : Int} (hab : sliceBound n a ≤ sliceBound n b) (hbc : sliceBound n b ≤ sliceBound n c) :
    slicePos n a b ++ slicePos n b c = slicePos n a c := by
  unfold slicePos
  generalize sliceBound n a = x at *
  generalize sliceBound n b = y at *
  generalize sliceBound n c = z at *
  obtain ⟨u, rfl⟩ := Nat.exists_eq_add_of_le hab
  obtain ⟨v, rfl⟩ := Nat.exists_eq_add_of_le hbc
  have e1 : x + u - x = u := by omega
  have e2 : x + u + v - (x + u) = v := by omega
  have e3 : x + u + v - x = u + v := by omega
  rw [e1, e2, e3, List.range_add, List.map_append, List.map_map]
  congr 1
  refine List.map_congr_left fun i _ => ?_
  simp only [Function.comp]
  omega

theorem sliceBound_mono (n : Nat) {a b : Int} (h0 : 0 ≤ a) (h : a ≤ b) : sliceBound n a ≤ sliceBound n b := by
  unfold sliceBound
  rw [if_neg (by omega), if_neg (by omega)]
  omega

/-- **C67, tiling a domain.** Tiles given by ascending cut points from 0 to at least the size of the domain select every
position exactly once, in order. -/
theorem C67_cover (n : Nat) (cuts : List Int) (h0 : cuts.head? = some 0) (hs : cuts.Pairwise (· ≤ ·))
    (hl : ∀ l, cuts.getLast? = some l → (n : Int) ≤ l) :
    ((cuts.zip cuts.tail).flatMap fun c => slicePos n c.1 c.2) = List.range n := by
  have key : ∀ (cuts : List Int) (a : Int), 0 ≤ a → (a :: cuts).Pairwise (· ≤ ·) → ∀ l, (a :: cuts).getLast? = some l →
      (((a :: cuts).zip cuts).flatMap fun c => slicePos n c.1 c.2) = slicePos n a l := by
    intro cuts
    induction cuts with
    | nil =>
      intro a ha _ l hl
      cases hl
      simp [slicePos]
    | cons b cuts ih =>
      intro a ha hs l hl
      rw [List.pairwise_cons] at hs
      have hab : a ≤ b := hs.1 b List.mem_cons_self
      rw [List.zip_cons_cons, List.flatMap_cons, ih b (ha.trans hab) hs.2 l (by rwa [List.getLast?_cons_cons] at hl)]
      have hbl : b ≤ l := by
        have hm : l ∈ b :: cuts := List.mem_of_getLast? (by rwa [List.getLast?_cons_cons] at hl)
        rcases List.mem_cons.1 hm with rfl | hm
        · exact le_rfl
        · exact (List.pairwise_cons.1 hs.2).1 l hm
      exact slicePos_append n (sliceBound_mono n ha hab) (sliceBound_mono n (ha.trans hab) hbl)
  cases cuts with
  | nil => cases h0
  | cons a cuts =>
    cases h0
    cases hx : (0 :: cuts).getLast? with
    | none => simp at hx
    | some l =>
      rw [List.tail_cons, key cuts 0 le_rfl hs l hx]
      have := hl l hx
      unfold slicePos sliceBound
      rw [if_neg (by omega), if_neg (by omega)]
      have : min l.toNat n = n := by omega
      rw [this]
      simp

section
variable {α δ : Type}

/-- **C67, same results.** Suppose the whole domain and the tile are both simulated, with a simulation of a cell that
depends on the data of the cell only (the position is just passed through). Then every output array of the tile has, at
each of its cells, the values of the whole domain's array at the cell shifted by `ystart`, `xstart`. -/
theorem C67_same_partial {wrf : Bool} {tile : Tile} {D T : Domain δ} (ht : tileDomain wrf tile D = .ok T)
    (hy0 : 0 ≤ tile.ystart) (hx0 : 0 ≤ tile.xstart)
    {g n : δ → Bool} {core : δ → Nat → Nat → M (List (PyVal α))}
    (hpos : ∀ c y x res, core c y x = .ok res → ResultOf res y x)
    (hcell : ∀ c y x y' x' res res', core c y x = .ok res → core c y' x' = .ok res' → res.drop 2 = res'.drop 2)
    {sc sc' : StakeCfg} {io io' : IOState α} (hio : ∀ k, io.attrs k = none) (hio' : ∀ k, io'.attrs k = none)
    (hny : io.ny = D.ny) (hnx : io.nx = D.nx) (hny' : io'.ny = T.ny) (hnx' : io'.nx = T.nx) {fill : α}
    {order order' : List (Nat × Nat) → List (Nat × Nat)} (ho : ∀ l, (order l).Perm l) (ho' : ∀ l, (order' l).Perm l)
    {s s' : IOState α × StakeState α}
    (h : runCosipy sc io fill (fun y x => g (D.cell y x)) (fun y x => n (D.cell y x))
      (fun y x => core (D.cell y x) y x) order = .ok s)
    (h' : runCosipy sc' io' fill (fun y x => g (T.cell y x)) (fun y x => n (T.cell y x))
      (fun y x => core (T.cell y x) y x) order' = .ok s')
    {kind : OutKind} {name param : String} (hm : (kind, name, param) ∈ copyCalls) (hw : io.wants kind name = true)
    (hw' : io'.wants kind name = true) :
    ∃ a a' : Arr α, s.1.attrs (attrName kind name) = some a ∧ s'.1.attrs (attrName kind name) = some a' ∧
      ∀ y x t k, y < T.ny → x < T.nx → a'.val t y x k = a.val t (tile.ystart.toNat + y) (tile.xstart.toNat + x) k := by
  obtain ⟨a, ha, ha1, ha2, -⟩ := C46_written hio (fun y x res hr => hpos _ y x res hr) ho h hm hw
  obtain ⟨a', ha', hb1, hb2, -⟩ := C46_written hio' (fun y x res hr => hpos _ y x res hr) ho' h' hm hw'
  refine ⟨a, a', ha, ha', fun y x t k hy hx => ?_⟩
  -- geometry of the tile
  have geo : T.cell y x = D.cell (tile.ystart.toNat + y) (tile.xstart.toNat + x) ∧ tile.ystart.toNat + y < D.ny ∧
      tile.xstart.toNat + x < D.nx := by
    have off : ∀ (m : Nat) (st en : Int) (i : Nat), 0 ≤ st → i < sliceBound m en - sliceBound m st →
        sliceBound m st = st.toNat ∧ st.toNat + i < m := by
      intro m st en i h0 hi
      have h1 := sliceBound_le m en
      have h2 : sliceBound m st = min st.toNat m := by unfold sliceBound; rw [if_neg (by omega)]
      rw [h2] at hi ⊢
      omega
    unfold tileDomain at ht
    split_ifs at ht with hc
    · cases ht
      obtain ⟨e1, l1⟩ := off D.ny tile.ystart tile.yend y hy0 hy
      obtain ⟨e2, l2⟩ := off D.nx tile.xstart tile.xend x hx0 hx
      exact ⟨by simp only [e1, e2], l1, l2⟩
  obtain ⟨gc, gy, gx⟩ := geo
  cases hg : g (T.cell y x) with
  | false =>
    rw [hb2 y x t k (fun hh => by rw [hh.2.2] at hg; cases hg)]
    rw [ha2 _ _ t k (fun hh => by rw [← gc, hg] at hh; cases hh.2.2)]
  | true =>
    obtain ⟨res', i', v', r1', r2', r3', r4'⟩ := hb1 y x (by rw [hny']; exact hy) (by rw [hnx']; exact hx) hg
    obtain ⟨res, i, v, r1, r2, r3, r4⟩ := ha1 (tile.ystart.toNat + y) (tile.xstart.toNat + x) (by rw [hny]; exact gy)
      (by rw [hnx]; exact gx) (by rw [← gc]; exact hg)
    have hii : i = i' := by
      have hnd : coreReturn.Nodup := by decide +kernel
      have hi : i < coreReturn.length := (List.getElem?_eq_some_iff.1 r2).1
      exact (List.getElem?_inj hi hnd).1 (r2.trans r2'.symm)
    have hi2 : 2 ≤ i := by
      have hn : ∀ e ∈ copyCalls, coreReturn[0]? ≠ some (ownArray e.1 e.2.1) ∧ coreReturn[1]? ≠ some (ownArray e.1 e.2.1) := by
        decide +kernel
      have := hn _ hm
      rcases Nat.lt_or_ge i 2 with hlt | hge
      · have : i = 0 ∨ i = 1 := by omega
        rcases this with rfl | rfl
        · exact absurd r2 (hn _ hm).1
        · exact absurd r2 (hn _ hm).2
      · exact hge
    have hd : res.drop 2 = res'.drop 2 := by
      rw [← gc] at r1
      exact hcell _ _ _ _ _ _ _ r1 r1'
    have hv : v = v' := by
      have e1 : (res.drop 2)[i - 2]? = res[i]? := by rw [List.getElem?_drop]; congr 1; omega
      have e2 : (res'.drop 2)[i - 2]? = res'[i]? := by rw [List.getElem?_drop]; congr 1; omega
      rw [hd, e2] at e1
      rw [← hii, e1, r3] at r3'
      exact PyVal.arr.inj (Option.some.inj r3')
    rw [r4 t k, r4' t k, hv]

/-- **C67 fails for other names**: with `northing`, `easting` set to the names in the file, tiles only work if these are
lat and lon (south_north and west_east for WRF); the settings are not looked at. -/
theorem C67_names_refuted (wrf : Bool) (tile : Tile) (D : Domain δ) :
    tileDomain wrf tile D = .error .value ↔
      ¬ (if wrf then D.yname = "south_north" ∧ D.xname = "west_east" else D.yname = "lat" ∧ D.xname = "lon") := by
  unfold tileDomain tileNames
  cases wrf
  · by_cases h : D.yname = "lat" ∧ D.xname = "lon"
    · simp [h]
    · simp only [Bool.false_eq_true, if_false, Prod.mk.injEq, h, not_false_eq_true]
  · by_cases h : D.yname = "south_north" ∧ D.xname = "west_east"
    · simp [h]
    · simp only [if_true, Prod.mk.injEq, h, if_false, not_false_eq_true]

end

/-- Non-vacuity: a 5 × 4 domain and the tile 1…2 × 1…3; the shipped tile 20…39 on a smaller domain is empty. -/
example : (tileDomain false ⟨1, 3, 1, 9⟩ ⟨"lat", "lon", 5, 4, fun y x => (y, x)⟩).map
      (fun T => (T.ny, T.nx, T.cell 0 0, T.cell 1 2)) = .ok (2, 3, (1, 1), (2, 3)) ∧
    (tileDomain false ⟨20, 40, 20, 40⟩ ⟨"lat", "lon", 5, 4, fun y x => (y, x)⟩).map (fun T => (T.ny, T.nx)) = .ok (0, 0) ∧
    (tileDomain false ⟨0, 1, 0, 1⟩ ⟨"y", "x", 5, 4, fun y x => (y, x)⟩).map (fun T => (T.ny, T.nx)) = .error .value ∧
    (([0, 2, 5] : List Int).zip [2, 5]).flatMap (fun c => slicePos 4 c.1 c.2) = [0, 1, 2, 3] := by
  decide +kernel

/-- A cell simulation that depends on the cell's data only. -/
def exCore (c : Nat × Nat) (y x : Nat) : M (List (PyVal Nat)) := .ok ([.int y, .int x] ++ (exRes c.1 c.2).drop 2)

/-- Non-vacuity of `C67_same_partial`: a 2 × 2 domain and its column 1, both simulated. -/
example : (∀ c y x res, exCore c y x = .ok res → ResultOf res y x) ∧
    (∀ c y x y' x' res res', exCore c y x = .ok res → exCore c y' x' = .ok res' → res.drop 2 = res'.drop 2) ∧
    (runCosipy ⟨false, false, false⟩ exIO 9 (fun y x => exMask y x) (fun _ _ => false) (fun y x => exCore (y, x) y x)
      List.reverse).toOption.isSome = true ∧
    (runCosipy ⟨false, false, false⟩ { exIO with nx := 1 } 9 (fun y x => exMask y (1 + x)) (fun _ _ => false)
      (fun y x => exCore (y, 1 + x) y x) id).toOption.isSome = true ∧
    (tileDomain false ⟨0, 2, 1, 2⟩ ⟨"lat", "lon", 2, 2, fun y x => (y, x)⟩).map
      (fun T => (T.ny, T.nx, T.cell 0 0, T.cell 1 0)) = .ok (2, 1, (0, 1), (1, 1)) := by
  refine ⟨fun c y x res h => ?_, fun c y x y' x' res res' h h' => ?_, by decide +kernel, by decide +kernel,
    by decide +kernel⟩
  · cases h; exact ⟨rfl, rfl⟩
  · cases h; cases h'; rfl

end Cosipy
