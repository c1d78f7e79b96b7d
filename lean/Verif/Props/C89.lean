import Verif.Props.C22
import Verif.Props.C23
import Verif.Lemmas.Sum
import Mathlib.Tactic.FieldSimp
import Mathlib.Tactic.LinearCombination

/-!
# C89: merging layers and conducting heat keep the heat of the column

The heat of a layer is its heat capacity per volume times its height times its temperature.
-/

set_option autoImplicit false
set_option linter.unusedSectionVars false

namespace Cosipy
section
variable {K : Type} [Field K] [LinearOrder K] [IsStrictOrderedRing K]

/-! ## Merging -/

/-- Heat capacity of a layer per volume: that of its ice and its liquid water. -/
def Node.capacity (c : Consts K) (n : Node K) : K :=
  n.iceFraction * c.iceDensity * c.specHeatIce + n.lwc * c.waterDensity * c.specHeatWater

/-- Heat of a column per area, relative to 0 K. -/
def sumEnergy (c : Consts K) (ns : List (Node K)) : K :=
  columnSum (fun n => n.height * n.capacity c * n.temperature) ns

/-- **C89, merging, exact change.** Merging two layers changes the heat of the column by the product of the differences
of their heat capacities and temperatures, times half the harmonic mean of their heights. -/
theorem C89_merge (c : Consts K) {g g' : Grid K} {i : Int} (hi : 0 ≤ i) (h : g.mergeNodes i = .ok g') :
    ∃ pre a b post, g.nodes = pre ++ a :: b :: post ∧ (pre.length : Int) = i ∧ a.height + b.height ≠ 0 ∧
      sumEnergy c g'.nodes = sumEnergy c g.nodes - a.height * b.height / (a.height + b.height) *
        (a.capacity c - b.capacity c) * (a.temperature - b.temperature) := by
  obtain ⟨pre, a, b, post, hd, hl, hne, rfl⟩ := mergeNodes_decomp hi h
  refine ⟨pre, a, b, post, hd, hl, hne, ?_⟩
  rw [hd]
  unfold sumEnergy columnSum
  simp only [List.map_append, List.map_cons, List.sum_append, List.sum_cons]
  have : (Grid.merged a b).height * (Grid.merged a b).capacity c * (Grid.merged a b).temperature =
      a.height * a.capacity c * a.temperature + b.height * b.capacity c * b.temperature -
        a.height * b.height / (a.height + b.height) * (a.capacity c - b.capacity c) *
          (a.temperature - b.temperature) := by
    unfold Node.capacity Grid.merged Grid.upd
    simp only
    field_simp
    ring
  rw [this]
  ring

/-- **C89, merging.** Full statement: merging keeps the heat of the column. It does so, for layers of positive height, if
and only if the two layers have the same heat capacity or the same temperature. -/
theorem C89_merge_partial (c : Consts K) {g g' : Grid K} {i : Int} (hi : 0 ≤ i) (hp : ∀ n ∈ g.nodes, 0 < n.height)
    (h : g.mergeNodes i = .ok g') : ∃ pre a b post, g.nodes = pre ++ a :: b :: post ∧ (pre.length : Int) = i ∧
      (sumEnergy c g'.nodes = sumEnergy c g.nodes ↔ a.capacity c = b.capacity c ∨ a.temperature = b.temperature) := by
  obtain ⟨pre, a, b, post, hd, hl, hne, he⟩ := C89_merge c hi h
  refine ⟨pre, a, b, post, hd, hl, ?_⟩
  have ha := hp a (by rw [hd]; simp)
  have hb := hp b (by rw [hd]; simp)
  have hm : a.height * b.height / (a.height + b.height) ≠ 0 := by positivity
  rw [he, sub_eq_self, mul_eq_zero, mul_eq_zero, sub_eq_zero, sub_eq_zero]
  exact ⟨fun h => h.elim (fun h => Or.inl (h.resolve_left hm)) Or.inr, fun h => h.elim (fun h => Or.inl (Or.inr h)) Or.inr⟩

/-! ## Conduction -/

/-- Half the distance between the layers above and below, which the solver takes for the height of a layer. -/
def span (a b d : HeatCell K) : K := ((a.h + b.h) / 2 + (b.h + d.h) / 2) / 2

/-- Layers with their heat capacity per volume. -/
abbrev Layered (K : Type) := List (HeatCell K × K)

/-- Heat of a column. -/
def heatOf (ls : Layered K) : K := (ls.map fun l => l.2 * l.1.h * l.1.t).sum

/-- The column after one sub-step. -/
def conducted (τ : K) (ls : Layered K) : Layered K := (heatPass τ (ls.map Prod.fst)).zip (ls.map Prod.snd)

/-- Heat capacity of a layer relative to the one the solver acts with. -/
def share (a b d : HeatCell K × K) : K := b.2 * b.1.h / span a.1 b.1 d.1

/-- Sum over the inner layers of what each gains. -/
def gained : Layered K → K
  | a :: b :: d :: rest => share a b d * (interfaceFlux b.1 d.1 - interfaceFlux a.1 b.1) + gained (b :: d :: rest)
  | _ => 0

theorem span_pos {a b d : HeatCell K} (ha : 0 < a.h) (hb : 0 < b.h) (hd : 0 < d.h) : 0 < span a b d := by
  unfold span; positivity

theorem newT_gain (τ : K) {a b d : HeatCell K × K} (ha : a.1.Pos) (hb : b.1.Pos) (hd : d.1.Pos) :
    b.2 * b.1.h * heatNewT τ a.1 b.1 d.1 =
      b.2 * b.1.h * b.1.t + τ * (share a b d * (interfaceFlux b.1 d.1 - interfaceFlux a.1 b.1)) := by
  have h := heatNewT_flux τ ha hb hd
  have hs := span_pos ha.1 hb.1 hd.1
  have e : ((a.1.h + b.1.h) / 2 + (b.1.h + d.1.h) / 2) / 2 = span a.1 b.1 d.1 := rfl
  rw [e] at h
  unfold share
  have : heatNewT τ a.1 b.1 d.1 = b.1.t + τ * (interfaceFlux b.1 d.1 - interfaceFlux a.1 b.1) / span a.1 b.1 d.1 := by
    have h2 : span a.1 b.1 d.1 * heatNewT τ a.1 b.1 d.1 = span a.1 b.1 d.1 *
        (b.1.t + τ * (interfaceFlux b.1 d.1 - interfaceFlux a.1 b.1) / span a.1 b.1 d.1) := by
      rw [h, mul_add, mul_div_cancel₀ _ hs.ne']
    exact mul_left_cancel₀ hs.ne' h2
  rw [this]
  field_simp

theorem conducted_below (τ : K) : ∀ (a : HeatCell K × K) (ls : Layered K), (∀ l ∈ a :: ls, l.1.Pos) →
    (((heatBelow τ ((a :: ls).map Prod.fst)).zip (ls.map Prod.snd)).map fun l => l.2 * l.1.h * l.1.t).sum =
      (ls.map fun l => l.2 * l.1.h * l.1.t).sum + τ * gained (a :: ls)
  | a, [], _ => by simp [heatBelow, gained]
  | a, [b], _ => by simp [heatBelow, gained]
  | a, b :: d :: rest, hp => by
    have ih := conducted_below τ b (d :: rest) (fun x hx => hp x (List.mem_cons_of_mem _ hx))
    have hn := newT_gain τ (hp a (by simp)) (hp b (by simp)) (hp d (by simp))
    simp only [List.map_cons] at ih ⊢
    rw [heatBelow]
    simp only [List.zip_cons_cons, List.map_cons, List.sum_cons, gained] at ih ⊢
    rw [ih, hn]
    ring

/-- **C89, conduction, exact change.** One sub-step of length `τ` changes the heat of the column by `τ` times the fluxes
out of and into the inner layers, each weighted with the layer's own share. -/
theorem C89_conduct (τ : K) (ls : Layered K) (hp : ∀ l ∈ ls, 0 < l.1.h ∧ 0 < l.1.k) :
    heatOf (conducted τ ls) = heatOf ls + τ * gained ls := by
  cases ls with
  | nil => simp [heatOf, conducted, heatPass, gained]
  | cons a ls =>
    have := conducted_below τ a ls hp
    unfold heatOf conducted
    simp only [List.map_cons, heatPass] at this ⊢
    simp only [List.zip_cons_cons, List.map_cons, List.sum_cons]
    rw [this]
    ring

/-- All inner layers have the same share. -/
def SameShare (ls : Layered K) : Prop :=
  ∀ pre a b d e post, ls = pre ++ a :: b :: d :: e :: post → share a b d = share b d e

theorem SameShare.tail {a : HeatCell K × K} {ls : Layered K} (h : SameShare (a :: ls)) : SameShare ls :=
  fun pre x b d e post hl => h (a :: pre) x b d e post (by rw [hl]; rfl)

theorem gained_same {r : K} : ∀ (a b d : HeatCell K × K) (ls : Layered K), SameShare (a :: b :: d :: ls) →
    share a b d = r → gained (a :: b :: d :: ls) =
      r * (bottomFlux ((a :: b :: d :: ls).map Prod.fst) - topFlux ((a :: b :: d :: ls).map Prod.fst))
  | a, b, d, [], _, hr => by
    simp [gained, hr, bottomFlux, topFlux]
  | a, b, d, e :: ls, hs, hr => by
    have h1 := hs [] a b d e ls rfl
    have ih := gained_same b d e ls hs.tail (h1 ▸ hr)
    rw [gained, ih, hr]
    simp only [List.map_cons, bottomFlux, topFlux]
    ring

/-- **C89, conduction, layers of the same share.** Full statement: the heat of the column changes only by what passes its
two outermost interfaces. Proved if all inner layers have the same share (`C89_iff`: otherwise it is false), for instance
if heights and capacities are all the same. -/
theorem C89_conduct_partial (τ : K) {r : K} {a b d : HeatCell K × K} {ls : Layered K}
    (hp : ∀ l ∈ a :: b :: d :: ls, 0 < l.1.h ∧ 0 < l.1.k) (hs : SameShare (a :: b :: d :: ls)) (hr : share a b d = r) :
    heatOf (conducted τ (a :: b :: d :: ls)) = heatOf (a :: b :: d :: ls) +
      τ * r * (bottomFlux ((a :: b :: d :: ls).map Prod.fst) - topFlux ((a :: b :: d :: ls).map Prod.fst)) := by
  rw [C89_conduct τ _ hp, gained_same a b d ls hs hr]
  ring

theorem share_uniform {h C : K} (hh : h ≠ 0) {a b d : HeatCell K × K} (ha : a.1.h = h) (hb : b.1.h = h ∧ b.2 = C)
    (hd : d.1.h = h) : share a b d = C := by
  unfold share span
  rw [ha, hb.1, hb.2, hd]
  field_simp
  ring

theorem sameShare_uniform {h C : K} (hh : h ≠ 0) {ls : Layered K} (hu : ∀ l ∈ ls, l.1.h = h ∧ l.2 = C) : SameShare ls := by
  intro pre a b d e post hl
  have ha := hu a (by rw [hl]; simp)
  have hb := hu b (by rw [hl]; simp)
  have hd := hu d (by rw [hl]; simp)
  have he := hu e (by rw [hl]; simp)
  rw [share_uniform hh ha.1 hb hd.1, share_uniform hh hb.1 hd he.1]

/-! ### Only then -/

/-- The same layers with other temperatures. -/
def withTemps (ls : Layered K) (T : Nat → K) : Layered K := ls.mapIdx fun i l => ({ l.1 with t := T i }, l.2)

/-- The two uppermost layers have the same temperature, and so have the two lowermost: no heat passes the ends. -/
def ClosedEnds (n : Nat) (T : Nat → K) : Prop := T 0 = T 1 ∧ T (n - 2) = T (n - 1)

theorem flux_zero {a b : HeatCell K} (h : a.t = b.t) : interfaceFlux a b = 0 := by
  unfold interfaceFlux; rw [h]; simp

theorem gained_flat : ∀ (ls : Layered K) (T : K), (∀ l ∈ ls, l.1.t = T) → gained ls = 0
  | a :: b :: d :: rest, T, h => by
    rw [gained, flux_zero (by rw [h b (by simp), h d (by simp)]), flux_zero (by rw [h a (by simp), h b (by simp)]),
      gained_flat (b :: d :: rest) T fun l hl => h l (List.mem_cons_of_mem _ hl)]
    simp
  | [_, _], _, _ => by simp [gained]
  | [_], _, _ => by simp [gained]
  | [], _, _ => by simp [gained]

theorem gained_skip {T : K} : ∀ (pre : Layered K) (a b : HeatCell K × K) (ls : Layered K), (∀ l ∈ pre, l.1.t = T) →
    a.1.t = T → b.1.t = T → gained (pre ++ a :: b :: ls) = gained (a :: b :: ls)
  | [], _, _, _, _, _, _ => rfl
  | [x], a, b, ls, h, ha, hb => by
    rw [List.cons_append, List.nil_append, gained, flux_zero (by rw [ha, hb]),
      flux_zero (by rw [h x (by simp), ha])]
    simp
  | x :: y :: pre, a, b, ls, h, ha, hb => by
    have ih := gained_skip (y :: pre) a b ls (fun l hl => h l (List.mem_cons_of_mem _ hl)) ha hb
    rw [← ih]
    obtain ⟨z, tl, e, hz⟩ : ∃ z tl, pre ++ a :: b :: ls = z :: tl ∧ z.1.t = T := by
      cases pre with
      | nil => exact ⟨a, _, rfl, ha⟩
      | cons z pre => exact ⟨z, _, rfl, h z (by simp)⟩
    rw [List.cons_append, List.cons_append, e, gained, flux_zero (by rw [h y (by simp), hz]),
      flux_zero (by rw [h x (by simp), h y (by simp)])]
    simp

theorem share_temps {a b d a' b' d' : HeatCell K × K} (ha : a'.1.h = a.1.h) (hb : b'.1.h = b.1.h ∧ b'.2 = b.2)
    (hd : d'.1.h = d.1.h) : share a' b' d' = share a b d := by
  unfold share span; rw [ha, hb.1, hb.2, hd]

theorem gained_step {a b d e : HeatCell K × K} {ls : Layered K} (ha : a.1.t = 0) (hb : b.1.t = 0) (hd : d.1.t = 1)
    (he : ∀ l ∈ e :: ls, l.1.t = 1) :
    gained (a :: b :: d :: e :: ls) = (share a b d - share b d e) * interfaceFlux b.1 d.1 := by
  have h0 := gained_flat (d :: e :: ls) 1 (fun l hl => by
    rcases List.mem_cons.1 hl with rfl | hl
    · exact hd
    · exact he l hl)
  have f1 : interfaceFlux a.1 b.1 = 0 := flux_zero (by rw [ha, hb])
  have f2 : interfaceFlux d.1 e.1 = 0 := flux_zero (by rw [hd, he e (by simp)])
  rw [gained, gained, h0, f1, f2]
  ring

/-- **C89, conduction, exactly when.** A sub-step keeps the heat of a column through whose ends nothing passes, for all
temperatures, if and only if all inner layers have the same share. -/
theorem C89_iff {τ : K} (hτ : τ ≠ 0) (ls : Layered K) (hp : ∀ l ∈ ls, 0 < l.1.h ∧ 0 < l.1.k) (h3 : 3 ≤ ls.length) :
    (∀ T, ClosedEnds ls.length T → heatOf (conducted τ (withTemps ls T)) = heatOf (withTemps ls T)) ↔ SameShare ls := by
  have hpos : ∀ T, ∀ l ∈ withTemps ls T, 0 < l.1.h ∧ 0 < l.1.k := by
    intro T l hl
    unfold withTemps at hl
    rw [List.mem_mapIdx] at hl
    obtain ⟨i, hi, rfl⟩ := hl
    exact hp ls[i] (List.getElem_mem hi)
  constructor
  · intro h pre a b d e post hl
    let T : Nat → K := fun i => if i ≤ pre.length + 1 then 0 else 1
    have hlen : ls.length = pre.length + (post.length + 4) := by rw [hl]; simp
    have hc : ClosedEnds ls.length T := by
      refine ⟨?_, ?_⟩
      · simp [T]
      · simp only [T, hlen]
        rw [if_neg (by omega), if_neg (by omega)]
    have h1 := h T hc
    rw [C89_conduct τ _ (hpos T)] at h1
    have h2 : gained (withTemps ls T) = 0 := by
      have : τ * gained (withTemps ls T) = 0 := by linear_combination h1
      exact (mul_eq_zero.1 this).resolve_left hτ
    have hw : withTemps ls T = withTemps pre (fun _ => 0) ++ ({ a.1 with t := 0 }, a.2) :: ({ b.1 with t := 0 }, b.2) ::
        ({ d.1 with t := 1 }, d.2) :: ({ e.1 with t := 1 }, e.2) :: withTemps post (fun _ => 1) := by
      unfold withTemps
      rw [hl, List.mapIdx_append]
      have e1 : (List.mapIdx (fun i l => (({ l.1 with t := T i } : HeatCell K), l.2)) pre) =
          List.mapIdx (fun _ l => (({ l.1 with t := 0 } : HeatCell K), l.2)) pre := by
        refine List.ext_getElem (by simp) fun i h1 h2 => ?_
        simp only [List.getElem_mapIdx]
        have : i < pre.length := by simpa using h1
        simp only [T]
        rw [if_pos (by omega)]
      rw [e1]
      congr 1
      simp only [List.mapIdx_cons, T]
      have n0 : (0 : Nat) + pre.length ≤ pre.length + 1 := by omega
      have n1 : (0 : Nat) + 1 + pre.length ≤ pre.length + 1 := by omega
      have n2 : ¬ (0 : Nat) + 1 + 1 + pre.length ≤ pre.length + 1 := by omega
      have n3 : ¬ (0 : Nat) + 1 + 1 + 1 + pre.length ≤ pre.length + 1 := by omega
      rw [if_pos n0, if_pos n1, if_neg n2, if_neg n3]
      congr 4
      refine List.ext_getElem (by simp) fun i h1 h2 => ?_
      simp only [List.getElem_mapIdx]
      rw [if_neg (by omega)]
    have hflat : ∀ (ms : Layered K) (t : K), ∀ l ∈ withTemps ms (fun _ => t), l.1.t = t := by
      intro ms t l hm
      unfold withTemps at hm
      rw [List.mem_mapIdx] at hm
      obtain ⟨i, hi, rfl⟩ := hm
      rfl
    rw [hw, gained_skip _ _ _ _ (hflat pre 0) rfl rfl, gained_step rfl rfl rfl (fun l hm => by
      rcases List.mem_cons.1 hm with rfl | hm
      · rfl
      · exact hflat post 1 l hm)] at h2
    have hb := hp b (by rw [hl]; simp)
    have hd := hp d (by rw [hl]; simp)
    have hf : interfaceFlux ({ b.1 with t := 0 } : HeatCell K) ({ d.1 with t := 1 } : HeatCell K) ≠ 0 := by
      unfold interfaceFlux
      have := hb.1; have := hb.2; have := hd.1; have := hd.2
      simp only [sub_zero, mul_one]
      positivity
    have := (mul_eq_zero.1 h2).resolve_right hf
    exact sub_eq_zero.1 this
  · intro hs T hc
    rw [C89_conduct τ _ (hpos T)]
    have : gained (withTemps ls T) = 0 := by
      have hlen : (withTemps ls T).length = ls.length := by unfold withTemps; simp
      have hget : ∀ (i : Nat) (hi : i < ls.length), (withTemps ls T)[i]'(by omega) = ({ ls[i].1 with t := T i }, ls[i].2) := by
        intro i hi; unfold withTemps; simp
      have hs' : SameShare (withTemps ls T) := by
        intro pre a b d e post hl
        have hl4 : (withTemps ls T).length = pre.length + (post.length + 4) := by rw [hl]; simp
        have at' : ∀ (j : Nat) (x : HeatCell K × K), j < 4 → (a :: b :: d :: e :: post)[j]? = some x →
            ∃ y, ls[pre.length + j]? = some y ∧ x = ({ y.1 with t := T (pre.length + j) }, y.2) := by
          intro j x hj hx
          have h1 : (withTemps ls T)[pre.length + j]? = some x := by
            rw [hl, List.getElem?_append_right (by omega), Nat.add_sub_cancel_left]; exact hx
          have h2 : pre.length + j < ls.length := by omega
          rw [List.getElem?_eq_getElem (by omega), hget _ h2] at h1
          exact ⟨_, List.getElem?_eq_getElem h2, (Option.some.inj h1).symm⟩
        obtain ⟨a', ga, rfl⟩ := at' 0 a (by omega) rfl
        obtain ⟨b', gb, rfl⟩ := at' 1 b (by omega) rfl
        obtain ⟨d', gd, rfl⟩ := at' 2 d (by omega) rfl
        obtain ⟨e', ge, rfl⟩ := at' 3 e (by omega) rfl
        have hdec : ls = ls.take pre.length ++ a' :: b' :: d' :: e' :: ls.drop (pre.length + 4) := by
          obtain ⟨ia, ha⟩ := List.getElem?_eq_some_iff.1 ga
          obtain ⟨ib, hb⟩ := List.getElem?_eq_some_iff.1 gb
          obtain ⟨id, hd⟩ := List.getElem?_eq_some_iff.1 gd
          obtain ⟨ie, he⟩ := List.getElem?_eq_some_iff.1 ge
          rw [← ha, ← hb, ← hd, ← he]
          conv_lhs => rw [← List.take_append_drop pre.length ls]
          rw [List.drop_eq_getElem_cons (by omega), List.drop_eq_getElem_cons (by omega),
            List.drop_eq_getElem_cons (by omega), List.drop_eq_getElem_cons (by omega)]
          rfl
        have := hs _ a' b' d' e' _ hdec
        exact (share_temps rfl ⟨rfl, rfl⟩ rfl).trans (this.trans (share_temps rfl ⟨rfl, rfl⟩ rfl).symm)
      match hm : withTemps ls T with
      | [] => rfl
      | [_] => rfl
      | [_, _] => rfl
      | a :: b :: d :: rest =>
        rw [gained_same a b d rest (hm ▸ hs') rfl]
        have n3 : ls.length = rest.length + 3 := by rw [← hlen, hm]; simp
        have htop : topFlux ((a :: b :: d :: rest).map Prod.fst) = 0 := by
          simp only [List.map_cons, topFlux]
          refine flux_zero ?_
          have h0 := hget 0 (by omega)
          have h1 := hget 1 (by omega)
          simp only [hm, List.getElem_cons_zero, List.getElem_cons_succ] at h0 h1
          rw [h0, h1]
          exact hc.1
        have hbot : bottomFlux ((a :: b :: d :: rest).map Prod.fst) = 0 := by
          have key : ∀ (xs : List (HeatCell K)) (x y : HeatCell K), 2 ≤ xs.length → xs[xs.length - 2]? = some x →
              xs[xs.length - 1]? = some y → bottomFlux xs = interfaceFlux x y := by
            intro xs
            induction xs with
            | nil => intro x y h; simp at h
            | cons z xs ih =>
              intro x y h hx hy
              match xs, h, hx, hy, ih with
              | [w], _, hx, hy, _ => cases hx; cases hy; rfl
              | w :: v :: xs, _, hx, hy, ih =>
                rw [bottomFlux]
                refine ih x y (by simp) ?_ ?_
                · exact hx
                · exact hy
          have hx := hget (ls.length - 2) (by omega)
          have hy := hget (ls.length - 1) (by omega)
          have e1 : ((a :: b :: d :: rest).map Prod.fst).length = ls.length := by simp [n3]
          rw [key _ _ _ (by rw [e1]; omega)
            (by rw [e1, ← hm, List.getElem?_map, List.getElem?_eq_getElem (by omega), hx]; rfl)
            (by rw [e1, ← hm, List.getElem?_map, List.getElem?_eq_getElem (by omega), hy]; rfl)]
          exact flux_zero hc.2
        rw [htop, hbot]
        simp
    rw [this]
    simp

/-! ### A whole call -/

/-- What the sub-steps of the given lengths add to the heat of a column. -/
def gainedOver : List K → Layered K → K
  | [], _ => 0
  | τ :: τs, ls => τ * gained ls + gainedOver τs (conducted τ ls)

/-- Heat per heat capacity that enters through the ends during sub-steps of the given lengths. -/
def entered : List K → List (HeatCell K) → K
  | [], _ => 0
  | τ :: τs, cs => τ * (bottomFlux cs - topFlux cs) + entered τs (heatPass τ cs)

theorem conducted_fst (τ : K) (ls : Layered K) : (conducted τ ls).map Prod.fst = heatPass τ (ls.map Prod.fst) := by
  unfold conducted
  exact List.map_fst_zip (by rw [heatPass_length]; simp)

theorem conducted_snd (τ : K) (ls : Layered K) : (conducted τ ls).map Prod.snd = ls.map Prod.snd := by
  unfold conducted
  exact List.map_snd_zip (by rw [heatPass_length]; simp)

theorem conducted_pos (τ : K) {ls : Layered K} (hp : ∀ l ∈ ls, 0 < l.1.h ∧ 0 < l.1.k) :
    ∀ l ∈ conducted τ ls, 0 < l.1.h ∧ 0 < l.1.k := by
  intro l hl
  have h1 : l.1 ∈ heatPass τ (ls.map Prod.fst) := by
    rw [← conducted_fst]; exact List.mem_map_of_mem hl
  refine pos_of_geo (heatPass_geo τ _) (fun x hx => ?_) l.1 h1
  obtain ⟨y, hy, rfl⟩ := List.mem_map.1 hx
  exact hp y hy

theorem heatOf_over : ∀ (τs : List K) (ls : Layered K), (∀ l ∈ ls, 0 < l.1.h ∧ 0 < l.1.k) →
    heatOf (τs.foldl (fun ls τ => conducted τ ls) ls) = heatOf ls + gainedOver τs ls
  | [], ls, _ => by simp [gainedOver]
  | τ :: τs, ls, hp => by
    rw [List.foldl_cons, heatOf_over τs _ (conducted_pos τ hp), C89_conduct τ ls hp, gainedOver]
    ring

theorem over_fst : ∀ (τs : List K) (ls : Layered K), (τs.foldl (fun ls τ => conducted τ ls) ls).map Prod.fst =
    τs.foldl (fun cs τ => heatPass τ cs) (ls.map Prod.fst)
  | [], _ => rfl
  | τ :: τs, ls => by rw [List.foldl_cons, over_fst τs, conducted_fst, List.foldl_cons]

theorem over_snd : ∀ (τs : List K) (ls : Layered K), (τs.foldl (fun ls τ => conducted τ ls) ls).map Prod.snd =
    ls.map Prod.snd
  | [], _ => rfl
  | τ :: τs, ls => by rw [List.foldl_cons, over_snd τs, conducted_snd]

/-- The heat of a column of layers is that of any list that has its heights, temperatures and capacities. -/
theorem heatOf_nodes (c : Consts K) : ∀ (ns : List (Node K)) (ls : Layered K),
    ls.map (fun l => l.1.h) = ns.map (fun n => n.height) → ls.map (fun l => l.1.t) = ns.map (fun n => n.temperature) →
    ls.map Prod.snd = ns.map (fun n => n.capacity c) → heatOf ls = sumEnergy c ns
  | [], [], _, _, _ => rfl
  | n :: ns, l :: ls, h1, h2, h3 => by
    simp only [List.map_cons, List.cons.injEq] at h1 h2 h3
    have ih := heatOf_nodes c ns ls h1.2 h2.2 h3.2
    unfold heatOf sumEnergy columnSum at ih ⊢
    rw [List.map_cons, List.map_cons, List.sum_cons, List.sum_cons, ih, h1.1, h2.1, h3.1]
    ring
  | [], _ :: _, h, _, _ => by simp at h
  | _ :: _, [], h, _, _ => by simp at h

/-- **C89, a whole call, exact change.** Conducting heat for `dt` changes the heat of the column by the sum of the
changes of sub-steps that add up to exactly `dt`. -/
theorem C89_call {fuel : Nat} {c : Consts K} (hc : c.Phys) {g g' : Grid K} {dt : K} (hw : g.WF) (hdt : 0 ≤ dt)
    (hn : ∀ n ∈ g.nodes, Conducting n) (h : solveHeatEquation fuel c g dt = .ok g') :
    ∃ (cells : List (HeatCell K)) (τs : List K),
      List.Forall₂ (fun n x => x.h = n.height ∧ x.t = n.temperature ∧ n.thermalDiffusivity c = .ok x.k) g.nodes cells ∧
      (∀ τ ∈ τs, 0 < τ) ∧ τs.sum = dt ∧
      sumEnergy c g'.nodes = sumEnergy c g.nodes + gainedOver τs (cells.zip (g.nodes.map fun n => n.capacity c)) := by
  obtain ⟨cells, bound, τs, h1, _, h3, h4, h5⟩ := C23_integrates hc hw hdt hn h
  refine ⟨cells, τs, h1, fun τ hτ => (h3 τ hτ).1, h4, ?_⟩
  obtain ⟨h6, _⟩ := C22_only_temperature hw h
  have hlen := h1.length_eq
  have hf : (cells.zip (g.nodes.map fun n => n.capacity c)).map Prod.fst = cells := List.map_fst_zip (by simp [hlen])
  have hs : (cells.zip (g.nodes.map fun n => n.capacity c)).map Prod.snd = g.nodes.map fun n => n.capacity c :=
    List.map_snd_zip (by simp [hlen])
  have hp : ∀ l ∈ cells.zip (g.nodes.map fun n => n.capacity c), 0 < l.1.h ∧ 0 < l.1.k := by
    intro l hl
    refine cells_pos hc h1 hn l.1 ?_
    rw [← hf]; exact List.mem_map_of_mem hl
  have hh : ∀ {ns : List (Node K)} {cs : List (HeatCell K)}, List.Forall₂ (CellOf c) ns cs →
      cs.map (fun x => x.h) = ns.map (fun n => n.height) := by
    intro ns cs h
    induction h with
    | nil => rfl
    | cons h1 _ ih => rw [List.map_cons, List.map_cons, ih, h1.1]
  have hkeep : g'.nodes.map (fun n => n.height) = g.nodes.map (fun n => n.height) ∧
      g'.nodes.map (fun n => n.capacity c) = g.nodes.map (fun n => n.capacity c) := by
    clear h5 h1 hf hs hp hh hlen hn h hw
    generalize g.nodes = ns at *
    generalize g'.nodes = ms at *
    induction h6 with
    | nil => exact ⟨rfl, rfl⟩
    | cons h1 _ ih =>
      simp only [List.map_cons]
      rw [ih.1, ih.2, h1]
      exact ⟨rfl, rfl⟩
  have e0 : heatOf (cells.zip (g.nodes.map fun n => n.capacity c)) = sumEnergy c g.nodes := by
    refine heatOf_nodes c _ _ ?_ ?_ hs
    · rw [← hh h1]
      conv_rhs => rw [← hf]
      rw [List.map_map]; rfl
    · rw [← cells_t h1]
      conv_rhs => rw [← hf]
      rw [List.map_map]; rfl
  rw [← e0, ← heatOf_over τs _ hp]
  symm
  refine heatOf_nodes c _ _ ?_ ?_ ?_
  · have e : (fun l : HeatCell K × K => l.1.h) = (fun x : HeatCell K => x.h) ∘ Prod.fst := rfl
    have geo := congrArg (List.map Prod.fst) (foldl_heatPass_geo τs cells)
    rw [List.map_map, List.map_map] at geo
    rw [hkeep.1, ← hh h1, e, ← List.map_map, over_fst, hf]
    exact geo
  · have e : (fun l : HeatCell K × K => l.1.t) = (fun x : HeatCell K => x.t) ∘ Prod.fst := rfl
    rw [h5, e, ← List.map_map, over_fst, hf]
  · rw [over_snd, hs, hkeep.2]

theorem gainedOver_uniform {H C : K} (hH : H ≠ 0) : ∀ (τs : List K) (ls : Layered K), (∀ l ∈ ls, l.1.h = H ∧ l.2 = C) →
    3 ≤ ls.length → gainedOver τs ls = C * entered τs (ls.map Prod.fst)
  | [], _, _, _ => by simp [gainedOver, entered]
  | τ :: τs, ls, hu, h3 => by
    have hu' : ∀ l ∈ conducted τ ls, l.1.h = H ∧ l.2 = C := by
      intro l hl
      constructor
      · have h1 : l.1 ∈ heatPass τ (ls.map Prod.fst) := by
          rw [← conducted_fst]; exact List.mem_map_of_mem hl
        have h2 : l.1.geo ∈ (ls.map Prod.fst).map HeatCell.geo := by
          rw [← heatPass_geo τ]; exact List.mem_map_of_mem h1
        simp only [List.map_map, List.mem_map, Function.comp] at h2
        obtain ⟨y, hy, e⟩ := h2
        have := congrArg Prod.fst e
        simp only [HeatCell.geo] at this
        rw [← this]; exact (hu y hy).1
      · have h2 : l.2 ∈ ls.map Prod.snd := by
          rw [← conducted_snd τ]; exact List.mem_map_of_mem hl
        obtain ⟨y, hy, e⟩ := List.mem_map.1 h2
        rw [← e]; exact (hu y hy).2
    have hlen : (conducted τ ls).length = ls.length := by
      have := congrArg List.length (conducted_snd τ ls)
      simpa using this
    have ih := gainedOver_uniform hH τs _ hu' (by rw [hlen]; exact h3)
    rw [gainedOver, ih, entered, conducted_fst]
    match ls, h3, hu with
    | a :: b :: d :: rest, _, hu =>
      rw [gained_same a b d rest (sameShare_uniform hH hu)
        (share_uniform hH (hu a (by simp)).1 (hu b (by simp)) (hu d (by simp)).1)]
      ring

/-- **C89, a whole call, uniform columns.** Full statement: conducting heat changes the heat of a column only by what
enters through its ends. Proved for columns of at least three layers with the same height and capacity. -/
theorem C89_uniform_partial {fuel : Nat} {c : Consts K} (hc : c.Phys) {g g' : Grid K} {dt H C : K} (hw : g.WF) (hdt : 0 ≤ dt)
    (hn : ∀ n ∈ g.nodes, Conducting n) (hu : ∀ n ∈ g.nodes, n.height = H ∧ n.capacity c = C) (h3 : 3 ≤ g.nodes.length)
    (h : solveHeatEquation fuel c g dt = .ok g') : ∃ (cells : List (HeatCell K)) (τs : List K),
      List.Forall₂ (fun n x => x.h = n.height ∧ x.t = n.temperature ∧ n.thermalDiffusivity c = .ok x.k) g.nodes cells ∧
      (∀ τ ∈ τs, 0 < τ) ∧ τs.sum = dt ∧ sumEnergy c g'.nodes = sumEnergy c g.nodes + C * entered τs cells := by
  obtain ⟨cells, τs, h1, h2, h4, h5⟩ := C89_call hc hw hdt hn h
  refine ⟨cells, τs, h1, h2, h4, ?_⟩
  have hlen := h1.length_eq
  have hf : (cells.zip (g.nodes.map fun n => n.capacity c)).map Prod.fst = cells := List.map_fst_zip (by simp [hlen])
  have hH : H ≠ 0 := by
    obtain ⟨n, hm⟩ := List.exists_mem_of_length_pos (l := g.nodes) (by omega)
    rw [← (hu n hm).1]; exact (hn n hm).1.ne'
  rw [h5, gainedOver_uniform (H := H) (C := C) hH τs _ ?_ (by simp [← hlen]; exact h3), hf]
  intro l hl
  obtain ⟨h6, h7⟩ := List.of_mem_zip hl
  constructor
  · have : ∀ {ns : List (Node K)} {cs : List (HeatCell K)}, List.Forall₂ (CellOf c) ns cs → (∀ n ∈ ns, n.height = H) →
        ∀ x ∈ cs, x.h = H := by
      intro ns cs h
      induction h with
      | nil => simp
      | @cons n x ns cs h1 _ ih =>
        intro hu y hy
        rcases List.mem_cons.1 hy with rfl | hy
        · rw [h1.1]; exact hu n (by simp)
        · exact ih (fun m hm => hu m (by simp [hm])) y hy
    exact this h1 (fun n hm => (hu n hm).1) _ h6
  · obtain ⟨n, hm, e⟩ := List.mem_map.1 h7
    rw [← e]; exact (hu n hm).2

end

/-! ## Witnesses -/

/-- Snow of about 300 kg/m³ at 263 K on ice at 268 K. The two uppermost layers have the same temperature and so have the
two lowermost, so no heat passes the ends. -/
private def onIce : Grid ℚ :=
  ⟨[⟨1/10, 263, 0, 3/10, 0⟩, ⟨1/10, 263, 0, 3/10, 0⟩, ⟨1/10, 268, 0, 1, 0⟩, ⟨1/10, 268, 0, 1, 0⟩], 4, 0, 0, 0⟩

/-- **C89, conduction, refuted.** Half an hour of conduction, which is a single sub-step, takes more than 180 kJ/m² from a
column through whose ends no heat passes: the ice loses more heat than the snow above it gains. -/
theorem C89_conduct_refuted :
    ((solveHeatEquation 2 (Consts.default ℚ) onIce 1800).toOption.map fun g =>
      decide (sumEnergy (Consts.default ℚ) g.nodes + 180000 < sumEnergy (Consts.default ℚ) onIce.nodes)) = some true := by
  decide +kernel

/-- **C89, merging, refuted.** Merging the two layers at the interface takes more than 320 kJ/m² from the column. -/
theorem C89_merge_refuted :
    ((onIce.mergeNodes 1).toOption.map fun g =>
      decide (sumEnergy (Consts.default ℚ) g.nodes + 320000 < sumEnergy (Consts.default ℚ) onIce.nodes)) = some true := by
  decide +kernel

/-! Non-vacuity: the column meets the hypotheses; a uniform column has the same share everywhere, that of `onIce` has not;
a closed profile that is not flat. -/
example : (∀ n ∈ onIce.nodes, 0 < n.height) ∧ (onIce.mergeNodes 1).toOption.isSome = true := by decide +kernel
example : SameShare ([(⟨1, 1, 0⟩, 2), (⟨1, 3, 0⟩, 2), (⟨1, 1, 4⟩, 2), (⟨1, 1, 5⟩, 2)] : Layered ℚ) :=
  sameShare_uniform (h := 1) (C := 2) one_ne_zero (by decide +kernel)
example : ¬ SameShare ([(⟨1, 1, 0⟩, 2), (⟨1, 1, 0⟩, 2), (⟨1, 1, 4⟩, 3), (⟨1, 1, 5⟩, 3)] : Layered ℚ) := fun h =>
  absurd (h [] _ _ _ _ [] rfl) (by decide +kernel)
private def uniform : Grid ℚ :=
  ⟨[⟨1/10, 263, 0, 3/10, 0⟩, ⟨1/10, 264, 0, 3/10, 0⟩, ⟨1/10, 268, 0, 3/10, 0⟩, ⟨1/10, 268, 0, 3/10, 0⟩], 4, 0, 0, 0⟩
example : uniform.WF ∧ (∀ n ∈ uniform.nodes, n.height = 1/10 ∧ n.capacity (Consts.default ℚ) = 3/10 * 917 * 2050) ∧
    (∀ n ∈ uniform.nodes, Conducting n) ∧
    (solveHeatEquation 9 (Consts.default ℚ) uniform 3600).toOption.isSome = true := by
  refine ⟨rfl, by decide +kernel, ?_, by decide +kernel⟩
  simp only [uniform, Conducting]; decide +kernel
example : ClosedEnds 4 (fun i => if i ≤ 1 then (0 : ℚ) else 1) := by unfold ClosedEnds; decide +kernel
example : heatOf (conducted (1/10) ([(⟨1, 1, 0⟩, 2), (⟨1, 1, 0⟩, 2), (⟨1, 1, 4⟩, 3), (⟨1, 1, 4⟩, 3)] : Layered ℚ)) =
    24 - 2/5 := by decide +kernel

end Cosipy
