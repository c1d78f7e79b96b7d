import Verif.Model.Heat
import Verif.Lemmas.Grid
import Verif.Lemmas.Fuel
import Verif.Lemmas.Arith
import Verif.Spec.Phys
import Mathlib.Algebra.Order.Archimedean.Basic

/-! Heat equation: one update as a weighted mean, invariants of a sub-step, and the sub-stepping loop. -/

set_option autoImplicit false
set_option linter.unusedSectionVars false

namespace Cosipy
section
variable {K : Type} [Field K] [LinearOrder K] [IsStrictOrderedRing K]

theorem two_lit : (2.0 : K) = 2 := by norm_num
theorem half_lit : (0.5 : K) = 1 / 2 := by norm_num

/-- Height and diffusivity. -/
def HeatCell.geo (c : HeatCell K) : K × K := (c.h, c.k)

/-- Heights and diffusivities are positive. -/
def HeatCell.Pos (c : HeatCell K) : Prop := 0 < c.h ∧ 0 < c.k

theorem HeatCell.dist_pos {a b : HeatCell K} (ha : a.Pos) (hb : b.Pos) : 0 < a.dist b := by
  unfold HeatCell.dist; rw [two_lit]; have := ha.1; have := hb.1; positivity

theorem HeatCell.diffusivity_pos {a b : HeatCell K} (ha : a.Pos) (hb : b.Pos) : 0 < a.diffusivity b := by
  unfold HeatCell.diffusivity; rw [two_lit]; have := ha.2; have := hb.2; positivity

/-- Weight of neighbour `x` across the interface `x y` in a cell of width `m`. -/
def heatWeight (τ m : K) (x y : HeatCell K) : K := x.diffusivity y * τ / (x.dist y * m)

theorem heatNewT_eq (τ : K) {a b d : HeatCell K} (ha : a.Pos) (hb : b.Pos) (hd : d.Pos) :
    heatNewT τ a b d = b.t + heatWeight τ (0.5 * (a.dist b + b.dist d)) b d * (d.t - b.t) -
      heatWeight τ (0.5 * (a.dist b + b.dist d)) a b * (b.t - a.t) := by
  have h1 := (HeatCell.dist_pos ha hb).ne'
  have h2 := (HeatCell.dist_pos hb hd).ne'
  have h3 : (0.5 * (a.dist b + b.dist d) : K) ≠ 0 := by
    have := HeatCell.dist_pos ha hb
    have := HeatCell.dist_pos hb hd
    rw [half_lit]; positivity
  unfold heatNewT heatWeight
  generalize (0.5 * (a.dist b + b.dist d) : K) = m at *
  field_simp
  ring

theorem heatWeight_nonneg {τ : K} (hτ : 0 ≤ τ) {m : K} (hm : 0 < m) {x y : HeatCell K} (hx : x.Pos) (hy : y.Pos) :
    0 ≤ heatWeight τ m x y := by
  unfold heatWeight
  have := HeatCell.dist_pos hx hy
  have := HeatCell.diffusivity_pos hx hy
  positivity

/-- The sub-step respects the stability bound at every interface. -/
def StableFor (τ : K) (cs : List (HeatCell K)) : Prop := ∀ x ∈ heatIfaces cs, τ ≤ 2 / 5 * x

theorem StableFor.tail {τ : K} {a : HeatCell K} {cs : List (HeatCell K)} (h : StableFor τ (a :: cs)) : StableFor τ cs := by
  intro x hx
  apply h
  cases cs with
  | nil => simp [heatIfaces] at hx
  | cons b cs => rw [heatIfaces]; exact List.mem_cons_of_mem _ hx

theorem StableFor.head {τ : K} {a b : HeatCell K} {cs : List (HeatCell K)} (h : StableFor τ (a :: b :: cs)) (ha : a.Pos)
    (hb : b.Pos) : a.diffusivity b * τ ≤ 2 / 5 * (a.dist b * a.dist b) := by
  have hk := HeatCell.diffusivity_pos ha hb
  have := h _ (by rw [heatIfaces]; exact List.mem_cons_self)
  calc a.diffusivity b * τ ≤ a.diffusivity b * (2 / 5 * (a.dist b * a.dist b / a.diffusivity b)) :=
        mul_le_mul_of_nonneg_left this hk.le
    _ = _ := by field_simp

theorem StableFor.mono {τ σ : K} (hτ : τ ≤ σ) {cs : List (HeatCell K)} (h : StableFor σ cs) : StableFor τ cs :=
  fun x hx => hτ.trans (h x hx)

/-- The two weights add up to at most 4/5. -/
theorem heatWeight_sum {τ : K} {a b d : HeatCell K} (ha : a.Pos) (hb : b.Pos) (hd : d.Pos)
    (h1 : a.diffusivity b * τ ≤ 2 / 5 * (a.dist b * a.dist b)) (h2 : b.diffusivity d * τ ≤ 2 / 5 * (b.dist d * b.dist d)) :
    heatWeight τ (0.5 * (a.dist b + b.dist d)) a b + heatWeight τ (0.5 * (a.dist b + b.dist d)) b d ≤ 4 / 5 := by
  have p1 := HeatCell.dist_pos ha hb
  have p2 := HeatCell.dist_pos hb hd
  unfold heatWeight
  rw [half_lit]
  set x := a.dist b
  set y := b.dist d
  have hm : 0 < 1 / 2 * (x + y) := by positivity
  have e1 : a.diffusivity b * τ / (x * (1 / 2 * (x + y))) ≤ 2 / 5 * x / (1 / 2 * (x + y)) := by
    rw [div_le_div_iff₀ (by positivity) hm]
    calc a.diffusivity b * τ * (1 / 2 * (x + y)) ≤ 2 / 5 * (x * x) * (1 / 2 * (x + y)) :=
          mul_le_mul_of_nonneg_right h1 hm.le
      _ = _ := by ring
  have e2 : b.diffusivity d * τ / (y * (1 / 2 * (x + y))) ≤ 2 / 5 * y / (1 / 2 * (x + y)) := by
    rw [div_le_div_iff₀ (by positivity) hm]
    calc b.diffusivity d * τ * (1 / 2 * (x + y)) ≤ 2 / 5 * (y * y) * (1 / 2 * (x + y)) :=
          mul_le_mul_of_nonneg_right h2 hm.le
      _ = _ := by ring
  have e3 : 2 / 5 * x / (1 / 2 * (x + y)) + 2 / 5 * y / (1 / 2 * (x + y)) = 4 / 5 := by
    field_simp; ring
  linarith

/-- Geometry only decides the interface values. -/
theorem heatIfaces_congr : ∀ {cs ds : List (HeatCell K)}, cs.map HeatCell.geo = ds.map HeatCell.geo →
    heatIfaces cs = heatIfaces ds
  | [], ds, h => by
    have : ds = [] := by simpa using h.symm
    subst this; rfl
  | [a], ds, h => by
    match ds with
    | [] => simp at h
    | [b] => rfl
    | _ :: _ :: _ => simp at h
  | a :: b :: cs, ds, h => by
    match ds with
    | [] => simp at h
    | [_] => simp at h
    | a' :: b' :: ds =>
      simp only [List.map_cons, List.cons.injEq] at h
      obtain ⟨h1, h2, h3⟩ := h
      have ih := heatIfaces_congr (cs := b :: cs) (ds := b' :: ds) (by simp [h2, h3])
      rw [heatIfaces, heatIfaces, ih]
      simp only [HeatCell.geo, Prod.mk.injEq] at h1 h2
      simp [HeatCell.dist, HeatCell.diffusivity, h1, h2]

theorem heatBelow_geo (τ : K) : ∀ (cs : List (HeatCell K)), (heatBelow τ cs).map HeatCell.geo = cs.tail.map HeatCell.geo
  | [] => rfl
  | [_] => rfl
  | [_, _] => rfl
  | a :: b :: d :: rest => by
    rw [heatBelow, List.map_cons, heatBelow_geo τ (b :: d :: rest)]
    rfl

theorem heatPass_geo (τ : K) (cs : List (HeatCell K)) : (heatPass τ cs).map HeatCell.geo = cs.map HeatCell.geo := by
  cases cs with
  | nil => rfl
  | cons a rest => rw [heatPass, List.map_cons, heatBelow_geo]; rfl

theorem heatPass_length (τ : K) (cs : List (HeatCell K)) : (heatPass τ cs).length = cs.length := by
  have := congrArg List.length (heatPass_geo τ cs)
  simpa using this

theorem heatPass_ifaces (τ : K) (cs : List (HeatCell K)) : heatIfaces (heatPass τ cs) = heatIfaces cs :=
  heatIfaces_congr (heatPass_geo τ cs)

theorem pos_of_geo {cs ds : List (HeatCell K)} (h : cs.map HeatCell.geo = ds.map HeatCell.geo)
    (hp : ∀ c ∈ ds, c.Pos) : ∀ c ∈ cs, c.Pos := by
  intro c hc
  have : c.geo ∈ ds.map HeatCell.geo := h ▸ List.mem_map_of_mem hc
  obtain ⟨d, hd, he⟩ := List.mem_map.1 this
  have hd := hp d hd
  simp only [HeatCell.geo, Prod.mk.injEq] at he
  exact ⟨he.1 ▸ hd.1, he.2 ▸ hd.2⟩

/-- Maximum principle of one sub-step. -/
theorem heatBelow_between {τ lo hi : K} (hτ : 0 ≤ τ) : ∀ {cs : List (HeatCell K)}, (∀ c ∈ cs, c.Pos) → StableFor τ cs →
    (∀ c ∈ cs, lo ≤ c.t ∧ c.t ≤ hi) → ∀ c ∈ heatBelow τ cs, lo ≤ c.t ∧ c.t ≤ hi
  | [], _, _, _ => by simp [heatBelow]
  | [_], _, _, _ => by simp [heatBelow]
  | [a, b], _, _, ht => by
    intro c hc
    simp only [heatBelow, List.mem_singleton] at hc
    exact ht c (by simp [hc])
  | a :: b :: d :: rest, hp, hs, ht => by
    intro c hc
    rw [heatBelow, List.mem_cons] at hc
    rcases hc with rfl | hc
    · have ha := hp a (by simp)
      have hb := hp b (by simp)
      have hd := hp d (by simp)
      have ta := ht a (by simp)
      have tb := ht b (by simp)
      have td := ht d (by simp)
      have hsum := heatWeight_sum ha hb hd (hs.head ha hb) (hs.tail.head hb hd)
      have p1 := HeatCell.dist_pos ha hb
      have p2 := HeatCell.dist_pos hb hd
      have hm : (0 : K) < 0.5 * (a.dist b + b.dist d) := by rw [half_lit]; positivity
      have w1 := heatWeight_nonneg hτ hm ha hb
      have w2 := heatWeight_nonneg hτ hm hb hd
      simp only [heatNewT_eq τ ha hb hd]
      generalize heatWeight τ (0.5 * (a.dist b + b.dist d)) a b = u at *
      generalize heatWeight τ (0.5 * (a.dist b + b.dist d)) b d = v at *
      constructor
      · nlinarith [mul_nonneg w1 (sub_nonneg.2 ta.1), mul_nonneg w2 (sub_nonneg.2 td.1),
          mul_nonneg (show 0 ≤ 1 - u - v by linarith) (sub_nonneg.2 tb.1)]
      · nlinarith [mul_nonneg w1 (sub_nonneg.2 ta.2), mul_nonneg w2 (sub_nonneg.2 td.2),
          mul_nonneg (show 0 ≤ 1 - u - v by linarith) (sub_nonneg.2 tb.2)]
    · exact heatBelow_between hτ (fun c hc => hp c (List.mem_cons_of_mem _ hc)) hs.tail
        (fun c hc => ht c (List.mem_cons_of_mem _ hc)) c hc

theorem heatPass_between {τ lo hi : K} (hτ : 0 ≤ τ) {cs : List (HeatCell K)} (hp : ∀ c ∈ cs, c.Pos)
    (hs : StableFor τ cs) (ht : ∀ c ∈ cs, lo ≤ c.t ∧ c.t ≤ hi) : ∀ c ∈ heatPass τ cs, lo ≤ c.t ∧ c.t ≤ hi := by
  cases cs with
  | nil => simp [heatPass]
  | cons a rest =>
    intro c hc
    rw [heatPass, List.mem_cons] at hc
    rcases hc with rfl | hc
    · exact ht c (by simp)
    · exact heatBelow_between hτ hp hs ht c hc

/-- Same geometry, no colder. -/
def NoColder (x y : HeatCell K) : Prop := x.geo = y.geo ∧ x.t ≤ y.t

theorem heatBelow_mono {τ : K} (hτ : 0 ≤ τ) : ∀ {cs ds : List (HeatCell K)}, (∀ c ∈ cs, c.Pos) → StableFor τ cs →
    List.Forall₂ NoColder cs ds → List.Forall₂ NoColder (heatBelow τ cs) (heatBelow τ ds)
  | [], _, _, _, h => by cases h; simp [heatBelow]
  | [_], _, _, _, h => by cases h with | cons h1 h2 => cases h2; simp [heatBelow]
  | [a, b], _, _, _, h => by
    cases h with | cons h1 h2 => cases h2 with | cons h2 h3 => cases h3; simpa [heatBelow] using h2
  | a :: b :: d :: rest, _, hp, hs, h => by
    cases h with
    | @cons _ a' _ _ h1 h' =>
    have h0 := h'
    cases h' with
    | @cons _ b' _ _ h2 h' =>
    cases h' with
    | @cons _ d' _ _ h3 h' =>
    rw [heatBelow, heatBelow]
    refine List.Forall₂.cons ?_ (heatBelow_mono hτ (fun c hc => hp c (List.mem_cons_of_mem _ hc)) hs.tail h0)
    obtain ⟨ah, ak, at'⟩ := a'
    obtain ⟨bh, bk, bt⟩ := b'
    obtain ⟨dh, dk, dt'⟩ := d'
    simp only [NoColder, HeatCell.geo, Prod.mk.injEq] at h1 h2 h3
    obtain ⟨⟨rfl, rfl⟩, ta⟩ := h1
    obtain ⟨⟨rfl, rfl⟩, tb⟩ := h2
    obtain ⟨⟨rfl, rfl⟩, td⟩ := h3
    refine ⟨rfl, ?_⟩
    have ha := hp a (by simp)
    have hb := hp b (by simp)
    have hd := hp d (by simp)
    have hsum := heatWeight_sum ha hb hd (hs.head ha hb) (hs.tail.head hb hd)
    have p1 := HeatCell.dist_pos ha hb
    have p2 := HeatCell.dist_pos hb hd
    have hm : (0 : K) < 0.5 * (a.dist b + b.dist d) := by rw [half_lit]; positivity
    have w1 := heatWeight_nonneg hτ hm ha hb
    have w2 := heatWeight_nonneg hτ hm hb hd
    show heatNewT τ a b d ≤ heatNewT τ ⟨a.h, a.k, at'⟩ ⟨b.h, b.k, bt⟩ ⟨d.h, d.k, dt'⟩
    rw [heatNewT_eq τ ha hb hd, heatNewT_eq τ (a := ⟨a.h, a.k, at'⟩) (b := ⟨b.h, b.k, bt⟩) (d := ⟨d.h, d.k, dt'⟩) ha hb hd]
    change _ ≤ bt + heatWeight τ (0.5 * (a.dist b + b.dist d)) b d * (dt' - bt) -
      heatWeight τ (0.5 * (a.dist b + b.dist d)) a b * (bt - at')
    generalize heatWeight τ (0.5 * (a.dist b + b.dist d)) a b = u at *
    generalize heatWeight τ (0.5 * (a.dist b + b.dist d)) b d = v at *
    nlinarith [mul_nonneg w1 (sub_nonneg.2 ta), mul_nonneg w2 (sub_nonneg.2 td),
      mul_nonneg (show 0 ≤ 1 - u - v by linarith) (sub_nonneg.2 tb)]

theorem heatPass_mono {τ : K} (hτ : 0 ≤ τ) {cs ds : List (HeatCell K)} (hp : ∀ c ∈ cs, c.Pos) (hs : StableFor τ cs)
    (h : List.Forall₂ NoColder cs ds) : List.Forall₂ NoColder (heatPass τ cs) (heatPass τ ds) := by
  cases h with
  | nil => simp [heatPass]
  | cons h1 h2 => exact List.Forall₂.cons h1 (heatBelow_mono hτ hp hs (List.Forall₂.cons h1 h2))

theorem heatBelow_last (τ : K) : ∀ (cs : List (HeatCell K)) (l : HeatCell K), cs ≠ [] →
    ∃ ds, heatBelow τ (cs ++ [l]) = ds ++ [l]
  | [], _, h => absurd rfl h
  | [a], l, _ => ⟨[], rfl⟩
  | [a, b], l, _ => ⟨[{ b with t := heatNewT τ a b l }], rfl⟩
  | a :: b :: d :: rest, l, _ => by
    obtain ⟨ds, hds⟩ := heatBelow_last τ (b :: d :: rest) l (by simp)
    refine ⟨{ b with t := heatNewT τ a b d } :: ds, ?_⟩
    simp only [List.cons_append] at hds ⊢
    rw [heatBelow, hds]

/-- First and last cell survive a sub-step unchanged. -/
theorem heatPass_ends (τ : K) (cs : List (HeatCell K)) :
    (heatPass τ cs).head? = cs.head? ∧ (heatPass τ cs).getLast? = cs.getLast? := by
  cases cs with
  | nil => simp [heatPass]
  | cons a rest =>
    refine ⟨rfl, ?_⟩
    rcases rest.eq_nil_or_concat with rfl | ⟨init, l, rfl⟩
    · rfl
    · obtain ⟨ds, hds⟩ := heatBelow_last τ (a :: init) l (by simp)
      rw [heatPass]
      rw [show a :: (init.concat l) = (a :: init) ++ [l] by simp, hds]
      rw [List.getLast?_append, ← List.cons_append, List.getLast?_append]
      simp

/-! ### Time step bound -/

theorem foldl_pyMin_le : ∀ (xs : List K) (m : K), xs.foldl pyMin m ≤ m ∧ ∀ x ∈ xs, xs.foldl pyMin m ≤ x := by
  intro xs
  induction xs with
  | nil => intro m; simp
  | cons y ys ih =>
    intro m
    obtain ⟨h1, h2⟩ := ih (pyMin m y)
    rw [List.foldl_cons]
    rw [pyMin_eq] at h1 ⊢
    rw [pyMin_eq] at h2
    refine ⟨h1.trans (min_le_left _ _), fun x hx => ?_⟩
    rcases List.mem_cons.1 hx with rfl | hx
    · exact h1.trans (min_le_right _ _)
    · exact h2 x hx

theorem foldl_pyMin_pos : ∀ (xs : List K) (m : K), 0 < m → (∀ x ∈ xs, 0 < x) → 0 < xs.foldl pyMin m := by
  intro xs
  induction xs with
  | nil => intro m h _; exact h
  | cons y ys ih =>
    intro m h hx
    rw [List.foldl_cons]
    exact ih _ (by rw [pyMin_eq]; exact lt_min h (hx y (by simp))) (fun x h => hx x (by simp [h]))

theorem pyMinList_ok {xs : List K} {m : K} (h : pyMinList xs = .ok m) :
    xs ≠ [] ∧ (∀ x ∈ xs, m ≤ x) ∧ ((∀ x ∈ xs, 0 < x) → 0 < m) := by
  cases xs with
  | nil => simp [pyMinList] at h
  | cons x xs =>
    simp only [pyMinList, ok_inj] at h
    subst h
    refine ⟨by simp, ?_, fun hp => foldl_pyMin_pos xs x (hp x (by simp)) fun y hy => hp y (by simp [hy])⟩
    intro y hy
    rcases List.mem_cons.1 hy with rfl | hy
    · exact (foldl_pyMin_le xs y).1
    · exact (foldl_pyMin_le xs x).2 y hy

theorem heatIfaces_pos : ∀ {cs : List (HeatCell K)}, (∀ c ∈ cs, c.Pos) → ∀ x ∈ heatIfaces cs, 0 < x
  | [], _ => by simp [heatIfaces]
  | [_], _ => by simp [heatIfaces]
  | a :: b :: cs, hp => by
    intro x hx
    rw [heatIfaces, List.mem_cons] at hx
    have ha := hp a (by simp)
    have hb := hp b (by simp)
    rcases hx with rfl | hx
    · have := HeatCell.dist_pos ha hb
      have := HeatCell.diffusivity_pos ha hb
      positivity
    · exact heatIfaces_pos (fun c hc => hp c (List.mem_cons_of_mem _ hc)) x hx

theorem heatIfaces_length : ∀ (cs : List (HeatCell K)), (heatIfaces cs).length = cs.length - 1
  | [] => rfl
  | [_] => rfl
  | a :: b :: cs => by
    rw [heatIfaces, List.length_cons, heatIfaces_length (b :: cs)]; simp

/-- The stability bound holds for every interface, the bound is positive, and there are three layers. -/
theorem heatDtStab_ok {cs : List (HeatCell K)} {s : K} (h : heatDtStab cs = .ok s) :
    3 ≤ cs.length ∧ StableFor s cs ∧ ((∀ c ∈ cs, c.Pos) → 0 < s) := by
  unfold heatDtStab at h
  simp only [bind_eq_ok] at h
  obtain ⟨up, hu, lo, hl, h⟩ := h
  rw [pure_eq_ok] at h
  obtain ⟨u1, u2, u3⟩ := pyMinList_ok hu
  obtain ⟨l1, l2, l3⟩ := pyMinList_ok hl
  have hlen := heatIfaces_length cs
  have hne : (heatIfaces cs).tail.length ≠ 0 := fun h => l1 (List.length_eq_zero_iff.1 h)
  rw [List.length_tail] at hne
  rw [pyMin_eq] at h
  have e : s = 2 / 5 * min up lo := by rw [← h]; norm_num; ring
  refine ⟨by omega, ?_, fun hp => ?_⟩
  swap
  · have hpos := heatIfaces_pos hp
    have pu := u3 fun x hx => hpos x (List.mem_of_mem_dropLast hx)
    have pl := l3 fun x hx => hpos x (List.mem_of_mem_tail hx)
    have hm : 0 < min up lo := lt_min pu pl
    rw [e]; positivity
  intro x hx
  rw [e]
  refine mul_le_mul_of_nonneg_left ?_ (by norm_num)
  match hi : heatIfaces cs with
  | [] => rw [hi] at hx; simp at hx
  | y :: ys =>
    rw [hi] at hx u2 l2 hne
    rcases List.mem_cons.1 hx with rfl | hx
    · refine (min_le_left _ _).trans (u2 x ?_)
      rw [List.dropLast_cons_of_ne_nil (by rintro rfl; simp at hne)]
      exact List.mem_cons_self
    · exact (min_le_right _ _).trans (l2 x (by simpa using hx))

theorem heatDtStab_geo {cs ds : List (HeatCell K)} (h : cs.map HeatCell.geo = ds.map HeatCell.geo) :
    heatDtStab cs = heatDtStab ds := by
  unfold heatDtStab; rw [heatIfaces_congr h]

/-! ### The loop -/

/-- What the loop does, as a list of step lengths. -/
theorem heatLoop_steps {dt st : K} (hst : 0 < st) : ∀ (fuel : Nat) (s : K) (cs : List (HeatCell K)) {r : K × List (HeatCell K)},
    whileM (heatLoopPass dt st) fuel (s, cs) = .ok r →
    ∃ τs : List K, (∀ τ ∈ τs, 0 < τ ∧ τ ≤ st) ∧ (s ≤ dt → s + τs.sum = dt) ∧ (dt ≤ s → τs = []) ∧
      r.2 = τs.foldl (fun cs τ => heatPass τ cs) cs := by
  intro fuel
  induction fuel with
  | zero => intro s cs r h; simp [whileM] at h
  | succ n ih =>
    intro s cs r h
    rw [whileM] at h
    by_cases hs : s < dt
    · simp only [heatLoopPass, if_pos hs, pyMin_eq] at h
      obtain ⟨τs, h1, h2, h3, h4⟩ := ih _ _ h
      refine ⟨min st (dt - s) :: τs, ?_, ?_, ?_, ?_⟩
      · intro τ hτ
        rcases List.mem_cons.1 hτ with rfl | hτ
        · exact ⟨lt_min hst (by linarith), min_le_left _ _⟩
        · exact h1 τ hτ
      · intro _
        rw [List.sum_cons, ← add_assoc]
        exact h2 (by have := min_le_right st (dt - s); linarith)
      · intro h; exact absurd hs (not_lt.2 h)
      · rw [List.foldl_cons]; exact h4
    · simp only [heatLoopPass, if_neg hs, ok_inj] at h
      subst h
      exact ⟨[], by simp, fun h => by simpa using le_antisymm h (not_lt.1 hs), fun _ => rfl, rfl⟩

/-- The step lengths depend on the fuel, `dt` and the bound only: two columns with the same bound take the same. -/
theorem heatLoop_two {dt st : K} (hst : 0 < st) (R : List (HeatCell K) → List (HeatCell K) → Prop)
    (hR : ∀ τ cs ds, 0 < τ → τ ≤ st → R cs ds → R (heatPass τ cs) (heatPass τ ds)) :
    ∀ (fuel fuel' : Nat) (s : K) (cs ds : List (HeatCell K)) {r r' : K × List (HeatCell K)}, R cs ds →
    whileM (heatLoopPass dt st) fuel (s, cs) = .ok r → whileM (heatLoopPass dt st) fuel' (s, ds) = .ok r' → R r.2 r'.2 := by
  intro fuel
  induction fuel with
  | zero => intro _ s cs ds r r' _ h; simp [whileM] at h
  | succ n ih =>
    intro fuel' s cs ds r r' hr h h'
    cases fuel' with
    | zero => simp [whileM] at h'
    | succ m =>
    rw [whileM] at h h'
    by_cases hs : s < dt
    · simp only [heatLoopPass, if_pos hs, pyMin_eq] at h h'
      exact ih m _ _ _ (hR _ _ _ (lt_min hst (by linarith)) (min_le_left _ _) hr) h h'
    · simp only [heatLoopPass, if_neg hs, ok_inj] at h h'
      subst h; subst h'
      exact hr

/-- The loop ends. -/
theorem heatLoop_terminates [Archimedean K] {dt st : K} (hst : 0 < st) (cs : List (HeatCell K)) :
    ∃ r N, ∀ n, N ≤ n → whileM (heatLoopPass dt st) n (0, cs) = .ok r := by
  obtain ⟨m, hm⟩ := Archimedean.arch dt hst
  have key : ∀ (k : Nat) (s : K) (cs : List (HeatCell K)), dt - s ≤ k • st →
      ∃ r, ∀ n, k + 1 < n → whileM (heatLoopPass dt st) n (s, cs) = .ok r := by
    intro k
    induction k with
    | zero =>
      intro s cs h
      refine ⟨(s, cs), fun n hn => ?_⟩
      obtain ⟨n, rfl⟩ : ∃ j, n = j + 1 := ⟨n - 1, by omega⟩
      rw [whileM]
      have : ¬ s < dt := by simp at h; exact not_lt.2 h
      simp only [heatLoopPass, if_neg this]
    | succ k ih =>
      intro s cs h
      by_cases hs : s < dt
      · have hk : dt - (s + min st (dt - s)) ≤ k • st := by
          rcases min_cases st (dt - s) with ⟨e, _⟩ | ⟨e, _⟩
          · rw [e]; rw [succ_nsmul] at h; linarith
          · rw [e]
            have : 0 ≤ k • st := nsmul_nonneg hst.le k
            linarith
        obtain ⟨r, hr⟩ := ih (s + min st (dt - s)) (heatPass (min st (dt - s)) cs) hk
        refine ⟨r, fun n hn => ?_⟩
        obtain ⟨n, rfl⟩ : ∃ j, n = j + 1 := ⟨n - 1, by omega⟩
        rw [whileM]
        simp only [heatLoopPass, if_pos hs, pyMin_eq]
        exact hr n (by omega)
      · refine ⟨(s, cs), fun n hn => ?_⟩
        obtain ⟨n, rfl⟩ : ∃ j, n = j + 1 := ⟨n - 1, by omega⟩
        rw [whileM]
        simp only [heatLoopPass, if_neg hs]
  obtain ⟨r, hr⟩ := key m 0 cs (by rw [sub_zero]; exact hm)
  exact ⟨r, m + 2, fun n hn => hr n (by omega)⟩

/-! ### From the column to the cells and back -/

theorem thermalDiffusivity_pos {c : Consts K} (hc : c.Phys) {n : Node K} (h0 : 0 ≤ n.iceFraction) (h1 : 0 ≤ n.lwc)
    {k : K} (h : n.thermalDiffusivity c = .ok k) : 0 < k := by
  have hair : 0 ≤ n.airPorosity := by
    unfold Node.airPorosity; rw [pyMax_eq]; exact le_max_left _ _
  have hsum : 1 ≤ n.iceFraction + n.lwc + n.airPorosity := by
    unfold Node.airPorosity; rw [pyMax_eq]
    have := le_max_right 0 (1 - n.lwc - n.iceFraction)
    linarith
  have hany : ∀ a b d : K, 0 < a → 0 < b → 0 < d → 0 < n.iceFraction * a + n.lwc * b + n.airPorosity * d := by
    intro a b d ha hb hd
    have e1 := mul_nonneg h0 ha.le
    have e2 := mul_nonneg h1 hb.le
    have e3 := mul_nonneg hair hd.le
    rcases h0.eq_or_lt with h | h
    · rcases h1.eq_or_lt with h' | h'
      · have : 0 < n.airPorosity := by rw [← h, ← h'] at hsum; linarith
        have := mul_pos this hd
        linarith
      · have := mul_pos h' hb
        linarith
    · have := mul_pos h ha
      linarith
  have hrho : 0 < n.density c := by
    have := hany _ _ _ hc.ice hc.water hc.air
    unfold Node.density; linarith
  have hcp : 0 < n.specificHeat c := by
    have := hany _ _ _ hc.cIce hc.cW hc.cAir
    unfold Node.specificHeat; linarith
  unfold Node.thermalDiffusivity at h
  rw [bind_eq_ok] at h
  obtain ⟨q, hq, h⟩ := h
  rw [fdiv_eq_ok] at h
  have hqp : 0 < q := by
    unfold Node.thermalConductivity at hq
    split at hq
    · rw [ok_inj] at hq; subst hq
      have := hany _ _ _ hc.kI hc.kW hc.kA
      linarith
    · simp only [ok_inj] at hq; subst hq
      have : 0 ≤ n.density c / 1000 * (n.density c / 1000) := mul_self_nonneg _
      norm_num
      linarith
    · simp at hq
  rw [h.2]
  positivity

/-- The cell of a layer. -/
def CellOf (c : Consts K) (n : Node K) (x : HeatCell K) : Prop :=
  x.h = n.height ∧ x.t = n.temperature ∧ n.thermalDiffusivity c = .ok x.k

theorem solveHeat_ok {fuel : Nat} {c : Consts K} {g g' : Grid K} {dt : K} (hw : g.WF)
    (h : solveHeatEquation fuel c g dt = .ok g') :
    ∃ cells st r, List.Forall₂ (CellOf c) g.nodes cells ∧ heatDtStab cells = .ok st ∧
      whileM (heatLoopPass dt st) fuel (0, cells) = .ok r ∧
      g.setAll Node.setTemperature (r.2.map HeatCell.t) = .ok g' := by
  unfold solveHeatEquation at h
  simp only [bind_eq_ok] at h
  obtain ⟨cells, h1, st, h2, ⟨a, r⟩, h3, h4⟩ := h
  refine ⟨cells, st, (a, r), ?_, h2, h3, h4⟩
  rw [Grid.mapNodes_eq hw, mapM_eq_ok_iff] at h1
  refine h1.imp fun n x hx => ?_
  rw [bind_eq_ok] at hx
  obtain ⟨k, hk, hx⟩ := hx
  rw [pure_eq_ok] at hx
  subst hx
  exact ⟨rfl, rfl, hk⟩

theorem cells_pos {c : Consts K} (hc : c.Phys) {ns : List (Node K)} {cells : List (HeatCell K)}
    (h : List.Forall₂ (CellOf c) ns cells) (hn : ∀ n ∈ ns, 0 < n.height ∧ 0 ≤ n.iceFraction ∧ 0 ≤ n.lwc) :
    ∀ x ∈ cells, x.Pos := by
  induction h with
  | nil => simp
  | @cons n x ns cells h1 h2 ih =>
    intro y hy
    rcases List.mem_cons.1 hy with rfl | hy
    · have := hn n (by simp)
      exact ⟨h1.1 ▸ this.1, thermalDiffusivity_pos hc this.2.1 this.2.2 h1.2.2⟩
    · exact ih (fun m hm => hn m (by simp [hm])) y hy

theorem foldl_heatPass_geo (τs : List K) : ∀ (cs : List (HeatCell K)),
    (τs.foldl (fun cs τ => heatPass τ cs) cs).map HeatCell.geo = cs.map HeatCell.geo := by
  induction τs with
  | nil => intro cs; rfl
  | cons τ τs ih => intro cs; rw [List.foldl_cons, ih, heatPass_geo]

theorem setTemperature_zip : ∀ (ts : List K) (ns : List (Node K)), ts.length = ns.length →
    (List.zipWith Node.setTemperature ts ns).map (fun n => n.temperature) = ts
  | [], [], _ => rfl
  | t :: ts, n :: ns, h => by
    rw [List.zipWith_cons_cons, List.map_cons, setTemperature_zip ts ns (by simpa using h)]
    rfl

theorem cells_t {c : Consts K} {ns : List (Node K)} {cells : List (HeatCell K)} (h : List.Forall₂ (CellOf c) ns cells) :
    cells.map HeatCell.t = ns.map (fun n => n.temperature) := by
  induction h with
  | nil => rfl
  | cons h1 h2 ih => rw [List.map_cons, List.map_cons, ih, h1.2.1]

end
end Cosipy
