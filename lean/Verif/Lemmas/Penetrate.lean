import Verif.Model.Penetrating
import Verif.Lemmas.Grid
import Verif.Lemmas.Arith
import Verif.Spec.Phys
import Mathlib.Data.List.Sort
import Mathlib.Data.List.ReduceOption

/-! Penetrating radiation: removal of a set of layers as filtering, and the layer loop as a relation. -/

set_option autoImplicit false
set_option linter.unusedSectionVars false

namespace Cosipy

/-- Positions of the marked entries, counted from `i`. -/
def flagIdx : Int → List Bool → List Int
  | _, [] => []
  | i, f :: fs => (if f then [i] else []) ++ flagIdx (i + 1) fs

theorem flagIdx_ge : ∀ (fs : List Bool) (i : Int), ∀ j ∈ flagIdx i fs, i ≤ j := by
  intro fs
  induction fs with
  | nil => intro i j h; simp [flagIdx] at h
  | cons f fs ih =>
    intro i j h
    rw [flagIdx, List.mem_append] at h
    rcases h with h | h
    · cases f <;> simp at h; omega
    · have := ih (i + 1) j h; omega

theorem flagIdx_sorted : ∀ (fs : List Bool) (i : Int), (flagIdx i fs).Pairwise (· < ·) := by
  intro fs
  induction fs with
  | nil => intro i; simp [flagIdx]
  | cons f fs ih =>
    intro i
    rw [flagIdx, List.pairwise_append]
    refine ⟨by cases f <;> simp, ih _, ?_⟩
    intro a ha b hb
    cases f <;> simp at ha
    have := flagIdx_ge fs (i + 1) b hb
    omega

theorem flagIdx_shift : ∀ (fs : List Bool) (i : Int), flagIdx (i + 1) fs = (flagIdx i fs).map (· + 1) := by
  intro fs
  induction fs with
  | nil => intro i; rfl
  | cons f fs ih => intro i; rw [flagIdx, flagIdx, ih (i + 1), List.map_append]; cases f <;> simp

theorem flagIdx_isEmpty : ∀ (fs : List Bool) (i : Int), (flagIdx i fs).isEmpty = true ↔ ∀ f ∈ fs, f = false := by
  intro fs
  induction fs with
  | nil => intro i; simp [flagIdx]
  | cons f fs ih =>
    intro i
    have := ih (i + 1)
    cases f <;> simp_all [flagIdx]

theorem mergeSort_flagIdx (i : Int) (fs : List Bool) :
    (flagIdx i fs).mergeSort (fun a b => decide (b ≤ a)) = (flagIdx i fs).reverse := by
  have h1 := List.pairwise_mergeSort (le := fun a b : Int => decide (b ≤ a))
    (fun a b c h1 h2 => by simp at *; omega) (fun a b => by simp; omega) (flagIdx i fs)
  have h2 : (flagIdx i fs).reverse.Pairwise (fun a b => decide (b ≤ a) = true) := by
    rw [List.pairwise_reverse]
    exact (flagIdx_sorted fs i).imp fun h => by simp; omega
  refine List.Perm.eq_of_pairwise ?_ h1 h2 ((List.mergeSort_perm _ _).trans (List.reverse_perm _).symm)
  intro a b _ _ h1 h2
  simp at h1 h2
  omega

/-- Entries not marked. -/
def keep {β : Type} : List Bool → List β → List β
  | f :: fs, x :: xs => if f then keep fs xs else x :: keep fs xs
  | _, xs => xs

theorem pyDel_cons_succ {β : Type} (a : β) {xs ys : List β} {i : Int} (hi : 0 ≤ i) (h : pyDel xs i = .ok ys) :
    pyDel (a :: xs) (i + 1) = .ok (a :: ys) := by
  obtain ⟨k, hk, rfl⟩ := pyDel_eq_ok.1 h
  obtain ⟨hk1, hk2⟩ := normIdx_eq_some_nonneg hi hk
  refine pyDel_eq_ok.2 ⟨k + 1, ?_, rfl⟩
  rw [← hk1]
  exact normIdx_of_nat (k := k + 1) (by simp; omega)

theorem foldlM_pyDel_cons {β : Type} (a : β) : ∀ (is : List Int) {xs ys : List β}, (∀ i ∈ is, 0 ≤ i) →
    is.foldlM pyDel xs = .ok ys → (is.map (· + 1)).foldlM pyDel (a :: xs) = .ok (a :: ys) := by
  intro is
  induction is with
  | nil => intro xs ys _ h; rw [List.foldlM_nil, pure_eq_ok] at h; subst h; rfl
  | cons i is ih =>
    intro xs ys hi h
    rw [List.foldlM_cons, bind_eq_ok] at h
    obtain ⟨zs, h1, h2⟩ := h
    rw [List.map_cons, List.foldlM_cons, pyDel_cons_succ a (hi i (by simp)) h1, ok_bind]
    exact ih (fun j hj => hi j (by simp [hj])) h2

theorem foldlM_flagIdx {β : Type} : ∀ (fs : List Bool) (xs : List β), fs.length ≤ xs.length →
    (flagIdx 0 fs).reverse.foldlM pyDel xs = .ok (keep fs xs) := by
  intro fs
  induction fs with
  | nil => intro xs _; simp [flagIdx, keep]; rfl
  | cons f fs ih =>
    intro xs h
    cases xs with
    | nil => simp at h
    | cons x xs =>
      have h1 := ih xs (by simpa using h)
      have h2 := foldlM_pyDel_cons x (flagIdx 0 fs).reverse (fun i hi => flagIdx_ge fs 0 i (List.mem_reverse.1 hi)) h1
      rw [flagIdx, flagIdx_shift, List.reverse_append, List.foldlM_append, ← List.map_reverse, h2, ok_bind, keep]
      cases f with
      | false => simp; rfl
      | true =>
        simp only [if_true, List.reverse_cons, List.reverse_nil, List.nil_append, List.foldlM_cons, List.foldlM_nil]
        have : pyDel (x :: keep fs xs) 0 = .ok (keep fs xs) := pyDel_eq_ok.2 ⟨0, normIdx_of_nat (k := 0) (by simp), rfl⟩
        rw [this]
        rfl

theorem flagIdx_length : ∀ (fs : List Bool) (i : Int), (flagIdx i fs).length = fs.count true := by
  intro fs
  induction fs with
  | nil => intro i; rfl
  | cons f fs ih => intro i; rw [flagIdx, List.length_append, ih]; cases f <;> simp; omega

section
variable {α : Type} [Add α] [Sub α] [Mul α] [Div α] [Neg α] [LT α] [LE α]
  [DecidableLT α] [DecidableLE α] [BEq α] [Zero α] [One α] [NatCast α] [OfScientific α]

/-- `remove_node` on the positions of the marked layers keeps the others. -/
theorem removeNode_flags {g : Grid α} {fs : List Bool} (hne : g.nodes ≠ []) (hlen : fs.length ≤ g.nodes.length)
    (hany : ¬ (flagIdx 0 fs).isEmpty) :
    g.removeNode (flagIdx 0 fs) = .ok
      { g with
        nodes := keep fs g.nodes
        numberNodes := g.numberNodes - (fs.count true : Nat) } := by
  unfold Grid.removeNode
  rw [if_neg (by simpa using hne), if_neg hany, mergeSort_flagIdx, foldlM_flagIdx _ _ hlen, ok_bind, flagIdx_length]
  rfl

end

section
variable {K : Type} [Field K] [LinearOrder K] [IsStrictOrderedRing K]

/-- The layer loop as a relation. -/
theorem penLayers_ok {c : Consts K} {dt : K} : ∀ (ns : List (Node K)) (i : Int) (es : List K) (rm : List Int) (m : K)
    {r : List (Node K) × List Int × K}, penLayers c dt i ns es rm m = .ok r → ns ≠ [] →
    ∃ init last es' outs, ns = init ++ [last] ∧ es' = es.take init.length ∧
      List.Forall₂ (fun p o => penLayer c dt p.2 p.1 = .ok o) (init.zip es') outs ∧ es'.length = init.length ∧
      r.1 = outs.map (fun o => o.1) ++ [last] ∧ r.2.1 = rm ++ flagIdx i (outs.map (fun o => o.2.1)) ∧
      r.2.2 = m + (outs.map (fun o => o.2.2)).sum
  | [], _, _, _, _, _, _, h => absurd rfl h
  | [a], i, es, rm, m, r, h, _ => by
    rw [penLayers] at h
    cases h
    exact ⟨[], a, [], [], rfl, by simp, by simp, rfl, rfl, by simp [flagIdx], by simp⟩
  | a :: b :: rest, i, [], rm, m, r, h, _ => by rw [penLayers] at h; cases h
  | a :: b :: rest, i, e :: es, rm, m, r, h, _ => by
    rw [penLayers, bind_eq_ok] at h
    obtain ⟨⟨a', del, m'⟩, ha, h⟩ := h
    simp only [bind_eq_ok] at h
    obtain ⟨⟨ns', rm', t⟩, h2, h⟩ := h
    rw [pure_eq_ok] at h; subst h
    obtain ⟨init, last, es', outs, e1, e2, e3, e4, e5, e6, e7⟩ := penLayers_ok (b :: rest) (i + 1) es _ _ h2 (by simp)
    refine ⟨a :: init, last, e :: es', (a', del, m') :: outs, by rw [e1]; rfl, by rw [e2]; rfl, ?_, by simp [e4], ?_, ?_, ?_⟩
    · rw [List.zip_cons_cons]; exact List.Forall₂.cons ha e3
    · simp only at e5 ⊢; rw [e5]; rfl
    · simp only at e6 ⊢
      rw [e6, List.map_cons, flagIdx]
      cases del <;> simp
    · simp only at e7 ⊢
      rw [e7, List.map_cons, List.sum_cons, add_assoc]

end

section
variable {K : Type} [Field K] [LinearOrder K] [IsStrictOrderedRing K] [Transc K]

theorem absDiff_length : ∀ (xs : List K), (absDiff xs).length = xs.length - 1
  | [] => rfl
  | [_] => rfl
  | a :: b :: xs => by rw [absDiff, List.length_cons, absDiff_length (b :: xs)]; simp

theorem absDiff_nonneg : ∀ (xs : List K), ∀ x ∈ absDiff xs, 0 ≤ x
  | [], x, h => by simp [absDiff] at h
  | [_], x, h => by simp [absDiff] at h
  | a :: b :: xs, x, h => by
    rw [absDiff, List.mem_cons] at h
    rcases h with rfl | h
    · rw [pyAbs_eq]; exact abs_nonneg _
    · exact absDiff_nonneg (b :: xs) x h

theorem keep_eq_filter {β γ : Type} (f : β → γ) (del : β → Bool) : ∀ (outs : List β) (tl : List γ),
    keep (outs.map del) (outs.map f ++ tl) = (outs.filter (fun o => !del o)).map f ++ tl
  | [], tl => by cases tl <;> rfl
  | o :: outs, tl => by
    rw [List.map_cons, List.map_cons, List.cons_append, keep, keep_eq_filter f del outs tl]
    cases h : del o <;> simp [h]

/-- `method_Bintanja` in pieces: the absorbed energies, the outcome of every layer but the last, the layers kept, the
melt and the penetrating share. -/
theorem bintanja_ok {c : Consts K} {g : Grid K} {swnet dt : K} {r : Grid K × K × K}
    (h : methodBintanja c g swnet dt = .ok r) :
    ∃ top rest depths init last es outs, g.nodes = top :: rest ∧ g.getDepth = .ok depths ∧ g.nodes = init ++ [last] ∧
      es = (penEnergy (swnet * (penCoeffs c top).1) (penCoeffs c top).2 depths).take init.length ∧
      es.length = init.length ∧
      List.Forall₂ (fun p o => penLayer c dt p.2 p.1 = .ok o) (init.zip es) outs ∧
      r.1 = { g with
        nodes := (outs.filter (fun o => !o.2.1)).map (fun o => o.1) ++ [last]
        numberNodes := r.1.numberNodes } ∧
      r.2.1 = (outs.map (fun o => o.2.2)).sum ∧ r.2.2 = swnet * (penCoeffs c top).1 := by
  unfold methodBintanja at h
  simp only [bind_eq_ok] at h
  obtain ⟨depths, hd, top, ht, ⟨ns, rm, melt⟩, hp, h⟩ := h
  have hne : g.nodes ≠ [] := by
    rintro hn; unfold Grid.node at ht; rw [hn] at ht; simp [pyGet, normIdx] at ht
  obtain ⟨t, rest, hn⟩ := List.exists_cons_of_ne_nil hne
  have ht' : t = top := by
    unfold Grid.node at ht; rw [hn, pyGet_zero, ok_inj] at ht; exact ht
  subst ht'
  obtain ⟨init, last, es, outs, e1, e2, e3, e4, e5, e6, e7⟩ := penLayers_ok _ _ _ _ _ hp hne
  simp only [List.nil_append] at e6
  refine ⟨t, rest, depths, init, last, es, outs, hn, hd, e1, e2, e4, e3, ?_⟩
  have hl : outs.length = init.length := by
    rw [← e3.length_eq, List.length_zip, e4]; simp
  have hk := keep_eq_filter (fun o : Node K × Bool × K => o.1) (fun o => o.2.1) outs [last]
  simp only at e5 e6 e7
  subst e5 e6
  split_ifs at h with hem
  · rw [pure_eq_ok] at h; subst h
    refine ⟨?_, by simp only; rw [e7]; simp, rfl⟩
    rw [flagIdx_isEmpty] at hem
    have : outs.filter (fun o => !o.2.1) = outs := List.filter_eq_self.2 fun o ho => by
      simp [hem o.2.1 (List.mem_map_of_mem ho)]
    rw [this]
  · rw [bind_eq_ok] at h
    obtain ⟨g1, h1, h⟩ := h
    rw [pure_eq_ok] at h; subst h
    rw [removeNode_flags (by simp) (by simp) hem, ok_inj] at h1
    subst h1
    refine ⟨?_, by simp only; rw [e7]; simp, rfl⟩
    simp only [hk]

end

section
variable {K : Type} [Field K] [LinearOrder K] [IsStrictOrderedRing K]

/-- Temperature a layer would reach without melting. -/
def radTemp (c : Consts K) (dt e : K) (n : Node K) : K :=
  n.temperature + e / (n.density c * c.specHeatIce) * (dt / n.height)

/-- Fraction of the layer's ice that melts. -/
def radFrac (c : Consts K) (dt e : K) (n : Node K) : K :=
  c.specHeatIce * (radTemp c dt e n - c.zeroTemperature) / c.latHeatMelting

/-- Outcome of a layer: only warmed, thinned, or removed. -/
theorem penLayer_cases {c : Consts K} (hc : c.Phys) {dt e : K} {n : Node K} {o : Node K × Bool × K}
    (hi : n.iceFraction ≠ 0) (h : penLayer c dt e n = .ok o) :
    (radTemp c dt e n ≤ c.zeroTemperature ∧ o = ({ n with temperature := radTemp c dt e n }, false, 0)) ∨
    (c.zeroTemperature < radTemp c dt e n ∧ radFrac c dt e n < 1 ∧ o =
      ({ n with
          temperature := c.zeroTemperature
          height := (1 - radFrac c dt e n) * n.height
          lwc := (n.lwc + radFrac c dt e n * n.iceFraction * (c.iceDensity / c.waterDensity)) / (1 - radFrac c dt e n) },
        false, radFrac c dt e n * n.iceFraction * (c.iceDensity / c.waterDensity) * ((1 - radFrac c dt e n) * n.height))) ∨
    (c.zeroTemperature < radTemp c dt e n ∧ 1 ≤ radFrac c dt e n ∧ o =
      (n, true, radFrac c dt e n * n.iceFraction * (c.iceDensity / c.waterDensity) * n.height)) := by
  have hwd := hc.water.ne'
  have hid := hc.ice.ne'
  have hL := hc.melt.ne'
  unfold penLayer at h
  simp only [bind_eq_ok] at h
  obtain ⟨q, hq, r, hr, h⟩ := h
  rw [fdiv_eq_ok] at hq hr
  obtain ⟨hq0, rfl⟩ := hq
  obtain ⟨hr0, rfl⟩ := hr
  have et : n.temperature + e / (n.density c * c.specHeatIce) * (dt / n.height) = radTemp c dt e n := rfl
  rw [et] at h
  split_ifs at h with h1
  · rw [bind_eq_ok] at h
    obtain ⟨dh, hdh, h⟩ := h
    rw [fdiv_eq_ok] at hdh
    have edw : penA c * (radTemp c dt e n - c.zeroTemperature) * n.iceFraction =
        radFrac c dt e n * n.iceFraction * (c.iceDensity / c.waterDensity) := by
      unfold penA radFrac; field_simp
    have edh : dh = radFrac c dt e n := by
      rw [hdh.2, edw]; field_simp
    rw [edw] at h
    subst edh
    right
    split_ifs at h with h2
    · rw [pure_eq_ok] at h; subst h
      exact Or.inr ⟨h1, h2, rfl⟩
    · rw [bind_eq_ok] at h
      obtain ⟨w, hw, h⟩ := h
      rw [fdiv_eq_ok] at hw
      rw [pure_eq_ok] at h; subst h
      refine Or.inl ⟨h1, not_le.1 h2, ?_⟩
      have : w = (n.lwc + radFrac c dt e n * n.iceFraction * (c.iceDensity / c.waterDensity)) / (1 - radFrac c dt e n) := by
        rw [hw.2, mul_div_mul_right _ _ hr0]
      rw [this]
  · rw [pure_eq_ok] at h; subst h
    exact Or.inl ⟨not_lt.1 h1, rfl⟩

/-- The melted fraction reaches 1 exactly if the absorbed energy warms the layer to melting point and melts it. -/
theorem radFrac_ge_one {c : Consts K} (hc : c.Phys) {dt e : K} {n : Node K} (hr : 0 < n.density c) (hh : 0 < n.height) :
    1 ≤ radFrac c dt e n ↔
      n.density c * n.height * (c.specHeatIce * (c.zeroTemperature - n.temperature) + c.latHeatMelting) ≤ e * dt := by
  have hci := hc.cIce
  have hL := hc.melt
  unfold radFrac radTemp
  rw [le_div_iff₀ hL, one_mul]
  have e1 : c.specHeatIce * (n.temperature + e / (n.density c * c.specHeatIce) * (dt / n.height) - c.zeroTemperature) =
      e * dt / (n.density c * n.height) - c.specHeatIce * (c.zeroTemperature - n.temperature) := by
    field_simp; ring
  rw [e1, le_sub_iff_add_le, le_div_iff₀ (by positivity)]
  constructor <;> intro h <;> nlinarith [h]

theorem radTemp_energy {c : Consts K} (hc : c.Phys) {dt e : K} {n : Node K} (hr : 0 < n.density c) (hh : 0 < n.height) :
    n.density c * c.specHeatIce * n.height * (radTemp c dt e n - n.temperature) = e * dt := by
  have hci := hc.cIce
  unfold radTemp
  field_simp
  ring


theorem density_pos {c : Consts K} (hc : c.Phys) {n : Node K} (h0 : 0 ≤ n.iceFraction) (h1 : 0 ≤ n.lwc) :
    0 < n.density c ∧ n.iceFraction * c.iceDensity ≤ n.density c := by
  have hair : 0 ≤ n.airPorosity := by
    unfold Node.airPorosity; rw [pyMax_eq]; exact le_max_left _ _
  have hsum : 1 ≤ n.iceFraction + n.lwc + n.airPorosity := by
    unfold Node.airPorosity; rw [pyMax_eq]
    have := le_max_right 0 (1 - n.lwc - n.iceFraction)
    linarith
  have hi := hc.ice
  have hw := hc.water
  have ha := hc.air
  have e1 := mul_nonneg h0 hi.le
  have e2 := mul_nonneg h1 hw.le
  have e3 := mul_nonneg hair ha.le
  unfold Node.density
  refine ⟨?_, by linarith⟩
  rcases h0.eq_or_lt with h | h
  · rcases h1.eq_or_lt with h' | h'
    · have : 0 < n.airPorosity := by rw [← h, ← h'] at hsum; linarith
      have := mul_pos this ha
      linarith
    · have := mul_pos h' hw
      linarith
  · have := mul_pos h hi
    linarith

end

section
variable {K : Type} [Field K] [LinearOrder K] [IsStrictOrderedRing K]

/-- What became of a layer: `none` if it was removed. -/
def fateOf (o : Node K × Bool × K) : Option (Node K) := if o.2.1 then none else some o.1

theorem fates_kept (outs : List (Node K × Bool × K)) :
    (outs.map fateOf).reduceOption = (outs.filter (fun o => !o.2.1)).map (fun o => o.1) := by
  induction outs with
  | nil => rfl
  | cons o outs ih =>
    rcases o with ⟨n, d, m⟩
    cases d
    · simp only [List.map_cons, fateOf]
      simp [List.reduceOption_cons_of_some, ih]
    · simp only [List.map_cons, fateOf]
      simp [List.reduceOption_cons_of_none, ih]

end

section
variable {K : Type} [Field K] [LinearOrder K] [IsStrictOrderedRing K] [Transc K]

theorem penLayer_returns {c : Consts K} (hc : c.Phys) (dt e : K) {n : Node K}
    (hn : 0 < n.height ∧ 0 < n.iceFraction ∧ 0 ≤ n.lwc) : ∃ o, penLayer c dt e n = .ok o := by
  obtain ⟨hr, _⟩ := density_pos hc hn.2.1.le hn.2.2
  have hci := hc.cIce
  unfold penLayer
  rw [fdiv_of_ne (by positivity), ok_bind, fdiv_of_ne hn.1.ne', ok_bind]
  simp only
  split_ifs with h1
  · rw [fdiv_of_ne hn.2.1.ne', ok_bind]
    split_ifs with h2
    · exact ⟨_, rfl⟩
    · rw [fdiv_of_ne (mul_ne_zero (by intro h; apply h2; linarith) hn.1.ne'), ok_bind]
      exact ⟨_, rfl⟩
  · exact ⟨_, rfl⟩

theorem penLayers_returns {c : Consts K} (hc : c.Phys) {dt : K} : ∀ (ns : List (Node K)) (i : Int) (es : List K)
    (rm : List Int) (m : K), (∀ n ∈ ns, 0 < n.height ∧ 0 < n.iceFraction ∧ 0 ≤ n.lwc) → ns.length ≤ es.length + 1 →
    ∃ r, penLayers c dt i ns es rm m = .ok r
  | [], _, _, _, _, _, _ => ⟨_, rfl⟩
  | [a], _, _, _, _, _, _ => ⟨_, by rw [penLayers]⟩
  | a :: b :: rest, _, [], _, _, _, h => by simp at h
  | a :: b :: rest, i, e :: es, rm, m, hn, hl => by
    obtain ⟨o, ho⟩ := penLayer_returns hc dt e (hn a (by simp))
    rw [penLayers, ho, ok_bind]
    obtain ⟨r, hr⟩ := penLayers_returns hc (dt := dt) (b :: rest) (i + 1) es (if o.2.1 = true then rm ++ [i] else rm) (m + o.2.2)
      (fun n hm => hn n (List.mem_cons_of_mem _ hm)) (by simpa using hl)
    simp only [hr, ok_bind]
    exact ⟨_, rfl⟩

/-- The method returns on every valid non-empty column. -/
theorem bintanja_returns {c : Consts K} (hc : c.Phys) {g : Grid K} (hw : g.WF) (hne : g.nodes ≠ [])
    (hn : ∀ n ∈ g.nodes, 0 < n.height ∧ 0 < n.iceFraction ∧ 0 ≤ n.lwc) (swnet dt : K) :
    ∃ r, methodBintanja c g swnet dt = .ok r := by
  obtain ⟨top, rest, hg⟩ := List.exists_cons_of_ne_nil hne
  have hd : ∃ ds, g.getDepth = .ok ds ∧ ds.length = g.nodes.length := by
    have hlen : ∀ (hs : List K) (a : K), (Grid.depthFrom a hs).length = hs.length := by
      intro hs
      induction hs with
      | nil => intro a; rfl
      | cons h hs ih => intro a; rw [Grid.depthFrom, List.length_cons, ih, List.length_cons]
    unfold Grid.getDepth
    rw [Grid.getHeight_eq hw, ok_bind, hg]
    refine ⟨_, rfl, ?_⟩
    rw [List.length_cons, hlen]; simp
  obtain ⟨ds, hds, hlen⟩ := hd
  have hnode : g.node 0 = .ok top := by unfold Grid.node; rw [hg]; exact pyGet_zero
  unfold methodBintanja
  rw [hds, ok_bind, hnode, ok_bind]
  obtain ⟨⟨ns, rm, melt⟩, hr⟩ := penLayers_returns hc (dt := dt) g.nodes 0
    (penEnergy (swnet * (penCoeffs c top).1) (penCoeffs c top).2 ds) [] 0 hn (by
      unfold penEnergy; rw [List.length_map, absDiff_length]; simp [hlen])
  simp only [hr, ok_bind]
  split_ifs with hem
  · exact ⟨_, rfl⟩
  · obtain ⟨init, last, es, outs, e1, e2, e3, e4, e5, e6, e7⟩ := penLayers_ok _ _ _ _ _ hr hne
    simp only [List.nil_append] at e5 e6
    subst e5 e6
    rw [removeNode_flags (by simp) (by simp) hem, ok_bind]
    exact ⟨_, rfl⟩

end
end Cosipy
