import Verif.Props.C105
import Mathlib.Tactic.FieldSimp

/-!
# C106 Dividing a layer does not change where its water goes

The number of layers is a numerical choice: a layer may be divided into two with the same water and ice contents, as the remeshing
does. For every layer but the lowest this changes neither the runoff nor the water of any other layer (`C106_layer`), and no
sequence of such divisions changes the runoff or the water stored (`C106_runoff`). It does not hold for the lowest layer, which
the code always drains completely: divided, its upper part keeps what it can hold (`C106_lowest_partial`), so the runoff depends
on the layering (`C106_refuted`).
-/

set_option autoImplicit false
set_option linter.unusedSectionVars false

namespace Cosipy

section
variable {K : Type} [Field K] [LinearOrder K] [IsStrictOrderedRing K]

/-- Two layers, one above the other, that make up the layer `n`: same contents per height, heights adding up. -/
structure Halves (n n1 n2 : Node K) : Prop where
  pos1 : 0 < n1.height
  pos2 : 0 < n2.height
  height : n1.height + n2.height = n.height
  ice1 : n1.iceFraction = n.iceFraction
  ice2 : n2.iceFraction = n.iceFraction
  lwc1 : n1.lwc = n.lwc
  lwc2 : n2.lwc = n.lwc

/-- The column `ms` comes from `ns` by dividing layers other than the lowest, any number of times. -/
inductive Divided (ns : List (Node K)) : List (Node K) → Prop
  | refl : Divided ns ns
  | step {pre post : List (Node K)} {n n1 n2 p : Node K} : Divided ns (pre ++ n :: p :: post) → Halves n n1 n2 →
      Divided ns (pre ++ n1 :: n2 :: p :: post)

/-- The water of a layer, in metres. -/
def layerWater (n : Node K) : K := n.height * n.lwc

/-! ### Lemmas -/

theorem percolateFrom_over {a b : Node K} {rest tl : List (Node K)} {θ : K} (hθ : a.irreducibleWaterContent = .ok θ) (h : θ < a.lwc)
    (hb : b.height ≠ 0) (ht : percolateFrom (b.setLwc (b.lwc + (a.lwc - θ) * a.height / b.height)) rest = .ok tl) :
    percolateFrom a (b :: rest) = .ok (a.setLwc θ :: tl) := by
  have hm : pyMax (a.lwc - θ) 0 = a.lwc - θ := by rw [pyMax_zero]; exact max_eq_left (by linarith)
  rw [percolateFrom, hθ, ok_bind]
  simp only [hm]
  rw [if_pos (by linarith), fdiv_of_ne hb, ok_bind, ht, ok_bind]
  rfl

theorem percolateFrom_keep {a b : Node K} {rest tl : List (Node K)} {θ : K} (hθ : a.irreducibleWaterContent = .ok θ) (h : a.lwc ≤ θ)
    (ht : percolateFrom b rest = .ok tl) : percolateFrom a (b :: rest) = .ok (a :: tl) := by
  have hm : pyMax (a.lwc - θ) 0 = 0 := by rw [pyMax_zero]; exact max_eq_right (by linarith)
  rw [percolateFrom, hθ, ok_bind]
  simp only [hm]
  rw [if_neg (lt_irrefl _), ht, ok_bind]
  rfl

/-- The traversal of a column that gets the water `w` from above. -/
def drain (w : K) : List (Node K) → M (List (Node K))
  | [] => .ok []
  | t :: r => percolateFrom (t.setLwc (t.lwc + w / t.height)) r

theorem setLwc_zero (n : Node K) : n.setLwc (n.lwc + 0 / n.height) = n := by
  rw [zero_div, add_zero]; rfl

/-- What is above a layer passes some amount of water on to it, whatever is below. -/
theorem drain_prefix : ∀ (pre : List (Node K)) {n : Node K} {tail ms : List (Node K)} {w : K}, 0 ≤ w →
    (∀ x ∈ pre, 0 < x.height) → drain w (pre ++ n :: tail) = .ok ms →
    ∃ pre' Q tl, 0 ≤ Q ∧ pre'.length = pre.length ∧ ms = pre' ++ tl ∧ drain Q (n :: tail) = .ok tl ∧
      ∀ n' tail' tl', n'.height ≠ 0 → drain Q (n' :: tail') = .ok tl' → drain w (pre ++ n' :: tail') = .ok (pre' ++ tl') := by
  intro pre
  induction pre with
  | nil =>
    intro n tail ms w hw _ h
    exact ⟨[], w, ms, hw, rfl, rfl, h, fun _ _ _ _ h => h⟩
  | cons a pre ih =>
    intro n tail ms w hw hpos h
    have ha := hpos a (by simp)
    have hpre : ∀ x ∈ pre, 0 < x.height := fun x hx => hpos x (by simp [hx])
    -- the first layer of what is below `a`, and the rest
    have key : ∀ b rest, (∀ (Q : K), drain Q (b :: rest) = percolateFrom (b.setLwc (b.lwc + Q / b.height)) rest) := fun _ _ _ => rfl
    -- `a` passes on `Q0`
    have main : ∀ {b : Node K} {rest : List (Node K)} {ms : List (Node K)}, drain w (a :: b :: rest) = .ok ms →
        ∃ a' Q0 tl, 0 ≤ Q0 ∧ ms = a' :: tl ∧ drain Q0 (b :: rest) = .ok tl ∧
          ∀ b' rest' tl', b'.height ≠ 0 → drain Q0 (b' :: rest') = .ok tl' → drain w (a :: b' :: rest') = .ok (a' :: tl') := by
      intro b rest ms h
      obtain ⟨θ, tl, hθ, ⟨c1, c2, c3, rfl⟩ | ⟨c1, c3, rfl⟩⟩ := percolateFrom_cons h
      · refine ⟨_, _, tl, ?_, rfl, c3, ?_⟩
        · exact mul_nonneg (by linarith) ha.le
        · intro b' rest' tl' hb' ht
          exact percolateFrom_over hθ c1 hb' ht
      · refine ⟨_, 0, tl, le_rfl, rfl, ?_, ?_⟩
        · show percolateFrom _ _ = _
          rw [setLwc_zero]; exact c3
        · intro b' rest' tl' hb' ht
          refine percolateFrom_keep hθ c1 ?_
          have ht : percolateFrom (b'.setLwc (b'.lwc + 0 / b'.height)) rest' = .ok tl' := ht
          rwa [setLwc_zero] at ht
    cases pre with
    | nil =>
      obtain ⟨a', Q0, tl, hQ, rfl, h1, h2⟩ := main h
      exact ⟨[a'], Q0, tl, hQ, rfl, rfl, h1, fun n' tail' tl' hn ht => h2 n' tail' tl' hn ht⟩
    | cons b pre =>
      obtain ⟨a', Q0, tl, hQ, rfl, h1, h2⟩ := main h
      obtain ⟨pre', Q, tl2, hQ2, hlen, rfl, h3, h4⟩ := ih hQ hpre h1
      refine ⟨a' :: pre', Q, tl2, hQ2, by simp [hlen], rfl, h3, ?_⟩
      intro n' tail' tl' hn ht
      exact h2 b _ _ (hpre b (by simp)).ne' (h4 n' tail' tl' hn ht)

/-- Dividing a layer that has another one below. -/
theorem drain_halves {n n1 n2 p : Node K} {post tl : List (Node K)} {Q : K} (hh : Halves n n1 n2) (hQ : 0 ≤ Q)
    (h : drain Q (n :: p :: post) = .ok tl) :
    ∃ m m1 m2 tl', tl = m :: tl' ∧ drain Q (n1 :: n2 :: p :: post) = .ok (m1 :: m2 :: tl') ∧
      layerWater m = layerWater m1 + layerWater m2 := by
  have h1 := hh.pos1
  have h2 := hh.pos2
  have hn : 0 < n.height := by rw [← hh.height]; linarith
  obtain ⟨θ, tl', hθ, hc⟩ := percolateFrom_cons h
  have hθ1 : (n1.setLwc (n1.lwc + Q / n1.height)).irreducibleWaterContent = .ok θ := by rw [← hθ]; exact irr_congr hh.ice1
  have hθ2 : ∀ x, (n2.setLwc x).irreducibleWaterContent = .ok θ := fun x => by rw [← hθ]; exact irr_congr hh.ice2
  have hlw : n.lwc + Q / n.height ≤ θ ↔ (n.lwc - θ) * n.height + Q ≤ 0 := by
    rw [← sub_nonpos, ← mul_le_mul_iff_of_pos_right hn, zero_mul]
    have : (n.lwc + Q / n.height - θ) * n.height = (n.lwc - θ) * n.height + Q := by field_simp; ring
    rw [this]
  have hlw1 : n1.lwc + Q / n1.height ≤ θ ↔ (n.lwc - θ) * n1.height + Q ≤ 0 := by
    rw [← sub_nonpos, ← mul_le_mul_iff_of_pos_right h1, zero_mul]
    have : (n1.lwc + Q / n1.height - θ) * n1.height = (n.lwc - θ) * n1.height + Q := by rw [hh.lwc1]; field_simp; ring
    rw [this]
  have e1 : (n1.lwc + Q / n1.height - θ) * n1.height = (n.lwc - θ) * n1.height + Q := by rw [hh.lwc1]; field_simp; ring
  have hlw2 : n2.lwc + ((n.lwc - θ) * n1.height + Q) / n2.height ≤ θ ↔ (n.lwc - θ) * n.height + Q ≤ 0 := by
    rw [← sub_nonpos, ← mul_le_mul_iff_of_pos_right h2, zero_mul]
    have : (n2.lwc + ((n.lwc - θ) * n1.height + Q) / n2.height - θ) * n2.height = (n.lwc - θ) * n.height + Q := by
      rw [hh.lwc2, ← hh.height]; field_simp; ring
    rw [this]
  simp only [Node.setLwc] at hc
  rcases hc with ⟨c1, c2, c3, rfl⟩ | ⟨c1, c3, rfl⟩
  · -- the undivided layer overflows
    have c1' := (not_congr hlw).1 (not_le.2 c1)
    have d1 : θ < n1.lwc + Q / n1.height := by
      refine not_le.1 fun hle => ?_
      have hle := hlw1.1 hle
      have hneg : n.lwc - θ ≤ 0 := by
        by_contra hp
        have := mul_pos (not_le.1 hp) h1
        linarith
      have := mul_nonneg_of_nonpos_of_nonpos hneg (neg_nonpos.2 h2.le)
      apply c1'
      rw [← hh.height, mul_add]
      linarith
    refine ⟨_, _, _, tl', rfl, percolateFrom_over hθ1 d1 h2.ne' (percolateFrom_over (hθ2 _) ?_ c2 (tl := tl') ?_), ?_⟩
    · show θ < n2.lwc + (n1.lwc + Q / n1.height - θ) * n1.height / n2.height
      rw [e1]
      exact not_le.1 ((not_congr hlw2).2 c1')
    · have : (n.lwc + Q / n.height - θ) * n.height =
          (n2.lwc + (n1.lwc + Q / n1.height - θ) * n1.height / n2.height - θ) * n2.height := by
        rw [e1, hh.lwc2, ← hh.height]
        have : n1.height + n2.height ≠ 0 := by rw [hh.height]; exact hn.ne'
        field_simp; ring
      simp only [Node.setLwc] at c3 ⊢
      rw [← this]
      exact c3
    · show n.height * θ = n1.height * θ + n2.height * θ
      rw [← hh.height]; ring
  · have c1' := hlw.1 c1
    by_cases d1 : n1.lwc + Q / n1.height ≤ θ
    · have d1' := hlw1.1 d1
      have hneg : n.lwc - θ ≤ 0 := by
        by_contra hp
        have := mul_pos (not_le.1 hp) h1
        linarith
      refine ⟨_, _, _, tl', rfl, percolateFrom_keep hθ1 d1 (percolateFrom_keep (θ := θ) ?_ ?_ c3), ?_⟩
      · rw [← hθ]; exact irr_congr hh.ice2
      · rw [hh.lwc2]; linarith
      · show n.height * (n.lwc + Q / n.height) = n1.height * (n1.lwc + Q / n1.height) + n2.height * n2.lwc
        rw [hh.lwc1, hh.lwc2, mul_add, mul_add, mul_div_cancel₀ _ hn.ne', mul_div_cancel₀ _ h1.ne', ← hh.height]; ring
    · refine ⟨_, _, _, tl', rfl, percolateFrom_over hθ1 (not_le.1 d1) h2.ne' (percolateFrom_keep (hθ2 _) ?_ c3), ?_⟩
      · show n2.lwc + (n1.lwc + Q / n1.height - θ) * n1.height / n2.height ≤ θ
        rw [e1]
        exact hlw2.2 c1'
      · show n.height * (n.lwc + Q / n.height) =
          n1.height * θ + n2.height * (n2.lwc + (n1.lwc + Q / n1.height - θ) * n1.height / n2.height)
        rw [e1, hh.lwc2, mul_add, mul_add, mul_div_cancel₀ _ hn.ne', mul_div_cancel₀ _ h2.ne', ← hh.height]; ring

theorem percolation_drain {g g' : Grid K} {w q : K} (hw : g.WF) (h : percolation g w = .ok (g', q)) :
    ∃ init last, drain w g.nodes = .ok (init ++ [last]) ∧ q = last.lwc * last.height ∧ g'.nodes = init ++ [last.setLwc 0] := by
  obtain ⟨t, r, i, l, n, p, rfl, rfl⟩ := percolation_parts hw h
  exact ⟨i, l, by rw [n]; exact p, rfl, rfl⟩

/-! ### The theorems -/

/-- **C106, one layer.** Dividing a layer that is not the lowest changes neither the runoff nor any other layer, and its two
parts together hold the water it would hold. -/
theorem C106_layer {g1 g2 g1' g2' : Grid K} {w q1 q2 : K} {pre post : List (Node K)} {n n1 n2 p : Node K} (hw1 : g1.WF) (hw2 : g2.WF)
    (hg1 : g1.nodes = pre ++ n :: p :: post) (hg2 : g2.nodes = pre ++ n1 :: n2 :: p :: post) (hh : Halves n n1 n2)
    (hpos : ∀ x ∈ pre, 0 < x.height) (hw : 0 ≤ w)
    (h1 : percolation g1 w = .ok (g1', q1)) (h2 : percolation g2 w = .ok (g2', q2)) :
    q2 = q1 ∧ ∃ pre' m m1 m2 post', pre'.length = pre.length ∧ g1'.nodes = pre' ++ m :: post' ∧
      g2'.nodes = pre' ++ m1 :: m2 :: post' ∧ layerWater m = layerWater m1 + layerWater m2 := by
  obtain ⟨i1, l1, d1, rfl, e1⟩ := percolation_drain hw1 h1
  obtain ⟨i2, l2, d2, rfl, e2⟩ := percolation_drain hw2 h2
  rw [hg1] at d1
  rw [hg2] at d2
  obtain ⟨pre', Q, tl, hQ, hlen, heq, h3, h4⟩ := drain_prefix pre hw hpos d1
  obtain ⟨m, m1, m2, tl', rfl, h5, h6⟩ := drain_halves hh hQ h3
  have h7 := h4 n1 _ _ hh.pos1.ne' h5
  rw [h7] at d2
  have heq2 := ok_inj.1 d2
  have hne : tl' ≠ [] := by
    have := percolateFrom_length h3
    intro h0
    rw [h0] at this
    simp at this
  obtain ⟨t, z, rfl⟩ := (List.eq_nil_or_concat tl').resolve_left hne
  rw [List.concat_eq_append] at heq heq2
  have s1 : i1 ++ [l1] = (pre' ++ m :: t) ++ [z] := by simpa using heq
  have s2 : (pre' ++ m1 :: m2 :: t) ++ [z] = i2 ++ [l2] := by simpa using heq2
  obtain ⟨rfl, s1⟩ := List.append_inj' s1 rfl
  obtain ⟨rfl, s2⟩ := List.append_inj' s2 rfl
  obtain rfl : l1 = z := by simpa using s1
  obtain rfl : l1 = l2 := by simpa using s2
  exact ⟨rfl, pre', m, m1, m2, t ++ [l1.setLwc 0], hlen, by rw [e1]; simp, by rw [e2]; simp, h6⟩

theorem Halves.pos {n n1 n2 : Node K} (h : Halves n n1 n2) : 0 < n.height := by
  rw [← h.height]; exact add_pos h.pos1 h.pos2

theorem Divided.solid {ns ms : List (Node K)} (h : Divided ns ms) (hns : ∀ x ∈ ns, 0 < x.height ∧ x.iceFraction ≠ 0) :
    ∀ x ∈ ms, 0 < x.height ∧ x.iceFraction ≠ 0 := by
  induction h with
  | refl => exact hns
  | @step pre post n n1 n2 p _ hh ih =>
    intro x hx
    simp only [List.mem_append, List.mem_cons] at hx
    have hn := ih n (by simp)
    rcases hx with hx | rfl | rfl | hx
    · exact ih x (by simp [hx])
    · exact ⟨hh.pos1, by rw [hh.ice1]; exact hn.2⟩
    · exact ⟨hh.pos2, by rw [hh.ice2]; exact hn.2⟩
    · exact ih x (by simp [hx])

/-- **C106, any division.** However the layers above the lowest one are divided, runoff and stored water stay the same. -/
theorem C106_runoff {g1 g2 g1' g2' : Grid K} {w q1 q2 : K} (hw1 : g1.WF) (hw2 : g2.WF) (hd : Divided g1.nodes g2.nodes)
    (hpos : ∀ x ∈ g1.nodes, 0 < x.height ∧ x.iceFraction ≠ 0) (hw : 0 ≤ w)
    (h1 : percolation g1 w = .ok (g1', q1)) (h2 : percolation g2 w = .ok (g2', q2)) :
    q2 = q1 ∧ sumWater g2'.nodes = sumWater g1'.nodes := by
  have key : ∀ ms, Divided g1.nodes ms → ∀ (g g' : Grid K) (q : K), g.WF → g.nodes = ms → percolation g w = .ok (g', q) →
      q = q1 ∧ sumWater g'.nodes = sumWater g1'.nodes := by
    intro ms hms
    induction hms with
    | refl =>
      intro g g' q hg hn h
      obtain ⟨i1, l1, d1, rfl, e1⟩ := percolation_drain hw1 h1
      obtain ⟨i2, l2, d2, rfl, e2⟩ := percolation_drain hg h
      rw [hn, d1] at d2
      obtain ⟨rfl, e⟩ := List.append_inj' (ok_inj.1 d2) rfl
      obtain rfl : l1 = l2 := by simpa using e
      exact ⟨rfl, by rw [e1, e2]⟩
    | @step pre post n n1 n2 p hd hh ih =>
      intro g g' q hg hn h
      have hs := hd.solid hpos
      let gm : Grid K := ⟨pre ++ n :: p :: post, (pre ++ n :: p :: post).length, 0, 0, 0⟩
      have hm : gm.WF := rfl
      obtain ⟨⟨gm', qm⟩, hr⟩ := C16_returns w hm (by simp [gm]) fun x hx => ⟨(hs x hx).1.ne', (hs x hx).2⟩
      obtain ⟨i1, i2⟩ := ih gm gm' qm hm rfl hr
      obtain ⟨j1, pre', m, m1, m2, post', _, k1, k2, k3⟩ :=
        C106_layer hm hg rfl hn hh (fun x hx => (hs x (by simp [hx])).1) hw hr h
      refine ⟨j1.trans i1, ?_⟩
      rw [← i2, k1, k2]
      simp only [sumWater, columnSum_append, columnSum_cons]
      unfold layerWater at k3
      rw [k3]; ring
  exact key _ hd g2 g2' q2 hw2 rfl h2

/-- **C106, lowest layer (partial).** The property does not hold there: divided, its upper part keeps what it can hold (at most the
irreducible water), and the runoff is smaller by just that. All other layers are unchanged. -/
theorem C106_lowest_partial {g1 g2 g1' g2' : Grid K} {w q1 q2 : K} {pre : List (Node K)} {n n1 n2 : Node K} (hw1 : g1.WF) (hw2 : g2.WF)
    (hg1 : g1.nodes = pre ++ [n]) (hg2 : g2.nodes = pre ++ [n1, n2]) (hh : Halves n n1 n2)
    (hpos : ∀ x ∈ pre, 0 < x.height) (hw : 0 ≤ w)
    (h1 : percolation g1 w = .ok (g1', q1)) (h2 : percolation g2 w = .ok (g2', q2)) :
    ∃ pre' m m1 m2 θ, pre'.length = pre.length ∧ g1'.nodes = pre' ++ [m] ∧ g2'.nodes = pre' ++ [m1, m2] ∧
      m1.irreducibleWaterContent = .ok θ ∧ m1.lwc ≤ θ ∧ q1 = q2 + layerWater m1 := by
  have c1 := (C16_conserves hw1 h1).1
  have c2 := (C16_conserves hw2 h2).1
  have hsum : sumWater g2.nodes = sumWater g1.nodes := by
    rw [hg1, hg2]
    simp only [sumWater, columnSum_append, columnSum_cons, columnSum_nil, hh.lwc1, hh.lwc2, ← hh.height]
    ring
  obtain ⟨i1, l1, d1, rfl, e1⟩ := percolation_drain hw1 h1
  obtain ⟨i2, l2, d2, rfl, e2⟩ := percolation_drain hw2 h2
  rw [hg1] at d1
  rw [hg2] at d2
  obtain ⟨pre', Q, tl, hQ, hlen, heq, h3, h4⟩ := drain_prefix pre hw hpos d1
  -- what the upper part passes on
  obtain ⟨pre2, Q2, tl2, hQ2, hlen2, heq2, h32, h42⟩ := drain_prefix pre hw hpos d2
  have hz : ∃ z, drain Q2 [n] = .ok [z] := ⟨_, rfl⟩
  obtain ⟨z, hz⟩ := hz
  have h5 := h42 n [] _ hh.pos.ne' hz
  rw [h5] at d1
  obtain ⟨θ, tl3, hθ, hc⟩ := percolateFrom_cons h32
  have hsat : ∃ m1 m2, tl2 = [m1, m2] ∧ m1.irreducibleWaterContent = .ok θ ∧ m1.lwc ≤ θ := by
    rcases hc with ⟨c1, c2, c3, rfl⟩ | ⟨c1, c3, rfl⟩
    · rw [percolateFrom] at c3
      rw [← ok_inj.1 c3]
      exact ⟨_, _, rfl, hθ, le_rfl⟩
    · rw [percolateFrom] at c3
      rw [← ok_inj.1 c3]
      exact ⟨_, _, rfl, hθ, c1⟩
  obtain ⟨m1, m2, rfl, hm1, hm2⟩ := hsat
  obtain ⟨rfl, s1⟩ := List.append_inj' (ok_inj.1 d1) rfl
  have s2 : i2 ++ [l2] = (pre2 ++ [m1]) ++ [m2] := by simpa using heq2
  obtain ⟨rfl, _⟩ := List.append_inj' s2 rfl
  refine ⟨pre2, l1.setLwc 0, m1, l2.setLwc 0, θ, hlen2, e1, by rw [e2]; simp, hm1, hm2, ?_⟩
  rw [e1] at c1
  rw [e2] at c2
  simp only [sumWater, columnSum_append, columnSum_cons, columnSum_nil, Node.setLwc] at c1 c2
  unfold sumWater at hsum
  unfold layerWater
  linear_combination c1 - c2 - hsum

end

/-- Two layers of wet snow on firn. -/
def exWhole : Grid ℚ := ⟨[⟨1/10, 273, 1/100, 3/10, 0⟩, ⟨2/10, 273, 1/10, 1/2, 0⟩, ⟨1, 270, 0, 1/2, 0⟩], 3, 1/10, 0, 0⟩
/-- The same with the middle layer divided. -/
def exHalved : Grid ℚ :=
  ⟨[⟨1/10, 273, 1/100, 3/10, 0⟩, ⟨1/20, 273, 1/10, 1/2, 0⟩, ⟨3/20, 273, 1/10, 1/2, 0⟩, ⟨1, 270, 0, 1/2, 0⟩], 4, 1/10, 0, 0⟩
/-- The same with the lowest layer divided. -/
def exHalvedLow : Grid ℚ :=
  ⟨[⟨1/10, 273, 1/100, 3/10, 0⟩, ⟨2/10, 273, 1/10, 1/2, 0⟩, ⟨1/2, 270, 0, 1/2, 0⟩, ⟨1/2, 270, 0, 1/2, 0⟩], 4, 1/10, 0, 0⟩

theorem exHalved_divided : Divided exWhole.nodes exHalved.nodes := by
  refine Divided.step (pre := [⟨1/10, 273, 1/100, 3/10, 0⟩]) (post := []) (n := ⟨2/10, 273, 1/10, 1/2, 0⟩) .refl ?_
  constructor <;> norm_num

-- The hypotheses hold, water runs off, and both calls succeed.
example : exWhole.WF ∧ exHalved.WF ∧ Divided exWhole.nodes exHalved.nodes ∧ (∀ x ∈ exWhole.nodes, 0 < x.height ∧ x.iceFraction ≠ 0) ∧
    ((percolation exWhole (1/50)).toOption.map fun r => decide (0 < r.2)) = some true ∧
    (percolation exHalved (1/50)).toOption.isSome = true := by
  refine ⟨by unfold Grid.WF; decide +kernel, by unfold Grid.WF; decide +kernel, exHalved_divided, by decide +kernel, by decide +kernel, by decide +kernel⟩

/-- **C106, refuted for the lowest layer.** Two descriptions of the same column, one with the lowest layer divided in two equal
parts, have different runoff. -/
theorem C106_refuted : ¬ ∀ (g1 g2 g1' g2' : Grid ℚ) (w q1 q2 : ℚ) (pre : List (Node ℚ)) (n n1 n2 : Node ℚ), g1.WF → g2.WF →
    g1.nodes = pre ++ [n] → g2.nodes = pre ++ [n1, n2] → Halves n n1 n2 → (∀ x ∈ g1.nodes, 0 < x.height ∧ x.iceFraction ≠ 0) → 0 ≤ w →
    percolation g1 w = .ok (g1', q1) → percolation g2 w = .ok (g2', q2) → q2 = q1 := by
  intro h
  have hne : (percolation exHalvedLow (1/50)).toOption.map Prod.snd ≠ (percolation exWhole (1/50)).toOption.map Prod.snd ∧
      (percolation exHalvedLow (1/50)).toOption.isSome = true ∧ (percolation exWhole (1/50)).toOption.isSome = true := by decide +kernel
  rcases h1 : percolation exWhole (1/50) with e | ⟨g1', q1⟩
  · rw [h1] at hne; simp [Except.toOption] at hne
  rcases h2 : percolation exHalvedLow (1/50) with e | ⟨g2', q2⟩
  · rw [h2] at hne; simp [Except.toOption] at hne
  have := h exWhole exHalvedLow g1' g2' (1/50) q1 q2 [⟨1/10, 273, 1/100, 3/10, 0⟩, ⟨2/10, 273, 1/10, 1/2, 0⟩] ⟨1, 270, 0, 1/2, 0⟩
    ⟨1/2, 270, 0, 1/2, 0⟩ ⟨1/2, 270, 0, 1/2, 0⟩ (by unfold Grid.WF; decide +kernel) (by unfold Grid.WF; decide +kernel) rfl rfl
    (by constructor <;> norm_num) (by decide +kernel) (by norm_num) h1 h2
  rw [h1, h2, this] at hne
  exact hne.1 rfl

-- The hypotheses of the statement about the lowest layer hold for these two columns.
example : exWhole.WF ∧ exHalvedLow.WF ∧ (percolation exHalvedLow (1/50)).toOption.isSome = true ∧
    Halves (⟨1, 270, 0, 1/2, 0⟩ : Node ℚ) ⟨1/2, 270, 0, 1/2, 0⟩ ⟨1/2, 270, 0, 1/2, 0⟩ :=
  ⟨by unfold Grid.WF; decide +kernel, by unfold Grid.WF; decide +kernel, by decide +kernel, by constructor <;> norm_num⟩

end Cosipy
