import Verif.Props.C16
import Verif.Props.C81

/-!
# C105 More water never means less runoff

Two columns with the same layers, of which one holds at least as much liquid water in every layer and gets at least as much
water from above: its runoff is not smaller, in rounded arithmetic (`C105_runoff`, with double precision as a case:
`C105_binary64`). In exact arithmetic no layer ends with less water either, and the runoff grows by no more than the water that
was added (`C105_stored`).
-/

set_option autoImplicit false
set_option linter.unusedSectionVars false

namespace Cosipy

/-- The second layer is the first one with the same or more liquid water; only height, ice and water matter. -/
structure Wetter {α : Type} [LE α] (a b : Node α) : Prop where
  height : b.height = a.height
  ice : b.iceFraction = a.iceFraction
  water : a.lwc ≤ b.lwc

theorem Wetter.set {α : Type} [LE α] {a b : Node α} (h : Wetter a b) {x y : α} (hxy : x ≤ y) : Wetter (a.setLwc x) (b.setLwc y) :=
  ⟨h.height, h.ice, hxy⟩

theorem Wetter.right {α : Type} [LE α] {a b : Node α} (h : Wetter a b) {y : α} (hy : a.lwc ≤ y) : Wetter a (b.setLwc y) :=
  ⟨h.height, h.ice, hy⟩

section
variable {α : Type} [LinearOrder α] [Zero α] [One α] [Add α] [Sub α] [Mul α] [Div α] [Neg α] [NatCast α] [OfScientific α] [Rounded α]

theorem irr_congr {a b : Node α} (h : b.iceFraction = a.iceFraction) : b.irreducibleWaterContent = a.irreducibleWaterContent := by
  unfold Node.irreducibleWaterContent; rw [h]

theorem pyMax_zero (x : α) : pyMax x 0 = max x 0 := by
  unfold pyMax
  rcases lt_trichotomy x 0 with h | h | h
  · rw [if_pos h, max_eq_right h.le]
  · subst h; simp
  · rw [if_neg (not_lt.2 h.le), max_eq_left h.le]

/-- What leaves the traversal at its end is monotone. -/
theorem percolateFrom_last : ∀ (rest rest' : List (Node α)) {a a' : Node α} {init init' : List (Node α)} {last last' : Node α},
    (∀ n ∈ a :: rest, 0 ≤ n.height) → List.Forall₂ Wetter (a :: rest) (a' :: rest') →
    percolateFrom a rest = .ok (init ++ [last]) → percolateFrom a' rest' = .ok (init' ++ [last']) → Wetter last last' := by
  intro rest
  induction rest with
  | nil =>
    intro rest' a a' init init' last last' _ hf h h'
    cases hf with
    | cons h1 h2 =>
      cases h2
      rw [percolateFrom] at h h'
      have e1 := ok_inj.1 h
      have e2 := ok_inj.1 h'
      cases init with
      | cons x l => simp at e1
      | nil =>
        cases init' with
        | cons x l => simp at e2
        | nil =>
          simp only [List.nil_append, List.cons.injEq, and_true] at e1 e2
          rw [← e1, ← e2]; exact h1
  | cons b rest ih =>
    intro rest' a a' init init' last last' hpos hf h h'
    cases hf with
    | cons h1 h2 =>
      cases h2 with
      | @cons _ b' _ rest' hb hr =>
        have ha0 := hpos a (by simp)
        have hb0 := hpos b (by simp)
        have hpos' : ∀ (x : Node α), x.height = b.height → ∀ n ∈ x :: rest, 0 ≤ n.height := by
          intro x hx n hn
          rcases List.mem_cons.1 hn with rfl | hn
          · rw [hx]; exact hb0
          · exact hpos n (by simp [hn])
        rw [percolateFrom, bind_eq_ok] at h h'
        obtain ⟨θ, hθ, h⟩ := h
        obtain ⟨θ', hθ', h'⟩ := h'
        have : θ' = θ := by rw [irr_congr h1.ice, hθ] at hθ'; exact (ok_inj.1 hθ').symm
        subst this
        simp only [pyMax_zero] at h h'
        have hres : max (a.lwc - θ') 0 ≤ max (a'.lwc - θ') 0 := max_le_max (Rounded.sub_mono h1.water le_rfl) le_rfl
        -- drop the first layer of both results
        have tail : ∀ {x : Node α} {tl init : List (Node α)} {last : Node α}, x :: tl = init ++ [last] → tl ≠ [] →
            ∃ i, tl = i ++ [last] := by
          intro x tl init last e hne
          cases init with
          | nil => simp at e; exact absurd e.2 hne
          | cons y i => simp at e; exact ⟨i, e.2⟩
        have nonempty : ∀ {x : Node α} {l tl : List (Node α)}, percolateFrom x l = .ok tl → tl ≠ [] := by
          intro x l tl hx h0
          have := percolateFrom_length hx
          rw [h0] at this
          simp at this
        by_cases hp : 0 < max (a.lwc - θ') 0
        · rw [if_pos hp] at h
          rw [if_pos (hp.trans_le hres)] at h'
          simp only [bind_eq_ok] at h h'
          obtain ⟨q, hq, tl, htl, h⟩ := h
          obtain ⟨q', hq', tl', htl', h'⟩ := h'
          rw [pure_eq_ok] at h h'
          obtain ⟨i, rfl⟩ := tail h (nonempty htl)
          obtain ⟨i', rfl⟩ := tail h' (nonempty htl')
          have hq := fdiv_ok hq
          have hq' := fdiv_ok hq'
          have hqq : q ≤ q' := by
            rw [hq, hq', hb.height, h1.height]
            exact Rounded.div_mono hb0 (Rounded.mul_mono_right ha0 hres)
          exact ih rest' (hpos' (b.setLwc (b.lwc + q)) rfl) (.cons (hb.set (Rounded.add_mono hb.water hqq)) hr) htl htl'
        · rw [if_neg hp] at h
          simp only [bind_eq_ok] at h
          obtain ⟨tl, htl, h⟩ := h
          rw [pure_eq_ok] at h
          obtain ⟨i, rfl⟩ := tail h (nonempty htl)
          by_cases hp' : 0 < max (a'.lwc - θ') 0
          · rw [if_pos hp'] at h'
            simp only [bind_eq_ok] at h'
            obtain ⟨q', hq', tl', htl', h'⟩ := h'
            rw [pure_eq_ok] at h'
            obtain ⟨i', rfl⟩ := tail h' (nonempty htl')
            have hq' := fdiv_ok hq'
            have hqq : 0 ≤ q' := by
              rw [hq', hb.height, h1.height]
              exact Rounded.div_nonneg (Rounded.mul_nonneg hp'.le ha0) hb0
            refine ih rest' (hpos' _ rfl) (.cons (hb.right ?_) hr) htl htl'
            have := Rounded.add_mono hb.water hqq
            rwa [Rounded.add_zero] at this
          · rw [if_neg hp'] at h'
            simp only [bind_eq_ok] at h'
            obtain ⟨tl', htl', h'⟩ := h'
            rw [pure_eq_ok] at h'
            obtain ⟨i', rfl⟩ := tail h' (nonempty htl')
            exact ih rest' (hpos' _ rfl) (.cons hb hr) htl htl'

/-- The pieces of a successful call, for every number type. -/
theorem percolation_parts {g g' : Grid α} {w q : α} (hw : g.WF) (h : percolation g w = .ok (g', q)) :
    ∃ top rest init last, g.nodes = top :: rest ∧
      percolateFrom (top.setLwc (top.lwc + w / top.height)) rest = .ok (init ++ [last]) ∧
      q = last.lwc * last.height ∧ g' = { g with nodes := init ++ [last.setLwc 0] } := by
  obtain ⟨top, ns, qq, e1, e2, e3, e4, e5⟩ := percolation_ok h
  obtain ⟨k, n, k1, k2, k3⟩ := getRunoff_ok e5
  have e3 := fdiv_ok e3
  cases hn : g.nodes with
  | nil => rw [hn] at e2; simp at e2
  | cons t rest =>
    rw [hn] at e2 e4
    simp only [List.getElem?_cons_zero, Option.some.injEq] at e2
    subst e2
    simp only [List.modify_zero_cons] at e4
    have e4' : percolateFrom (t.setLwc (t.lwc + qq)) rest = .ok ns := e4
    have hlen := percolateFrom_length e4'
    obtain ⟨init, last, rfl⟩ : ∃ init last, ns = init ++ [last] := by
      refine ⟨ns.dropLast, ns.getLast (by intro h0; rw [h0] at hlen; simp at hlen), ?_⟩
      exact (List.dropLast_append_getLast _).symm
    have hk : k = init.length := by
      have hnn : g.numberNodes = (init.length : Int) + 1 := by
        rw [hw, hn]; simp at hlen ⊢; omega
      simp only [hnn] at k1
      have := normIdx_eq_some_nonneg (by omega) k1
      omega
    subst hk
    simp only [List.getElem?_concat_length, Option.some.injEq] at k2
    subst k2
    simp only [Prod.mk.injEq] at k3
    refine ⟨t, rest, init, last, rfl, by rw [← e3]; exact e4', k3.2, ?_⟩
    rw [k3.1, modify_pre]

/-- **C105, runoff.** In rounded arithmetic: a column with at least as much liquid water in every layer that gets at least as much
water from above has at least the same runoff. -/
theorem C105_runoff {g1 g2 g1' g2' : Grid α} {w1 w2 q1 q2 : α} (hw1 : g1.WF) (hw2 : g2.WF)
    (hpos : ∀ n ∈ g1.nodes, 0 ≤ n.height) (hwet : List.Forall₂ Wetter g1.nodes g2.nodes) (hw : w1 ≤ w2)
    (h1 : percolation g1 w1 = .ok (g1', q1)) (h2 : percolation g2 w2 = .ok (g2', q2)) : q1 ≤ q2 := by
  obtain ⟨t1, r1, i1, l1, n1, p1, rfl, rfl⟩ := percolation_parts hw1 h1
  obtain ⟨t2, r2, i2, l2, n2, p2, rfl, rfl⟩ := percolation_parts hw2 h2
  rw [n1, n2] at hwet
  rw [n1] at hpos
  cases hwet with
  | cons ht hr =>
    have h0 := hpos t1 (by simp)
    have hd : w1 / t1.height ≤ w2 / t2.height := by rw [ht.height]; exact Rounded.div_mono h0 hw
    have hl := percolateFrom_last r1 r2 (by
      intro n hn
      rcases List.mem_cons.1 hn with rfl | hn
      · exact h0
      · exact hpos n (by simp [hn])) (.cons (ht.set (Rounded.add_mono ht.water hd)) hr) p1 p2
    have hlast : 0 ≤ l1.height := by
      have hh : ∀ (l : List (Node α)) (a : Node α) (ms : List (Node α)), (∀ n ∈ a :: l, 0 ≤ n.height) → percolateFrom a l = .ok ms →
          ∀ n ∈ ms, 0 ≤ n.height := by
        intro l
        induction l with
        | nil => intro a ms hp h; rw [percolateFrom] at h; cases h; simpa using hp
        | cons b l ih =>
          intro a ms hp h
          rw [percolateFrom, bind_eq_ok] at h
          obtain ⟨θ, _, h⟩ := h
          simp only at h
          split_ifs at h
          · simp only [bind_eq_ok] at h
            obtain ⟨q, _, tl, htl, h⟩ := h
            rw [pure_eq_ok] at h; subst h
            have := ih _ _ (by
              intro n hn
              rcases List.mem_cons.1 hn with rfl | hn
              · exact hp b (by simp)
              · exact hp n (by simp [hn])) htl
            intro n hn
            rcases List.mem_cons.1 hn with rfl | hn
            · exact hp a (by simp)
            · exact this n hn
          · simp only [bind_eq_ok] at h
            obtain ⟨tl, htl, h⟩ := h
            rw [pure_eq_ok] at h; subst h
            have := ih _ _ (fun n hn => hp n (by simp at hn ⊢; tauto)) htl
            intro n hn
            rcases List.mem_cons.1 hn with rfl | hn
            · exact hp n (by simp)
            · exact this n hn
      exact hh r1 _ _ (by
        intro n hn
        rcases List.mem_cons.1 hn with rfl | hn
        · exact h0
        · exact hpos n (by simp [hn])) p1 l1 (by simp)
    rw [hl.height]
    exact Rounded.mul_mono_right hlast hl.water

end

/-- **C105 in double precision.** -/
theorem C105_binary64 {K : Type} [Field K] [LinearOrder K] [IsStrictOrderedRing K] [FloorRing K]
    {g1 g2 g1' g2' : Grid (Fl (binary64 K))} {w1 w2 q1 q2 : Fl (binary64 K)} (hw1 : g1.WF) (hw2 : g2.WF)
    (hpos : ∀ n ∈ g1.nodes, 0 ≤ n.height) (hwet : List.Forall₂ Wetter g1.nodes g2.nodes) (hw : w1 ≤ w2)
    (h1 : percolation g1 w1 = .ok (g1', q1)) (h2 : percolation g2 w2 = .ok (g2', q2)) : q1 ≤ q2 :=
  C105_runoff hw1 hw2 hpos hwet hw h1 h2

/-- The column of C81 with every layer a little wetter. -/
def exGridDWet : Grid D := { exGridD with nodes := exGridD.nodes.map fun n => n.setLwc (n.lwc + 0.01) }

-- In double precision: two columns, the second wetter in every layer and with more water from above, both drained.
example : exGridD.WF ∧ exGridDWet.WF ∧ (∀ n ∈ exGridD.nodes, 0 ≤ n.height) ∧
    (exGridD.nodes.zip exGridDWet.nodes).all (fun p => decide (p.2.height = p.1.height ∧ p.2.iceFraction = p.1.iceFraction ∧ p.1.lwc < p.2.lwc)) = true ∧
    ((percolation exGridD 0.01).toOption.bind fun a => (percolation exGridDWet 0.02).toOption.map fun b => decide (a.2 < b.2)) = some true := by
  unfold Grid.WF; decide +kernel

section
variable {K : Type} [Field K] [LinearOrder K] [IsStrictOrderedRing K]

/-- Every layer of the traversal is monotone, exactly. -/
theorem percolateFrom_wetter : ∀ (rest rest' : List (Node K)) {a a' : Node K} {ms ms' : List (Node K)},
    (∀ n ∈ a :: rest, 0 ≤ n.height) → List.Forall₂ Wetter (a :: rest) (a' :: rest') →
    percolateFrom a rest = .ok ms → percolateFrom a' rest' = .ok ms' → List.Forall₂ Wetter ms ms' := by
  intro rest
  induction rest with
  | nil =>
    intro rest' a a' ms ms' _ hf h h'
    cases hf with
    | cons h1 h2 =>
      cases h2
      rw [percolateFrom] at h h'
      rw [← ok_inj.1 h, ← ok_inj.1 h']
      exact .cons h1 .nil
  | cons b rest ih =>
    intro rest' a a' ms ms' hpos hf h h'
    cases hf with
    | cons h1 h2 =>
      cases h2 with
      | @cons _ b' _ rest' hb hr =>
        have ha0 := hpos a (by simp)
        have hb0 := hpos b (by simp)
        have hpos' : ∀ (x : Node K), x.height = b.height → ∀ n ∈ x :: rest, 0 ≤ n.height := by
          intro x hx n hn
          rcases List.mem_cons.1 hn with rfl | hn
          · rw [hx]; exact hb0
          · exact hpos n (by simp [hn])
        obtain ⟨θ, tl, hθ, hc⟩ := percolateFrom_cons h
        obtain ⟨θ', tl', hθ', hc'⟩ := percolateFrom_cons h'
        have : θ' = θ := by rw [irr_congr h1.ice, hθ] at hθ'; exact (ok_inj.1 hθ').symm
        subst this
        rcases hc with ⟨c1, c2, c3, rfl⟩ | ⟨c1, c3, rfl⟩ <;> rcases hc' with ⟨d1, d2, d3, rfl⟩ | ⟨d1, d3, rfl⟩
        · refine .cons (h1.set le_rfl) (ih rest' (hpos' (b.setLwc (b.lwc + (a.lwc - θ') * a.height / b.height)) rfl) (.cons (hb.set ?_) hr) c3 d3)
          show b.lwc + _ ≤ b'.lwc + _
          rw [hb.height, h1.height]
          have := h1.water
          have : (a.lwc - θ') * a.height / b.height ≤ (a'.lwc - θ') * a.height / b.height :=
            div_le_div_of_nonneg_right (mul_le_mul_of_nonneg_right (by linarith) ha0) hb0
          exact add_le_add hb.water this
        · exact absurd (c1.trans_le h1.water) (not_lt.2 d1)
        · refine .cons (h1.right c1) (ih rest' (hpos' _ rfl) (.cons (hb.right ?_) hr) c3 d3)
          show b.lwc ≤ b'.lwc + _
          rw [hb.height, h1.height]
          have : 0 ≤ (a'.lwc - θ') * a.height / b.height := div_nonneg (mul_nonneg (by linarith) ha0) hb0
          have := hb.water
          linarith
        · exact .cons h1 (ih rest' (hpos' _ rfl) (.cons hb hr) c3 d3)

theorem sumWater_wetter {ns ms : List (Node K)} (hpos : ∀ n ∈ ns, 0 ≤ n.height) (h : List.Forall₂ Wetter ns ms) :
    sumWater ns ≤ sumWater ms := by
  induction h with
  | nil => exact le_rfl
  | @cons a b l l' hab _ ih =>
    have := ih fun n hn => hpos n (by simp [hn])
    unfold sumWater at this ⊢
    rw [columnSum_cons, columnSum_cons, hab.height]
    exact add_le_add (mul_le_mul_of_nonneg_left hab.water (hpos a (by simp))) this

/-- **C105, exactly.** No layer ends with less water, the runoff is not smaller, and it grows by no more than the water
that was added. -/
theorem C105_stored {g1 g2 g1' g2' : Grid K} {w1 w2 q1 q2 : K} (hw1 : g1.WF) (hw2 : g2.WF)
    (hpos : ∀ n ∈ g1.nodes, 0 ≤ n.height) (hwet : List.Forall₂ Wetter g1.nodes g2.nodes) (hw : w1 ≤ w2)
    (h1 : percolation g1 w1 = .ok (g1', q1)) (h2 : percolation g2 w2 = .ok (g2', q2)) :
    List.Forall₂ Wetter g1'.nodes g2'.nodes ∧ q1 ≤ q2 ∧
    q2 - q1 ≤ (w2 - w1) + (sumWater g2.nodes - sumWater g1.nodes) := by
  have hq := C105_runoff hw1 hw2 hpos hwet hw h1 h2
  have c1 := (C16_conserves hw1 h1).1
  have c2 := (C16_conserves hw2 h2).1
  have d1 := (C16_conserves hw1 h1).2.1
  obtain ⟨t1, r1, i1, l1, n1, _, p1, e1, rfl⟩ := percolation_pieces hw1 h1
  obtain ⟨t2, r2, i2, l2, n2, _, p2, e2, rfl⟩ := percolation_pieces hw2 h2
  have hwet' := hwet
  have hpos' := hpos
  rw [n1, n2] at hwet
  rw [n1] at hpos
  cases hwet with
  | cons ht hr =>
    have h0 := hpos t1 (by simp)
    have hd : w1 / t1.height ≤ w2 / t2.height := by rw [ht.height]; exact div_le_div_of_nonneg_right hw h0
    have hall := percolateFrom_wetter r1 r2 (by
      intro n hn
      rcases List.mem_cons.1 hn with rfl | hn
      · exact h0
      · exact hpos n (by simp [hn])) (.cons (ht.set (add_le_add ht.water hd)) hr) p1 p2
    have hlen : i1.length = i2.length := by
      have := hall.length_eq
      simpa using this
    have hsplit : List.Forall₂ Wetter i1 i2 ∧ Wetter l1 l2 := by
      have key : ∀ (i1 i2 : List (Node K)), i1.length = i2.length → List.Forall₂ Wetter (i1 ++ [l1]) (i2 ++ [l2]) →
          List.Forall₂ Wetter i1 i2 ∧ Wetter l1 l2 := by
        intro i1
        induction i1 with
        | nil =>
          intro i2 hl hf
          cases i2 with
          | nil => cases hf with | cons a _ => exact ⟨.nil, a⟩
          | cons x l => simp at hl
        | cons x l ih =>
          intro i2 hl hf
          cases i2 with
          | nil => simp at hl
          | cons y l' =>
            cases hf with
            | cons a b =>
              obtain ⟨b1, b2⟩ := ih l' (by simpa using hl) b
              exact ⟨.cons a b1, b2⟩
      exact key i1 i2 hlen hall
    have hres : List.Forall₂ Wetter (i1 ++ [l1.setLwc 0]) (i2 ++ [l2.setLwc 0]) :=
      List.rel_append hsplit.1 (.cons (hsplit.2.set le_rfl) .nil)
    refine ⟨hres, hq, ?_⟩
    have hh : ∀ n ∈ i1 ++ [l1.setLwc 0], 0 ≤ n.height := by
      intro n hn
      have hm : n.dryPart ∈ g1.nodes.map Node.dryPart := d1 ▸ List.mem_map_of_mem hn
      obtain ⟨m, hm, e⟩ := List.mem_map.1 hm
      simp only [Node.dryPart, Prod.mk.injEq] at e
      rw [← e.1]
      exact hpos' m hm
    have := sumWater_wetter hh hres
    simp only at c1 c2
    linarith

end

/-- Wet snow over ice. -/
def exDrain : Grid ℚ :=
  ⟨[⟨1/10, 273, 1/100, 3/10, 0⟩, ⟨1/10, 273, 1/10, 1/2, 0⟩, ⟨1, 270, 0, 1, 0⟩], 3, 1/10, 0, 0⟩

-- Exactly: a column with more water in every layer, and more water from above.
example : exDrain.WF ∧ (∀ n ∈ exDrain.nodes, 0 ≤ n.height) ∧
    (percolation exDrain (1/100)).toOption.isSome = true ∧
    (percolation { exDrain with nodes := exDrain.nodes.map fun n => n.setLwc (n.lwc + 1/50) } (1/50)).toOption.isSome = true ∧
    ((percolation exDrain (1/100)).toOption.bind fun a =>
      (percolation { exDrain with nodes := exDrain.nodes.map fun n => n.setLwc (n.lwc + 1/50) } (1/50)).toOption.map fun b =>
        decide (a.2 < b.2)) = some true := by
  unfold Grid.WF; decide +kernel

end Cosipy
