import Verif.Lemmas.Closed

/-! Percolation as a traversal: conservation, saturation, sign. -/

set_option autoImplicit false
set_option linter.unusedSectionVars false

namespace Cosipy
section
variable {K : Type} [Field K] [LinearOrder K] [IsStrictOrderedRing K]

/-- One layer of the traversal. -/
theorem percolateFrom_cons {a b : Node K} {rest ms : List (Node K)} (h : percolateFrom a (b :: rest) = .ok ms) :
    ∃ θ tl, a.irreducibleWaterContent = .ok θ ∧
      ((θ < a.lwc ∧ b.height ≠ 0 ∧ percolateFrom (b.setLwc (b.lwc + (a.lwc - θ) * a.height / b.height)) rest = .ok tl ∧
          ms = a.setLwc θ :: tl) ∨
       (a.lwc ≤ θ ∧ percolateFrom b rest = .ok tl ∧ ms = a :: tl)) := by
  rw [percolateFrom, bind_eq_ok] at h
  obtain ⟨θ, hθ, h⟩ := h
  simp only at h
  have hiff : (0 < pyMax (a.lwc - θ) 0) ↔ θ < a.lwc := by
    rw [pyMax_eq, lt_max_iff]; simp
  by_cases hlt : θ < a.lwc
  · rw [if_pos (hiff.2 hlt)] at h
    simp only [bind_eq_ok] at h
    obtain ⟨q, hq, tl, htl, h⟩ := h
    rw [pure_eq_ok] at h
    rw [fdiv_eq_ok] at hq
    have hmax : pyMax (a.lwc - θ) 0 = a.lwc - θ := by
      rw [pyMax_eq]; exact max_eq_left (by linarith)
    rw [hmax] at hq
    refine ⟨θ, tl, hθ, .inl ⟨hlt, hq.1, ?_, h.symm⟩⟩
    rw [← hq.2]; exact htl
  · rw [if_neg (fun h => hlt (hiff.1 h))] at h
    simp only [bind_eq_ok] at h
    obtain ⟨tl, htl, h⟩ := h
    rw [pure_eq_ok] at h
    exact ⟨θ, tl, hθ, .inr ⟨not_lt.1 hlt, htl, h.symm⟩⟩

theorem percolateFrom_conserves : ∀ (rest : List (Node K)) {a : Node K} {ms : List (Node K)},
    percolateFrom a rest = .ok ms → sumWater ms = sumWater (a :: rest) ∧
      ms.map Node.dryPart = (a :: rest).map Node.dryPart := by
  intro rest
  induction rest with
  | nil => intro a ms h; rw [percolateFrom] at h; cases h; exact ⟨rfl, rfl⟩
  | cons b rest ih =>
    intro a ms h
    obtain ⟨θ, tl, _, ⟨_, hb, htl, rfl⟩ | ⟨_, htl, rfl⟩⟩ := percolateFrom_cons h
    · obtain ⟨i1, i2⟩ := ih htl
      refine ⟨?_, by rw [List.map_cons, i2]; rfl⟩
      unfold sumWater at i1 ⊢
      rw [columnSum_cons, i1]
      simp only [columnSum_cons, Node.setLwc]
      field_simp
      ring
    · obtain ⟨i1, i2⟩ := ih htl
      refine ⟨?_, by rw [List.map_cons, i2]; rfl⟩
      unfold sumWater at i1 ⊢; rw [columnSum_cons, i1]; simp

/-- Every layer but the last is at most saturated afterwards. -/
theorem percolateFrom_saturated : ∀ (rest : List (Node K)) {a : Node K} {ms : List (Node K)},
    percolateFrom a rest = .ok ms → ∀ n ∈ ms.dropLast, ∃ θ, n.irreducibleWaterContent = .ok θ ∧ n.lwc ≤ θ := by
  intro rest
  induction rest with
  | nil => intro a ms h; rw [percolateFrom] at h; cases h; simp
  | cons b rest ih =>
    intro a ms h n hn
    obtain ⟨θ, tl, hθ, ⟨_, hb, htl, rfl⟩ | ⟨hle, htl, rfl⟩⟩ := percolateFrom_cons h
    · have hne : tl ≠ [] := by
        intro h0; have := percolateFrom_length htl; rw [h0] at this; simp at this
      rw [List.dropLast_cons_of_ne_nil hne] at hn
      rcases List.mem_cons.1 hn with rfl | hn
      · exact ⟨θ, hθ, le_rfl⟩
      · exact ih htl n hn
    · have hne : tl ≠ [] := by
        intro h0; have := percolateFrom_length htl; rw [h0] at this; simp at this
      rw [List.dropLast_cons_of_ne_nil hne] at hn
      rcases List.mem_cons.1 hn with rfl | hn
      · exact ⟨θ, hθ, hle⟩
      · exact ih htl n hn

/-- Water only flows down, and only out of saturated layers. -/
theorem percolateFrom_flux : ∀ (rest : List (Node K)) {a : Node K} {ms : List (Node K)},
    percolateFrom a rest = .ok ms → (∀ n ∈ a :: rest, 0 < n.height) →
    ∀ {up : List (Node K)} {x : Node K} {down up' : List (Node K)} {y : Node K} {down' : List (Node K)},
      a :: rest = up ++ x :: down → ms = up' ++ y :: down' → up.length = up'.length → down ≠ [] →
      sumWater (up' ++ [y]) ≤ sumWater (up ++ [x]) ∧
      (sumWater (up' ++ [y]) < sumWater (up ++ [x]) → y.irreducibleWaterContent = .ok y.lwc) := by
  intro rest
  induction rest with
  | nil =>
    intro a ms h _ up x down up' y down' e1 _ _ hd
    cases up with
    | nil => simp at e1; exact absurd e1.2.symm (by simpa using hd)
    | cons u up => simp at e1
  | cons b rest ih =>
    intro a ms h hpos up x down up' y down' e1 e2 hlen hd
    obtain ⟨θ, tl, hθ, hcase⟩ := percolateFrom_cons h
    cases up with
    | nil =>
      cases up' with
      | cons u up' => simp at hlen
      | nil =>
        simp only [List.nil_append, List.cons.injEq] at e1
        obtain ⟨rfl, rfl⟩ := e1
        rcases hcase with ⟨hlt, _, _, rfl⟩ | ⟨_, _, rfl⟩
        · simp only [List.nil_append, List.cons.injEq] at e2
          obtain ⟨rfl, _⟩ := e2
          refine ⟨?_, fun _ => hθ⟩
          simp only [sumWater, List.nil_append, columnSum_cons, columnSum_nil, add_zero, Node.setLwc]
          exact mul_le_mul_of_nonneg_left hlt.le (hpos a (by simp)).le
        · simp only [List.nil_append, List.cons.injEq] at e2
          obtain ⟨rfl, _⟩ := e2
          exact ⟨le_rfl, fun h => absurd h (lt_irrefl _)⟩
    | cons u up =>
      cases up' with
      | nil => simp at hlen
      | cons u' up' =>
        simp only [List.cons_append, List.cons.injEq] at e1
        obtain ⟨rfl, e1⟩ := e1
        rcases hcase with ⟨hlt, hb, htl, rfl⟩ | ⟨_, htl, rfl⟩
        · simp only [List.cons_append, List.cons.injEq] at e2
          obtain ⟨rfl, rfl⟩ := e2
          cases up with
          | nil =>
            simp only [List.nil_append, List.cons.injEq] at e1
            obtain ⟨rfl, rfl⟩ := e1
            have := ih htl (fun n hn => by
              rcases List.mem_cons.1 hn with rfl | hn
              · exact hpos b (by simp)
              · exact hpos n (by simp [hn])) (up := []) rfl rfl (by simp at hlen ⊢; simp [hlen]) hd
            simp only [sumWater, List.nil_append, List.cons_append, columnSum_cons, columnSum_nil, add_zero, Node.setLwc] at this ⊢
            rw [mul_add, mul_div_cancel₀ _ hb] at this
            have e : a.height * θ + (b.height * b.lwc + (a.lwc - θ) * a.height) = a.height * a.lwc + b.height * b.lwc := by ring
            exact ⟨by linarith [this.1], fun h => this.2 (by linarith)⟩
          | cons v up =>
            simp only [List.cons_append, List.cons.injEq] at e1
            obtain ⟨rfl, rfl⟩ := e1
            have := ih htl (fun n hn => by
              rcases List.mem_cons.1 hn with rfl | hn
              · exact hpos b (by simp)
              · exact hpos n (by simp [hn])) (up := b.setLwc (b.lwc + (a.lwc - θ) * a.height / b.height) :: up)
              rfl rfl (by simpa using hlen) hd
            simp only [sumWater, List.cons_append, columnSum_cons, Node.setLwc] at this ⊢
            rw [mul_add, mul_div_cancel₀ _ hb] at this
            exact ⟨by linarith [this.1], fun h => this.2 (by linarith)⟩
        · simp only [List.cons_append, List.cons.injEq] at e2
          obtain ⟨rfl, rfl⟩ := e2
          have := ih htl (fun n hn => hpos n (by simp at hn ⊢; tauto)) e1 rfl (by simpa using hlen) hd
          simp only [sumWater, List.cons_append, columnSum_cons] at this ⊢
          exact ⟨by linarith [this.1], fun h => this.2 (by linarith)⟩

theorem percolateFrom_nonneg : ∀ (rest : List (Node K)) {a : Node K} {ms : List (Node K)},
    percolateFrom a rest = .ok ms → (∀ n ∈ a :: rest, 0 < n.height ∧ 0 < n.iceFraction ∧ 0 ≤ n.lwc) →
    ∀ n ∈ ms, 0 < n.height ∧ 0 < n.iceFraction ∧ 0 ≤ n.lwc := by
  intro rest
  induction rest with
  | nil => intro a ms h; rw [percolateFrom] at h; cases h; exact id
  | cons b rest ih =>
    intro a ms h hpos n hn
    have ha := hpos a (by simp)
    have hb := hpos b (by simp)
    obtain ⟨θ, tl, hθ, ⟨hlt, _, htl, rfl⟩ | ⟨_, htl, rfl⟩⟩ := percolateFrom_cons h
    · rcases List.mem_cons.1 hn with rfl | hn
      · exact ⟨ha.1, ha.2.1, irr_nonneg ha.2.1 hθ⟩
      · refine ih htl (fun n hn => ?_) n hn
        rcases List.mem_cons.1 hn with rfl | hn
        · refine ⟨hb.1, hb.2.1, ?_⟩
          have : 0 ≤ (a.lwc - θ) * a.height / b.height := div_nonneg (mul_nonneg (by linarith) ha.1.le) hb.1.le
          show 0 ≤ b.lwc + _
          linarith [hb.2.2]
        · exact hpos n (by simp [hn])
    · rcases List.mem_cons.1 hn with rfl | hn
      · exact ha
      · exact ih htl (fun n hn => hpos n (by simp at hn ⊢; tauto)) n hn

theorem percolateFrom_returns : ∀ (rest : List (Node K)) (a : Node K),
    (∀ n ∈ a :: rest, n.height ≠ 0 ∧ n.iceFraction ≠ 0) → ∃ ms, percolateFrom a rest = .ok ms := by
  intro rest
  induction rest with
  | nil => intro a _; exact ⟨_, rfl⟩
  | cons b rest ih =>
    intro a hp
    have hb := hp b (by simp)
    have hirr : ∃ θ, a.irreducibleWaterContent = .ok θ := by
      unfold Node.irreducibleWaterContent
      split_ifs
      · rw [fdiv_of_ne (hp a (by simp)).2]; exact ⟨_, rfl⟩
      · exact ⟨_, rfl⟩
      · exact ⟨_, rfl⟩
    obtain ⟨θ, hθ⟩ := hirr
    rw [percolateFrom, hθ, ok_bind]
    simp only
    split_ifs
    · rw [fdiv_of_ne hb.1, ok_bind]
      obtain ⟨tl, htl⟩ := ih (b.setLwc (b.lwc + pyMax (a.lwc - θ) 0 * a.height / b.height)) (fun n hn => by
        rcases List.mem_cons.1 hn with rfl | hn
        · exact hb
        · exact hp n (by simp [hn]))
      rw [htl]; exact ⟨_, rfl⟩
    · obtain ⟨tl, htl⟩ := ih b (fun n hn => hp n (by simp at hn ⊢; tauto))
      rw [htl]; exact ⟨_, rfl⟩

/-- The pieces of a successful call on a well-formed column. -/
theorem percolation_pieces {g g' : Grid K} {w q : K} (hw : g.WF) (h : percolation g w = .ok (g', q)) :
    ∃ top rest init last, g.nodes = top :: rest ∧ top.height ≠ 0 ∧
      percolateFrom (top.setLwc (top.lwc + w / top.height)) rest = .ok (init ++ [last]) ∧
      q = last.lwc * last.height ∧ g' = { g with nodes := init ++ [last.setLwc 0] } := by
  obtain ⟨top, ns, qq, e1, e2, e3, e4, e5⟩ := percolation_ok h
  obtain ⟨k, n, k1, k2, k3⟩ := getRunoff_ok e5
  rw [fdiv_eq_ok] at e3
  cases hn : g.nodes with
  | nil => rw [hn] at e2; simp at e2
  | cons t rest =>
    rw [hn] at e2 e4
    simp only [List.getElem?_cons_zero, Option.some.injEq] at e2
    subst e2
    simp only [List.modify_zero_cons] at e4
    have e4' : percolateFrom (t.setLwc (t.lwc + qq)) rest = .ok ns := e4
    have hlen := percolateFrom_length e4'
    obtain ⟨init, last, rfl⟩ : ∃ init last, ns = init ++ [last] := by
      refine ⟨ns.dropLast, ns.getLast (by intro h0; rw [h0] at hlen; simp at hlen), ?_⟩
      exact (List.dropLast_append_getLast _).symm
    have hk : k = init.length := by
      have hnn : g.numberNodes = (init.length : Int) + 1 := by
        rw [hw, hn]; simp at hlen ⊢; omega
      simp only [hnn] at k1
      have := normIdx_eq_some_nonneg (by omega) k1
      omega
    subst hk
    simp only [List.getElem?_concat_length, Option.some.injEq] at k2
    subst k2
    simp only [Prod.mk.injEq] at k3
    refine ⟨t, rest, init, last, rfl, e3.1, by rw [← e3.2]; exact e4', k3.2, ?_⟩
    rw [k3.1, modify_pre]

end
end Cosipy
