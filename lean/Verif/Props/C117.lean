import Verif.Props.C25

/-!
# C117 Penetrating radiation is absorbed at the depth Beer's law gives

`extinct si k z` is what an exponential extinction with coefficient `k` removes from the radiation `si` above the depth `z`.
`C117_profile_partial`: down to the middle of each layer, the layers up to and including it are given exactly that, however the
snow above is divided; layers that do not melt take it up completely. What is missing is the extent of the layers: a layer is given what is
extinguished between the middle of its upper neighbour and its own middle, not between its upper and its lower face. So the first layer
always gets less than its share (`C117_extent_refuted`), dividing a layer moves heat upwards (`C117_division`), and a part of the
radiation withdrawn from the surface, at least what Beer's law sends below the middle of the last layer but one, is given to no layer at all
(`C117_lost_refuted`).
-/

set_option autoImplicit false
set_option linter.unusedSectionVars false

namespace Cosipy
section Reals

/-- Radiation extinguished above depth `z`. -/
noncomputable def extinct (si k z : ℝ) : ℝ := si * (1 - Real.exp (-(k * z)))

/-- Extinction coefficient over snow and over ice. -/
noncomputable def extinction (c : Consts ℝ) (top : Node ℝ) : ℝ := if top.density c ≤ c.snowIceThreshold then 17.1 else 2.5

/-- Heat taken up by the uppermost `m` layers. -/
noncomputable def gain (c : Consts ℝ) (init : List (Node ℝ)) (fates : List (Option (Node ℝ))) (m : Nat) : ℝ :=
  (List.zipWith (uptake c) (init.take m) (fates.take m)).sum

theorem extinction_pos (c : Consts ℝ) (top : Node ℝ) : 0 < extinction c top := by
  unfold extinction; split_ifs <;> norm_num

/-- **C117, what holds.** The energies `es` that the layers are given per second: those of the first `m` layers add up to what is
extinguished above the middle of the `m`-th. No layer takes up more, and a layer that does not melt takes up all of it. Missing: the
lower face of the layer in the place of its middle. -/
theorem C117_profile_partial {c : Consts ℝ} (hc : c.Phys) {g g' : Grid ℝ} {swnet dt melt si : ℝ} (hw : g.WF)
    (hn : ∀ n ∈ g.nodes, 0 < n.height ∧ 0 < n.iceFraction ∧ 0 ≤ n.lwc)
    (h : methodBintanja c g swnet dt = .ok (g', melt, si)) :
    ∃ (top : Node ℝ) (init : List (Node ℝ)) (last : Node ℝ) (es : List ℝ) (fates : List (Option (Node ℝ))),
      g.nodes.head? = some top ∧ g.nodes = init ++ [last] ∧ g'.nodes = fates.reduceOption ++ [last] ∧ es.length = init.length ∧
      (∀ m ≤ init.length, (es.take m).sum = extinct si (extinction c top) (midDepth ((init.take m).map fun n => n.height))) ∧
      (0 ≤ si → ∀ e ∈ es, 0 ≤ e) ∧
      List.Forall₂ (fun p o => uptake c p.1 o ≤ p.2 * dt ∧
        ((∃ m, o = some m ∧ m.height = p.1.height) → uptake c p.1 o = p.2 * dt)) (init.zip es) fates ∧
      List.Forall₂ (fun p o => p.1.temperature + p.2 / (p.1.density c * c.specHeatIce) * (dt / p.1.height) ≤ c.zeroTemperature →
        ∃ m, o = some m ∧ m.height = p.1.height) (init.zip es) fates := by
  obtain ⟨top, rest, depths, init, last, es, outs, h1, h2, h3, h4, h5, h6, h7, h8, h9⟩ := bintanja_ok h
  simp only at h9
  have hk : (penCoeffs c top).2 = extinction c top := by
    unfold penCoeffs extinction; split_ifs <;> rfl
  have hkp : (0 : ℝ) ≤ (penCoeffs c top).2 := hk ▸ (extinction_pos c top).le
  have hinit : ∀ n ∈ init, 0 < n.height ∧ 0 < n.iceFraction ∧ 0 ≤ n.lwc := fun n hm => hn n (by rw [h3]; simp [hm])
  have hd : depths = Grid.depthFrom 0 (init.map (fun n => n.height) ++ [last.height]) := by
    unfold Grid.getDepth at h2
    rw [Grid.getHeight_eq hw, ok_bind, h1] at h2
    simp only [List.map_cons] at h2
    rw [pure_eq_ok] at h2
    have e : init.map (fun n => n.height) ++ [last.height] = top.height :: rest.map (fun n => n.height) := by
      have := congrArg (List.map fun n : Node ℝ => n.height) (h3.symm.trans h1)
      simpa using this
    rw [e, Grid.depthFrom, ← h2]
    simp
  refine ⟨top, init, last, es, outs.map fateOf, by rw [h1]; rfl, h3, ?_, h5, fun m hm => ?_, fun hsi e he => ?_, ?_, ?_⟩
  · rw [fates_kept]
    simp only at h7
    rw [h7]
  · have hsplit : init.map (fun n => n.height) ++ [last.height] =
        (init.take m).map (fun n => n.height) ++ ((init.drop m).map (fun n => n.height) ++ [last.height]) := by
      rw [← List.append_assoc, ← List.map_append, List.take_append_drop]
    rw [h4, List.take_take, min_eq_left hm, penEnergy, ← h9, ← List.map_take, hd, hsplit, List.sum_map_mul_left, List.map_id'']
    · have := depths_sum (fun d => Real.exp ((penCoeffs c top).2 * -d)) (fun x y hxy => by
          apply Real.exp_le_exp.2; nlinarith) ((init.take m).map fun n => n.height)
          ((init.drop m).map (fun n => n.height) ++ [last.height]) 0 0 (by
          intro h hm; obtain ⟨n, hn', rfl⟩ := List.mem_map.1 hm; exact (hinit n (List.mem_of_mem_take hn')).1.le) le_rfl
      rw [List.length_map, List.length_take, min_eq_left hm] at this
      change si * ((absDiff _).take m).sum = _
      have hcg : (fun d => (Transc.exp ((penCoeffs c top).2 * -d) : ℝ)) = fun d => Real.exp ((penCoeffs c top).2 * -d) := rfl
      rw [hcg, this, extinct, ← hk]
      congr 1
      by_cases he : init.take m = []
      · simp [he, midDepth]
      · rw [if_neg (by rw [List.map_eq_nil_iff]; exact he)]
        simp
    · intro x; rfl
  · rw [h4] at he
    have he := List.mem_of_mem_take he
    unfold penEnergy at he
    obtain ⟨x, hx, rfl⟩ := List.mem_map.1 he
    rw [← h9]
    exact mul_nonneg hsi (absDiff_nonneg _ x hx)
  · rw [List.forall₂_map_right_iff]
    have hmem : ∀ p ∈ init.zip es, 0 < p.1.height ∧ 0 < p.1.iceFraction ∧ 0 ≤ p.1.lwc := fun p hp =>
      hinit p.1 (List.of_mem_zip hp).1
    clear h4 h5 h7 h8
    generalize init.zip es = ps at *
    induction h6 with
    | nil => exact List.Forall₂.nil
    | @cons p o ps outs hpo _ ih =>
      exact List.Forall₂.cons (penLayer_uptake hc (hmem p (by simp)) hpo) (ih fun q hq => hmem q (by simp [hq]))
  · rw [List.forall₂_map_right_iff]
    refine h6.imp fun p o ho hcold => ?_
    unfold penLayer at ho
    simp only [bind_eq_ok] at ho
    obtain ⟨q, hq, r, hr, ho⟩ := ho
    rw [fdiv_ok hq, fdiv_ok hr, if_neg (not_lt.2 hcold), pure_eq_ok] at ho
    subst ho
    exact ⟨_, rfl, rfl⟩

theorem gain_le {c : Consts ℝ} {dt : ℝ} : ∀ {init : List (Node ℝ)} {es : List ℝ} {fates : List (Option (Node ℝ))},
    es.length = init.length →
    List.Forall₂ (fun p o => uptake c p.1 o ≤ p.2 * dt ∧
      ((∃ m, o = some m ∧ m.height = p.1.height) → uptake c p.1 o = p.2 * dt)) (init.zip es) fates → ∀ m,
    gain c init fates m ≤ (es.take m).sum * dt ∧
    (List.Forall₂ (fun n o => ∃ m, o = some m ∧ m.height = n.height) init fates → gain c init fates m = (es.take m).sum * dt)
  | [], es, fates, hl, _, m => by
    have : es = [] := by simpa using hl
    subst this
    simp [gain]
  | n :: init, e :: es, fates, hl, hf, 0 => by simp [gain]
  | n :: init, e :: es, fates, hl, hf, m + 1 => by
    rw [List.zip_cons_cons] at hf
    cases hf with
    | @cons _ o _ fates a b =>
      obtain ⟨i1, i2⟩ := gain_le (by simpa using hl) b m
      have hg : gain c (n :: init) (o :: fates) (m + 1) = uptake c n o + gain c init fates m := by simp [gain]
      rw [hg, List.take_succ_cons, List.sum_cons, add_mul]
      refine ⟨add_le_add a.1 i1, fun hk => ?_⟩
      cases hk with
      | cons k1 k2 => rw [a.2 k1, i2 k2]

/-- **C117, warming.** The uppermost `m` layers together warm by at most what is extinguished above the middle of the `m`-th; by exactly
that if nothing melts. -/
theorem C117_warming_partial {c : Consts ℝ} (hc : c.Phys) {g g' : Grid ℝ} {swnet dt melt si : ℝ} (hw : g.WF)
    (hn : ∀ n ∈ g.nodes, 0 < n.height ∧ 0 < n.iceFraction ∧ 0 ≤ n.lwc)
    (h : methodBintanja c g swnet dt = .ok (g', melt, si)) :
    ∃ (top : Node ℝ) (init : List (Node ℝ)) (last : Node ℝ) (fates : List (Option (Node ℝ))),
      g.nodes.head? = some top ∧ g.nodes = init ++ [last] ∧ g'.nodes = fates.reduceOption ++ [last] ∧
      fates.length = init.length ∧ ∀ m ≤ init.length,
        gain c init fates m ≤ extinct si (extinction c top) (midDepth ((init.take m).map fun n => n.height)) * dt ∧
        (List.Forall₂ (fun n o => ∃ m, o = some m ∧ m.height = n.height) init fates →
          gain c init fates m = extinct si (extinction c top) (midDepth ((init.take m).map fun n => n.height)) * dt) := by
  obtain ⟨top, init, last, es, fates, h1, h2, h3, h4, h5, -, h6, -⟩ := C117_profile_partial hc hw hn h
  refine ⟨top, init, last, fates, h1, h2, h3, ?_, fun m hm => ?_⟩
  · rw [← h6.length_eq, List.length_zip, h4]; simp
  · rw [← h5 m hm]
    exact gain_le h4 h6 m

/-- **C117, extent, refuted.** Whatever the column (of at least two layers): the first layer takes up strictly less than is extinguished
between its upper and its lower face, for every positive radiation. -/
theorem C117_extent_refuted {c : Consts ℝ} (hc : c.Phys) {g g' : Grid ℝ} {swnet dt melt si : ℝ} (hw : g.WF)
    (hn : ∀ n ∈ g.nodes, 0 < n.height ∧ 0 < n.iceFraction ∧ 0 ≤ n.lwc) (hs : 0 < swnet) (hdt : 0 < dt)
    {top snd : Node ℝ} {rest : List (Node ℝ)} (hg : g.nodes = top :: snd :: rest)
    (h : methodBintanja c g swnet dt = .ok (g', melt, si)) :
    ∃ fate fates last, g'.nodes = List.reduceOption (fate :: fates) ++ [last] ∧
      uptake c top fate < extinct si (extinction c top) top.height * dt := by
  have hsi : 0 < si := by
    obtain ⟨t, _, _, e, _⟩ := C25_share h
    rw [e]; split_ifs <;> linarith
  obtain ⟨t, init, last, fates, h1, h2, h3, h4, h5⟩ := C117_warming_partial hc hw hn h
  rw [hg] at h1 h2
  cases h1
  match init, fates, h4 with
  | [], _, _ => simp at h2
  | n :: init, o :: fates, _ =>
    simp only [List.cons_append, List.cons.injEq] at h2
    obtain ⟨rfl, -⟩ := h2
    refine ⟨o, fates, last, h3, ?_⟩
    have := (h5 1 (by simp)).1
    simp only [gain, List.take_succ_cons, List.take_zero, List.zipWith_cons_cons, List.zipWith_nil_right, List.sum_cons, List.sum_nil,
      add_zero, List.map_cons, List.map_nil, midDepth, List.dropLast_singleton, zero_add, List.getLastD_cons, List.getLastD_nil] at this
    refine lt_of_le_of_lt this (mul_lt_mul_of_pos_right (mul_lt_mul_of_pos_left ?_ hsi) hdt)
    have hh := (hn top (by rw [hg]; simp)).1
    have hk := extinction_pos c top
    have : Real.exp (-(extinction c top * top.height)) < Real.exp (-(extinction c top * (top.height / 2))) :=
      Real.exp_lt_exp.2 (by nlinarith)
    linarith

/-- **C117, loss, refuted.** The column never takes up all of the radiation that is withdrawn from the surface: what Beer's law sends
below the middle of the last layer but one is lost. -/
theorem C117_lost_refuted {c : Consts ℝ} (hc : c.Phys) {g g' : Grid ℝ} {swnet dt melt si : ℝ} (hw : g.WF)
    (hn : ∀ n ∈ g.nodes, 0 < n.height ∧ 0 < n.iceFraction ∧ 0 ≤ n.lwc) (hs : 0 < swnet) (hdt : 0 < dt)
    (h : methodBintanja c g swnet dt = .ok (g', melt, si)) :
    ∃ (top : Node ℝ) (init : List (Node ℝ)) (last : Node ℝ) (fates : List (Option (Node ℝ))),
      g.nodes.head? = some top ∧ g.nodes = init ++ [last] ∧ g'.nodes = fates.reduceOption ++ [last] ∧
      (List.zipWith (uptake c) init fates).sum ≤
        si * dt - si * Real.exp (-(extinction c top * midDepth (init.map fun n => n.height))) * dt ∧
      (List.zipWith (uptake c) init fates).sum < si * dt := by
  have hsi : 0 < si := by
    obtain ⟨t, _, _, e, _⟩ := C25_share h
    rw [e]; split_ifs <;> linarith
  obtain ⟨top, init, last, fates, h1, h2, h3, h4, h5⟩ := C117_warming_partial hc hw hn h
  have h6 := (h5 init.length le_rfl).1
  rw [gain, List.take_length, ← h4, List.take_length, extinct] at h6
  have hpos := mul_pos (mul_pos hsi (Real.exp_pos (-(extinction c top * midDepth (init.map fun n => n.height))))) hdt
  have e : (List.zipWith (uptake c) init fates).sum ≤
      si * dt - si * Real.exp (-(extinction c top * midDepth (init.map fun n => n.height))) * dt := by linarith
  exact ⟨top, init, last, fates, h1, h2, h3, e, by linarith⟩

theorem midDepth_append {a b : List ℝ} (hb : b ≠ []) : midDepth (a ++ b) = a.sum + midDepth b := by
  unfold midDepth
  rw [List.dropLast_append_of_ne_nil hb, List.sum_append]
  obtain ⟨l, x, rfl⟩ := (List.eq_nil_or_concat b).resolve_left hb
  rw [List.concat_eq_append]
  simp [add_assoc]

/-- **C117, division.** Two columns, the second with one layer `n` (any but the last) of the first divided into two
halves, in which nothing melts: the layers down to any layer below the divided one take up the same heat in both; the two halves
together with the layers above take up strictly more than the undivided layer with those above. -/
theorem C117_division {c : Consts ℝ} (hc : c.Phys) {g₁ g₁' g₂ g₂' : Grid ℝ} {swnet dt melt₁ melt₂ si₁ si₂ : ℝ} (hw₁ : g₁.WF) (hw₂ : g₂.WF)
    (hs : 0 < swnet) (hdt : 0 < dt)
    (hn₁ : ∀ n ∈ g₁.nodes, 0 < n.height ∧ 0 < n.iceFraction ∧ 0 ≤ n.lwc)
    {a b : List (Node ℝ)} {n last : Node ℝ} (hg₁ : g₁.nodes = a ++ n :: b ++ [last])
    (hg₂ : g₂.nodes = a ++ { n with height := n.height / 2 } :: { n with height := n.height / 2 } :: b ++ [last])
    (h₁ : methodBintanja c g₁ swnet dt = .ok (g₁', melt₁, si₁)) (h₂ : methodBintanja c g₂ swnet dt = .ok (g₂', melt₂, si₂))
    {f₁ f₂ : List (Node ℝ)} (e₁ : g₁'.nodes = f₁ ++ [last]) (e₂ : g₂'.nodes = f₂ ++ [last])
    (k₁ : List.Forall₂ (fun n m => m.height = n.height) (a ++ n :: b) f₁)
    (k₂ : List.Forall₂ (fun n m => m.height = n.height)
      (a ++ { n with height := n.height / 2 } :: { n with height := n.height / 2 } :: b) f₂) :
    (∀ j, 0 < j → j ≤ b.length → gain c (a ++ n :: b) (f₁.map some) (a.length + 1 + j) =
      gain c (a ++ { n with height := n.height / 2 } :: { n with height := n.height / 2 } :: b) (f₂.map some) (a.length + 2 + j)) ∧
    gain c (a ++ n :: b) (f₁.map some) (a.length + 1) <
      gain c (a ++ { n with height := n.height / 2 } :: { n with height := n.height / 2 } :: b) (f₂.map some) (a.length + 2) := by
  have hn₂ : ∀ m ∈ g₂.nodes, 0 < m.height ∧ 0 < m.iceFraction ∧ 0 ≤ m.lwc := by
    intro m hm
    rw [hg₂] at hm
    have hnn := hn₁ n (by rw [hg₁]; simp)
    simp only [List.mem_append, List.mem_cons, List.not_mem_nil, or_false] at hm
    rcases hm with (h | rfl | rfl | h) | rfl
    · exact hn₁ m (by rw [hg₁]; simp [h])
    · exact ⟨half_pos hnn.1, hnn.2⟩
    · exact ⟨half_pos hnn.1, hnn.2⟩
    · exact hn₁ m (by rw [hg₁]; simp [h])
    · exact hn₁ m (by rw [hg₁]; simp)
  -- a column in which nothing melts
  have main : ∀ {g g' : Grid ℝ} {melt si : ℝ} {l f : List (Node ℝ)}, g.WF → (∀ n ∈ g.nodes, 0 < n.height ∧ 0 < n.iceFraction ∧ 0 ≤ n.lwc) →
      g.nodes = l ++ [last] → methodBintanja c g swnet dt = .ok (g', melt, si) → g'.nodes = f ++ [last] →
      List.Forall₂ (fun n m => m.height = n.height) l f → ∃ top, g.nodes.head? = some top ∧
      ∀ m ≤ l.length, gain c l (f.map some) m = extinct si (extinction c top) (midDepth ((l.take m).map fun n => n.height)) * dt := by
    intro g g' melt si l f hw hn hg h e k
    obtain ⟨top, init, last', fates, h1, h2, h3, h4, h5⟩ := C117_warming_partial hc hw hn h
    rw [hg] at h2
    obtain ⟨rfl, hl⟩ := List.append_inj' h2 rfl
    simp only [List.cons.injEq, and_true] at hl
    subst hl
    rw [e] at h3
    obtain ⟨hf, -⟩ := List.append_inj' h3 rfl
    have hfull : fates = f.map some := by
      have hlen : fates.reduceOption.length = fates.length := by rw [← hf, h4, ← k.length_eq]
      have : ∀ l : List (Option (Node ℝ)), l.reduceOption.length = l.length → l = l.reduceOption.map some := by
        intro l
        induction l with
        | nil => intro; rfl
        | cons x l ih =>
          cases x with
          | none =>
            intro hh
            rw [List.reduceOption_cons_of_none, List.length_cons] at hh
            have := List.reduceOption_length_le l
            omega
          | some x =>
            intro hh
            rw [List.reduceOption_cons_of_some, List.length_cons, List.length_cons] at hh
            rw [List.reduceOption_cons_of_some, List.map_cons, ← ih (by omega)]
      rw [this fates hlen, ← hf]
    subst hfull
    refine ⟨top, h1, fun m hm => (h5 m hm).2 ?_⟩
    rw [List.forall₂_map_right_iff]
    exact k.imp fun n m hh => ⟨m, rfl, hh⟩
  obtain ⟨t₁, ht₁, m₁⟩ := main hw₁ hn₁ hg₁ h₁ e₁ k₁
  obtain ⟨t₂, ht₂, m₂⟩ := main hw₂ hn₂ hg₂ h₂ e₂ k₂
  have hden : t₁.density c = t₂.density c := by
    rw [hg₁] at ht₁; rw [hg₂] at ht₂
    cases a with
    | nil => simp only [List.nil_append, List.cons_append, List.head?_cons, Option.some.injEq] at ht₁ ht₂; rw [← ht₁, ← ht₂]; rfl
    | cons x a => simp only [List.cons_append, List.head?_cons, Option.some.injEq] at ht₁ ht₂; rw [← ht₁, ← ht₂]
  have hk : extinction c t₁ = extinction c t₂ := by unfold extinction; rw [hden]
  have hsi : si₁ = si₂ := by
    obtain ⟨u, _, hu, e, _⟩ := C25_share h₁
    obtain ⟨v, _, hv, e', _⟩ := C25_share h₂
    rw [hu] at ht₁; rw [hv] at ht₂
    cases ht₁; cases ht₂
    rw [e, e', hden]
  have hpos : 0 < si₁ := by
    obtain ⟨t, _, _, e, _⟩ := C25_share h₁
    rw [e]; split_ifs <;> linarith
  have hnn := (hn₁ n (by rw [hg₁]; simp)).1
  constructor
  · intro j hj hjb
    rw [m₁ _ (by simp; omega), m₂ _ (by simp; omega), hk, hsi]
    have t1 : (a ++ n :: b).take (a.length + 1 + j) = a ++ n :: b.take j := by
      rw [show a.length + 1 + j = a.length + (j + 1) by omega, List.take_length_add_append, List.take_succ_cons]
    have t2 : (a ++ { n with height := n.height / 2 } :: { n with height := n.height / 2 } :: b).take (a.length + 2 + j) =
        a ++ { n with height := n.height / 2 } :: { n with height := n.height / 2 } :: b.take j := by
      rw [show a.length + 2 + j = a.length + (j + 1 + 1) by omega, List.take_length_add_append, List.take_succ_cons, List.take_succ_cons]
    rw [t1, t2]
    have hb : (b.take j).map (fun n => n.height) ≠ [] := by
      rw [Ne, List.map_eq_nil_iff, List.take_eq_nil_iff]
      rintro (rfl | rfl)
      · omega
      · simp at hjb; omega
    congr 2
    simp only [List.map_append, List.map_cons]
    rw [midDepth_append (by simp), midDepth_append (by simp)]
    congr 1
    rw [show n.height :: (b.take j).map (fun n => n.height) = [n.height] ++ (b.take j).map (fun n => n.height) from rfl,
      show n.height / 2 :: n.height / 2 :: (b.take j).map (fun n => n.height) =
        [n.height / 2, n.height / 2] ++ (b.take j).map (fun n => n.height) from rfl, midDepth_append hb, midDepth_append hb]
    simp
  · rw [m₁ _ (by simp), m₂ _ (by simp), hk, hsi]
    have t1 : (a ++ n :: b).take (a.length + 1) = a ++ [n] := by
      rw [List.take_length_add_append]; rfl
    have t2 : (a ++ { n with height := n.height / 2 } :: { n with height := n.height / 2 } :: b).take (a.length + 2) =
        a ++ [{ n with height := n.height / 2 }, { n with height := n.height / 2 }] := by
      rw [List.take_length_add_append]; rfl
    rw [t1, t2]
    simp only [List.map_append, List.map_cons, List.map_nil]
    rw [midDepth_append (by simp), midDepth_append (by simp)]
    refine mul_lt_mul_of_pos_right (mul_lt_mul_of_pos_left ?_ (hsi ▸ hpos)) hdt
    have hkp := extinction_pos c t₂
    have e1 : midDepth [n.height] = n.height / 2 := by simp [midDepth]
    have e2 : midDepth [n.height / 2, n.height / 2] = n.height / 2 + n.height / 4 := by simp [midDepth]; ring
    rw [e1, e2]
    have : Real.exp (-(extinction c t₂ * ((a.map fun n => n.height).sum + (n.height / 2 + n.height / 4)))) <
        Real.exp (-(extinction c t₂ * ((a.map fun n => n.height).sum + n.height / 2))) :=
      Real.exp_lt_exp.2 (by nlinarith)
    linarith

/-- A column is too cold to melt if all of the net radiation, given to any single layer, leaves it below the melting point; then every
layer keeps its height. -/
theorem C117_cold {c : Consts ℝ} (hc : c.Phys) {g g' : Grid ℝ} {swnet dt melt si : ℝ} (hs : 0 ≤ swnet) (hdt : 0 ≤ dt) (hw : g.WF)
    (hn : ∀ n ∈ g.nodes, 0 < n.height ∧ 0 < n.iceFraction ∧ 0 ≤ n.lwc)
    (hcold : ∀ n ∈ g.nodes, n.temperature + swnet / (n.density c * c.specHeatIce) * (dt / n.height) ≤ c.zeroTemperature)
    {init : List (Node ℝ)} {last : Node ℝ} (hg : g.nodes = init ++ [last])
    (h : methodBintanja c g swnet dt = .ok (g', melt, si)) :
    ∃ f, g'.nodes = f ++ [last] ∧ List.Forall₂ (fun n m => m.height = n.height) init f := by
  have hsi : si ≤ swnet ∧ 0 ≤ si := by
    obtain ⟨t, _, _, e, _⟩ := C25_share h
    rw [e]; split_ifs <;> constructor <;> linarith
  obtain ⟨top, init', last', es, fates, h1, h2, h3, h4, h5, h6, -, h7⟩ := C117_profile_partial hc hw hn h
  rw [hg] at h2
  obtain ⟨rfl, hl⟩ := List.append_inj' h2 rfl
  simp only [List.cons.injEq, and_true] at hl
  subst hl
  have hes : ∀ e ∈ es, e ≤ swnet := by
    intro e he
    have h8 := h5 init.length le_rfl
    rw [← h4, List.take_length] at h8
    have h9 := List.single_le_sum (h6 hsi.2) e he
    rw [h8, extinct] at h9
    have := Real.exp_pos (-(extinction c top * midDepth ((init.take es.length).map fun n => n.height)))
    nlinarith
  have hmem : ∀ p ∈ init.zip es, p.1.temperature + p.2 / (p.1.density c * c.specHeatIce) * (dt / p.1.height) ≤ c.zeroTemperature := by
    intro p hp
    have hp1 := (List.of_mem_zip hp).1
    have hp2 := hes p.2 (List.of_mem_zip hp).2
    have hm : p.1 ∈ g.nodes := by rw [hg]; simp [hp1]
    have hh := (hn p.1 hm).1
    have hd : 0 < p.1.density c * c.specHeatIce := mul_pos (density_pos hc (hn p.1 hm).2.1.le (hn p.1 hm).2.2).1 hc.cIce
    refine le_trans ?_ (hcold p.1 hm)
    have := mul_le_mul_of_nonneg_right (div_le_div_of_nonneg_right hp2 hd.le) (div_nonneg hdt hh.le)
    linarith
  rw [h3]
  have hz : init = (init.zip es).map Prod.fst := by rw [List.map_fst_zip]; omega
  clear h5 h1 h2 h3 h h6 hcold hn hg hes
  rw [hz]
  generalize init.zip es = ps at *
  clear hz h4
  induction h7 with
  | nil => exact ⟨[], rfl, List.Forall₂.nil⟩
  | @cons p o ps fates hpo _ ih =>
    obtain ⟨m, rfl, hm⟩ := hpo (hmem p (by simp))
    obtain ⟨f, e, hf⟩ := ih fun q hq => hmem q (by simp [hq])
    rw [List.append_cancel_right_eq] at e
    exact ⟨m :: f, by rw [List.reduceOption_cons_of_some, e], List.Forall₂.cons hm hf⟩

private noncomputable def exA : Grid ℝ :=
  ⟨[⟨1/10, 250, 0, 1/2, 0⟩, ⟨2/10, 250, 1/100, 1/2, 0⟩, ⟨1/10, 255, 0, 1/2, 0⟩, ⟨1, 265, 0, 1, 0⟩], 4, 0, 0, 0⟩

private noncomputable def exB : Grid ℝ :=
  ⟨[⟨1/10, 250, 0, 1/2, 0⟩, ⟨2/10/2, 250, 1/100, 1/2, 0⟩, ⟨2/10/2, 250, 1/100, 1/2, 0⟩, ⟨1/10, 255, 0, 1/2, 0⟩, ⟨1, 265, 0, 1, 0⟩],
    5, 0, 0, 0⟩

/-! Non-vacuity: two cold columns, one with the second layer of the other divided, on which everything required holds. -/
example : ∃ (g₁' g₂' : Grid ℝ) (melt₁ melt₂ si₁ si₂ : ℝ) (f₁ f₂ : List (Node ℝ)),
    (Consts.default ℝ).Phys ∧ exA.WF ∧ exB.WF ∧ (∀ n ∈ exA.nodes, 0 < n.height ∧ 0 < n.iceFraction ∧ 0 ≤ n.lwc) ∧
    methodBintanja (Consts.default ℝ) exA 1 1 = .ok (g₁', melt₁, si₁) ∧ methodBintanja (Consts.default ℝ) exB 1 1 = .ok (g₂', melt₂, si₂) ∧
    g₁'.nodes = f₁ ++ [⟨1, 265, 0, 1, 0⟩] ∧ g₂'.nodes = f₂ ++ [⟨1, 265, 0, 1, 0⟩] ∧
    List.Forall₂ (fun n m => m.height = n.height) (exA.nodes.take 3) f₁ ∧
    List.Forall₂ (fun n m => m.height = n.height) (exB.nodes.take 4) f₂ := by
  have hA : ∀ n ∈ exA.nodes, 0 < n.height ∧ 0 < n.iceFraction ∧ 0 ≤ n.lwc := by
    intro n hn
    simp only [exA, List.mem_cons, List.not_mem_nil, or_false] at hn
    rcases hn with rfl | rfl | rfl | rfl <;> norm_num
  have hB : ∀ n ∈ exB.nodes, 0 < n.height ∧ 0 < n.iceFraction ∧ 0 ≤ n.lwc := by
    intro n hn
    simp only [exB, List.mem_cons, List.not_mem_nil, or_false] at hn
    rcases hn with rfl | rfl | rfl | rfl | rfl <;> norm_num
  obtain ⟨⟨gA, mA, sA⟩, rA⟩ := bintanja_returns (g := exA) Consts.default_phys rfl (by simp [exA]) hA 1 1
  obtain ⟨⟨gB, mB, sB⟩, rB⟩ := bintanja_returns (g := exB) Consts.default_phys rfl (by simp [exB]) hB 1 1
  obtain ⟨fA, eA, kA⟩ := C117_cold (g := exA) (init := exA.nodes.take 3) Consts.default_phys zero_le_one zero_le_one rfl hA (by
    intro n hn
    simp only [exA, List.mem_cons, List.not_mem_nil, or_false] at hn
    rcases hn with rfl | rfl | rfl | rfl <;> norm_num [Node.density, Node.airPorosity, pyMax, Consts.default]) rfl rA
  obtain ⟨fB, eB, kB⟩ := C117_cold (g := exB) (init := exB.nodes.take 4) Consts.default_phys zero_le_one zero_le_one rfl hB (by
    intro n hn
    simp only [exB, List.mem_cons, List.not_mem_nil, or_false] at hn
    rcases hn with rfl | rfl | rfl | rfl | rfl <;> norm_num [Node.density, Node.airPorosity, pyMax, Consts.default]) rfl rB
  exact ⟨gA, gB, mA, mB, sA, sB, fA, fB, Consts.default_phys, rfl, rfl, hA, rA, rB, eA, eB, kA, kB⟩

end Reals
end Cosipy
