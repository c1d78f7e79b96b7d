import Verif.Lemmas.Densify
import Verif.Lemmas.Example
import Mathlib.Tactic.Positivity
import Mathlib.Algebra.Order.Archimedean.Basic

/-!
# C108 Snow is compacted by the weight of the snow above it

Both pressure dependent methods compute the load on a layer while they go down the column. What they use is not the weight above the
layer. `C108_boone` and `C108_vionnet` say what it is: half the weight of the top layer, and for every compacted layer down to the
one in question the weight of the layer above it. If all layers are compacted that is the weight above plus half the top layer
(`C108_excess`), too much by at most one half (`C108_bounds_partial`). A layer of at most the minimum height hides the layer above it from
everything below: the load can be smaller than any fraction of the weight above (`C108_hidden`, `C108_refuted`).
-/

set_option autoImplicit false
set_option linter.unusedSectionVars false

namespace Cosipy

section
variable {K : Type} [Field K] [LinearOrder K] [IsStrictOrderedRing K]

/-! ### Specification -/

/-- Weight of a layer per area, without the factor of gravity. -/
def weight (c : Consts K) (n : Node K) : K := n.density c * n.height

/-- Weight of the layers above. -/
def weightAbove (c : Consts K) (pre : List (Node K)) : K := (pre.map (weight c)).sum

/-- Snow that the methods compact: below the snow/ice threshold and thicker than the minimum height. -/
def Compactable (c : Consts K) (n : Node K) : Prop := n.density c < c.snowIceThreshold ∧ c.minimumSnowLayerHeight < n.height

instance (c : Consts K) (n : Node K) : Decidable (Compactable c n) :=
  inferInstanceAs (Decidable (n.density c < c.snowIceThreshold ∧ c.minimumSnowLayerHeight < n.height))

/-- For every compactable layer but the first the weight of the layer above it. -/
def pairLoad (c : Consts K) : List (Node K) → K
  | a :: b :: rest => (if Compactable c b then weight c a else 0) + pairLoad c (b :: rest)
  | _ => 0

/-- The load the methods use for the last of the given layers. -/
def seenLoad (c : Consts K) : List (Node K) → K
  | [] => 0
  | t :: rest => (if Compactable c t then weight c t / 2 else 0) + pairLoad c (t :: rest)

/-! ### Lemmas -/

/-- The load added at a layer with the given one above it. -/
def headLoad (c : Consts K) (prev : Option (Node K)) (n : Node K) : K :=
  if Compactable c n then (match prev with | some p => weight c p | none => weight c n / 2) else 0

theorem booneLoad_eq (c : Consts K) (prev : Option (Node K)) (n : Node K) :
    booneLoad c prev n = match prev with | some p => weight c p | none => weight c n / 2 := by
  cases prev with
  | some p => rfl
  | none =>
    show n.density c * (n.height / 2.0) = n.density c * n.height / 2
    norm_num; ring

variable [Transc K]

theorem booneLayers_at (c : Consts K) (dt : K) : ∀ (pre : List (Node K)) {k : Nat} {ms : K} {prev : Option (Node K)} {n : Node K}
    {post rs : List (Node K)}, pre.length < k → booneLayers c dt k ms prev (pre ++ n :: post) = .ok rs →
    ∃ pre' m post', rs = pre' ++ m :: post' ∧ pre'.length = pre.length ∧
      ((¬ Compactable c n ∧ m = n) ∨ (Compactable c n ∧ ∃ d,
        booneRate c dt (ms + headLoad c prev ((pre ++ [n]).head (by simp)) + pairLoad c (pre ++ [n])) n.temperature (n.density c) = .ok d ∧
        m = booneUpdate d n)) := by
  intro pre
  induction pre with
  | nil =>
    intro k ms prev n post rs hk h
    obtain ⟨k, rfl⟩ : ∃ j, k = j + 1 := ⟨k - 1, by simp at hk; omega⟩
    rw [List.nil_append, booneLayers] at h
    have hdef : Compactable c n ↔ (n.density c < c.snowIceThreshold ∧ c.minimumSnowLayerHeight < n.height) := Iff.rfl
    by_cases hc : Compactable c n
    · rw [if_pos (hdef.1 hc)] at h
      simp only [bind_eq_ok] at h
      obtain ⟨d, hd, tl, _, h⟩ := h
      rw [pure_eq_ok] at h
      refine ⟨[], _, tl, h.symm, rfl, .inr ⟨hc, d, ?_, rfl⟩⟩
      rw [booneLoad_eq] at hd
      simpa [headLoad, pairLoad, hc] using hd
    · rw [if_neg (fun x => hc (hdef.2 x)), bind_eq_ok] at h
      obtain ⟨tl, _, h⟩ := h
      rw [pure_eq_ok] at h
      exact ⟨[], _, tl, h.symm, rfl, .inl ⟨hc, rfl⟩⟩
  | cons a pre ih =>
    intro k ms prev n post rs hk h
    obtain ⟨k, rfl⟩ : ∃ j, k = j + 1 := ⟨k - 1, by simp at hk; omega⟩
    have hk' : pre.length < k := by simpa using hk
    -- the load below `a`
    have hload : ∀ x, x + headLoad c (some a) ((pre ++ [n]).head (by simp)) + pairLoad c (pre ++ [n]) = x + pairLoad c (a :: pre ++ [n]) := by
      intro x
      cases pre with
      | nil => exact add_assoc _ _ _
      | cons b pre => exact add_assoc _ _ _
    rw [List.cons_append, booneLayers] at h
    have hhead : (a :: pre ++ [n]).head (by simp) = a := rfl
    have hdef : Compactable c a ↔ (a.density c < c.snowIceThreshold ∧ c.minimumSnowLayerHeight < a.height) := Iff.rfl
    by_cases hc : Compactable c a
    · rw [if_pos (hdef.1 hc)] at h
      simp only [bind_eq_ok] at h
      obtain ⟨d, hd, tl, htl, h⟩ := h
      rw [pure_eq_ok] at h
      obtain ⟨pre', m, post', rfl, hl, hm⟩ := ih hk' htl
      refine ⟨_ :: pre', m, post', h.symm, by simp [hl], ?_⟩
      rw [hload, booneLoad_eq] at hm
      rw [hhead]
      unfold headLoad
      rw [if_pos hc]
      exact hm
    · rw [if_neg (fun x => hc (hdef.2 x)), bind_eq_ok] at h
      obtain ⟨tl, htl, h⟩ := h
      rw [pure_eq_ok] at h
      obtain ⟨pre', m, post', rfl, hl, hm⟩ := ih hk' htl
      refine ⟨_ :: pre', m, post', h.symm, by simp [hl], ?_⟩
      rw [hload] at hm
      rw [hhead]
      unfold headLoad
      rw [if_neg hc, add_zero]
      exact hm

theorem seenLoad_eq (c : Consts K) (pre : List (Node K)) (n : Node K) :
    0 + headLoad c none ((pre ++ [n]).head (by simp)) + pairLoad c (pre ++ [n]) = seenLoad c (pre ++ [n]) := by
  rw [zero_add]
  cases pre with
  | nil => rfl
  | cons a pre => rfl

theorem vionnetLoad_eq (c : Consts K) (slope : K) (prev : Option (Node K)) (n : Node K) :
    vionnetLoad c slope prev n = 9.81 * Transc.cos slope * (match prev with | some p => weight c p | none => weight c n / 2) := by
  cases prev with
  | some p => unfold vionnetLoad weight; ring
  | none =>
    show 9.81 * Transc.cos slope * n.density c * (n.height / 2.0) = 9.81 * Transc.cos slope * (n.density c * n.height / 2)
    norm_num; ring

theorem vionnetLayers_at (c : Consts K) (slope dt : K) : ∀ (pre : List (Node K)) {k : Nat} {ms : K} {prev : Option (Node K)} {n : Node K}
    {post rs : List (Node K)}, pre.length < k → vionnetLayers c slope dt k ms prev (pre ++ n :: post) = .ok rs →
    ∃ pre' m post', rs = pre' ++ m :: post' ∧ pre'.length = pre.length ∧
      ((¬ Compactable c n ∧ m = n) ∨ (Compactable c n ∧
        m = vionnetUpdate (vionnetRate dt (ms + 9.81 * Transc.cos slope *
          (headLoad c prev ((pre ++ [n]).head (by simp)) + pairLoad c (pre ++ [n]))) c n) n)) := by
  intro pre
  induction pre with
  | nil =>
    intro k ms prev n post rs hk h
    obtain ⟨k, rfl⟩ : ∃ j, k = j + 1 := ⟨k - 1, by simp at hk; omega⟩
    rw [List.nil_append, vionnetLayers] at h
    have hdef : Compactable c n ↔ (n.density c < c.snowIceThreshold ∧ c.minimumSnowLayerHeight < n.height) := Iff.rfl
    by_cases hc : Compactable c n
    · rw [if_pos (hdef.1 hc)] at h
      simp only [bind_eq_ok] at h
      obtain ⟨tl, _, h⟩ := h
      rw [pure_eq_ok] at h
      refine ⟨[], _, tl, h.symm, rfl, .inr ⟨hc, ?_⟩⟩
      rw [vionnetLoad_eq]
      simp [headLoad, pairLoad, hc]
    · rw [if_neg (fun x => hc (hdef.2 x)), bind_eq_ok] at h
      obtain ⟨tl, _, h⟩ := h
      rw [pure_eq_ok] at h
      exact ⟨[], _, tl, h.symm, rfl, .inl ⟨hc, rfl⟩⟩
  | cons a pre ih =>
    intro k ms prev n post rs hk h
    obtain ⟨k, rfl⟩ : ∃ j, k = j + 1 := ⟨k - 1, by simp at hk; omega⟩
    have hk' : pre.length < k := by simpa using hk
    have hload : headLoad c (some a) ((pre ++ [n]).head (by simp)) + pairLoad c (pre ++ [n]) = pairLoad c (a :: pre ++ [n]) := by
      cases pre with
      | nil => rfl
      | cons b pre => rfl
    rw [List.cons_append, vionnetLayers] at h
    have hhead : (a :: pre ++ [n]).head (by simp) = a := rfl
    have hdef : Compactable c a ↔ (a.density c < c.snowIceThreshold ∧ c.minimumSnowLayerHeight < a.height) := Iff.rfl
    by_cases hc : Compactable c a
    · rw [if_pos (hdef.1 hc)] at h
      simp only [bind_eq_ok] at h
      obtain ⟨tl, htl, h⟩ := h
      rw [pure_eq_ok] at h
      obtain ⟨pre', m, post', rfl, hl, hm⟩ := ih hk' htl
      refine ⟨_ :: pre', m, post', h.symm, by simp [hl], ?_⟩
      rw [hload, vionnetLoad_eq, add_assoc ms, ← mul_add] at hm
      rw [hhead]
      unfold headLoad
      rw [if_pos hc]
      exact hm
    · rw [if_neg (fun x => hc (hdef.2 x)), bind_eq_ok] at h
      obtain ⟨tl, htl, h⟩ := h
      rw [pure_eq_ok] at h
      obtain ⟨pre', m, post', rfl, hl, hm⟩ := ih hk' htl
      refine ⟨_ :: pre', m, post', h.symm, by simp [hl], ?_⟩
      rw [hload] at hm
      rw [hhead]
      unfold headLoad
      rw [if_neg hc, zero_add]
      exact hm

/-! ### The theorems -/

/-- **C108, the load of Boone.** A layer among the first as many as there are snow layers is compacted with the load `seenLoad`, if it
can be compacted, and otherwise left alone. -/
theorem C108_boone {c : Consts K} {g g' : Grid K} {dt : K} {k : Nat} {pre post : List (Node K)} {n : Node K}
    (hk : g.getNumberSnowLayers c = .ok k) (hg : g.nodes = pre ++ n :: post) (hlt : pre.length < k) (h : methodBoone c g dt = .ok g') :
    ∃ pre' m post', g'.nodes = pre' ++ m :: post' ∧ pre'.length = pre.length ∧
      ((¬ Compactable c n ∧ m = n) ∨ (Compactable c n ∧ ∃ d,
        booneRate c dt (seenLoad c (pre ++ [n])) n.temperature (n.density c) = .ok d ∧ m = booneUpdate d n)) := by
  unfold methodBoone at h
  rw [hk, ok_bind, bind_eq_ok] at h
  obtain ⟨rs, hrs, h⟩ := h
  rw [pure_eq_ok] at h
  rw [hg] at hrs
  have := booneLayers_at c dt pre hlt hrs
  rw [seenLoad_eq] at this
  rw [← h]
  exact this

/-- **C108, the load of Vionnet.** The same load, times gravity and the cosine the code computes. -/
theorem C108_vionnet {c : Consts K} {g g' : Grid K} {slope dt : K} {k : Nat} {pre post : List (Node K)} {n : Node K}
    (hk : g.getNumberSnowLayers c = .ok k) (hg : g.nodes = pre ++ n :: post) (hlt : pre.length < k) (h : methodVionnet c g slope dt = .ok g') :
    ∃ pre' m post', g'.nodes = pre' ++ m :: post' ∧ pre'.length = pre.length ∧
      ((¬ Compactable c n ∧ m = n) ∨ (Compactable c n ∧
        m = vionnetUpdate (vionnetRate dt (9.81 * Transc.cos slope * seenLoad c (pre ++ [n])) c n) n)) := by
  unfold methodVionnet at h
  rw [hk, ok_bind, bind_eq_ok] at h
  obtain ⟨rs, hrs, h⟩ := h
  rw [pure_eq_ok] at h
  rw [hg] at hrs
  have := vionnetLayers_at c slope dt pre hlt hrs
  have e := seenLoad_eq c pre n
  rw [zero_add] at e
  rw [zero_add, e] at this
  rw [← h]
  exact this

end

section
variable {K : Type} [Field K] [LinearOrder K] [IsStrictOrderedRing K]

theorem pairLoad_all (c : Consts K) : ∀ (pre : List (Node K)) (n : Node K), (∀ x ∈ pre ++ [n], Compactable c x) →
    pairLoad c (pre ++ [n]) = weightAbove c pre
  | [], _, _ => by simp [pairLoad, weightAbove]
  | [a], n, h => by simp [pairLoad, weightAbove, h n (by simp)]
  | a :: b :: pre, n, h => by
    have ih := pairLoad_all c (b :: pre) n fun x hx => h x (by simp at hx ⊢; tauto)
    simp only [List.cons_append] at ih ⊢
    rw [pairLoad, ih, if_pos (h b (by simp))]
    simp [weightAbove]

/-- **C108, too much.** If all layers are compacted, the load on a layer below the top is the weight above it plus half the weight of
the top layer. -/
theorem C108_excess {c : Consts K} {t n : Node K} {pre : List (Node K)} (h : ∀ x ∈ t :: pre ++ [n], Compactable c x) :
    seenLoad c (t :: pre ++ [n]) = weightAbove c (t :: pre) + weight c t / 2 := by
  have := pairLoad_all c (t :: pre) n h
  rw [List.cons_append, seenLoad, ← List.cons_append, this, if_pos (h t (by simp))]
  ring

theorem weightAbove_nonneg {c : Consts K} {pre : List (Node K)} (hw : ∀ x ∈ pre, 0 ≤ weight c x) : 0 ≤ weightAbove c pre := by
  unfold weightAbove
  exact List.sum_nonneg (by simpa using hw)

/-- **C108, bounds (partial).** Full statement: the load is the weight above. It is at least that and at most half as much again, if all
layers are compacted; it is that exactly for no column with a top layer of positive weight. -/
theorem C108_bounds_partial {c : Consts K} {t n : Node K} {pre : List (Node K)} (h : ∀ x ∈ t :: pre ++ [n], Compactable c x)
    (hw : ∀ x ∈ t :: pre, 0 ≤ weight c x) :
    weightAbove c (t :: pre) ≤ seenLoad c (t :: pre ++ [n]) ∧ seenLoad c (t :: pre ++ [n]) ≤ 3 / 2 * weightAbove c (t :: pre) ∧
    (seenLoad c (t :: pre ++ [n]) = weightAbove c (t :: pre) ↔ weight c t = 0) := by
  rw [C108_excess h]
  have h0 := hw t (by simp)
  have h1 : weightAbove c (t :: pre) = weight c t + weightAbove c pre := by simp [weightAbove]
  have h2 : 0 ≤ weightAbove c pre := weightAbove_nonneg fun x hx => hw x (by simp [hx])
  refine ⟨by linarith, by linarith, ⟨fun e => by linarith, fun e => by rw [e]; ring⟩⟩

/-- **C108, hidden.** A layer that is not compacted hides the layer above it: its weight does not matter for any layer below. -/
theorem C108_hidden {c : Consts K} {a a' thin : Node K} (ha : Compactable c a ↔ Compactable c a') (hthin : ¬ Compactable c thin)
    {t : Node K} {pre rest : List (Node K)} :
    seenLoad c (t :: pre ++ a :: thin :: rest) = seenLoad c (t :: pre ++ a' :: thin :: rest) := by
  have key : ∀ (l : List (Node K)), pairLoad c (l ++ a :: thin :: rest) = pairLoad c (l ++ a' :: thin :: rest) := by
    intro l
    induction l with
    | nil => simp [pairLoad, hthin]
    | cons x l ih =>
      cases l with
      | nil =>
        simp only [List.cons_append, List.nil_append] at ih ⊢
        rw [pairLoad, ih, pairLoad.eq_def c (x :: a' :: thin :: rest)]
        simp only [ha]
      | cons y l =>
        simp only [List.cons_append] at ih ⊢
        rw [pairLoad, ih, pairLoad.eq_def c (x :: y :: (l ++ a' :: thin :: rest))]
  have := key (t :: pre)
  simp only [List.cons_append] at this ⊢
  rw [seenLoad, seenLoad, this]

end

/-! ### Concrete columns -/

/-- Snow: a light top layer, a layer of height `h`, a layer of half a millimetre, and a last one. -/
def hiddenNodes (h : ℚ) : List (Node ℚ) :=
  [⟨1/100, 268, 0, 1/10, 0⟩, ⟨h, 268, 0, 1/2, 0⟩, ⟨1/2000, 268, 0, 1/2, 0⟩, ⟨1/10, 268, 0, 1/2, 0⟩]

/-- **C108, refuted.** With the shipped constants there are columns of snow in which the load on the lowest layer is smaller than any
given fraction of the weight above it. -/
theorem C108_refuted (F : ℚ) : ∃ (pre : List (Node ℚ)) (n : Node ℚ),
    (∀ x ∈ pre ++ [n], 0 < x.height ∧ x.density (Consts.default ℚ) < (Consts.default ℚ).snowIceThreshold) ∧
    Compactable (Consts.default ℚ) n ∧ 0 < seenLoad (Consts.default ℚ) (pre ++ [n]) ∧
    F * seenLoad (Consts.default ℚ) (pre ++ [n]) < weightAbove (Consts.default ℚ) pre := by
  let h : ℚ := max 1 F
  have h1 : 1 ≤ h := le_max_left _ _
  have hF : F ≤ h := le_max_right _ _
  refine ⟨[⟨1/100, 268, 0, 1/10, 0⟩, ⟨h, 268, 0, 1/2, 0⟩, ⟨1/2000, 268, 0, 1/2, 0⟩], ⟨1/10, 268, 0, 1/2, 0⟩, ?_, by decide +kernel, ?_⟩
  · intro x hx
    simp only [List.cons_append, List.nil_append, List.mem_cons, List.not_mem_nil, or_false] at hx
    have hd : ∀ h : ℚ, (⟨h, 268, 0, 1/2, 0⟩ : Node ℚ).density (Consts.default ℚ) < (Consts.default ℚ).snowIceThreshold := by
      intro h
      show (⟨1, 268, 0, 1/2, 0⟩ : Node ℚ).density (Consts.default ℚ) < (Consts.default ℚ).snowIceThreshold
      decide +kernel
    rcases hx with rfl | rfl | rfl | rfl
    · decide +kernel
    · exact ⟨by show (0:ℚ) < h; linarith, hd h⟩
    · exact ⟨by norm_num, hd _⟩
    · exact ⟨by norm_num, hd _⟩
  · have hs : seenLoad (Consts.default ℚ) (hiddenNodes h) = seenLoad (Consts.default ℚ) (hiddenNodes 1) := by
      refine C108_hidden (t := ⟨1/100, 268, 0, 1/10, 0⟩) (pre := []) ?_ (by decide +kernel)
      have e1 : Compactable (Consts.default ℚ) ⟨1, 268, 0, 1/2, 0⟩ := by decide +kernel
      refine ⟨fun _ => e1, fun _ => ⟨e1.1, ?_⟩⟩
      have : (Consts.default ℚ).minimumSnowLayerHeight < 1 := by decide +kernel
      exact this.trans_le h1
    have hS : 0 < seenLoad (Consts.default ℚ) (hiddenNodes 1) ∧ seenLoad (Consts.default ℚ) (hiddenNodes 1) < 100 := by decide +kernel
    have hw : weightAbove (Consts.default ℚ) [⟨1/100, 268, 0, 1/10, 0⟩, ⟨h, 268, 0, 1/2, 0⟩, ⟨1/2000, 268, 0, 1/2, 0⟩] =
        weight (Consts.default ℚ) ⟨1/100, 268, 0, 1/10, 0⟩ + weight (Consts.default ℚ) ⟨1/2000, 268, 0, 1/2, 0⟩ +
          (⟨1, 268, 0, 1/2, 0⟩ : Node ℚ).density (Consts.default ℚ) * h := by
      simp only [weightAbove, List.map_cons, List.map_nil, List.sum_cons, List.sum_nil]
      have : weight (Consts.default ℚ) ⟨h, 268, 0, 1/2, 0⟩ = (⟨1, 268, 0, 1/2, 0⟩ : Node ℚ).density (Consts.default ℚ) * h := rfl
      rw [this]; ring
    have hd : 100 < (⟨1, 268, 0, 1/2, 0⟩ : Node ℚ).density (Consts.default ℚ) := by decide +kernel
    have hp : 0 < weight (Consts.default ℚ) ⟨1/100, 268, 0, 1/10, 0⟩ ∧ 0 < weight (Consts.default ℚ) ⟨1/2000, 268, 0, 1/2, 0⟩ := by decide +kernel
    have hl : seenLoad (Consts.default ℚ) ([⟨1/100, 268, 0, 1/10, 0⟩, ⟨h, 268, 0, 1/2, 0⟩, ⟨1/2000, 268, 0, 1/2, 0⟩] ++ [⟨1/10, 268, 0, 1/2, 0⟩]) =
        seenLoad (Consts.default ℚ) (hiddenNodes 1) := hs
    rw [hl, hw]
    refine ⟨hS.1, ?_⟩
    have a1 : F * seenLoad (Consts.default ℚ) (hiddenNodes 1) ≤ h * 100 :=
      (mul_le_mul_of_nonneg_right hF hS.1.le).trans (mul_le_mul_of_nonneg_left hS.2.le (by linarith))
    have a2 : h * 100 ≤ (⟨1, 268, 0, 1/2, 0⟩ : Node ℚ).density (Consts.default ℚ) * h := by
      rw [mul_comm]; exact mul_le_mul_of_nonneg_right hd.le (by linarith)
    linarith [hp.1, hp.2]

/-- Three snow layers that are all compacted. -/
def heavyNodes : List (Node ℚ) := [⟨1/10, 268, 0, 1/4, 0⟩, ⟨1/5, 268, 0, 1/3, 0⟩, ⟨1/5, 268, 0, 1/2, 0⟩]

-- The hypotheses of `C108_excess` and `C108_bounds_partial` hold, and the top layer is not weightless.
example : (∀ x ∈ heavyNodes, Compactable (Consts.default ℚ) x) ∧ (∀ x ∈ heavyNodes, 0 < weight (Consts.default ℚ) x) ∧
    seenLoad (Consts.default ℚ) heavyNodes = weightAbove (Consts.default ℚ) (heavyNodes.take 2) + weight (Consts.default ℚ) ⟨1/10, 268, 0, 1/4, 0⟩ / 2 := by
  decide +kernel

attribute [local instance] exTransc in
-- The hypotheses of `C108_boone` and `C108_vionnet`: both methods return on this column, all three layers counting as snow.
example : (Grid.getNumberSnowLayers (Consts.default ℚ) ⟨heavyNodes, 3, 0, 0, 0⟩).toOption = some 3 ∧
    (methodBoone (Consts.default ℚ) ⟨heavyNodes, 3, 0, 0, 0⟩ 3600).toOption.isSome = true ∧
    (methodVionnet (Consts.default ℚ) ⟨heavyNodes, 3, 0, 0, 0⟩ 0 3600).toOption.isSome = true := by
  decide +kernel

end Cosipy
