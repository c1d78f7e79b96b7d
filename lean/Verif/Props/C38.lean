import Verif.Model.SurfaceTemp
import Verif.Lemmas.Grid
import Verif.Lemmas.Arith
import Verif.Spec.Column
import Mathlib.Algebra.Field.Rat
import Mathlib.Algebra.Order.Ring.Unbundled.Rat
import Mathlib.Tactic.FieldSimp
import Mathlib.Tactic.Ring

/-!
# C38 Interpolated subsurface temperature lies between its two neighbours

`bottomDepth ns k` is the depth of the lower boundary of layer `k`; the code attaches the layer temperatures to these
depths. Between the first and the last of them the interpolation is what it should be; above the first one the code uses
the *lowest* layer as second point, from the last one on it raises IndexError.
-/

set_option autoImplicit false
set_option linter.unusedSectionVars false

namespace Cosipy
section
variable {K : Type} [Field K] [LinearOrder K] [IsStrictOrderedRing K]

/-- Depth of the lower boundary of layer `k`. -/
def bottomDepth (ns : List (Node K)) (k : Nat) : K := ((ns.take (k + 1)).map Node.height).sum

theorem argminFrom_spec : ∀ (xs ys : List K) (best : Nat) (v : K), ys[best]? = some v → (∀ y ∈ ys, v ≤ y) →
    ∃ w, (ys ++ xs)[argminFrom best v ys.length xs]? = some w ∧ ∀ y ∈ ys ++ xs, w ≤ y := by
  intro xs
  induction xs with
  | nil => intro ys best v h1 h2; exact ⟨v, by simpa [argminFrom] using h1, by simpa using h2⟩
  | cons x xs ih =>
    intro ys best v h1 h2
    rw [argminFrom]
    have e : ys ++ x :: xs = (ys ++ [x]) ++ xs := by simp
    have hlen : (ys ++ [x]).length = ys.length + 1 := by simp
    split_ifs with hlt
    · have := ih (ys ++ [x]) ys.length x (by simp) (by
        intro y hy
        rcases List.mem_append.1 hy with hy | hy
        · exact hlt.le.trans (h2 y hy)
        · rw [List.mem_singleton.1 hy])
      rw [hlen] at this
      rw [e]; exact this
    · have hb : best < ys.length := by
        by_contra hn
        rw [List.getElem?_eq_none (by omega)] at h1
        cases h1
      have := ih (ys ++ [x]) best v (by rw [List.getElem?_append_left hb]; exact h1) (by
        intro y hy
        rcases List.mem_append.1 hy with hy | hy
        · exact h2 y hy
        · rw [List.mem_singleton.1 hy]; exact not_lt.1 hlt)
      rw [hlen] at this
      rw [e]; exact this

theorem argmin_spec {xs : List K} {j : Nat} (h : argmin xs = .ok j) :
    ∃ w, xs[j]? = some w ∧ ∀ y ∈ xs, w ≤ y := by
  cases xs with
  | nil => cases h
  | cons x xs =>
    rw [argmin] at h
    cases h
    have := argminFrom_spec xs [x] 0 x rfl (by simp)
    simpa using this

theorem cumsumFrom_length : ∀ (hs : List K) (s : K), (cumsumFrom s hs).length = hs.length
  | [], _ => rfl
  | h :: hs, s => by rw [cumsumFrom, List.length_cons, cumsumFrom_length hs, List.length_cons]

theorem cumsumFrom_get : ∀ (hs : List K) (s : K) (k : Nat), k < hs.length →
    (cumsumFrom s hs)[k]? = some (s + (hs.take (k + 1)).sum) := by
  intro hs
  induction hs with
  | nil => intro s k h; simp at h
  | cons h hs ih =>
    intro s k hk
    rw [cumsumFrom]
    cases k with
    | zero => simp
    | succ k =>
      rw [List.getElem?_cons_succ, ih _ _ (by simpa using hk)]
      simp only [List.take_succ_cons, List.sum_cons]
      rw [add_assoc]

theorem cum_get {ns : List (Node K)} {k : Nat} (hk : k < ns.length) :
    (cumsumFrom 0 (ns.map Node.height))[k]? = some (bottomDepth ns k) := by
  rw [cumsumFrom_get _ _ _ (by simpa using hk), zero_add, bottomDepth, List.map_take]

theorem bottomDepth_succ {ns : List (Node K)} {k : Nat} {n : Node K} (h : ns[k + 1]? = some n) :
    bottomDepth ns (k + 1) = bottomDepth ns k + n.height := by
  unfold bottomDepth
  rw [List.take_add_one (i := k + 1), h]
  simp

theorem bottomDepth_lt {ns : List (Node K)} (hpos : ∀ n ∈ ns, 0 < n.height) : ∀ {j k : Nat}, j < k → k < ns.length →
    bottomDepth ns j < bottomDepth ns k := by
  intro j k hjk
  induction k with
  | zero => omega
  | succ k ih =>
    intro hk
    have hn : ns[k + 1]? = some ns[k + 1] := List.getElem?_eq_getElem hk
    rw [bottomDepth_succ hn]
    have hp := hpos _ (List.getElem_mem hk)
    rcases Nat.lt_succ_iff_lt_or_eq.1 hjk with h | rfl
    · have := ih h (by omega); linarith
    · linarith

/-- What the routine computes, on the depths it is given by its caller. -/
theorem subsurface_ok {g : Grid K} {z : K} (hlen : 0 < g.nodes.length) :
    ∃ (i : Nat) (n1 : Node K), g.nodes[i]? = some n1 ∧
      (∀ j, j < g.nodes.length → |bottomDepth g.nodes i - z| ≤ |bottomDepth g.nodes j - z|) ∧
      getSubsurfaceTemperature g (cumsumFrom 0 (g.nodes.map Node.height)) z =
        (do
          let i2 : Int := if z < bottomDepth g.nodes i then (i : Int) - 1 else (i : Int) + 1
          let n2 ← g.node i2
          let d2 ← pyGet (cumsumFrom 0 (g.nodes.map Node.height)) i2
          let slope ← fdiv (n1.temperature - n2.temperature) (bottomDepth g.nodes i - d2)
          return n1.temperature + slope * (z - bottomDepth g.nodes i)) := by
  set cum := cumsumFrom 0 (g.nodes.map Node.height) with hcum
  have hcl : cum.length = g.nodes.length := by rw [hcum, cumsumFrom_length, List.length_map]
  have harg : ∃ j, argmin (cum.map fun x => pyAbs (x - z)) = .ok j := by
    cases hc : cum with
    | nil => rw [hc] at hcl; simp at hcl; omega
    | cons a l => exact ⟨_, rfl⟩
  obtain ⟨i, hi⟩ := harg
  obtain ⟨w, h1, h2⟩ := argmin_spec hi
  have hil : i < g.nodes.length := by
    by_contra hn
    rw [List.getElem?_eq_none (by rw [List.length_map, hcl]; omega)] at h1
    cases h1
  have hg := cum_get hil
  rw [List.getElem?_map, hcum, hg] at h1
  simp only [Option.map_some, Option.some.injEq] at h1
  refine ⟨i, g.nodes[i], List.getElem?_eq_getElem hil, ?_, ?_⟩
  · intro j hj
    have := h2 (pyAbs (bottomDepth g.nodes j - z)) (List.mem_map.2 ⟨_, List.mem_of_getElem? (cum_get hj), rfl⟩)
    rw [← h1, pyAbs_eq, pyAbs_eq] at this
    exact this
  · unfold getSubsurfaceTemperature Grid.node
    rw [hi, ok_bind, pyGet_nat hg, ok_bind, pyGet_nat (List.getElem?_eq_getElem hil), ok_bind]

/-- **C38, between neighbours.** For a depth from the first lower boundary to above the last one, the routine returns the
linear interpolation between the two layers whose lower boundaries enclose the depth; it lies between their
temperatures. -/
theorem C38_between {g : Grid K} (hpos : ∀ n ∈ g.nodes, 0 < n.height) {z : K} (hne : g.nodes ≠ [])
    (hlo : bottomDepth g.nodes 0 ≤ z) (hhi : z < bottomDepth g.nodes (g.nodes.length - 1)) :
    ∃ (k : Nat) (n m : Node K) (t : K), g.nodes[k]? = some n ∧ g.nodes[k + 1]? = some m ∧
      bottomDepth g.nodes k ≤ z ∧ z ≤ bottomDepth g.nodes (k + 1) ∧
      getSubsurfaceTemperature g (cumsumFrom 0 (g.nodes.map Node.height)) z = .ok t ∧
      (t - n.temperature) * (bottomDepth g.nodes (k + 1) - bottomDepth g.nodes k) =
        (m.temperature - n.temperature) * (z - bottomDepth g.nodes k) ∧
      min n.temperature m.temperature ≤ t ∧ t ≤ max n.temperature m.temperature := by
  have hlen : 0 < g.nodes.length := List.length_pos_iff.2 hne
  obtain ⟨i, n1, hn1, hmin, heq⟩ := subsurface_ok (g := g) (z := z) hlen
  have hil : i < g.nodes.length := by
    by_contra hn
    rw [List.getElem?_eq_none (by omega)] at hn1; cases hn1
  -- a weighted mean lies between
  have between : ∀ {a b x y t : K}, x < y → x ≤ z → z ≤ y → (t - a) * (y - x) = (b - a) * (z - x) →
      min a b ≤ t ∧ t ≤ max a b := by
    intro a b x y t hxy h1 h2 he
    have hd : 0 < y - x := by linarith
    rcases le_total a b with hab | hab
    · rw [min_eq_left hab, max_eq_right hab]
      constructor
      · by_contra hn; have : (t - a) * (y - x) < 0 := mul_neg_of_neg_of_pos (by linarith) hd
        nlinarith [mul_nonneg (sub_nonneg.2 hab) (sub_nonneg.2 h1)]
      · by_contra hn
        have h3 : (b - a) * (y - x) < (t - a) * (y - x) := mul_lt_mul_of_pos_right (by linarith) hd
        nlinarith [mul_nonneg (sub_nonneg.2 hab) (sub_nonneg.2 h2)]
    · rw [min_eq_right hab, max_eq_left hab]
      constructor
      · by_contra hn
        have h3 : (t - a) * (y - x) < (b - a) * (y - x) := mul_lt_mul_of_pos_right (by linarith) hd
        nlinarith [mul_nonneg (sub_nonneg.2 hab) (sub_nonneg.2 h2)]
      · by_contra hn; have : 0 < (t - a) * (y - x) := mul_pos (by linarith) hd
        nlinarith [mul_nonneg (sub_nonneg.2 hab) (sub_nonneg.2 h1)]
  rcases lt_or_ge z (bottomDepth g.nodes i) with hz | hz
  · -- the nearest boundary is below
    have hi0 : i ≠ 0 := by rintro rfl; exact absurd hlo (not_le.2 hz)
    obtain ⟨k, rfl⟩ := Nat.exists_eq_succ_of_ne_zero hi0
    have hkl : k < g.nodes.length := by omega
    have hlt := bottomDepth_lt hpos (Nat.lt_succ_self k) hil
    have hk : bottomDepth g.nodes k ≤ z := by
      by_contra hn
      have := hmin k hkl
      rw [abs_of_pos (by linarith), abs_of_pos (by linarith)] at this
      linarith
    have hn2 : g.nodes[k]? = some g.nodes[k] := List.getElem?_eq_getElem hkl
    rw [if_pos hz] at heq
    have hidx : ((k.succ : Nat) : Int) - 1 = (k : Int) := by push_cast; ring
    simp only [hidx] at heq
    have hgn : g.node (k : Int) = .ok g.nodes[k] := pyGet_nat hn2
    rw [hgn, ok_bind, pyGet_nat (cum_get hkl), ok_bind, fdiv_of_ne (by intro h; linarith), ok_bind] at heq
    have hd : bottomDepth g.nodes k.succ - bottomDepth g.nodes k ≠ 0 := by intro h; linarith
    refine ⟨k, g.nodes[k], n1, _, hn2, hn1, hk, hz.le, heq, ?_, ?_⟩
    · show _ * (bottomDepth g.nodes k.succ - bottomDepth g.nodes k) = _
      field_simp
      ring
    · refine between hlt hk hz.le ?_
      field_simp
      ring
  · have hil' : i + 1 < g.nodes.length := by
      by_contra hn
      have : i = g.nodes.length - 1 := by omega
      rw [← this] at hhi
      exact absurd hz (not_le.2 hhi)
    have hlt := bottomDepth_lt hpos (Nat.lt_succ_self i) hil'
    have hk : z ≤ bottomDepth g.nodes (i + 1) := by
      by_contra hn
      have := hmin (i + 1) hil'
      rw [abs_of_nonpos (by linarith), abs_of_neg (by linarith)] at this
      linarith
    have hn2 : g.nodes[i + 1]? = some g.nodes[i + 1] := List.getElem?_eq_getElem hil'
    rw [if_neg (not_lt.2 hz)] at heq
    have hidx : ((i : Nat) : Int) + 1 = ((i + 1 : Nat) : Int) := by push_cast; ring
    simp only [hidx] at heq
    have hgn : g.node ((i + 1 : Nat) : Int) = .ok g.nodes[i + 1] := pyGet_nat hn2
    rw [hgn, ok_bind, pyGet_nat (cum_get hil'), ok_bind, fdiv_of_ne (by intro h; linarith), ok_bind] at heq
    have hd : bottomDepth g.nodes i - bottomDepth g.nodes (i + 1) ≠ 0 := by intro h; linarith
    refine ⟨i, n1, g.nodes[i + 1], _, hn1, hn2, hz, hk, heq, ?_, ?_⟩
    · field_simp
      ring
    · refine between hlt hz hk ?_
      field_simp
      ring

/-- **C38, linear profile.** If the layer temperatures are linear in the depth of the lower boundaries, whatever the
routine returns is the value of the same linear profile at the requested depth. -/
theorem C38_linear {g : Grid K} (hne : g.nodes ≠ []) {A B z t : K}
    (hprof : ∀ k n, g.nodes[k]? = some n → n.temperature = A + B * bottomDepth g.nodes k)
    (h : getSubsurfaceTemperature g (cumsumFrom 0 (g.nodes.map Node.height)) z = .ok t) : t = A + B * z := by
  obtain ⟨i, n1, hn1, hmin, heq⟩ := subsurface_ok (g := g) (z := z) (List.length_pos_iff.2 hne)
  rw [h] at heq
  have heq := heq.symm
  simp only [bind_eq_ok] at heq
  obtain ⟨n2, h2, d2, hd2, sl, hsl, ht⟩ := heq
  rw [pure_eq_ok] at ht
  rw [fdiv_eq_ok] at hsl
  obtain ⟨k, hk, hk2⟩ := pyGet_eq_ok.1 h2
  obtain ⟨k', hk', hk2'⟩ := pyGet_eq_ok.1 hd2
  rw [cumsumFrom_length, List.length_map, hk] at hk'
  cases hk'
  have hkl := normIdx_lt hk
  rw [cum_get hkl] at hk2'
  cases hk2'
  rw [← ht, hsl.2, hprof i n1 hn1, hprof k n2 hk2]
  have hd := hsl.1
  field_simp
  ring

/-- **C38, shallow depths.** Above the first lower boundary the routine extrapolates from the uppermost layer using the
*lowest* layer (index −1) as second point. -/
theorem C38_shallow {g : Grid K} (hpos : ∀ n ∈ g.nodes, 0 < n.height) {z : K} {top bot : Node K} {mid : List (Node K)}
    (hg : g.nodes = top :: (mid ++ [bot])) (hz : z < bottomDepth g.nodes 0) :
    getSubsurfaceTemperature g (cumsumFrom 0 (g.nodes.map Node.height)) z =
      .ok (top.temperature + (top.temperature - bot.temperature) /
        (bottomDepth g.nodes 0 - bottomDepth g.nodes (g.nodes.length - 1)) * (z - bottomDepth g.nodes 0)) := by
  have hlen : g.nodes.length = mid.length + 2 := by rw [hg]; simp
  obtain ⟨i, n1, hn1, hmin, heq⟩ := subsurface_ok (g := g) (z := z) (by omega)
  have hi : i = 0 := by
    by_contra hne
    have hil : i < g.nodes.length := by
      by_contra hn
      rw [List.getElem?_eq_none (by omega)] at hn1; cases hn1
    have hlt := bottomDepth_lt hpos (Nat.pos_of_ne_zero hne) hil
    have := hmin 0 (by omega)
    rw [abs_of_pos (by linarith), abs_of_pos (by linarith)] at this
    linarith
  subst hi
  rw [heq, if_pos hz]
  have hn1' : n1 = top := by rw [hg] at hn1; simpa using hn1.symm
  subst hn1'
  have hnorm : normIdx g.nodes.length (((0 : Nat) : Int) - 1) = some (g.nodes.length - 1) := by
    unfold normIdx
    rw [if_neg (by omega), if_pos (by omega)]
    congr 1
    omega
  have hlast : g.nodes[g.nodes.length - 1]? = some bot := by
    rw [hg]; simp
  have h1 : g.node (((0 : Nat) : Int) - 1) = .ok bot := pyGet_eq_ok.2 ⟨_, hnorm, hlast⟩
  have h2 : pyGet (cumsumFrom 0 (g.nodes.map Node.height)) (((0 : Nat) : Int) - 1) =
      .ok (bottomDepth g.nodes (g.nodes.length - 1)) :=
    pyGet_eq_ok.2 ⟨_, by rw [cumsumFrom_length, List.length_map]; exact hnorm, cum_get (by omega)⟩
  have hlt := bottomDepth_lt hpos (show 0 < g.nodes.length - 1 by omega) (by omega)
  simp only [h1, h2, ok_bind]
  rw [fdiv_of_ne (by intro h; linarith), ok_bind]
  rfl

/-- **C38, deep requests.** From the last lower boundary on the routine raises IndexError. -/
theorem C38_deep {g : Grid K} (hpos : ∀ n ∈ g.nodes, 0 < n.height) {z : K} (hne : g.nodes ≠ [])
    (hz : bottomDepth g.nodes (g.nodes.length - 1) ≤ z) :
    raised (getSubsurfaceTemperature g (cumsumFrom 0 (g.nodes.map Node.height)) z) = some .index := by
  have hlen : 0 < g.nodes.length := List.length_pos_iff.2 hne
  obtain ⟨i, n1, hn1, hmin, heq⟩ := subsurface_ok (g := g) (z := z) hlen
  have hil : i < g.nodes.length := by
    by_contra hn
    rw [List.getElem?_eq_none (by omega)] at hn1; cases hn1
  have hi : i = g.nodes.length - 1 := by
    by_contra hne
    have hlt := bottomDepth_lt hpos (show i < g.nodes.length - 1 by omega) (by omega)
    have := hmin (g.nodes.length - 1) (by omega)
    rw [abs_of_neg (by linarith), abs_of_nonpos (by linarith)] at this
    linarith
  rw [heq, if_neg (by rw [hi]; exact not_lt.2 hz)]
  have : g.node ((i : Int) + 1) = .error .index := by
    cases h : g.node ((i : Int) + 1) with
    | error e => rw [pyGet_error h]
    | ok n =>
      obtain ⟨k, hk, _⟩ := pyGet_eq_ok.1 h
      have := normIdx_eq_some_nonneg (by omega) hk
      have := normIdx_lt hk
      omega
  simp only [this]
  rfl

end

/-- **C38, consequence of the wrapping.** In a column that gets warmer downwards, with an uppermost layer thicker than
the requested depth, the result is colder than every layer. -/
theorem C38_shallow_witness :
    ∃ t : ℚ, getSubsurfaceTemperature (⟨[⟨1/5, 260, 0, 1/2, 0⟩, ⟨1/5, 262, 0, 1/2, 0⟩, ⟨1/5, 280, 0, 1, 0⟩], 3, 0, 0, 0⟩ : Grid ℚ)
      [1/5, 2/5, 3/5] (1/10) = .ok t ∧ t < 260 := ⟨255, by decide +kernel, by decide +kernel⟩

/-- Non-vacuity: depths of the shipped settings in a column of 5 cm layers. -/
example : let g : Grid ℚ := ⟨[⟨1/20, 260, 0, 1/2, 0⟩, ⟨1/20, 262, 0, 1/2, 0⟩, ⟨1/20, 264, 0, 1, 0⟩], 3, 0, 0, 0⟩
    (∀ n ∈ g.nodes, 0 < n.height) ∧ bottomDepth g.nodes 0 ≤ 3/50 ∧ (3/50 : ℚ) < bottomDepth g.nodes (g.nodes.length - 1) := by
  unfold bottomDepth
  decide +kernel

end Cosipy
