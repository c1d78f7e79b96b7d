import Verif.Props.C110
import Verif.Lemmas.Melt

/-!
# C128 Melt removal in double precision

C11 says in exact arithmetic that `remove_melt_weq` takes exactly the melt from the column. In double precision it does not, but the error is
bounded. As in C110 the totals are exact sums of exact products of stored numbers; the water equivalent of a layer is its thickness
times the quotient of its density and the density of water as the program computes it.
-/

set_option autoImplicit false
set_option linter.unusedSectionVars false

namespace Cosipy

section
variable {α : Type} [LinearOrder α] [Zero α] [One α] [Add α] [Sub α] [Mul α] [Div α] [Neg α] [NatCast α] [OfScientific α] [BEq α]

/-- One pass of the loop on a column that has a top layer, in any arithmetic with a linear order. -/
theorem meltPass_top {c : Consts α} {s s' : Grid.MeltState α} {a : Node α} {post : List (Node α)} (hd : s.g.nodes = a :: post)
    (h : Grid.removeMeltPass c 0 s = .ok (some s')) :
    0 < s.melt ∧
    ((s.melt < a.height * (a.density c / c.waterDensity) ∧
        s' = ⟨{ s.g with nodes := { a with height := (a.height * (a.density c / c.waterDensity) - s.melt) / (a.density c / c.waterDensity) } ::
          post }, 0, s.lwcFromLayers⟩) ∨
     (a.height * (a.density c / c.waterDensity) ≤ s.melt ∧
        s' = ⟨{ s.g with nodes := post, numberNodes := s.g.numberNodes - 1 }, s.melt - a.height * (a.density c / c.waterDensity),
          s.lwcFromLayers + a.lwc * a.height⟩)) := by
  unfold Grid.removeMeltPass at h
  by_cases hc : 0 < s.melt ∧ 0 < s.g.numberNodes
  swap
  · rw [if_neg hc] at h; cases h
  have hn : s.g.node 0 = .ok a := by
    unfold Grid.node
    rw [hd]; simp [pyGet, normIdx]
  rw [if_pos hc, hn, ok_bind] at h
  refine ⟨hc.1, ?_⟩
  dsimp only at h
  split_ifs at h with h1 h2
  · left
    rw [bind_eq_ok] at h; obtain ⟨q, hq, h⟩ := h
    have hq := fdiv_ok hq
    rw [bind_eq_ok] at h; obtain ⟨g', hg', h⟩ := h
    rw [pure_eq_ok] at h
    refine ⟨h1, ?_⟩
    unfold Grid.setNodeHeight at hg'
    obtain ⟨k, hk, rfl⟩ := Grid.modifyNode_eq_ok.1 hg'
    obtain ⟨hk1, _⟩ := normIdx_eq_some_nonneg (by omega) hk
    have : k = 0 := by omega
    subst this
    simp only [Option.some.injEq] at h
    rw [← h, hd, hq]
    rfl
  · right
    rw [bind_eq_ok] at h; obtain ⟨g', hg', h⟩ := h
    rw [pure_eq_ok] at h
    refine ⟨h2, ?_⟩
    obtain ⟨k, hk, rfl⟩ := (Grid.removeNode_single (by rw [hd]; simp)).1 hg'
    obtain ⟨hk1, _⟩ := normIdx_eq_some_nonneg (by omega) hk
    have : k = 0 := by omega
    subst this
    simp only [Option.some.injEq] at h
    rw [← h, hd]
    rfl
  · exact absurd (not_lt.1 h1) h2

end

section
variable {K : Type} [Field K] [LinearOrder K] [IsStrictOrderedRing K] [FloorRing K] {p : ℕ} {emin : ℤ} {hp : 23 ≤ p} {he : emin ≤ -30}

local notation "F" => Fl (binary K p emin hp he)
local notation "g" => grow K p
local notation "η" => underflowUnit K p emin
local notation "u" => unitRoundoff K p

/-- Density of a layer relative to that of water, as the program computes it. -/
def relDensity (c : Consts F) (n : Node F) : K := (n.density c / c.waterDensity).1
/-- Water equivalent of a layer (m), the exact product of thickness and relative density. -/
def weqOf (c : Consts F) (n : Node F) : K := n.height.1 * relDensity c n

/-- Densities that are not negative. -/
structure DensitySigns (c : Consts F) : Prop where
  ice : 0 ≤ c.iceDensity
  water : 0 ≤ c.waterDensity
  air : 0 ≤ c.airDensity

theorem relDensity_nonneg {c : Consts F} (hc : DensitySigns c) {n : Node F} (hn : SolidLayer n) : 0 ≤ relDensity c n :=
  Rounded.div_nonneg (density_nn hc.ice hc.water hc.air hn.ice hn.water) hc.water

theorem weqOf_nonneg {c : Consts F} (hc : DensitySigns c) {n : Node F} (hn : SolidLayer n) : 0 ≤ weqOf c n :=
  mul_nonneg hn.thick.le (relDensity_nonneg hc hn)

/-- A product of kept numbers that are not negative. -/
theorem mul_err (a b : F) (ha : 0 ≤ a) (hb : 0 ≤ b) : |(a * b).1 - a.1 * b.1| ≤ u * (a.1 * b.1) + η := by
  have h := binRound_fine (p := p) (emin := emin) (a.1 * b.1)
  rw [abs_of_nonneg (mul_nonneg (show (0 : K) ≤ a.1 from ha) (show (0 : K) ≤ b.1 from hb))] at h
  exact h

theorem sub_err (a b : F) (h : b ≤ a) : |(a - b).1 - (a.1 - b.1)| ≤ u * (a.1 - b.1) := by
  have := sub_rel (Fl.kept a) (Fl.kept b)
  rw [abs_of_nonneg (sub_nonneg.2 (show b.1 ≤ a.1 from h))] at this
  exact this

/-- What one removed layer takes off the melt that is left. -/
theorem removed_err {c : Consts F} (hc : DensitySigns c) {n : Node F} (hn : SolidLayer n) {m : F}
    (h : n.height * (n.density c / c.waterDensity) ≤ m) :
    |weqOf c n + (m - n.height * (n.density c / c.waterDensity)).1 - m.1| ≤ u * weqOf c n + η + u * m.1 := by
  have hd : 0 ≤ n.density c / c.waterDensity := relDensity_nonneg hc hn
  have h1 := mul_err n.height (n.density c / c.waterDensity) hn.thick.le hd
  have h2 := sub_err m _ h
  have h3' : 0 ≤ n.height * (n.density c / c.waterDensity) := Rounded.mul_nonneg hn.thick.le hd
  have h3 : (0 : K) ≤ (n.height * (n.density c / c.waterDensity)).1 := h3'
  have hu := unit_pos (K := K) (p := p)
  unfold weqOf relDensity
  generalize (n.height * (n.density c / c.waterDensity)).1 = x at *
  generalize (m - n.height * (n.density c / c.waterDensity)).1 = y at *
  rw [abs_le] at h1 h2 ⊢
  have := mul_nonneg hu.le h3
  constructor <;> nlinarith [h1.1, h1.2, h2.1, h2.2]

/-- What a thinned layer loses. -/
theorem thinned_err {c : Consts F} (hc : DensitySigns c) {n : Node F} (hn : SolidLayer n) {m : F} (hm : 0 < m)
    (h : m < n.height * (n.density c / c.waterDensity)) :
    |weqOf c n - (((n.height * (n.density c / c.waterDensity) - m) / (n.density c / c.waterDensity)).1 * relDensity c n + m.1)| ≤
      u * (4 * weqOf c n) + η * (2 + relDensity c n) := by
  have hd : 0 ≤ n.density c / c.waterDensity := relDensity_nonneg hc hn
  have h1 := mul_err n.height (n.density c / c.waterDensity) hn.thick.le hd
  have h2 := sub_err _ m h.le
  have hu := unit_pos (K := K) (p := p)
  have hη := underflow_pos (K := K) (p := p) (emin := emin)
  have hu1 : u ≤ 1 / 4 := by
    unfold unitRoundoff
    calc (2 : K) ^ (-(p : ℤ) - 1) ≤ 2 ^ (-2 : ℤ) := zpow_le_zpow_right₀ (by norm_num) (by have := hp; omega)
      _ = 1 / 4 := by norm_num
  have hdne : (n.density c / c.waterDensity).1 ≠ 0 := by
    intro h0
    have e : n.density c / c.waterDensity = 0 := Subtype.ext h0
    rw [e, Rounded.mul_zero] at h
    exact absurd (hm.trans h) (lt_irrefl _)
  have hdp : 0 < (n.density c / c.waterDensity).1 := lt_of_le_of_ne hd (Ne.symm hdne)
  have hx' : 0 ≤ n.height * (n.density c / c.waterDensity) - m := Rounded.sub_nonneg h.le
  have hx : (0 : K) ≤ (n.height * (n.density c / c.waterDensity) - m).1 := hx'
  have h3 := binRound_fine (p := p) (emin := emin) ((n.height * (n.density c / c.waterDensity) - m).1 / (n.density c / c.waterDensity).1)
  rw [abs_of_nonneg (div_nonneg hx hd)] at h3
  change |((n.height * (n.density c / c.waterDensity) - m) / (n.density c / c.waterDensity)).1 - _| ≤ _ at h3
  have hxs' : n.height * (n.density c / c.waterDensity) - m ≤ n.height * (n.density c / c.waterDensity) := Rounded.sub_le hm.le
  have hxs : (n.height * (n.density c / c.waterDensity) - m).1 ≤ (n.height * (n.density c / c.waterDensity)).1 := hxs'
  have hm' : (0 : K) < m.1 := hm
  have hw := mul_nonneg (show (0 : K) ≤ n.height.1 from hn.thick.le) hdp.le
  unfold weqOf relDensity
  generalize (n.height * (n.density c / c.waterDensity)).1 = x at *
  generalize (n.height * (n.density c / c.waterDensity) - m).1 = y at *
  generalize ((n.height * (n.density c / c.waterDensity) - m) / (n.density c / c.waterDensity)).1 = z at *
  generalize (n.density c / c.waterDensity).1 = d at *
  generalize n.height.1 * d = w at *
  have h4 : |z * d - y| ≤ u * y + η * d := by
    have e : z * d - y = (z - y / d) * d := by field_simp
    rw [e, abs_mul, abs_of_pos hdp]
    refine (mul_le_mul_of_nonneg_right h3 hdp.le).trans (le_of_eq ?_)
    rw [add_mul, mul_assoc, div_mul_cancel₀ _ hdne]
    rfl
  have h5 : u * y ≤ u * x := mul_le_mul_of_nonneg_left hxs hu.le
  have h6 : u * (x - m.1) ≤ u * x := mul_le_mul_of_nonneg_left (by linarith) hu.le
  rw [abs_le] at h1 h2 h4 ⊢
  have h7 : u * x ≤ u * w + u * (u * w + η) := by
    rw [← mul_add]; exact mul_le_mul_of_nonneg_left (by linarith [h1.2]) hu.le
  have h8 : u * (u * w + η) ≤ 1 / 4 * (u * w + η) := mul_le_mul_of_nonneg_right hu1 (add_nonneg (mul_nonneg hu.le hw) hη.le)
  have h9 := mul_nonneg hu.le hw
  constructor <;> nlinarith [h1.1, h1.2, h2.1, h2.2, h4.1, h4.2]

/-- The loop. -/
theorem meltLoop_err {c : Consts F} (hc : DensitySigns c) : ∀ (fuel : Nat) (layers : List (Node F)) {s s' : Grid.MeltState F},
    s.g.WF → s.g.nodes = layers → (∀ n ∈ layers, SolidLayer n) → 0 ≤ s.melt → 0 ≤ s.lwcFromLayers →
    whileM (Grid.removeMeltPass c 0) fuel s = .ok s' →
    0 ≤ s'.melt ∧ (s'.g.nodes ≠ [] → s'.melt = 0) ∧
    |exactTotal (weqOf c) layers + s'.melt.1 - (exactTotal (weqOf c) s'.g.nodes + s.melt.1)| ≤
      u * (4 * exactTotal (weqOf c) layers + layers.length * s.melt.1) + η * (2 * layers.length + exactTotal (relDensity c) layers) ∧
    ∃ removed rest, layers = removed ++ rest ∧ s'.g.nodes.length = rest.length ∧ s'.g.nodes.tail = rest.tail ∧
      Amount p (2 * removed.length) (g ^ (2 * removed.length) * η * removed.length) (s.lwcFromLayers.1 + exactTotal waterOf removed)
        s'.lwcFromLayers.1 := by
  have hu := unit_pos (K := K) (p := p)
  have hη := underflow_pos (K := K) (p := p) (emin := emin)
  intro fuel
  induction fuel with
  | zero => intro layers s s' _ _ _ _ _ h; cases h
  | succ k ih =>
    intro layers s s' hw hd hs hm hl h
    rw [whileM] at h
    cases hb : Grid.removeMeltPass c 0 s with
    | error e => rw [hb] at h; cases h
    | ok o =>
      rw [hb] at h
      have hW : 0 ≤ exactTotal (weqOf c) layers := exactTotal_nonneg _ fun n hn => weqOf_nonneg hc (hs n hn)
      have hD : 0 ≤ exactTotal (relDensity c) layers := exactTotal_nonneg _ fun n hn => relDensity_nonneg hc (hs n hn)
      have hm' : (0 : K) ≤ s.melt.1 := hm
      cases o with
      | none =>
        simp only [Except.ok.injEq] at h; subst h
        refine ⟨hm, ?_, ?_, [], layers, rfl, by rw [hd], by rw [hd], ?_⟩
        · intro hne
          by_contra h0
          have hpos : 0 < s.melt := lt_of_le_of_ne hm (Ne.symm h0)
          have hlt : (0 : Int) < s.g.numberNodes := by
            rw [hw]; have := List.length_pos_of_ne_nil hne; omega
          obtain ⟨a, post, e⟩ := List.exists_cons_of_ne_nil hne
          unfold Grid.removeMeltPass at hb
          have hn : s.g.node 0 = .ok a := by
            unfold Grid.node
            rw [e]; simp [pyGet, normIdx]
          rw [if_pos ⟨hpos, hlt⟩, hn, ok_bind] at hb
          dsimp only at hb
          split_ifs at hb
          · rw [bind_eq_ok] at hb; obtain ⟨_, _, hb⟩ := hb
            rw [bind_eq_ok] at hb; obtain ⟨_, _, hb⟩ := hb
            rw [pure_eq_ok] at hb; cases hb
          · rw [bind_eq_ok] at hb; obtain ⟨_, _, hb⟩ := hb
            rw [pure_eq_ok] at hb; cases hb
          · rw [pure_eq_ok] at hb; cases hb
        · rw [hd, sub_self, abs_zero]; positivity
        · simpa using Amount.refl (p := p) (show (0 : K) ≤ s.lwcFromLayers.1 from hl)
      | some s1 =>
        simp only at h
        cases layers with
        | nil =>
          exfalso
          unfold Grid.removeMeltPass at hb
          have : ¬ (0 < s.melt ∧ (0 : Int) < s.g.numberNodes) := by
            rw [hw, hd]; simp
          rw [if_neg this] at hb; cases hb
        | cons a post =>
          have ha := hs a (by simp)
          have hs' : ∀ n ∈ post, SolidLayer n := fun n hn => hs n (by simp [hn])
          have hWp : 0 ≤ exactTotal (weqOf c) post := exactTotal_nonneg _ fun n hn => weqOf_nonneg hc (hs' n hn)
          have hDp : 0 ≤ exactTotal (relDensity c) post := exactTotal_nonneg _ fun n hn => relDensity_nonneg hc (hs' n hn)
          obtain ⟨hpos, hcase⟩ := meltPass_top hd hb
          rcases hcase with ⟨h1, rfl⟩ | ⟨h1, rfl⟩
          · have hstop : ∀ gr : Grid F, Grid.removeMeltPass c 0 ⟨gr, 0, s.lwcFromLayers⟩ = .ok none := by
              intro gr
              unfold Grid.removeMeltPass
              rw [if_neg (by simp)]; rfl
            cases k with
            | zero => cases h
            | succ k =>
              rw [whileM, hstop] at h
              simp only [Except.ok.injEq] at h; subst h
              refine ⟨le_rfl, fun _ => rfl, ?_, [], a :: post, rfl, rfl, rfl, ?_⟩
              · have h2 := thinned_err hc ha hpos h1
                have e0 : (0 : F).1 = 0 := rfl
                simp only [exactTotal_cons, List.length_cons, e0, add_zero]
                have e : weqOf c a + exactTotal (weqOf c) post - (weqOf c { a with height :=
                    (a.height * (a.density c / c.waterDensity) - s.melt) / (a.density c / c.waterDensity) } + exactTotal (weqOf c) post + s.melt.1) =
                  weqOf c a - (((a.height * (a.density c / c.waterDensity) - s.melt) / (a.density c / c.waterDensity)).1 * relDensity c a +
                    s.melt.1) := by
                  have e1 : ∀ x : F, weqOf c { a with height := x } = x.1 * relDensity c a := fun x => rfl
                  rw [e1 ((a.height * (a.density c / c.waterDensity) - s.melt) / (a.density c / c.waterDensity))]; ring
                rw [e]
                refine h2.trans (add_le_add (mul_le_mul_of_nonneg_left ?_ hu.le) (mul_le_mul_of_nonneg_left ?_ hη.le))
                · have : 0 ≤ ((post.length + 1 : ℕ) : K) * s.melt.1 := by positivity
                  linarith
                · push_cast
                  have : (0 : K) ≤ post.length := Nat.cast_nonneg _
                  linarith
              · simpa using Amount.refl (p := p) (show (0 : K) ≤ s.lwcFromLayers.1 from hl)
          · have hw1 : Grid.WF { s.g with nodes := post, numberNodes := s.g.numberNodes - 1 } := by
              unfold Grid.WF at hw ⊢
              simp only
              rw [hw, hd]; simp
            have hd0 : 0 ≤ a.density c / c.waterDensity := relDensity_nonneg hc ha
            have hm1 : 0 ≤ s.melt - a.height * (a.density c / c.waterDensity) := Rounded.sub_nonneg h1
            have hm2' : s.melt - a.height * (a.density c / c.waterDensity) ≤ s.melt := Rounded.sub_le (Rounded.mul_nonneg ha.thick.le hd0)
            have hm2 : (s.melt - a.height * (a.density c / c.waterDensity)).1 ≤ s.melt.1 := hm2'
            have hwl : 0 ≤ a.lwc * a.height := Rounded.mul_nonneg ha.water ha.thick.le
            obtain ⟨i1, i2, i3, removed, rest, i4, i5, i6, i7⟩ := ih post hw1 rfl hs' hm1 (Rounded.add_nonneg hl hwl) h
            refine ⟨i1, i2, ?_, a :: removed, rest, by rw [i4]; rfl, i5, i6, ?_⟩
            · have h2 := removed_err hc ha h1
              simp only [exactTotal_cons, List.length_cons]
              simp only at i3
              generalize (s.melt - a.height * (a.density c / c.waterDensity)).1 = m1 at *
              have e : weqOf c a + exactTotal (weqOf c) post + s'.melt.1 - (exactTotal (weqOf c) s'.g.nodes + s.melt.1) =
                (exactTotal (weqOf c) post + s'.melt.1 - (exactTotal (weqOf c) s'.g.nodes + m1)) + (weqOf c a + m1 - s.melt.1) := by ring
              rw [e]
              refine (abs_add_le _ _).trans ?_
              have h3 : u * (post.length * m1) ≤ u * (post.length * s.melt.1) :=
                mul_le_mul_of_nonneg_left (mul_le_mul_of_nonneg_left hm2 (Nat.cast_nonneg _)) hu.le
              have h4 := mul_nonneg hu.le (weqOf_nonneg hc ha)
              have h5 := mul_nonneg hη.le (relDensity_nonneg hc ha)
              push_cast
              linarith
            · have a1 := (Amount.refl (p := p) ha.waterOf).rnd (emin := emin)
              have a2 := (((Amount.refl (p := p) (show (0 : K) ≤ s.lwcFromLayers.1 from hl)).weaken (Nat.zero_le 1) le_rfl).add a1).rnd_add
                (Fl.kept s.lwcFromLayers) (binRound_idem _)
              have a3 := (a2.add ((Amount.refl (p := p) (exactTotal_nonneg waterOf (ns := removed) fun n hn =>
                (hs' n (by rw [i4]; simp [hn])).waterOf)).weaken (Nat.zero_le 2) le_rfl)).trans i7
              rw [exactTotal_cons, ← add_assoc, List.length_cons]
              refine a3.weaken (by omega) ?_
              have k1 : g ^ (2 * removed.length) * g ≤ g ^ (2 * (removed.length + 1)) := by rw [← pow_succ]; exact grow_pow_mono (by omega)
              have k2 : g ^ (2 * removed.length) ≤ g ^ (2 * (removed.length + 1)) := grow_pow_mono (by omega)
              have m1 := mul_le_mul_of_nonneg_right k1 hη.le
              have m2 := mul_le_mul_of_nonneg_right k2 (mul_nonneg hη.le (Nat.cast_nonneg (α := K) removed.length))
              push_cast
              linarith

/-- The whole call. -/
theorem removeMelt_err {c : Consts F} (hc : DensitySigns c) {gr gr' : Grid F} {fuel : Nat} {m w : F} (hw : gr.WF)
    (hs : ∀ n ∈ gr.nodes, SolidLayer n) (hm : 0 ≤ m) (h : gr.removeMeltWeq fuel c m = .ok (gr', w)) :
    ∃ left : F, 0 ≤ left ∧ (gr'.nodes ≠ [] → left = 0) ∧
    |exactTotal (weqOf c) gr.nodes + left.1 - (exactTotal (weqOf c) gr'.nodes + m.1)| ≤
      u * (4 * exactTotal (weqOf c) gr.nodes + gr.nodes.length * m.1) + η * (2 * gr.nodes.length + exactTotal (relDensity c) gr.nodes) ∧
    ∃ removed rest, gr.nodes = removed ++ rest ∧ gr'.nodes.length = rest.length ∧ gr'.nodes.tail = rest.tail ∧
      Amount p (2 * removed.length) (g ^ (2 * removed.length) * η * removed.length) (exactTotal waterOf removed) w.1 := by
  unfold Grid.removeMeltWeq at h
  rw [bind_eq_ok] at h; obtain ⟨s, h1, h⟩ := h
  rw [pure_eq_ok] at h
  obtain ⟨i1, i2, i3, removed, rest, i4, i5, i6, i7⟩ := meltLoop_err hc fuel gr.nodes (s := ⟨gr, m, 0⟩) hw rfl hs hm le_rfl h1
  have e0 : (0 : F).1 = 0 := rfl
  simp only [e0, zero_add] at i7
  simp only [if_true, Prod.mk.injEq] at h
  obtain ⟨e1, e2⟩ := h
  have e3 : gr'.nodes = s.g.nodes := by rw [← e1]; rfl
  rw [e3, ← e2]
  exact ⟨s.melt, i1, i2, i3, removed, rest, i4, i5, i6, i7⟩

/-- **C128, the loss of the column.** If a layer is left, the column has lost the melt it was to lose: up to four roundings of its water equivalent, one
rounding of the melt for each layer, and underflow. -/
theorem C128_loss {c : Consts F} (hc : DensitySigns c) {gr gr' : Grid F} {fuel : Nat} {m w : F} (hw : gr.WF)
    (hs : ∀ n ∈ gr.nodes, SolidLayer n) (hm : 0 ≤ m) (h : gr.removeMeltWeq fuel c m = .ok (gr', w)) (hne : gr'.nodes ≠ []) :
    |exactTotal (weqOf c) gr.nodes - exactTotal (weqOf c) gr'.nodes - m.1| ≤
      u * (4 * exactTotal (weqOf c) gr.nodes + gr.nodes.length * m.1) + η * (2 * gr.nodes.length + exactTotal (relDensity c) gr.nodes) := by
  obtain ⟨left, _, h2, h3, _⟩ := removeMelt_err hc hw hs hm h
  rw [h2 hne] at h3
  have e0 : (0 : F).1 = 0 := rfl
  rw [e0, add_zero] at h3
  rwa [sub_sub]

/-- **C128, a column that vanishes.** If no layer is left, the melt was at least the water equivalent of the column, up to the same error. -/
theorem C128_vanish {c : Consts F} (hc : DensitySigns c) {gr gr' : Grid F} {fuel : Nat} {m w : F} (hw : gr.WF)
    (hs : ∀ n ∈ gr.nodes, SolidLayer n) (hm : 0 ≤ m) (h : gr.removeMeltWeq fuel c m = .ok (gr', w)) (he : gr'.nodes = []) :
    exactTotal (weqOf c) gr.nodes ≤ m.1 +
      (u * (4 * exactTotal (weqOf c) gr.nodes + gr.nodes.length * m.1) + η * (2 * gr.nodes.length + exactTotal (relDensity c) gr.nodes)) := by
  obtain ⟨left, h1, _, h3, _⟩ := removeMelt_err hc hw hs hm h
  have h1' : (0 : K) ≤ left.1 := h1
  rw [he, exactTotal_nil, zero_add] at h3
  linarith [(abs_le.1 h3).2]

/-- **C128, the water of the layers that melt away.** Some layers are removed from the top, below the first that is left nothing changes, and the water
handed to percolation is that of the layers removed, up to two roundings for each of them. -/
theorem C128_water {c : Consts F} (hc : DensitySigns c) {gr gr' : Grid F} {fuel : Nat} {m w : F} (hw : gr.WF)
    (hs : ∀ n ∈ gr.nodes, SolidLayer n) (hm : 0 ≤ m) (h : gr.removeMeltWeq fuel c m = .ok (gr', w)) :
    ∃ removed rest, gr.nodes = removed ++ rest ∧ gr'.nodes.length = rest.length ∧ gr'.nodes.tail = rest.tail ∧
      |w.1 - exactTotal waterOf removed| ≤
        (g ^ (2 * removed.length) - 1) * exactTotal waterOf removed + g ^ (2 * removed.length) * η * removed.length := by
  obtain ⟨_, _, _, _, removed, rest, h1, h2, h3, h4⟩ := removeMelt_err hc hw hs hm h
  exact ⟨removed, rest, h1, h2, h3, h4.err⟩

theorem default_densitySigns : DensitySigns (Consts.default F) where
  ice := show (0 : K) ≤ _ from binRound_nonneg (by norm_num)
  water := show (0 : K) ≤ _ from binRound_nonneg (by norm_num)
  air := show (0 : K) ≤ _ from binRound_nonneg (by norm_num)

end

/-! ## In double precision -/

section
variable {K : Type} [Field K] [LinearOrder K] [IsStrictOrderedRing K] [FloorRing K]

/-- **C128 in double precision.** Columns of up to a thousand layers: 10⁻¹² of the water equivalent and the melt. -/
theorem C128_loss_binary64 {c : Consts (Fl (binary64 K))} (hc : DensitySigns c) {gr gr' : Grid (Fl (binary64 K))} {fuel : Nat} {m w : Fl (binary64 K)}
    (hw : gr.WF) (hs : ∀ n ∈ gr.nodes, SolidLayer n) (hm : 0 ≤ m) (hn : gr.nodes.length ≤ 1000)
    (hd : exactTotal (relDensity c) gr.nodes ≤ 1000000) (h : gr.removeMeltWeq fuel c m = .ok (gr', w)) (hne : gr'.nodes ≠ []) :
    |exactTotal (weqOf c) gr.nodes - exactTotal (weqOf c) gr'.nodes - m.1| ≤
      1e-12 * (exactTotal (weqOf c) gr.nodes + m.1) + 2 ^ (-1000 : ℤ) := by
  have hn' : (gr.nodes.length : K) ≤ 1000 := by exact_mod_cast hn
  refine (C128_loss hc hw hs hm h hne).trans (add_le_add ?_ ?_)
  · have hu : unitRoundoff K 52 ≤ 1 / 9 * 1e-15 := by unfold unitRoundoff; norm_num
    have hu0 := unit_pos (K := K) (p := 52)
    have hW : 0 ≤ exactTotal (weqOf c) gr.nodes := exactTotal_nonneg _ fun n hn => weqOf_nonneg hc (hs n hn)
    have hm' : (0 : K) ≤ m.1 := hm
    have h1 : (gr.nodes.length : K) * m.1 ≤ 1000 * m.1 := mul_le_mul_of_nonneg_right hn' hm'
    have h2 : 4 * exactTotal (weqOf c) gr.nodes + gr.nodes.length * m.1 ≤ 1000 * (exactTotal (weqOf c) gr.nodes + m.1) := by linarith
    have h3 : 0 ≤ 1000 * (exactTotal (weqOf c) gr.nodes + m.1) := by linarith
    refine (mul_le_mul_of_nonneg_left h2 hu0.le).trans ((mul_le_mul_of_nonneg_right hu h3).trans ?_)
    norm_num
    linarith
  · obtain ⟨_, k2⟩ := binary64_small (K := K) (i := 0) (s := 2 * gr.nodes.length + exactTotal (relDensity c) gr.nodes) (by omega)
      (by norm_num; linarith)
    rwa [pow_zero, one_mul] at k2

end

/-! Non-vacuity: a column in double precision that loses its two upper layers and a part of the third; not exactly the melt. -/
section
private abbrev V64 := Fl (binary64 ℚ)

private def exColumn : Grid V64 :=
  ⟨[⟨0.1, 273.16, 0.15, 0.3, 0⟩, ⟨0.1, 270, 0.07, 0.5, 0⟩, ⟨0.3, 268.3, 0.011, 0.9, 0⟩, ⟨0.5, 268, 0, 0.9, 0⟩], 4, 0, 0, 0⟩

private theorem exColumn_solid : ∀ n ∈ exColumn.nodes, SolidLayer n := by
  have all : ∀ n ∈ exColumn.nodes, 0 < n.height ∧ 0 ≤ n.iceFraction ∧ 0 ≤ n.lwc := by
    unfold exColumn; decide +kernel
  exact fun n hn => ⟨(all n hn).1, (all n hn).2.1, (all n hn).2.2⟩

example : DensitySigns (Consts.default V64) ∧ exColumn.WF ∧ (∀ n ∈ exColumn.nodes, SolidLayer n) ∧ exColumn.nodes.length ≤ 1000 ∧
    exactTotal (relDensity (Consts.default V64)) exColumn.nodes ≤ 1000000 :=
  ⟨default_densitySigns, rfl, exColumn_solid, by decide, by decide +kernel⟩

example : (exColumn.removeMeltWeq 9 (Consts.default V64) 0.113).toOption.map (fun r => (r.1.nodes.length, decide (0 < r.2),
    decide (exactTotal (weqOf (Consts.default V64)) exColumn.nodes - exactTotal (weqOf (Consts.default V64)) r.1.nodes = (0.113 : V64).1),
    decide (r.2.1 = exactTotal waterOf (exColumn.nodes.take 2)))) = some (2, true, false, false) := by decide +kernel

/-- More melt than the column holds. -/
example : (exColumn.removeMeltWeq 9 (Consts.default V64) 2.5).toOption.map (fun r => r.1.nodes.length) = some 0 := by decide +kernel

end
end Cosipy
