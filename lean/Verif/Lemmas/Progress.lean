import Verif.Lemmas.Closed
import Verif.Lemmas.GridFuel
import Verif.Props.C07
import Verif.Spec.Progress

/-! Where the parts of a time step can raise: remeshing. -/

set_option autoImplicit false
set_option linter.unusedSectionVars false

namespace Cosipy

/-- Whenever the computation raises (other than by running out of fuel), `E` holds. -/
def Safe {β : Type} (x : M β) (E : Prop) : Prop := ∀ e, x = .error e → e = .diverge ∨ E

section
variable {β γ σ : Type} {E F : Prop}

theorem Safe.ok {b : β} : Safe (.ok b : M β) E := fun _ h => by cases h
theorem Safe.pure {b : β} : Safe (pure b : M β) E := fun _ h => by cases h
theorem Safe.of_ok {x : M β} {b : β} (h : x = .ok b) : Safe x E := h ▸ Safe.ok
theorem Safe.of_returns {x : M β} (h : ∃ b, x = .ok b) : Safe x E := by obtain ⟨b, h⟩ := h; exact Safe.of_ok h
theorem Safe.because {x : M β} (h : E) : Safe x E := fun _ _ => .inr h
theorem Safe.imp {x : M β} (h : Safe x E) (hi : E → F) : Safe x F := fun e he => (h e he).imp id hi

theorem Safe.bind {x : M β} {f : β → M γ} (hx : Safe x E) (hf : ∀ b, x = .ok b → Safe (f b) E) : Safe (x >>= f) E := by
  intro e he
  rcases bind_eq_error.1 he with h | ⟨b, h1, h2⟩
  · exact hx e h
  · exact hf b h1 e h2

theorem Safe.ite {p : Prop} [Decidable p] {x y : M β} (hx : p → Safe x E) (hy : ¬ p → Safe y E) :
    Safe (if p then x else y) E := by
  split_ifs with h
  · exact hx h
  · exact hy h

theorem Safe.while {body : σ → M (Option σ)} (P : σ → Prop) (hs : ∀ s, P s → Safe (body s) E)
    (hstep : ∀ s s', P s → body s = .ok (some s') → P s') : ∀ (n : Nat) (s : σ), P s → Safe (whileM body n s) E := by
  intro n
  induction n with
  | zero => intro s _ e he; rw [whileM] at he; cases he; exact .inl rfl
  | succ n ih =>
    intro s hp e he
    rw [whileM] at he
    rcases hb : body s with e' | o | s'
    · rw [hb] at he; cases he; exact hs s hp e hb
    · rw [hb] at he; cases he
    · rw [hb] at he; exact ih s' (hstep s s' hp hb) e he

/-- A loop that eventually returns never raises on the way. -/
theorem Safe.of_mono {f : Nat → M β} (hf : FuelMono f) (h : ∃ N, ∀ n, N ≤ n → ∃ b, f n = .ok b) (n : Nat) : Safe (f n) E := by
  intro e he
  by_contra hne
  obtain ⟨N, hN⟩ := h
  obtain ⟨b, hb⟩ := hN (max N n) (le_max_left _ _)
  have := hf n (max N n) (le_max_right _ _) (by rw [he]; intro h; exact hne (.inl (by cases h; rfl)))
  rw [this, he] at hb; cases hb
end

section
variable {K : Type} [Field K] [LinearOrder K] [IsStrictOrderedRing K]

/-- Layers remeshing can work with. -/
def Meshable (n : Node K) : Prop := 0 < n.height ∧ 0 < n.iceFraction ∧ 0 ≤ n.lwc

theorem closed_meshable : Closed (Meshable (K := K)) := closed_water

theorem Grid.node_returns {g : Grid K} {i : Int} (h0 : -(g.nodes.length : Int) ≤ i) (h1 : i < g.nodes.length) :
    ∃ a, g.node i = .ok a ∧ a ∈ g.nodes := by
  obtain ⟨a, ha⟩ := pyGet_ok_iff.2 ⟨h0, h1⟩
  obtain ⟨k, _, hk⟩ := pyGet_eq_ok.1 ha
  exact ⟨a, ha, List.mem_of_getElem? hk⟩

theorem mergeNodes_returns {g : Grid K} (hp : ∀ n ∈ g.nodes, 0 < n.height) {i : Int} (h0 : -(g.nodes.length : Int) ≤ i)
    (h1 : i + 1 < g.nodes.length) : ∃ g', g.mergeNodes i = .ok g' := by
  obtain ⟨a, ha, ham⟩ := Grid.node_returns h0 (by omega)
  obtain ⟨b, hb, hbm⟩ := Grid.node_returns (g := g) (i := i + 1) (by omega) h1
  have hne : a.height + b.height ≠ 0 := (add_pos (hp a ham) (hp b hbm)).ne'
  unfold Grid.mergeNodes
  simp only [ha, hb, ok_bind, fdiv_of_ne hne]
  obtain ⟨k, hk⟩ := normIdx_isSome_iff.2 (⟨h0, by omega⟩ : -(g.nodes.length : Int) ≤ i ∧ i < g.nodes.length)
  rw [Grid.updateNode_eq_ok.2 ⟨k, hk, rfl⟩, ok_bind]
  have hlen := normIdx_lt hk
  obtain ⟨k', hk'⟩ := normIdx_isSome_iff.2 (⟨by omega, h1⟩ : -(g.nodes.length : Int) ≤ i + 1 ∧ i + 1 < g.nodes.length)
  refine ⟨_, (Grid.removeNode_single ?_).2 ⟨k', by simpa using hk', rfl⟩⟩
  intro h
  have := congrArg List.length h
  simp at this
  rw [this] at hlen; simp at hlen

theorem correctLayerPass_safe {c : Consts K} {i : Int} {h : K} {g : Grid K} (hw : g.WF) (hp : ∀ n ∈ g.nodes, Meshable n)
    (hi : 0 ≤ i) (hl : i < g.nodes.length) : Safe (Grid.correctLayerPass c i h g) False := by
  unfold Grid.correctLayerPass
  obtain ⟨a, ha, _⟩ := Grid.node_returns (g := g) (i := i) (by omega) hl
  rw [ha, ok_bind]
  refine Safe.ite (fun hc => ?_) fun _ => Safe.pure
  have h2 : i + 1 < g.nodes.length := by have := hc.2; rw [hw] at this; exact this
  obtain ⟨b, hb, _⟩ := Grid.node_returns (g := g) (i := i + 1) (by omega) h2
  obtain ⟨g', hg'⟩ := mergeNodes_returns (fun n hn => (hp n hn).1) (by omega) h2
  rw [hb, ok_bind, hg']
  split_ifs <;> exact Safe.pure

theorem correctLayerSplit_returns {c : Consts K} {i : Int} {h : K} {g : Grid K} (hp : ∀ n ∈ g.nodes, Meshable n)
    (hh : 0 < h) (hi : 0 ≤ i) (hl : i < g.nodes.length) : ∃ g', Grid.correctLayerSplit c i h g = .ok g' := by
  unfold Grid.correctLayerSplit
  obtain ⟨a, ha, ham⟩ := Grid.node_returns (g := g) (i := i) (by omega) hl
  rw [ha, ok_bind]
  split_ifs with hc
  · obtain ⟨θ, hθ⟩ := irr_ok (hp a ham).2.1
    have h1 : a.height - h ≠ 0 := (sub_pos.2 hc).ne'
    simp only [hθ, ok_bind, fdiv_of_ne hh.ne', fdiv_of_ne h1]
    obtain ⟨k, hk⟩ := normIdx_isSome_iff.2 (⟨by omega, hl⟩ : -(g.nodes.length : Int) ≤ i ∧ i < g.nodes.length)
    rw [Grid.updateNode_eq_ok.2 ⟨k, hk, rfl⟩, ok_bind]
    obtain ⟨b, hb⟩ := pyGet_ok_iff.2 (⟨by simp; omega, by simpa using hl⟩ :
      -(((g.nodes.modify k (Grid.upd h a.temperature a.iceFraction
        ((if 0 < a.lwc - θ then θ * a.height else a.lwc * a.height) / h))).length : Int)) ≤ i ∧ _)
    unfold Grid.node
    rw [hb, ok_bind]
    exact ⟨_, rfl⟩
  · exact ⟨_, rfl⟩

theorem correctLoop_inv {c : Consts K} {i : Int} {h : K} (hi : 0 ≤ i) (s s' : Grid K)
    (hs : s.WF ∧ (∀ n ∈ s.nodes, Meshable n) ∧ i < s.nodes.length)
    (hb : Grid.correctLayerPass c i h s = .ok (some s')) :
    s'.WF ∧ (∀ n ∈ s'.nodes, Meshable n) ∧ i < s'.nodes.length := by
  obtain ⟨hw, hp, hl⟩ := hs
  refine ⟨hw.correctLayerPass hb, ?_⟩
  unfold Grid.correctLayerPass at hb
  rw [bind_eq_ok] at hb; obtain ⟨a, _, hb⟩ := hb
  split_ifs at hb with hc
  · rw [bind_eq_ok] at hb; obtain ⟨b, _, hb⟩ := hb
    have hlt : i + 1 < s.nodes.length := by have := hc.2; rw [hw] at this; exact this
    have fin : ∀ g', s.mergeNodes i = .ok g' → (∀ n ∈ g'.nodes, Meshable n) ∧ i < g'.nodes.length := fun g' hm =>
      ⟨closed_meshable.mergeNodes hp hm, by have := mergeNodes_length hm; omega⟩
    split_ifs at hb
    · rw [bind_eq_ok] at hb; obtain ⟨g', hm, hb⟩ := hb
      rw [pure_eq_ok] at hb; cases hb; exact fin _ hm
    · rw [bind_eq_ok] at hb; obtain ⟨g', hm, hb⟩ := hb
      rw [pure_eq_ok] at hb; cases hb; exact fin _ hm
    · cases hb
  · cases hb

theorem correctLayer_safe {fuel : Nat} {c : Consts K} {i : Int} {h : K} {g : Grid K} (hw : g.WF)
    (hp : ∀ n ∈ g.nodes, Meshable n) (hh : 0 < h) (hi : 0 ≤ i) (hl : i < g.nodes.length) :
    Safe (g.correctLayer fuel c i h) False := by
  unfold Grid.correctLayer
  refine Safe.bind (Safe.while (fun g : Grid K => g.WF ∧ (∀ n ∈ g.nodes, Meshable n) ∧ i < g.nodes.length)
    (fun s hs => correctLayerPass_safe hs.1 hs.2.1 hi hs.2.2) (correctLoop_inv hi) fuel g ⟨hw, hp, hl⟩) fun g1 h1 => ?_
  have k := (whileM_inv _ (correctLoop_inv hi) fuel g g1 ⟨hw, hp, hl⟩ h1).1
  exact Safe.of_returns (correctLayerSplit_returns k.2.1 hh hi k.2.2)

theorem correctLayer_ne_nil {fuel : Nat} {c : Consts K} {i : Int} {h : K} {g g' : Grid K} (hw : g.WF) (hi : 0 ≤ i)
    (he : g.correctLayer fuel c i h = .ok g') : g'.nodes ≠ [] := by
  obtain ⟨pre, run, post, m, new, _, _, _, hg', _, _, hnew⟩ := correctLayer_ok hi hw he
  rw [hg']
  rcases hnew with ⟨_, rfl⟩ | ⟨x, y, _, rfl⟩ <;> simp

/-- The state of the loops of `log_profile`. -/
def LogInv (s : Grid.LogState K) : Prop := s.g.WF ∧ (∀ n ∈ s.g.nodes, Meshable n) ∧ 0 ≤ s.idx ∧ 0 < s.last

theorem logSnow_inv {fuel : Nat} {c : Consts K} (hs : 0 < c.layerStretching) (s s' : Grid.LogState K) (h : LogInv s)
    (hb : Grid.logSnowPass fuel c s = .ok (some s')) : LogInv s' := by
  obtain ⟨hw, hp, hi, hl⟩ := h
  refine ⟨hw.logSnowPass hb, ?_⟩
  obtain ⟨e, hcase⟩ := logSnowPass_ok hb
  rcases hcase with ⟨_, hc, _, hla⟩ | ⟨_, _, hc, _, hla⟩ | ⟨_, _, hc, _, hla⟩
  · exact ⟨closed_meshable.correctLayer hi hw hl hp hc, by omega, by rw [hla]; positivity⟩
  · exact ⟨closed_meshable.mergeNodes hp hc, by omega, by rw [hla]; exact hl⟩
  · rw [hc, hla]; exact ⟨hp, by omega, hl⟩

theorem logIce_inv {fuel : Nat} {c : Consts K} (hs : 0 < c.layerStretching) (s s' : Grid.LogState K) (h : LogInv s)
    (hb : Grid.logIcePass fuel c s = .ok (some s')) : LogInv s' := by
  obtain ⟨hw, hp, hi, hl⟩ := h
  refine ⟨hw.logIcePass hb, ?_⟩
  obtain ⟨_, e, hcase⟩ := logIcePass_ok hb
  rcases hcase with ⟨_, hc, _, hla⟩ | ⟨_, hc, _, hla⟩
  · exact ⟨closed_meshable.correctLayer hi hw hl hp hc, by omega, by rw [hla]; positivity⟩
  · exact ⟨closed_meshable.mergeNodes hp hc, by omega, by rw [hla]; exact hl⟩

theorem logSnowPass_safe {fuel : Nat} {c : Consts K} {s : Grid.LogState K} (h : LogInv s) :
    Safe (Grid.logSnowPass fuel c s) False := by
  obtain ⟨hw, hp, hi, hl⟩ := h
  unfold Grid.logSnowPass
  rw [Grid.getNumberSnowLayers_eq hw, ok_bind]
  have hle := Grid.nSnow_le c s.g.nodes
  refine Safe.ite (fun h1 => ?_) fun _ => Safe.pure
  refine Safe.ite (fun _ => ?_) fun _ => Safe.ite (fun h3 => ?_) fun _ => Safe.pure
  · exact Safe.bind (correctLayer_safe hw hp hl hi (by omega)) fun _ _ => Safe.pure
  · exact Safe.bind (Safe.of_returns (mergeNodes_returns (fun n hn => (hp n hn).1) (by omega) (by omega)))
      fun _ _ => Safe.pure

theorem logIcePass_safe {fuel : Nat} {c : Consts K} {s : Grid.LogState K} (h : LogInv s) :
    Safe (Grid.logIcePass fuel c s) False := by
  obtain ⟨hw, hp, hi, hl⟩ := h
  unfold Grid.logIcePass
  refine Safe.ite (fun h1 => ?_) fun _ => Safe.pure
  rw [hw] at h1
  refine Safe.ite (fun _ => ?_) fun _ => Safe.ite (fun h3 => ?_) fun _ => Safe.pure
  · exact Safe.bind (correctLayer_safe hw hp hl hi (by omega)) fun _ _ => Safe.pure
  · exact Safe.bind (Safe.of_returns (mergeNodes_returns (fun n hn => (hp n hn).1) (by omega) (by omega)))
      fun _ _ => Safe.pure

/-- Logarithmic remeshing raises on no column of such layers. -/
theorem logProfile_safe {fuel : Nat} {c : Consts K} {g : Grid K} (hw : g.WF) (hp : ∀ n ∈ g.nodes, Meshable n)
    (hf : 0 < c.firstLayerHeight) (hs : 0 < c.layerStretching) : Safe (g.logProfile fuel c) False := by
  unfold Grid.logProfile
  rw [Grid.getTotalSnowheight_eq hw, ok_bind]
  have h0 : ∀ x, LogInv (⟨g, x, c.firstLayerHeight, 0⟩ : Grid.LogState K) := fun _ => ⟨hw, hp, le_rfl, hf⟩
  refine Safe.bind (Safe.while LogInv (fun s h => logSnowPass_safe h) (logSnow_inv hs) fuel _ (h0 _)) fun s h1 => ?_
  have k := (whileM_inv _ (logSnow_inv hs) fuel _ s (h0 _) h1).1
  rw [Grid.getTotalHeight_eq k.1, Grid.getTotalSnowheight_eq k.1, Grid.getNumberSnowLayers_eq k.1]
  simp only [ok_bind]
  refine Safe.bind (Safe.while LogInv (fun s h => logIcePass_safe h) (logIce_inv hs) fuel _ ?_) fun _ _ => Safe.pure
  exact ⟨k.1, k.2.1, Int.natCast_nonneg _, k.2.2.2⟩

/-- The snow loop of adaptive remeshing. -/
def AdaptInv (s : Grid.AdaptState K) : Prop := s.g.WF ∧ (∀ n ∈ s.g.nodes, Meshable n) ∧ 0 ≤ s.idx

theorem adaptSnow_inv {c : Consts K} (s s' : Grid.AdaptState K) (h : AdaptInv s)
    (hb : Grid.adaptSnowPass c s = .ok (some s')) : AdaptInv s' := by
  obtain ⟨hw, hp, hi⟩ := h
  refine ⟨hw.adaptSnowPass hb, ?_⟩
  rcases adaptSnowPass_ok hi hb with ⟨e, _, _, hm⟩ | ⟨e, _, pre, a, post, hd, _, _, hg⟩ | ⟨e, _, hg⟩
  · exact ⟨closed_meshable.mergeNodes hp hm, by omega⟩
  · refine ⟨fun n hn => hp n ?_, by omega⟩
    rw [hg] at hn; rw [hd]
    simp only [List.mem_append, List.mem_cons] at hn ⊢
    tauto
  · exact ⟨by rw [hg]; exact hp, by omega⟩

theorem adaptSnowPass_safe {c : Consts K} {s : Grid.AdaptState K} (h : AdaptInv s) :
    Safe (Grid.adaptSnowPass c s) False := by
  obtain ⟨hw, hp, hi⟩ := h
  unfold Grid.adaptSnowPass
  rw [Grid.getNumberSnowLayers_eq hw, ok_bind]
  have hle := Grid.nSnow_le c s.g.nodes
  refine Safe.ite (fun h1 => ?_) fun _ => Safe.pure
  obtain ⟨a, ha, _⟩ := Grid.node_returns (g := s.g) (i := s.idx) (by omega) (by omega)
  obtain ⟨b, hb, _⟩ := Grid.node_returns (g := s.g) (i := s.idx + 1) (by omega) (by omega)
  rw [ha, ok_bind, hb, ok_bind]
  refine Safe.ite (fun _ => ?_) fun _ => Safe.ite (fun _ => ?_) fun _ => Safe.pure
  · exact Safe.bind (Safe.of_returns (mergeNodes_returns (fun n hn => (hp n hn).1) (by omega) (by omega)))
      fun _ _ => Safe.pure
  · refine Safe.bind (Safe.of_returns ?_) fun _ _ => Safe.pure
    obtain ⟨k, hk⟩ := normIdx_isSome_iff.2 (⟨by omega, by omega⟩ : -(s.g.nodes.length : Int) ≤ s.idx ∧ s.idx < s.g.nodes.length)
    exact ⟨_, (Grid.removeNode_single (by intro h; rw [h] at hle h1; simp at hle; omega)).2 ⟨k, hk, rfl⟩⟩

theorem adaptIce_inv {c : Consts K} (s s' : Grid K × Int)
    (h : s.1.WF ∧ (∀ n ∈ s.1.nodes, Meshable n) ∧ 0 ≤ s.2 ∧ s.1.nodes ≠ [])
    (hb : Grid.adaptIcePass c s = .ok (some s')) : s'.1.WF ∧ (∀ n ∈ s'.1.nodes, Meshable n) ∧ 0 ≤ s'.2 ∧ s'.1.nodes ≠ [] := by
  obtain ⟨hw, hp, hi, hne⟩ := h
  refine ⟨hw.adaptIcePass hb, ?_⟩
  obtain ⟨hlt, ⟨e, hm⟩ | ⟨e, hm⟩⟩ := adaptIcePass_ok hb
  · refine ⟨closed_meshable.mergeNodes hp hm, by omega, ?_⟩
    have := mergeNodes_length hm
    rw [hw] at hlt
    intro h; rw [h] at this; simp at this; omega
  · rw [hm]; exact ⟨hp, by omega, hne⟩

theorem adaptIcePass_safe {c : Consts K} {s : Grid K × Int}
    (h : s.1.WF ∧ (∀ n ∈ s.1.nodes, Meshable n) ∧ 0 ≤ s.2 ∧ s.1.nodes ≠ []) : Safe (Grid.adaptIcePass c s) False := by
  obtain ⟨hw, hp, hi, _⟩ := h
  unfold Grid.adaptIcePass
  refine Safe.ite (fun h1 => ?_) fun _ => Safe.pure
  rw [hw] at h1
  obtain ⟨a, ha, _⟩ := Grid.node_returns (g := s.1) (i := s.2) (by omega) (by omega)
  rw [ha, ok_bind]
  refine Safe.ite (fun _ => ?_) fun _ => Safe.pure
  exact Safe.bind (Safe.of_returns (mergeNodes_returns (fun n hn => (hp n hn).1) (by omega) (by omega)))
    fun _ _ => Safe.pure

/-- The snow loop of adaptive remeshing leaves at most one layer. -/
def AdaptExhausts (fuel : Nat) (c : Consts K) (g : Grid K) : Prop :=
  ∃ s, whileM (Grid.adaptSnowPass c) fuel ⟨g, 0, 0⟩ = .ok s ∧ s.g.nodes.length ≤ 1

/-- Adaptive remeshing raises only if its snow loop leaves at most one layer. -/
theorem adaptiveProfile_safe {fuel : Nat} {c : Consts K} {g : Grid K} (hw : g.WF) (hp : ∀ n ∈ g.nodes, Meshable n)
    (hf : 0 < c.firstLayerHeight) : Safe (g.adaptiveProfile fuel c) (AdaptExhausts fuel c g) := by
  unfold Grid.adaptiveProfile
  have h0 : AdaptInv (⟨g, 0, 0⟩ : Grid.AdaptState K) := ⟨hw, hp, le_rfl⟩
  refine Safe.bind ((Safe.while AdaptInv (fun s h => adaptSnowPass_safe h) adaptSnow_inv fuel _ h0).imp False.elim)
    fun s h1 => ?_
  by_cases hlen : s.g.nodes.length ≤ 1
  · exact Safe.because ⟨s, h1, hlen⟩
  have k := (whileM_inv _ adaptSnow_inv fuel _ s h0 h1).1
  rw [Grid.getNumberSnowLayers_eq k.1, ok_bind]
  simp only
  obtain ⟨a, ha, _⟩ := Grid.node_returns (g := s.g) (i := 0) (by omega) (by omega)
  have hne : s.g.nodes ≠ [] := by intro h; rw [h] at hlen; simp at hlen
  have mid : ∀ (g2 : Grid K) (i2 : Int), g2.WF → (∀ n ∈ g2.nodes, Meshable n) → 0 ≤ i2 → g2.nodes ≠ [] →
      Safe (do let x ← whileM (Grid.adaptIcePass c) fuel (g2, i2)
               x.1.correctLayer fuel c 0 c.firstLayerHeight) (AdaptExhausts fuel c g) := by
    intro g2 i2 w p i n
    refine Safe.bind ((Safe.while _ (fun s h => adaptIcePass_safe h) adaptIce_inv fuel (g2, i2) ⟨w, p, i, n⟩).imp
      False.elim) fun x hx => ?_
    have k3 := (whileM_inv _ adaptIce_inv fuel _ x ⟨w, p, i, n⟩ hx).1
    exact (correctLayer_safe k3.1 k3.2.1 hf le_rfl (by have := List.length_pos_iff.2 k3.2.2.2; omega)).imp False.elim
  split_ifs with c1
  · rw [ha, ok_bind]
    split_ifs with c2
    · refine Safe.bind ?_ fun x hx => ?_
      · refine Safe.bind ((correctLayer_safe k.1 k.2.1 hf (by omega) (by omega)).imp False.elim) fun _ _ => Safe.pure
      · rw [bind_eq_ok] at hx; obtain ⟨g2, hg2, hx⟩ := hx
        rw [pure_eq_ok] at hx; subst hx
        exact mid _ _ (k.1.correctLayer hg2) (closed_meshable.correctLayer (by omega) k.1 hf k.2.1 hg2) (by omega)
          (correctLayer_ne_nil k.1 (by omega) hg2)
    · exact mid _ _ k.1 k.2.1 (by omega) hne
  · rw [ha]
    exact mid _ _ k.1 k.2.1 (by omega) hne

variable [Transc K]

theorem updateGrid_safe {fuel : Nat} {c : Consts K} {g : Grid K} (hw : g.WF) (hp : ∀ n ∈ g.nodes, Meshable n)
    (hf : 0 < c.firstLayerHeight) (hs : 0 < c.layerStretching) :
    Safe (g.updateGrid fuel c) (RemeshExhausts fuel c g) := by
  unfold Grid.updateGrid
  refine Safe.bind ?_ fun g1 h1 => ?_
  · unfold Grid.remesh
    split
    · exact (logProfile_safe hw hp hf hs).imp False.elim
    · next hm => exact (adaptiveProfile_safe hw hp hf).imp fun h => .inl ⟨hm, h⟩
    · exact Safe.ok
  · rcases hn : g1.nodes with _ | ⟨a, rest⟩
    · exact Safe.because (.inr (.inl ⟨g1, h1, hn⟩))
    · have ha : g1.node 0 = .ok a := by unfold Grid.node; rw [hn]; exact pyGet_zero
      rw [ha, ok_bind]
      refine Safe.ite (fun _ => Safe.of_returns ?_) fun _ => Safe.pure
      exact ⟨_, (Grid.removeNode_single (by rw [hn]; simp)).2 ⟨0, by rw [hn]; exact normIdx_of_nat (by simp), rfl⟩⟩

end
end Cosipy
