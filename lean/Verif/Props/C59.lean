import Verif.Lemmas.Physical
import Verif.Props.C28
import Verif.Props.C01
import Verif.Lemmas.Example
import Mathlib.Analysis.Complex.ExponentialBounds

/-!
# C59 Simulated columns stay physical

`C59_run`: for every forcing sequence whose air temperatures are at least `tlo`, if no column of the run ever has a layer
of height ≤ 0 (compaction below 100 % in every step), then every layer of every column of the run has a positive ice
fraction, no negative liquid water and a temperature between `tlo` and the melting point. `tlo` may be anything at which
freezing cannot overheat a layer, about 120 K with the shipped constants. Radiation, precipitation, wind, humidity are
arbitrary. `C59_step` is the same for one step. For two densification methods nothing has to be assumed about
compaction: `C59_run_constant` and, for time steps below about 9 hours, `C59_run_empirical`. For Boone compaction,
`C59_boone_light` gives a sufficient condition on the mass of the column, and `C59_boone_refuted` shows that without
any condition it is false: 3 m of fresh snow at the melting point and a daily step give a layer of negative height.
-/

set_option autoImplicit false
set_option linter.unusedSectionVars false

namespace Cosipy
section
variable {K : Type} [Field K] [LinearOrder K] [IsStrictOrderedRing K] [Transc K]

/-- The invariant along a run, for any densification that keeps columns physical up to heights. -/
theorem run_phys {sv : Solvers K} (hb : sv.RespectsLower) {fuel : Nat} {c : Consts K} {r : RunCfg K} {tlo : K}
    (hs : Sane c r tlo)
    (hd : ∀ g g' : Grid K, g.WF → densification c g r.slope r.dt = .ok g' → (∀ n ∈ g.nodes, PhysLayer c tlo n) →
      (∀ n ∈ g'.nodes, 0 < n.height) → ∀ n ∈ g'.nodes, PhysLayer c tlo n) :
    ∀ (fs : List (Forcing K)) {s : SimState K}, s.grid.WF → (∀ n ∈ s.grid.nodes, PhysLayer c tlo n) →
    (∀ f ∈ fs, tlo ≤ f.t2) → (∀ s', Visited sv fuel c r s fs s' → ∀ n ∈ s'.grid.nodes, 0 < n.height) →
    ∀ s', Visited sv fuel c r s fs s' → ∀ n ∈ s'.grid.nodes, PhysLayer c tlo n := by
  intro fs
  induction fs with
  | nil =>
    intro s hw hg _ _ s' ⟨pre, suf, os, e, h⟩
    have : pre = [] := by
      cases pre with
      | nil => rfl
      | cons a b => simp at e
    subst this
    rw [run] at h; cases h; exact hg
  | cons f fs ih =>
    intro s hw hg hT hH s' ⟨pre, suf, os, e, h⟩
    cases pre with
    | nil => rw [run] at h; cases h; exact hg
    | cons a pre =>
      simp only [List.cons_append, List.cons.injEq] at e
      obtain ⟨rfl, rfl⟩ := e
      obtain ⟨s1, o1, os1, h1, h2, rfl⟩ := run_cons h
      obtain ⟨g8, w8, e8, p8⟩ := step_phys hb hs hw hg (hT f (by simp)) h1
      have v1 : Visited sv fuel c r s (f :: (pre ++ suf)) s1 :=
        ⟨[f], pre ++ suf, [o1], by simp, by simp [run, h1]; rfl⟩
      have p1 := hd g8 s1.grid w8 e8 p8 (hH s1 v1)
      refine ih (C01_step hw h1) p1 (fun g hg => hT g (by simp [hg])) ?_ s' ⟨pre, suf, os1, rfl, h2⟩
      rintro s'' ⟨pre', suf', os', e', h'⟩
      refine hH s'' ⟨f :: pre', suf', o1 :: os', by simp [e'], ?_⟩
      rw [run, h1, ok_bind]
      simp only [h', ok_bind]
      rfl

/-- **C59, constant density.** With the densification method `constant`, over any forcing sequence with air temperatures
at least `tlo`, every layer of every column of the run is physical. -/
theorem C59_run_constant {sv : Solvers K} (hb : sv.RespectsLower) {fuel : Nat} {c : Consts K} {r : RunCfg K} {tlo : K}
    (hs : Sane c r tlo) (hm : c.densificationMethod = .constant) {fs : List (Forcing K)} {s s' : SimState K}
    {os : List (StepOut K)} (hw : s.grid.WF) (hg : ∀ n ∈ s.grid.nodes, PhysLayer c tlo n) (hT : ∀ f ∈ fs, tlo ≤ f.t2)
    (h : run sv fuel c r s fs = .ok (s', os)) : ∀ n ∈ s'.grid.nodes, PhysLayer c tlo n := by
  have key : ∀ (fs : List (Forcing K)) {s s' : SimState K} {os : List (StepOut K)}, s.grid.WF →
      (∀ n ∈ s.grid.nodes, PhysLayer c tlo n) → (∀ f ∈ fs, tlo ≤ f.t2) → run sv fuel c r s fs = .ok (s', os) →
      ∀ n ∈ s'.grid.nodes, PhysLayer c tlo n := by
    intro fs
    induction fs with
    | nil => intro s s' os _ hg _ h; rw [run] at h; cases h; exact hg
    | cons f fs ih =>
      intro s s' os hw hg hT h
      obtain ⟨s1, o1, os1, h1, h2, rfl⟩ := run_cons h
      obtain ⟨g8, w8, e8, p8⟩ := step_phys hb hs hw hg (hT f (by simp)) h1
      have : s1.grid = g8 := by
        unfold densification at e8
        rw [hm] at e8
        exact (ok_inj.1 e8).symm
      exact ih (C01_step hw h1) (this ▸ p8) (fun g hg => hT g (by simp [hg])) h2
  exact key fs hw hg hT h

end

section Reals

/-- Densification keeps everything but possibly the height. -/
theorem densification_phys {c : Consts ℝ} (hc : c.Phys) {tlo : ℝ} {g g' : Grid ℝ} {slope dt : ℝ} (hdt : 0 < dt)
    (hcos : c.densificationMethod = .vionnet → 0 ≤ Real.cos slope) (hg : ∀ n ∈ g.nodes, PhysLayer c tlo n)
    (h : densification c g slope dt = .ok g') :
    List.Forall₂ (fun n m => 0 < n.height → PhysLayer c tlo n → m.height ≤ n.height ∧ n.iceFraction ≤ m.iceFraction ∧
      n.lwc ≤ m.lwc ∧ m.temperature = n.temperature) g.nodes g'.nodes := by
  have hs : ∀ n ∈ g.nodes, SnowLike n := fun n hn => ⟨(hg n hn).height, (hg n hn).ice, (hg n hn).water⟩
  have key : ∀ {rs : List (Node ℝ)}, List.Forall₂ (fun n m => m = n ∨ ∃ d, 0 ≤ d ∧ Compacted c d n m) g.nodes rs →
      List.Forall₂ (fun n m => 0 < n.height → PhysLayer c tlo n → m.height ≤ n.height ∧ n.iceFraction ≤ m.iceFraction ∧
        n.lwc ≤ m.lwc ∧ m.temperature = n.temperature) g.nodes rs := by
    intro rs hr
    refine List.Forall₂.imp (fun n m hnm _ hp => ?_) hr
    rcases hnm with rfl | ⟨d, hd, hcm⟩
    · exact ⟨le_rfl, le_rfl, le_rfl, rfl⟩
    · have hm := hcm.monotone hc hd ⟨hp.height, hp.ice, hp.water⟩
      exact ⟨hm.1, hm.2.2.1, hm.2.2.2, hcm.temp⟩
  unfold densification at h
  split at h
  · unfold methodBoone at h
    simp only [bind_eq_ok] at h
    obtain ⟨k, _, rs, hr, h⟩ := h
    rw [pure_eq_ok] at h; subst h
    refine key (List.Forall₂.imp (fun n m hnm => ?_) (booneLayers_ok hc (dt := dt) le_rfl (by simp) hs hr))
    rcases hnm with rfl | ⟨d, hd, _, hcm⟩
    · exact Or.inl rfl
    · exact Or.inr ⟨d, hd hdt.le, hcm⟩
  · next hv =>
    unfold methodVionnet at h
    simp only [bind_eq_ok] at h
    obtain ⟨k, _, rs, hr, h⟩ := h
    rw [pure_eq_ok] at h; subst h
    rw [← mul_zero (Real.cos slope)] at hr
    refine key (List.Forall₂.imp (fun n m hnm => ?_) (vionnetLayers_ok hc hdt le_rfl (by simp) hs hr))
    rcases hnm with rfl | ⟨d, hd, _, _, hcm⟩
    · exact Or.inl rfl
    · exact Or.inr ⟨d, hd (hcos hv), hcm⟩
  · unfold methodEmpirical at h
    simp only [bind_eq_ok] at h
    obtain ⟨k, _, rs, hr, h⟩ := h
    rw [pure_eq_ok] at h; subst h
    refine empiricalLayers_ok (fun n _ _ => ⟨le_rfl, le_rfl, le_rfl, rfl⟩) (fun n hn m hm _ _ => ?_) hr
    rcases empiricalLayer_ok hc hdt.le (hs n hn) hm with rfl | ⟨a, b, b', b0, b1, b2, b3, _⟩
    · exact ⟨le_rfl, le_rfl, le_rfl, rfl⟩
    · exact ⟨b3, b1, b0 ▸ le_rfl, b⟩
  · cases h
    exact List.forall₂_same.2 fun _ _ _ _ => ⟨le_rfl, le_rfl, le_rfl, rfl⟩
  · cases h

theorem densification_keeps_phys {c : Consts ℝ} (hc : c.Phys) {tlo : ℝ} {g g' : Grid ℝ} {slope dt : ℝ} (hdt : 0 < dt)
    (hcos : c.densificationMethod = .vionnet → 0 ≤ Real.cos slope) (hg : ∀ n ∈ g.nodes, PhysLayer c tlo n)
    (h : densification c g slope dt = .ok g') (hh : ∀ n ∈ g'.nodes, 0 < n.height) :
    ∀ n ∈ g'.nodes, PhysLayer c tlo n := by
  intro m hm
  refine forall₂_transfer (Q := fun m => 0 < m.height → PhysLayer c tlo m) (densification_phys hc hdt hcos hg h) hg
    (fun n m hn hr hpos => ?_) m hm (hh m hm)
  obtain ⟨_, r2, r3, r4⟩ := hr hn.height hn
  exact ⟨hpos, hn.ice.trans_le r2, hn.water.trans r3, r4 ▸ hn.cold, r4 ▸ hn.warm⟩

/-- **C59, one step.** From a physical column, a step with air temperature at least `tlo` gives a column in which every
layer whose height is still positive is physical, for every densification method. -/
theorem C59_step {sv : Solvers ℝ} (hb : sv.RespectsLower) {fuel : Nat} {c : Consts ℝ} {r : RunCfg ℝ} {tlo : ℝ}
    (hs : Sane c r tlo) (hcos : c.densificationMethod = .vionnet → 0 ≤ Real.cos r.slope) {s s' : SimState ℝ}
    {f : Forcing ℝ} {o : StepOut ℝ} (hw : s.grid.WF) (hg : ∀ n ∈ s.grid.nodes, PhysLayer c tlo n) (hT : tlo ≤ f.t2)
    (h : step sv fuel c r s f = .ok (s', o)) : ∀ n ∈ s'.grid.nodes, 0 < n.height → PhysLayer c tlo n := by
  obtain ⟨g8, w8, e8, p8⟩ := step_phys hb hs hw hg hT h
  refine forall₂_transfer (densification_phys hs.phys hs.dt hcos p8 e8) p8 (fun n m hn hr hpos => ?_)
  obtain ⟨_, r2, r3, r4⟩ := hr hn.height hn
  exact ⟨hpos, hn.ice.trans_le r2, hn.water.trans r3, r4 ▸ hn.cold, r4 ▸ hn.warm⟩

/-- **C59.** For every forcing sequence of any length with air temperatures at least `tlo`: if compaction never uses up a
whole layer (all columns of the run have positive layer heights), every layer of every column of the run is physical. -/
theorem C59_run {sv : Solvers ℝ} (hb : sv.RespectsLower) {fuel : Nat} {c : Consts ℝ} {r : RunCfg ℝ} {tlo : ℝ}
    (hs : Sane c r tlo) (hcos : c.densificationMethod = .vionnet → 0 ≤ Real.cos r.slope) {s : SimState ℝ}
    {fs : List (Forcing ℝ)} (hw : s.grid.WF) (hg : ∀ n ∈ s.grid.nodes, PhysLayer c tlo n) (hT : ∀ f ∈ fs, tlo ≤ f.t2)
    (hcomp : ∀ s', Visited sv fuel c r s fs s' → ∀ n ∈ s'.grid.nodes, 0 < n.height) :
    ∀ s', Visited sv fuel c r s fs s' → ∀ n ∈ s'.grid.nodes, PhysLayer c tlo n :=
  run_phys hb hs (fun _ _ _ hd hp hh => densification_keeps_phys hs.phys hs.dt hcos hp hd hh) fs hw hg hT hcomp

theorem density_ge_air {c : Consts ℝ} (hc : c.Phys) {n : Node ℝ} (h0 : 0 ≤ n.iceFraction) (h1 : 0 ≤ n.lwc) :
    c.airDensity ≤ n.density c := by
  have hai : c.airDensity ≤ c.iceDensity := hc.air_lt.le.trans hc.thr_le
  have haw : c.airDensity ≤ c.waterDensity := hai.trans hc.ice_le
  have ha := hc.air
  unfold Node.density Node.airPorosity
  rw [pyMax_eq]
  have e2 := mul_le_mul_of_nonneg_right (le_max_right 0 (1 - n.lwc - n.iceFraction)) ha.le
  nlinarith [mul_nonneg h0 (sub_nonneg.2 hai), mul_nonneg h1 (sub_nonneg.2 haw)]

/-- The empirical method never uses up a layer for moderate time steps. -/
theorem empiricalLayer_height {c : Consts ℝ} (hc : c.Phys) {dt : ℝ} (hdt : 0 ≤ dt)
    (hx : (600 - c.airDensity) * (1 + (dt / 800000) ^ 2) < 600) {n m : Node ℝ} (hn : SnowLike n)
    (h : empiricalLayer c dt n = .ok m) : 0 < m.height := by
  rcases empiricalLayer_ok hc hdt hn h with rfl | ⟨a, b1, b2, b3, b4, b5, b6, b7⟩
  · exact hn.1
  have hmd := density_pos hc (hn.2.1.le.trans b4) (b3 ▸ hn.2.2 : 0 ≤ m.lwc)
  have hna := density_ge_air hc hn.2.1.le hn.2.2
  have hid := hc.ice
  -- the new ice fraction
  have hice : 600 + (n.density c - 600) * Real.exp (-dt / 800000) ≤ m.density c ∨ m = n := by
    have h' := h
    unfold empiricalLayer at h'
    simp only [bind_eq_ok] at h'
    obtain ⟨q, hq, h'⟩ := h'
    split_ifs at h' with hlt
    · simp only [bind_eq_ok] at h'
      obtain ⟨q', hq', h'⟩ := h'
      rw [pure_eq_ok] at h'
      left
      have e : m.iceFraction = (600.0 + (n.density c - 600.0) * Transc.exp (-dt / 800000)) / c.iceDensity := by
        rw [← h']; rfl
      have h600 : (600.0 : ℝ) = 600 := by norm_num
      rw [h600] at e
      have e' : m.iceFraction * c.iceDensity = 600 + (n.density c - 600) * Real.exp (-dt / 800000) := by
        rw [e, div_mul_cancel₀ _ hid.ne']; rfl
      rw [← e']; exact hmd.2
    · rw [pure_eq_ok] at h'; exact Or.inr h'.symm
  rcases hice with hice | rfl
  swap
  · exact hn.1
  set x : ℝ := dt / 800000 with hxdef
  have hx0 : 0 ≤ x := by positivity
  have hexp : Real.exp (-dt / 800000) + x ≤ 1 + x ^ 2 := by
    rw [neg_div, ← hxdef, Real.exp_neg]
    have h1 : 1 + x ≤ Real.exp x := by have := Real.add_one_le_exp x; linarith
    have h2 : (Real.exp x)⁻¹ ≤ (1 + x)⁻¹ := inv_anti₀ (by linarith) h1
    have h3 : (1 + x)⁻¹ ≤ 1 - x + x ^ 2 := by
      rw [inv_le_iff_one_le_mul₀ (by linarith)]
      nlinarith [pow_nonneg hx0 3]
    linarith
  have hle : (600 - n.density c) * (Real.exp (-dt / 800000) + x) < 600 := by
    refine lt_of_le_of_lt ?_ hx
    exact mul_le_mul (by linarith) hexp (by positivity) (by linarith)
  have hpos : 0 < m.density c - 1 / 800000 * (600 - n.density c) * dt := by
    have e : 1 / 800000 * (600 - n.density c) * dt = (600 - n.density c) * x := by rw [hxdef]; ring
    rw [e]; nlinarith
  have := mul_pos hpos hn.1
  rw [← b7] at this
  exact (pos_iff_pos_of_mul_pos this).1 hmd.1

/-- **C59, empirical densification.** With the method `empirical` and a time step with
`(600 - ρ_air)(1 + (dt / 800000)²) < 600` (below 9.5 h with the shipped constants), over any forcing sequence with air
temperatures at least `tlo`, every layer of every column of the run is physical: nothing is assumed about compaction. -/
theorem C59_run_empirical {sv : Solvers ℝ} (hb : sv.RespectsLower) {fuel : Nat} {c : Consts ℝ} {r : RunCfg ℝ} {tlo : ℝ}
    (hs : Sane c r tlo) (hm : c.densificationMethod = .empirical)
    (hx : (600 - c.airDensity) * (1 + (r.dt / 800000) ^ 2) < 600) {fs : List (Forcing ℝ)} {s s' : SimState ℝ}
    {os : List (StepOut ℝ)} (hw : s.grid.WF) (hg : ∀ n ∈ s.grid.nodes, PhysLayer c tlo n) (hT : ∀ f ∈ fs, tlo ≤ f.t2)
    (h : run sv fuel c r s fs = .ok (s', os)) : ∀ n ∈ s'.grid.nodes, PhysLayer c tlo n := by
  have hcos : c.densificationMethod = .vionnet → 0 ≤ Real.cos r.slope := fun e => by rw [hm] at e; cases e
  have key : ∀ (fs : List (Forcing ℝ)) {s s' : SimState ℝ} {os : List (StepOut ℝ)}, s.grid.WF →
      (∀ n ∈ s.grid.nodes, PhysLayer c tlo n) → (∀ f ∈ fs, tlo ≤ f.t2) → run sv fuel c r s fs = .ok (s', os) →
      ∀ n ∈ s'.grid.nodes, PhysLayer c tlo n := by
    intro fs
    induction fs with
    | nil => intro s s' os _ hg _ h; rw [run] at h; cases h; exact hg
    | cons f fs ih =>
      intro s s' os hw hg hT h
      obtain ⟨s1, o1, os1, h1, h2, rfl⟩ := run_cons h
      obtain ⟨g8, w8, e8, p8⟩ := step_phys hb hs hw hg (hT f (by simp)) h1
      refine ih (C01_step hw h1) ?_ (fun g hg => hT g (by simp [hg])) h2
      refine densification_keeps_phys hs.phys hs.dt hcos p8 e8 ?_
      unfold densification at e8
      rw [hm] at e8
      simp only [methodEmpirical, bind_eq_ok] at e8
      obtain ⟨k, _, rs, hr, e8⟩ := e8
      rw [pure_eq_ok] at e8
      rw [← e8]
      have hsl : ∀ n ∈ g8.nodes, SnowLike n := fun n hn => ⟨(p8 n hn).height, (p8 n hn).ice, (p8 n hn).water⟩
      have hf := empiricalLayers_ok (P := fun n m => SnowLike n → 0 < m.height) (fun n hn => hn.1)
        (fun n _ m hm hn => empiricalLayer_height hs.phys hs.dt.le hx hn hm) hr
      exact forall₂_transfer hf hsl fun n m hn hr => hr hn
  exact key fs hw hg hT h

theorem booneRate_lt {c : Consts ℝ} {dt ms t rho d B : ℝ} (hms : 0 ≤ ms) (hB : ms ≤ B) (hdt : 0 ≤ dt) (ht : t ≤ c.zeroTemperature)
    (hrho : 0 ≤ rho) (hsmall : (B * 9.81 / 37000000 + 0.0000028) * dt < 1) (h : booneRate c dt ms t rho = .ok d) : d < 1 := by
  rw [booneRate_ok h]
  refine lt_of_le_of_lt (mul_le_mul_of_nonneg_right ?_ hdt) hsmall
  have h1 : 1 ≤ Real.exp (0.081 * (c.zeroTemperature - t) + 0.018 * rho) := by
    apply Real.one_le_exp
    have : 0 ≤ c.zeroTemperature - t := by linarith
    positivity
  have h2 : Real.exp (-0.042 * (c.zeroTemperature - t) - 0.046 * max 0 (rho - 150)) ≤ 1 := by
    rw [Real.exp_le_one_iff]
    have := le_max_left 0 (rho - 150)
    nlinarith
  have h3 : ms * 9.81 / (37000000 * Real.exp (0.081 * (c.zeroTemperature - t) + 0.018 * rho)) ≤ B * 9.81 / 37000000 := by
    apply div_le_div₀ (by nlinarith) (by nlinarith) (by norm_num) (by nlinarith)
  have h4 : 0.0000028 * Real.exp (-0.042 * (c.zeroTemperature - t) - 0.046 * max 0 (rho - 150)) ≤ 0.0000028 := by
    nlinarith
  linarith

theorem booneLayers_light {c : Consts ℝ} (hc : c.Phys) {tlo dt B : ℝ} (hdt : 0 ≤ dt)
    (hsmall : (B * 9.81 / 37000000 + 0.0000028) * dt < 1) : ∀ {k : Nat} {ms : ℝ} {p : Option (Node ℝ)} {ns rs : List (Node ℝ)},
    0 ≤ ms → (∀ m, p = some m → SnowLike m) → (∀ n ∈ ns, PhysLayer c tlo n) →
    (ms + (match p with
      | some m => m.density c * m.height + (ns.map fun n => n.density c * n.height).sum
      | none => (match ns with | n :: _ => n.density c * n.height / 2 | [] => 0) +
          (ns.map fun n => n.density c * n.height).sum) ≤ B) →
    booneLayers c dt k ms p ns = .ok rs → ∀ m ∈ rs, 0 < m.height := by
  intro k
  induction k with
  | zero =>
    intro ms p ns rs _ _ hns _ h
    rw [booneLayers] at h; cases h
    exact fun n hn => (hns n hn).height
  | succ k ih =>
    intro ms p ns rs hms hp hns hB h
    cases ns with
    | nil => rw [booneLayers] at h; cases h
    | cons n ns =>
      have hn := hns n (by simp)
      have hsn : SnowLike n := ⟨hn.height, hn.ice, hn.water⟩
      have hdn := (density_pos hc hn.ice.le hn.water).1
      have hmn : 0 < n.density c * n.height := mul_pos hdn hn.height
      have hrest : 0 ≤ (ns.map fun n => n.density c * n.height).sum := by
        apply List.sum_nonneg
        intro x hx
        obtain ⟨m, hm, rfl⟩ := List.mem_map.1 hx
        have := hns m (by simp [hm])
        exact mul_nonneg (density_pos hc this.ice.le this.water).1.le this.height.le
      have hload := booneLoad_nonneg hc hp hsn
      have hp' : ∀ m, some n = some m → SnowLike m := fun m hm => by cases hm; exact hsn
      simp only [List.map_cons, List.sum_cons] at hB
      have hB1 : ms + booneLoad c p n + (n.density c * n.height + (ns.map fun n => n.density c * n.height).sum) ≤ B := by
        cases p with
        | none =>
          simp only [booneLoad] at *
          have : (2.0 : ℝ) = 2 := by norm_num
          rw [this]; linarith
        | some q => simp only [booneLoad] at *; linarith
      rw [booneLayers] at h
      split_ifs at h with hcond
      · simp only [bind_eq_ok] at h
        obtain ⟨d, hd, tl, htl, h⟩ := h
        rw [pure_eq_ok] at h; subst h
        have hd1 : d < 1 := booneRate_lt (by linarith) (by linarith) hdt hn.warm hdn.le hsmall hd
        have htail := ih (by linarith) hp' (fun m hm => hns m (by simp [hm])) hB1 htl
        intro m hm
        rcases List.mem_cons.1 hm with rfl | hm
        · show 0 < (1 - d) * n.height
          exact mul_pos (by linarith) hn.height
        · exact htail m hm
      · simp only [bind_eq_ok] at h
        obtain ⟨tl, htl, h⟩ := h
        rw [pure_eq_ok] at h; subst h
        have htail := ih hms hp' (fun m hm => hns m (by simp [hm])) (by simp only; linarith) htl
        intro m hm
        rcases List.mem_cons.1 hm with rfl | hm
        · exact hn.height
        · exact htail m hm

/-- **C59, when Boone compaction is below 100 %.** If the column's mass (density times height, summed) is `M` and
`(1.5 · M · 9.81 / 37000000 + 0.0000028) · dt < 1` (691 kg m⁻² for hourly steps), a physical column stays physical. -/
theorem C59_boone_light {c : Consts ℝ} (hc : c.Phys) {tlo : ℝ} {g g' : Grid ℝ} {slope dt : ℝ} (hdt : 0 < dt)
    (hm : c.densificationMethod = .boone) (hg : ∀ n ∈ g.nodes, PhysLayer c tlo n)
    (hlight : (3 / 2 * (g.nodes.map fun n => n.density c * n.height).sum * 9.81 / 37000000 + 0.0000028) * dt < 1)
    (h : densification c g slope dt = .ok g') : ∀ n ∈ g'.nodes, PhysLayer c tlo n := by
  have hcos : c.densificationMethod = .vionnet → 0 ≤ Real.cos slope := fun e => by rw [hm] at e; cases e
  refine densification_keeps_phys hc hdt hcos hg h ?_
  unfold densification at h
  rw [hm] at h
  simp only [methodBoone, bind_eq_ok] at h
  obtain ⟨k, _, rs, hr, h⟩ := h
  rw [pure_eq_ok] at h
  rw [← h]
  refine booneLayers_light hc hdt.le hlight le_rfl (by simp) hg ?_ hr
  cases hns : g.nodes with
  | nil => simp
  | cons n ns =>
    have hpos : 0 ≤ (ns.map fun n => n.density c * n.height).sum := by
      apply List.sum_nonneg
      intro x hx
      obtain ⟨m, hm, rfl⟩ := List.mem_map.1 hx
      have := hg m (by rw [hns]; simp [hm])
      exact mul_nonneg (density_pos hc this.ice.le this.water).1.le this.height.le
    simp only [List.map_cons, List.sum_cons]
    linarith

/-- Deep fresh snow at the melting point on ice. -/
noncomputable def exDeep : Grid ℝ :=
  ⟨[⟨3, 273.16, 0, 1 / 10, 0⟩, ⟨1, 273.16, 0, 1 / 10, 0⟩, ⟨1, 273.16, 0, 1, 0⟩], 3, 0, 0, 0⟩

/-- **C59, refuted without the condition on compaction.** With the shipped constants and a daily time step, Boone
compaction turns a physical column (3 m and 1 m of snow of 93 kg m⁻³ on ice) into one with a layer of negative
height. -/
theorem C59_boone_refuted :
    (∀ n ∈ exDeep.nodes, PhysLayer (Consts.default ℝ) 150 n) ∧
    ∃ g', densification (Consts.default ℝ) exDeep 0 86400 = .ok g' ∧ ∃ n ∈ g'.nodes, n.height < 0 := by
  refine ⟨?_, ?_⟩
  · intro n hn
    simp only [exDeep, List.mem_cons, List.not_mem_nil, or_false] at hn
    rcases hn with rfl | rfl | rfl <;> constructor <;> norm_num [Consts.default]
  · have hc : (Consts.default ℝ).Phys := Consts.default_phys
    have hw : exDeep.WF := rfl
    have hk := Grid.getNumberSnowLayers_eq hw (Consts.default ℝ)
    obtain ⟨rs, hrs⟩ := booneLayers_returns (c := Consts.default ℝ) (dt := 86400) (ms := 0) (p := none)
      (Grid.nSnow_le (Consts.default ℝ) exDeep.nodes)
    have hret : densification (Consts.default ℝ) exDeep 0 86400 = .ok { exDeep with nodes := rs } := by
      show methodBoone _ _ _ = _
      unfold methodBoone
      rw [hk, ok_bind, hrs, ok_bind]; rfl
    refine ⟨_, hret, ?_⟩
    have hn : Grid.nSnow (Consts.default ℝ) exDeep.nodes = 2 := by
      simp only [exDeep, Grid.nSnow]
      norm_num [Node.density, Node.airPorosity, pyMax, Consts.default]
    rw [hn] at hrs
    simp only [exDeep] at hrs
    have hd1 : ∀ h : ℝ, Node.density (Consts.default ℝ) ⟨h, 273.16, 0, 1 / 10, 0⟩ = 92.69 := by
      intro h; norm_num [Node.density, Node.airPorosity, pyMax, Consts.default]
    rw [booneLayers, if_pos (by rw [hd1]; norm_num [Consts.default])] at hrs
    simp only [bind_eq_ok] at hrs
    obtain ⟨d, hd, tl, htl, h⟩ := hrs
    rw [pure_eq_ok] at h; subst h
    rw [booneLayers, if_pos (by rw [hd1]; norm_num [Consts.default])] at htl
    simp only [bind_eq_ok] at htl
    obtain ⟨d2, hd2, tl2, htl2, h⟩ := htl
    rw [pure_eq_ok] at h; subst h
    refine ⟨booneUpdate d2 ⟨1, 273.16, 0, 1 / 10, 0⟩, by simp, ?_⟩
    show (1 - d2) * (1 : ℝ) < 0
    have e := booneRate_ok hd2
    simp only [booneLoad, hd1] at e
    have hz : (Consts.default ℝ).zeroTemperature = 273.16 := rfl
    rw [hz] at e
    have e1 : (0.081 * (273.16 - 273.16) + 0.018 * 92.69 : ℝ) = 1.66842 := by norm_num
    have hexp : Real.exp (0.081 * (273.16 - 273.16) + 0.018 * 92.69) < 9 := by
      rw [e1]
      have h2 : Real.exp 1.66842 ≤ Real.exp (1 + 1) := Real.exp_le_exp.2 (by norm_num)
      rw [Real.exp_add] at h2
      have h3 := Real.exp_one_lt_d9
      have h4 := Real.exp_pos 1
      nlinarith
    have hp := Real.exp_pos (0.081 * (273.16 - 273.16) + 0.018 * 92.69)
    have hp2 := Real.exp_pos (-0.042 * (273.16 - 273.16) - 0.046 * max 0 (92.69 - 150))
    generalize Real.exp (0.081 * (273.16 - 273.16) + 0.018 * 92.69) = x at *
    generalize Real.exp (-0.042 * (273.16 - 273.16) - 0.046 * max 0 (92.69 - 150)) = y at *
    have hq : (0 + 92.69 * (3 / 2.0) + 92.69 * 3) * 9.81 / (37000000 * 9) ≤
        (0 + 92.69 * (3 / 2.0) + 92.69 * 3) * 9.81 / (37000000 * x) := by
      apply div_le_div_of_nonneg_left (by norm_num) (by positivity) (by linarith)
    have : 1 < d2 := by
      rw [e]
      have : (1 : ℝ) < (0 + 92.69 * (3 / 2.0) + 92.69 * 3) * 9.81 / (37000000 * 9) * 86400 := by norm_num
      nlinarith
    linarith

/-- Non-vacuity: the shipped constants with hourly steps are sane down to 150 K, and hourly steps meet the condition of
`C59_run_empirical`. -/
example : Sane (Consts.default ℝ) ⟨3600, 2, 10, 200, true, false⟩ 150 ∧
    (600 - (Consts.default ℝ).airDensity) * (1 + ((3600 : ℝ) / 800000) ^ 2) < 600 := by
  refine ⟨⟨Consts.default_phys, ?_, ?_, ?_, ?_, ?_, ?_, ?_, ?_, ?_⟩, ?_⟩ <;> norm_num [Consts.default]

end Reals

attribute [local instance] exTransc in
/-- Non-vacuity: a bounded solver, sane constants, a physical start column and a run of three steps that returns. -/
example : ∃ sv : Solvers ℚ, sv.RespectsLower ∧ Sane exConsts exCfg 150 ∧ exConsts.densificationMethod = .constant ∧
    (∀ n ∈ exGrid.nodes, PhysLayer exConsts 150 n) ∧ (∀ f ∈ [exSnow, exDry, exDry], 150 ≤ f.t2) ∧
    raised (run sv 40 exConsts exCfg (initState exConsts false exGrid) [exSnow, exDry, exDry]) = none := by
  refine ⟨⟨fun _ _ => .ok 270, fun _ _ _ lo _ => .ok (max lo 270)⟩, ?_,
    ⟨by constructor <;> decide +kernel, by decide +kernel, by decide +kernel, by decide +kernel, by decide +kernel,
      by decide +kernel, by decide +kernel, by decide +kernel, by decide +kernel, by decide +kernel⟩,
    rfl, ?_, by decide +kernel, by decide +kernel⟩
  · intro m f x lo hi r h
    cases h
    exact le_max_left _ _
  · intro n hn
    have : 0 < n.height ∧ 0 < n.iceFraction ∧ 0 ≤ n.lwc ∧ 150 ≤ n.temperature ∧ n.temperature ≤ exConsts.zeroTemperature :=
      (by decide +kernel : ∀ n ∈ exGrid.nodes, 0 < n.height ∧ 0 < n.iceFraction ∧ 0 ≤ n.lwc ∧ 150 ≤ n.temperature ∧
        n.temperature ≤ exConsts.zeroTemperature) n hn
    exact ⟨this.1, this.2.1, this.2.2.1, this.2.2.2.1, this.2.2.2.2⟩

end Cosipy
