import Verif.Lemmas.Rounded
import Verif.Model.Float
import Verif.Lemmas.Example

/-!
# C81 Signs survive floating-point rounding

All other numeric theorems are about exact arithmetic. This one is about arithmetic in which every operation is rounded
(`Rounded`, which IEEE double precision without overflow satisfies: `C81_binary64`). A column without negative heights, ice
fractions and water contents has none in any stage of a time step either (`C81_step`): not by exact cancellation but because every
subtraction in the code is guarded by a comparison of the same numbers. The stored amounts have the right sign, the
surface temperature is at most the melting point. After densification the heights may be negative (as in exact arithmetic,
C59_boone_refuted); if they are not, the next step starts again from such a column, so that whole runs follow (`C81_run`,
`C81_run_constant`).
-/

set_option autoImplicit false
set_option linter.unusedSectionVars false

namespace Cosipy
section
variable {α : Type} [LinearOrder α] [Zero α] [One α] [Add α] [Sub α] [Mul α] [Div α] [Neg α] [NatCast α] [OfScientific α]
  [Rounded α] [Transc α]
open Rounded

theorem vapour_signs {c : Consts α} {dt ts le : α} (hdt : 0 ≤ dt) :
    (vapourFluxes c dt ts le).sublimation ≤ 0 ∧ 0 ≤ (vapourFluxes c dt ts le).deposition ∧
    (vapourFluxes c dt ts le).evaporation ≤ 0 ∧ 0 ≤ (vapourFluxes c dt ts le).condensation := by
  unfold vapourFluxes
  split_ifs
  · exact ⟨Rounded.mul_nonpos min_nonpos_right hdt, Rounded.mul_nonneg max_nonneg_right hdt, le_rfl, le_rfl⟩
  · exact ⟨le_rfl, le_rfl, Rounded.mul_nonpos min_nonpos_right hdt, Rounded.mul_nonneg max_nonneg_right hdt⟩

/-- **C81, one step.** In rounded arithmetic, from a column without negative contents: the stored amounts have the right signs, and
no column between the stages of the step, up to densification, has a negative height, ice fraction or water content.
Densification leaves ice and water not negative, and heights too if the density is constant. -/
theorem C81_step (hx : ExpSigns α) {sv : Solvers α} {fuel : Nat} {c : Consts α} {r : RunCfg α} (hs : SignSane c r)
    (hcos : c.densificationMethod = .vionnet → 0 ≤ Transc.cos r.slope) {s s' : SimState α} {f : Forcing α} {o : StepOut α}
    (hg : ∀ n ∈ s.grid.nodes, NonNegLayer n) (h : step sv fuel c r s f = .ok (s', o)) :
    SignedOut c o ∧
    (∃ st : StepStages sv fuel c r s f s' o, ∀ g ∈ [st.g1, st.g2, st.g3, st.g4, st.g5, st.g6, st.g7, st.g8],
      ∀ n ∈ g.nodes, NonNegLayer n) ∧
    (∀ n ∈ s'.grid.nodes, 0 ≤ n.iceFraction ∧ 0 ≤ n.lwc) ∧
    (c.densificationMethod = .constant → ∀ n ∈ s'.grid.nodes, NonNegLayer n) := by
  obtain ⟨st⟩ := step_stages h
  have hrho : c.airDensity ≤ o.densityFreshSnow := by
    rw [st.rho]; unfold freshSnowDensity
    split
    · exact hs.airConst
    · exact hs.airLow.trans Rounded.le_max_right
  have hrho0 := hs.air.trans hrho
  have hsnow : 0 ≤ o.snowfall := by
    rw [st.snowfall]; unfold thresholdPrecip
    dsimp only
    split_ifs with h1
    · exact le_rfl
    · exact hs.snowMin.trans (not_lt.1 h1)
  have hrain : 0 ≤ o.rain := by
    rw [st.rain]; unfold thresholdPrecip
    dsimp only
    split_ifs with h1
    · exact le_rfl
    · exact (Rounded.mul_nonneg (Rounded.mul_nonneg hs.snowMin (Rounded.div_nonneg hrho0 hs.water))
        (lit_nonneg _ _ _)).trans (not_lt.1 h1)
  have n1 : st.g1.NN := (applySnowfall_nn hs.ice hs.air hrho hg).updateGrid hs.stretch hs.first st.remesh
  have n2 : st.g2.NN := by
    have e := updateAlbedo_grid st.albedo
    dsimp only at e
    rw [e]
    unfold Grid.NN
    rw [(getSurfaceProperties_nodes c st.g1).1]; exact n1
  obtain ⟨n3, hsub⟩ := radiationStep_nn hs.ice hs.water hs.cIce hs.melt n2 st.radiation
  have n4 : st.g4.NN :=
    n3.modifyNode (f := Node.setTemperature o.ts) (fun n hn => ⟨hn.height, hn.ice, hn.water⟩)
      (updateSurfaceTemperature_grid st.surface)
  have hts : o.ts ≤ c.zeroTemperature := by
    have h4 := st.surface
    unfold updateSurfaceTemperature at h4
    simp only [bind_eq_ok] at h4
    obtain ⟨⟨_, _⟩, _, h4⟩ := h4
    obtain ⟨top, _, x, _, g1, _, fl, _, h4⟩ := h4
    rw [pure_eq_ok, Prod.mk.injEq, Prod.mk.injEq] at h4
    rw [← h4.2.1]
    exact Rounded.min_le_left
  have hv := vapour_signs (c := c) (dt := r.dt) (ts := o.ts) (le := o.fluxes.le) hs.dt
  rw [st.vapour] at hv
  have hme : 0 ≤ o.meltEnergy := by rw [st.meltEnergy]; exact max_nonneg_left
  have hm : 0 ≤ o.melt := by
    rw [st.melt]
    exact Rounded.div_nonneg (Rounded.mul_nonneg hme hs.dt) (Rounded.mul_nonneg (nat_nonneg _) hs.melt)
  obtain ⟨n5, hf⟩ := n4.removeMeltWeq hs.ice hs.water hs.air st.removal
  obtain ⟨n6, hq⟩ := percolation_nn n5 (Rounded.add_nonneg (Rounded.add_nonneg (Rounded.add_nonneg hm hv.2.2.2)
    (Rounded.div_nonneg hrain (lit_nonneg _ _ _))) hf) st.perc
  have n7 : st.g7.NN := refreezing_nn n6 st.refr
  have n8 := n7.solveHeatEquation st.heat
  refine ⟨⟨hsnow, hrain, hrho, hsub, hts, hv.1, hv.2.2.1, hv.2.1, hv.2.2.2, hme, hm, hf, hq⟩, ⟨st, ?_⟩, ?_, ?_⟩
  · intro g hmem
    simp only [List.mem_cons, List.not_mem_nil, or_false] at hmem
    rcases hmem with rfl | rfl | rfl | rfl | rfl | rfl | rfl | rfl
    exacts [n1, n2, n3, n4, n5, n6, n7, n8]
  · intro n hn
    have := densification_nn hx hs.ice hs.water hs.air hcos hs.dt n8 st.dens n hn
    exact ⟨this.ice, this.water⟩
  · intro hc
    have h9 := st.dens
    unfold densification at h9
    rw [hc] at h9
    rw [← ok_inj.1 h9]
    exact n8

/-- **C81, whole runs.** In rounded arithmetic, if compaction never turns a height negative in the run, then no layer of any
column of the run ever has a negative ice fraction or water content, and all stored amounts of the run have the right
sign. -/
theorem C81_run (hx : ExpSigns α) {sv : Solvers α} {fuel : Nat} {c : Consts α} {r : RunCfg α} (hs : SignSane c r)
    (hcos : c.densificationMethod = .vionnet → 0 ≤ Transc.cos r.slope) : ∀ (fs : List (Forcing α)) {s s' : SimState α}
    {os : List (StepOut α)}, (∀ n ∈ s.grid.nodes, NonNegLayer n) →
    (∀ t, Reached sv fuel c r s fs t → ∀ n ∈ t.grid.nodes, 0 ≤ n.height) → run sv fuel c r s fs = .ok (s', os) →
    (∀ o ∈ os, SignedOut c o) ∧ ∀ t, Reached sv fuel c r s fs t → ∀ n ∈ t.grid.nodes, NonNegLayer n := by
  intro fs
  induction fs with
  | nil =>
    intro s s' os hg _ h
    rw [run] at h; cases h
    refine ⟨by simp, ?_⟩
    rintro t ⟨pre, suf, os, e, h⟩
    have : pre = [] := by
      cases pre with
      | nil => rfl
      | cons a b => simp at e
    subst this
    rw [run] at h; cases h; exact hg
  | cons f fs ih =>
    intro s s' os hg hH h
    obtain ⟨s1, o1, os1, h1, h2, rfl⟩ := run_cons h
    obtain ⟨ho, _, hc, _⟩ := C81_step hx hs hcos hg h1
    have v1 : Reached sv fuel c r s (f :: fs) s1 := ⟨[f], fs, [o1], by simp, by simp [run, h1]; rfl⟩
    have hg1 : ∀ n ∈ s1.grid.nodes, NonNegLayer n := fun n hn => ⟨hH s1 v1 n hn, (hc n hn).1, (hc n hn).2⟩
    have hmore : ∀ t, Reached sv fuel c r s1 fs t → Reached sv fuel c r s (f :: fs) t := by
      rintro t ⟨pre, suf, os', e, h'⟩
      refine ⟨f :: pre, suf, o1 :: os', by simp [e], ?_⟩
      rw [run, h1, ok_bind]
      simp only [h', ok_bind]
      rfl
    obtain ⟨i1, i2⟩ := ih hg1 (fun t ht => hH t (hmore t ht)) h2
    refine ⟨by simpa using ⟨ho, i1⟩, ?_⟩
    rintro t ⟨pre, suf, os', e, h'⟩
    cases pre with
    | nil => rw [run] at h'; cases h'; exact hg
    | cons a pre =>
      simp only [List.cons_append, List.cons.injEq] at e
      obtain ⟨rfl, rfl⟩ := e
      obtain ⟨s2, o2, os2, h3, h4, rfl⟩ := run_cons h'
      rw [h1] at h3; cases h3
      exact i2 t ⟨pre, suf, os2, rfl, h4⟩

/-- **C81, whole runs at constant density.** Nothing has to be assumed about compaction. -/
theorem C81_run_constant (hx : ExpSigns α) {sv : Solvers α} {fuel : Nat} {c : Consts α} {r : RunCfg α} (hs : SignSane c r)
    (hm : c.densificationMethod = .constant) : ∀ (fs : List (Forcing α)) {s s' : SimState α}
    {os : List (StepOut α)}, (∀ n ∈ s.grid.nodes, NonNegLayer n) → run sv fuel c r s fs = .ok (s', os) →
    (∀ o ∈ os, SignedOut c o) ∧ ∀ n ∈ s'.grid.nodes, NonNegLayer n := by
  intro fs
  induction fs with
  | nil => intro s s' os hg h; rw [run] at h; cases h; exact ⟨by simp, hg⟩
  | cons f fs ih =>
    intro s s' os hg h
    obtain ⟨s1, o1, os1, h1, h2, rfl⟩ := run_cons h
    obtain ⟨ho, _, _, hc⟩ := C81_step hx hs (by rw [hm]; simp) hg h1
    obtain ⟨i1, i2⟩ := ih (hc hm) h2
    exact ⟨by simpa using ⟨ho, i1⟩, i2⟩

end

section
variable {K : Type} [Field K] [LinearOrder K] [IsStrictOrderedRing K]

/-- The shipped constants have the right signs in every rounded arithmetic. -/
theorem signSane_default (rd : Rounding K) {r : RunCfg (Fl rd)} (hdt : 0 ≤ r.dt) : SignSane (Consts.default (Fl rd)) r where
  water := Rounded.lit_nonneg _ _ _
  ice := Rounded.lit_nonneg _ _ _
  air := Rounded.lit_nonneg _ _ _
  airLow := Fl.mk_mono (x := (1.1 : K)) (y := 50.0) (by norm_num)
  airConst := Fl.mk_mono (x := (1.1 : K)) (y := ((300 : Nat) : K)) (by norm_num)
  melt := Rounded.nat_nonneg _
  vap := Rounded.nat_nonneg _
  subl := Rounded.nat_nonneg _
  cIce := Rounded.lit_nonneg _ _ _
  first := Rounded.lit_nonneg _ _ _
  stretch := Rounded.lit_nonneg _ _ _
  snowMin := Rounded.lit_nonneg _ _ _
  dt := hdt

end

section
variable {K : Type} [Field K] [LinearOrder K] [IsStrictOrderedRing K] [FloorRing K] [Transc K]

/-- **C81 in double precision.** With the shipped constants, in IEEE 754 binary64 arithmetic without overflow and with
correctly rounded elementary functions (over the real numbers the condition `hx` holds: `expSigns_real`): if compaction never
turns a height negative in a run, all its columns and stored amounts have the right signs. -/
theorem C81_binary64 (hx : ExpSigns (Fl (binary64 K))) {sv : Solvers (Fl (binary64 K))} {fuel : Nat}
    {r : RunCfg (Fl (binary64 K))} (hdt : 0 ≤ r.dt) {fs : List (Forcing (Fl (binary64 K)))} {s s' : SimState (Fl (binary64 K))}
    {os : List (StepOut (Fl (binary64 K)))} (hg : ∀ n ∈ s.grid.nodes, NonNegLayer n)
    (hH : ∀ t, Reached sv fuel (Consts.default _) r s fs t → ∀ n ∈ t.grid.nodes, 0 ≤ n.height)
    (h : run sv fuel (Consts.default _) r s fs = .ok (s', os)) :
    (∀ o ∈ os, SignedOut (Consts.default (Fl (binary64 K))) o) ∧
    ∀ t, Reached sv fuel (Consts.default _) r s fs t → ∀ n ∈ t.grid.nodes, NonNegLayer n :=
  C81_run hx (signSane_default _ hdt) (fun hv => by cases hv) fs hg hH h

end

/-- The condition on the exponential holds over the real numbers. -/
example : ExpSigns (Fl (binary64 ℝ)) := expSigns_real _

/-! ## Non-vacuity -/

section
attribute [local instance] exTransc

/-- Double precision on the rational numbers, which computes. -/
abbrev D := Fl (binary64 ℚ)

/-- Rounding takes place: `0.1 + 0.2` is the double 0.3000000000000000444…, not the double nearest to 0.3. -/
example : (0.1 + 0.2 : D) ≠ 0.3 := by decide +kernel

/-- The double nearest to 0.1. -/
example : (0.1 : D).1 = 3602879701896397 / 36028797018963968 := by decide +kernel

/-- Addition is not associative. -/
example : (0.1 + 0.2 + 0.3 : D) ≠ 0.1 + (0.2 + 0.3) := by decide +kernel

theorem expSignsD : ExpSigns D where
  nonneg _ := by
    show (0 : D) ≤ Fl.mk _ (1 / 2)
    decide +kernel
  le_one _ _ := by
    show Fl.mk (binary64 ℚ) (1 / 2) ≤ 1
    decide +kernel

def exCfgD : RunCfg D := ⟨3600, 2, 0, 200, true, false⟩

/-- Two snow layers on ice. -/
def exGridD : Grid D :=
  ⟨[⟨0.01, 268, 0, 0.3, 0⟩, ⟨0.012, 269, 0, 0.5, 0⟩, ⟨0.5, 270, 0, 1, 0⟩, ⟨0.5, 270, 0, 1, 0⟩], 4, 0, 0, 0⟩

theorem exGridD_nonneg : ∀ n ∈ exGridD.nodes, NonNegLayer n := by
  have : ∀ n ∈ exGridD.nodes, 0 ≤ n.height ∧ 0 ≤ n.iceFraction ∧ 0 ≤ n.lwc := by decide +kernel
  exact fun n hn => ⟨(this n hn).1, (this n hn).2.1, (this n hn).2.2⟩

def exSolversD : Solvers D := ⟨fun _ _ => .ok 270, fun _ _ _ _ _ => .ok 270⟩

/-- An hour with snowfall. -/
def exSnowD : Forcing D := ⟨268, 90, 700, 0, 2, none, some 10, some 250, none⟩

/-- The shipped constants in double precision. -/
def exRunD (fs : List (Forcing D)) : M (SimState D × List (StepOut D)) :=
  run exSolversD 4000 (Consts.default D) exCfgD (initState (Consts.default D) false exGridD) fs

/-- Heights of the column a run ends with. -/
def heightsNonneg (x : M (SimState D × List (StepOut D))) : Bool :=
  match x with
  | .ok (s, _) => s.grid.nodes.all fun n => decide (0 ≤ n.height)
  | .error _ => false

set_option maxRecDepth 100000 in
theorem exRunD_heights : heightsNonneg (exRunD [exSnowD]) = true := by decide +kernel

/-- An hour with snowfall, in double precision, with the shipped constants: the hypotheses of `C81_binary64` hold. -/
example : ∃ s' os, exRunD [exSnowD] = .ok (s', os) ∧ (∀ o ∈ os, SignedOut (Consts.default D) o) ∧
    ∀ t, Reached exSolversD 4000 (Consts.default D) exCfgD (initState (Consts.default D) false exGridD) [exSnowD] t →
      ∀ n ∈ t.grid.nodes, NonNegLayer n := by
  have hh := exRunD_heights
  have hdt : (0 : D) ≤ exCfgD.dt := by decide +kernel
  rcases hr : exRunD [exSnowD] with e | ⟨s', os⟩
  · rw [hr] at hh; cases hh
  · rw [hr] at hh
    have hn : ∀ n ∈ s'.grid.nodes, 0 ≤ n.height := by simpa [heightsNonneg] using hh
    refine ⟨s', os, rfl, C81_binary64 expSignsD hdt exGridD_nonneg ?_ hr⟩
    rintro t ⟨pre, suf, os', e, h'⟩
    cases pre with
    | nil => rw [run] at h'; cases h'; exact fun n hn => (exGridD_nonneg n hn).height
    | cons a pre =>
      simp only [List.cons_append, List.cons.injEq, List.nil_eq, List.append_eq_nil_iff] at e
      obtain ⟨rfl, rfl, rfl⟩ := e
      have : exRunD [exSnowD] = .ok (t, os') := h'
      rw [hr] at this
      cases this
      exact hn

/-- Constant density: the hypotheses of `C81_run_constant` hold. -/
example : SignSane { Consts.default D with densificationMethod := .constant } exCfgD := by
  have h := signSane_default (binary64 ℚ) (r := exCfgD) (by decide +kernel)
  exact ⟨h.water, h.ice, h.air, h.airLow, h.airConst, h.melt, h.vap, h.subl, h.cIce, h.first, h.stretch, h.snowMin, h.dt⟩

end
end Cosipy
