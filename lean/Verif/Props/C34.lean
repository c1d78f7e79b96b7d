import Verif.Lemmas.Frame
import Verif.Lemmas.Grid
import Verif.Lemmas.Arith
import Verif.Lemmas.Example
import Verif.Spec.Column

/-!
# C34 Surface temperature never exceeds melting point

For every solver method and every behaviour of the external solvers whose bounded minimiser respects its lower bound.
-/

set_option autoImplicit false
set_option linter.unusedSectionVars false

namespace Cosipy
section
variable {K : Type} [Field K] [LinearOrder K] [IsStrictOrderedRing K] [Transc K]

/-- The bounded minimiser returns a value not below the lower bound it was given. -/
def Solvers.RespectsLower (sv : Solvers K) : Prop :=
  ∀ m f x lo hi r, sv.minimize m f x lo hi = .ok r → lo ≤ r

theorem tryExcept_ok {β : Type} {a b : M β} {r : β} (h : tryExcept a b = .ok r) : a = .ok r ∨ b = .ok r := by
  unfold tryExcept at h
  split at h
  · exact Or.inr h
  · exact Or.inr h
  · exact Or.inl h

theorem solveSurfaceTemperature_lower {sv : Solvers K} (hb : sv.RespectsLower) {c : Consts K} {f : K → M K} {x r : K}
    (h : solveSurfaceTemperature sv c f x = .ok r) : 220 ≤ r := by
  unfold solveSurfaceTemperature at h
  split at h
  · exact hb _ _ _ _ _ _ h
  · exact hb _ _ _ _ _ _ h
  · rcases tryExcept_ok h with h | h
    · simp only [bind_eq_ok] at h
      obtain ⟨r', _, u, hu, h⟩ := h
      rw [pure_eq_ok] at h
      subst h
      unfold checkResidualClip at hu
      split_ifs at hu with hlt
      exact not_lt.1 hlt
    · exact hb _ _ _ _ _ _ h
  · rcases tryExcept_ok h with h | h
    · simp only [bind_eq_ok] at h
      obtain ⟨⟨r', k⟩, _, h⟩ := h
      split_ifs at h with hlt
      simp only [bind_eq_ok] at h
      obtain ⟨u, hu, h⟩ := h
      rw [pure_eq_ok] at h
      subst h
      exact not_lt.1 hlt
    · exact hb _ _ _ _ _ _ h
  · cases h

/-- **C34.** When the surface temperature update returns, the temperature is between 220 K and the melting point, it is
the temperature of the uppermost layer afterwards, nothing else of the column changed, and the returned fluxes are those
at this temperature. -/
theorem C34_bounds {sv : Solvers K} (hb : sv.RespectsLower) {c : Consts K} (hz : 220 ≤ c.zeroTemperature) {wrf : Bool}
    {g g' : Grid K} {mk : K → K → EbInput K} {swnet ts : K} {fl : Fluxes K}
    (h : updateSurfaceTemperature sv c wrf g mk swnet = .ok (g', ts, fl)) :
    220 ≤ ts ∧ ts ≤ c.zeroTemperature ∧
    (∃ top rest, g.nodes = top :: rest ∧
      g' = { g with nodes := { top with temperature := ts } :: rest }) ∧
    ∃ tz1 tz2, interpSubT c g = .ok (tz1, tz2) ∧ ebFluxes c wrf g' (mk tz1 tz2) ts = .ok fl := by
  unfold updateSurfaceTemperature at h
  simp only [bind_eq_ok] at h
  obtain ⟨⟨tz1, tz2⟩, hi, top, htop, r, hr, g1, hg1, fl', hfl, h⟩ := h
  rw [pure_eq_ok] at h
  cases h
  rw [pyMin_eq] at hg1 hfl ⊢
  have hlow := solveSurfaceTemperature_lower hb hr
  refine ⟨le_min hz hlow, min_le_left _ _, ?_, tz1, tz2, hi, hfl⟩
  unfold Grid.node at htop
  cases hn : g.nodes with
  | nil => rw [hn] at htop; cases htop
  | cons a l =>
    refine ⟨a, l, rfl, ?_⟩
    unfold Grid.setNodeTemperature Grid.modifyNode at hg1
    simp only [bind_eq_ok] at hg1
    obtain ⟨ns, hns, he⟩ := hg1
    rw [pure_eq_ok] at he
    rw [← he]
    have : ns = Node.setTemperature (min c.zeroTemperature r) a :: l := by
      obtain ⟨k, hk, e⟩ := pyModify_eq_ok.1 hns
      have hk0 : k = 0 := by
        rw [hn] at hk
        have := normIdx_eq_some_nonneg (by omega) hk
        omega
      rw [e, hk0, hn]; rfl
    rw [this]; rfl

/-- **C34, time step.** The recorded surface temperature of every time step is between 220 K and the melting point. -/
theorem C34_step {sv : Solvers K} (hb : sv.RespectsLower) {fuel : Nat} {c : Consts K} (hz : 220 ≤ c.zeroTemperature)
    {r : RunCfg K} {s s' : SimState K} {f : Forcing K} {o : StepOut K} (h : step sv fuel c r s f = .ok (s', o)) :
    220 ≤ o.ts ∧ o.ts ≤ c.zeroTemperature ∧ s'.surfaceTemperature = o.ts := by
  obtain ⟨st⟩ := step_stages h
  obtain ⟨h1, h2, _⟩ := C34_bounds hb hz st.surface
  exact ⟨h1, h2, st.ts⟩

/-- **C34, methods.** An unknown method name raises NotImplementedError on every column on which the subsurface
temperatures can be interpolated. -/
theorem C34_unknown_method {sv : Solvers K} {c : Consts K} (hm : c.sfcTemperatureMethod = .other) {wrf : Bool}
    {g : Grid K} {mk : K → K → EbInput K} {swnet : K} {tz : K × K} (hi : interpSubT c g = .ok tz) (hne : g.nodes ≠ []) :
    raised (updateSurfaceTemperature sv c wrf g mk swnet) = some .notImpl := by
  unfold updateSurfaceTemperature
  rw [hi, ok_bind]
  cases hn : g.nodes with
  | nil => exact absurd hn hne
  | cons a l =>
    have : g.node 0 = .ok a := by unfold Grid.node; rw [hn, pyGet_zero]
    simp only [this, ok_bind]
    unfold solveSurfaceTemperature
    rw [hm]
    rfl

end

attribute [local instance] exTransc in
/-- Non-vacuity: a minimiser that answers 270 K, or its lower bound if that is larger, and a run with it. -/
example : ∃ sv : Solvers ℚ, sv.RespectsLower ∧
    raised (run sv 40 exConsts exCfg (initState exConsts false exGrid) [exSnow, exDry]) = none := by
  refine ⟨⟨fun _ _ => .ok 270, fun _ _ _ lo _ => .ok (max lo 270)⟩, ?_, by decide +kernel⟩
  intro m f x lo hi r h
  cases h
  exact le_max_left _ _

end Cosipy
