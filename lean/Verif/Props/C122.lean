import Verif.Model.Accessors
import Verif.Lemmas.Grid
import Verif.Lemmas.Frame
import Mathlib.Algebra.Field.Rat
import Mathlib.Algebra.Order.Ring.Unbundled.Rat

/-!
# C122 What is written to the layers is what is read from them

For every arithmetic, so also for rounded numbers and missing values: the profile of a stored quantity lists the value of each layer from the
surface down (`C122_profile`), the query of a single layer agrees with it, also when counting from the bottom (`C122_layer`), setting a
profile or a single value is read back exactly and changes nothing else (`C122_set_profile`, `C122_set_layer`), and the five stored profiles
are all there is in the layers (`C122_complete`). The derived profiles are those of the stored ones (`C122_derived`, `C122_diffusivity`).
-/

set_option autoImplicit false
set_option linter.unusedSectionVars false

namespace Cosipy

/-- The quantities a layer stores. -/
inductive Stored
  | height | temperature | water | ice | refrozen
  deriving DecidableEq

section
variable {α : Type} [Add α] [Sub α] [Mul α] [Div α] [Neg α] [LT α] [LE α]
  [DecidableLT α] [DecidableLE α] [BEq α] [Zero α] [One α] [NatCast α] [OfScientific α]

/-- The value of a quantity in a layer. -/
def Stored.of : Stored → Node α → α
  | .height, n => n.height
  | .temperature, n => n.temperature
  | .water, n => n.lwc
  | .ice, n => n.iceFraction
  | .refrozen, n => n.refreeze

/-- The query of the profile. -/
def Stored.profile : Stored → Grid α → M (List α)
  | .height, g => g.getHeight
  | .temperature, g => g.getTemperature
  | .water, g => g.getLwc
  | .ice, g => g.getIceFraction
  | .refrozen, g => g.getRefreeze

/-- The query of a single layer. -/
def Stored.atLayer : Stored → Grid α → Int → M α
  | .height, g, i => g.getNodeHeight i
  | .temperature, g, i => g.getNodeTemperature i
  | .water, g, i => g.getNodeLwc i
  | .ice, g, i => g.getNodeIceFraction i
  | .refrozen, g, i => g.getNodeRefreeze i

/-- Setting the profile. -/
def Stored.setProfile : Stored → Grid α → List α → M (Grid α)
  | .height, g, xs => g.setHeight xs
  | .temperature, g, xs => g.setTemperature xs
  | .water, g, xs => g.setLwc xs
  | .ice, g, xs => g.setIceFraction xs
  | .refrozen, g, xs => g.setRefreeze xs

/-- Setting the value of a single layer. -/
def Stored.setAtLayer : Stored → Grid α → Int → α → M (Grid α)
  | .height, g, i, x => g.setNodeHeight i x
  | .temperature, g, i, x => g.setNodeTemperature i x
  | .water, g, i, x => g.setNodeLwc i x
  | .ice, g, i, x => g.setNodeIceFraction i x
  | .refrozen, g, i, x => g.setNodeRefreeze i x

/-- The setter of one layer. -/
private def Stored.put : Stored → α → Node α → Node α
  | .height => Node.setHeight
  | .temperature => Node.setTemperature
  | .water => Node.setLwc
  | .ice => Node.setIceFraction
  | .refrozen => Node.setRefreeze

private theorem Stored.of_put (q : Stored) (x : α) (n : Node α) : q.of (q.put x n) = x := by cases q <;> rfl
private theorem Stored.of_put_ne {p q : Stored} (h : p ≠ q) (x : α) (n : Node α) : p.of (q.put x n) = p.of n := by
  cases p <;> cases q <;> first | exact absurd rfl h | rfl
private theorem Stored.put_put (q : Stored) (x y : α) (n : Node α) : q.put y (q.put x n) = q.put y n := by cases q <;> rfl
private theorem Stored.put_comm {p q : Stored} (h : p ≠ q) (x y : α) (n : Node α) : p.put y (q.put x n) = q.put x (p.put y n) := by
  cases p <;> cases q <;> first | exact absurd rfl h | rfl
private theorem Stored.setProfile_eq (q : Stored) (g : Grid α) (xs : List α) : q.setProfile g xs = g.setAll q.put xs := by cases q <;> rfl
private theorem Stored.setAtLayer_eq (q : Stored) (g : Grid α) (i : Int) (x : α) : q.setAtLayer g i x = g.modifyNode i (q.put x) := by
  cases q <;> rfl
private theorem Stored.atLayer_eq (q : Stored) (g : Grid α) (i : Int) : q.atLayer g i = g.node i >>= fun n => pure (q.of n) := by
  cases q <;> rfl

/-- The position an index means: it counts from the surface, or backwards from the bottom when negative. -/
private theorem normIdx_mod {n : Nat} {i : Int} (h1 : -(n : Int) ≤ i) (h2 : i < n) : normIdx n i = some (i % n).toNat := by
  unfold normIdx
  split_ifs with h0
  · rw [Int.emod_eq_of_lt h0 h2]
  · congr 2
    rw [← Int.add_emod_right, Int.emod_eq_of_lt (by omega) (by omega)]
    omega

private theorem mod_lt {n : Nat} {i : Int} (h1 : -(n : Int) ≤ i) (h2 : i < n) : (i % n).toNat < n := normIdx_lt (normIdx_mod h1 h2)

/-- **C122, profiles.** The profile of a stored quantity has one entry for each layer, from the surface down. -/
theorem C122_profile {g : Grid α} (hw : g.WF) (q : Stored) : q.profile g = .ok (g.nodes.map q.of) := by
  cases q
  · exact Grid.getHeight_eq hw
  · exact Grid.getTemperature_eq hw
  · exact Grid.getLwc_eq hw
  · exact Grid.getIceFraction_eq hw
  · exact Grid.getRefreeze_eq hw

/-- **C122, single layers.** The query of a layer returns the entry of the profile; negative positions count from the bottom. -/
theorem C122_layer {g : Grid α} (hw : g.WF) (q : Stored) {i : Int} (h1 : -(g.nodes.length : Int) ≤ i) (h2 : i < g.nodes.length) :
    ∃ xs x, q.profile g = .ok xs ∧ xs[(i % g.nodes.length).toNat]? = some x ∧ q.atLayer g i = .ok x := by
  have hk := mod_lt h1 h2
  refine ⟨_, q.of g.nodes[(i % g.nodes.length).toNat], C122_profile hw q, by simp [hk], ?_⟩
  rw [q.atLayer_eq]
  have : g.node i = .ok g.nodes[(i % g.nodes.length).toNat] := pyGet_eq_ok.2 ⟨_, normIdx_mod h1 h2, by simp [hk]⟩
  rw [this, ok_bind]; rfl

/-- Other positions raise IndexError, in reading and in writing. -/
theorem C122_outside (g : Grid α) (q : Stored) {i : Int} (h : i < -(g.nodes.length : Int) ∨ g.nodes.length ≤ i) (x : α) :
    q.atLayer g i = .error .index ∧ q.setAtLayer g i x = .error .index := by
  have hn : normIdx g.nodes.length i = none := by
    unfold normIdx; split_ifs <;> first | rfl | omega
  rw [q.atLayer_eq, q.setAtLayer_eq]
  constructor
  · unfold Grid.node pyGet; rw [hn]; rfl
  · unfold Grid.modifyNode pyModify; rw [hn]; rfl

private theorem setProfile_ok {g : Grid α} (hw : g.WF) (q : Stored) {xs : List α} (hx : g.nodes.length ≤ xs.length) :
    q.setProfile g xs = .ok { g with nodes := List.zipWith q.put (xs.take g.nodes.length) g.nodes } := by
  rw [q.setProfile_eq]
  unfold Grid.setAll
  have : g.numberNodes.toNat = g.nodes.length := by unfold Grid.WF at hw; omega
  rw [this, Grid.range_foldlM_set q.put g xs _ le_rfl hx]
  simp

private theorem map_put_same (q : Stored) : ∀ (xs : List α) (ns : List (Node α)), xs.length = ns.length →
    (List.zipWith q.put xs ns).map q.of = xs
  | [], [], _ => rfl
  | x :: xs, n :: ns, h => by
    simp only [List.zipWith_cons_cons, List.map_cons, Stored.of_put, List.cons.injEq, true_and]
    exact map_put_same q xs ns (by simpa using h)
  | [], _ :: _, h => by simp at h
  | _ :: _, [], h => by simp at h

private theorem map_put_other {p q : Stored} (hp : p ≠ q) : ∀ (xs : List α) (ns : List (Node α)), xs.length = ns.length →
    (List.zipWith q.put xs ns).map p.of = ns.map p.of
  | [], [], _ => rfl
  | x :: xs, n :: ns, h => by
    simp only [List.zipWith_cons_cons, List.map_cons, Stored.of_put_ne (α := α) hp, List.cons.injEq, true_and]
    exact map_put_other hp xs ns (by simpa using h)
  | [], _ :: _, h => by simp at h
  | _ :: _, [], h => by simp at h

/-- **C122, setting a profile.** With a value for each layer (more are ignored) the profile read afterwards is the one written; the other
profiles, the number of layers and the record of fresh snow stay as they were. -/
theorem C122_set_profile {g : Grid α} (hw : g.WF) (q : Stored) {xs : List α} (hx : g.nodes.length ≤ xs.length) :
    ∃ g', q.setProfile g xs = .ok g' ∧ q.profile g' = .ok (xs.take g.nodes.length) ∧ (∀ p, p ≠ q → p.profile g' = p.profile g) ∧
      g'.numberNodes = g.numberNodes ∧ g'.newSnowHeight = g.newSnowHeight ∧ g'.newSnowTimestamp = g.newSnowTimestamp ∧
      g'.oldSnowTimestamp = g.oldSnowTimestamp := by
  have hl : (xs.take g.nodes.length).length = g.nodes.length := by simp [hx]
  have hw' : ({ g with nodes := List.zipWith q.put (xs.take g.nodes.length) g.nodes } : Grid α).WF := by
    unfold Grid.WF at *
    simp only [List.length_zipWith, hl, min_self]; exact hw
  refine ⟨_, setProfile_ok hw q hx, ?_, fun p hp => ?_, rfl, rfl, rfl, rfl⟩
  · rw [C122_profile hw' q]
    exact congrArg _ (map_put_same q _ _ hl)
  · rw [C122_profile hw' p, C122_profile hw p]
    exact congrArg _ (map_put_other hp _ _ hl)

/-- **C122, setting a layer.** Only the entry of that layer changes. -/
theorem C122_set_layer {g : Grid α} (hw : g.WF) (q : Stored) {i : Int} (h1 : -(g.nodes.length : Int) ≤ i) (h2 : i < g.nodes.length)
    (x : α) :
    ∃ g' xs, q.profile g = .ok xs ∧ q.setAtLayer g i x = .ok g' ∧ q.profile g' = .ok (xs.set (i % g.nodes.length).toNat x) ∧
      (∀ p, p ≠ q → p.profile g' = p.profile g) ∧
      g'.numberNodes = g.numberNodes ∧ g'.newSnowHeight = g.newSnowHeight ∧ g'.newSnowTimestamp = g.newSnowTimestamp ∧
      g'.oldSnowTimestamp = g.oldSnowTimestamp := by
  have hk := mod_lt h1 h2
  have e : q.setAtLayer g i x = .ok { g with nodes := g.nodes.modify (i % g.nodes.length).toNat (q.put x) } := by
    rw [q.setAtLayer_eq]
    exact Grid.modifyNode_eq_ok.2 ⟨_, normIdx_mod h1 h2, rfl⟩
  have hw' : ({ g with nodes := g.nodes.modify (i % g.nodes.length).toNat (q.put x) } : Grid α).WF := by
    unfold Grid.WF at *; simpa using hw
  refine ⟨_, _, C122_profile hw q, e, ?_, fun p hp => ?_, rfl, rfl, rfl, rfl⟩
  · rw [C122_profile hw' q]
    congr 1
    apply List.ext_getElem?
    intro j
    simp only [List.getElem?_map, List.getElem?_modify, List.getElem?_set, List.length_map]
    by_cases hj : (i % g.nodes.length).toNat = j
    · subst hj; simp [hk, Stored.of_put]
    · simp [hj]
  · rw [C122_profile hw' p, C122_profile hw p]
    congr 1
    apply List.ext_getElem?
    intro j
    simp only [List.getElem?_map, List.getElem?_modify]
    by_cases hj : (i % g.nodes.length).toNat = j
    · subst hj; simp [hk, Stored.of_put_ne (α := α) hp]
    · simp [hj]

/-- The last of two settings of a profile counts. -/
theorem C122_last_wins {g g' : Grid α} (hw : g.WF) (q : Stored) {xs ys : List α} (hx : g.nodes.length ≤ xs.length)
    (hy : g.nodes.length ≤ ys.length) (h : q.setProfile g xs = .ok g') : q.setProfile g' ys = q.setProfile g ys := by
  rw [setProfile_ok hw q hx] at h
  obtain rfl := ok_inj.1 h
  have hl : (xs.take g.nodes.length).length = g.nodes.length := by simp [hx]
  have hn : (List.zipWith q.put (xs.take g.nodes.length) g.nodes).length = g.nodes.length := by simp [hx]
  have hw' : ({ g with nodes := List.zipWith q.put (xs.take g.nodes.length) g.nodes } : Grid α).WF := by
    unfold Grid.WF at *; rw [hn]; exact hw
  rw [setProfile_ok hw' q (by simpa [hx] using hy), setProfile_ok hw q hy]
  simp only [hn]
  congr 2
  apply List.ext_getElem?
  intro j
  simp only [List.getElem?_zipWith]
  by_cases hj : j < g.nodes.length
  · have a1 : j < xs.length := by omega
    have a2 : j < ys.length := by omega
    simp [hj, a1, a2, Stored.put_put]
  · simp [hj]

/-- Settings of different quantities can be exchanged. -/
theorem C122_commute {g g1 g2 : Grid α} (hw : g.WF) {p q : Stored} (hpq : p ≠ q) {xs ys : List α} (hx : g.nodes.length ≤ xs.length)
    (hy : g.nodes.length ≤ ys.length) (h1 : q.setProfile g xs = .ok g1) (h2 : p.setProfile g ys = .ok g2) :
    p.setProfile g1 ys = q.setProfile g2 xs := by
  have key : ∀ (q : Stored) {xs : List α}, g.nodes.length ≤ xs.length →
      (List.zipWith q.put (xs.take g.nodes.length) g.nodes).length = g.nodes.length ∧
      ({ g with nodes := List.zipWith q.put (xs.take g.nodes.length) g.nodes } : Grid α).WF := by
    intro q xs hx
    have hn : (List.zipWith q.put (xs.take g.nodes.length) g.nodes).length = g.nodes.length := by simp [hx]
    refine ⟨hn, ?_⟩
    unfold Grid.WF at *; rw [hn]; exact hw
  rw [setProfile_ok hw q hx] at h1
  rw [setProfile_ok hw p hy] at h2
  obtain rfl := ok_inj.1 h1
  obtain rfl := ok_inj.1 h2
  obtain ⟨n1, w1⟩ := key q hx
  obtain ⟨n2, w2⟩ := key p hy
  rw [setProfile_ok w1 p (by rw [n1]; exact hy), setProfile_ok w2 q (by rw [n2]; exact hx)]
  simp only [n1, n2]
  congr 2
  apply List.ext_getElem?
  intro j
  simp only [List.getElem?_zipWith]
  by_cases hj : j < g.nodes.length
  · have a1 : j < xs.length := by omega
    have a2 : j < ys.length := by omega
    simp [hj, a1, a2, Stored.put_comm (α := α) hpq]
  · simp [hj]

/-- **C122, nothing else is stored.** Columns with the same five profiles have the same layers. -/
theorem C122_complete {g g' : Grid α} (hw : g.WF) (hw' : g'.WF) (h : ∀ q : Stored, q.profile g = q.profile g') : g.nodes = g'.nodes := by
  have e : ∀ q : Stored, g.nodes.map q.of = g'.nodes.map q.of := by
    intro q
    have := h q
    rw [C122_profile hw, C122_profile hw'] at this
    exact ok_inj.1 this
  have hl : g.nodes.length = g'.nodes.length := by simpa using congrArg List.length (e .height)
  apply List.ext_getElem hl
  intro j h1 h2
  have k : ∀ q : Stored, q.of g.nodes[j] = q.of g'.nodes[j] := by
    intro q
    have := congrArg (fun l : List α => l[j]?) (e q)
    simpa [h1, h2] using this
  have a := k .height; have b := k .temperature; have c := k .water; have d := k .ice; have f := k .refrozen
  generalize g.nodes[j] = n at *
  generalize g'.nodes[j] = m at *
  cases n; cases m
  simp only [Stored.of] at a b c d f
  simp [a, b, c, d, f]

/-- Every query of a single layer that goes through a profile agrees with it. -/
private theorem query_agrees {β : Type} {g : Grid α} (hw : g.WF) {f : Node α → M β} {xs : List β} (h : g.mapNodes f = .ok xs) (i : Int) :
    (g.node i >>= f) = pyGet xs i := by
  rw [Grid.mapNodes_eq hw, mapM_eq_ok_iff] at h
  have hl := h.length_eq
  unfold Grid.node pyGet
  rw [← hl]
  cases hk : normIdx g.nodes.length i with
  | none => rfl
  | some k =>
    have h1 := normIdx_lt hk
    have h2 : k < xs.length := by omega
    simp only [List.getElem?_eq_getElem h1, List.getElem?_eq_getElem h2, ok_bind]
    exact List.forall₂_iff_get.1 h |>.2 k h1 h2

/-- **C122, derived quantities of single layers.** They are the entries of their profiles. -/
theorem C122_queries {c : Consts α} {g : Grid α} (hw : g.WF) (i : Int) :
    (∀ xs, g.getDensity c = .ok xs → g.getNodeDensity c i = pyGet xs i) ∧
    (∀ xs, g.getSpecificHeat c = .ok xs → g.getNodeSpecificHeat c i = pyGet xs i) ∧
    (∀ xs, g.getPorosity = .ok xs → g.getNodePorosity i = pyGet xs i) ∧
    (∀ xs, g.getColdContent c = .ok xs → g.getNodeColdContent c i = pyGet xs i) ∧
    (∀ xs, g.getIrreducibleWaterContent = .ok xs → g.getNodeIrreducibleWaterContent i = pyGet xs i) ∧
    (∀ xs, g.getThermalConductivity c = .ok xs → g.getNodeThermalConductivity c i = pyGet xs i) ∧
    (∀ xs, g.getThermalDiffusivity c = .ok xs → g.getNodeThermalDiffusivity c i = pyGet xs i) :=
  ⟨fun _ h => query_agrees hw h i, fun _ h => query_agrees hw h i, fun _ h => query_agrees hw h i, fun _ h => query_agrees hw h i,
    fun _ h => query_agrees hw h i, fun _ h => query_agrees hw h i, fun _ h => query_agrees hw h i⟩

end

section
variable {K : Type} [Field K] [LinearOrder K] [IsStrictOrderedRing K]

/-- The volume fraction of air: what ice and water leave. -/
def airOf (n : Node K) : K := max 0 (1 - n.iceFraction - n.lwc)

private theorem airPorosity_eq' (n : Node K) : n.airPorosity = airOf n := by
  unfold Node.airPorosity airOf
  rw [pyMax_eq, sub_right_comm]

/-- **C122, derived profiles.** Density, heat capacity, porosity and cold content of each layer, from its stored quantities. -/
theorem C122_derived {c : Consts K} {g : Grid K} (hw : g.WF) :
    g.getDensity c = .ok (g.nodes.map fun n => n.iceFraction * c.iceDensity + n.lwc * c.waterDensity + airOf n * c.airDensity) ∧
    g.getSpecificHeat c = .ok (g.nodes.map fun n =>
      n.iceFraction * c.specHeatIce + n.lwc * c.specHeatWater + airOf n * c.specHeatAir) ∧
    g.getPorosity = .ok (g.nodes.map fun n => 1 - n.iceFraction - n.lwc) ∧
    g.getColdContent c = .ok (g.nodes.map fun n =>
      (n.iceFraction * c.specHeatIce + n.lwc * c.specHeatWater + airOf n * c.specHeatAir) *
      (n.iceFraction * c.iceDensity + n.lwc * c.waterDensity + airOf n * c.airDensity) * n.height * (c.zeroTemperature - n.temperature)) := by
  refine ⟨?_, ?_, ?_, ?_⟩
  · unfold Grid.getDensity
    rw [Grid.mapNodes_eq hw, Grid.mapM_ok_map]
    congr 2; funext n
    unfold Node.density; rw [airPorosity_eq']
  · unfold Grid.getSpecificHeat
    rw [Grid.mapNodes_eq hw, Grid.mapM_ok_map]
    congr 2; funext n
    unfold Node.specificHeat; rw [airPorosity_eq']; ring
  · unfold Grid.getPorosity
    rw [Grid.mapNodes_eq hw, Grid.mapM_ok_map]
    rfl
  · unfold Grid.getColdContent
    rw [Grid.mapNodes_eq hw, Grid.mapM_ok_map]
    congr 2; funext n
    unfold Node.coldContent Node.specificHeat Node.density; rw [airPorosity_eq']; ring

/-- With the bulk method the conductivity is the mean of those of ice, water and air by volume. -/
theorem C122_conductivity {c : Consts K} (hc : c.thermalConductivityMethod = .bulk) {g : Grid K} (hw : g.WF) :
    g.getThermalConductivity c = .ok (g.nodes.map fun n => n.iceFraction * c.kI + n.lwc * c.kW + airOf n * c.kA) := by
  have e : ∀ n : Node K, n.thermalConductivity c = .ok (n.iceFraction * c.kI + n.lwc * c.kW + airOf n * c.kA) := by
    intro n
    unfold Node.thermalConductivity
    rw [hc]
    simp only [airPorosity_eq']
    congr 1; ring
  unfold Grid.getThermalConductivity
  rw [Grid.mapNodes_eq hw]
  simp only [e]
  exact Grid.mapM_ok_map _ _

/-- **C122, diffusivity.** Whenever the profile of the diffusivity is returned, so are those of density, heat capacity and conductivity, and
in each layer diffusivity times density times heat capacity is the conductivity. -/
theorem C122_diffusivity {c : Consts K} {g : Grid K} (hw : g.WF) {ds : List K} (h : g.getThermalDiffusivity c = .ok ds) :
    ∃ ks rs cs, g.getThermalConductivity c = .ok ks ∧ g.getDensity c = .ok rs ∧ g.getSpecificHeat c = .ok cs ∧
      ds.length = g.nodes.length ∧ ks.length = g.nodes.length ∧
      ∀ (i : Nat) (d k r s : K), ds[i]? = some d → ks[i]? = some k → rs[i]? = some r → cs[i]? = some s → r * s ≠ 0 ∧ d * (r * s) = k := by
  unfold Grid.getThermalDiffusivity at h
  rw [Grid.mapNodes_eq hw, mapM_eq_ok_iff] at h
  have hk : ∃ ks, g.nodes.mapM (fun n => n.thermalConductivity c) = .ok ks := by
    revert h
    generalize g.nodes = ns
    intro h
    induction h with
    | nil => exact ⟨[], rfl⟩
    | cons h1 _ ih =>
      obtain ⟨ks, ih⟩ := ih
      unfold Node.thermalDiffusivity at h1
      rw [bind_eq_ok] at h1
      obtain ⟨k, h1, -⟩ := h1
      exact ⟨k :: ks, by rw [List.mapM_cons, h1, ok_bind, ih]; rfl⟩
  obtain ⟨ks, hk⟩ := hk
  have hk' := mapM_eq_ok_iff.1 hk
  refine ⟨ks, g.nodes.map (Node.density c), g.nodes.map (Node.specificHeat c), ?_, Grid.getDensity_eq hw c, ?_, h.length_eq.symm,
    hk'.length_eq.symm, ?_⟩
  · unfold Grid.getThermalConductivity; rw [Grid.mapNodes_eq hw]; exact hk
  · unfold Grid.getSpecificHeat; rw [Grid.mapNodes_eq hw]; exact Grid.mapM_ok_map _ _
  · intro i d k r s e1 e2 e3 e4
    rw [List.getElem?_map, Option.map_eq_some_iff] at e3 e4
    obtain ⟨n, hn, rfl⟩ := e3
    obtain ⟨m, hm, rfl⟩ := e4
    rw [hn, Option.some.injEq] at hm
    subst hm
    obtain ⟨i1, i1'⟩ := List.getElem?_eq_some_iff.1 hn
    obtain ⟨i2, i2'⟩ := List.getElem?_eq_some_iff.1 e1
    obtain ⟨i3, i3'⟩ := List.getElem?_eq_some_iff.1 e2
    have a := (List.forall₂_iff_get.1 h).2 i i1 i2
    have b := (List.forall₂_iff_get.1 hk').2 i i1 i3
    simp only [List.get_eq_getElem, i1', i2', i3'] at a b
    unfold Node.thermalDiffusivity at a
    rw [b, ok_bind, fdiv_eq_ok] at a
    obtain ⟨a0, a1⟩ := a
    refine ⟨a0, ?_⟩
    rw [a1, div_mul_cancel₀ _ a0]

end

/-- Snow on ice: the hypotheses hold, and the profiles are as listed. -/
private def exCol : Grid ℚ := ⟨[⟨1/10, 268, 1/50, 1/4, 0⟩, ⟨1/2, 270, 0, 3/10, 1/1000⟩, ⟨2, 271, 0, 9/10, 0⟩], 3, 1/10, 0, 7200⟩

example : exCol.WF := rfl

example : Stored.ice.profile exCol = .ok [1/4, 3/10, 9/10] ∧ Stored.ice.atLayer exCol (-1) = .ok (9/10) ∧
    (Stored.ice.setAtLayer exCol (-3) (1/3) >>= Stored.ice.profile) = .ok [1/3, 3/10, 9/10] ∧
    (Stored.water.setProfile exCol [0, 1/9, 1/8, 5] >>= Stored.water.profile) = .ok [0, 1/9, 1/8] ∧
    Stored.ice.atLayer exCol 3 = .error .index ∧ (exCol.getThermalDiffusivity (Consts.default ℚ)).toOption.isSome = true := by
  decide +kernel

end Cosipy
