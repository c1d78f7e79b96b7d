import Verif.Lemmas.Init
import Verif.Lemmas.Erase
import Verif.Spec.Trunc
import Verif.Spec.Column

/-!
# C42 Saving and reloading a column is lossless in coupled mode

The per-layer refreezing amount is not saved; it is zero after loading.
-/

set_option autoImplicit false
set_option linter.unusedSectionVars false

namespace Cosipy
section
variable {K : Type} [Field K] [LinearOrder K] [IsStrictOrderedRing K] [HasTrunc K]

theorem take_padTo {fill : K} {m k : Nat} {xs : List K} (h : xs.length = k) : (padTo fill m xs).take k = xs := by
  unfold padTo
  rw [← h, List.take_left]

/-- The dataset with the given contents under the names the loader asks for. -/
def restartData (n : K) (hs ds ts ws fs : List K) (a b o : K) : Dataset K :=
  [("NLAYERS", [n]), ("LAYER_HEIGHT", hs), ("LAYER_RHO", ds), ("LAYER_T", ts), ("LAYER_LWC", ws), ("LAYER_IF", fs),
    ("new_snow_height", [a]), ("new_snow_timestamp", [b]), ("old_snow_timestamp", [o])]

theorem loadSnowpack_restartData (c : Consts K) (n : K) (hs ds ts ws fs : List K) (a b o : K) :
    loadSnowpack c (restartData n hs ds ts ws fs a b o) =
      Grid.new c (hs.take (HasTrunc.trunc n).toNat) (ds.take (HasTrunc.trunc n).toNat)
        (ts.take (HasTrunc.trunc n).toNat) (ws.take (HasTrunc.trunc n).toNat)
        (some (fs.take (HasTrunc.trunc n).toNat)) (some a) (some b) (some o) := by
  rw [← createGrid_eq]
  rfl

theorem saveCoupled_eq {c : Consts K} {fill : K} {m : Nat} {g : Grid K} (hw : g.WF) (hl : g.nodes.length ≤ m) :
    saveCoupled c fill m g = .ok (restartData ((g.nodes.length : Nat) : K)
      (padTo fill m (g.nodes.map Node.height)) (padTo fill m (g.nodes.map (Node.density c)))
      (padTo fill m (g.nodes.map Node.temperature)) (padTo fill m (g.nodes.map Node.lwc))
      (padTo fill m (g.nodes.map Node.iceFraction)) g.newSnowHeight g.newSnowTimestamp g.oldSnowTimestamp) := by
  have hn : g.getNumberLayers = (g.nodes.length : Int) := hw
  unfold saveCoupled
  rw [if_neg (by rw [hn]; omega), Grid.getHeight_eq hw, Grid.getDensity_eq hw, Grid.getTemperature_eq hw,
    Grid.getLwc_eq hw, Grid.getIceFraction_eq hw, hn]
  rfl

/-- **C42.** A column with at most `maxLayers` layers can be saved, and loading what was saved gives back the column:
layer count, heights, temperatures, liquid water, ice fractions and snow-age bookkeeping; the value used to fill unused
array entries does not matter. -/
theorem C42_roundtrip (ht : TruncSpec K) {c : Consts K} {fill : K} {maxLayers : Nat} {g : Grid K} (hw : g.WF)
    (hl : g.nodes.length ≤ maxLayers) :
    ∃ d, saveCoupled c fill maxLayers g = .ok d ∧ loadSnowpack c d = .ok g.clearRefreeze := by
  refine ⟨_, saveCoupled_eq hw hl, ?_⟩
  rw [loadSnowpack_restartData, ht.nat, Int.toNat_natCast]
  simp only [take_padTo (List.length_map (as := g.nodes) _)]
  rw [Grid.new_map_restart]
  have hn : g.numberNodes = (g.nodes.length : Int) := hw
  unfold Grid.clearRefreeze
  rw [hn]
  rfl

/-- **C42, too many layers.** A column with more layers raises ValueError instead of being saved incompletely. -/
theorem C42_overflow {c : Consts K} {fill : K} {maxLayers : Nat} {g : Grid K} (hw : g.WF)
    (hl : maxLayers < g.nodes.length) : saveCoupled c fill maxLayers g = .error .value := by
  have hn : g.getNumberLayers = (g.nodes.length : Int) := hw
  unfold saveCoupled
  rw [if_pos (by rw [hn]; omega)]

/-- **C42, injective.** Two columns that save to the same data are the same up to the refreezing amounts. -/
theorem C42_injective (ht : TruncSpec K) {c : Consts K} {fill : K} {maxLayers : Nat} {g g' : Grid K} (hw : g.WF)
    (hw' : g'.WF) (hl : g.nodes.length ≤ maxLayers) (hl' : g'.nodes.length ≤ maxLayers)
    (h : saveCoupled c fill maxLayers g = saveCoupled c fill maxLayers g') : g.clearRefreeze = g'.clearRefreeze := by
  obtain ⟨d, h1, h2⟩ := C42_roundtrip ht (c := c) (fill := fill) hw hl
  obtain ⟨d', h1', h2'⟩ := C42_roundtrip ht (c := c) (fill := fill) hw' hl'
  rw [h1, h1'] at h
  have hd : d = d' := Except.ok.inj h
  subst hd
  rw [h2] at h2'
  exact Except.ok.inj h2'

/-- **C42, what is loaded.** Data that load hold each of the four numbers of a column exactly once, and its five profiles. -/
theorem C42_needed {c : Consts K} {d : Dataset K} {g : Grid K} (h : loadSnowpack c d = .ok g) :
    (∀ name ∈ ["NLAYERS", "new_snow_height", "new_snow_timestamp", "old_snow_timestamp"],
      ∃ x, (d.find? fun p => p.1 == name) = some (name, [x])) ∧
    ∀ name ∈ ["LAYER_HEIGHT", "LAYER_RHO", "LAYER_T", "LAYER_LWC", "LAYER_IF"], ∃ xs, (name, xs) ∈ d := by
  have attr : ∀ {name : String} {xs : List K}, d.attr name = .ok xs → (d.find? fun p => p.1 == name) = some (name, xs) := by
    intro name xs ha
    unfold Dataset.attr at ha
    split at ha
    · next p hp =>
      have hn : p.1 = name := by simpa using List.find?_some hp
      cases ha
      rw [hp, ← hn]
    · cases ha
  have scalar : ∀ {name : String} {x : K}, d.scalar name = .ok x → ∃ x, (d.find? fun p => p.1 == name) = some (name, [x]) := by
    intro name x hx
    unfold Dataset.scalar at hx
    rw [bind_eq_ok] at hx
    obtain ⟨xs, ha, hx⟩ := hx
    split at hx
    · exact ⟨_, attr ha⟩
    · cases hx
  have mem : ∀ {name : String} {xs : List K}, d.attr name = .ok xs → ∃ xs, (name, xs) ∈ d :=
    fun ha => ⟨_, List.mem_of_find?_eq_some (attr ha)⟩
  unfold loadSnowpack at h
  simp only [bind_eq_ok] at h
  obtain ⟨_, h1, _, h2, _, h3, _, h4, _, h5, _, h6, _, h7, _, h8, _, h9, -⟩ := h
  simp only [List.forall_mem_cons, List.not_mem_nil, false_implies, implies_true, and_true]
  exact ⟨⟨scalar h1, scalar h7, scalar h8, scalar h9⟩, mem h2, mem h3, mem h4, mem h5, mem h6⟩

end

/-- Non-vacuity: the reals, a wet layer over ice that both carry refreezing amounts. -/
example : TruncSpec ℝ ∧ ∃ g : Grid ℝ, g.WF ∧ g.nodes.length ≤ 200 ∧ g.clearRefreeze ≠ g :=
  ⟨truncSpec_real, ⟨[⟨1, 270, 1/10, 1/2, 1⟩, ⟨2, 270, 0, 1, 0⟩], 2, 1, 2, 3⟩, rfl, by simp, by
    intro h
    have := congrArg (fun g => (g.nodes.map Node.refreeze)) h
    simp [Grid.clearRefreeze, Node.clearRefreeze, Node.setRefreeze] at this⟩

/-- `C42_needed`: a saved column loads. -/
example (c : Consts ℝ) : ∃ (d : Dataset ℝ) (g : Grid ℝ), loadSnowpack c d = .ok g := by
  obtain ⟨d, _, h⟩ := C42_roundtrip truncSpec_real (c := c) (fill := 0) (maxLayers := 200)
    (g := ⟨[⟨1, 270, 1/10, 1/2, 1⟩], 1, 1, 2, 3⟩) rfl (by simp)
  exact ⟨d, _, h⟩

end Cosipy
