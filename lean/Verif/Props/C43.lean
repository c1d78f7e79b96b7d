import Verif.Lemmas.Init
import Verif.Lemmas.Grid
import Mathlib.Algebra.Field.Rat
import Mathlib.Algebra.Order.Ring.Unbundled.Rat

/-!
# C43 A standalone restart file can be loaded

Refuted for every column: the file stores the snow-age bookkeeping under names the loader does not ask for. Full
statement: whenever `saveStandalone` succeeds, `loadSnowpack` of its result returns the column.
-/

set_option autoImplicit false
set_option linter.unusedSectionVars false

namespace Cosipy
section
variable {α : Type} [Add α] [Sub α] [Mul α] [Div α] [Neg α] [LT α] [LE α]
  [DecidableLT α] [DecidableLE α] [BEq α] [Zero α] [One α] [NatCast α] [OfScientific α] [HasTrunc α]

/-- **C43 refuted.** Loading any restart dataset a standalone run has written raises AttributeError. -/
theorem C43_refuted {c c' : Consts α} {fill : α} {maxLayers : Nat} {g : Grid α} {d : Dataset α}
    (h : saveStandalone c fill maxLayers g = .ok d) : loadSnowpack c' d = .error .attribute := by
  unfold saveStandalone at h
  simp only [bind_eq_ok] at h
  obtain ⟨hs, _, ds, _, ts, _, ws, _, fs, _, h⟩ := h
  split_ifs at h
  rw [pure_eq_ok] at h
  subst h
  rfl

/-- The same dataset with the three scalars renamed to what the loader asks for. -/
def renameRestart (d : Dataset α) : Dataset α :=
  d.map fun p =>
    (if p.1 = "NEWSNOWHEIGHT" then "new_snow_height"
     else if p.1 = "NEWSNOWTIMESTAMP" then "new_snow_timestamp"
     else if p.1 = "OLDSNOWTIMESTAMP" then "old_snow_timestamp" else p.1, p.2)

/-- **C43, what holds.** The names are the only difference: after renaming the three scalars, the loader treats the
standalone dataset exactly as the coupled one. Missing: the code does no such renaming. -/
theorem C43_renamed_partial {c c' : Consts α} {fill : α} {maxLayers : Nat} {g : Grid α} {d : Dataset α}
    (h : saveStandalone c fill maxLayers g = .ok d) :
    ∃ d', saveCoupled c fill maxLayers g = .ok d' ∧ loadSnowpack c' (renameRestart d) = loadSnowpack c' d' := by
  unfold saveStandalone at h
  simp only [bind_eq_ok] at h
  obtain ⟨hs, h1, ds, h2, ts, h3, ws, h4, fs, h5, h⟩ := h
  split_ifs at h with hlt
  rw [pure_eq_ok] at h
  subst h
  have e : saveCoupled c fill maxLayers g = .ok [("NLAYERS", [((g.getNumberLayers.toNat : Nat) : α)]),
      ("LAYER_HEIGHT", padTo fill maxLayers hs), ("LAYER_RHO", padTo fill maxLayers ds),
      ("LAYER_T", padTo fill maxLayers ts), ("LAYER_LWC", padTo fill maxLayers ws),
      ("LAYER_IF", padTo fill maxLayers fs), ("new_snow_height", [g.newSnowHeight]),
      ("new_snow_timestamp", [g.newSnowTimestamp]), ("old_snow_timestamp", [g.oldSnowTimestamp])] := by
    unfold saveCoupled
    rw [if_neg hlt, h1, h2, h3, h4, h5]
    rfl
  exact ⟨_, e, rfl⟩

end

/-- Non-vacuity: a column of two layers is saved by a standalone run. -/
example : ∃ d, saveStandalone (Consts.default ℚ) 0 200 ⟨[⟨1, 270, 1/10, 1/2, 1⟩, ⟨2, 270, 0, 1, 0⟩], 2, 1, 2, 3⟩ = .ok d :=
  ⟨_, rfl⟩

end Cosipy
