import Verif.Model.Core
import Verif.Spec.Phys

/-!
What the variables of a result file mean, by their names and descriptions in the file (`long_name`,
cosipy/cpkernel/io.py:339-439), in terms of a simulated step `o` and the state `s` after it.
-/

set_option autoImplicit false

namespace Cosipy
section
variable {K : Type} [Field K] [LinearOrder K] [IsStrictOrderedRing K] [Transc K]

/-- Variables over time and space. -/
def SeriesMeans (c : Consts K) (fill : K) (name : String) (s : SimState K) (o : StepOut K) (v : K) : Prop :=
  match name with
  | "RAIN" => v = o.rain                                                          -- Liquid precipitation, mm
  | "SNOWFALL" => v = o.snowfall * o.densityFreshSnow / c.waterDensity            -- Snowfall, m w.e.
  | "LWin" => v = o.fluxes.li
  | "LWout" => v = o.fluxes.lo
  | "H" => v = o.fluxes.h
  | "LE" => v = o.fluxes.le
  | "B" => v = o.fluxes.b
  | "QRR" => v = o.fluxes.qrr
  | "surfMB" => v = o.surfMB
  | "MB" => v = o.mb
  | "Q" => v = o.q                                                                -- Runoff
  | "SNOWHEIGHT" =>                         -- height of the uppermost layers, as many as there are snow layers (C41)
    v = ((s.grid.nodes.take (s.grid.nodes.countP fun n => decide (n.density c < c.snowIceThreshold))).map Node.height).sum
  | "TOTALHEIGHT" => v = (s.grid.nodes.map Node.height).sum
  | "TS" => v = o.ts
  | "ALBEDO" => v = o.albedo
  | "LAYERS" => v = s.grid.nodes.length
  | "ME" => v = o.meltEnergy
  | "intMB" => v = o.intMB
  | "EVAPORATION" => v = o.evaporation
  | "SUBLIMATION" => v = o.sublimation
  | "CONDENSATION" => v = o.condensation
  | "DEPOSITION" => v = o.deposition
  | "REFREEZE" => v = o.refreeze
  | "subM" => v = o.subsurfaceMelt
  | "Z0" => v = o.z0
  | "surfM" => v = o.melt
  | "MOL" => v = o.fluxes.mol.getD fill
  | _ => False

/-- Variables over time, space and layers: value `v` of a layer `n`. -/
def LayerMeans (c : Consts K) (name : String) (n : Node K) (v : K) : Prop :=
  match name with
  | "HEIGHT" => v = n.height
  | "RHO" => v = n.density c
  | "T" => v = n.temperature
  | "LWC" => v = n.lwc
  | "CC" => v = n.specificHeat c * n.density c * n.height * (c.zeroTemperature - n.temperature)
  | "POROSITY" => v = 1 - n.iceFraction - n.lwc
  | "ICE_FRACTION" => v = n.iceFraction
  | "IRREDUCIBLE_WATER" => n.irreducibleWaterContent = .ok v
  | "REFREEZE" => v = n.refreeze
  | _ => False

/-- The variables of a restart file, for the column they were taken from. -/
def RestartMeans (c : Consts K) (fill : K) (g : Grid K) (name : String) (k : Nat) (v : K) : Prop :=
  match name with
  | "NLAYERS" => v = g.nodes.length
  | "NEWSNOWHEIGHT" => v = g.newSnowHeight
  | "NEWSNOWTIMESTAMP" => v = g.newSnowTimestamp
  | "OLDSNOWTIMESTAMP" => v = g.oldSnowTimestamp
  | "LAYER_HEIGHT" => v = (g.nodes.map Node.height).getD k fill
  | "LAYER_RHO" => v = (g.nodes.map (Node.density c)).getD k fill
  | "LAYER_T" => v = (g.nodes.map Node.temperature).getD k fill
  | "LAYER_LWC" => v = (g.nodes.map Node.lwc).getD k fill
  | "LAYER_IF" => v = (g.nodes.map Node.iceFraction).getD k fill
  | _ => False

/-- What a restart file has to hold of a column: single numbers, and one number per layer. -/
def restartNumbers : List String := ["NLAYERS", "NEWSNOWHEIGHT", "NEWSNOWTIMESTAMP", "OLDSNOWTIMESTAMP"]
@[inherit_doc restartNumbers]
def restartProfiles : List String := ["LAYER_HEIGHT", "LAYER_RHO", "LAYER_T", "LAYER_LWC", "LAYER_IF"]

end
end Cosipy
