import Verif.Model.IO

/-! A small concrete domain used to show that hypotheses can be met: two by two cells, one time step, two layers. -/

set_option autoImplicit false

namespace Cosipy

/-- The result of a worker whose `i`-th output has the value `100 y + 10 x + i`. -/
def exRes (y x : Nat) : List (PyVal Nat) :=
  let d : Store (Val Nat) := fun k =>
    if k ∈ restartScalars then some ⟨none, none, fun _ _ => 1000 + 100 * y + 10 * x⟩
    else if k ∈ restartLayers.map ("LAYER_" ++ ·) then some ⟨none, some 2, fun _ l => 2000 + 100 * y + 10 * x + l⟩
    else none
  [.int y, .int x, .dataset d]
    ++ (List.range 30).map (fun i => .arr ⟨some 1, none, fun _ _ => 100 * y + 10 * x + i⟩)
    ++ (List.range 9).map (fun i => .arr ⟨some 1, some 2, fun _ l => 100 * y + 10 * x + i + l⟩)
    ++ [.names [if y = 0 then "A" else "B"], .rows [(if y = 0 then "A" else "B", x)],
        .frame ⟨some 1, none, fun _ _ => y⟩ ⟨some 1, none, fun _ _ => x⟩]

/-- The default lists of output variables, config.toml:61-62, and a list of layer variables. -/
def exIO : IOState Nat :=
  IOState.init "T2,RH2,U2,RAIN,SNOWFALL,RRR,PRES,N,G,LWin,LWout,H,LE,B,QRR,Z0,ALBEDO,TS".toList
    ("ME,MB,surfMB,intMB,EVAPORATION,SUBLIMATION,CONDENSATION,DEPOSITION,surfM,subM,Q,REFREEZE,SNOWHEIGHT," ++
      "TOTALHEIGHT,LAYERS").toList
    "HEIGHT,RHO,REFREEZE".toList true 2 1 2 2 (fun _ => none) (fun _ => none)

/-- Three of the four cells are glacier. -/
def exMask (y x : Nat) : Bool := !(y == 1 && x == 1)

end Cosipy
