import Verif.Lemmas.Stretch
import Verif.Spec.HeatUnit

/-!
# The processes with another unit of heat
-/

set_option autoImplicit false
set_option linter.unusedSectionVars false

namespace Cosipy
section
variable {K : Type} [Field K] [LinearOrder K] [IsStrictOrderedRing K] [Transc K]

namespace HeatUnit
open Stretch (fdiv_mul_left fdiv_num pyMin_mul)

theorem fdiv_den {l : K} (hl : l ≠ 0) (x y : K) : fdiv x (l * y) = (fdiv x y).map (· / l) := by
  unfold fdiv
  by_cases h : y = 0
  · simp [h, Except.map]
  · simp only [Except.map, beq_iff_eq, mul_eq_zero, hl, h, or_self, if_false]
    rw [mul_comm, div_div]

variable {l : K} (hl : 0 < l)

include hl in
theorem pyMax_mul (a b : K) : pyMax (l * a) (l * b) = l * pyMax a b := by
  unfold pyMax
  by_cases h : a < b
  · rw [if_pos h, if_pos ((mul_lt_mul_iff_right₀ hl).2 h)]
  · rw [if_neg h, if_neg (mt (mul_lt_mul_iff_right₀ hl).1 h)]

include hl in
theorem pyAbs_mul (a : K) : pyAbs (l * a) = l * pyAbs a := by
  unfold pyAbs
  by_cases h : a < 0
  · rw [if_pos h, if_pos (mul_neg_of_pos_of_neg hl h), mul_neg]
  · rw [if_neg h, if_neg]
    exact not_lt.2 (mul_nonneg hl.le (not_lt.1 h))

theorem specificHeat (c : Consts K) (n : Node K) : n.specificHeat (c.heatUnit l) = l * n.specificHeat c := by
  show n.iceFraction * (l * c.specHeatIce) + n.airPorosity * (l * c.specHeatAir) + n.lwc * (l * c.specHeatWater) = _
  unfold Node.specificHeat; ring

theorem coldContent (c : Consts K) (n : Node K) : n.coldContent (c.heatUnit l) = l * n.coldContent c := by
  show -n.specificHeat (c.heatUnit l) * n.density c * n.height * (n.temperature - c.zeroTemperature) = _
  rw [specificHeat]
  unfold Node.coldContent; ring

theorem conductivity (c : Consts K) (hc : c.thermalConductivityMethod ≠ .empirical) (n : Node K) :
    n.thermalConductivity (c.heatUnit l) = (n.thermalConductivity c).map (l * ·) := by
  unfold Node.thermalConductivity
  show (match c.thermalConductivityMethod with
    | .bulk => .ok (n.iceFraction * (l * c.kI) + n.airPorosity * (l * c.kA) + n.lwc * (l * c.kW))
    | .empirical => _
    | .other => .error .value : M K) = _
  cases h : c.thermalConductivityMethod with
  | bulk =>
    show Except.ok _ = Except.ok _
    congr 1; ring
  | empirical => exact absurd h hc
  | other => rfl

include hl in
theorem diffusivity (c : Consts K) (hc : c.thermalConductivityMethod ≠ .empirical) (n : Node K) :
    n.thermalDiffusivity (c.heatUnit l) = n.thermalDiffusivity c := by
  unfold Node.thermalDiffusivity
  rw [conductivity c hc n, specificHeat]
  cases n.thermalConductivity c with
  | error _ => rfl
  | ok k =>
    show fdiv (l * k) (n.density c * (l * n.specificHeat c)) = fdiv k (n.density c * n.specificHeat c)
    rw [mul_left_comm, fdiv_mul_left hl.ne']

include hl in
theorem solveHeatEquation (fuel : Nat) (c : Consts K) (hc : c.thermalConductivityMethod ≠ .empirical) (g : Grid K) (dt : K) :
    Cosipy.solveHeatEquation fuel (c.heatUnit l) g dt = Cosipy.solveHeatEquation fuel c g dt := by
  unfold Cosipy.solveHeatEquation
  simp only [diffusivity hl c hc]

include hl in
theorem penLayer (c : Consts K) (dt e : K) (n : Node K) :
    Cosipy.penLayer (c.heatUnit l) dt (l * e) n = Cosipy.penLayer c dt e n := by
  have e1 : fdiv (l * e) (n.density (c.heatUnit l) * (c.heatUnit l).specHeatIce) = fdiv e (n.density c * c.specHeatIce) := by
    show fdiv (l * e) (n.density c * (l * c.specHeatIce)) = _
    rw [mul_left_comm, fdiv_mul_left hl.ne']
  have e2 : penA (c.heatUnit l) = penA c := by
    show ((l * c.specHeatIce) * c.iceDensity) / (c.waterDensity * (l * c.latHeatMelting)) = _
    rw [mul_assoc, mul_left_comm c.waterDensity, mul_div_mul_left _ _ hl.ne']; rfl
  unfold Cosipy.penLayer
  rw [e1, e2]
  rfl

include hl in
theorem penLayers (c : Consts K) (dt : K) : ∀ (ns : List (Node K)) (i : Int) (es : List K) (rm : List Int) (m : K),
    Cosipy.penLayers (c.heatUnit l) dt i ns (es.map (l * ·)) rm m = Cosipy.penLayers c dt i ns es rm m
  | [], _, _, _, _ => by simp [Cosipy.penLayers]
  | [a], _, _, _, _ => by simp [Cosipy.penLayers]
  | a :: b :: rest, _, [], _, _ => by simp [Cosipy.penLayers]
  | a :: b :: rest, i, e :: es, rm, m => by
    rw [List.map_cons, Cosipy.penLayers, Cosipy.penLayers, penLayer hl]
    congr 1
    funext r
    have := penLayers c dt (b :: rest) (i + 1) es (if r.2.1 then rm ++ [i] else rm) (m + r.2.2)
    simp only [this]

include hl in
theorem radiationStep (c : Consts K) (g : Grid K) (sw dt : K) :
    Cosipy.radiationStep (c.heatUnit l) g (l * sw) dt =
      (Cosipy.radiationStep c g sw dt).map fun r => (r.1, r.2.1, l * r.2.2) := by
  unfold Cosipy.radiationStep
  refine ite_comm' ⟨fun h => (mul_pos_iff_of_pos_left hl).1 h, fun h => mul_pos hl h⟩ (fun _ => ?_) fun _ => ?_
  · unfold Cosipy.penetratingRadiation
    show (match c.penetratingMethod with | .bintanja95 => _ | .other => _ : M (Grid K × K × K)) = _
    cases c.penetratingMethod with
    | other => rfl
    | bintanja95 =>
      show Cosipy.methodBintanja (c.heatUnit l) g (l * sw) dt = (Cosipy.methodBintanja c g sw dt).map _
      unfold Cosipy.methodBintanja
      refine bind_comm fun depths => bind_comm fun top => ?_
      have e0 : penCoeffs (c.heatUnit l) top = penCoeffs c top := rfl
      have e : penEnergy (l * sw * (penCoeffs c top).1) (penCoeffs c top).2 depths =
          (penEnergy (sw * (penCoeffs c top).1) (penCoeffs c top).2 depths).map (l * ·) := by
        unfold penEnergy
        rw [List.map_map]
        refine List.map_congr_left fun x _ => ?_
        show l * sw * _ * x = l * (sw * _ * x)
        rw [mul_assoc, mul_assoc, mul_assoc]
      rw [e0]
      simp only [e, penLayers hl]
      refine bind_comm fun r => ?_
      refine ite_comm (fun _ => ?_) fun _ => ?_
      · show Except.ok _ = Except.ok _
        rw [mul_assoc]
      · refine bind_comm fun g => ?_
        show Except.ok _ = Except.ok _
        rw [mul_assoc]
  · show Except.ok _ = Except.ok (g, 0, l * 0)
    rw [mul_zero]

include hl in
theorem refreezeAmount (c : Consts K) (n : Node K) :
    Cosipy.refreezeAmount (c.heatUnit l) n = Cosipy.refreezeAmount c n := by
  unfold Cosipy.refreezeAmount
  have e1 : ∀ d : K, fdiv (-(d * ((n.iceFraction * ((l * c.specHeatIce) * c.iceDensity)) + (n.lwc * c.waterDensity * (l * c.specHeatWater)))))
      (c.waterDensity * ((l * c.latHeatMelting) - d * ((l * c.specHeatIce) - (l * c.specHeatWater)))) =
      fdiv (-(d * ((n.iceFraction * (c.specHeatIce * c.iceDensity)) + (n.lwc * c.waterDensity * c.specHeatWater))))
      (c.waterDensity * (c.latHeatMelting - d * (c.specHeatIce - c.specHeatWater))) := by
    intro d
    rw [← fdiv_mul_left hl.ne' (-(d * ((n.iceFraction * (c.specHeatIce * c.iceDensity)) + (n.lwc * c.waterDensity * c.specHeatWater))))]
    congr 1 <;> ring
  have e2 : ∀ d : K, -((l * c.specHeatIce) * c.iceDensity * n.iceFraction * d) / (c.waterDensity * (l * c.latHeatMelting)) =
      -(c.specHeatIce * c.iceDensity * n.iceFraction * d) / (c.waterDensity * c.latHeatMelting) := by
    intro d
    rw [← mul_div_mul_left _ (c.waterDensity * c.latHeatMelting) hl.ne']
    congr 1 <;> ring
  show (fdiv (-((n.temperature - c.zeroTemperature) * ((n.iceFraction * ((l * c.specHeatIce) * c.iceDensity)) + (n.lwc * c.waterDensity * (l * c.specHeatWater)))))
      (c.waterDensity * ((l * c.latHeatMelting) - (n.temperature - c.zeroTemperature) * ((l * c.specHeatIce) - (l * c.specHeatWater)))) >>= _) = _
  rw [e1]
  congr 1
  funext cold
  show Except.ok (pyMin _ (-((l * c.specHeatIce) * c.iceDensity * n.iceFraction * (n.temperature - c.zeroTemperature)) / (c.waterDensity * (l * c.latHeatMelting)))) = _
  rw [e2]
  rfl

include hl in
theorem refreezeLayer (c : Consts K) (n : Node K) :
    Cosipy.refreezeLayer (c.heatUnit l) n = Cosipy.refreezeLayer c n := by
  unfold Cosipy.refreezeLayer
  rw [refreezeAmount hl]
  have e1 : ∀ d i w : K, fdiv (d * (c.waterDensity * (l * c.latHeatMelting))) (((l * c.specHeatIce) * c.iceDensity * i) + ((l * c.specHeatWater) * c.waterDensity * w)) =
      fdiv (d * (c.waterDensity * c.latHeatMelting)) ((c.specHeatIce * c.iceDensity * i) + (c.specHeatWater * c.waterDensity * w)) := by
    intro d i w
    rw [← fdiv_mul_left hl.ne' (d * (c.waterDensity * c.latHeatMelting))]
    congr 1 <;> ring
  show (if n.temperature ≤ c.zeroTemperature ∧ 0 < n.lwc then _ else _ : M (Node K × K)) = _
  congr 1
  congr 1
  funext d
  show (checkOob (n.iceFraction + c.waterDensity / c.iceDensity * d) (n.lwc - d) >>= _) =
    (checkOob (n.iceFraction + c.waterDensity / c.iceDensity * d) (n.lwc - d) >>= _)
  congr 1
  funext _
  show (fdiv (d * (c.waterDensity * (l * c.latHeatMelting))) (((l * c.specHeatIce) * c.iceDensity * _) + ((l * c.specHeatWater) * c.waterDensity * _)) >>= _) = _
  rw [e1]
  rfl

include hl in
theorem refreezing (c : Consts K) (g : Grid K) : Cosipy.refreezing (c.heatUnit l) g = Cosipy.refreezing c g := by
  have : ∀ (ns : List (Node K)) (acc : K), Cosipy.refreezeLayers (c.heatUnit l) acc ns = Cosipy.refreezeLayers c acc ns := by
    intro ns
    induction ns with
    | nil => intro _; rfl
    | cons n ns ih =>
      intro acc
      rw [Cosipy.refreezeLayers, Cosipy.refreezeLayers, refreezeLayer hl]
      simp only [ih]
  unfold Cosipy.refreezing
  rw [this]

theorem densification (c : Consts K) (g : Grid K) (slope dt : K) :
    Cosipy.densification (c.heatUnit l) g slope dt = Cosipy.densification c g slope dt := by
  have b : ∀ (k : Nat) (ms : K) (p : Option (Node K)) (ns : List (Node K)),
      booneLayers (c.heatUnit l) dt k ms p ns = booneLayers c dt k ms p ns := by
    intro k
    induction k with
    | zero => intro _ _ _; rfl
    | succ k ih =>
      intro ms p ns
      cases ns with
      | nil => rfl
      | cons n ns =>
        simp only [booneLayers, ih]
        have e : booneLoad (c.heatUnit l) p n = booneLoad c p n := by cases p <;> rfl
        rw [e]
        rfl
  have v : ∀ (k : Nat) (ms : K) (p : Option (Node K)) (ns : List (Node K)),
      vionnetLayers (c.heatUnit l) slope dt k ms p ns = vionnetLayers c slope dt k ms p ns := by
    intro k
    induction k with
    | zero => intro _ _ _; rfl
    | succ k ih =>
      intro ms p ns
      cases ns with
      | nil => rfl
      | cons n ns =>
        simp only [vionnetLayers, ih]
        have e : vionnetLoad (c.heatUnit l) slope p n = vionnetLoad c slope p n := by cases p <;> rfl
        rw [e]
        rfl
  have m : ∀ (k : Nat) (ns : List (Node K)), empiricalLayers (c.heatUnit l) dt k ns = empiricalLayers c dt k ns := by
    intro k
    induction k with
    | zero => intro _; rfl
    | succ k ih =>
      intro ns
      cases ns with
      | nil => rfl
      | cons n ns =>
        simp only [empiricalLayers, ih]
        rfl
  unfold Cosipy.densification
  show (match c.densificationMethod with | .boone => _ | .vionnet => _ | .empirical => _ | .constant => _ | .other => _ : M (Grid K)) = _
  cases c.densificationMethod with
  | boone => show methodBoone _ _ _ = methodBoone _ _ _; unfold methodBoone; simp only [b]; rfl
  | vionnet => show methodVionnet _ _ _ _ = methodVionnet _ _ _ _; unfold methodVionnet; simp only [v]; rfl
  | empirical => show methodEmpirical _ _ _ = methodEmpirical _ _ _; unfold methodEmpirical; simp only [m]; rfl
  | constant => rfl
  | other => rfl

/-- The inputs of the surface balance with another unit of heat. -/
def E (l : K) (i : EbInput K) : EbInput K := { i with lwin := i.lwin.map (l * ·) }

theorem incomingLongwave (c : Consts K) (i : EbInput K) (ea : K) :
    Cosipy.incomingLongwave (c.heatUnit l) (E l i) ea = (Cosipy.incomingLongwave c i ea).map (l * ·) := by
  unfold Cosipy.incomingLongwave E
  cases i.lwin with
  | some x => rfl
  | none =>
    cases i.n with
    | none => rfl
    | some n =>
      show Except.ok (_ * (l * c.sigma) * _) = Except.ok (l * (_ * c.sigma * _))
      rw [mul_left_comm _ l, mul_assoc l]

theorem ebFluxes (c : Consts K) (hc : c.thermalConductivityMethod ≠ .empirical) (hs : c.stabilityCorrection ≠ .mo) (wrf : Bool)
    (g : Grid K) (i : EbInput K) (t0 : K) :
    Cosipy.ebFluxes (c.heatUnit l) wrf g (E l i) t0 = (Cosipy.ebFluxes c wrf g i t0).map (Fluxes.heatUnit l) := by
  unfold Cosipy.ebFluxes
  show (Cosipy.incomingLongwave (c.heatUnit l) (E l i) (i.rh2 * methodEWSonntag i.t2 / 100) >>= _) =
    Except.map _ (Cosipy.incomingLongwave c i (i.rh2 * methodEWSonntag i.t2 / 100) >>= _)
  rw [incomingLongwave]
  refine map_bind_comm fun li => ?_
  have elv : (if (c.heatUnit l).zeroTemperature ≤ t0 then (c.heatUnit l).latHeatVaporize else (c.heatUnit l).latHeatSublimation) =
      l * (if c.zeroTemperature ≤ t0 then c.latHeatVaporize else c.latHeatSublimation) := by
    rw [mul_ite]; rfl
  rw [elv]
  generalize (if c.zeroTemperature ≤ t0 then c.latHeatVaporize else c.latHeatSublimation) = lv
  show ((match c.stabilityCorrection with | .mo => _ | .ri => _ | .other => _ : M (K × K × Option K × K × K)) >>= _) = _
  cases hm : c.stabilityCorrection with
  | mo => exact absurd hm hs
  | other => rfl
  | ri =>
    refine bind_comm (x := g.node 0) fun top => ?_
    show (top.thermalConductivity (c.heatUnit l) >>= _) = _
    rw [conductivity c hc]
    refine map_bind_comm fun lam => ?_
    show Except.ok _ = Except.ok _
    congr 1
    unfold Fluxes.heatUnit sensibleHeatFlux latentHeatFlux
    dsimp only [E, Consts.heatUnit, bulkRi]
    congr 1
    · rw [mul_left_comm _ l c.sigma, mul_assoc l]
    · ring
    · ring
    · ring
    · ring

theorem ebOptim (hl : 0 < l) (c : Consts K) (hc : c.thermalConductivityMethod ≠ .empirical) (hs : c.stabilityCorrection ≠ .mo) (wrf : Bool)
    (g : Grid K) (i : EbInput K) (sw t0 : K) :
    Cosipy.ebOptim (c.heatUnit l) wrf g (E l i) (l * sw) t0 = (Cosipy.ebOptim c wrf g i sw t0).map (l * ·) := by
  unfold Cosipy.ebOptim
  rw [ebFluxes c hc hs]
  refine map_bind_comm fun f => ?_
  have e : l * sw + (f.heatUnit l).li + (f.heatUnit l).lo + (f.heatUnit l).h + (f.heatUnit l).le + (f.heatUnit l).b + (f.heatUnit l).qrr =
      l * (sw + f.li + f.lo + f.h + f.le + f.b + f.qrr) := by
    unfold Fluxes.heatUnit; ring
  rw [e]
  show (match c.sfcTemperatureMethod with | .newton => _ | .secant => _ | _ => _ : M K) = _
  cases c.sfcTemperatureMethod <;> first | rfl | (show Except.ok _ = Except.ok _; rw [pyAbs_mul hl])

include hl in
theorem secantPoint (p0 p1 q0 q1 : K) : Cosipy.secantPoint p0 p1 (l * q0) (l * q1) = Cosipy.secantPoint p0 p1 q0 q1 := by
  unfold Cosipy.secantPoint
  rw [pyAbs_mul hl, pyAbs_mul hl]
  have e1 : ∀ a b : K, -(l * a) / (l * b) = -a / b := fun a b => by rw [← mul_neg, mul_div_mul_left _ _ hl.ne']
  have e2 : ∀ a b : K, l * a / (l * b) = a / b := fun a b => mul_div_mul_left _ _ hl.ne'
  rw [e1, e1, e2, e2]
  by_cases h : pyAbs q0 < pyAbs q1
  · rw [if_pos h, if_pos ((mul_lt_mul_iff_right₀ hl).2 h)]
  · rw [if_neg h, if_neg (mt (mul_lt_mul_iff_right₀ hl).1 h)]

include hl in
theorem secantLoop (f : K → M K) (tol rtol : K) : ∀ (n : Nat) (p0 p1 q0 q1 : K) (k : Nat),
    Cosipy.secantLoop (fun x => (f x).map (l * ·)) tol rtol n p0 p1 (l * q0) (l * q1) k =
      Cosipy.secantLoop f tol rtol n p0 p1 q0 q1 k := by
  intro n
  induction n with
  | zero => intros; rfl
  | succ n ih =>
    intro p0 p1 q0 q1 k
    rw [Cosipy.secantLoop, Cosipy.secantLoop]
    have hb : (l * q1 == l * q0) = (q1 == q0) := by
      rw [Bool.eq_iff_iff]; simp [hl.ne']
    simp only [hb, secantPoint hl]
    cases f (Cosipy.secantPoint p0 p1 q0 q1) with
    | error _ => rfl
    | ok q =>
      show (if _ then _ else if _ then _ else Cosipy.secantLoop (fun x => (f x).map (l * ·)) tol rtol n p1 _ (l * q1) (l * q) (k + 1)) = _
      rw [ih]
      rfl

include hl in
theorem secant (f : K → M K) (x0 tol : K) (n : Nat) (x1 : Option K) (rtol : K) :
    Cosipy.secant (fun x => (f x).map (l * ·)) x0 tol n x1 rtol = Cosipy.secant f x0 tol n x1 rtol := by
  have key : ∀ p1 : K, ((f x0).map (l * ·) >>= fun q0 => (f p1).map (l * ·) >>= fun q1 =>
      if pyAbs q1 < pyAbs q0 then Cosipy.secantLoop (fun x => (f x).map (l * ·)) tol rtol n p1 x0 q1 q0 2
      else Cosipy.secantLoop (fun x => (f x).map (l * ·)) tol rtol n x0 p1 q0 q1 2) =
      (f x0 >>= fun q0 => f p1 >>= fun q1 =>
      if pyAbs q1 < pyAbs q0 then Cosipy.secantLoop f tol rtol n p1 x0 q1 q0 2
      else Cosipy.secantLoop f tol rtol n x0 p1 q0 q1 2) := by
    intro p1
    cases f x0 with
    | error _ => rfl
    | ok q0 =>
      cases f p1 with
      | error _ => rfl
      | ok q1 =>
        show (if pyAbs (l * q1) < pyAbs (l * q0) then Cosipy.secantLoop (fun x => (f x).map (l * ·)) tol rtol n p1 x0 (l * q1) (l * q0) 2 else
          Cosipy.secantLoop (fun x => (f x).map (l * ·)) tol rtol n x0 p1 (l * q0) (l * q1) 2) =
          (if pyAbs q1 < pyAbs q0 then Cosipy.secantLoop f tol rtol n p1 x0 q1 q0 2 else Cosipy.secantLoop f tol rtol n x0 p1 q0 q1 2)
        rw [secantLoop hl, secantLoop hl, pyAbs_mul hl, pyAbs_mul hl]
        by_cases h : pyAbs q1 < pyAbs q0
        · rw [if_pos h, if_pos ((mul_lt_mul_iff_right₀ hl).2 h)]
        · rw [if_neg h, if_neg (mt (mul_lt_mul_iff_right₀ hl).1 h)]
  unfold Cosipy.secant
  dsimp only
  by_cases h1 : n = 0
  · rw [if_pos h1, if_pos h1]
  rw [if_neg h1, if_neg h1]
  by_cases h2 : ¬ 0 < tol
  · rw [if_pos h2, if_pos h2]
  rw [if_neg h2, if_neg h2]
  cases x1 with
  | none => exact key _
  | some x =>
    dsimp only
    split_ifs
    · rfl
    · exact key _

include hl in
theorem solve {sv : Solvers K} (hv : sv.ScaleFree) (c : Consts K) (f : K → M K) (x : K) :
    solveSurfaceTemperature sv (c.heatUnit l) (fun t => (f t).map (l * ·)) x = solveSurfaceTemperature sv c f x := by
  unfold solveSurfaceTemperature
  show (match c.sfcTemperatureMethod with | .lbfgsb => _ | .slsqp => _ | .newton => _ | .secant => _ | .other => _ : M K) = _
  cases c.sfcTemperatureMethod with
  | lbfgsb => exact hv.2 l hl ..
  | slsqp => exact hv.2 l hl ..
  | newton => simp only [hv.1 l hl, hv.2 l hl]
  | secant =>
    simp only [secant hl, hv.2 l hl]
    rfl
  | other => rfl

include hl in
theorem updateSurfaceTemperature {sv : Solvers K} (hv : sv.ScaleFree) (c : Consts K) (hc : c.thermalConductivityMethod ≠ .empirical)
    (hs : c.stabilityCorrection ≠ .mo) (wrf : Bool) (g : Grid K) (mk : K → K → EbInput K) (sw : K) :
    Cosipy.updateSurfaceTemperature sv (c.heatUnit l) wrf g (fun a b => E l (mk a b)) (l * sw) =
      (Cosipy.updateSurfaceTemperature sv c wrf g mk sw).map fun r => (r.1, r.2.1, r.2.2.heatUnit l) := by
  unfold Cosipy.updateSurfaceTemperature
  show (interpSubT c g >>= _) = _
  refine bind_comm fun tz => bind_comm fun top => ?_
  have e : Cosipy.ebOptim (c.heatUnit l) wrf g (E l (mk tz.1 tz.2)) (l * sw) =
      fun t => (Cosipy.ebOptim c wrf g (mk tz.1 tz.2) sw t).map (l * ·) :=
    funext fun t => ebOptim hl c hc hs wrf g _ sw t
  dsimp only
  rw [e, solve hl hv]
  refine bind_comm fun r => ?_
  show (g.setNodeTemperature 0 (pyMin c.zeroTemperature r) >>= _) = _
  refine bind_comm fun g => ?_
  show (Cosipy.ebFluxes (c.heatUnit l) wrf g (E l (mk tz.1 tz.2)) (pyMin c.zeroTemperature r) >>= _) = _
  rw [ebFluxes c hc hs]
  cases Cosipy.ebFluxes c wrf g (mk tz.1 tz.2) (pyMin c.zeroTemperature r) <;> rfl

include hl in
theorem vapour (c : Consts K) (dt ts le : K) : vapourFluxes (c.heatUnit l) dt ts (l * le) = vapourFluxes c dt ts le := by
  have e : ∀ x : K, l * le / (c.waterDensity * (l * x)) = le / (c.waterDensity * x) := fun x => by
    rw [mul_left_comm, mul_div_mul_left _ _ hl.ne']
  show (if ts < c.zeroTemperature then (⟨pyMin (l * le / (c.waterDensity * (l * c.latHeatSublimation))) 0 * dt,
      pyMax (l * le / (c.waterDensity * (l * c.latHeatSublimation))) 0 * dt, 0, 0⟩ : Vapour K) else
      ⟨0, 0, pyMin (l * le / (c.waterDensity * (l * c.latHeatVaporize))) 0 * dt,
        pyMax (l * le / (c.waterDensity * (l * c.latHeatVaporize))) 0 * dt⟩) = _
  rw [e, e]
  rfl

include hl in
theorem meltEnergy (sw : K) (f : Fluxes K) : Cosipy.meltEnergy (l * sw) (f.heatUnit l) = l * Cosipy.meltEnergy sw f := by
  unfold Cosipy.meltEnergy
  have e : l * sw + (f.heatUnit l).li + (f.heatUnit l).lo + (f.heatUnit l).b + (f.heatUnit l).qrr + (f.heatUnit l).h + (f.heatUnit l).le =
      l * (sw + f.li + f.lo + f.b + f.qrr + f.h + f.le) := by
    unfold Fluxes.heatUnit; ring
  rw [e]
  conv_lhs => rw [← mul_zero l]
  exact pyMax_mul hl ..

end HeatUnit

end
end Cosipy
