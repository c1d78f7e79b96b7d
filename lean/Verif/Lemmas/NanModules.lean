import Verif.Lemmas.NanGrid
import Verif.Lemmas.Heat

/-! The process modules commute with `toNan` on physical columns. -/

set_option autoImplicit false
set_option linter.unusedSectionVars false

namespace Cosipy
section
variable {K : Type} [Field K] [LinearOrder K] [IsStrictOrderedRing K]

local notation "N" => (Nan.num : K → Nan K)

/-! ## Percolation and refreezing -/

theorem toNan_percolateFrom : ∀ (ns : List (Node K)) (a : Node K),
    percolateFrom a.toNan (ns.map Node.toNan) = (percolateFrom a ns).map (List.map Node.toNan) := by
  intro ns
  induction ns with
  | nil => intro a; rfl
  | cons b rest ih =>
    intro a
    simp only [List.map_cons, percolateFrom, nanpush, ih]

@[nanpush] theorem toNan_percolateLayers (ns : List (Node K)) :
    percolateLayers (ns.map Node.toNan) = (percolateLayers ns).map (List.map Node.toNan) := by
  cases ns with
  | nil => rfl
  | cons a ns => exact toNan_percolateFrom ns a

/-- A column with other layers. -/
@[nanpush] theorem toNan_withNodes (g : Grid K) (ns : List (Node K)) (k : Int) :
    (⟨ns.map Node.toNan, k, N g.newSnowHeight, N g.newSnowTimestamp, N g.oldSnowTimestamp⟩ : Grid (Nan K)) =
      (⟨ns, k, g.newSnowHeight, g.newSnowTimestamp, g.oldSnowTimestamp⟩ : Grid K).toNan := rfl

@[nanpush] theorem toNan_getRunoff (g : Grid K) : getRunoff g.toNan = (getRunoff g).map fun r => (r.1.toNan, N r.2) := by
  unfold getRunoff
  simp only [nanpush]

@[nanpush] theorem toNan_percolation (g : Grid K) (w : K) :
    percolation g.toNan (N w) = (percolation g w).map fun r => (r.1.toNan, N r.2) := by
  unfold percolation
  simp only [nanpush, Grid.toNan_nodes]

theorem toNan_checkOob (a b : K) : checkOob (N a) (N b) = checkOob a b := by
  unfold checkOob
  simp only [nanpush]

theorem toNan_refreezeAmount {c : Consts K} (hc : c.Phys) (n : Node K) :
    refreezeAmount c.toNan n.toNan = (refreezeAmount c n).map N := by
  obtain ⟨h1, h2, h3, h4, h5⟩ := hc.nonzero
  unfold refreezeAmount phiIceMax
  simp only [nanpush, h2, h3, h4]

theorem toNan_refreezeLayer {c : Consts K} (hc : c.Phys) (n : Node K) :
    refreezeLayer c.toNan n.toNan = (refreezeLayer c n).map fun r => (r.1.toNan, N r.2) := by
  obtain ⟨h1, h2, h3, h4, h5⟩ := hc.nonzero
  unfold refreezeLayer
  simp only [nanpush, h1, toNan_refreezeAmount hc, toNan_checkOob]

theorem toNan_refreezeLayers {c : Consts K} (hc : c.Phys) : ∀ (ns : List (Node K)) (acc : K),
    refreezeLayers c.toNan (N acc) (ns.map Node.toNan) =
      (refreezeLayers c acc ns).map fun r => (r.1.map Node.toNan, N r.2) := by
  intro ns
  induction ns with
  | nil => intro acc; rfl
  | cons n ns ih =>
    intro acc
    simp only [List.map_cons, refreezeLayers, nanpush, toNan_refreezeLayer hc, ih]

@[nanpush] theorem toNan_refreezing {c : Consts K} (hc : c.Phys) (g : Grid K) :
    refreezing c.toNan g.toNan = (refreezing c g).map fun r => (r.1.toNan, N r.2) := by
  unfold refreezing
  simp only [nanpush, Grid.toNan_nodes, toNan_refreezeLayers hc]

/-! ## Roughness and albedo -/

@[nanpush] theorem toNan_updateRoughness (c : Consts K) (g : Grid K) :
    updateRoughness c.toNan g.toNan = (updateRoughness c g).map N := by
  have e : c.toNan.roughnessMethod = c.roughnessMethod := rfl
  unfold updateRoughness
  rw [e]
  cases c.roughnessMethod
  · simp only
    unfold methodMoelg
    simp only [nanpush]
  · rfl

@[nanpush] theorem toNan_getSurfaceProperties (c : Consts K) (g : Grid K) :
    getSurfaceProperties c.toNan g.toNan = ((getSurfaceProperties c g).1.toNan, N (getSurfaceProperties c g).2) := by
  unfold getSurfaceProperties
  simp only [nanpush]
  split_ifs <;> rfl

theorem forall₂_mem_source {β γ : Type} {R : β → γ → Prop} {xs : List β} {ys : List γ} (h : List.Forall₂ R xs ys) :
    ∀ {y}, y ∈ ys → ∃ x ∈ xs, R x y := by
  induction h with
  | nil => intro y hy; cases hy
  | cons h0 _ ih =>
    intro y hy
    rcases List.mem_cons.1 hy with rfl | hy
    · exact ⟨_, by simp, h0⟩
    · obtain ⟨x, hx, h⟩ := ih hy
      exact ⟨x, by simp [hx], h⟩

/-! ## Heat conduction -/

/-- A cell without NaN. -/
def HeatCell.toNan (x : HeatCell K) : HeatCell (Nan K) := ⟨N x.h, N x.k, N x.t⟩

@[nanpush] theorem toNan_dist (a b : HeatCell K) : a.toNan.dist b.toNan = N (a.dist b) := by
  unfold HeatCell.dist
  simp only [HeatCell.toNan, nanpush]
@[nanpush] theorem toNan_cellDiffusivity (a b : HeatCell K) : a.toNan.diffusivity b.toNan = N (a.diffusivity b) := by
  unfold HeatCell.diffusivity
  simp only [HeatCell.toNan, nanpush]

theorem toNan_heatNewT (dt : K) {a b d : HeatCell K} (ha : a.Pos) (hb : b.Pos) (hd : d.Pos) :
    heatNewT (N dt) a.toNan b.toNan d.toNan = N (heatNewT dt a b d) := by
  have h1 := (HeatCell.dist_pos ha hb).ne'
  have h2 := (HeatCell.dist_pos hb hd).ne'
  have h3 : 0.5 * (a.dist b + b.dist d) ≠ 0 := (mul_pos (by norm_num) (add_pos (HeatCell.dist_pos ha hb) (HeatCell.dist_pos hb hd))).ne'
  have e : ∀ x : HeatCell K, x.toNan.t = N x.t := fun _ => rfl
  unfold heatNewT
  simp only [nanpush, e, h1, h2, h3]

theorem toNan_heatBelow (dt : K) : ∀ cs : List (HeatCell K), (∀ x ∈ cs, x.Pos) →
    heatBelow (N dt) (cs.map HeatCell.toNan) = (heatBelow dt cs).map HeatCell.toNan := by
  intro cs
  induction cs with
  | nil => intro _; rfl
  | cons a cs ih =>
    intro hg
    rcases cs with _ | ⟨b, _ | ⟨d, rest⟩⟩
    · rfl
    · rfl
    · have h1 := ih (fun x hx => hg x (by simp [hx]))
      simp only [List.map_cons] at h1 ⊢
      rw [heatBelow, heatBelow, h1, toNan_heatNewT dt (hg a (by simp)) (hg b (by simp)) (hg d (by simp)), List.map_cons]
      rfl

theorem toNan_heatPass (dt : K) (cs : List (HeatCell K)) (hg : ∀ x ∈ cs, x.Pos) :
    heatPass (N dt) (cs.map HeatCell.toNan) = (heatPass dt cs).map HeatCell.toNan := by
  cases cs with
  | nil => rfl
  | cons a cs =>
    have := toNan_heatBelow dt (a :: cs) hg
    simp only [List.map_cons] at this
    simp only [List.map_cons, heatPass, this]

theorem heatBelow_keepsPos (dt : K) : ∀ cs : List (HeatCell K), (∀ x ∈ cs, x.Pos) → ∀ x ∈ heatBelow dt cs, x.Pos := by
  intro cs
  induction cs with
  | nil => intro _ x hx; simp [heatBelow] at hx
  | cons a cs ih =>
    intro hg x hx
    rcases cs with _ | ⟨b, _ | ⟨d, rest⟩⟩
    · simp [heatBelow] at hx
    · simp only [heatBelow, List.mem_singleton] at hx
      exact hg x (by simp [hx])
    · rw [heatBelow] at hx
      rcases List.mem_cons.1 hx with rfl | hx
      · exact hg b (by simp)
      · exact ih (fun y hy => hg y (by simp [hy])) x hx

theorem heatPass_keepsPos (dt : K) (cs : List (HeatCell K)) (hg : ∀ x ∈ cs, x.Pos) : ∀ x ∈ heatPass dt cs, x.Pos := by
  cases cs with
  | nil => exact hg
  | cons a cs =>
    intro x hx
    rw [heatPass] at hx
    rcases List.mem_cons.1 hx with rfl | hx
    · exact hg _ (by simp)
    · exact heatBelow_keepsPos dt _ hg x hx

theorem toNan_heatIfaces : ∀ cs : List (HeatCell K), (∀ x ∈ cs, x.Pos) →
    heatIfaces (cs.map HeatCell.toNan) = (heatIfaces cs).map N := by
  intro cs
  induction cs with
  | nil => intro _; rfl
  | cons a cs ih =>
    intro hg
    rcases cs with _ | ⟨b, rest⟩
    · rfl
    · have h1 := ih (fun x hx => hg x (by simp [hx]))
      have h2 := (HeatCell.diffusivity_pos (hg a (by simp)) (hg b (by simp))).ne'
      simp only [List.map_cons] at h1 ⊢
      rw [heatIfaces, heatIfaces, h1, List.map_cons]
      simp only [nanpush, h2]

theorem toNan_pyMinList (xs : List K) : pyMinList (xs.map N) = (pyMinList xs).map N := by
  cases xs with
  | nil => rfl
  | cons x xs =>
    have : ∀ (xs : List K) (s : K), (xs.map N).foldl pyMin (N s) = N (xs.foldl pyMin s) := by
      intro xs
      induction xs with
      | nil => intro s; rfl
      | cons x xs ih => intro s; simp only [List.map_cons, List.foldl_cons, nanpush, ih]
    simp only [List.map_cons, pyMinList, this, nanpush]

theorem toNan_heatDtStab (cs : List (HeatCell K)) (hg : ∀ x ∈ cs, x.Pos) :
    heatDtStab (cs.map HeatCell.toNan) = (heatDtStab cs).map N := by
  unfold heatDtStab
  rw [toNan_heatIfaces cs hg, ← List.map_dropLast, ← List.map_tail, toNan_pyMinList, toNan_pyMinList]
  simp only [nanpush]

theorem toNan_heatLoop (dt st : K) (fuel : Nat) (s : K × List (HeatCell K)) (hg : ∀ x ∈ s.2, x.Pos) :
    whileM (heatLoopPass (N dt) (N st)) fuel (N s.1, s.2.map HeatCell.toNan) =
      (whileM (heatLoopPass dt st) fuel s).map fun s => (N s.1, s.2.map HeatCell.toNan) := by
  refine whileM_hom (φ := fun s : K × List (HeatCell K) => (N s.1, s.2.map HeatCell.toNan))
    (P := fun s => ∀ x ∈ s.2, x.Pos) ?_ ?_ fuel s hg
  · intro s s' hs h
    unfold heatLoopPass at h
    split_ifs at h
    · rw [ok_inj] at h
      cases h
      exact heatPass_keepsPos _ _ hs
    · cases h
  · intro s hs
    unfold heatLoopPass
    simp only [nanpush, toNan_heatPass _ _ hs, Option.map]

@[nanpush] theorem toNan_solveHeat {c : Consts K} (fuel : Nat) {g : Grid K} (hw : g.WF)
    (hg : ∀ n ∈ g.nodes, 0 < n.height ∧ ∀ k, n.thermalDiffusivity c = .ok k → 0 < k) (dt : K) :
    solveHeatEquation fuel c.toNan g.toNan (N dt) = (solveHeatEquation fuel c g dt).map Grid.toNan := by
  unfold solveHeatEquation
  have e1 : g.toNan.mapNodes (fun n => do
        let k ← n.thermalDiffusivity c.toNan
        return HeatCell.mk n.height k n.temperature) =
      (g.mapNodes fun n => do
        let k ← n.thermalDiffusivity c
        return HeatCell.mk n.height k n.temperature).map (List.map HeatCell.toNan) :=
    Grid.toNan_mapNodes g fun n => by simp only [nanpush]; rfl
  rw [e1]
  simp only [nanpush]
  rcases hcs : g.mapNodes (fun n => do
        let k ← n.thermalDiffusivity c
        return HeatCell.mk n.height k n.temperature) with err | cs
  · simp only [nanpush] at hcs; rw [hcs]; rfl
  · have hgood : ∀ x ∈ cs, x.Pos := by
      intro x hx
      rw [Grid.mapNodes_eq hw, mapM_eq_ok_iff] at hcs
      obtain ⟨n, hn, h⟩ := forall₂_mem_source hcs hx
      simp only [bind_eq_ok] at h
      obtain ⟨k, hk, h⟩ := h
      rw [pure_eq_ok] at h
      subst h
      exact ⟨(hg n hn).1, (hg n hn).2 k hk⟩
    simp only [nanpush] at hcs; rw [hcs]
    simp only [nanpush, toNan_heatDtStab cs hgood]
    rcases heatDtStab cs with err | st
    · rfl
    · simp only [nanpush]
      have := toNan_heatLoop dt st fuel (0, cs) hgood
      simp only at this
      rw [this]
      simp only [nanpush]
      congr 1
      funext s
      have e2 : (s.2.map HeatCell.toNan).map HeatCell.t = (s.2.map HeatCell.t).map N := by
        rw [List.map_map, List.map_map]; rfl
      rw [e2]
      exact Grid.toNan_setAll g (fun _ _ => rfl) _


end

section
variable {K : Type} [Field K] [LinearOrder K] [IsStrictOrderedRing K] [Transc K]

local notation "N" => (Nan.num : K → Nan K)

/-! ## Precipitation and vapour -/

@[nanpush] theorem toNan_freshSnowDensity (c : Consts K) {f : Forcing K} (hu : 0 ≤ f.u2) :
    freshSnowDensity c.toNan f.toNan = N (freshSnowDensity c f) := by
  unfold freshSnowDensity
  have e : c.toNan.densificationMethod = c.densificationMethod := rfl
  rw [e]
  cases c.densificationMethod <;> simp only [nanpush, Forcing.toNan, hu]

@[nanpush] theorem toNan_precipitation {c : Consts K} (hc : c.Phys) (f : Forcing K) {rho : K} (hr : rho ≠ 0) :
    precipitation c.toNan f.toNan (N rho) = (precipitation c f rho).map fun p => (N p.1, N p.2) := by
  obtain ⟨-, h2, -⟩ := hc.nonzero
  unfold precipitation snowFraction
  rcases hs : f.snowf with _ | s <;> rcases hp : f.rrr with _ | p <;>
    simp only [nanpush, Forcing.toNan, hs, hp, Option.map, h2, hr]

@[nanpush] theorem toNan_threshold {c : Consts K} (hc : c.Phys) (rho : K) (p : K × K) :
    thresholdPrecip c.toNan (N rho) (N p.1, N p.2) = (N (thresholdPrecip c rho p).1, N (thresholdPrecip c rho p).2) := by
  obtain ⟨-, h2, -⟩ := hc.nonzero
  unfold thresholdPrecip
  simp only [nanpush, h2]

@[nanpush] theorem toNan_applySnowfall {c : Consts K} (hc : c.Phys) (dt : K) (g : Grid K) (s rho t2 : K) :
    applySnowfall c.toNan (N dt) g.toNan (N s) (N rho) (N t2) = (applySnowfall c dt g s rho t2).toNan := by
  unfold applySnowfall
  simp only [nanpush, Grid.toNan_addFreshSnow hc, Grid.toNan_ite]

/-- Vapour fluxes without NaN. -/
def Vapour.toNan (v : Vapour K) : Vapour (Nan K) := ⟨N v.sublimation, N v.deposition, N v.evaporation, N v.condensation⟩

@[nanpush] theorem toNan_vapour {c : Consts K} (hc : c.Phys) (dt ts le : K) :
    vapourFluxes c.toNan (N dt) (N ts) (N le) = (vapourFluxes c dt ts le).toNan := by
  obtain ⟨-, -, -, -, h5, h6, -⟩ := hc.nonzero
  unfold vapourFluxes
  simp only [nanpush, h5, h6]
  split_ifs <;> rfl

@[nanpush] theorem toNan_meltEnergy (sw : K) (fl : Fluxes K) : meltEnergy (N sw) fl.toNan = N (meltEnergy sw fl) := by
  unfold meltEnergy
  simp only [Fluxes.toNan, nanpush]

/-! ## Penetrating radiation -/

theorem toNan_penLayer {c : Consts K} (hc : c.Phys) (dt e : K) (n : Node K) :
    penLayer c.toNan (N dt) (N e) n.toNan = (penLayer c dt e n).map fun r => (r.1.toNan, r.2.1, N r.2.2) := by
  obtain ⟨h1, h2, h3, h4, h5⟩ := hc.nonzero
  have e3 : ∀ (n : Node K) (a b d : K), (⟨N a, N b, N d, N n.iceFraction, N n.refreeze⟩ : Node (Nan K)) =
    (⟨a, b, d, n.iceFraction, n.refreeze⟩ : Node K).toNan := fun _ _ _ _ => rfl
  unfold penLayer penA
  simp only [nanpush, h1, h4, e3]

theorem toNan_penLayers {c : Consts K} (hc : c.Phys) (dt : K) : ∀ (ns : List (Node K)) (i : Int) (es : List K) (rm : List Int)
    (m : K), penLayers c.toNan (N dt) i (ns.map Node.toNan) (es.map N) rm (N m) =
      (penLayers c dt i ns es rm m).map fun r => (r.1.map Node.toNan, r.2.1, N r.2.2) := by
  intro ns
  induction ns with
  | nil => intro i es rm m; simp only [List.map_nil, penLayers, nanpush]
  | cons a ns ih =>
    intro i es rm m
    rcases ns with _ | ⟨b, rest⟩
    · simp only [List.map_cons, List.map_nil, penLayers, nanpush]
    · rcases es with _ | ⟨e, es⟩
      · rfl
      · have := ih (i + 1) es
        simp only [List.map_cons] at this
        simp only [List.map_cons, penLayers, nanpush, toNan_penLayer hc, this]

theorem toNan_absDiff : ∀ xs : List K, absDiff (xs.map N) = (absDiff xs).map N := by
  intro xs
  induction xs with
  | nil => rfl
  | cons a xs ih =>
    rcases xs with _ | ⟨b, xs⟩
    · rfl
    · simp only [List.map_cons] at ih ⊢
      simp only [absDiff, List.map_cons, ih, nanpush]

theorem toNan_penEnergy (si k : K) (ds : List K) : penEnergy (N si) (N k) (ds.map N) = (penEnergy si k ds).map N := by
  unfold penEnergy
  have e : ((0 : Nan K) :: ds.map N).map (fun d => Transc.exp (N k * -d)) =
      (((0 : K) :: ds).map fun d => Transc.exp (k * -d)).map N := by
    simp only [List.map_cons, nanpush, List.map_map]
    rfl
  rw [e, toNan_absDiff, List.map_map, List.map_map]
  rfl

theorem toNan_penCoeffs (c : Consts K) (n : Node K) :
    penCoeffs c.toNan n.toNan = (N (penCoeffs c n).1, N (penCoeffs c n).2) := by
  unfold penCoeffs
  simp only [nanpush]
  split_ifs <;> rfl

@[nanpush] theorem toNan_radiationStep {c : Consts K} (hc : c.Phys) (g : Grid K) (sw dt : K) :
    radiationStep c.toNan g.toNan (N sw) (N dt) = (radiationStep c g sw dt).map fun r => (r.1.toNan, N r.2.1, N r.2.2) := by
  have e : c.toNan.penetratingMethod = c.penetratingMethod := rfl
  have e1 : methodBintanja c.toNan g.toNan (N sw) (N dt) =
      (methodBintanja c g sw dt).map fun r => (r.1.toNan, N r.2.1, N r.2.2) := by
    unfold methodBintanja
    simp only [nanpush, toNan_penCoeffs, toNan_penEnergy, Grid.toNan_nodes, toNan_penLayers hc]
  unfold radiationStep penetratingRadiation
  rw [e]
  cases c.penetratingMethod <;> simp only [nanpush, e1]

/-! ## Albedo -/

@[nanpush] theorem toNan_updateAlbedo {c : Consts K} (h1 : c.albedoModSnowAging ≠ 0) (h2 : c.albedoModSnowDepth ≠ 0)
    {ts : K} (h3 : c.albedoMethod = .bougamont05 → tStar c ts * c.dt ≠ 0) (g : Grid K) (as : K) :
    updateAlbedo c.toNan g.toNan (N ts) (N as) =
      (updateAlbedo c g ts as).map fun r => (r.1.toNan, N r.2.1, N r.2.2) := by
  have e : c.toNan.albedoMethod = c.albedoMethod := rfl
  have h1' : c.albedoModSnowAging * 24.0 ≠ 0 := mul_ne_zero h1 (by norm_num)
  have h2' : c.albedoModSnowDepth / 100.0 ≠ 0 := div_ne_zero h2 (by norm_num)
  have e2 : ∀ a h : K, getAlbedoWithDecay c.toNan (N a) (N h) = N (getAlbedoWithDecay c a h) := by
    intro a h
    unfold getAlbedoWithDecay
    simp only [nanpush, h2']
  have e3 : tStar c.toNan (N ts) = N (tStar c ts) := by
    unfold tStar
    simp only [nanpush]
  unfold updateAlbedo
  rw [e]
  rcases hm : c.albedoMethod with _ | _ | _
  · have e4 : methodOerlemans c.toNan g.toNan = (methodOerlemans c g).map fun r => (r.1.toNan, N r.2) := by
      unfold methodOerlemans getSimpleAlbedo
      simp only [nanpush, h1', e2]
    simp only [nanpush, e4]
  · have h3' : tStar c ts * (c.dt / 86400.0) ≠ 0 := by
      rw [← mul_div_assoc]; exact div_ne_zero (h3 hm) (by norm_num)
    unfold methodBougamont bougamontDecay
    simp only [nanpush, e2, e3, h3']
  · rfl

/-! ## Densification -/

theorem toNan_booneUpdate (d : K) (n : Node K) : booneUpdate (N d) n.toNan = (booneUpdate d n).toNan := by
  unfold booneUpdate
  simp only [nanpush]
  rfl

theorem toNan_booneRate (c : Consts K) (dt ms t rho : K) :
    booneRate c.toNan (N dt) (N ms) (N t) (N rho) = (booneRate c dt ms t rho).map N := by
  unfold booneRate
  simp only [nanpush]

theorem toNan_booneLoad (c : Consts K) (p : Option (Node K)) (n : Node K) :
    booneLoad c.toNan (p.map Node.toNan) n.toNan = N (booneLoad c p n) := by
  cases p <;> simp only [booneLoad, Option.map, nanpush]

theorem toNan_booneLayers (c : Consts K) (dt : K) : ∀ (k : Nat) (ms : K) (p : Option (Node K)) (ns : List (Node K)),
    booneLayers c.toNan (N dt) k (N ms) (p.map Node.toNan) (ns.map Node.toNan) =
      (booneLayers c dt k ms p ns).map (List.map Node.toNan) := by
  intro k
  induction k with
  | zero => intro ms p ns; simp only [booneLayers, nanpush]
  | succ k ih =>
    intro ms p ns
    rcases ns with _ | ⟨n, ns⟩
    · rfl
    · have := fun ms => ih ms (some n) ns
      simp only [Option.map] at this
      simp only [List.map_cons, booneLayers, nanpush, toNan_booneLoad, toNan_booneRate, toNan_booneUpdate, this]

theorem toNan_empiricalLayer {c : Consts K} (hc : c.Phys) (dt : K) (n : Node K) :
    empiricalLayer c.toNan (N dt) n.toNan = (empiricalLayer c dt n).map Node.toNan := by
  obtain ⟨h1, -⟩ := hc.nonzero
  unfold empiricalLayer
  simp only [nanpush, h1]

theorem toNan_empiricalLayers {c : Consts K} (hc : c.Phys) (dt : K) : ∀ (k : Nat) (ns : List (Node K)),
    empiricalLayers c.toNan (N dt) k (ns.map Node.toNan) = (empiricalLayers c dt k ns).map (List.map Node.toNan) := by
  intro k
  induction k with
  | zero => intro ns; simp only [empiricalLayers, nanpush]
  | succ k ih =>
    intro ns
    rcases ns with _ | ⟨n, ns⟩
    · rfl
    · simp only [List.map_cons, empiricalLayers, nanpush, ih, toNan_empiricalLayer hc]

/-- What the settling of a layer divides by is positive. -/
structure SettleOk (c : Consts K) (n : Node K) : Prop where
  height : 0 < n.height
  water : 0 ≤ n.lwc
  density : 0 < n.density c

theorem toNan_vionnetRate (hexp : ∀ x : K, 0 < Transc.exp x) {c : Consts K} {n : Node K} (hn : SettleOk c n) (dt sig : K) :
    vionnetRate (N dt) (N sig) c.toNan n.toNan = N (vionnetRate dt sig c n) := by
  have h1 := hn.height.ne'
  have h2 : (0 : K) < 1 + 60.0 * (n.lwc / n.height) := by
    have := div_nonneg hn.water hn.height.le
    have e : (0 : K) ≤ 60.0 * (n.lwc / n.height) := mul_nonneg (by norm_num) this
    linarith
  have h3 : (1 / (1 + 60.0 * (n.lwc / n.height)) * 1 * 7622370 * (n.density c / 250) *
      Transc.exp (0.1 * (273.14 - n.temperature) + 0.023 * n.density c)) ≠ 0 := by
    have := hexp (0.1 * (273.14 - n.temperature) + 0.023 * n.density c)
    have := hn.density
    positivity
  unfold vionnetRate
  simp only [nanpush, h1, h2.ne', h3]

theorem toNan_vionnetUpdate (d : K) (n : Node K) : vionnetUpdate (N d) n.toNan = (vionnetUpdate d n).toNan := by
  unfold vionnetUpdate
  simp only [nanpush]
  rfl

theorem toNan_vionnetLoad (c : Consts K) (sl : K) (p : Option (Node K)) (n : Node K) :
    vionnetLoad c.toNan (N sl) (p.map Node.toNan) n.toNan = N (vionnetLoad c sl p n) := by
  cases p <;> simp only [vionnetLoad, Option.map, nanpush]

theorem toNan_vionnetLayers (hexp : ∀ x : K, 0 < Transc.exp x) (c : Consts K) (sl dt : K) : ∀ (k : Nat) (ms : K)
    (p : Option (Node K)) (ns : List (Node K)), (∀ n ∈ ns, SettleOk c n) →
    vionnetLayers c.toNan (N sl) (N dt) k (N ms) (p.map Node.toNan) (ns.map Node.toNan) =
      (vionnetLayers c sl dt k ms p ns).map (List.map Node.toNan) := by
  intro k
  induction k with
  | zero => intro ms p ns _; simp only [vionnetLayers, nanpush]
  | succ k ih =>
    intro ms p ns hn
    rcases ns with _ | ⟨n, ns⟩
    · rfl
    · have := fun ms => ih ms (some n) ns (fun m hm => hn m (by simp [hm]))
      simp only [Option.map] at this
      simp only [List.map_cons, vionnetLayers, nanpush, toNan_vionnetLoad, toNan_vionnetRate hexp (hn n (by simp)),
        toNan_vionnetUpdate, this]

@[nanpush] theorem toNan_densification (hexp : ∀ x : K, 0 < Transc.exp x) {c : Consts K} (hc : c.Phys) {g : Grid K}
    (hn : ∀ n ∈ g.nodes, SettleOk c n) (sl dt : K) :
    densification c.toNan g.toNan (N sl) (N dt) = (densification c g sl dt).map Grid.toNan := by
  have e : c.toNan.densificationMethod = c.densificationMethod := rfl
  have e1 : ∀ k, booneLayers c.toNan (N dt) k (N 0) none (g.nodes.map Node.toNan) =
      (booneLayers c dt k 0 none g.nodes).map (List.map Node.toNan) := fun k => toNan_booneLayers c dt k 0 none g.nodes
  have e2 : ∀ k, vionnetLayers c.toNan (N sl) (N dt) k (N 0) none (g.nodes.map Node.toNan) =
      (vionnetLayers c sl dt k 0 none g.nodes).map (List.map Node.toNan) :=
    fun k => toNan_vionnetLayers hexp c sl dt k 0 none g.nodes hn
  unfold densification
  rw [e]
  cases c.densificationMethod
  · unfold methodBoone
    simp only [nanpush, Grid.toNan_nodes, e1]
  · unfold methodVionnet
    simp only [nanpush, Grid.toNan_nodes, e2]
  · unfold methodEmpirical
    simp only [nanpush, Grid.toNan_nodes, toNan_empiricalLayers hc]
  · rfl
  · rfl

end
end Cosipy
