import Verif.Props.C22
import Verif.Lemmas.HeatFloat
import Mathlib.Tactic.Ring
import Mathlib.Tactic.Linarith

/-!
# C113: heat conduction is linear, symmetric and local

The sub-steps of the heat equation depend on the heights and diffusivities of the layers only, not on their temperatures.
Therefore whether the solver completes does not depend on the temperatures, solutions can be superposed, a column that
is warmer by a constant stays warmer by that constant, temperature differences between two columns never grow, a
column upside down is conducted upside down, and a change in one layer spreads by at most one layer per sub-step.
-/

set_option autoImplicit false
set_option linter.unusedSectionVars false

namespace Cosipy
section
variable {α : Type} [Add α] [Sub α] [Mul α] [Div α] [Neg α] [LT α] [LE α]
  [DecidableLT α] [DecidableLE α] [BEq α] [Zero α] [One α] [NatCast α] [OfScientific α]

/-- The column with other temperatures. -/
def Grid.withTemps (g : Grid α) (ts : List α) : Grid α := { g with nodes := List.zipWith Node.setTemperature ts g.nodes }

/-- The temperatures of a column. -/
def Grid.temps (g : Grid α) : List α := g.nodes.map fun n => n.temperature

/-! ## The sub-steps do not depend on the temperatures -/

/-- Cells from layers, diffusivities and temperatures. -/
def cellsFrom : List (Node α) → List α → List α → List (HeatCell α)
  | n :: ns, k :: ks, t :: ts => ⟨n.height, k, t⟩ :: cellsFrom ns ks ts
  | _, _, _ => []

/-- The lengths of the sub-steps. -/
def subSteps (dt st : α) : Nat → α → M (List α)
  | 0, _ => .error .diverge
  | n + 1, s =>
    if s < dt then (subSteps dt st n (s + pyMin st (dt - s))).map (pyMin st (dt - s) :: ·) else .ok []

theorem heatLoop_sub (dt st : α) : ∀ (fuel : Nat) (s : α) (cs : List (HeatCell α)),
    (whileM (heatLoopPass dt st) fuel (s, cs)).map Prod.snd =
      (subSteps dt st fuel s).map fun τs => τs.foldl (fun cs τ => heatPass τ cs) cs := by
  intro fuel
  induction fuel with
  | zero => intro s cs; rfl
  | succ n ih =>
    intro s cs
    rw [whileM, subSteps]
    by_cases hs : s < dt
    · simp only [heatLoopPass, if_pos hs]
      rw [ih]
      cases subSteps dt st n (s + pyMin st (dt - s)) <;> rfl
    · simp only [heatLoopPass, if_neg hs]
      rfl

/-- Diffusivities and sub-steps, from the layers without their temperatures. -/
def conductionPlan (fuel : Nat) (c : Consts α) (g : Grid α) (dt : α) : M (List α × List α) := do
  let ks ← g.nodes.mapM fun n => n.thermalDiffusivity c
  let st ← heatDtStab (cellsFrom g.nodes ks (g.nodes.map fun n => n.temperature))
  let τs ← subSteps dt st fuel 0
  return (ks, τs)

theorem ifaces_cellsFrom : ∀ (ns : List (Node α)) (ks ts us : List α), ts.length = us.length →
    heatIfaces (cellsFrom ns ks ts) = heatIfaces (cellsFrom ns ks us)
  | n :: m :: ns, k :: l :: ks, t :: t' :: ts, u :: u' :: us, h => by
    have ih := ifaces_cellsFrom (m :: ns) (l :: ks) (t' :: ts) (u' :: us) (by simpa using h)
    simp only [cellsFrom, heatIfaces] at ih ⊢
    rw [ih]
    rfl
  | [], _, ts, us, h => by cases ts <;> cases us <;> rfl
  | _ :: _, [], ts, us, h => by cases ts <;> cases us <;> rfl
  | [_], _ :: _, [], [], h => rfl
  | [_], _ :: _, _ :: _, _ :: _, h => rfl
  | _ :: _ :: _, [_], [], [], h => rfl
  | _ :: _ :: _, [_], _ :: _, _ :: _, h => rfl
  | _ :: _ :: _, _ :: _ :: _, [], [], h => rfl
  | _ :: _ :: _, _ :: _ :: _, [_], [_], h => rfl
  | _, _, [], _ :: _, h => by simp at h
  | _, _, _ :: _, [], h => by simp at h
  | _, _, [_], _ :: _ :: _, h => by simp at h
  | _, _, _ :: _ :: _, [_], h => by simp at h

theorem cellsFrom_length : ∀ (ns : List (Node α)) (ks ts : List α), ks.length = ns.length → ts.length = ns.length →
    (cellsFrom ns ks ts).length = ns.length
  | [], [], [], _, _ => rfl
  | n :: ns, k :: ks, t :: ts, h1, h2 => by
    rw [cellsFrom, List.length_cons, cellsFrom_length ns ks ts (by simpa using h1) (by simpa using h2)]
    rfl

theorem withTemps_wf {g : Grid α} (hw : g.WF) {ts : List α} (hl : ts.length = g.nodes.length) :
    (g.withTemps ts).WF := by
  unfold Grid.WF Grid.withTemps at *
  simp only [List.length_zipWith, hl, min_self]
  exact hw

theorem cells_for {c : Consts α} : ∀ (ns : List (Node α)) (ks ts : List α),
    List.Forall₂ (fun n k => n.thermalDiffusivity c = .ok k) ns ks → ts.length = ns.length →
    List.Forall₂ (CellFor c) (List.zipWith Node.setTemperature ts ns) (cellsFrom ns ks ts)
  | _, _, [], .nil, _ => .nil
  | _ :: _, _ :: _, _ :: _, .cons h1 h2, hl => .cons ⟨rfl, rfl, h1⟩ (cells_for _ _ _ h2 (by simpa using hl))

/-- The whole conduction: the plan and the sub-steps. -/
theorem solve_plan (fuel : Nat) (c : Consts α) {g : Grid α} (hw : g.WF) (dt : α) {ts : List α}
    (hl : ts.length = g.nodes.length) :
    solveHeatEquation fuel c (g.withTemps ts) dt =
      (conductionPlan fuel c g dt).map fun p =>
        g.withTemps ((p.2.foldl (fun cs τ => heatPass τ cs) (cellsFrom g.nodes p.1 ts)).map HeatCell.t) := by
  have hw' := withTemps_wf hw hl
  unfold conductionPlan
  cases hk : g.nodes.mapM fun n => n.thermalDiffusivity c with
  | error e =>
    have : (g.withTemps ts).mapNodes (fun n => do
        let k ← n.thermalDiffusivity c
        return HeatCell.mk n.height k n.temperature) = .error e := by
      rw [Grid.mapNodes_eq hw']
      clear hw'
      show (List.zipWith Node.setTemperature ts g.nodes).mapM _ = _
      generalize g.nodes = ns at hl hk
      clear hw
      induction ns generalizing ts with
      | nil => simp [pure, Except.pure] at hk
      | cons n ns ih =>
        cases ts with
        | nil => simp at hl
        | cons t ts =>
          rw [List.zipWith_cons_cons, List.mapM_cons]
          rw [List.mapM_cons] at hk
          have e0 : (Node.setTemperature t n).thermalDiffusivity c = n.thermalDiffusivity c := rfl
          rw [e0]
          cases h0 : n.thermalDiffusivity c with
          | error e' =>
            rw [h0] at hk
            simp only [error_bind, Except.error.injEq] at hk ⊢
            exact hk
          | ok k =>
            rw [h0, ok_bind] at hk
            cases h1 : ns.mapM fun n => n.thermalDiffusivity c with
            | error e' =>
              rw [h1] at hk
              simp only [error_bind, Except.error.injEq] at hk
              subst hk
              have := ih (ts := ts) (by simpa using hl) h1
              simp only [ok_bind, pure_bind]
              rw [this]
              rfl
            | ok ks => rw [h1] at hk; simp [ok_bind, pure, Except.pure] at hk
    unfold solveHeatEquation
    rw [this]
    rfl
  | ok ks =>
    have hf := mapM_eq_ok_iff.1 hk
    have hkl : ks.length = g.nodes.length := hf.length_eq.symm
    have hcell : (g.withTemps ts).mapNodes (fun n => do
        let k ← n.thermalDiffusivity c
        return HeatCell.mk n.height k n.temperature) = .ok (cellsFrom g.nodes ks ts) :=
      mapNodes_cells hw' (cells_for _ _ _ hf hl)
    have hst : heatDtStab (cellsFrom g.nodes ks ts) =
        heatDtStab (cellsFrom g.nodes ks (g.nodes.map fun n => n.temperature)) := by
      unfold heatDtStab
      rw [ifaces_cellsFrom g.nodes ks ts (g.nodes.map fun n => n.temperature) (by rw [hl, List.length_map])]
    unfold solveHeatEquation
    rw [hcell, ok_bind, ok_bind, hst]
    cases hs : heatDtStab (cellsFrom g.nodes ks (g.nodes.map fun n => n.temperature)) with
    | error e => rfl
    | ok st =>
      rw [ok_bind, ok_bind]
      have hloop := heatLoop_sub dt st fuel 0 (cellsFrom g.nodes ks ts)
      cases hq : subSteps dt st fuel 0 with
      | error e =>
        rw [hq] at hloop
        cases hw2 : whileM (heatLoopPass dt st) fuel (0, cellsFrom g.nodes ks ts) with
        | error e' =>
          rw [hw2] at hloop
          simp only [Except.map, Except.error.injEq] at hloop
          subst hloop
          rfl
        | ok r => rw [hw2] at hloop; simp [Except.map] at hloop
      | ok τs =>
        rw [hq] at hloop
        cases hw2 : whileM (heatLoopPass dt st) fuel (0, cellsFrom g.nodes ks ts) with
        | error e' => rw [hw2] at hloop; simp [Except.map] at hloop
        | ok r =>
          rw [hw2] at hloop
          simp only [Except.map, Except.ok.injEq] at hloop
          obtain ⟨a, r⟩ := r
          simp only at hloop
          subst hloop
          have hlen : ((τs.foldl (fun cs τ => heatPass τ cs) (cellsFrom g.nodes ks ts)).map HeatCell.t).length
              = (g.withTemps ts).nodes.length := by
            rw [List.length_map, foldl_heatPass_len, cellsFrom_length _ _ _ hkl hl]
            simp [Grid.withTemps, hl]
          rw [ok_bind]
          show (g.withTemps ts).setAll Node.setTemperature _ = _
          rw [Grid.setAll_eq hw' _ hlen]
          simp only [ok_bind, pure, Except.pure, Except.map]
          congr 1
          unfold Grid.withTemps
          simp only [Grid.mk.injEq, and_true]
          generalize (τs.foldl (fun cs τ => heatPass τ cs) (cellsFrom g.nodes ks ts)).map HeatCell.t = us
          clear * - hl
          generalize g.nodes = ns at hl
          induction ns generalizing ts us with
          | nil => simp
          | cons n ns ih =>
            cases ts with
            | nil => simp at hl
            | cons t ts =>
              cases us with
              | nil => rfl
              | cons u us =>
                simp only [List.zipWith_cons_cons, List.cons.injEq]
                exact ⟨rfl, ih us (by simpa using hl)⟩

theorem temps_withTemps {g : Grid α} {ts : List α} (hl : ts.length = g.nodes.length) : (g.withTemps ts).temps = ts :=
  zip_setTemperature ts g.nodes hl

theorem withTemps_temps (g : Grid α) : g.withTemps g.temps = g := by
  obtain ⟨ns, _, _, _, _⟩ := g
  unfold Grid.withTemps Grid.temps
  simp only [Grid.mk.injEq, and_true]
  induction ns with
  | nil => rfl
  | cons n ns ih => rw [List.map_cons, List.zipWith_cons_cons, ih]; rfl

theorem plan_lengths {fuel : Nat} {c : Consts α} {g : Grid α} {dt : α} {p : List α × List α}
    (h : conductionPlan fuel c g dt = .ok p) : p.1.length = g.nodes.length := by
  unfold conductionPlan at h
  simp only [bind_eq_ok, pure_eq_ok] at h
  obtain ⟨ks, hk, st, -, τs, -, rfl⟩ := h
  exact (mapM_eq_ok_iff.1 hk).length_eq.symm

/-- **C113, success.** Whether conduction completes, and the error otherwise, does not depend on the temperatures. Holds
in every arithmetic. -/
theorem C113_success (fuel : Nat) (c : Consts α) {g : Grid α} (hw : g.WF) (dt : α) {ts us : List α}
    (ht : ts.length = g.nodes.length) (hu : us.length = g.nodes.length) :
    (∀ g₁, solveHeatEquation fuel c (g.withTemps ts) dt = .ok g₁ →
      ∃ g₂, solveHeatEquation fuel c (g.withTemps us) dt = .ok g₂) ∧
    (∀ e, solveHeatEquation fuel c (g.withTemps ts) dt = .error e →
      solveHeatEquation fuel c (g.withTemps us) dt = .error e) := by
  rw [solve_plan fuel c hw dt ht, solve_plan fuel c hw dt hu]
  cases conductionPlan fuel c g dt with
  | error e => exact ⟨fun g₁ h => by simp [Except.map] at h, fun e' h => by simpa [Except.map] using h⟩
  | ok p => exact ⟨fun g₁ _ => ⟨_, rfl⟩, fun e h => by simp [Except.map] at h⟩

end

section
variable {K : Type} [Field K] [LinearOrder K] [IsStrictOrderedRing K]

/-! ## Superposition -/

/-- A combination of two lists of temperatures. -/
def mixT (a b : K) (ts us : List K) : List K := List.zipWith (fun t u => a * t + b * u) ts us

def mixCell (a b : K) (x y : HeatCell K) : HeatCell K := ⟨x.h, x.k, a * x.t + b * y.t⟩

theorem mix_update (a b P Q τ D E m x y z x' y' z' : K) :
    a * y + b * y' + (P * τ * (a * z + b * z' - (a * y + b * y')) / D -
      Q * τ * (a * y + b * y' - (a * x + b * x')) / E) / m =
    a * (y + (P * τ * (z - y) / D - Q * τ * (y - x) / E) / m) +
      b * (y' + (P * τ * (z' - y') / D - Q * τ * (y' - x') / E) / m) := by
  simp only [div_eq_mul_inv]
  ring

theorem heatBelow_mix (τ a b : K) : ∀ (cs ds : List (HeatCell K)), cs.map HeatCell.geo = ds.map HeatCell.geo →
    heatBelow τ (List.zipWith (mixCell a b) cs ds) = List.zipWith (mixCell a b) (heatBelow τ cs) (heatBelow τ ds)
  | [], [], _ => rfl
  | [_], [_], _ => rfl
  | [_, _], [_, _], _ => rfl
  | x :: y :: z :: cs, x' :: y' :: z' :: ds, h => by
    simp only [List.map_cons, List.cons.injEq] at h
    obtain ⟨h1, h2, h3, h4⟩ := h
    have ih := heatBelow_mix τ a b (y :: z :: cs) (y' :: z' :: ds) (by simp [h2, h3, h4])
    simp only [List.zipWith_cons_cons] at ih ⊢
    rw [heatBelow, heatBelow, heatBelow, ih, List.zipWith_cons_cons]
    congr 1
    simp only [HeatCell.geo, Prod.mk.injEq] at h1 h2 h3
    simp only [mixCell, HeatCell.mk.injEq, true_and]
    unfold heatNewT HeatCell.dist HeatCell.diffusivity
    simp only [← h1.1, ← h1.2, ← h2.1, ← h2.2, ← h3.1, ← h3.2]
    exact mix_update _ _ _ _ _ _ _ _ _ _ _ _ _ _
  | [], _ :: _, h => by simp at h
  | _ :: _, [], h => by simp at h
  | [_], _ :: _ :: _, h => by simp at h
  | _ :: _ :: _, [_], h => by simp at h
  | [_, _], _ :: _ :: _ :: _, h => by simp at h
  | _ :: _ :: _ :: _, [_, _], h => by simp at h

theorem heatPass_mix (τ a b : K) {cs ds : List (HeatCell K)} (h : cs.map HeatCell.geo = ds.map HeatCell.geo) :
    heatPass τ (List.zipWith (mixCell a b) cs ds) = List.zipWith (mixCell a b) (heatPass τ cs) (heatPass τ ds) := by
  have hb := heatBelow_mix τ a b cs ds h
  cases cs with
  | nil => simp [heatPass]
  | cons x cs =>
    cases ds with
    | nil => simp at h
    | cons y ds =>
      rw [List.zipWith_cons_cons] at hb ⊢
      rw [heatPass, heatPass, heatPass, List.zipWith_cons_cons, hb]

theorem foldl_mix (a b : K) (τs : List K) {cs ds : List (HeatCell K)} (h : cs.map HeatCell.geo = ds.map HeatCell.geo) :
    τs.foldl (fun cs τ => heatPass τ cs) (List.zipWith (mixCell a b) cs ds) =
      List.zipWith (mixCell a b) (τs.foldl (fun cs τ => heatPass τ cs) cs) (τs.foldl (fun cs τ => heatPass τ cs) ds) := by
  induction τs generalizing cs ds with
  | nil => rfl
  | cons τ τs ih =>
    rw [List.foldl_cons, List.foldl_cons, List.foldl_cons, heatPass_mix τ a b h]
    exact ih (by rw [heatPass_geo, heatPass_geo, h])

theorem cellsFrom_mix (a b : K) : ∀ (ns : List (Node K)) (ks ts us : List K),
    cellsFrom ns ks (mixT a b ts us) = List.zipWith (mixCell a b) (cellsFrom ns ks ts) (cellsFrom ns ks us)
  | [], _, _, _ => by simp [cellsFrom]
  | _ :: _, [], _, _ => by simp [cellsFrom]
  | _ :: _, _ :: _, [], _ => by simp [cellsFrom, mixT]
  | _ :: _, _ :: _, _ :: _, [] => by simp [cellsFrom, mixT]
  | n :: ns, k :: ks, t :: ts, u :: us => by
    have ih := cellsFrom_mix a b ns ks ts us
    simp only [mixT, cellsFrom, List.zipWith_cons_cons] at ih ⊢
    rw [ih]; rfl

theorem cellsFrom_geo : ∀ (ns : List (Node K)) (ks ts us : List K), ts.length = ns.length → us.length = ns.length →
    (cellsFrom ns ks ts).map HeatCell.geo = (cellsFrom ns ks us).map HeatCell.geo
  | [], _, _, _, _, _ => by simp [cellsFrom]
  | _ :: _, [], _, _, _, _ => by simp [cellsFrom]
  | n :: ns, k :: ks, t :: ts, u :: us, h1, h2 => by
    rw [cellsFrom, cellsFrom, List.map_cons, List.map_cons, cellsFrom_geo ns ks ts us (by simpa using h1) (by simpa using h2)]
    rfl

theorem mix_map_t (a b : K) (cs ds : List (HeatCell K)) :
    (List.zipWith (mixCell a b) cs ds).map HeatCell.t = mixT a b (cs.map HeatCell.t) (ds.map HeatCell.t) := by
  unfold mixT
  induction cs generalizing ds with
  | nil => rfl
  | cons c cs ih =>
    cases ds with
    | nil => rfl
    | cons d ds => simp only [List.zipWith_cons_cons, List.map_cons, ih]; rfl

/-- **C113, superposition.** If two columns differ only in their temperatures, a column with any combination of their
temperatures is conducted to the same combination of their results. -/
theorem C113_superposition {fuel : Nat} {c : Consts K} {g g₁ g₂ : Grid K} (hw : g.WF) {dt : K} {ts us : List K}
    (ht : ts.length = g.nodes.length) (hu : us.length = g.nodes.length)
    (h₁ : solveHeatEquation fuel c (g.withTemps ts) dt = .ok g₁)
    (h₂ : solveHeatEquation fuel c (g.withTemps us) dt = .ok g₂) (a b : K) :
    solveHeatEquation fuel c (g.withTemps (mixT a b ts us)) dt = .ok (g.withTemps (mixT a b g₁.temps g₂.temps)) := by
  rw [solve_plan fuel c hw dt ht] at h₁
  rw [solve_plan fuel c hw dt hu] at h₂
  rw [solve_plan fuel c hw dt (by simp [mixT, ht, hu])]
  cases hp : conductionPlan fuel c g dt with
  | error e => rw [hp] at h₁; simp [Except.map] at h₁
  | ok p =>
    have hk := plan_lengths hp
    rw [hp] at h₁ h₂
    simp only [Except.map, Except.ok.injEq] at h₁ h₂ ⊢
    subst h₁ h₂
    rw [temps_withTemps (by rw [List.length_map, foldl_heatPass_len, cellsFrom_length _ _ _ hk ht]),
      temps_withTemps (by rw [List.length_map, foldl_heatPass_len, cellsFrom_length _ _ _ hk hu]),
      cellsFrom_mix, foldl_mix a b p.2 (cellsFrom_geo g.nodes p.1 ts us ht hu), mix_map_t]

/-- **C113, shift.** A column that is warmer by a constant in all layers is conducted to the result warmer by that
constant. -/
theorem C113_shift {fuel : Nat} {c : Consts K} {g g₁ : Grid K} (hw : g.WF) {dt : K} {ts : List K}
    (ht : ts.length = g.nodes.length) (h₁ : solveHeatEquation fuel c (g.withTemps ts) dt = .ok g₁) (δ : K) :
    solveHeatEquation fuel c (g.withTemps (ts.map (· + δ))) dt = .ok (g.withTemps (g₁.temps.map (· + δ))) := by
  have hone : (List.replicate g.nodes.length (1 : K)).length = g.nodes.length := by simp
  obtain ⟨g₂, h₂⟩ := (C113_success fuel c hw dt ht hone).1 g₁ h₁
  have h₂' := C22_isothermal (T := 1) (withTemps_wf hw hone) (by
    intro n hn
    have := List.mem_map_of_mem (f := fun n : Node K => n.temperature) hn
    rw [show (g.withTemps (List.replicate g.nodes.length (1 : K))).nodes.map (fun n => n.temperature) =
      List.replicate g.nodes.length (1 : K) from temps_withTemps hone] at this
    exact List.eq_of_mem_replicate this) h₂
  have e : ∀ xs : List K, xs.length = g.nodes.length →
      mixT 1 δ xs (List.replicate g.nodes.length (1 : K)) = xs.map (· + δ) := by
    intro xs hx
    rw [← hx]
    clear hx
    unfold mixT
    induction xs with
    | nil => rfl
    | cons x xs ih => rw [List.length_cons, List.replicate_succ, List.zipWith_cons_cons, ih]; simp
  have hl : g₁.temps.length = g.nodes.length := by
    have := (C22_only_temperature (withTemps_wf hw ht) h₁).1.length_eq
    unfold Grid.temps
    rw [List.length_map, ← this]
    simp [Grid.withTemps, ht]
  have := C113_superposition hw ht hone h₁ h₂ 1 δ
  rw [h₂', temps_withTemps hone, e ts ht, e _ hl] at this
  exact this

/-- **C113, no growth.** Two columns that differ only in their temperatures, by at most `δ` in each layer, differ by at
most `δ` in each layer afterwards: errors in temperatures do not grow. -/
theorem C113_nonexpansive {fuel : Nat} {c : Consts K} (hc : c.Phys) {g g₁ g₂ : Grid K} (hw : g.WF) {dt : K}
    {ts us : List K} (hn : ∀ n ∈ g.nodes, Conducting n)
    (ht : ts.length = g.nodes.length) (hu : us.length = g.nodes.length)
    (h₁ : solveHeatEquation fuel c (g.withTemps ts) dt = .ok g₁)
    (h₂ : solveHeatEquation fuel c (g.withTemps us) dt = .ok g₂) {δ : K}
    (hd : List.Forall₂ (fun t u => |t - u| ≤ δ) ts us) :
    List.Forall₂ (fun t u => |t - u| ≤ δ) g₁.temps g₂.temps := by
  have key : ∀ {ts us : List K} {g₁ g₂ : Grid K}, ts.length = g.nodes.length → us.length = g.nodes.length →
      solveHeatEquation fuel c (g.withTemps ts) dt = .ok g₁ → solveHeatEquation fuel c (g.withTemps us) dt = .ok g₂ →
      List.Forall₂ (fun t u => t ≤ u + δ) ts us → List.Forall₂ (fun t u => t ≤ u + δ) g₁.temps g₂.temps := by
    intro ts us g₁ g₂ ht hu h₁ h₂ hd
    have hs := C113_shift hw hu h₂ δ
    have hl : g₂.temps.length = g.nodes.length := by
      have := (C22_only_temperature (withTemps_wf hw hu) h₂).1.length_eq
      unfold Grid.temps
      rw [List.length_map, ← this]
      simp [Grid.withTemps, hu]
    have hu' : (us.map (· + δ)).length = g.nodes.length := by simpa using hu
    have hle : List.Forall₂ (fun n m => m = { n with temperature := m.temperature } ∧ n.temperature ≤ m.temperature)
        (g.withTemps ts).nodes (g.withTemps (us.map (· + δ))).nodes := by
      unfold Grid.withTemps
      simp only
      generalize g.nodes = ns at ht hu
      clear * - ht hu hd
      induction hd generalizing ns with
      | nil => cases ns <;> exact .nil
      | @cons t u ts us h0 _ ih =>
        cases ns with
        | nil => simp at ht
        | cons n ns => exact .cons ⟨rfl, h0⟩ (ih ns (by simpa using ht) (by simpa using hu))
    have hcond : ∀ n ∈ (g.withTemps ts).nodes, Conducting n := by
      intro n hm
      unfold Grid.withTemps at hm
      simp only at hm
      rw [List.mem_iff_getElem] at hm
      obtain ⟨i, hi, rfl⟩ := hm
      rw [List.getElem_zipWith]
      exact hn (g.nodes[i]'(by simp at hi; omega)) (List.getElem_mem _)
    have := C22_comparison hc (withTemps_wf hw ht) (withTemps_wf hw hu') hcond hle h₁ hs
    have e : (g.withTemps (g₂.temps.map (· + δ))).nodes.map (fun n => n.temperature) = g₂.temps.map (· + δ) :=
      temps_withTemps (by simpa using hl)
    have h3 : List.Forall₂ (fun t u => t ≤ u) g₁.temps (g₂.temps.map (· + δ)) := by
      rw [← e]
      unfold Grid.temps
      rw [List.forall₂_map_left_iff, List.forall₂_map_right_iff]
      exact this
    rw [List.forall₂_map_right_iff] at h3
    exact h3
  have a1 := key ht hu h₁ h₂ (hd.imp fun t u h => by have := (abs_le.1 h).2; linarith)
  have a2 := key hu ht h₂ h₁ (hd.flip.imp fun u t h => by
    have h : |t - u| ≤ δ := h
    have := (abs_le.1 h).1; linarith)
  have a3 := a2.flip
  generalize g₁.temps = xs at a1 a3
  generalize g₂.temps = ys at a1 a3
  clear * - a1 a3
  induction a1 with
  | nil => exact .nil
  | cons h _ ih =>
    cases a3 with
    | cons h' t' => exact .cons (abs_le.2 ⟨by have : _ ≤ _ + δ := h'; linarith, by linarith⟩) (ih t')

/-! ## One sub-step, layer by layer -/

theorem heatBelow_get (τ : K) : ∀ (cs : List (HeatCell K)) (i : Nat) (h : i + 1 < cs.length)
    (h' : i < (heatBelow τ cs).length),
    (heatBelow τ cs)[i] = if h2 : i + 2 < cs.length then { cs[i + 1] with t := heatNewT τ cs[i] cs[i + 1] cs[i + 2] }
      else cs[i + 1]
  | a :: b :: d :: rest, 0, _, _ => by simp [heatBelow]
  | a :: b :: d :: rest, i + 1, h, h' => by
    have := heatBelow_get τ (b :: d :: rest) i (by simpa using h) (by simpa [heatBelow] using h')
    simp only [heatBelow, List.getElem_cons_succ]
    rw [this]
    simp only [List.length_cons, add_lt_add_iff_right]
    rfl
  | [a, b], 0, _, _ => by simp [heatBelow]
  | [a, b], i + 1, h, _ => by simp at h
  | [a], i, h, _ => by simp at h
  | [], i, h, _ => by simp at h

theorem heatPass_get (τ : K) (cs : List (HeatCell K)) (i : Nat) (h : i < cs.length) (h' : i < (heatPass τ cs).length) :
    (heatPass τ cs)[i] = if h2 : 0 < i ∧ i + 1 < cs.length then
        { cs[i] with t := heatNewT τ (cs[i - 1]'(by omega)) cs[i] cs[i + 1] } else cs[i] := by
  cases cs with
  | nil => simp at h
  | cons a rest =>
    cases i with
    | zero => simp [heatPass]
    | succ i =>
      simp only [heatPass, List.getElem_cons_succ]
      rw [heatBelow_get τ (a :: rest) i (by simpa using h)]
      simp only [Nat.zero_lt_succ, true_and, Nat.add_sub_cancel]
      rfl

/-! ## Mirror symmetry -/

/-- The column upside down. -/
def Grid.mirror (g : Grid K) : Grid K := { g with nodes := g.nodes.reverse }

theorem heatNewT_swap (τ : K) (a b d : HeatCell K) : heatNewT τ d b a = heatNewT τ a b d := by
  unfold heatNewT HeatCell.dist HeatCell.diffusivity
  rw [add_comm b.h a.h, add_comm d.h b.h, add_comm b.k a.k, add_comm d.k b.k,
    add_comm ((b.h + d.h) / 2.0) ((a.h + b.h) / 2.0)]
  generalize (b.h + d.h) / 2.0 = D
  generalize (a.h + b.h) / 2.0 = E
  generalize (b.k + d.k) / 2.0 = P
  generalize (a.k + b.k) / 2.0 = Q
  generalize (0.5 * (E + D) : K) = m
  simp only [div_eq_mul_inv]
  ring

theorem heatPass_reverse (τ : K) (cs : List (HeatCell K)) : heatPass τ cs.reverse = (heatPass τ cs).reverse := by
  apply List.ext_getElem
  · simp [heatPass_length]
  intro i h1 h2
  have hi : i < cs.length := by simpa [heatPass_length] using h1
  rw [heatPass_get τ cs.reverse i (by simpa using hi), List.getElem_reverse (l := heatPass τ cs),
    heatPass_get τ cs _ (by rw [heatPass_length]; omega)]
  simp only [heatPass_length, List.length_reverse, List.getElem_reverse]
  by_cases hc : 0 < i ∧ i + 1 < cs.length
  · rw [dif_pos hc, dif_pos (by omega)]
    rw [heatNewT_swap]
    congr 2; all_goals congr 1; omega
  · rw [dif_neg hc, dif_neg (by omega)]

theorem foldl_reverse_heat (τs : List K) (cs : List (HeatCell K)) :
    τs.foldl (fun cs τ => heatPass τ cs) cs.reverse = (τs.foldl (fun cs τ => heatPass τ cs) cs).reverse := by
  induction τs generalizing cs with
  | nil => rfl
  | cons τ τs ih => rw [List.foldl_cons, List.foldl_cons, heatPass_reverse, ih]

theorem cellsFrom_snoc : ∀ (ns : List (Node K)) (ks ts : List K) (n : Node K) (k t : K), ks.length = ns.length →
    ts.length = ns.length → cellsFrom (ns ++ [n]) (ks ++ [k]) (ts ++ [t]) = cellsFrom ns ks ts ++ [⟨n.height, k, t⟩]
  | [], [], [], _, _, _, _, _ => rfl
  | _ :: ns, _ :: ks, _ :: ts, n, k, t, h1, h2 => by
    simp only [List.cons_append, cellsFrom]
    rw [cellsFrom_snoc ns ks ts n k t (by simpa using h1) (by simpa using h2)]

theorem cellsFrom_reverse : ∀ (ns : List (Node K)) (ks ts : List K), ks.length = ns.length → ts.length = ns.length →
    cellsFrom ns.reverse ks.reverse ts.reverse = (cellsFrom ns ks ts).reverse
  | [], [], [], _, _ => rfl
  | n :: ns, k :: ks, t :: ts, h1, h2 => by
    simp only [List.reverse_cons, cellsFrom]
    rw [cellsFrom_snoc _ _ _ _ _ _ (by simpa using h1) (by simpa using h2),
      cellsFrom_reverse ns ks ts (by simpa using h1) (by simpa using h2)]

theorem heatIfaces_snoc : ∀ (cs : List (HeatCell K)) (a b : HeatCell K),
    heatIfaces (cs ++ [a, b]) = heatIfaces (cs ++ [a]) ++ [(a.dist b * a.dist b) / a.diffusivity b]
  | [], _, _ => rfl
  | [x], _, _ => rfl
  | x :: y :: cs, a, b => by
    have := heatIfaces_snoc (y :: cs) a b
    simp only [List.cons_append, heatIfaces] at this ⊢
    rw [this]

theorem heatIfaces_reverse : ∀ (cs : List (HeatCell K)), heatIfaces cs.reverse = (heatIfaces cs).reverse
  | [] => rfl
  | [_] => rfl
  | a :: b :: cs => by
    have ih := heatIfaces_reverse (b :: cs)
    simp only [List.reverse_cons, List.append_assoc, List.cons_append, List.nil_append, heatIfaces] at ih ⊢
    rw [heatIfaces_snoc, ih]
    simp only [HeatCell.dist, HeatCell.diffusivity, add_comm b.h, add_comm b.k]

theorem foldl_pyMin_mem : ∀ (xs : List K) (m : K), xs.foldl pyMin m ∈ m :: xs
  | [], m => by simp
  | x :: xs, m => by
    have := foldl_pyMin_mem xs (pyMin m x)
    rw [List.foldl_cons]
    rcases List.mem_cons.1 this with h | h
    · rw [h, pyMin_eq]
      rcases min_choice m x with e | e <;> rw [e] <;> simp
    · exact List.mem_cons_of_mem _ (List.mem_cons_of_mem _ h)

theorem pyMinList_mem {xs : List K} {m : K} (h : pyMinList xs = .ok m) : m ∈ xs := by
  cases xs with
  | nil => simp [pyMinList] at h
  | cons x xs =>
    rw [pyMinList, ok_inj] at h
    subst h
    exact foldl_pyMin_mem xs x

theorem pyMinList_reverse {xs : List K} {m : K} (h : pyMinList xs = .ok m) : pyMinList xs.reverse = .ok m := by
  have hm := pyMinList_mem h
  have hne : xs.reverse ≠ [] := by
    intro e
    rw [List.reverse_eq_nil_iff] at e
    subst e
    simp at hm
  obtain ⟨m', h'⟩ : ∃ m', pyMinList xs.reverse = .ok m' := by
    cases hx : xs.reverse with
    | nil => exact absurd hx hne
    | cons y ys => exact ⟨_, rfl⟩
  have hm' := pyMinList_mem h'
  have e : m' = m := le_antisymm ((pyMinList_ok h').2.1 m (by simpa using hm))
    ((pyMinList_ok h).2.1 m' (by simpa using hm'))
  rw [h', e]

theorem heatDtStab_reverse {cs : List (HeatCell K)} {st : K} (h : heatDtStab cs = .ok st) :
    heatDtStab cs.reverse = .ok st := by
  unfold heatDtStab at h ⊢
  simp only [bind_eq_ok, pure_eq_ok] at h ⊢
  obtain ⟨up, hu, lo, hl, rfl⟩ := h
  refine ⟨lo, ?_, up, ?_, ?_⟩
  · rw [heatIfaces_reverse, List.dropLast_reverse]
    exact pyMinList_reverse hl
  · rw [heatIfaces_reverse, List.tail_reverse]
    exact pyMinList_reverse hu
  · rw [pyMin_eq, pyMin_eq, min_comm]

/-- **C113, mirror.** A column upside down is conducted to the result upside down. -/
theorem C113_mirror {fuel : Nat} {c : Consts K} {g g' : Grid K} (hw : g.WF) {dt : K}
    (h : solveHeatEquation fuel c g dt = .ok g') : solveHeatEquation fuel c g.mirror dt = .ok g'.mirror := by
  have hl : g.temps.length = g.nodes.length := by simp [Grid.temps]
  have hwm : g.mirror.WF := by
    unfold Grid.WF Grid.mirror at *
    simpa using hw
  have hlm : g.mirror.temps.length = g.mirror.nodes.length := by simp [Grid.temps]
  rw [← withTemps_temps g, solve_plan fuel c hw dt hl] at h
  rw [← withTemps_temps g.mirror, solve_plan fuel c hwm dt hlm]
  cases hp : conductionPlan fuel c g dt with
  | error e => rw [hp] at h; simp [Except.map] at h
  | ok p =>
    have hk := plan_lengths hp
    have hpm : conductionPlan fuel c g.mirror dt = .ok (p.1.reverse, p.2) := by
      unfold conductionPlan at hp ⊢
      simp only [bind_eq_ok, pure_eq_ok] at hp ⊢
      obtain ⟨ks, h1, st, h2, τs, h3, rfl⟩ := hp
      refine ⟨ks.reverse, ?_, st, ?_, τs, h3, rfl⟩
      · rw [mapM_eq_ok_iff] at h1 ⊢
        exact List.forall₂_reverse_iff.2 h1
      · have := heatDtStab_reverse h2
        rw [← cellsFrom_reverse _ _ _ hk (by simp)] at this
        simpa [Grid.mirror] using this
    rw [hp] at h
    rw [hpm]
    simp only [Except.map, Except.ok.injEq] at h ⊢
    subst h
    have e1 : g.mirror.temps = g.temps.reverse := by simp [Grid.temps, Grid.mirror]
    have e2 : g.mirror.nodes = g.nodes.reverse := rfl
    rw [e1, e2, cellsFrom_reverse _ _ _ hk hl, foldl_reverse_heat, List.map_reverse]
    have hlen : ((p.2.foldl (fun cs τ => heatPass τ cs) (cellsFrom g.nodes p.1 g.temps)).map HeatCell.t).length =
        g.nodes.length := by rw [List.length_map, foldl_heatPass_len, cellsFrom_length _ _ _ hk hl]
    generalize (p.2.foldl (fun cs τ => heatPass τ cs) (cellsFrom g.nodes p.1 g.temps)).map HeatCell.t = us at hlen
    unfold Grid.withTemps Grid.mirror
    simp only [Grid.mk.injEq, and_true]
    rw [← List.reverse_zipWith hlen]

/-! ## Locality -/

/-- A time `r` that is stable at every boundary of two layers: at most two fifths of the square of the distance of their
mid points by their mean diffusivity. -/
def StableTime (c : Consts K) (r : K) : List (Node K) → Prop
  | n :: m :: rest => (∃ k l, n.thermalDiffusivity c = .ok k ∧ m.thermalDiffusivity c = .ok l ∧
      r ≤ 2 / 5 * (((n.height + m.height) / 2) ^ 2 / ((k + l) / 2))) ∧ StableTime c r (m :: rest)
  | _ => True

theorem stable_ifaces {c : Consts K} {r : K} : ∀ (ns : List (Node K)) (ks ts : List K), StableTime c r ns →
    List.Forall₂ (fun n k => n.thermalDiffusivity c = .ok k) ns ks → ts.length = ns.length →
    ∀ x ∈ heatIfaces (cellsFrom ns ks ts), r ≤ 2 / 5 * x
  | n :: m :: ns, _, t :: u :: ts, ⟨⟨k, l, hk, hl, hr⟩, hs⟩, .cons a1 (.cons a2 a3), hlen => by
    rw [hk, ok_inj] at a1
    have a2' := a2
    rw [hl, ok_inj] at a2
    subst a1 a2
    intro x hx
    simp only [cellsFrom, heatIfaces, List.mem_cons] at hx
    rcases hx with rfl | hx
    · simp only [HeatCell.dist, HeatCell.diffusivity, two_lit]
      rw [← sq]
      exact hr
    · exact stable_ifaces (m :: ns) _ (u :: ts) hs (.cons a2' a3) (by simpa using hlen) x (by simpa [cellsFrom] using hx)
  | [_], _, [_], _, .cons _ .nil, _ => by simp [cellsFrom, heatIfaces]
  | [], _, [], _, .nil, _ => by simp [cellsFrom, heatIfaces]

theorem dtStab_ge {cs : List (HeatCell K)} {st r : K} (h : heatDtStab cs = .ok st)
    (hr : ∀ x ∈ heatIfaces cs, r ≤ 2 / 5 * x) : r ≤ st := by
  unfold heatDtStab at h
  simp only [bind_eq_ok, pure_eq_ok] at h
  obtain ⟨up, hu, lo, hl, rfl⟩ := h
  have h1 := hr up (List.mem_of_mem_dropLast (pyMinList_mem hu))
  have h2 := hr lo (List.mem_of_mem_tail (pyMinList_mem hl))
  rw [pyMin_eq]
  rcases min_choice up lo with e | e <;> rw [e] <;> norm_num <;> linarith

theorem subSteps_count {dt st : K} : ∀ (fuel : Nat) (s : K) {τs : List K},
    subSteps dt st fuel s = .ok τs → (s < dt → (τs.length : K) * st < dt - s + st) ∧ (dt ≤ s → τs = []) := by
  intro fuel
  induction fuel with
  | zero => intro s τs h; simp [subSteps] at h
  | succ n ih =>
    intro s τs h
    rw [subSteps] at h
    by_cases hs : s < dt
    · rw [if_pos hs] at h
      refine ⟨fun _ => ?_, fun h => absurd hs (not_lt.2 h)⟩
      cases hq : subSteps dt st n (s + pyMin st (dt - s)) with
      | error e => rw [hq] at h; simp [Except.map] at h
      | ok ρs =>
        rw [hq] at h
        simp only [Except.map, Except.ok.injEq] at h
        subst h
        obtain ⟨h1, h2⟩ := ih _ hq
        rw [pyMin_eq] at h1 h2
        rw [List.length_cons]
        push_cast
        rcases le_or_gt (dt - s) st with hle | hlt
        · rw [min_eq_right hle] at h2
          rw [h2 (by linarith)]
          simp only [List.length_nil, Nat.cast_zero, zero_add, one_mul]
          linarith
        · rw [min_eq_left hlt.le] at h1
          have := h1 (by linarith)
          linarith
    · rw [if_neg hs, ok_inj] at h
      subst h
      exact ⟨fun h => absurd h hs, fun _ => rfl⟩

/-- Cells that agree except for temperatures closer than `d` to layer `j`. -/
def AgreeFar (j d : Nat) (cs ds : List (HeatCell K)) : Prop :=
  cs.map HeatCell.geo = ds.map HeatCell.geo ∧
    ∀ i (h : i < cs.length) (h' : i < ds.length), (i + d < j ∨ j + d < i) → cs[i] = ds[i]

theorem agree_pass (τ : K) {j d : Nat} {cs ds : List (HeatCell K)} (h : AgreeFar j d cs ds) :
    AgreeFar j (d + 1) (heatPass τ cs) (heatPass τ ds) := by
  obtain ⟨h1, h2⟩ := h
  have hlen : cs.length = ds.length := by simpa using congrArg List.length h1
  refine ⟨by rw [heatPass_geo, heatPass_geo, h1], fun i hi hi' hf => ?_⟩
  rw [heatPass_length] at hi hi'
  rw [heatPass_get τ cs i hi, heatPass_get τ ds i hi']
  by_cases hc : 0 < i ∧ i + 1 < cs.length
  · have hc' : 0 < i ∧ i + 1 < ds.length := by omega
    rw [dif_pos hc, dif_pos hc', h2 i hi hi' (by omega), h2 (i - 1) (by omega) (by omega) (by omega),
      h2 (i + 1) (by omega) (by omega) (by omega)]
  · have hc' : ¬ (0 < i ∧ i + 1 < ds.length) := by omega
    rw [dif_neg hc, dif_neg hc', h2 i hi hi' (by omega)]

theorem agree_foldl {j : Nat} (τs : List K) {d : Nat} {cs ds : List (HeatCell K)} (h : AgreeFar j d cs ds) :
    AgreeFar j (d + τs.length) (τs.foldl (fun cs τ => heatPass τ cs) cs) (τs.foldl (fun cs τ => heatPass τ cs) ds) := by
  induction τs generalizing d cs ds with
  | nil => exact h
  | cons τ τs ih =>
    rw [List.foldl_cons, List.foldl_cons, List.length_cons]
    have := ih (agree_pass τ h)
    rwa [Nat.add_assoc, Nat.add_comm 1] at this

theorem cellsFrom_get : ∀ (ns : List (Node K)) (ks ts : List K) (i : Nat) (h : i < (cellsFrom ns ks ts).length)
    (h1 : i < ns.length) (h2 : i < ks.length) (h3 : i < ts.length),
    (cellsFrom ns ks ts)[i] = ⟨ns[i].height, ks[i], ts[i]⟩
  | _ :: _, _ :: _, _ :: _, 0, _, _, _, _ => rfl
  | n :: ns, k :: ks, t :: ts, i + 1, h, h1, h2, h3 => by
    simp only [cellsFrom, List.getElem_cons_succ]
    exact cellsFrom_get ns ks ts i _ (by simpa using h1) (by simpa using h2) (by simpa using h3)

/-- **C113, locality.** If two columns differ only in the temperature of layer `j`, they differ after conduction at most
in the layers closer than `N` to it, where `N` is the number of sub-steps: less than the time by any stable
time, plus one. -/
theorem C113_local {fuel : Nat} {c : Consts K} {g g₁ g₂ : Grid K} (hw : g.WF) {dt r : K} {ts us : List K}
    (ht : ts.length = g.nodes.length) (hu : us.length = g.nodes.length) (hdt : 0 < dt) (hr : 0 < r)
    (hs : StableTime c r g.nodes) {j : Nat} (hj : ∀ i, i ≠ j → ts[i]? = us[i]?)
    (h₁ : solveHeatEquation fuel c (g.withTemps ts) dt = .ok g₁)
    (h₂ : solveHeatEquation fuel c (g.withTemps us) dt = .ok g₂) :
    ∃ N : Nat, (N : K) < dt / r + 1 ∧ ∀ i, i + N < j ∨ j + N < i → g₁.temps[i]? = g₂.temps[i]? := by
  rw [solve_plan fuel c hw dt ht] at h₁
  rw [solve_plan fuel c hw dt hu] at h₂
  cases hp : conductionPlan fuel c g dt with
  | error e => rw [hp] at h₁; simp [Except.map] at h₁
  | ok p =>
    have hk := plan_lengths hp
    rw [hp] at h₁ h₂
    simp only [Except.map, Except.ok.injEq] at h₁ h₂
    subst h₁ h₂
    rw [temps_withTemps (by rw [List.length_map, foldl_heatPass_len, cellsFrom_length _ _ _ hk ht]),
      temps_withTemps (by rw [List.length_map, foldl_heatPass_len, cellsFrom_length _ _ _ hk hu])]
    refine ⟨p.2.length, ?_, fun i hi => ?_⟩
    · unfold conductionPlan at hp
      simp only [bind_eq_ok, pure_eq_ok] at hp
      obtain ⟨ks, h1, st, h2, τs, h3, rfl⟩ := hp
      have hst : r ≤ st := dtStab_ge h2 (stable_ifaces _ _ _ hs (mapM_eq_ok_iff.1 h1) (by simp))
      have hc := (subSteps_count fuel 0 h3).1 hdt
      have hc' : ((τs.length : K) - 1) * st < dt := by linarith
      have : ((τs.length : K) - 1) * r < dt := by
        rcases le_or_gt ((τs.length : K) - 1) 0 with hneg | hpos
        · exact (mul_nonpos_of_nonpos_of_nonneg hneg hr.le).trans_lt hdt
        · exact (mul_le_mul_of_nonneg_left hst hpos.le).trans_lt hc'
      have := (lt_div_iff₀ hr).2 this
      simp only
      linarith
    · have ha : AgreeFar j 0 (cellsFrom g.nodes p.1 ts) (cellsFrom g.nodes p.1 us) := by
        refine ⟨cellsFrom_geo _ _ _ _ ht hu, fun i h h' hf => ?_⟩
        rw [cellsFrom_length _ _ _ hk ht] at h
        have e := hj i (by omega)
        rw [List.getElem?_eq_getElem (by omega), List.getElem?_eq_getElem (by omega), Option.some.injEq] at e
        rw [cellsFrom_get g.nodes p.1 ts i _ h (by omega) (by omega),
          cellsFrom_get g.nodes p.1 us i _ h (by omega) (by omega), e]
      have hb := agree_foldl p.2 ha
      rw [List.getElem?_map, List.getElem?_map]
      by_cases hlen : i < g.nodes.length
      · rw [List.getElem?_eq_getElem (by rw [foldl_heatPass_len, cellsFrom_length _ _ _ hk ht]; exact hlen),
          List.getElem?_eq_getElem (by rw [foldl_heatPass_len, cellsFrom_length _ _ _ hk hu]; exact hlen)]
        rw [hb.2 i _ _ (by omega)]
      · rw [List.getElem?_eq_none (by rw [foldl_heatPass_len, cellsFrom_length _ _ _ hk ht]; omega),
          List.getElem?_eq_none (by rw [foldl_heatPass_len, cellsFrom_length _ _ _ hk hu]; omega)]

end
/-- Six layers; diffusivities around 5e-7 to 1e-6, time scale some thousand seconds. -/
private def exSix : Grid ℚ :=
  ⟨[⟨1/10, 260, 0, 3/10, 0⟩, ⟨1/10, 270, 1/100, 1/2, 0⟩, ⟨1/5, 265, 0, 1, 0⟩, ⟨1/5, 272, 0, 1, 0⟩, ⟨1/5, 271, 0, 1, 0⟩,
    ⟨1/5, 270, 0, 1, 0⟩], 6, 0, 0, 0⟩
private def exTs : List ℚ := [260, 270, 265, 272, 271, 270]
private def exUs : List ℚ := [262, 270, 265, 272, 271, 270]

/-! Non-vacuity: a column of six layers with two temperature profiles that differ in the top layer; the solver completes
on both and on the mirrored column, in two sub-steps. After an hour the third layer differs, the fourth does not. -/
example : exSix.WF ∧ (∀ n ∈ exSix.nodes, Conducting n) ∧ exTs.length = exSix.nodes.length ∧
    exUs.length = exSix.nodes.length ∧ (∀ i, i ≠ 0 → exTs[i]? = exUs[i]?) ∧
    List.Forall₂ (fun t u => |t - u| ≤ (2 : ℚ)) exTs exUs := by
  refine ⟨rfl, ?_, rfl, rfl, ?_, ?_⟩
  · simp only [exSix, Conducting]; decide +kernel
  · intro i hi; cases i with
    | zero => exact absurd rfl hi
    | succ i => rfl
  · simp only [exTs, exUs, List.forall₂_cons]; norm_num
example : (solveHeatEquation 9 (Consts.default ℚ) (exSix.withTemps exTs) 4000).toOption.isSome = true ∧
    (solveHeatEquation 9 (Consts.default ℚ) (exSix.withTemps exUs) 4000).toOption.isSome = true ∧
    (solveHeatEquation 9 (Consts.default ℚ) exSix.mirror 4000).toOption.isSome = true := by decide +kernel
example : (conductionPlan 9 (Consts.default ℚ) exSix 4000).toOption.map (fun p => p.2.length) = some 2 := by
  decide +kernel
example : ((solveHeatEquation 9 (Consts.default ℚ) (exSix.withTemps exTs) 4000).toOption.map fun g => g.temps.drop 3) =
    ((solveHeatEquation 9 (Consts.default ℚ) (exSix.withTemps exUs) 4000).toOption.map fun g => g.temps.drop 3) ∧
    ((solveHeatEquation 9 (Consts.default ℚ) (exSix.withTemps exTs) 4000).toOption.map fun g => g.temps[2]?) ≠
    ((solveHeatEquation 9 (Consts.default ℚ) (exSix.withTemps exUs) 4000).toOption.map fun g => g.temps[2]?) := by
  decide +kernel
example : StableTime (Consts.default ℚ) 1000 exSix.nodes := by
  have h (n : Node ℚ) (hn : n ∈ exSix.nodes) : n.thermalDiffusivity (Consts.default ℚ) =
      .ok ((n.thermalDiffusivity (Consts.default ℚ)).toOption.getD 0) := by
    cases e : n.thermalDiffusivity (Consts.default ℚ) with
    | ok _ => rfl
    | error _ =>
      exfalso
      have : ∀ n ∈ exSix.nodes, (n.thermalDiffusivity (Consts.default ℚ)).toOption.isSome = true := by decide +kernel
      have := this n hn
      rw [e] at this
      cases this
  refine ⟨⟨_, _, h _ (by simp [exSix]), h _ (by simp [exSix]), ?_⟩, ⟨_, _, h _ (by simp [exSix]), h _ (by simp [exSix]), ?_⟩,
    ⟨_, _, h _ (by simp [exSix]), h _ (by simp [exSix]), ?_⟩, ⟨_, _, h _ (by simp [exSix]), h _ (by simp [exSix]), ?_⟩,
    ⟨_, _, h _ (by simp [exSix]), h _ (by simp [exSix]), ?_⟩, trivial⟩ <;> decide +kernel

end Cosipy
