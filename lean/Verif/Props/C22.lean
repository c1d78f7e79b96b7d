import Verif.Lemmas.Heat
import Mathlib.Algebra.Field.Rat
import Mathlib.Algebra.Order.Ring.Unbundled.Rat

/-!
# C22 Heat conduction keeps the end layers fixed and is flux conservative and order preserving
-/

set_option autoImplicit false
set_option linter.unusedSectionVars false

namespace Cosipy
section
variable {K : Type} [Field K] [LinearOrder K] [IsStrictOrderedRing K]

/-- What a solve does to the column: the layers keep everything but their temperature, and the new temperatures are
those of the cells after the sub-steps. -/
theorem solveHeat_nodes {fuel : Nat} {c : Consts K} {g g' : Grid K} {dt : K} (hw : g.WF)
    (h : solveHeatEquation fuel c g dt = .ok g') :
    ∃ cells st r, List.Forall₂ (CellOf c) g.nodes cells ∧ heatDtStab cells = .ok st ∧
      whileM (heatLoopPass dt st) fuel (0, cells) = .ok r ∧ r.2.length = cells.length ∧
      r.2.head? = cells.head? ∧ r.2.getLast? = cells.getLast? ∧
      g' = { g with nodes := List.zipWith Node.setTemperature (r.2.map HeatCell.t) g.nodes } := by
  obtain ⟨cells, st, r, h1, h2, h3, h4⟩ := solveHeat_ok hw h
  have inv := (whileM_ind h3 (fun s => s.2.length = cells.length ∧ s.2.head? = cells.head? ∧
      s.2.getLast? = cells.getLast?) ⟨rfl, rfl, rfl⟩ (by
      rintro s s' ⟨i1, i2, i3⟩ hb
      unfold heatLoopPass at hb
      split_ifs at hb with hlt
      · simp only [ok_inj, Option.some.injEq] at hb
        subst hb
        obtain ⟨e1, e2⟩ := heatPass_ends (pyMin st (dt - s.1)) s.2
        exact ⟨(heatPass_length _ _).trans i1, e1.trans i2, e2.trans i3⟩
      · simp at hb)).1
  refine ⟨cells, st, r, h1, h2, h3, inv.1, inv.2.1, inv.2.2, ?_⟩
  have hl : (r.2.map HeatCell.t).length = g.nodes.length := by
    rw [List.length_map, inv.1, h1.length_eq]
  rw [Grid.setAll_eq hw _ hl, ok_inj] at h4
  exact h4.symm

/-- **C22, only temperatures change.** -/
theorem C22_only_temperature {fuel : Nat} {c : Consts K} {g g' : Grid K} {dt : K} (hw : g.WF)
    (h : solveHeatEquation fuel c g dt = .ok g') :
    List.Forall₂ (fun n m => m = { n with temperature := m.temperature }) g.nodes g'.nodes ∧
    g'.numberNodes = g.numberNodes ∧ g'.newSnowHeight = g.newSnowHeight ∧
    g'.newSnowTimestamp = g.newSnowTimestamp ∧ g'.oldSnowTimestamp = g.oldSnowTimestamp := by
  obtain ⟨cells, st, r, h1, _, _, h4, _, _, rfl⟩ := solveHeat_nodes hw h
  refine ⟨?_, rfl, rfl, rfl, rfl⟩
  have : ∀ (ts : List K) (ns : List (Node K)), ts.length = ns.length →
      List.Forall₂ (fun n m => m = { n with temperature := m.temperature }) ns (List.zipWith Node.setTemperature ts ns) := by
    intro ts
    induction ts with
    | nil => intro ns h; cases ns <;> simp_all
    | cons t ts ih =>
      intro ns h
      cases ns with
      | nil => simp at h
      | cons n ns => exact List.Forall₂.cons rfl (ih ns (by simpa using h))
  exact this _ _ (by rw [List.length_map, h4, h1.length_eq])

/-- **C22, fixed ends.** The temperatures of the first and of the last layer do not change. -/
theorem C22_ends {fuel : Nat} {c : Consts K} {g g' : Grid K} {dt : K} (hw : g.WF)
    (h : solveHeatEquation fuel c g dt = .ok g') :
    (g'.nodes.map (fun n => n.temperature)).head? = (g.nodes.map (fun n => n.temperature)).head? ∧
    (g'.nodes.map (fun n => n.temperature)).getLast? = (g.nodes.map (fun n => n.temperature)).getLast? := by
  obtain ⟨cells, st, r, h1, _, _, h4, h5, h6, rfl⟩ := solveHeat_nodes hw h
  have hl : (r.2.map HeatCell.t).length = g.nodes.length := by rw [List.length_map, h4, h1.length_eq]
  simp only
  rw [setTemperature_zip _ _ hl, ← cells_t h1]
  simp [List.head?_map, List.getLast?_map, h5, h6]

/-- **C22, isothermal.** A column of one temperature is not changed at all. -/
theorem C22_isothermal {fuel : Nat} {c : Consts K} {g g' : Grid K} {dt T : K} (hw : g.WF)
    (hT : ∀ n ∈ g.nodes, n.temperature = T) (h : solveHeatEquation fuel c g dt = .ok g') : g' = g := by
  obtain ⟨cells, st, r, h1, _, h3, h4, _, _, rfl⟩ := solveHeat_nodes hw h
  have hb : ∀ (τ : K) (cs : List (HeatCell K)), (∀ x ∈ cs, x.t = T) → ∀ x ∈ heatBelow τ cs, x.t = T := by
    intro τ cs
    induction cs using heatBelow.induct with
    | case1 a b d rest ih =>
      intro hx x hm
      rw [heatBelow, List.mem_cons] at hm
      rcases hm with rfl | hm
      · simp [heatNewT, hx a, hx b, hx d]
      · exact ih (fun y hy => hx y (List.mem_cons_of_mem _ hy)) x hm
    | case2 a b => intro hx x hm; simp only [heatBelow, List.mem_singleton] at hm; exact hx x (by simp [hm])
    | case3 cs h1 h2 =>
      intro _ x hm
      rw [heatBelow.eq_3 _ _ h1 h2] at hm
      simp at hm
  have inv := (whileM_ind h3 (fun s => ∀ x ∈ s.2, x.t = T) (fun x hx => by
        have : x.t ∈ g.nodes.map (fun n => n.temperature) := cells_t h1 ▸ List.mem_map_of_mem hx
        obtain ⟨n, hn, e⟩ := List.mem_map.1 this
        rw [← e]; exact hT n hn) (by
      rintro s s' i hb'
      unfold heatLoopPass at hb'
      split_ifs at hb' with hlt
      · simp only [ok_inj, Option.some.injEq] at hb'
        subst hb'
        intro x hx
        simp only at hx
        cases hs : s.2 with
        | nil => rw [hs] at hx; simp [heatPass] at hx
        | cons a rest =>
          rw [hs, heatPass, List.mem_cons] at hx
          rcases hx with rfl | hx
          · exact i x (by rw [hs]; simp)
          · exact hb _ _ (by rw [← hs]; exact i) x hx
      · simp at hb')).1
  have : ∀ (ts : List K) (ns : List (Node K)), ts.length = ns.length → (∀ t ∈ ts, t = T) →
      (∀ n ∈ ns, n.temperature = T) → List.zipWith Node.setTemperature ts ns = ns := by
    intro ts
    induction ts with
    | nil => intro ns h; cases ns <;> simp_all
    | cons t ts ih =>
      intro ns h h1 h2
      cases ns with
      | nil => simp at h
      | cons n ns =>
        rw [List.zipWith_cons_cons, ih ns (by simpa using h) (fun t ht => h1 t (by simp [ht]))
          (fun n hn => h2 n (by simp [hn]))]
        have e1 := h1 t (by simp)
        have e2 := h2 n (by simp)
        unfold Node.setTemperature
        rw [e1, ← e2]
  rw [this _ _ (by rw [List.length_map, h4, h1.length_eq]) (by
    intro t ht; obtain ⟨x, hx, rfl⟩ := List.mem_map.1 ht; exact inv x hx) hT]

/-- **C22, comparison.** Of two columns that differ only in their temperatures, the one that is nowhere colder
stays nowhere colder, for any integration time. -/
theorem C22_comparison {fuel fuel' : Nat} {c : Consts K} (hc : c.Phys) {g₁ g₂ g₁' g₂' : Grid K} {dt : K} (hw₁ : g₁.WF)
    (hw₂ : g₂.WF) (hn : ∀ n ∈ g₁.nodes, Conducting n)
    (hle : List.Forall₂ (fun n m => m = { n with temperature := m.temperature } ∧ n.temperature ≤ m.temperature)
      g₁.nodes g₂.nodes)
    (h₁ : solveHeatEquation fuel c g₁ dt = .ok g₁') (h₂ : solveHeatEquation fuel' c g₂ dt = .ok g₂') :
    List.Forall₂ (fun n m => n.temperature ≤ m.temperature) g₁'.nodes g₂'.nodes := by
  obtain ⟨cells, st, r, a1, a2, a3, a4, a5, a6, rfl⟩ := solveHeat_nodes hw₁ h₁
  obtain ⟨cells', st', r', b1, b2, b3, b4, b5, b6, rfl⟩ := solveHeat_nodes hw₂ h₂
  clear a5 a6 b5 b6
  have hpos := cells_pos hc a1 hn
  have hcs : List.Forall₂ NoColder cells cells' := by
    clear a2 a3 a4 b2 b3 b4 h₁ h₂ hw₁ hw₂ hn hpos
    generalize g₁.nodes = ns at *
    generalize g₂.nodes = ms at *
    induction hle generalizing cells cells' with
    | nil => cases a1; cases b1; exact List.Forall₂.nil
    | @cons n m ns ms h1 h2 ih =>
      cases a1 with
      | @cons _ x _ cells a a1 =>
      cases b1 with
      | @cons _ y _ cells' b b1 =>
      refine List.Forall₂.cons ?_ (ih _ _ a1 b1)
      obtain ⟨h1, h3⟩ := h1
      obtain ⟨p1, p2, p3⟩ := a
      obtain ⟨q1, q2, q3⟩ := b
      refine ⟨?_, by rw [p2, q2]; exact h3⟩
      have hk : Except.ok x.k = (Except.ok y.k : M K) := by
        rw [← p3, ← q3, h1]; rfl
      rw [ok_inj] at hk
      simp only [HeatCell.geo, Prod.mk.injEq]
      refine ⟨?_, hk⟩
      rw [p1, q1, h1]
  have hgeo : cells.map HeatCell.geo = cells'.map HeatCell.geo := by
    clear a1 a2 a3 a4 b1 b2 b3 b4 hpos
    induction hcs with
    | nil => rfl
    | cons h1 h2 ih => rw [List.map_cons, List.map_cons, ih, h1.1]
  rw [← heatDtStab_geo hgeo, a2, ok_inj] at b2
  subst b2
  obtain ⟨_, hs, hp⟩ := heatDtStab_ok a2
  have hst := hp hpos
  have fin := heatLoop_two hst (fun cs ds => cs.map HeatCell.geo = cells.map HeatCell.geo ∧ List.Forall₂ NoColder cs ds)
    (fun τ cs ds h0 h1 ⟨i1, i2⟩ => ⟨(heatPass_geo _ _).trans i1, heatPass_mono h0.le (pos_of_geo i1 hpos)
      (StableFor.mono h1 (by unfold StableFor; rw [heatIfaces_congr i1]; exact hs)) i2⟩) fuel fuel' 0 cells cells' ⟨rfl, hcs⟩ a3 b3
  have l1 : r.2.length = g₁.nodes.length := by rw [a4, a1.length_eq]
  have l2 : r'.2.length = g₂.nodes.length := by rw [b4, b1.length_eq]
  have := fin.2
  simp only
  clear fin a3 b3 a4 b4 a1 b1 h₁ h₂ hw₁ hw₂ hn hle
  generalize g₁.nodes = ns at *
  generalize g₂.nodes = ms at *
  generalize r.2 = cs at *
  generalize r'.2 = ds at *
  induction this generalizing ns ms with
  | nil => cases ns <;> cases ms <;> simp_all
  | cons h1 h2 ih =>
    cases ns with
    | nil => simp at l1
    | cons n ns =>
    cases ms with
    | nil => simp at l2
    | cons m ms =>
    exact List.Forall₂.cons h1.2 (ih ns ms (by simpa using l1) (by simpa using l2))

/-! ### Flux conservation of a sub-step -/

/-- Heat flux (per unit heat capacity) through the interface of two neighbouring layers, positive downwards to up:
mean diffusivity times temperature difference over the distance of the mid points. -/
def interfaceFlux (a b : HeatCell K) : K := (a.k + b.k) / 2 * (b.t - a.t) / ((a.h + b.h) / 2)

/-- Flux through the uppermost interface. -/
def topFlux : List (HeatCell K) → K
  | a :: b :: _ => interfaceFlux a b
  | _ => 0

/-- Flux through the lowermost interface. -/
def bottomFlux : List (HeatCell K) → K
  | [a, b] => interfaceFlux a b
  | _ :: b :: d :: rest => bottomFlux (b :: d :: rest)
  | _ => 0

/-- Temperatures of the inner layers weighted by the distance between the midpoints of their interfaces' spans. -/
def innerStorage : List (HeatCell K) → K
  | a :: b :: d :: rest => ((a.h + b.h) / 2 + (b.h + d.h) / 2) / 2 * b.t + innerStorage (b :: d :: rest)
  | _ => 0

theorem heatNewT_flux (τ : K) {a b d : HeatCell K} (ha : a.Pos) (hb : b.Pos) (hd : d.Pos) :
    ((a.h + b.h) / 2 + (b.h + d.h) / 2) / 2 * heatNewT τ a b d =
      ((a.h + b.h) / 2 + (b.h + d.h) / 2) / 2 * b.t + τ * (interfaceFlux b d - interfaceFlux a b) := by
  have h1 := ha.1
  have h2 := hb.1
  have h3 := hd.1
  unfold heatNewT interfaceFlux HeatCell.dist HeatCell.diffusivity
  rw [two_lit, half_lit]
  have e1 : a.h + b.h ≠ 0 := by positivity
  have e2 : b.h + d.h ≠ 0 := by positivity
  have e3 : (a.h + b.h) / 2 + (b.h + d.h) / 2 ≠ 0 := by positivity
  field_simp

theorem innerStorage_head {a a' : HeatCell K} (h : a'.h = a.h) (cs : List (HeatCell K)) :
    innerStorage (a' :: cs) = innerStorage (a :: cs) := by
  match cs with
  | [] => rfl
  | [_] => rfl
  | b :: d :: rest => rw [innerStorage, innerStorage, h]

theorem heatBelow_storage (τ : K) : ∀ (a : HeatCell K) (cs : List (HeatCell K)), (∀ x ∈ a :: cs, x.Pos) →
    innerStorage (a :: heatBelow τ (a :: cs)) =
      innerStorage (a :: cs) + τ * (bottomFlux (a :: cs) - topFlux (a :: cs))
  | a, [], _ => by simp [heatBelow, innerStorage, bottomFlux, topFlux]
  | a, [b], _ => by simp [heatBelow, innerStorage, bottomFlux, topFlux]
  | a, b :: d :: rest, hp => by
    have ih := heatBelow_storage τ b (d :: rest) (fun x hx => hp x (List.mem_cons_of_mem _ hx))
    have hf := heatNewT_flux τ (hp a (by simp)) (hp b (by simp)) (hp d (by simp))
    rw [heatBelow]
    obtain ⟨d', tl, he, hd'⟩ : ∃ d' tl, heatBelow τ (b :: d :: rest) = d' :: tl ∧ d'.h = d.h := by
      cases rest with
      | nil => exact ⟨d, [], rfl, rfl⟩
      | cons e rest => exact ⟨_, _, rfl, rfl⟩
    rw [he] at ih ⊢
    rw [innerStorage, innerStorage_head (a := b) (a' := { b with t := heatNewT τ a b d }) rfl, ih, innerStorage, bottomFlux, topFlux, topFlux]
    simp only [hd']
    rw [hf]
    ring

/-- **C22, flux conservation.** One sub-step of length `τ` changes the spacing-weighted sum of the inner temperatures
by `τ` times the flux in at the bottom minus the flux out at the top. -/
theorem C22_flux (τ : K) (cs : List (HeatCell K)) (hp : ∀ x ∈ cs, 0 < x.h ∧ 0 < x.k) :
    innerStorage (heatPass τ cs) = innerStorage cs + τ * (bottomFlux cs - topFlux cs) := by
  cases cs with
  | nil => simp [heatPass, innerStorage, bottomFlux, topFlux]
  | cons a cs => exact heatBelow_storage τ a cs hp

end

private def exCol : Grid ℚ :=
  ⟨[⟨1/10, 260, 0, 3/10, 0⟩, ⟨1/10, 270, 1/100, 1/2, 0⟩, ⟨1/5, 265, 0, 1, 0⟩, ⟨1/2, 272, 0, 1, 0⟩], 4, 0, 0, 0⟩
private def exWarm : Grid ℚ :=
  ⟨[⟨1/10, 261, 0, 3/10, 0⟩, ⟨1/10, 270, 1/100, 1/2, 0⟩, ⟨1/5, 273, 0, 1, 0⟩, ⟨1/2, 272, 0, 1, 0⟩], 4, 0, 0, 0⟩
private def exIso : Grid ℚ :=
  ⟨[⟨1/10, 268, 0, 3/10, 0⟩, ⟨1/10, 268, 1/100, 1/2, 0⟩, ⟨1/5, 268, 0, 1, 0⟩], 3, 0, 0, 0⟩

/-! Non-vacuity: two comparable columns, an isothermal one, and non-zero boundary fluxes. -/
example : exCol.WF ∧ exWarm.WF ∧ exIso.WF ∧ (∀ n ∈ exCol.nodes, Conducting n) := by
  refine ⟨rfl, rfl, rfl, ?_⟩
  simp only [exCol, Conducting]; decide +kernel
example : List.Forall₂ (fun n m => m = { n with temperature := m.temperature } ∧ n.temperature ≤ m.temperature)
    exCol.nodes exWarm.nodes := by
  simp only [exCol, exWarm, List.forall₂_cons]; norm_num
example : (solveHeatEquation 9 (Consts.default ℚ) exCol 7200).toOption.isSome = true ∧
    (solveHeatEquation 9 (Consts.default ℚ) exWarm 7200).toOption.isSome = true ∧
    (solveHeatEquation 9 (Consts.default ℚ) exIso 7200).toOption.isSome = true := by decide +kernel
example : bottomFlux ([⟨1, 1, 0⟩, ⟨1, 1, 1⟩, ⟨1, 1, 5⟩] : List (HeatCell ℚ)) = 4 ∧
    topFlux ([⟨1, 1, 0⟩, ⟨1, 1, 1⟩, ⟨1, 1, 5⟩] : List (HeatCell ℚ)) = 1 := by decide +kernel

end Cosipy
