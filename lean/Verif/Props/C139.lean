import Verif.Model.GridInfo
import Verif.Props.C122
import Verif.Lemmas.Example

/-!
# C139 The printed column is the column

`C139_screen`: every value that `grid_info_screen` prints is the quantity its column is named after, of the layer its row is numbered after, for
every arithmetic. `C139_rows`: which rows are printed. `C139_total`: the depth that `info` reports. `grid_info` prints nine values under ten names
(`C139_info_refuted`): from the sixth column on, values stand under the wrong name; `C139_info_partial` says which values they are.
-/

set_option autoImplicit false
set_option linter.unusedSectionVars false

namespace Cosipy
open Grid

section
variable {α : Type} [Add α] [Sub α] [Mul α] [Div α] [Neg α] [LT α] [LE α]
  [DecidableLT α] [DecidableLE α] [BEq α] [Zero α] [One α] [NatCast α] [OfScientific α]

/-- What the name of a column promises. -/
def Promised (c : Consts α) (name : String) (n : Node α) (v : α) : Prop :=
  (name = "Layer height [m]" ∧ v = n.height) ∨ (name = "Temperature [K]" ∧ v = n.temperature) ∨ (name = "Density [kg m^-3]" ∧ v = n.density c) ∨
  (name = "LWC [-]" ∧ v = n.lwc) ∨ (name = "LW [m]" ∧ v = n.lwc * n.height) ∨ (name = "CC [J m^-2]" ∧ v = n.coldContent c) ∨
  (name = "Porosity [-]" ∧ v = n.porosity) ∨ (name = "Refreezing [m w.e.]" ∧ v = n.refreeze) ∨
  ((name = "Irreducible water content [-]" ∨ name = "Retention [-]") ∧ n.irreducibleWaterContent = .ok v)

theorem printRows_mem {row : Nat → M (List α)} : ∀ {is : List Nat} {p : Nat × List α}, p ∈ (printRows row is).1 → p.1 ∈ is ∧ row p.1 = .ok p.2
  | [], p, h => by cases h
  | i :: is, p, h => by
    unfold printRows at h
    cases hr : row i with
    | error e => rw [hr] at h; cases h
    | ok r =>
      rw [hr] at h
      rcases List.mem_cons.1 h with rfl | h
      · exact ⟨List.mem_cons_self, hr⟩
      · obtain ⟨h1, h2⟩ := printRows_mem h
        exact ⟨List.mem_cons_of_mem _ h1, h2⟩

theorem node_nat {g : Grid α} {i : Nat} {n : Node α} (h : g.node (i : Int) = .ok n) : g.nodes[i]? = some n := by
  unfold Grid.node pyGet normIdx at h
  split at h
  · rename_i k hk
    split_ifs at hk with h1 h2
    · cases hk
      split at h
      · rename_i x hx; cases h; simpa using hx
      · cases h
    · omega
  · cases h

theorem node_of_nat {g : Grid α} {i : Nat} {n : Node α} (h : g.nodes[i]? = some n) : g.node (i : Int) = .ok n := by
  obtain ⟨hi, e⟩ := List.getElem?_eq_some_iff.1 h
  unfold Grid.node pyGet normIdx
  simp [hi, e]

theorem node_beyond {g : Grid α} {i : Nat} (h : g.nodes.length ≤ i) : g.node (i : Int) = .error .index := by
  unfold Grid.node pyGet normIdx
  simp [not_lt.2 h]

/-- The values of a row of `grid_info_screen`. -/
theorem screenRow_ok {c : Consts α} {g : Grid α} {i : Nat} {r : List α} : g.screenRow c i = .ok r ↔ ∃ n v, g.nodes[i]? = some n ∧
    n.irreducibleWaterContent = .ok v ∧ r = [n.height, n.temperature, n.density c, n.lwc, v, n.coldContent c, n.porosity, n.refreeze] := by
  unfold screenRow getNodeHeight getNodeTemperature getNodeDensity getNodeLwc getNodeIrreducibleWaterContent getNodeColdContent getNodePorosity
    getNodeRefreeze
  by_cases h : i < g.nodes.length
  · have hn : g.nodes[i]? = some g.nodes[i] := List.getElem?_eq_getElem h
    rw [node_of_nat hn, hn]
    simp only [ok_bind, pure, Except.pure, Option.some.injEq]
    cases hv : (g.nodes[i]).irreducibleWaterContent with
    | error e =>
      refine ⟨fun h => (by cases h), ?_⟩
      rintro ⟨n, v, rfl, h, -⟩; rw [hv] at h; cases h
    | ok v =>
      rw [ok_bind]
      constructor
      · intro h; cases h; exact ⟨_, v, rfl, hv, rfl⟩
      · rintro ⟨n, v', rfl, h, rfl⟩; rw [hv] at h; cases h; rfl
  · rw [node_beyond (not_lt.1 h), List.getElem?_eq_none (not_lt.1 h)]
    refine ⟨fun h => (by cases h), ?_⟩
    rintro ⟨n, v, h, -⟩; cases h

/-- The values of a row of `grid_info`. -/
theorem infoRow_ok {c : Consts α} {g : Grid α} {i : Nat} {r : List α} : g.infoRow c i = .ok r ↔ ∃ n v, g.nodes[i]? = some n ∧
    n.irreducibleWaterContent = .ok v ∧ r = [n.height, n.temperature, n.density c, n.lwc, n.coldContent c, n.porosity, n.refreeze, v] := by
  unfold infoRow getNodeHeight getNodeTemperature getNodeDensity getNodeLwc getNodeIrreducibleWaterContent getNodeColdContent getNodePorosity
    getNodeRefreeze
  by_cases h : i < g.nodes.length
  · have hn : g.nodes[i]? = some g.nodes[i] := List.getElem?_eq_getElem h
    rw [node_of_nat hn, hn]
    simp only [ok_bind, pure, Except.pure, Option.some.injEq]
    cases hv : (g.nodes[i]).irreducibleWaterContent with
    | error e =>
      refine ⟨fun h => (by cases h), ?_⟩
      rintro ⟨n, v, rfl, h, -⟩; rw [hv] at h; cases h
    | ok v =>
      rw [ok_bind]
      constructor
      · intro h; cases h; exact ⟨_, v, rfl, hv, rfl⟩
      · rintro ⟨n, v', rfl, h, rfl⟩; rw [hv] at h; cases h; rfl
  · rw [node_beyond (not_lt.1 h), List.getElem?_eq_none (not_lt.1 h)]
    refine ⟨fun h => (by cases h), ?_⟩
    rintro ⟨n, v, h, -⟩; cases h

/-- **C139, grid_info_screen.** Every printed row belongs to the layer with its number, and holds under every name what the name promises. -/
theorem C139_screen (c : Consts α) (g : Grid α) (k : Int) {i : Nat} {r : List α} (h : (i, r) ∈ (g.gridInfoScreen c k).1) :
    ∃ n, g.nodes[i]? = some n ∧ List.Forall₂ (fun name v => Promised c name n v) screenHeader.tail r := by
  obtain ⟨n, v, h1, h2, rfl⟩ := screenRow_ok.1 (printRows_mem h).2
  refine ⟨n, h1, ?_⟩
  simp [screenHeader, Promised, h2]

/-- **C139, grid_info** (partial): the values and their order; the second of the names below is missing from the row. Missing: that they stand under
their names, which is false (`C139_info_refuted`). -/
theorem C139_info_partial (c : Consts α) (g : Grid α) (k : Int) {i : Nat} {r : List α} (h : (i, r) ∈ (g.gridInfo c k).1) :
    ∃ n, g.nodes[i]? = some n ∧ List.Forall₂ (fun name v => Promised c name n v) (infoHeader.tail.filter (· ≠ "LW [m]")) r := by
  obtain ⟨n, v, h1, h2, rfl⟩ := infoRow_ok.1 (printRows_mem h).2
  refine ⟨n, h1, ?_⟩
  simp [infoHeader, Promised, h2]

/-- **C139, refuted for grid_info.** Whatever the column: no row has as many values as there are names, and under "LW [m]" stands the cold content. -/
theorem C139_info_refuted (c : Consts α) (g : Grid α) (k : Int) {i : Nat} {r : List α} (h : (i, r) ∈ (g.gridInfo c k).1) :
    r.length ≠ infoHeader.tail.length ∧ ∃ n, g.nodes[i]? = some n ∧ infoHeader.tail[4]? = some "LW [m]" ∧ r[4]? = some (n.coldContent c) := by
  obtain ⟨n, v, h1, h2, rfl⟩ := infoRow_ok.1 (printRows_mem h).2
  exact ⟨by simp [infoHeader], n, h1, rfl, rfl⟩

theorem printRows_all {row : Nat → M (List α)} : ∀ {is : List Nat}, (∀ i ∈ is, ∃ r, row i = .ok r) →
    (printRows row is).1.map Prod.fst = is ∧ (printRows row is).2 = none
  | [], _ => ⟨rfl, rfl⟩
  | i :: is, h => by
    obtain ⟨r, hr⟩ := h i List.mem_cons_self
    obtain ⟨h1, h2⟩ := printRows_all (row := row) (is := is) fun j hj => h j (List.mem_cons_of_mem _ hj)
    unfold printRows
    rw [hr]
    exact ⟨by simp [h1], h2⟩

theorem printRows_stop {row : Nat → M (List α)} {a b : List Nat} {j : Nat} {e : Err} (ha : ∀ i ∈ a, ∃ r, row i = .ok r) (hj : row j = .error e) :
    (printRows row (a ++ j :: b)).1.map Prod.fst = a ∧ (printRows row (a ++ j :: b)).2 = some e := by
  induction a with
  | nil => rw [List.nil_append, printRows, hj]; exact ⟨rfl, rfl⟩
  | cons i a ih =>
    obtain ⟨r, hr⟩ := ha i List.mem_cons_self
    obtain ⟨h1, h2⟩ := ih fun j hj => ha j (List.mem_cons_of_mem _ hj)
    rw [List.cons_append, printRows, hr]
    exact ⟨by simp [h1], h2⟩

/-- **C139, rows.** If the retention of every layer is defined and the counter is right: by default all layers are printed, from the surface down; a
number asks for that many layers; more than there are end with an IndexError after all of them, a negative number prints none. Both printers. -/
theorem C139_rows (c : Consts α) (g : Grid α) (hc : g.numberNodes = g.nodes.length) (hv : ∀ n ∈ g.nodes, ∃ v, n.irreducibleWaterContent = .ok v)
    (k : Int) {out : List (Nat × List α) × Option Err} (ho : out = g.gridInfo c k ∨ out = g.gridInfoScreen c k) :
    (k = -999 → out.1.map Prod.fst = List.range g.nodes.length ∧ out.2 = none) ∧
    (0 ≤ k → k ≤ g.nodes.length → out.1.map Prod.fst = List.range k.toNat ∧ out.2 = none) ∧
    ((g.nodes.length : Int) < k → out.1.map Prod.fst = List.range g.nodes.length ∧ out.2 = some .index) ∧
    (k < 0 → k ≠ -999 → out.1 = [] ∧ out.2 = none) := by
  obtain ⟨row, hrow, good, bad⟩ : ∃ row : Nat → M (List α), out = printRows row (List.range (g.rowCount k)) ∧
      (∀ i, i < g.nodes.length → ∃ r, row i = .ok r) ∧ ∀ i, g.nodes.length ≤ i → row i = .error .index := by
    rcases ho with rfl | rfl
    · refine ⟨g.infoRow c, rfl, fun i hi => ?_, fun i hi => ?_⟩
      · obtain ⟨v, h⟩ := hv _ (List.getElem_mem hi)
        exact ⟨_, infoRow_ok.2 ⟨_, v, List.getElem?_eq_getElem hi, h, rfl⟩⟩
      · unfold infoRow getNodeHeight
        rw [node_beyond hi]; rfl
    · refine ⟨g.screenRow c, rfl, fun i hi => ?_, fun i hi => ?_⟩
      · obtain ⟨v, h⟩ := hv _ (List.getElem_mem hi)
        exact ⟨_, screenRow_ok.2 ⟨_, v, List.getElem?_eq_getElem hi, h, rfl⟩⟩
      · unfold screenRow getNodeHeight
        rw [node_beyond hi]; rfl
  subst hrow
  unfold rowCount
  refine ⟨fun h => ?_, fun h1 h2 => ?_, fun h => ?_, fun h1 h2 => ?_⟩
  · rw [if_pos h, hc]
    exact printRows_all fun i hi => good i (by simpa using hi)
  · rw [if_neg (by omega)]
    exact printRows_all fun i hi => good i (by have := List.mem_range.1 hi; omega)
  · rw [if_neg (by omega)]
    have e : List.range k.toNat = List.range g.nodes.length ++ g.nodes.length :: (List.range (k.toNat - g.nodes.length - 1)).map (g.nodes.length + 1 + ·) := by
      have : k.toNat = g.nodes.length + 1 + (k.toNat - g.nodes.length - 1) := by omega
      conv_lhs => rw [this, List.range_add, List.range_succ, List.append_assoc]
      rfl
    rw [e]
    exact printRows_stop (fun i hi => good i (List.mem_range.1 hi)) (bad _ le_rfl)
  · rw [if_neg h2]
    have : k.toNat = 0 := by omega
    rw [this]
    exact ⟨rfl, rfl⟩

/-- **C139, info.** The reported depth is the sum of the heights of all layers, from the surface down, as is `get_total_height`. -/
theorem C139_total (g : Grid α) (hc : g.numberNodes = g.nodes.length) :
    g.info = .ok ((g.nodes.length : Int), (g.nodes.map Node.height).foldl (· + ·) 0) := by
  have key : ∀ (k : Nat), k ≤ g.nodes.length →
      (List.range k).foldlM (fun (t : α) (i : Nat) => do let h ← g.getNodeHeight i; return t + h) 0 =
        (.ok (((g.nodes.take k).map Node.height).foldl (· + ·) 0) : M α) := by
    intro k
    induction k with
    | zero => intro _; rfl
    | succ k ih =>
      intro hk
      have hn : g.nodes[k]? = some g.nodes[k] := List.getElem?_eq_getElem (by omega)
      rw [List.range_succ, List.foldlM_append, ih (by omega), ok_bind, List.take_add_one, hn]
      simp only [List.foldlM_cons, List.foldlM_nil, getNodeHeight, node_of_nat hn, ok_bind, pure, Except.pure, Option.toList_some, List.map_append,
        List.map_cons, List.map_nil, List.foldl_append, List.foldl_cons, List.foldl_nil]
  unfold info
  rw [hc, Int.toNat_natCast, key _ le_rfl, List.take_length]
  rfl

end

/-! ## Examples -/

section
local instance exTranscC139 : Transc ℚ := ⟨id, id, id, id, id, id, id, fun x _ => x, 3⟩

/-- Snow on ice: 0.1 m and 2 m. -/
private def exPrinted : Grid ℚ := ⟨[⟨1/10, 270, 1/50, 3/10, 0⟩, ⟨2, 265, 0, 9/10, 1/1000⟩], 2, 0, 0, 0⟩

/-- Both layers are printed; asking for three prints two and fails; the hypotheses of `C139_rows` hold. -/
example : ((exPrinted.gridInfoScreen exConsts (-999)).1.map fun p => (p.1, p.2.take 2)) = [(0, [1/10, 270]), (1, [2, 265])] ∧
    (exPrinted.gridInfo exConsts 3).1.length = 2 ∧ (exPrinted.gridInfo exConsts 3).2 = some .index ∧ (exPrinted.gridInfo exConsts 1).1.length = 1 ∧
    (exPrinted.gridInfoScreen exConsts (-5)).1 = [] ∧ exPrinted.numberNodes = exPrinted.nodes.length ∧
    (exPrinted.nodes.all fun n => n.irreducibleWaterContent.toOption.isSome) = true := by decide +kernel

/-- In the column "LW [m]" stands something else than the liquid water. -/
example : ((exPrinted.gridInfo exConsts 1).1.map fun p => decide (p.2[4]? = some (1/50 * (1/10)))) = [false] := by decide +kernel

/-- The depth. -/
example : exPrinted.info = .ok (2, 21/10) := by decide +kernel
end

end Cosipy
