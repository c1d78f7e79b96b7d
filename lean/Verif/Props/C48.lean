import Verif.Lemmas.Collect
import Verif.Lemmas.ExampleIO

/-!
# C48 Worker results are stored under their own name
-/

set_option autoImplicit false
set_option linter.unusedSectionVars false

namespace Cosipy
section
variable {α : Type}

/-- The worker's own array for an output variable: `_NAME`, `_LAYER_NAME` for layer variables; the number of layers is
output as `LAYERS`. -/
def ownArray : OutKind → String → String
  | .full, n => "_LAYER_" ++ n
  | _, n => if n = "LAYERS" then "_NLAYERS" else "_" ++ n

theorem sourceIdx_own : ∀ c ∈ copyCalls, coreReturn[sourceIdx c.2.2]? = some (ownArray c.1 c.2.1) := by decide +kernel

/-- **C48.** For every tuple of values a worker returns and every variable that is to be output: once the result has been
collected, the variable's array (and the result dataset) holds, at the worker's cell, the value at the position where the
kernel returned its own array of that name; the other cells are as before. -/
theorem C48_stored {io io' : IOState α} {res : List (PyVal α)} (h : collectIO io res = .ok io') {y x : Nat}
    (hc : ResultOf res y x) {kind : OutKind} {name param : String} (hm : (kind, name, param) ∈ copyCalls)
    (hw : io.wants kind name = true) :
    ∃ (i : Nat) (v : Val α) (a a' : Arr α), coreReturn[i]? = some (ownArray kind name) ∧ res[i]? = some (.arr v) ∧
      io.attrs (attrName kind name) = some a ∧ io'.attrs (attrName kind name) = some a' ∧
      io'.result (attrName kind name) = some a' ∧
      (∀ t k, a'.val t y x k = v.val t k) ∧ ∀ t y' x' k, ¬ (y' = y ∧ x' = x) → a'.val t y' x' k = a.val t y' x' k := by
  rw [collectIO_eq_ok] at h
  obtain ⟨hl, y1, x1, as, hp, hf, hcw, rfl⟩ := h
  obtain ⟨rfl, rfl⟩ := parseRes_cell hc hp
  obtain ⟨v, h1, h2⟩ := parseRes_value hp hm hw hl
  have hmem : (attrName kind name, v) ∈ as := mem_of_lookup h2
  obtain ⟨a, ha, _⟩ := hf _ hmem
  have ha' : (io.next y1 x1 as).attrs (attrName kind name) = some (a.put y1 x1 v) := by
    show putAll y1 x1 as io.attrs (attrName kind name) = _
    unfold putAll
    simp only [ha, h2, Option.map_some]
  refine ⟨_, v, a, a.put y1 x1 v, sourceIdx_own _ hm, h1, ha, ha', ?_, ?_, ?_⟩
  · show overwrite id _ _ _ _ = _
    unfold overwrite
    rw [if_pos]
    · exact ha'
    · unfold IOState.resultItems
      cases kind with
      | full =>
        simp only [IOState.wants, Bool.and_eq_true] at hw
        rw [if_pos hw.1]
        simp only [List.map_append, List.mem_append, List.map_map]
        exact Or.inr (List.mem_map.2 ⟨name, by simpa using hw.2, rfl⟩)
      | atm =>
        simp only [List.map_append, List.mem_append, List.map_map]
        exact Or.inl (Or.inl (List.mem_map.2 ⟨name, by simpa [IOState.wants] using hw, rfl⟩))
      | internal =>
        simp only [List.map_append, List.mem_append, List.map_map]
        exact Or.inl (Or.inr (List.mem_map.2 ⟨name, by simpa [IOState.wants] using hw, rfl⟩))
  · intro t k; simp [Arr.put]
  · intro t y' x' k hne; simp [Arr.put, hne]

/-- **C48, restart data.** The same for the restart data: it comes from the position of `RESTART`. -/
theorem C48_restart {io io' : IOState α} {res : List (PyVal α)} (h : collectIO io res = .ok io') {y x : Nat}
    (hc : ResultOf res y x) {name : String} (hn : name ∈ restartNames) :
    ∃ (i : Nat) (d : Store (Val α)) (v : Val α) (a : Arr α), coreReturn[i]? = some "RESTART" ∧ res[i]? = some (.dataset d) ∧ d name = some v ∧
      io'.restart name = some a ∧ ∀ t k, a.val t y x k = v.val t k := by
  rw [collectIO_eq_ok] at h
  obtain ⟨hl, y1, x1, as, hp, hf, hcw, rfl⟩ := h
  obtain ⟨rfl, rfl⟩ := parseRes_cell hc hp
  obtain ⟨d, v, h1, h2, h3⟩ := parseRes_restart hp hl hn
  have hex : ∃ a, io.attrs ("RES_" ++ name) = some a := by
    have hw : ∀ n ∈ restartNames, ∃ w ∈ restartItems, w.attr = "RES_" ++ n := by decide +kernel
    obtain ⟨w, hw, e⟩ := hw name hn
    obtain ⟨a, ha, _⟩ := hcw.2 w hw
    exact ⟨a, by rw [← e]; exact ha⟩
  obtain ⟨a, ha⟩ := hex
  refine ⟨2, d, v, a.put y1 x1 v, rfl, h1, h2, ?_, ?_⟩
  · show overwrite _ _ _ _ _ = _
    unfold overwrite
    rw [if_pos ((by decide +kernel : ∀ n ∈ restartNames, n ∈ restartItems.map (·.name)) name hn)]
    show putAll y1 x1 as io.attrs ("RES_" ++ name) = _
    unfold putAll
    simp only [ha, h3, Option.map_some]
  · intro t k; simp [Arr.put]

/-- **C48, complete.** Every output variable with metadata of its own is stored from some worker array, and every array
the worker fills during the time loop is returned; nothing is returned twice. -/
theorem C48_complete : (∀ n ∈ metaResultOwn, ∃ c ∈ copyCalls, c.1 ≠ .full ∧ c.2.1 = n) ∧
    (∀ p ∈ coreStores, p.1 ∈ coreReturn) ∧ coreReturn.Nodup ∧ (coreStores.map Prod.fst).Nodup := by
  decide +kernel

/-- **C48, coupled mode.** The tuple of a coupled step has the same layout: wherever it holds a value, this is what the
standalone run stores, at each time step, in the array it returns at that position. -/
theorem C48_coupled : coreReturnCoupled.length = coreReturn.length ∧
    ∀ n a, (some n, a) ∈ coreReturnCoupled.zip coreReturn →
      ∃ expr, (a, expr) ∈ coreStores ∧ (expr = n ∨ (n, expr) ∈ coreStoresCoupled) := by
  have h : coreReturnCoupled.length = coreReturn.length ∧ ∀ q ∈ coreReturnCoupled.zip coreReturn, q.1 = none ∨
      ∃ p ∈ coreStores, p.1 = q.2 ∧ (some p.2 = q.1 ∨ ∃ r ∈ coreStoresCoupled, some r.1 = q.1 ∧ r.2 = p.2) := by
    decide +kernel
  refine ⟨h.1, fun n a hna => ?_⟩
  rcases h.2 _ hna with h | ⟨⟨p1, p2⟩, hp, rfl, h⟩
  · cases h
  · refine ⟨p2, hp, ?_⟩
    rcases h with h | ⟨⟨r1, r2⟩, hr, h1, rfl⟩
    · exact Or.inl (Option.some.inj h)
    · cases h1; exact Or.inr hr

end

/-- Non-vacuity: a result is collected and wants both surface and layer variables. -/
example : (collectIO ((exIO.createResultArrays 9).createRestartArrays 9) (exRes 1 0)).toOption.isSome = true ∧
    ResultOf (exRes 1 0) 1 0 ∧ exIO.wants .atm "LE" = true ∧ exIO.wants .full "RHO" = true ∧
    exIO.wants .internal "LAYERS" = true := by
  refine ⟨by decide +kernel, ⟨rfl, rfl⟩, by decide +kernel, by decide +kernel, by decide +kernel⟩

end Cosipy
