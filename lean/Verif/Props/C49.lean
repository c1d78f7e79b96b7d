import Verif.Lemmas.Config

/-!
# C49 Loading the configuration

`C49_last`: every key ends with its last value in the file, other attributes are kept. `C49_correct`: what the correction
changes. `C49_idempotent`. `C49_coupled_partial`: coupled mode ends with consistent settings if the keys concerned occur
once. `C49_refuted`: otherwise it need not.
-/

set_option autoImplicit false
set_option linter.unusedSectionVars false

namespace Cosipy

/-- **C49, last value.** After loading a file the attribute `k` is the last value of `k` in the file; attributes whose
key is not in the file are untouched. -/
theorem C49_last {c : Toml} {s s' : Store CfgVal} (h : setConfigValues s c = .ok s') (k : String) :
    (∀ v, LastValue c.flat k v → s' k = some v) ∧ ((∀ p ∈ c.flat, p.1 ≠ k) → s' k = s k) := by
  rw [setConfigValues_eq_ok h]
  exact ⟨fun v hv => foldl_set_last hv, fun ha => foldl_set_absent ha⟩

/-- Loading fails exactly for files with a key outside every table. -/
theorem C49_fails_iff (c : Toml) (s : Store CfgVal) :
    (∃ s', setConfigValues s c = .ok s') ↔ ∀ n v, (n, TopVal.scalar v) ∉ c := by
  induction c generalizing s with
  | nil => exact ⟨fun _ _ _ => List.not_mem_nil, fun _ => ⟨s, rfl⟩⟩
  | cons e c ih =>
    obtain ⟨m, t | w⟩ := e
    · have : setConfigValues s ((m, .table t) :: c) =
          setConfigValues (t.foldl (fun cls kv => cls.set kv.1 kv.2) s) c := by
        unfold setConfigValues; rw [List.foldlM_cons]; rfl
      rw [this, ih]
      constructor
      · intro h n v hm
        rcases List.mem_cons.1 hm with hm | hm
        · cases hm
        · exact h n v hm
      · intro h n v hm
        exact h n v (List.mem_cons_of_mem _ hm)
    · constructor
      · rintro ⟨s', h⟩
        unfold setConfigValues at h
        rw [List.foldlM_cons] at h
        cases h
      · intro h
        exact (h m w (List.mem_cons_self ..)).elim

/-- How the correction changes entries. -/
theorem configCorrect_item {c c' : Toml} (h : configCorrect c = .ok c') :
    ∃ wrf coupled workers, c.item "DIMENSIONS" "WRF" = .ok wrf ∧ c.item "DIMENSIONS" "WRF_X_CSPY" = .ok coupled ∧
      c.item "PARALLELIZATION" "workers" = .ok workers ∧
      (∀ n k, c'.item n k =
        if n = "PARALLELIZATION" ∧ k = "workers" ∧ workers.eqZero = true then .ok .none
        else if n = "FULL_FIELDS" ∧ k = "full_field" ∧ coupled.truthy = true then .ok (.bool true)
        else if n = "DIMENSIONS" ∧ k = "easting" ∧ wrf.truthy = true then .ok (.str "west_east")
        else if n = "DIMENSIONS" ∧ k = "northing" ∧ wrf.truthy = true then .ok (.str "south_north")
        else c.item n k) ∧
      (c.Valid → c'.Valid) ∧
      (∀ j m, c.OnlyIn j m → (j = "workers" → m = "PARALLELIZATION") → (j = "full_field" → m = "FULL_FIELDS") →
        (j = "easting" → m = "DIMENSIONS") → (j = "northing" → m = "DIMENSIONS") → c'.OnlyIn j m) := by
  unfold configCorrect at h
  simp only [bind_eq_ok] at h
  obtain ⟨wrf, h1, c1, h2, coupled, h3, c2, h4, workers, h5, h6⟩ := h
  have s1 : (∀ n k, c1.item n k =
        if n = "DIMENSIONS" ∧ k = "easting" ∧ wrf.truthy = true then .ok (.str "west_east")
        else if n = "DIMENSIONS" ∧ k = "northing" ∧ wrf.truthy = true then .ok (.str "south_north")
        else c.item n k) ∧ (c.Valid → c1.Valid) ∧
      (∀ j m, c.OnlyIn j m → (j = "easting" → m = "DIMENSIONS") → (j = "northing" → m = "DIMENSIONS") →
        c1.OnlyIn j m) := by
    unfold correctWrf at h2
    split_ifs at h2 with hw
    · rw [bind_eq_ok] at h2
      obtain ⟨c0, g1, g2⟩ := h2
      refine ⟨fun n k => ?_, fun hv => Toml.setItem_valid (Toml.setItem_valid hv g1) g2, fun j m ho a1 a2 => ?_⟩
      · rw [Toml.item_setItem g2, Toml.item_setItem g1]
        simp only [hw, and_true]
      · refine Toml.setItem_onlyIn (Toml.setItem_onlyIn ho g1 ?_) g2 ?_
        · by_cases e : j = "northing"
          · exact Or.inr (a2 e).symm
          · exact Or.inl (Ne.symm e)
        · by_cases e : j = "easting"
          · exact Or.inr (a1 e).symm
          · exact Or.inl (Ne.symm e)
    · cases h2
      exact ⟨fun n k => by simp [hw], id, fun j m ho _ _ => ho⟩
  have s2 : (∀ n k, c2.item n k =
        if n = "FULL_FIELDS" ∧ k = "full_field" ∧ coupled.truthy = true then .ok (.bool true) else c1.item n k) ∧
      (c1.Valid → c2.Valid) ∧ (∀ j m, c1.OnlyIn j m → (j = "full_field" → m = "FULL_FIELDS") → c2.OnlyIn j m) := by
    unfold correctCoupled at h4
    split_ifs at h4 with hw
    · refine ⟨fun n k => ?_, fun hv => Toml.setItem_valid hv h4, fun j m ho a1 => ?_⟩
      · rw [Toml.item_setItem h4]; simp only [hw, and_true]
      · refine Toml.setItem_onlyIn ho h4 ?_
        by_cases e : j = "full_field"
        · exact Or.inr (a1 e).symm
        · exact Or.inl (Ne.symm e)
    · cases h4
      exact ⟨fun n k => by simp [hw], id, fun j m ho _ => ho⟩
  have s3 : (∀ n k, c'.item n k =
        if n = "PARALLELIZATION" ∧ k = "workers" ∧ workers.eqZero = true then .ok .none else c2.item n k) ∧
      (c2.Valid → c'.Valid) ∧ (∀ j m, c2.OnlyIn j m → (j = "workers" → m = "PARALLELIZATION") → c'.OnlyIn j m) := by
    unfold correctWorkers at h6
    split_ifs at h6 with hw
    · refine ⟨fun n k => ?_, fun hv => Toml.setItem_valid hv h6, fun j m ho a1 => ?_⟩
      · rw [Toml.item_setItem h6]; simp only [hw, and_true]
      · refine Toml.setItem_onlyIn ho h6 ?_
        by_cases e : j = "workers"
        · exact Or.inr (a1 e).symm
        · exact Or.inl (Ne.symm e)
    · cases h6
      exact ⟨fun n k => by simp [hw], id, fun j m ho _ => ho⟩
  refine ⟨wrf, coupled, workers, h1, ?_, ?_, ?_, fun hv => s3.2.1 (s2.2.1 (s1.2.1 hv)), ?_⟩
  · rw [s1.1] at h3; simpa using h3
  · rw [s2.1, s1.1] at h5; simpa using h5
  · intro n k
    rw [s3.1, s2.1, s1.1]
  · intro j m ho a1 a2 a3 a4
    exact s3.2.2 j m (s2.2.2 j m (s1.2.2 j m ho a3 a4) a2) a1

/-- **C49, correction.** The entries of the corrected configuration, for every table that has the required keys: WRF
input sets the names of the dimensions, coupled mode switches the full fields on, zero workers become None; every other
entry is as in the file. -/
theorem C49_correct {c c' : Toml} (h : configCorrect c = .ok c') :
    ∃ wrf coupled workers, c.item "DIMENSIONS" "WRF" = .ok wrf ∧ c.item "DIMENSIONS" "WRF_X_CSPY" = .ok coupled ∧
      c.item "PARALLELIZATION" "workers" = .ok workers ∧ ∀ n k, c'.item n k =
        if n = "PARALLELIZATION" ∧ k = "workers" ∧ workers.eqZero = true then .ok .none
        else if n = "FULL_FIELDS" ∧ k = "full_field" ∧ coupled.truthy = true then .ok (.bool true)
        else if n = "DIMENSIONS" ∧ k = "easting" ∧ wrf.truthy = true then .ok (.str "west_east")
        else if n = "DIMENSIONS" ∧ k = "northing" ∧ wrf.truthy = true then .ok (.str "south_north")
        else c.item n k := by
  obtain ⟨a, b, d, h1, h2, h3, h4, _⟩ := configCorrect_item h
  exact ⟨a, b, d, h1, h2, h3, h4⟩

theorem setItem_same {c : Toml} {n k : String} {v : CfgVal} (h : c.item n k = .ok v) : c.setItem n k v = .ok c := by
  obtain ⟨t, h1, h2⟩ := Toml.item_eq_ok.1 h
  rw [Toml.setItem_eq_ok]
  exact ⟨t, h1, by rw [Dict.set_same h2, Dict.set_same h1]⟩

/-- **C49, idempotence.** Correcting a corrected configuration changes nothing; the same for the constants. -/
theorem C49_idempotent {c c' : Toml} (h : configCorrect c = .ok c') : configCorrect c' = .ok c' := by
  obtain ⟨wrf, coupled, workers, h1, h2, h3, h4, _⟩ := configCorrect_item h
  have i1 : c'.item "DIMENSIONS" "WRF" = .ok wrf := by rw [h4]; simpa using h1
  have i2 : c'.item "DIMENSIONS" "WRF_X_CSPY" = .ok coupled := by rw [h4]; simpa using h2
  have i3 : c'.item "PARALLELIZATION" "workers" = .ok (if workers.eqZero then .none else workers) := by
    rw [h4]
    cases hz : workers.eqZero
    · simpa using h3
    · simp
  have e1 : correctWrf c' wrf = .ok c' := by
    unfold correctWrf
    cases hw : wrf.truthy
    · rfl
    · rw [if_pos rfl, setItem_same, ok_bind, setItem_same]
      · rw [h4]; simp [hw]
      · rw [h4]; simp [hw]
  have e2 : correctCoupled c' coupled = .ok c' := by
    unfold correctCoupled
    cases hw : coupled.truthy
    · rfl
    · rw [if_pos rfl, setItem_same]
      rw [h4]; simp [hw]
  have e3 : correctWorkers c' (if workers.eqZero then .none else workers) = .ok c' := by
    unfold correctWorkers
    cases hz : workers.eqZero
    · simp [hz]
    · rfl
  unfold configCorrect
  rw [i1, ok_bind, e1, ok_bind, i2, ok_bind, e2, ok_bind, i3, ok_bind, e3]

/-- The same for the constants. -/
theorem C49_constants_idempotent {v : CfgVal} {c c' : Toml} (h : constantsCorrect v c = .ok c') :
    constantsCorrect v c' = .ok c' := by
  unfold constantsCorrect at h ⊢
  split_ifs at h ⊢ with hv
  · rw [bind_eq_ok] at h
    obtain ⟨c1, h1, h2⟩ := h
    rw [setItem_same, ok_bind, setItem_same]
    · rw [Toml.item_setItem h2]; simp
    · rw [Toml.item_setItem h2, Toml.item_setItem h1]; simp
  · rfl

/-- **C49, coupled mode, the part that holds.** For files in which full_field, WRF_X_CSPY, albedo_method and
stability_correction each occur in their own table only: whenever the loaded configuration says coupled, full fields are
on and the constants loaded afterwards use Oerlemans98 and MO. Missing: without the uniqueness hypotheses the claim is
false (`C49_refuted`). -/
theorem C49_coupled_partial {c k : Toml} {s s' z z' : Store CfgVal} (hc : c.Valid) (hk : k.Valid)
    (o1 : c.OnlyIn "full_field" "FULL_FIELDS") (o2 : c.OnlyIn "WRF_X_CSPY" "DIMENSIONS")
    (o3 : k.OnlyIn "albedo_method" "PARAMETERIZATIONS") (o4 : k.OnlyIn "stability_correction" "PARAMETERIZATIONS")
    (h : configLoad s c = .ok s') (h' : constantsLoad s' z k = .ok z') {v : CfgVal}
    (hv : s' "WRF_X_CSPY" = some v) (ht : v.truthy = true) :
    s' "full_field" = some (.bool true) ∧ z' "albedo_method" = some (.str "Oerlemans98") ∧
      z' "stability_correction" = some (.str "MO") := by
  unfold configLoad at h
  rw [bind_eq_ok] at h
  obtain ⟨c1, h1, h2⟩ := h
  obtain ⟨wrf, coupled, workers, i1, i2, i3, i4, i5, i6⟩ := configCorrect_item h1
  have hcv : v = coupled := by
    have : c1.item "DIMENSIONS" "WRF_X_CSPY" = .ok coupled := by rw [i4]; simpa using i2
    have := Toml.load_item (i5 hc) (i6 _ _ o2 (by decide) (by decide) (by decide) (by decide)) this h2
    rw [hv] at this
    exact Option.some.inj this
  subst hcv
  refine ⟨Toml.load_item (i5 hc) (i6 _ _ o1 (by decide) (by decide) (by decide) (by decide)) ?_ h2, ?_⟩
  · rw [i4]; simp [ht]
  · unfold constantsLoad constantsCorrect at h'
    simp only [bind_eq_ok, Store.get_eq_ok] at h'
    obtain ⟨v', g1, k2, g2, g3⟩ := h'
    rw [hv] at g1
    cases g1
    rw [if_pos ht, bind_eq_ok] at g2
    obtain ⟨k1, f1, f2⟩ := g2
    have hval := Toml.setItem_valid (Toml.setItem_valid hk f1) f2
    constructor
    · refine Toml.load_item hval (Toml.setItem_onlyIn (Toml.setItem_onlyIn o3 f1 (Or.inr rfl)) f2 (Or.inr rfl)) ?_ g3
      rw [Toml.item_setItem f2, Toml.item_setItem f1]; simp
    · refine Toml.load_item hval (Toml.setItem_onlyIn (Toml.setItem_onlyIn o4 f1 (Or.inr rfl)) f2 (Or.inr rfl)) ?_ g3
      rw [Toml.item_setItem f2]; simp

/-- A configuration that says coupled and repeats `full_field` in a later table. -/
def repeatedConfig : Toml :=
  [("DIMENSIONS", .table [("WRF", .bool false), ("WRF_X_CSPY", .bool true)]),
   ("PARALLELIZATION", .table [("workers", .int 4)]),
   ("FULL_FIELDS", .table [("full_field", .bool false)]),
   ("MINE", .table [("full_field", .bool false)])]

/-- **C49 is false without uniqueness**: a valid configuration in coupled mode that ends without full fields. -/
theorem C49_refuted : ∃ (c : Toml) (s' : Store CfgVal), c.Valid ∧ configLoad (fun _ => none) c = .ok s' ∧
    s' "WRF_X_CSPY" = some (.bool true) ∧ s' "full_field" = some (.bool false) := by
  refine ⟨repeatedConfig, _, ⟨by decide, ?_⟩, rfl, by decide +kernel, by decide +kernel⟩
  intro n t h
  simp only [repeatedConfig, List.mem_cons, Prod.mk.injEq, TopVal.table.injEq, List.not_mem_nil, or_false] at h
  rcases h with ⟨_, rfl⟩ | ⟨_, rfl⟩ | ⟨_, rfl⟩ | ⟨_, rfl⟩ <;> decide

/-- Executable form of `OnlyIn`. -/
def onlyInB (c : Toml) (k n : String) : Bool :=
  c.all fun e => match e.2 with
    | .table t => e.1 == n || !(t.map Prod.fst).contains k
    | .scalar _ => true

theorem onlyIn_of_bool {c : Toml} {k n : String} (h : onlyInB c k n = true) : c.OnlyIn k n := by
  intro m t hm hne hk
  unfold onlyInB at h
  have := List.all_eq_true.1 h _ hm
  simp only [Bool.or_eq_true, beq_iff_eq, Bool.not_eq_true', List.contains_eq_mem, decide_eq_false_iff_not] at this
  exact this.elim hne fun h => h hk

/-- Executable form of `Valid`. -/
def validB (c : Toml) : Bool :=
  decide (c.map Prod.fst).Nodup && c.all fun e => match e.2 with
    | .table t => decide (t.map Prod.fst).Nodup
    | .scalar _ => true

theorem valid_of_bool {c : Toml} (h : validB c = true) : c.Valid := by
  unfold validB at h
  rw [Bool.and_eq_true, decide_eq_true_eq] at h
  refine ⟨h.1, fun n t hm => ?_⟩
  have := List.all_eq_true.1 h.2 _ hm
  simpa using this

/-- **C49, shipped files.** Every key of the shipped config.toml and constants.toml occurs once, so
`C49_coupled_partial` applies to them whatever values are edited in place. -/
theorem C49_shipped : shippedConfig.Valid ∧ shippedConstants.Valid ∧ (shippedConfig.flat.map Prod.fst).Nodup ∧
    (shippedConstants.flat.map Prod.fst).Nodup := by
  refine ⟨valid_of_bool (by decide +kernel), valid_of_bool (by decide +kernel), by decide +kernel, by decide +kernel⟩

/-- **C49, Slurm.** A memory amount per process overrides the total memory by the product with the number of cores and
changes nothing else; zero leaves the file's value. -/
theorem C49_slurm {c c' : Toml} (h : slurmCorrect c = .ok c') :
    ∃ mpp, c.item "OVERRIDES" "memory_per_process" = .ok mpp ∧
      ((mpp.truthy = false ∧ c' = c) ∨
       ∃ m n, mpp = .int m ∧ m ≠ 0 ∧ c.item "MEMORY" "cores" = .ok (.int n) ∧
        ∀ t k, c'.item t k = if t = "MEMORY" ∧ k = "memory" then .ok (.str (toString (m * n) ++ "GB")) else c.item t k) := by
  unfold slurmCorrect at h
  rw [bind_eq_ok] at h
  obtain ⟨mpp, h1, h2⟩ := h
  refine ⟨mpp, h1, ?_⟩
  split_ifs at h2 with ht
  · right
    rw [bind_eq_ok] at h2
    obtain ⟨cores, h3, h4⟩ := h2
    split at h4
    · next m n =>
      refine ⟨m, n, rfl, ?_, h3, fun t k => Toml.item_setItem h4 t k⟩
      simpa [CfgVal.truthy] using ht
    · cases h4
  · left
    cases h2
    exact ⟨by simpa using ht, rfl⟩

/-- **C49, what counts as zero and as set.** `workers` is replaced if it is one of the values Python holds equal to zero:
`0`, `0.0` and `false`. A mode is switched on by every value but Python's empty ones. -/
theorem C49_values (v : CfgVal) :
    (v.eqZero = true ↔ v = .bool false ∨ v = .int 0 ∨ ∃ e, v = .float 0 e) ∧
    (v.truthy = false ↔ v = .none ∨ v = .bool false ∨ v = .int 0 ∨ (∃ e, v = .float 0 e) ∨ v = .str "" ∨ v = .list []) := by
  cases v <;> simp [CfgVal.eqZero, CfgVal.truthy]

/-- Non-vacuity: the shipped files with coupled mode switched on meet the hypotheses of `C49_coupled_partial`. -/
example : ∃ (c : Toml) (s' z' : Store CfgVal), c.Valid ∧ c.OnlyIn "full_field" "FULL_FIELDS" ∧
    c.OnlyIn "WRF_X_CSPY" "DIMENSIONS" ∧ shippedConstants.OnlyIn "albedo_method" "PARAMETERIZATIONS" ∧
    shippedConstants.OnlyIn "stability_correction" "PARAMETERIZATIONS" ∧ configLoad (fun _ => none) c = .ok s' ∧
    constantsLoad s' (fun _ => none) shippedConstants = .ok z' ∧ s' "WRF_X_CSPY" = some (.bool true) ∧
    s' "workers" = some .none :=
  ⟨shippedConfig.map fun e => if e.1 = "DIMENSIONS" then
      (e.1, .table [("WRF", .bool true), ("WRF_X_CSPY", .bool true), ("northing", .str "lat"), ("easting", .str "lon")])
      else e, _, _,
    valid_of_bool (by decide +kernel), onlyIn_of_bool (by decide +kernel), onlyIn_of_bool (by decide +kernel),
    onlyIn_of_bool (by decide +kernel), onlyIn_of_bool (by decide +kernel), rfl, rfl, by decide +kernel,
    by decide +kernel⟩

end Cosipy
