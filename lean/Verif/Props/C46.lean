import Verif.Props.C45
import Verif.Props.C48

/-!
# C46 Exactly the glacier cells are simulated and written

`C46_tasks`: the submitted tasks. `C46_written`, `C46_restart`: contents of the result and restart variables after the
loop. `C46_no_glacier`: without any glacier cell no output variable is written at all.
-/

set_option autoImplicit false
set_option linter.unusedSectionVars false

namespace Cosipy
section
variable {α : Type}

/-- **C46, tasks.** Unless a glacier cell has NaN input, exactly one task is submitted for every cell of the domain with
MASK == 1 and none for any other; otherwise the program stops with SystemExit before any result is collected. -/
theorem C46_tasks (ny nx : Nat) (g n : Nat → Nat → Bool) :
    (∃ l, submitTasks ny nx g n = .ok l ∧ l.Nodup ∧ (∀ y x, (y, x) ∈ l ↔ y < ny ∧ x < nx ∧ g y x = true) ∧
      ∀ y x, y < ny → x < nx → g y x = true → n y x = false) ∨
    (submitTasks ny nx g n = .error .exit ∧ ∃ y x, y < ny ∧ x < nx ∧ g y x = true ∧ n y x = true) := by
  have herr : ∀ (cs acc : List (Nat × Nat)) e, cs.foldlM (fun acc c =>
      if g c.1 c.2 then if n c.1 c.2 then (.error .exit : M (List (Nat × Nat))) else .ok (acc ++ [c]) else .ok acc) acc
        = .error e → e = .exit ∧ ∃ c ∈ cs, g c.1 c.2 = true ∧ n c.1 c.2 = true := by
    intro cs
    induction cs with
    | nil => intro acc e h; cases h
    | cons c cs ih =>
      intro acc e h
      rw [List.foldlM_cons, bind_eq_error] at h
      rcases h with h | ⟨acc', _, h⟩
      · split_ifs at h with h1 h2
        exact ⟨(Except.error.inj h).symm, c, List.mem_cons_self .., h1, h2⟩
      · obtain ⟨h1, c', hc', h2⟩ := ih acc' e h
        exact ⟨h1, c', List.mem_cons_of_mem _ hc', h2⟩
  rcases h : submitTasks ny nx g n with e | l
  · right
    obtain ⟨rfl, ⟨y, x⟩, hm, h1, h2⟩ := herr _ _ _ h
    simp only [List.mem_flatMap, List.mem_range, List.mem_map] at hm
    obtain ⟨y', hy, x', hx, e⟩ := hm
    cases e
    exact ⟨rfl, y, x, hy, hx, h1, h2⟩
  · left
    refine ⟨l, rfl, submitTasks_nodup h, ?_, (submitTasks_eq_ok.1 h).2⟩
    intro y x
    rw [(submitTasks_eq_ok.1 h).1, List.mem_filter]
    simp only [List.mem_flatMap, List.mem_range, List.mem_map]
    constructor
    · rintro ⟨⟨y', hy, x', hx, e⟩, hg⟩; cases e; exact ⟨hy, hx, hg⟩
    · rintro ⟨hy, hx, hg⟩; exact ⟨⟨y, hy, x, hx, rfl⟩, hg⟩

/-- Values of a named array after collecting the results of distinct cells. -/
theorem collect_val {worker : Nat → Nat → M (List (PyVal α))} (hw : ∀ y x res, worker y x = .ok res → ResultOf res y x)
    {key : String} : ∀ {l : List (Nat × Nat)} {io io' : IOState α} {a : Arr α}, l.Nodup →
    (l.map fun c => worker c.1 c.2).foldlM (fun io r => r >>= collectIO io) io = .ok io' → io.attrs key = some a →
    ∃ a', io'.attrs key = some a' ∧ (∀ c ∉ l, ∀ t k, a'.val t c.1 c.2 k = a.val t c.1 c.2 k) ∧
      ∀ c ∈ l, ∃ res as, worker c.1 c.2 = .ok res ∧ res.length = mainUnpack.length ∧
        parseRes io res = some (c.1, c.2, as) ∧ ∀ t k, a'.val t c.1 c.2 k = match as.lookup key with
          | some v => v.val t k
          | none => a.val t c.1 c.2 k := by
  intro l
  induction l with
  | nil =>
    intro io io' a _ h ha
    rw [List.map_nil, List.foldlM_nil, pure_eq_ok] at h
    subst h
    exact ⟨a, ha, fun _ _ _ _ => rfl, fun c hc => (List.not_mem_nil hc).elim⟩
  | cons c l ih =>
    intro io io' a hn h ha
    rw [List.nodup_cons] at hn
    rw [List.map_cons, List.foldlM_cons, bind_eq_ok] at h
    obtain ⟨io1, h1, h2⟩ := h
    rw [bind_eq_ok] at h1
    obtain ⟨res, hres, h1⟩ := h1
    rw [collectIO_eq_ok] at h1
    obtain ⟨hl, y, x, as, hp, hf, hcw, rfl⟩ := h1
    obtain ⟨rfl, rfl⟩ := parseRes_cell (hw _ _ _ hres) hp
    let a1 : Arr α := match as.lookup key with
      | some v => a.put c.1 c.2 v
      | none => a
    have ha1 : (io.next c.1 c.2 as).attrs key = some a1 := by
      show putAll c.1 c.2 as io.attrs key = _
      unfold putAll
      simp only [ha, Option.map_some]
      rfl
    obtain ⟨a', ha', k1, k2⟩ := ih hn.2 h2 ha1
    have hother : ∀ d : Nat × Nat, d ≠ c → ∀ t k, a1.val t d.1 d.2 k = a.val t d.1 d.2 k := by
      intro d hd t k
      show (match as.lookup key with | some v => a.put c.1 c.2 v | none => a).val t d.1 d.2 k = _
      cases as.lookup key with
      | none => rfl
      | some v => exact if_neg fun e => hd (Prod.ext e.1 e.2)
    refine ⟨a', ha', ?_, ?_⟩
    · intro d hd t k
      rw [List.mem_cons, not_or] at hd
      rw [k1 d hd.2, hother d hd.1]
    · intro d hd
      rcases List.mem_cons.1 hd with rfl | hd
      · refine ⟨res, as, hres, hl, hp, fun t k => ?_⟩
        rw [k1 _ hn.1]
        show (match as.lookup key with | some v => a.put d.1 d.2 v | none => a).val t d.1 d.2 k = _
        cases as.lookup key with
        | none => rfl
        | some v => exact if_pos ⟨rfl, rfl⟩
      · obtain ⟨res', as', r1, r2, r3, r4⟩ := k2 d hd
        rw [parseRes_next] at r3
        refine ⟨res', as', r1, r2, r3, fun t k => ?_⟩
        rw [r4]
        have : d ≠ c := fun e => hn.1 (e ▸ hd)
        cases as'.lookup key with
        | none => exact hother d this t k
        | some v => rfl

/-- The datasets after collecting at least one result are those of the final arrays. -/
theorem collect_datasets : ∀ {done : List (M (List (PyVal α)))} {io io' : IOState α}, done ≠ [] →
    done.foldlM (fun io r => r >>= collectIO io) io = .ok io' →
    io'.result = overwrite id (io.resultItems.map (·.name)) io'.attrs io.result ∧
    io'.restart = overwrite ("RES_" ++ ·) (restartItems.map (·.name)) io'.attrs io.restart := by
  intro done
  induction done with
  | nil => intro _ _ h; exact absurd rfl h
  | cons r done ih =>
    intro io io' _ h
    rw [List.foldlM_cons, bind_eq_ok] at h
    obtain ⟨io1, h1, h2⟩ := h
    rw [bind_eq_ok] at h1
    obtain ⟨res, rfl, h1⟩ := h1
    rw [collectIO_eq_ok] at h1
    obtain ⟨hl, y, x, as, hp, hf, hcw, rfl⟩ := h1
    by_cases hd : done = []
    · subst hd
      rw [List.foldlM_nil, pure_eq_ok] at h2
      subst h2
      exact ⟨rfl, rfl⟩
    · obtain ⟨k1, k2⟩ := ih hd h2
      rw [k1, k2]
      exact ⟨overwrite_overwrite .., overwrite_overwrite ..⟩

theorem foldl_set {β : Type} (f : String → String) (b : β) : ∀ (ns : List String) (s : Store β) (k : String),
    (ns.foldl (fun s n => s.set (f n) b) s) k = if k ∈ ns.map f then some b else s k
  | [], s, k => by simp
  | n :: ns, s, k => by
    rw [List.foldl_cons, foldl_set f b ns]
    simp only [List.map_cons, List.mem_cons]
    by_cases h1 : k ∈ ns.map f
    · rw [if_pos h1, if_pos (Or.inr h1)]
    · rw [if_neg h1]
      unfold Store.set
      by_cases h2 : k = f n
      · rw [if_pos h2, if_pos (Or.inl h2)]
      · rw [if_neg h2, if_neg (not_or.2 ⟨h2, h1⟩)]

/-- The arrays before the first result. -/
theorem createArrays_attrs (io : IOState α) (fill : α) (k : String) :
    ((io.createResultArrays fill).createRestartArrays fill).attrs k =
      if k ∈ restartLayers.map ("RES_LAYER_" ++ ·) then some (Arr.full none io.ny io.nx (some io.maxLayers) fill)
      else if k ∈ restartScalars.map ("RES_" ++ ·) then some (Arr.full none io.ny io.nx none fill)
      else if io.fullField = true ∧ k ∈ io.full.map ("LAYER_" ++ ·) then
        some (Arr.full (some io.nt) io.ny io.nx (some io.maxLayers) fill)
      else if k ∈ io.internal ∨ k ∈ io.atm then some (Arr.full (some io.nt) io.ny io.nx none fill)
      else io.attrs k := by
  have e1 : ∀ (ns : List String) (s : Store (Arr α)) (b : Arr α), ns.foldl (fun s n => s.set n b) s =
      fun k => if k ∈ ns then some b else s k := by
    intro ns s b; funext k; have := foldl_set (fun n => n) b ns s k; simpa using this
  unfold IOState.createRestartArrays IOState.createResultArrays
  cases hf : io.fullField
  · simp only [foldl_set, e1, Bool.false_eq_true, if_false, false_and]
    by_cases h1 : k ∈ io.internal <;> by_cases h2 : k ∈ io.atm <;> simp [h1, h2]
  · simp only [foldl_set, e1, if_true, true_and]
    by_cases h1 : k ∈ io.internal <;> by_cases h2 : k ∈ io.atm <;> simp [h1, h2]

/-- All arrays are created with the fill value. -/
theorem createArrays_fill {io : IOState α} (hio : ∀ k, io.attrs k = none) {fill : α} {k : String} {a : Arr α}
    (h : ((io.createResultArrays fill).createRestartArrays fill).attrs k = some a) (t y x l : Nat) :
    a.val t y x l = fill := by
  rw [createArrays_attrs] at h
  split_ifs at h
  all_goals first
    | (cases h; rfl)
    | (rw [hio] at h; cases h)

theorem createArrays_wanted {io : IOState α} {fill : α} {kind : OutKind} {name : String}
    (hw : io.wants kind name = true) :
    ∃ a, ((io.createResultArrays fill).createRestartArrays fill).attrs (attrName kind name) = some a := by
  rw [createArrays_attrs]
  split_ifs with h1 h2 h3 h4
  · exact ⟨_, rfl⟩
  · exact ⟨_, rfl⟩
  · exact ⟨_, rfl⟩
  · exact ⟨_, rfl⟩
  · exfalso
    cases kind with
    | full =>
      simp only [IOState.wants, Bool.and_eq_true] at hw
      exact h3 ⟨hw.1, List.mem_map.2 ⟨name, by simpa using hw.2, rfl⟩⟩
    | atm => exact h4 (Or.inr (by simpa [IOState.wants, attrName] using hw))
    | internal => exact h4 (Or.inl (by simpa [IOState.wants, attrName] using hw))

theorem createArrays_parse (io : IOState α) (fill : α) (res : List (PyVal α)) :
    parseRes ((io.createResultArrays fill).createRestartArrays fill) res = parseRes io res := by
  have : ∀ args cs, parseCalls ((io.createResultArrays fill).createRestartArrays fill) args cs = parseCalls io args cs :=
    fun args cs => parseCalls_attrs io _ args cs
  unfold parseRes
  simp only [this]

/-- **C46, contents.** When the program has run through, on any domain and with any schedule: the array of every variable
to be output holds, at every glacier cell, what the worker of that cell returned under that name, and the fill value
at every other cell. -/
theorem C46_written {sc : StakeCfg} {io : IOState α} (hio : ∀ k, io.attrs k = none) {fill : α} {g n : Nat → Nat → Bool}
    {worker : Nat → Nat → M (List (PyVal α))} (hw : ∀ y x res, worker y x = .ok res → ResultOf res y x)
    {order : List (Nat × Nat) → List (Nat × Nat)} (ho : ∀ l, (order l).Perm l) {s : IOState α × StakeState α}
    (h : runCosipy sc io fill g n worker order = .ok s) {kind : OutKind} {name param : String}
    (hm : (kind, name, param) ∈ copyCalls) (hwant : io.wants kind name = true) :
    ∃ a : Arr α, s.1.attrs (attrName kind name) = some a ∧
      (∀ y x, y < io.ny → x < io.nx → g y x = true → ∃ (res : List (PyVal α)) (i : Nat) (v : Val α),
        worker y x = .ok res ∧ coreReturn[i]? = some (ownArray kind name) ∧ res[i]? = some (.arr v) ∧
        ∀ t k, a.val t y x k = v.val t k) ∧
      (∀ y x t k, ¬ (y < io.ny ∧ x < io.nx ∧ g y x = true) → a.val t y x k = fill) ∧
      ((∃ y x, y < io.ny ∧ x < io.nx ∧ g y x = true) → s.1.result (attrName kind name) = some a) := by
  unfold runCosipy at h
  rw [bind_eq_ok] at h
  obtain ⟨l, ht, h⟩ := h
  rw [collectAll_eq_ok] at h
  have h1 := h.1
  have hmem : ∀ y x, (y, x) ∈ order l ↔ y < io.ny ∧ x < io.nx ∧ g y x = true := by
    intro y x
    rw [(ho l).mem_iff]
    rcases C46_tasks io.ny io.nx g n with ⟨l', e, _, hl, _⟩ | ⟨e, _⟩
    · rw [ht] at e; cases e; exact hl y x
    · rw [ht] at e; cases e
  have hnd : (order l).Nodup := (ho l).nodup_iff.2 (submitTasks_nodup ht)
  obtain ⟨a0, ha0⟩ := createArrays_wanted (fill := fill) hwant
  obtain ⟨a, ha, k1, k2⟩ := collect_val hw hnd h1 ha0
  refine ⟨a, ha, ?_, ?_, ?_⟩
  · intro y x hy hx hg
    obtain ⟨res, as, r1, r2, r3, r4⟩ := k2 (y, x) ((hmem y x).2 ⟨hy, hx, hg⟩)
    rw [createArrays_parse] at r3
    obtain ⟨v, v1, v2⟩ := parseRes_value r3 hm hwant r2
    refine ⟨res, _, v, r1, sourceIdx_own _ hm, v1, fun t k => ?_⟩
    rw [r4 t k]
    simp only at v2
    rw [v2]
  · intro y x t k hno
    rw [k1 (y, x) (fun hc => hno ((hmem y x).1 hc))]
    exact createArrays_fill hio ha0 ..
  · rintro ⟨y, x, hc⟩
    have hne : (order l).map (fun c => worker c.1 c.2) ≠ [] := by
      intro e
      rw [List.map_eq_nil_iff] at e
      have := (hmem y x).2 hc
      rw [e] at this
      cases this
    rw [(collect_datasets hne h1).1]
    unfold overwrite
    rw [if_pos]
    · exact ha
    · show attrName kind name ∈ (io.resultItems.map (·.name))
      unfold IOState.resultItems
      cases kind with
      | full =>
        simp only [IOState.wants, Bool.and_eq_true] at hwant
        rw [if_pos hwant.1]
        simp only [List.map_append, List.mem_append, List.map_map]
        exact Or.inr (List.mem_map.2 ⟨name, by simpa using hwant.2, rfl⟩)
      | atm =>
        simp only [List.map_append, List.mem_append, List.map_map]
        exact Or.inl (Or.inl (List.mem_map.2 ⟨name, by simpa [IOState.wants] using hwant, rfl⟩))
      | internal =>
        simp only [List.map_append, List.mem_append, List.map_map]
        exact Or.inl (Or.inr (List.mem_map.2 ⟨name, by simpa [IOState.wants] using hwant, rfl⟩))

/-- **C46, restart file.** The same for every restart variable. -/
theorem C46_restart {sc : StakeCfg} {io : IOState α} (hio : ∀ k, io.attrs k = none) {fill : α} {g n : Nat → Nat → Bool}
    {worker : Nat → Nat → M (List (PyVal α))} (hw : ∀ y x res, worker y x = .ok res → ResultOf res y x)
    {order : List (Nat × Nat) → List (Nat × Nat)} (ho : ∀ l, (order l).Perm l) {s : IOState α × StakeState α}
    (h : runCosipy sc io fill g n worker order = .ok s) {name : String} (hn : name ∈ restartNames)
    (hex : ∃ y x, y < io.ny ∧ x < io.nx ∧ g y x = true) :
    ∃ a : Arr α, s.1.restart name = some a ∧
      (∀ y x, y < io.ny → x < io.nx → g y x = true → ∃ (res : List (PyVal α)) (d : Store (Val α)) (v : Val α),
        worker y x = .ok res ∧ res[2]? = some (.dataset d) ∧ d name = some v ∧ ∀ t k, a.val t y x k = v.val t k) ∧
      (∀ y x t k, ¬ (y < io.ny ∧ x < io.nx ∧ g y x = true) → a.val t y x k = fill) := by
  unfold runCosipy at h
  rw [bind_eq_ok] at h
  obtain ⟨l, ht, h⟩ := h
  rw [collectAll_eq_ok] at h
  have h1 := h.1
  have hmem : ∀ y x, (y, x) ∈ order l ↔ y < io.ny ∧ x < io.nx ∧ g y x = true := by
    intro y x
    rw [(ho l).mem_iff]
    rcases C46_tasks io.ny io.nx g n with ⟨l', e, _, hl, _⟩ | ⟨e, _⟩
    · rw [ht] at e; cases e; exact hl y x
    · rw [ht] at e; cases e
  have hnd : (order l).Nodup := (ho l).nodup_iff.2 (submitTasks_nodup ht)
  have hcr : ∃ a, ((io.createResultArrays fill).createRestartArrays fill).attrs ("RES_" ++ name) = some a := by
    rw [createArrays_attrs]
    have : ∀ n ∈ restartNames, "RES_" ++ n ∈ restartLayers.map ("RES_LAYER_" ++ ·) ∨
        "RES_" ++ n ∈ restartScalars.map ("RES_" ++ ·) := by decide +kernel
    by_cases hL : "RES_" ++ name ∈ restartLayers.map ("RES_LAYER_" ++ ·)
    · rw [if_pos hL]; exact ⟨_, rfl⟩
    · rw [if_neg hL, if_pos ((this name hn).resolve_left hL)]; exact ⟨_, rfl⟩
  obtain ⟨a0, ha0⟩ := hcr
  obtain ⟨a, ha, k1, k2⟩ := collect_val hw hnd h1 ha0
  refine ⟨a, ?_, ?_, ?_⟩
  · obtain ⟨y, x, hc⟩ := hex
    have hne : (order l).map (fun c => worker c.1 c.2) ≠ [] := by
      intro e
      rw [List.map_eq_nil_iff] at e
      have := (hmem y x).2 hc
      rw [e] at this
      cases this
    rw [(collect_datasets hne h1).2]
    unfold overwrite
    rw [if_pos ((by decide +kernel : ∀ n ∈ restartNames, n ∈ restartItems.map (·.name)) name hn)]
    exact ha
  · intro y x hy hx hg
    obtain ⟨res, as, r1, r2, r3, r4⟩ := k2 (y, x) ((hmem y x).2 ⟨hy, hx, hg⟩)
    obtain ⟨d, v, v1, v2, v3⟩ := parseRes_restart r3 r2 hn
    refine ⟨res, d, v, r1, v1, v2, fun t k => ?_⟩
    rw [r4 t k, v3]
  · intro y x t k hno
    rw [k1 (y, x) (fun hc => hno ((hmem y x).1 hc))]
    exact createArrays_fill hio ha0 ..

/-- The sizes of an array along time, y, x and layer. -/
def axes (a : Arr α) : Option Nat × Nat × Nat × Option Nat := (a.time, a.ny, a.nx, a.layer)

theorem axes_eq {a : Arr α} {t : Option Nat} {y x : Nat} {l : Option Nat} (h : axes a = (t, y, x, l)) :
    a.time = t ∧ a.ny = y ∧ a.nx = x ∧ a.layer = l := by
  simpa [axes] using h

/-- Collecting results does not change the sizes of an array. -/
theorem collect_axes {key : String} : ∀ {done : List (M (List (PyVal α)))} {io io' : IOState α} {a : Arr α},
    done.foldlM (fun io r => r >>= collectIO io) io = .ok io' → io.attrs key = some a →
    ∃ a', io'.attrs key = some a' ∧ axes a' = axes a := by
  intro done
  induction done with
  | nil =>
    intro io io' a h ha
    rw [List.foldlM_nil, pure_eq_ok] at h
    subst h
    exact ⟨a, ha, rfl⟩
  | cons r done ih =>
    intro io io' a h ha
    rw [List.foldlM_cons, bind_eq_ok] at h
    obtain ⟨io1, h1, h2⟩ := h
    rw [bind_eq_ok] at h1
    obtain ⟨res, rfl, h1⟩ := h1
    rw [collectIO_eq_ok] at h1
    obtain ⟨hl, y, x, as, hp, hf, hcw, rfl⟩ := h1
    have ha1 : (io.next y x as).attrs key = some (match as.lookup key with
      | some v => a.put y x v
      | none => a) := by
      show putAll y x as io.attrs key = _
      unfold putAll
      simp only [ha, Option.map_some]
      rfl
    obtain ⟨a', ha', e⟩ := ih h2 ha1
    refine ⟨a', ha', e.trans ?_⟩
    cases as.lookup key <;> rfl

/-- **C46, sizes.** The array of every variable to be output is as large as the domain: one value for each time, row and
column, and for the layer variables one for each of at most `max_layers` layers. Those for a restart are without time. -/
theorem C46_sizes {sc : StakeCfg} {io : IOState α} {fill : α} {g n : Nat → Nat → Bool}
    {worker : Nat → Nat → M (List (PyVal α))} {order : List (Nat × Nat) → List (Nat × Nat)} {s : IOState α × StakeState α}
    (h : runCosipy sc io fill g n worker order = .ok s) :
    (∀ kind name param, (kind, name, param) ∈ copyCalls → io.wants kind name = true →
      ∃ a : Arr α, s.1.attrs (attrName kind name) = some a ∧ a.time = some io.nt ∧ a.ny = io.ny ∧ a.nx = io.nx ∧
        a.layer = if kind = .full then some io.maxLayers else none) ∧
    (∀ name ∈ restartScalars, ∃ a : Arr α, s.1.attrs ("RES_" ++ name) = some a ∧ a.time = none ∧ a.ny = io.ny ∧
      a.nx = io.nx ∧ a.layer = none) ∧
    (∀ name ∈ restartLayers, ∃ a : Arr α, s.1.attrs ("RES_LAYER_" ++ name) = some a ∧ a.time = none ∧ a.ny = io.ny ∧
      a.nx = io.nx ∧ a.layer = some io.maxLayers) := by
  unfold runCosipy at h
  rw [bind_eq_ok] at h
  obtain ⟨l, ht, h⟩ := h
  rw [collectAll_eq_ok] at h
  have h1 := h.1
  refine ⟨fun kind name param hm hw => ?_, fun name hn => ?_, fun name hn => ?_⟩
  · have hnr : ∀ e ∈ copyCalls, attrName e.1 e.2.1 ∉ restartLayers.map ("RES_LAYER_" ++ ·) ∧
        attrName e.1 e.2.1 ∉ restartScalars.map ("RES_" ++ ·) ∧
        (e.1 ≠ .full → e.2.1.toList.take 6 ≠ "LAYER_".toList) := by decide +kernel
    obtain ⟨n1, n2, n3⟩ := hnr _ hm
    have h0 := createArrays_attrs io fill (attrName kind name)
    rw [if_neg n1, if_neg n2] at h0
    cases kind with
    | full =>
      simp only [IOState.wants, Bool.and_eq_true] at hw
      rw [if_pos ⟨hw.1, List.mem_map.2 ⟨name, by simpa using hw.2, rfl⟩⟩] at h0
      obtain ⟨a, ha, e⟩ := collect_axes h1 h0
      exact ⟨a, ha, axes_eq e⟩
    | atm =>
      have hf : ¬ (io.fullField = true ∧ attrName .atm name ∈ io.full.map ("LAYER_" ++ ·)) := by
        rintro ⟨-, hc⟩
        obtain ⟨m, -, e⟩ := List.mem_map.1 hc
        refine n3 (fun h => by cases h) ?_
        rw [show name = "LAYER_" ++ m from e.symm, String.toList_append]
        rfl
      rw [if_neg hf, if_pos (Or.inr (by simpa [IOState.wants, attrName] using hw))] at h0
      obtain ⟨a, ha, e⟩ := collect_axes h1 h0
      exact ⟨a, ha, axes_eq e⟩
    | internal =>
      have hf : ¬ (io.fullField = true ∧ attrName .internal name ∈ io.full.map ("LAYER_" ++ ·)) := by
        rintro ⟨-, hc⟩
        obtain ⟨m, -, e⟩ := List.mem_map.1 hc
        refine n3 (fun h => by cases h) ?_
        rw [show name = "LAYER_" ++ m from e.symm, String.toList_append]
        rfl
      rw [if_neg hf, if_pos (Or.inl (by simpa [IOState.wants, attrName] using hw))] at h0
      obtain ⟨a, ha, e⟩ := collect_axes h1 h0
      exact ⟨a, ha, axes_eq e⟩
  · have h0 := createArrays_attrs io fill ("RES_" ++ name)
    have hn1 : ∀ n ∈ restartScalars, "RES_" ++ n ∉ restartLayers.map ("RES_LAYER_" ++ ·) := by decide +kernel
    rw [if_neg (hn1 _ hn), if_pos (List.mem_map.2 ⟨name, hn, rfl⟩)] at h0
    obtain ⟨a, ha, e⟩ := collect_axes h1 h0
    exact ⟨a, ha, axes_eq e⟩
  · have h0 := createArrays_attrs io fill ("RES_LAYER_" ++ name)
    rw [if_pos (List.mem_map.2 ⟨name, hn, rfl⟩)] at h0
    obtain ⟨a, ha, e⟩ := collect_axes h1 h0
    exact ⟨a, ha, axes_eq e⟩

/-- **C46, no glacier.** Without a glacier cell the program runs through, but adds no variable to the result and restart
datasets: the files have none of the configured output variables. -/
theorem C46_no_glacier {sc : StakeCfg} {io : IOState α} {fill : α} {g n : Nat → Nat → Bool}
    {worker : Nat → Nat → M (List (PyVal α))} {order : List (Nat × Nat) → List (Nat × Nat)} (ho : ∀ l, (order l).Perm l)
    (hno : ∀ y x, y < io.ny → x < io.nx → g y x = false) :
    ∃ s, runCosipy sc io fill g n worker order = .ok s ∧ s.1.result = io.result ∧ s.1.restart = io.restart := by
  have ht : submitTasks io.ny io.nx g n = .ok [] := by
    rw [submitTasks_eq_ok]
    refine ⟨?_, fun y x hy hx hg => ?_⟩
    · symm
      rw [List.filter_eq_nil_iff]
      rintro ⟨y, x⟩ hm
      simp only [List.mem_flatMap, List.mem_range, List.mem_map] at hm
      obtain ⟨y', hy, x', hx, e⟩ := hm
      cases e
      simp [hno y x hy hx]
    · rw [hno y x hy hx] at hg; cases hg
  refine ⟨((io.createResultArrays fill).createRestartArrays fill, ⟨[], fun _ => none⟩), ?_, rfl, rfl⟩
  unfold runCosipy
  rw [ht, ok_bind, List.perm_nil.1 (ho [])]
  rfl

end

/-- Non-vacuity: the example domain has glacier and other cells, starts without arrays, and runs through. -/
example : (runCosipy ⟨false, false, false⟩ exIO 9 exMask (fun _ _ => false) (fun y x => .ok (exRes y x)) List.reverse).toOption.isSome = true ∧
    (∀ k, exIO.attrs k = none) ∧ exMask 0 1 = true ∧ exMask 1 1 = false ∧ exIO.wants .full "REFREEZE" = true ∧
    ("LAYER_IF" ∈ restartNames) := by
  refine ⟨by decide +kernel, fun _ => rfl, rfl, rfl, by decide +kernel, by decide +kernel⟩

/-- `C46_sizes`: the sizes in the example. -/
example : (runCosipy ⟨false, false, false⟩ exIO 9 exMask (fun _ _ => false) (fun y x => .ok (exRes y x)) List.reverse).toOption.bind
    (fun s => (s.1.attrs "LAYER_REFREEZE").map axes) = some (some exIO.nt, exIO.ny, exIO.nx, some exIO.maxLayers) := by
  decide +kernel

end Cosipy
