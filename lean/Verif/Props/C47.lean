import Verif.Props.C46

/-!
# C47 Which configured output variables can be written

`C47_iff`: exact condition. `C47_default`: sublists of the default atmospheric and internal lists and of the default layer
list without LW can be written. `C47_default_full`: the default layer list cannot. `C47_stops`: in that case no run over a
domain with a glacier cell ends normally. `C47_wrong_list`: a name in a list where the program never stores it is written
as fill values only.
-/

set_option autoImplicit false
set_option linter.unusedSectionVars false

namespace Cosipy
section
variable {α : Type}

/-- The condition on the configured lists, stated on names only: every name has metadata, and no scalar variable has
the name of a layer variable. -/
def NamesOK (metadata atm internal full : List String) (fullField : Bool) : Prop :=
  (∀ n ∈ atm ++ internal, n ∈ metadata ∧ (fullField = true → ∀ m ∈ full, n ≠ "LAYER_" ++ m)) ∧
  (fullField = true → ∀ m ∈ full, "LAYER_" ++ m ∈ metadata)

theorem metadata_not_restart : ∀ m ∈ resultMetadata, m ∉ restartLayers.map ("RES_LAYER_" ++ ·) ∧
    m ∉ restartScalars.map ("RES_" ++ ·) := by decide +kernel

/-- **C47, exact condition.** With freshly created arrays, writing the results succeeds iff all names are fine. -/
theorem C47_iff (io : IOState α) (fill : α) :
    (∃ io', ((io.createResultArrays fill).createRestartArrays fill).writeResults = .ok io') ↔
      NamesOK resultMetadata io.atm io.internal io.full io.fullField := by
  have hat := createArrays_attrs io fill
  have hit : ((io.createResultArrays fill).createRestartArrays fill).resultItems = io.resultItems := rfl
  constructor
  · rintro ⟨io', h⟩
    rw [writeResults_eq_ok, hit] at h
    refine ⟨fun n hn => ?_, fun hf m hm => ?_⟩
    · obtain ⟨a, ha, h1, h2, h3⟩ := h.1 ⟨true, false, n, n⟩ (List.mem_append_left _ (List.mem_map.2 ⟨n, hn, rfl⟩))
      refine ⟨h1, fun hf m hm e => ?_⟩
      have := hat n
      rw [if_neg (metadata_not_restart n h1).1, if_neg (metadata_not_restart n h1).2,
        if_pos ⟨hf, List.mem_map.2 ⟨m, hm, e.symm⟩⟩, ha] at this
      cases this
      cases h3
    · have hmem : (⟨true, true, "LAYER_" ++ m, "LAYER_" ++ m⟩ : WriteItem) ∈ io.resultItems := by
        unfold IOState.resultItems
        rw [if_pos hf]
        exact List.mem_append_right _ (List.mem_map.2 ⟨m, hm, rfl⟩)
      obtain ⟨a, ha, h1, h2, h3⟩ := h.1 _ hmem
      exact h1
  · rintro ⟨h1, h2⟩
    refine ⟨_, writeResults_eq_ok.2 ⟨?_, rfl⟩⟩
    intro w hw
    rw [hit] at hw
    unfold IOState.resultItems at hw
    rcases List.mem_append.1 hw with hw | hw
    · obtain ⟨n, hn, rfl⟩ := List.mem_map.1 hw
      refine ⟨Arr.full (some io.nt) io.ny io.nx none fill, ?_, (h1 n hn).1, rfl, rfl⟩
      have hm := metadata_not_restart n (h1 n hn).1
      show _ = _
      rw [hat, if_neg hm.1, if_neg hm.2, if_neg, if_pos]
      · exact (List.mem_append.1 hn).symm
      · rintro ⟨hf, hc⟩
        obtain ⟨m, hm, e⟩ := List.mem_map.1 hc
        exact (h1 n hn).2 hf m hm e.symm
    · split_ifs at hw with hf
      · obtain ⟨m, hm, rfl⟩ := List.mem_map.1 hw
        refine ⟨Arr.full (some io.nt) io.ny io.nx (some io.maxLayers) fill, ?_, h2 hf m hm, rfl, rfl⟩
        have hm' := metadata_not_restart _ (h2 hf m hm)
        show _ = _
        rw [hat, if_neg hm'.1, if_neg hm'.2, if_pos ⟨hf, List.mem_map.2 ⟨m, hm, rfl⟩⟩]
      · cases hw

/-- Default `output_atm`, config.toml:61. -/
def defaultAtm : String := "T2,RH2,U2,RAIN,SNOWFALL,RRR,PRES,N,G,LWin,LWout,H,LE,B,QRR,Z0,ALBEDO,TS"
/-- Default `output_internal`, config.toml:62. -/
def defaultInternal : String :=
  "ME,MB,surfMB,intMB,EVAPORATION,SUBLIMATION,CONDENSATION,DEPOSITION,surfM,subM,Q,REFREEZE,SNOWHEIGHT,TOTALHEIGHT,LAYERS"
/-- Default `output_full`, config.toml:63. -/
def defaultFull : String := "HEIGHT,RHO,T,LWC,CC,POROSITY,LW,ICE_FRACTION,IRREDUCIBLE_WATER,REFREEZE"

/-- **C47, defaults.** Any selection of names from the default lists can be written, on any domain, except LW among the
layer variables (`LW` only matters when the layers are output). -/
theorem C47_default (io : IOState α) (fill : α) (h1 : ∀ n ∈ io.atm, n ∈ outputVariables defaultAtm.toList)
    (h2 : ∀ n ∈ io.internal, n ∈ outputVariables defaultInternal.toList)
    (h3 : io.fullField = true → ∀ n ∈ io.full, n ∈ outputVariables defaultFull.toList ∧ n ≠ "LW") :
    ∃ io', ((io.createResultArrays fill).createRestartArrays fill).writeResults = .ok io' := by
  rw [C47_iff]
  have key : ∀ n ∈ outputVariables defaultAtm.toList ++ outputVariables defaultInternal.toList,
      n ∈ resultMetadata ∧ ∀ m ∈ outputVariables defaultFull.toList, n ≠ "LAYER_" ++ m := by decide +kernel
  have key2 : ∀ m ∈ outputVariables defaultFull.toList, m ≠ "LW" → "LAYER_" ++ m ∈ resultMetadata := by decide +kernel
  refine ⟨fun n hn => ?_, fun hf m hm => key2 m (h3 hf m hm).1 (h3 hf m hm).2⟩
  have hn' : n ∈ outputVariables defaultAtm.toList ++ outputVariables defaultInternal.toList := by
    rcases List.mem_append.1 hn with h | h
    · exact List.mem_append_left _ (h1 n h)
    · exact List.mem_append_right _ (h2 n h)
  exact ⟨(key n hn').1, fun hf m hm => (key n hn').2 m (h3 hf m hm).1⟩

/-- **C47 fails for the default layer list.** With full field output switched on and the rest of the configuration left
at its defaults, writing raises KeyError on every domain. -/
theorem C47_default_full (maxLayers nt ny nx : Nat) (result restart : Store (Arr α)) (fill : α) :
    (((IOState.init defaultAtm.toList defaultInternal.toList defaultFull.toList true maxLayers nt ny nx result
      restart).createResultArrays fill).createRestartArrays fill).writeResults = .error .key := by
  have hatm : (IOState.init defaultAtm.toList defaultInternal.toList defaultFull.toList true maxLayers nt ny nx result
      restart).atm = ["RAIN", "SNOWFALL", "LWin", "LWout", "H", "LE", "B", "QRR", "Z0", "ALBEDO", "TS"] := by
    simp only [IOState.init]
    decide +kernel
  have hint : (IOState.init defaultAtm.toList defaultInternal.toList defaultFull.toList true maxLayers nt ny nx result
      restart).internal = ["ME", "MB", "surfMB", "intMB", "EVAPORATION", "SUBLIMATION", "CONDENSATION", "DEPOSITION",
        "surfM", "subM", "Q", "REFREEZE", "SNOWHEIGHT", "TOTALHEIGHT", "LAYERS"] := by
    simp only [IOState.init]
    decide +kernel
  have hful : (IOState.init defaultAtm.toList defaultInternal.toList defaultFull.toList true maxLayers nt ny nx result
      restart).full = ["HEIGHT", "RHO", "T", "LWC", "CC", "POROSITY"] ++ ["LW", "ICE_FRACTION", "IRREDUCIBLE_WATER",
        "REFREEZE"] := by
    simp only [IOState.init]
    decide +kernel
  generalize hio : IOState.init defaultAtm.toList defaultInternal.toList defaultFull.toList true maxLayers nt ny nx result
      restart = io at hatm hint hful
  have hff : io.fullField = true := by rw [← hio]; rfl
  -- the same without LW and what follows it succeeds
  have hat := createArrays_attrs io fill
  generalize hs : ((io.createResultArrays fill).createRestartArrays fill).attrs = s at hat
  have hres : ((io.createResultArrays fill).createRestartArrays fill).result = io.result := rfl
  have hmem : ∀ n ∈ io.atm ++ io.internal, ∀ r, ∃ r', writeVariable resultMetadata s true false n n r = .ok r' := by
    intro n hn r
    have hn2 : n ∈ resultMetadata ∧ n ∉ io.full.map ("LAYER_" ++ ·) := by
      rw [hatm, hint] at hn
      rw [hful]
      revert n
      decide +kernel
    refine ⟨_, writeVariable_eq_ok.2 ⟨Arr.full (some io.nt) io.ny io.nx none fill, ?_, hn2.1, rfl, rfl, rfl⟩⟩
    rw [hat, if_neg (metadata_not_restart n hn2.1).1, if_neg (metadata_not_restart n hn2.1).2,
      if_neg (fun e => hn2.2 e.2), if_pos (List.mem_append.1 hn).symm]
  have hlay : ∀ n ∈ io.full, s ("LAYER_" ++ n) = some (Arr.full (some io.nt) io.ny io.nx (some io.maxLayers) fill) := by
    intro n hn
    have hn2 : "LAYER_" ++ n ∉ restartLayers.map ("RES_LAYER_" ++ ·) ∧
        "LAYER_" ++ n ∉ restartScalars.map ("RES_" ++ ·) := by
      rw [hful] at hn
      revert n
      decide +kernel
    rw [hat, if_neg hn2.1, if_neg hn2.2, if_pos ⟨hff, List.mem_map.2 ⟨n, hn, rfl⟩⟩]
  have hfold : ∀ (f : Store (Arr α) → String → M (Store (Arr α))) (ns : List String) (r : Store (Arr α)),
      (∀ n ∈ ns, ∀ r, ∃ r', f r n = .ok r') → ∃ r', ns.foldlM f r = .ok r' := by
    intro f ns
    induction ns with
    | nil => intro r _; exact ⟨r, rfl⟩
    | cons n ns ih =>
      intro r hr
      obtain ⟨r', e⟩ := hr n (List.mem_cons_self ..) r
      rw [List.foldlM_cons, e, ok_bind]
      exact ih r' fun m hm => hr m (List.mem_cons_of_mem _ hm)
  unfold IOState.writeResults
  rw [hs, hres]
  show ((io.atm.foldlM _ _) >>= _) = _
  obtain ⟨r1, e1⟩ := hfold (fun r n => writeVariable resultMetadata s true false n n r) io.atm io.result
    fun n hn r => hmem n (List.mem_append_left _ hn) r
  obtain ⟨r2, e2⟩ := hfold (fun r n => writeVariable resultMetadata s true false n n r) io.internal r1
    fun n hn r => hmem n (List.mem_append_right _ hn) r
  rw [e1, ok_bind]
  show ((io.internal.foldlM _ _) >>= _) = _
  rw [e2, ok_bind]
  show (if io.fullField = true then (io.full.foldlM _ _ >>= _) else _) = _
  rw [if_pos hff, hful, List.foldlM_append]
  obtain ⟨r3, e3⟩ := hfold (fun r n => writeVariable resultMetadata s true true ("LAYER_" ++ n) ("LAYER_" ++ n) r)
    ["HEIGHT", "RHO", "T", "LWC", "CC", "POROSITY"] r2 (by
      intro n hn r
      have hn2 : n ∈ io.full ∧ "LAYER_" ++ n ∈ resultMetadata := by
        rw [hful]; revert n; decide +kernel
      exact ⟨_, writeVariable_eq_ok.2 ⟨_, hlay n hn2.1, hn2.2, rfl, rfl, rfl⟩⟩)
  have e4 : writeVariable resultMetadata s true true ("LAYER_" ++ "LW") ("LAYER_" ++ "LW") r3 = .error .key := by
    unfold writeVariable Store.get
    rw [hlay "LW" (by rw [hful]; decide)]
    rfl
  have e5 : ["LW", "ICE_FRACTION", "IRREDUCIBLE_WATER", "REFREEZE"].foldlM
      (fun r n => writeVariable resultMetadata s true true ("LAYER_" ++ n) ("LAYER_" ++ n) r) r3 = .error .key := by
    rw [List.foldlM_cons, e4]
    rfl
  rw [e3, ok_bind, e5]
  rfl

/-- **C47, consequence for the program.** If some configured name cannot be written, no run over a domain with a glacier
cell ends normally, whatever the workers return. -/
theorem C47_stops {sc : StakeCfg} {io : IOState α} {fill : α} {g n : Nat → Nat → Bool}
    {worker : Nat → Nat → M (List (PyVal α))} {order : List (Nat × Nat) → List (Nat × Nat)} (ho : ∀ l, (order l).Perm l)
    (hg : ∃ y x, y < io.ny ∧ x < io.nx ∧ g y x = true)
    (hbad : ¬ NamesOK resultMetadata io.atm io.internal io.full io.fullField) {s : IOState α × StakeState α} :
    runCosipy sc io fill g n worker order ≠ .ok s := by
  intro h
  apply hbad
  rw [← C47_iff io fill]
  unfold runCosipy at h
  rw [bind_eq_ok] at h
  obtain ⟨l, ht, h⟩ := h
  rw [collectAll_eq_ok] at h
  have h1 := h.1
  obtain ⟨y, x, hc⟩ := hg
  have hmem : (y, x) ∈ order l := by
    rw [(ho l).mem_iff]
    rcases C46_tasks io.ny io.nx g n with ⟨l', e, _, hl, _⟩ | ⟨e, _⟩
    · rw [ht] at e; cases e; exact (hl y x).2 hc
    · rw [ht] at e; cases e
  rcases hol : order l with _ | ⟨c, cs⟩
  · rw [hol] at hmem; cases hmem
  · rw [hol, List.map_cons, List.foldlM_cons, bind_eq_ok] at h1
    obtain ⟨io1, h1, _⟩ := h1
    rw [bind_eq_ok] at h1
    obtain ⟨res, _, h1⟩ := h1
    rw [collectIO_eq_ok] at h1
    obtain ⟨_, _, _, _, _, _, hcw, _⟩ := h1
    exact ⟨_, writeResults_eq_ok.2 ⟨hcw.1, rfl⟩⟩

theorem parseCalls_wanted {io : IOState α} {args : List (PyVal α)} : ∀ {cs as}, parseCalls io args cs = some as →
    ∀ p ∈ as, ∃ c ∈ cs, io.wants c.1 c.2.1 = true ∧ p.1 = attrName c.1 c.2.1
  | [], as, h, p, hp => by cases h; cases hp
  | c :: cs, as, h, p, hp => by
    unfold parseCalls at h
    split_ifs at h with hw
    · split at h
      · rw [Option.map_eq_some_iff] at h
        obtain ⟨as', h, rfl⟩ := h
        rcases List.mem_cons.1 hp with rfl | hp
        · exact ⟨c, List.mem_cons_self .., hw, rfl⟩
        · obtain ⟨c', h1, h2⟩ := parseCalls_wanted h p hp
          exact ⟨c', List.mem_cons_of_mem _ h1, h2⟩
      · cases h
    · obtain ⟨c', h1, h2⟩ := parseCalls_wanted h p hp
      exact ⟨c', List.mem_cons_of_mem _ h1, h2⟩

/-- **C47, wrong list.** A name with metadata in a list in which the program never stores it (for example SNOWHEIGHT in
the atmospheric list) is written to the file without complaint, but holds nothing but fill values. -/
theorem C47_wrong_list {sc : StakeCfg} {io : IOState α} (hio : ∀ k, io.attrs k = none) {fill : α}
    {g n : Nat → Nat → Bool} {worker : Nat → Nat → M (List (PyVal α))}
    (hw : ∀ y x res, worker y x = .ok res → ResultOf res y x)
    {order : List (Nat × Nat) → List (Nat × Nat)} (ho : ∀ l, (order l).Perm l) {s : IOState α × StakeState α}
    (h : runCosipy sc io fill g n worker order = .ok s) {name : String} (hm : name ∈ io.atm ++ io.internal)
    (hun : ∀ c ∈ copyCalls, attrName c.1 c.2.1 = name → io.wants c.1 c.2.1 = false)
    (hg : ∃ y x, y < io.ny ∧ x < io.nx ∧ g y x = true) :
    ∃ a : Arr α, s.1.result name = some a ∧ ∀ t y x k, a.val t y x k = fill := by
  have hok : NamesOK resultMetadata io.atm io.internal io.full io.fullField := by
    by_contra hbad
    exact C47_stops ho hg hbad h
  have hmeta := (hok.1 name hm).1
  unfold runCosipy at h
  rw [bind_eq_ok] at h
  obtain ⟨l, ht, h⟩ := h
  rw [collectAll_eq_ok] at h
  have h1 := h.1
  have hnd : (order l).Nodup := (ho l).nodup_iff.2 (submitTasks_nodup ht)
  have ha0 : ∃ a0, ((io.createResultArrays fill).createRestartArrays fill).attrs name = some a0 := by
    rw [createArrays_attrs, if_neg (metadata_not_restart name hmeta).1, if_neg (metadata_not_restart name hmeta).2]
    by_cases hc : io.fullField = true ∧ name ∈ io.full.map ("LAYER_" ++ ·)
    · rw [if_pos hc]; exact ⟨_, rfl⟩
    · rw [if_neg hc, if_pos (List.mem_append.1 hm).symm]; exact ⟨_, rfl⟩
  obtain ⟨a0, ha0⟩ := ha0
  obtain ⟨a, ha, k1, k2⟩ := collect_val hw hnd h1 ha0
  refine ⟨a, ?_, ?_⟩
  · obtain ⟨y, x, hc⟩ := hg
    have hne : (order l).map (fun c => worker c.1 c.2) ≠ [] := by
      intro e
      rw [List.map_eq_nil_iff] at e
      have : (y, x) ∈ order l := by
        rw [(ho l).mem_iff]
        rcases C46_tasks io.ny io.nx g n with ⟨l', e, _, hl, _⟩ | ⟨e, _⟩
        · rw [ht] at e; cases e; exact (hl y x).2 hc
        · rw [ht] at e; cases e
      rw [e] at this
      cases this
    rw [(collect_datasets hne h1).1]
    unfold overwrite
    rw [if_pos]
    · exact ha
    · show name ∈ io.resultItems.map (·.name)
      unfold IOState.resultItems
      rw [List.map_append, List.mem_append, List.map_map]
      exact Or.inl (List.mem_map.2 ⟨name, hm, rfl⟩)
  · intro t y x k
    by_cases hc : (y, x) ∈ order l
    · obtain ⟨res, as, r1, r2, r3, r4⟩ := k2 (y, x) hc
      rw [createArrays_parse] at r3
      have hnone : as.lookup name = none := by
        cases hl : as.lookup name with
        | none => rfl
        | some v =>
          exfalso
          have hv := mem_of_lookup hl
          unfold parseRes at r3
          split at r3
          · simp only [Option.bind_eq_some_iff, Option.map_eq_some_iff, Prod.mk.injEq] at r3
            obtain ⟨as1, p1, as2, p2, -, -, rfl⟩ := r3
            rcases List.mem_append.1 hv with hv | hv
            · obtain ⟨c, c1, c2, c3⟩ := parseCalls_wanted p1 _ hv
              rw [hun c c1 c3.symm] at c2
              cases c2
            · have : name ∈ restartNames.map ("RES_" ++ ·) := by
                rw [← parseRestart_keys p2]
                exact List.mem_map.2 ⟨_, hv, rfl⟩
              have key : ∀ m ∈ resultMetadata, m ∉ restartNames.map ("RES_" ++ ·) := by decide +kernel
              exact key name hmeta this
          · cases r3
      have := r4 t k
      simp only [hnone] at this
      rw [this]
      exact createArrays_fill hio ha0 ..
    · rw [k1 (y, x) hc]
      exact createArrays_fill hio ha0 ..

end

/-- Non-vacuity of `C47_default`: the example lists. -/
example : (∀ n ∈ exIO.atm, n ∈ outputVariables defaultAtm.toList) ∧
    (∀ n ∈ exIO.internal, n ∈ outputVariables defaultInternal.toList) ∧
    (∀ n ∈ exIO.full, n ∈ outputVariables defaultFull.toList ∧ n ≠ "LW") := by decide +kernel

/-- Non-vacuity of `C47_stops`: the default layer list. -/
example : ¬ NamesOK resultMetadata exIO.atm exIO.internal (outputVariables defaultFull.toList) true := by
  rintro ⟨_, h⟩
  have : "LAYER_" ++ "LW" ∉ resultMetadata := by decide +kernel
  exact this (h rfl "LW" (by decide +kernel))

/-- Non-vacuity of `C47_wrong_list`: SNOWHEIGHT requested among the atmospheric variables. -/
example : (runCosipy ⟨false, false, false⟩ { exIO with atm := ["TS", "SNOWHEIGHT"], internal := ["ME"] } 9 exMask
      (fun _ _ => false) (fun y x => .ok (exRes y x)) List.reverse).toOption.isSome = true ∧
    (∀ c ∈ copyCalls, attrName c.1 c.2.1 = "SNOWHEIGHT" →
      IOState.wants { exIO with atm := ["TS", "SNOWHEIGHT"], internal := ["ME"] } c.1 c.2.1 = false) := by
  refine ⟨by decide +kernel, by decide +kernel⟩

end Cosipy
