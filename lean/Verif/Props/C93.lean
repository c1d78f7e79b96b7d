import Verif.Model.StakeFiles
import Verif.Props.C60
import Verif.Props.C69

/-!
# C93 — the stake files compare every stake with the simulation of its cell

`stake_simulations.csv` has, for every stake on a glacier cell and every time of measurement, the simulated cumulative
balance or snow height of that cell at that time (`C93_simulations_partial`); `stake_statistics.csv` has one row for every
such stake, the score of its measurements against that column (`C93_statistics`). A stake that is on no glacier cell
shows its own measurements as if they were simulated (`C93_elsewhere_refuted`).
-/

set_option autoImplicit false
set_option linter.unusedSectionVars false

namespace Cosipy
open Program

section
variable {K : Type} [Field K] [LinearOrder K] [IsStrictOrderedRing K] [Transc K] [HasTrunc K] {τ : Type} [DecidableEq τ]

/-- The simulated values at the times of the measurements: missing if the time is not simulated; otherwise the sum of the
balances of the steps up to that time, or the snow height after the step. -/
def Simulated (sv : Solvers K) (fuel : Nat) (c : Consts K) (r : RunCfg K) (fill : K) (s0 : SimState K)
    (fs : List (Forcing K)) (os : List (StepOut K)) (times index : List τ) (obs : String) (col : List (Option K)) : Prop :=
  col.length = index.length ∧ ∀ (j : Nat) (u : τ), index[j]? = some u →
    (u ∉ times → col[j]? = some none) ∧
    ∀ k : Nat, times[k]? = some u → ∃ st o v, run sv fuel c r s0 (fs.take (k + 1)) = .ok (st, os.take (k + 1)) ∧
      os[k]? = some o ∧ col[j]? = some (some v) ∧ (obs = "mb" → v = ((os.take (k + 1)).map StepOut.mb).sum) ∧
      (obs = "snowheight" → SeriesMeans c fill "SNOWHEIGHT" st o v)

variable {sv : Solvers K} {fuel : Nat} {c : Consts K} {r : RunCfg K} {cfg : SelectCfg K} {fill : K} {times : List τ}

/-- The loop with its records has the stake table of the loop with stakes. -/
theorem runRows_stakes {names : List String} {index : List τ} : ∀ {steps : List (τ × Forcing K)} {s s' : SimState K}
    {df df' : SimTable K} {rows : List (Row K)},
    runRows sv fuel c r fill names index s df steps = .ok (s', rows, df') →
    ∃ os, runStakes sv fuel c r names index s df steps = .ok (s', os, df') := by
  intro steps
  induction steps with
  | nil => intro s s' df df' rows h; rw [runRows] at h; cases h; exact ⟨[], rfl⟩
  | cons p rest ih =>
    intro s s' df df' rows h
    obtain ⟨u, f⟩ := p
    rw [runRows, bind_eq_ok] at h
    obtain ⟨⟨s1, o1⟩, h1, h⟩ := h
    simp only [bind_eq_ok] at h
    obtain ⟨df1, h2, row, h3, ⟨s2, rows2, df2⟩, h4, h⟩ := h
    rw [pure_eq_ok] at h
    cases h
    obtain ⟨os, e⟩ := ih h4
    refine ⟨o1 :: os, ?_⟩
    rw [runStakes, h1, ok_bind]
    simp only [h2, e, ok_bind]
    rfl

theorem recordStakes_length {names : List String} {index : List τ} {df df1 : SimTable K} {t : τ} {s : SimState K}
    (h : recordStakes c names index df t s = .ok df1) (h1 : df.mb.length = index.length)
    (h2 : df.snowheight.length = index.length) :
    df1.mb.length = index.length ∧ df1.snowheight.length = index.length := by
  unfold recordStakes at h
  split_ifs at h
  · cases h; exact ⟨h1, h2⟩
  · rw [bind_eq_ok] at h
    obtain ⟨v, -, h⟩ := h
    rw [pure_eq_ok] at h
    subst h
    simp [setLoc, h1, h2]
  · cases h; exact ⟨h1, h2⟩

theorem runStakes_length {names : List String} {index : List τ} : ∀ {steps : List (τ × Forcing K)} {s s' : SimState K}
    {df df' : SimTable K} {os : List (StepOut K)},
    runStakes sv fuel c r names index s df steps = .ok (s', os, df') → df.mb.length = index.length →
    df.snowheight.length = index.length → df'.mb.length = index.length ∧ df'.snowheight.length = index.length := by
  intro steps
  induction steps with
  | nil => intro s s' df df' os h h1 h2; rw [runStakes] at h; cases h; exact ⟨h1, h2⟩
  | cons p rest ih =>
    intro s s' df df' os h h1 h2
    obtain ⟨t, f⟩ := p
    obtain ⟨s1, o1, df1, os1, -, g2, g3, rfl⟩ := runStakes_cons h
    obtain ⟨e1, e2⟩ := recordStakes_length g2 h1 h2
    exact ih g3 e1 e2

theorem run_steps : ∀ {fs : List (Forcing K)} {s s' : SimState K} {os : List (StepOut K)},
    run sv fuel c r s fs = .ok (s', os) → os.length = fs.length := by
  intro fs
  induction fs with
  | nil => intro s s' os h; rw [run] at h; cases h; rfl
  | cons f fs ih =>
    intro s s' os h
    obtain ⟨s1, o1, os1, -, h2, rfl⟩ := run_cons h
    rw [List.length_cons, List.length_cons, ih h2]

/-- The column of the table that is compared. -/
def tableColumn (obs : String) (df : SimTable K) : List (Option K) := if obs = "mb" then df.mb else df.snowheight

/-- The table of a run with stakes holds the simulated values. -/
theorem table_simulated {names : List String} {index : List τ} {obs : String} (hn : names ≠ [])
    (hobs : obs = "mb" ∨ obs = "snowheight") (htn : times.Nodup) {fs : List (Forcing K)} (hl : times.length = fs.length)
    {wrf : Bool} {g : Grid K} (hw : g.WF) {s' : SimState K} {df : SimTable K} {os : List (StepOut K)}
    (h : runStakes sv fuel c r names index (initState c wrf g) (SimTable.init index) (times.zip fs) = .ok (s', os, df)) :
    Simulated sv fuel c r fill (initState c wrf g) fs os times index obs (tableColumn obs df) := by
  have hlen := runStakes_length h (by simp [SimTable.init]) (by simp [SimTable.init])
  have hrun := C60_run h
  have hz1 : (times.zip fs).map Prod.fst = times := List.map_fst_zip (by omega)
  have hz2 : (times.zip fs).map Prod.snd = fs := List.map_snd_zip (by omega)
  refine ⟨?_, fun j u hj => ?_⟩
  · unfold tableColumn; split_ifs
    · exact hlen.1
    · exact hlen.2
  obtain ⟨hx, hy⟩ := init_row (K := K) hj
  refine ⟨fun hu => ?_, fun k hk => ?_⟩
  · obtain ⟨a, b⟩ := runStakes_miss hn hj hx hy (by rw [hz1]; exact hu) h
    unfold tableColumn; split_ifs
    · exact a
    · exact b
  · have hkl : k < times.length := (List.getElem?_eq_some_iff.1 hk).1
    have hzk : k < (times.zip fs).length := by rw [List.length_zip]; omega
    set z := times.zip fs with hz
    have hsplit : z = z.take k ++ z[k] :: z.drop (k + 1) := by
      rw [← List.drop_eq_getElem_cons, List.take_append_drop]
    have hzk1 : z[k].1 = u := by
      have : (z.map Prod.fst)[k]? = some u := by rw [hz1]; exact hk
      rw [List.getElem?_map, List.getElem?_eq_getElem hzk] at this
      exact Option.some.inj this
    obtain ⟨⟨u', f⟩, hp⟩ : ∃ p, z[k] = p := ⟨_, rfl⟩
    rw [hp] at hsplit hzk1
    cases hzk1
    have hnot : u' ∉ (z.drop (k + 1)).map Prod.fst := by
      have h1 := htn
      rw [← hz1, hsplit, List.map_append, List.map_cons, List.nodup_append] at h1
      exact (List.nodup_cons.1 h1.2.1).1
    rw [hsplit] at h
    obtain ⟨a, s1, v, h1, h2, b⟩ := runStakes_hit hn hj hx hy hnot h
    have hlk : (z.take k).length = k := by rw [List.length_take]; omega
    have htake : (z.take k ++ [(u', f)]).map Prod.snd = fs.take (k + 1) := by
      rw [← hz2, ← List.map_take, List.take_succ_eq_append_getElem hzk, hp]
    rw [htake, hlk] at h1
    rw [hlk] at a
    have hos : os.length = fs.length := by
      have := run_steps hrun
      rw [this, hz2]
    have hok : k < os.length := by omega
    rw [Grid.getTotalSnowheight_eq (C01_run _ (s := initState c wrf g) hw h1)] at h2
    rcases hobs with rfl | rfl
    · refine ⟨s1, os[k], _, h1, List.getElem?_eq_getElem hok, a, fun _ => ?_, fun e => absurd e (by decide)⟩
      simp [initState]
    · refine ⟨s1, os[k], v, h1, List.getElem?_eq_getElem hok, b, fun e => absurd e (by decide), fun _ => ?_⟩
      have h2 := ok_inj.1 h2
      rw [pySum_eq] at h2
      simp only [SeriesMeans]
      rw [List.countP_eq_length_filter]
      exact h2.symm

/-! ## One cell -/

/-- What the simulation of a cell with stakes returns about them. -/
theorem kernel_stakes {i : CellInput K τ} (ht : times.length = i.data.nt) (htn : times.Nodup) {st : StakeInput K τ}
    (hst : i.stakes = some st) (hobs : st.obsType = "mb" ∨ st.obsType = "snowheight") {y x : Nat} {res : List (PyVal K)}
    (h : kernel sv fuel c (i.cfg r) cfg fill times i.snowheight i.restart i.stakes i.data y x = .ok res)
    {rs : List (String × K)} {ns : List String} {mb sh : Val K} (hp : stakePart res = some (rs, ns, mb, sh)) :
    ns = st.names ∧ ∃ col : List (Option K), col.length = st.index.length ∧
      (st.names ≠ [] → ∃ s0 s fs os, CellRun sv fuel c r cfg i s0 s fs os ∧
        Simulated sv fuel c (i.cfg r) fill s0 fs os times st.index st.obsType col) ∧
      (∀ j, j < st.index.length → (if st.obsType = "mb" then mb else sh).val j 0 = ((col[j]?).bind id).getD fill) ∧
      List.Forall₂ (fun n q => ∃ o, (n, o) ∈ st.data ∧ q = (n, (rmseColumn o col).getD fill)) st.names rs := by
  obtain ⟨body, hb, rfl⟩ := kernel_ok h
  obtain ⟨g, fs, s, rows, df, stakes, ds, h1, h2, h3, h4, h5, h6, rfl⟩ := kernelBody_ok hb
  have hlen : fs.length = i.data.nt := by
    unfold prepare at h2
    rw [bind_eq_ok] at h2
    obtain ⟨_, _, h2⟩ := h2
    rw [mapM_eq_ok_iff] at h2
    rw [← h2.length_eq, List.length_range]
  have hl : times.length = fs.length := by omega
  rw [hst] at h4 h5
  obtain ⟨os, e⟩ := runRows_stakes h4
  have hw : g.WF := startColumn_wf h1
  -- the evaluation
  unfold stakeResult at h5
  dsimp only at h5
  rw [bind_eq_ok] at h5
  obtain ⟨stat, h7, h5⟩ := h5
  rw [pure_eq_ok] at h5
  subst h5
  -- the three last entries
  have hl39 : (((coreReturn.drop 3).take 39).map
      (returnedArray fill i.data.nt (i.cfg r).maxLayers (i.cfg r).fullField rows)).length = 39 := by
    rw [List.length_map]; decide +kernel
  have hpos : ∀ (k : Nat) (l : List (PyVal K)), (PyVal.int y :: PyVal.int x ::
      PyVal.dataset (restartStore (i.cfg r).maxLayers fill ds) :: (((coreReturn.drop 3).take 39).map
        (returnedArray fill i.data.nt (i.cfg r).maxLayers (i.cfg r).fullField rows) ++ l))[42 + k]? = l[k]? := by
    intro k l
    rw [show 42 + k = (39 + k) + 1 + 1 + 1 by omega, List.getElem?_cons_succ, List.getElem?_cons_succ,
      List.getElem?_cons_succ, List.getElem?_append_right (by rw [hl39]; omega), hl39, Nat.add_sub_cancel_left]
  have hp' := hp
  unfold stakePart at hp'
  rw [lookupLast_get mainUnpack_nodup (n := "stake_names") (i := 42) (by decide +kernel) (hpos 0 _),
    lookupLast_get mainUnpack_nodup (n := "stat") (i := 43) (by decide +kernel) (hpos 1 _),
    lookupLast_get mainUnpack_nodup (n := "df_eval") (i := 44) (by decide +kernel) (hpos 2 _)] at hp'
  cases stat with
  | none => cases hp'
  | some qs =>
    dsimp only at hp'
    cases hp'
    have hmeth : st.evalMethod = "rmse" := by
      by_contra hc
      rw [(C60_evaluate _ _ _ _ _).1 hc] at h7
      cases h7
    have hlen2 := runStakes_length e (by simp [SimTable.init]) (by simp [SimTable.init])
    dsimp only [Option.map_some, Option.getD_some] at e hlen2
    refine ⟨rfl, tableColumn st.obsType df, ?_, fun hn => ?_, fun j hj => ?_, ?_⟩
    · unfold tableColumn; split_ifs
      · exact hlen2.1
      · exact hlen2.2
    · have hsim := table_simulated (fill := fill) hn hobs htn hl hw e
      have hrun := C60_run e
      rw [List.map_snd_zip (by omega)] at hrun
      exact ⟨_, s, fs, os, ⟨h1, rfl, h2, run_steps hrun, hrun⟩, hsim⟩
    · unfold tableColumn
      split_ifs <;> rfl
    · obtain ⟨-, -, h8⟩ := C60_evaluate st.evalMethod st.obsType st.names st.data df
      have hsim : (st.obsType = "mb" ∧ tableColumn st.obsType df = df.mb) ∨
          (st.obsType = "snowheight" ∧ tableColumn st.obsType df = df.snowheight) := by
        unfold tableColumn
        rcases hobs with ho | ho
        · exact Or.inl ⟨ho, if_pos ho⟩
        · exact Or.inr ⟨ho, if_neg (by rw [ho]; decide)⟩
      obtain ⟨h9, h10⟩ := h8 hmeth _ hsim
      by_cases hall : ∀ n ∈ st.names, ∃ p ∈ st.data, p.1 = n
      · obtain ⟨rs, hr1, hr2⟩ := h9 hall
        rw [h7] at hr1
        cases hr1
        rw [List.forall₂_map_right_iff]
        refine hr2.imp ?_
        rintro n q ⟨o, ho, rfl⟩
        exact ⟨o, ho, rfl⟩
      · rw [h10 (by push Not at hall; exact hall)] at h7
        cases h7

/-! ## The loop over finished cells -/

/-- What a finished cell says about its stakes. -/
def partOf (worker : Nat → Nat → M (List (PyVal K))) (p : Nat × Nat) :
    Option (List (String × K) × List String × Val K × Val K) :=
  match worker p.1 p.2 with
  | .ok res => stakePart res
  | .error _ => none

theorem setColumns_get {sc : StakeCfg} {mb sh : Val K} : ∀ {ns : List String} {s : Store (Val K)} {n : String},
    (n ∉ ns → setColumns sc ns mb sh s n = s n) ∧
    (n ∈ ns → sc.obsMb = true → sc.obsSnow = false → setColumns sc ns mb sh s n = some mb) ∧
    (n ∈ ns → sc.obsSnow = true → setColumns sc ns mb sh s n = some sh) := by
  intro ns
  induction ns with
  | nil =>
    intro s n
    exact ⟨fun _ => rfl, fun h => absurd h List.not_mem_nil, fun h => absurd h List.not_mem_nil⟩
  | cons m ns ih =>
    intro s n
    obtain ⟨i1, i2, i3⟩ := ih (s := (let s := if sc.obsMb then s.set m mb else s
      if sc.obsSnow then s.set m sh else s)) (n := n)
    have e : setColumns sc (m :: ns) mb sh s = setColumns sc ns mb sh (let s := if sc.obsMb then s.set m mb else s
      if sc.obsSnow then s.set m sh else s) := rfl
    rw [e]
    refine ⟨fun h => ?_, fun h h1 h2 => ?_, fun h h1 => ?_⟩
    · rw [List.mem_cons, not_or] at h
      rw [i1 h.2]
      cases sc.obsMb <;> cases sc.obsSnow <;> simp [Store.set, h.1]
    · by_cases hm : n ∈ ns
      · exact i2 hm h1 h2
      · obtain rfl : n = m := (List.mem_cons.1 h).resolve_right hm
        rw [i1 hm, h1, h2]
        simp [Store.set]
    · by_cases hm : n ∈ ns
      · exact i3 hm h1
      · obtain rfl : n = m := (List.mem_cons.1 h).resolve_right hm
        rw [i1 hm, h1]
        simp [Store.set]

theorem stakes_fold {worker : Nat → Nat → M (List (PyVal K))} {sc : StakeCfg} (he : sc.evaluation = true) :
    ∀ {l : List (Nat × Nat)} {st st' : StakeState K},
    (l.map fun p => worker p.1 p.2).foldlM (fun st r => r >>= collectStakesOf sc st) st = .ok st' →
    (∀ p ∈ l, ∃ q, partOf worker p = some q) ∧ st'.stat = st.stat ++ l.flatMap (fun p => ((partOf worker p).map (·.1)).getD []) ∧
    (∀ n, (∀ p ∈ l, ∀ q, partOf worker p = some q → n ∉ q.2.1) → st'.vals n = st.vals n) ∧
    ∀ n p q, p ∈ l → partOf worker p = some q → n ∈ q.2.1 →
      (∀ p' ∈ l, p' ≠ p → ∀ q', partOf worker p' = some q' → n ∉ q'.2.1) →
      (sc.obsMb = true → sc.obsSnow = false → st'.vals n = some q.2.2.1) ∧
      (sc.obsSnow = true → st'.vals n = some q.2.2.2) := by
  intro l
  induction l with
  | nil =>
    intro st st' h
    rw [List.map_nil, List.foldlM_nil, pure_eq_ok] at h
    subst h
    exact ⟨fun p hp => (by cases hp), by rw [List.flatMap_nil, List.append_nil], fun n _ => rfl, fun n p q hp => (by cases hp)⟩
  | cons p l ih =>
    intro st st' h
    rw [List.map_cons, List.foldlM_cons, bind_eq_ok] at h
    obtain ⟨s1, h1, h⟩ := h
    rw [bind_eq_ok] at h1
    obtain ⟨v, hv, h1⟩ := h1
    rw [collectStakesOf_eq_ok he] at h1
    obtain ⟨rs, ns, mb, sh, hq, rfl⟩ := h1
    obtain ⟨i1, i2, i3, i4⟩ := ih h
    have hpart : partOf worker p = some (rs, ns, mb, sh) := by
      unfold partOf; rw [hv]; exact hq
    refine ⟨fun p' hp' => ?_, ?_, fun n hn => ?_, fun n p' q hp' hq' hn hoth => ?_⟩
    · rcases List.mem_cons.1 hp' with rfl | hp'
      · exact ⟨_, hpart⟩
      · exact i1 p' hp'
    · rw [i2, List.flatMap_cons, hpart, List.append_assoc]
      rfl
    · rw [i3 n fun p' hp' => hn p' (List.mem_cons_of_mem _ hp')]
      have := hn p List.mem_cons_self _ hpart
      exact setColumns_get.1 this
    · by_cases hm : p' ∈ l
      · exact i4 n p' q hm hq' hn fun p'' hp'' => hoth p'' (List.mem_cons_of_mem _ hp'')
      · obtain rfl : p' = p := (List.mem_cons.1 hp').resolve_right hm
        rw [hpart] at hq'
        cases hq'
        rw [i3 n fun p'' hp'' => hoth p'' (List.mem_cons_of_mem _ hp'') fun e => hm (e ▸ hp'')]
        exact ⟨fun h1 h2 => setColumns_get.2.1 hn h1 h2, fun h1 => setColumns_get.2.2 hn h1⟩

theorem mem_stakeNames {cells : List ((Nat × Nat) × String)} {y x : Nat} {n : String} :
    n ∈ stakeNames cells y x ↔ ((y, x), n) ∈ cells := by
  unfold stakeNames
  rw [List.mem_map]
  constructor
  · rintro ⟨⟨p, m⟩, hp, rfl⟩
    rw [List.mem_filter] at hp
    have : p = (y, x) := by simpa using hp.2
    rw [← this]; exact hp.1
  · intro h; exact ⟨_, List.mem_filter.2 ⟨h, by simp⟩, rfl⟩

/-- All stakes of a set of cells, cell by cell. -/
theorem stakeNames_perm {l : List (Nat × Nat)} (hl : l.Nodup) : ∀ cells : List ((Nat × Nat) × String),
    (l.flatMap fun p => stakeNames cells p.1 p.2).Perm ((cells.filter fun s => decide (s.1 ∈ l)).map (·.2)) := by
  intro cells
  induction cells with
  | nil => simp [stakeNames]
  | cons s cells ih =>
    obtain ⟨p, n⟩ := s
    have e : ∀ q : Nat × Nat, stakeNames ((p, n) :: cells) q.1 q.2 =
        (if p = q then [n] else []) ++ stakeNames cells q.1 q.2 := by
      intro q
      unfold stakeNames
      rw [List.filter_cons]
      by_cases h : p = q
      · simp [h]
      · simp [h]
    have hone : (l.flatMap fun q => if p = q then [n] else []) = if p ∈ l then [n] else [] := by
      clear ih e
      induction l with
      | nil => rfl
      | cons a l ihl =>
        rw [List.nodup_cons] at hl
        rw [List.flatMap_cons, ihl hl.2]
        by_cases h : p = a
        · subst h; simp [hl.1]
        · simp [h]
    simp only [e]
    refine (List.flatMap_append_perm ..).symm.trans ?_
    rw [hone, List.filter_cons]
    by_cases h : p ∈ l
    · simpa [h] using ih.cons n
    · simpa [h] using ih

/-! ## The whole program -/

variable {io : IOState K} {g nan : Nat → Nat → Bool} {input : Nat → Nat → CellInput K τ}
variable {order : List (Nat × Nat) → List (Nat × Nat)} {s : IOState K × StakeState K}
variable {cells : List ((Nat × Nat) × String)} {index : List τ} {data : List (String × List (Option K))} {method obs : String}

/-- What is known about the stakes of a program that has run through. -/
theorem domain_stakes (ho : ∀ l, (order l).Perm l)
    (ht : ∀ y x, times.length = (input y x).data.nt) (htn : times.Nodup)
    (hst : ∀ y x, (input y x).stakes = some (stakesAt cells index data method obs y x))
    (hobs : obs = "mb" ∨ obs = "snowheight")
    (h : simulateDomain sv fuel c r cfg fill times (stakeCfg obs) io g nan input order = .ok s) :
    ∃ (l : List (Nat × Nat)) (rows : Nat × Nat → List (String × K)) (vcol : Nat × Nat → Val K), l.Nodup ∧
      (∀ y x, (y, x) ∈ l ↔ y < io.ny ∧ x < io.nx ∧ g y x = true) ∧ s.2.stat = l.flatMap rows ∧
      (∀ n, (∀ p ∈ l, (p, n) ∉ cells) → s.2.vals n = none) ∧
      (∀ n p, p ∈ l → (p, n) ∈ cells → (∀ p' ∈ l, p' ≠ p → (p', n) ∉ cells) → s.2.vals n = some (vcol p)) ∧
      ∀ p ∈ l, ∃ col : List (Option K), col.length = index.length ∧
        (stakeNames cells p.1 p.2 ≠ [] → ∃ s0 sE fs os, CellRun sv fuel c r cfg (input p.1 p.2) s0 sE fs os ∧
          Simulated sv fuel c ((input p.1 p.2).cfg r) fill s0 fs os times index obs col) ∧
        (∀ j, j < index.length → (vcol p).val j 0 = ((col[j]?).bind id).getD fill) ∧
        List.Forall₂ (fun n q => ∃ o, (n, o) ∈ data ∧ q = (n, (rmseColumn o col).getD fill))
          (stakeNames cells p.1 p.2) (rows p) := by
  unfold simulateDomain runCosipy at h
  rw [bind_eq_ok] at h
  obtain ⟨l, htask, h⟩ := h
  rw [collectAll_eq_ok] at h
  have h2 := h.2
  have hmem : ∀ y x, (y, x) ∈ order l ↔ y < io.ny ∧ x < io.nx ∧ g y x = true := by
    intro y x
    rw [(ho l).mem_iff]
    rcases C46_tasks io.ny io.nx g nan with ⟨l', e, _, hl, _⟩ | ⟨e, _⟩
    · rw [htask] at e; cases e; exact hl y x
    · rw [htask] at e; cases e
  have hnd : (order l).Nodup := (ho l).nodup_iff.2 (submitTasks_nodup htask)
  obtain ⟨w1, w2, w3, w4⟩ := stakes_fold (worker := fun y x => kernel sv fuel c ((input y x).cfg r) cfg fill times
    (input y x).snowheight (input y x).restart (input y x).stakes (input y x).data y x) (sc := stakeCfg obs) rfl h2
  set worker := fun y x => kernel sv fuel c ((input y x).cfg r) cfg fill times (input y x).snowheight
    (input y x).restart (input y x).stakes (input y x).data y x with hworker
  -- the part of a cell
  have hcell : ∀ p ∈ order l, ∃ rs mb sh, partOf worker p = some (rs, stakeNames cells p.1 p.2, mb, sh) ∧
      ∃ col : List (Option K), col.length = index.length ∧
        (stakeNames cells p.1 p.2 ≠ [] → ∃ s0 sE fs os, CellRun sv fuel c r cfg (input p.1 p.2) s0 sE fs os ∧
          Simulated sv fuel c ((input p.1 p.2).cfg r) fill s0 fs os times index obs col) ∧
        (∀ j, j < index.length → (if obs = "mb" then mb else sh).val j 0 = ((col[j]?).bind id).getD fill) ∧
        List.Forall₂ (fun n q => ∃ o, (n, o) ∈ data ∧ q = (n, (rmseColumn o col).getD fill))
          (stakeNames cells p.1 p.2) rs := by
    intro p hp
    obtain ⟨⟨rs, ns, mb, sh⟩, hq⟩ := w1 p hp
    have hq' := hq
    unfold partOf at hq'
    cases hk : worker p.1 p.2 with
    | error e => rw [hk] at hq'; cases hq'
    | ok res =>
      rw [hk] at hq'
      obtain ⟨rfl, col, c1, c2, c3, c4⟩ := kernel_stakes (ht p.1 p.2) htn (hst p.1 p.2) hobs hk hq'
      exact ⟨rs, mb, sh, hq, col, c1, c2, c3, c4⟩
  have hsc : (stakeCfg obs).obsMb = decide (obs = "mb") ∧ (stakeCfg obs).obsSnow = decide (obs = "snowheight") := by
    rcases hobs with rfl | rfl <;> exact ⟨by decide, by decide⟩
  refine ⟨order l, fun p => ((partOf worker p).map (·.1)).getD [],
    fun p => ((partOf worker p).map fun q => if obs = "mb" then q.2.2.1 else q.2.2.2).getD ⟨none, none, fun _ _ => fill⟩,
    hnd, hmem, ?_, fun n hn => ?_, fun n p hp hpn hoth => ?_, fun p hp => ?_⟩
  · rw [w2]; rfl
  · rw [w3 n]
    intro p hp q hq
    obtain ⟨rs, mb, sh, e, -⟩ := hcell p hp
    rw [hq] at e
    cases e
    rw [mem_stakeNames]
    exact hn p hp
  · obtain ⟨rs, mb, sh, e, -⟩ := hcell p hp
    obtain ⟨v1, v2⟩ := w4 n p _ hp e (mem_stakeNames.2 hpn) (by
      intro p' hp' hne q' hq'
      obtain ⟨rs', mb', sh', e', -⟩ := hcell p' hp'
      rw [hq'] at e'
      cases e'
      rw [mem_stakeNames]
      exact hoth p' hp' hne)
    beta_reduce
    rw [e]
    rcases hobs with rfl | rfl
    · exact v1 (by decide) (by decide)
    · exact v2 (by decide)
  · obtain ⟨rs, mb, sh, e, col, c1, c2, c3, c4⟩ := hcell p hp
    refine ⟨col, c1, c2, ?_, ?_⟩
    · beta_reduce
      rw [e]
      exact c3
    · beta_reduce
      rw [e]
      exact c4

/-- **C93, simulations (partial).** Full statement: the column of every stake in `stake_simulations.csv` holds the
simulated values of the stake's cell at the times of measurement. Proved for every stake whose cell is a glacier cell;
for others it fails, see `C93_elsewhere_refuted`. Stakes have different names, time stamps occur once. -/
theorem C93_simulations_partial (ho : ∀ l, (order l).Perm l)
    (ht : ∀ y x, times.length = (input y x).data.nt) (htn : times.Nodup)
    (hst : ∀ y x, (input y x).stakes = some (stakesAt cells index data method obs y x))
    (hobs : obs = "mb" ∨ obs = "snowheight") (hnames : (cells.map (·.2)).Nodup)
    (h : simulateDomain sv fuel c r cfg fill times (stakeCfg obs) io g nan input order = .ok s)
    {y x : Nat} {n : String} (hn : ((y, x), n) ∈ cells) (hy : y < io.ny) (hx : x < io.nx) (hg : g y x = true) :
    ∃ (col : List (Option K)) (s0 sE : SimState K) (fs : List (Forcing K)) (os : List (StepOut K)),
      CellRun sv fuel c r cfg (input y x) s0 sE fs os ∧
      Simulated sv fuel c ((input y x).cfg r) fill s0 fs os times index obs col ∧
      simulationColumn fill index.length data s.2.vals n = some (col.map fun v => v.getD fill) := by
  obtain ⟨l, rows, vcol, -, hl, -, -, hval, hcell⟩ := domain_stakes ho ht htn hst hobs h
  have hp : (y, x) ∈ l := (hl y x).2 ⟨hy, hx, hg⟩
  obtain ⟨col, c1, c2, c3, -⟩ := hcell (y, x) hp
  obtain ⟨s0, sE, fs, os, hrun, hsim⟩ := c2 (List.ne_nil_of_mem (mem_stakeNames.2 hn))
  have hv := hval n (y, x) hp hn (by
    intro p' _ hne hp'
    have := List.inj_on_of_nodup_map hnames hp' hn rfl
    exact hne (by injection this))
  refine ⟨col, s0, sE, fs, os, hrun, hsim, ?_⟩
  unfold simulationColumn
  rw [hv]
  refine congrArg some (List.ext_getElem? fun j => ?_)
  rw [List.getElem?_map, List.getElem?_map]
  by_cases hj : j < index.length
  · have hj' : j < col.length := by omega
    rw [List.getElem?_eq_getElem (by rw [List.length_range]; exact hj), List.getElem_range, Option.map_some, c3 j hj,
      List.getElem?_eq_getElem hj']
    rfl
  · rw [List.getElem?_eq_none (by rw [List.length_range]; omega), List.getElem?_eq_none (by omega)]
    rfl

/-- **C93, statistics.** `stake_statistics.csv` has exactly one row for every stake on a glacier cell, and the row of a
stake is the score (`C60_rmse`) of its measurements against the simulated values of its cell. -/
theorem C93_statistics (ho : ∀ l, (order l).Perm l)
    (ht : ∀ y x, times.length = (input y x).data.nt) (htn : times.Nodup)
    (hst : ∀ y x, (input y x).stakes = some (stakesAt cells index data method obs y x))
    (hobs : obs = "mb" ∨ obs = "snowheight")
    (h : simulateDomain sv fuel c r cfg fill times (stakeCfg obs) io g nan input order = .ok s) :
    (s.2.stat.map (·.1)).Perm
      ((cells.filter fun p => decide (p.1.1 < io.ny ∧ p.1.2 < io.nx ∧ g p.1.1 p.1.2 = true)).map (·.2)) ∧
    ∀ n v, (n, v) ∈ s.2.stat → ∃ y x, ((y, x), n) ∈ cells ∧ g y x = true ∧
      ∃ (o col : List (Option K)) (s0 sE : SimState K) (fs : List (Forcing K)) (os : List (StepOut K)), (n, o) ∈ data ∧
        CellRun sv fuel c r cfg (input y x) s0 sE fs os ∧
        Simulated sv fuel c ((input y x).cfg r) fill s0 fs os times index obs col ∧ v = (rmseColumn o col).getD fill := by
  obtain ⟨l, rows, vcol, hnd, hl, hstat, -, -, hcell⟩ := domain_stakes ho ht htn hst hobs h
  constructor
  · have hfst : ∀ p ∈ l, (rows p).map (·.1) = stakeNames cells p.1 p.2 := by
      intro p hp
      obtain ⟨col, -, -, -, c4⟩ := hcell p hp
      generalize stakeNames cells p.1 p.2 = ns at c4
      generalize rows p = rs at c4
      induction c4 with
      | nil => rfl
      | cons hq _ ih =>
        obtain ⟨o, -, rfl⟩ := hq
        rw [List.map_cons, ih]
    rw [hstat, List.map_flatMap, List.flatMap_congr hfst]
    refine (stakeNames_perm hnd cells).trans ?_
    rw [List.filter_congr]
    rintro ⟨⟨y, x⟩, n⟩ -
    rw [decide_eq_decide]
    exact hl y x
  · intro n v hv
    rw [hstat, List.mem_flatMap] at hv
    obtain ⟨p, hp, hv⟩ := hv
    obtain ⟨col, -, c2, -, c4⟩ := hcell p hp
    have key : ∀ {ns : List String} {rs : List (String × K)},
        List.Forall₂ (fun n q => ∃ o, (n, o) ∈ data ∧ q = (n, (rmseColumn o col).getD fill)) ns rs → (n, v) ∈ rs →
        n ∈ ns ∧ ∃ o, (n, o) ∈ data ∧ v = (rmseColumn o col).getD fill := by
      intro ns rs hf
      induction hf with
      | nil => intro h; cases h
      | cons hq _ ih =>
        intro h
        obtain ⟨o, ho, rfl⟩ := hq
        rcases List.mem_cons.1 h with h | h
        · cases h
          exact ⟨List.mem_cons_self, o, ho, rfl⟩
        · obtain ⟨i1, i2⟩ := ih h
          exact ⟨List.mem_cons_of_mem _ i1, i2⟩
    obtain ⟨k1, o, k2, k3⟩ := key c4 hv
    obtain ⟨s0, sE, fs, os, hrun, hsim⟩ := c2 (List.ne_nil_of_mem k1)
    exact ⟨p.1, p.2, mem_stakeNames.1 k1, ((hl p.1 p.2).1 hp).2.2, o, col, s0, sE, fs, os, k2, hrun, hsim, k3⟩

/-- The column of a stake that is on no glacier cell: its own measurements stand in the file of simulations, whatever the
simulation; in the statistics it has no row. -/
theorem C93_elsewhere_refuted (ho : ∀ l, (order l).Perm l)
    (ht : ∀ y x, times.length = (input y x).data.nt) (htn : times.Nodup)
    (hst : ∀ y x, (input y x).stakes = some (stakesAt cells index data method obs y x))
    (hobs : obs = "mb" ∨ obs = "snowheight")
    (h : simulateDomain sv fuel c r cfg fill times (stakeCfg obs) io g nan input order = .ok s)
    {n : String} {o : List (Option K)} (ho' : data.lookup n = some o)
    (hn : ∀ y x, ((y, x), n) ∈ cells → ¬ (y < io.ny ∧ x < io.nx ∧ g y x = true)) :
    simulationColumn fill index.length data s.2.vals n = some (o.map fun v => v.getD fill) ∧
    n ∉ s.2.stat.map (·.1) := by
  constructor
  · obtain ⟨l, rows, vcol, -, hl, -, hnone, -, -⟩ := domain_stakes ho ht htn hst hobs h
    unfold simulationColumn
    rw [hnone n fun p hp hc => hn p.1 p.2 hc ((hl p.1 p.2).1 hp), ho']
    rfl
  · rw [(C93_statistics ho ht htn hst hobs h).1.mem_iff, List.mem_map]
    rintro ⟨⟨⟨y, x⟩, m⟩, hm, rfl⟩
    rw [List.mem_filter, decide_eq_true_eq] at hm
    exact hn y x hm.1 hm.2

end

/-! ## A concrete domain -/

/-- Stake A on the glacier cell (0, 1), stake B on the cell (1, 1), which is none. -/
def exStakes : List ((Nat × Nat) × String) := [((0, 1), "A"), ((1, 1), "B")]

/-- Measurements at the times 1 and 7, the second of which is not simulated. -/
def exMeasured : List (String × List (Option ℚ)) := [("A", [some (-1), some 2]), ("B", [some 3, none])]

def exStakeInput (obs : String) (y x : Nat) : CellInput ℚ Nat :=
  { exInput y x with stakes := some (stakesAt exStakes [1, 7] exMeasured "rmse" obs y x) }

/-- The glacier. -/
def exGlacier (y x : Nat) : Bool := y == 0 && x == 1

attribute [local instance] exTransc exTrunc in
/-- The example domain runs with stakes; stake B, which is not on the glacier, shows its measurements. -/
example : [0, 1].Nodup ∧ (∀ y x, [0, 1].length = (exStakeInput "snowheight" y x).data.nt) ∧ (exStakes.map (·.2)).Nodup ∧
    ((simulateDomain exSolvers 40 exConstsQ exCfg exSel (-9999) [0, 1] (stakeCfg "snowheight") exIOQ exGlacier
      (fun _ _ => false) (exStakeInput "snowheight") List.reverse).toOption.map fun s =>
        (s.2.stat.map (·.1), simulationColumn (-9999) 2 exMeasured s.2.vals "B",
          (simulationColumn (-9999) 2 exMeasured s.2.vals "A").map fun l => l.map fun v => decide (0 < v))) =
      some (["A"], some [3, -9999], some [true, false]) :=
  ⟨by decide, fun _ _ => rfl, by decide, by decide +kernel⟩

end Cosipy
