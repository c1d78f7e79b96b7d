import Verif.Props.C69

/-!
# C103 What comes later does not change what came before

The results of a cell up to a time depend on its forcing up to that time only. A run over the first part of the input
gives the first part of the results.
-/

set_option autoImplicit false
set_option linter.unusedSectionVars false

namespace Cosipy

/-! ### Spec -/

/-- Two inputs of a cell with the same variables and the same first `n` records. -/
structure SameUntil {α : Type} (n : Nat) (d d' : CellData α) : Prop where
  pos : 0 < n
  le : n ≤ d.nt
  le' : n ≤ d'.nt
  t2 : d.t2.take n = d'.t2.take n
  rh2 : d.rh2.take n = d'.rh2.take n
  pres : d.pres.take n = d'.pres.take n
  g : d.g.take n = d'.g.take n
  u2 : d.u2.take n = d'.u2.take n
  snowfall : d.snowfall.map (List.take n) = d'.snowfall.map (List.take n)
  rrr : d.rrr.map (List.take n) = d'.rrr.map (List.take n)
  lwin : d.lwin.map (List.take n) = d'.lwin.map (List.take n)
  n_ : d.n.map (List.take n) = d'.n.map (List.take n)

/-- The first `n` records of an input. -/
def CellData.upTo {α : Type} (d : CellData α) (n : Nat) : CellData α :=
  ⟨n, d.t2.take n, d.rh2.take n, d.pres.take n, d.g.take n, d.u2.take n, d.snowfall.map (List.take n),
    d.rrr.map (List.take n), d.lwin.map (List.take n), d.n.map (List.take n)⟩

theorem CellData.sameUntil_upTo {α : Type} {d : CellData α} {n : Nat} (h0 : 0 < n) (h : n ≤ d.nt) :
    SameUntil n d (d.upTo n) := by
  have e : (List.take n ∘ List.take n : List α → List α) = List.take n := funext fun xs => by simp
  refine ⟨h0, h, le_rfl, ?_, ?_, ?_, ?_, ?_, ?_, ?_, ?_, ?_⟩ <;> simp [upTo, e]

/-! ### The forcing -/

section
variable {β : Type}

private theorem pyGet_take {n t : Nat} (ht : t < n) (xs : List β) : pyGet (xs.take n) (t : Int) = pyGet xs (t : Int) := by
  by_cases h : t < xs.length
  · rw [pyGet_of_lt h, pyGet_of_lt (by rw [List.length_take]; omega), List.getElem_take]
  · have e1 : ∀ ys : List β, ¬ t < ys.length → pyGet ys (t : Int) = .error .index := by
      intro ys hy
      unfold pyGet normIdx
      rw [if_pos (by omega), if_neg (by omega)]
    rw [e1 _ h, e1 _ (by rw [List.length_take]; omega)]

private theorem pyGet_congr {n t : Nat} (ht : t < n) {xs ys : List β} (h : xs.take n = ys.take n) :
    pyGet xs (t : Int) = pyGet ys (t : Int) := by
  rw [← pyGet_take ht xs, h, pyGet_take ht]

private theorem optAt_congr {n t : Nat} (ht : t < n) {xs ys : Option (List β)}
    (h : xs.map (List.take n) = ys.map (List.take n)) : optAt xs t = optAt ys t := by
  cases xs <;> cases ys
  · rfl
  · cases h
  · cases h
  · simp only [Option.map_some, Option.some.injEq] at h
    unfold optAt
    simp only
    rw [pyGet_congr ht h]

variable {α : Type} [Mul α]

/-- Two selections that agree for `n` steps. -/
private structure SelectedUntil (n : Nat) (s s' : Selected α) : Prop where
  snowf : s.snowf.map (List.take n) = s'.snowf.map (List.take n)
  rrr : s.rrr.map (List.take n) = s'.rrr.map (List.take n)
  lwin : s.lwin.map (List.take n) = s'.lwin.map (List.take n)
  n_ : s.n.take n = s'.n.take n

private theorem scale_take (k : α) (n : Nat) (xs : List α) : (scaleBy k xs).take n = scaleBy k (xs.take n) := by
  unfold scaleBy
  rw [List.map_take]

private theorem select_until {n : Nat} {d d' : CellData α} (h : SameUntil n d d') {cfg : SelectCfg α} {s s' : Selected α}
    (h1 : selectInputs cfg d = .ok s) (h2 : selectInputs cfg d' = .ok s') : SelectedUntil n s s' := by
  have key : ∀ {d : CellData α} {s : Selected α}, selectInputs cfg d = .ok s →
      s = ⟨if cfg.forceTP then none else d.snowfall.map (scaleBy cfg.multFactor),
        d.rrr.map (scaleBy cfg.multFactor), if cfg.forceN then none else d.lwin,
        match d.n with | some n => n.map some | none => List.replicate d.nt none⟩ := by
    intro d s hs
    obtain ⟨nt, t2, rh2, pres, g, u2, a, b, l, m⟩ := d
    obtain ⟨k, ft, fn⟩ := cfg
    cases a <;> cases b <;> cases l <;> cases m <;> cases ft <;> cases fn <;> cases hs <;> rfl
  rw [key h1, key h2]
  obtain ⟨-, le, le', -, -, -, -, -, hs, hr, hl, hn⟩ := h
  obtain ⟨nt, t2, rh2, pres, g, u2, a, b, l, m⟩ := d
  obtain ⟨nt', t2', rh2', pres', g', u2', a', b', l', m'⟩ := d'
  simp only at hs hr hl hn le le'
  refine ⟨?_, ?_, ?_, ?_⟩
  · simp only
    split_ifs
    · rfl
    · rw [Option.map_map, Option.map_map]
      have : (List.take n ∘ scaleBy cfg.multFactor) = (scaleBy cfg.multFactor ∘ List.take n) :=
        funext fun xs => scale_take _ _ _
      rw [this, ← Option.map_map, hs, Option.map_map]
  · simp only [Option.map_map]
    have : (List.take n ∘ scaleBy cfg.multFactor) = (scaleBy cfg.multFactor ∘ List.take n) :=
      funext fun xs => scale_take _ _ _
    rw [this, ← Option.map_map, hr, Option.map_map]
  · simp only
    split_ifs
    · rfl
    · exact hl
  · cases m <;> cases m'
    · simp [List.take_replicate, Nat.min_eq_left le, Nat.min_eq_left le']
    · cases hn
    · cases hn
    · simp only [Option.map_some, Option.some.injEq] at hn
      simp only [← List.map_take, hn]

private theorem select_ok_iff {n : Nat} {d d' : CellData α} (h : SameUntil n d d') {cfg : SelectCfg α} {s : Selected α}
    (h1 : selectInputs cfg d = .ok s) : ∃ s', selectInputs cfg d' = .ok s' := by
  have k : (d.snowfall.isSome ∨ d.rrr.isSome) ∧ (d.lwin.isSome ∨ d.n.isSome) := by
    obtain ⟨nt, t2, rh2, pres, g, u2, a, b, l, m⟩ := d
    obtain ⟨k, ft, fn⟩ := cfg
    cases a <;> cases b <;> cases l <;> cases m <;> first | cases h1; done | simp
  have e : ∀ {x y : Option (List α)}, x.map (List.take n) = y.map (List.take n) → x.isSome = y.isSome := by
    intro x y hxy
    have := congrArg Option.isSome hxy
    simpa using this
  rw [e h.snowfall, e h.rrr, e h.lwin, e h.n_] at k
  exact ⟨_, selectInputs_ok cfg d' k.1 k.2⟩

private theorem forcing_until {n t : Nat} (ht : t < n) {d d' : CellData α} (h : SameUntil n d d') {s s' : Selected α}
    (hs : SelectedUntil n s s') : forcingAt d s t = forcingAt d' s' t := by
  unfold forcingAt
  rw [pyGet_congr ht h.t2, pyGet_congr ht h.rh2, pyGet_congr ht h.pres, pyGet_congr ht h.g, pyGet_congr ht h.u2,
    optAt_congr ht hs.snowf, optAt_congr ht hs.rrr, optAt_congr ht hs.lwin, pyGet_congr ht hs.n_]

private theorem mapM_take {γ δ : Type} {f : γ → M δ} {xs : List γ} {ys : List δ} (h : xs.mapM f = .ok ys) (n : Nat) :
    (xs.take n).mapM f = .ok (ys.take n) := by
  rw [mapM_eq_ok_iff] at h ⊢
  exact List.forall₂_take n h

/-- The steps read the same. -/
private theorem prepare_until {n : Nat} {d d' : CellData α} (h : SameUntil n d d') {cfg : SelectCfg α}
    {fs fs' : List (Forcing α)} (h1 : prepare cfg d = .ok fs) (h2 : prepare cfg d' = .ok fs') :
    fs.take n = fs'.take n ∧ fs.length = d.nt ∧ fs'.length = d'.nt := by
  unfold prepare at h1 h2
  rw [bind_eq_ok] at h1 h2
  obtain ⟨s, a1, h1⟩ := h1
  obtain ⟨s', a2, h2⟩ := h2
  have l1 := (mapM_eq_ok_iff.1 h1).length_eq
  have l2 := (mapM_eq_ok_iff.1 h2).length_eq
  rw [List.length_range] at l1 l2
  have b1 := mapM_take h1 n
  have b2 := mapM_take h2 n
  rw [List.take_range, Nat.min_eq_left h.le] at b1
  rw [List.take_range, Nat.min_eq_left h.le'] at b2
  have hs := select_until h a1 a2
  have : (List.range n).mapM (forcingAt d s) = (List.range n).mapM (forcingAt d' s') := by
    have hc : ∀ xs : List Nat, (∀ t ∈ xs, t < n) → xs.mapM (forcingAt d s) = xs.mapM (forcingAt d' s') := by
      intro xs
      induction xs with
      | nil => intro _; rfl
      | cons t xs ih =>
        intro hx
        rw [List.mapM_cons, List.mapM_cons, forcing_until (hx t List.mem_cons_self) h hs,
          ih fun u hu => hx u (List.mem_cons_of_mem _ hu)]
    exact hc _ fun t ht => List.mem_range.1 ht
  rw [b1, b2] at this
  exact ⟨Except.ok.inj this, l1.symm, l2.symm⟩

private theorem prepare_upTo {d : CellData α} {n : Nat} (h0 : 0 < n) (hn : n ≤ d.nt) {cfg : SelectCfg α}
    {fs : List (Forcing α)} (h1 : prepare cfg d = .ok fs) : prepare cfg (d.upTo n) = .ok (fs.take n) := by
  have h := CellData.sameUntil_upTo h0 hn
  unfold prepare at h1 ⊢
  rw [bind_eq_ok] at h1
  obtain ⟨s, a1, h1⟩ := h1
  obtain ⟨s', a2⟩ := select_ok_iff h a1
  have hs := select_until h a1 a2
  have b1 := mapM_take h1 n
  rw [List.take_range, Nat.min_eq_left hn] at b1
  rw [a2, ok_bind, ← b1]
  show (List.range n).mapM _ = _
  have hc : ∀ xs : List Nat, (∀ t ∈ xs, t < n) → xs.mapM (forcingAt (d.upTo n) s') = xs.mapM (forcingAt d s) := by
    intro xs
    induction xs with
    | nil => intro _; rfl
    | cons t xs ih =>
      intro hx
      rw [List.mapM_cons, List.mapM_cons, forcing_until (hx t List.mem_cons_self) h hs,
        ih fun u hu => hx u (List.mem_cons_of_mem _ hu)]
  exact hc _ fun t ht => List.mem_range.1 ht

end

/-! ### The time loop -/

section
variable {α : Type} [Add α] [Sub α] [Mul α] [Div α] [Neg α] [LT α] [LE α]
  [DecidableLT α] [DecidableLE α] [BEq α] [Zero α] [One α] [NatCast α] [OfScientific α]
  [Transc α] {τ : Type} [DecidableEq τ]
variable {sv : Solvers α} {fuel : Nat} {c : Consts α} {r : RunCfg α} {fill : α} {names : List String} {index : List τ}

private theorem take_zip' {β γ : Type} (n : Nat) (xs : List β) (ys : List γ) :
    (xs.zip ys).take n = (xs.take n).zip (ys.take n) := List.take_zipWith

/-- A part of the steps gives a part of the rows. -/
private theorem runRows_take : ∀ {steps : List (τ × Forcing α)} {s s' : SimState α} {df df' : SimTable α}
    {rows : List (Row α)}, runRows sv fuel c r fill names index s df steps = .ok (s', rows, df') → ∀ n,
    ∃ s1 df1, runRows sv fuel c r fill names index s df (steps.take n) = .ok (s1, rows.take n, df1) := by
  intro steps
  induction steps with
  | nil =>
    intro s s' df df' rows h n
    rw [runRows] at h
    cases h
    exact ⟨s, df, by simp [runRows]⟩
  | cons p rest ih =>
    intro s s' df df' rows h n
    cases n with
    | zero => exact ⟨s, df, by simp [runRows]⟩
    | succ n =>
      obtain ⟨u, f⟩ := p
      rw [runRows, bind_eq_ok] at h
      obtain ⟨⟨s1, o1⟩, h1, h⟩ := h
      simp only [bind_eq_ok] at h
      obtain ⟨df1, h2, row, h3, ⟨s2, rows2, df2⟩, h4, h⟩ := h
      rw [pure_eq_ok] at h
      cases h
      obtain ⟨s3, df3, e⟩ := ih h4 n
      refine ⟨s3, df3, ?_⟩
      rw [List.take_succ_cons, runRows, h1, ok_bind]
      simp only [h2, h3, e, ok_bind]
      rfl

private theorem runRows_length : ∀ {steps : List (τ × Forcing α)} {s s' : SimState α} {df df' : SimTable α}
    {rows : List (Row α)}, runRows sv fuel c r fill names index s df steps = .ok (s', rows, df') →
    rows.length = steps.length := by
  intro steps
  induction steps with
  | nil => intro s s' df df' rows h; rw [runRows] at h; cases h; rfl
  | cons p rest ih =>
    intro s s' df df' rows h
    obtain ⟨u, f⟩ := p
    rw [runRows, bind_eq_ok] at h
    obtain ⟨⟨s1, o1⟩, h1, h⟩ := h
    simp only [bind_eq_ok] at h
    obtain ⟨df1, h2, row, h3, ⟨s2, rows2, df2⟩, h4, h⟩ := h
    rw [pure_eq_ok] at h
    cases h
    simp [ih h4]

/-- After at least one step the column can be read. -/
private theorem runRows_readable : ∀ {steps : List (τ × Forcing α)} {s s' : SimState α} {df df' : SimTable α}
    {rows : List (Row α)}, runRows sv fuel c r fill names index s df steps = .ok (s', rows, df') → steps ≠ [] →
    (∃ hs, s'.grid.getHeight = .ok hs) ∧ (r.fullField = true → ¬ (r.maxLayers : Int) < s'.grid.getNumberLayers) := by
  intro steps
  induction steps with
  | nil => intro _ _ _ _ _ _ h; exact absurd rfl h
  | cons p rest ih =>
    intro s s' df df' rows h _
    obtain ⟨u, f⟩ := p
    rw [runRows, bind_eq_ok] at h
    obtain ⟨⟨s1, o1⟩, h1, h⟩ := h
    simp only [bind_eq_ok] at h
    obtain ⟨df1, h2, row, h3, ⟨s2, rows2, df2⟩, h4, h⟩ := h
    rw [pure_eq_ok] at h
    cases h
    by_cases hr : rest = []
    · subst hr
      rw [runRows] at h4
      cases h4
      unfold stepRow stepSeries Grid.getTotalHeight at h3
      simp only [bind_eq_ok] at h3
      obtain ⟨_, ⟨_, _, _, ⟨hs, hh, _⟩, _⟩, _⟩ := h3
      obtain ⟨S⟩ := step_stages h1
      exact ⟨⟨hs, hh⟩, fun hf => S.layers (by rw [hf]; rfl)⟩
    · exact ih h4 hr

private theorem getter_ok {β γ : Type} {g : Grid α} {f : Node α → β} {f' : Node α → γ} {xs : List β}
    (h : g.mapNodes (fun n => .ok (f n)) = .ok xs) : ∃ ys, g.mapNodes (fun n => .ok (f' n)) = .ok ys := by
  unfold Grid.mapNodes at h ⊢
  rw [mapM_eq_ok_iff] at h
  revert h
  generalize List.range g.numberNodes.toNat = is
  intro h
  induction h with
  | nil => exact ⟨[], rfl⟩
  | cons hx _ ih =>
    obtain ⟨ys, e⟩ := ih
    rw [bind_eq_ok] at hx
    obtain ⟨n, hn, _⟩ := hx
    refine ⟨f' n :: ys, ?_⟩
    rw [List.mapM_cons, hn, ok_bind, ok_bind, e, ok_bind]
    rfl

private theorem save_ok {g : Grid α} {hs : List α} (h : g.getHeight = .ok hs) {maxLayers : Nat}
    (hl : ¬ (maxLayers : Int) < g.getNumberLayers) : ∃ d, saveStandalone c fill maxLayers g = .ok d := by
  obtain ⟨_, e1⟩ := getter_ok (f' := fun n => n.density c) h
  obtain ⟨_, e2⟩ := getter_ok (f' := fun n => n.temperature) h
  obtain ⟨_, e3⟩ := getter_ok (f' := fun n => n.lwc) h
  obtain ⟨_, e4⟩ := getter_ok (f' := fun n => n.iceFraction) h
  unfold saveStandalone
  rw [h, ok_bind]
  unfold Grid.getDensity Grid.getTemperature Grid.getLwc Grid.getIceFraction
  rw [e1, ok_bind, e2, ok_bind, e3, ok_bind, e4, ok_bind, if_neg hl]
  exact ⟨_, rfl⟩

private theorem stakes_ok {st : Option (StakeInput α τ)} {df df' : SimTable α} {xs : List (PyVal α)}
    (h : stakeResult fill st df = .ok xs) : ∃ ys, stakeResult fill st df' = .ok ys ∧
      ∀ (i : Nat) (v : Val α), ys[i]? ≠ some (PyVal.arr v) ∧ xs[i]? ≠ some (PyVal.arr v) := by
  cases st with
  | none =>
    cases h
    refine ⟨_, rfl, fun i v => ?_⟩
    rcases i with _ | _ | _ | i <;> simp
  | some st =>
    have hx : ∀ {df : SimTable α} {xs : List (PyVal α)}, stakeResult fill (some st) df = .ok xs → ∀ (i : Nat) (v : Val α), xs[i]? ≠ some (PyVal.arr v) := by
      intro df xs h i v
      unfold stakeResult at h
      simp only [bind_eq_ok] at h
      obtain ⟨stat, _, h⟩ := h
      rw [pure_eq_ok] at h
      subst h
      rcases i with _ | _ | _ | i
      · simp
      · cases stat <;> simp
      · simp
      · simp
    have hy : ∃ ys, stakeResult fill (some st) df' = .ok ys := by
      unfold stakeResult at h ⊢
      simp only [bind_eq_ok] at h
      obtain ⟨stat, h1, h⟩ := h
      have : ∃ stat', evaluate st.evalMethod st.obsType st.names st.data df' = .ok stat' := by
        unfold evaluate rmse at h1 ⊢
        split_ifs at h1 ⊢ with he
        · simp only [bind_eq_ok] at h1
          obtain ⟨rs, ⟨sim, h2, h3⟩, -⟩ := h1
          have h2' : ∃ sim', obsColumn st.obsType df' = .ok sim' := by
            unfold obsColumn at h2 ⊢
            split_ifs at h2 ⊢ <;> exact ⟨_, rfl⟩
          obtain ⟨sim', h2'⟩ := h2'
          have h3' : ∃ rs', (st.names.mapM fun n => do
              let col ← stakeColumn st.data n
              return (n, rmseColumn col sim')) = .ok rs' := by
            rw [mapM_eq_ok_iff] at h3
            clear h
            revert h3
            generalize st.names = ns
            intro h3
            induction h3 with
            | nil => exact ⟨[], rfl⟩
            | cons hx _ ih =>
              obtain ⟨ys, e⟩ := ih
              rw [bind_eq_ok] at hx
              obtain ⟨col, hc, _⟩ := hx
              exact ⟨_ :: ys, by rw [List.mapM_cons, hc, ok_bind]; simp only [pure_bind]; rw [e]; rfl⟩
          obtain ⟨rs', h3'⟩ := h3'
          rw [h2', ok_bind, h3', ok_bind]
          exact ⟨_, rfl⟩
        · exact ⟨_, rfl⟩
      obtain ⟨stat', e⟩ := this
      simp only
      rw [e, ok_bind]
      exact ⟨_, rfl⟩
    obtain ⟨ys, e⟩ := hy
    exact ⟨ys, e, fun i v => ⟨hx e i v, hx h i v⟩⟩

variable [HasTrunc α]

private theorem body_ok {cfg : SelectCfg α} {times : List τ} {sh : Option α} {rs : Option (Dataset α)}
    {st : Option (StakeInput α τ)} {d : CellData α} {y x : Nat} {res : List (PyVal α)}
    (h : kernel sv fuel c r cfg fill times sh rs st d y x = .ok res) :
    ∃ g fs s rows df stakes ds, startColumn c d sh rs = .ok g ∧ prepare cfg d = .ok fs ∧ fs ≠ [] ∧
      runRows sv fuel c r fill ((st.map (·.names)).getD []) ((st.map (·.index)).getD []) (initState c r.wrf g)
        (SimTable.init ((st.map (·.index)).getD [])) (times.zip fs) = .ok (s, rows, df) ∧
      stakeResult fill st df = .ok stakes ∧ saveStandalone c fill r.maxLayers s.grid = .ok ds ∧
      res = .int y :: .int x :: .dataset (restartStore r.maxLayers fill ds) ::
        (((coreReturn.drop 3).take 39).map (returnedArray fill d.nt r.maxLayers r.fullField rows) ++ stakes) := by
  unfold kernel kernelBody at h
  rw [bind_eq_ok] at h
  obtain ⟨body, h, hb⟩ := h
  rw [pure_eq_ok] at hb
  rw [bind_eq_ok] at h
  obtain ⟨g, h1, h⟩ := h
  rw [bind_eq_ok] at h
  obtain ⟨fs, h2, h⟩ := h
  simp only at h
  rw [bind_eq_ok] at h
  obtain ⟨⟨s, rows, df⟩, h3, h⟩ := h
  simp only at h
  split_ifs at h with he
  simp only [bind_eq_ok] at h
  obtain ⟨stakes, h4, ds, h5, h⟩ := h
  rw [pure_eq_ok] at h
  refine ⟨g, fs, s, rows, df, stakes, ds, h1, h2, ?_, h3, h4, h5, by rw [← hb, ← h]⟩
  intro e
  rw [e] at he
  exact he rfl

private theorem start_until {n : Nat} {d d' : CellData α} (h : SameUntil n d d') (sh : Option α)
    (rs : Option (Dataset α)) : startColumn c d sh rs = startColumn c d' sh rs := by
  unfold startColumn
  cases rs with
  | some _ => rfl
  | none =>
    have := pyGet_congr h.pos h.t2
    simp only
    rw [show (0 : Int) = ((0 : Nat) : Int) from rfl, this]

/-- Arrays of rows that agree for `n` steps agree for `n` steps. -/
private theorem arrays_until {n : Nat} {rows rows' : List (Row α)} (hr : rows.take n = rows'.take n) {nt nt' : Nat}
    {name : String} {v : Val α} (hv : returnedArray fill nt r.maxLayers r.fullField rows name = .arr v) :
    ∃ v', returnedArray fill nt' r.maxLayers r.fullField rows' name = .arr v' ∧
      ∀ t k, t < n → v.val t k = v'.val t k := by
  have e : ∀ t, t < n → rows[t]? = rows'[t]? := by
    intro t ht
    have := congrArg (fun l => l[t]?) hr
    simpa [List.getElem?_take, ht] using this
  unfold returnedArray at hv ⊢
  split_ifs at hv ⊢ with h1 h2
  · cases hv
    refine ⟨_, rfl, fun t k ht => ?_⟩
    unfold layerArray
    simp only [e t ht]
  · cases hv
    refine ⟨_, rfl, fun t k ht => ?_⟩
    unfold seriesArray
    simp only [e t ht]

private theorem tuple_until {n : Nat} {rows rows' : List (Row α)} (hr : rows.take n = rows'.take n) {nt nt' : Nat}
    {y x : Nat} {w w' : Store (Val α)} {stakes stakes' : List (PyVal α)}
    (hs : ∀ (i : Nat) (v : Val α), stakes[i]? ≠ some (PyVal.arr v)) {i : Nat} {v : Val α}
    (hv : (PyVal.int y :: .int x :: .dataset w ::
      (((coreReturn.drop 3).take 39).map (returnedArray fill nt r.maxLayers r.fullField rows) ++ stakes))[i]? =
        some (PyVal.arr v)) :
    ∃ v', (PyVal.int y :: .int x :: .dataset w' ::
      (((coreReturn.drop 3).take 39).map (returnedArray fill nt' r.maxLayers r.fullField rows') ++ stakes'))[i]? =
        some (PyVal.arr v') ∧ ∀ t k, t < n → v.val t k = v'.val t k := by
  rcases i with _ | _ | _ | i
  · simp at hv
  · simp at hv
  · simp at hv
  · simp only [List.getElem?_cons_succ] at hv ⊢
    rw [List.getElem?_append] at hv ⊢
    rw [List.length_map] at hv ⊢
    split_ifs at hv ⊢ with hi
    · rw [List.getElem?_map] at hv ⊢
      cases hc : ((coreReturn.drop 3).take 39)[i]? with
      | none => rw [hc] at hv; cases hv
      | some name =>
        rw [hc] at hv
        simp only [Option.map_some, Option.some.injEq] at hv ⊢
        exact arrays_until hr hv
    · exact absurd hv (hs _ v)

/-! ### Theorems -/

/-- **C103**: two runs of a cell on inputs with the same first `n` records, from the same start and with the same settings,
return the same numbers for the first `n` steps, in every array of the result. -/
theorem C103_past {n : Nat} {d d' : CellData α} (h : SameUntil n d d') {cfg : SelectCfg α} {times times' : List τ}
    (ht : times.take n = times'.take n) {sh : Option α} {rs : Option (Dataset α)} {st : Option (StakeInput α τ)}
    {y x : Nat} {res res' : List (PyVal α)} (h1 : kernel sv fuel c r cfg fill times sh rs st d y x = .ok res)
    (h2 : kernel sv fuel c r cfg fill times' sh rs st d' y x = .ok res') {i : Nat} {v : Val α}
    (hv : res[i]? = some (PyVal.arr v)) :
    ∃ v', res'[i]? = some (PyVal.arr v') ∧ ∀ t k, t < n → v.val t k = v'.val t k := by
  obtain ⟨g, fs, s, rows, df, stakes, ds, a1, a2, -, a3, a4, -, rfl⟩ := body_ok h1
  obtain ⟨g', fs', s', rows', df', stakes', ds', b1, b2, -, b3, b4, -, rfl⟩ := body_ok h2
  rw [start_until h, b1] at a1
  cases a1
  obtain ⟨_, _, c1⟩ := runRows_take a3 n
  obtain ⟨_, _, c2⟩ := runRows_take b3 n
  rw [take_zip'] at c1 c2
  rw [ht, (prepare_until h a2 b2).1, c2] at c1
  simp only [Except.ok.injEq, Prod.mk.injEq] at c1
  obtain ⟨_, _, e⟩ := stakes_ok (df' := df) a4
  exact tuple_until c1.2.1.symm (fun i v => (e i v).2) hv

/-- **C103** (stopping early): if a run of a cell succeeds, the run over its first `n` records succeeds as well and
returns the first `n` steps of every array. The only other outcome is the ValueError for a column with more than
`max_layers` layers, which without `full_field` is noticed only at the end of a run. -/
theorem C103_shorter {n : Nat} {d : CellData α} (h0 : 0 < n) (hn : n ≤ d.nt) {cfg : SelectCfg α} {times : List τ}
    (ht : times.length = d.nt) {sh : Option α} {rs : Option (Dataset α)} {st : Option (StakeInput α τ)}
    {y x : Nat} {res : List (PyVal α)} (h1 : kernel sv fuel c r cfg fill times sh rs st d y x = .ok res) :
    (∃ res', kernel sv fuel c r cfg fill (times.take n) sh rs st (d.upTo n) y x = .ok res' ∧
      ∀ (i : Nat) (v : Val α), res[i]? = some (PyVal.arr v) →
        ∃ v', res'[i]? = some (PyVal.arr v') ∧ ∀ t k, t < n → v.val t k = v'.val t k) ∨
    (r.fullField = false ∧ kernel sv fuel c r cfg fill (times.take n) sh rs st (d.upTo n) y x = .error .value) := by
  have h := CellData.sameUntil_upTo h0 hn
  obtain ⟨g, fs, s, rows, df, stakes, ds, a1, a2, -, a3, a4, -, rfl⟩ := body_ok h1
  have b2 := prepare_upTo h0 hn a2
  have hl := (prepare_until h a2 b2).2.1
  obtain ⟨s1, df1, c1⟩ := runRows_take a3 n
  rw [take_zip'] at c1
  have hne : (times.take n).zip (fs.take n) ≠ [] := by
    intro e
    have := congrArg List.length e
    rw [List.length_zip, List.length_take, List.length_take, List.length_nil] at this
    omega
  have hfe : (fs.take n).isEmpty = false := by
    cases hf : fs.take n with
    | nil => rw [hf] at hne; simp at hne
    | cons _ _ => rfl
  obtain ⟨⟨hs, e1⟩, e2⟩ := runRows_readable c1 hne
  obtain ⟨ys, e3, e4⟩ := stakes_ok (df' := df1) a4
  rw [start_until h] at a1
  by_cases hm : (r.maxLayers : Int) < s1.grid.getNumberLayers
  · refine .inr ⟨by cases hf : r.fullField with | false => rfl | true => exact absurd hm (e2 hf), ?_⟩
    unfold kernel kernelBody
    rw [a1, ok_bind, b2, ok_bind]
    simp only
    rw [c1, ok_bind]
    simp only [hfe, Bool.false_eq_true, if_false]
    rw [e3, ok_bind]
    obtain ⟨_, f1⟩ := getter_ok (f' := fun n => n.density c) e1
    obtain ⟨_, f2⟩ := getter_ok (f' := fun n => n.temperature) e1
    obtain ⟨_, f3⟩ := getter_ok (f' := fun n => n.lwc) e1
    obtain ⟨_, f4⟩ := getter_ok (f' := fun n => n.iceFraction) e1
    unfold saveStandalone
    rw [e1, ok_bind]
    unfold Grid.getDensity Grid.getTemperature Grid.getLwc Grid.getIceFraction
    rw [f1, ok_bind, f2, ok_bind, f3, ok_bind, f4, ok_bind, if_pos hm]
    rfl
  · obtain ⟨ds1, e5⟩ := save_ok (c := c) (fill := fill) e1 hm
    refine .inl ⟨.int y :: .int x :: .dataset (restartStore r.maxLayers fill ds1) ::
        (((coreReturn.drop 3).take 39).map (returnedArray fill n r.maxLayers r.fullField (rows.take n)) ++ ys), ?_, ?_⟩
    · unfold kernel kernelBody
      rw [a1, ok_bind, b2, ok_bind]
      simp only
      rw [c1, ok_bind]
      simp only [hfe, Bool.false_eq_true, if_false]
      rw [e3, ok_bind, e5, ok_bind]
      rfl
    · intro i v hv
      exact tuple_until (by rw [List.take_take, Nat.min_self]) (fun i v => (e4 i v).2) hv

/-- **C103** (files): two runs of the program over periods that begin alike, with the same first `n` records in every glacier cell (and
the same start, slope and stakes), write the same values for these `n` times, for every wanted variable, cell and layer. The schedules
may differ. -/
theorem C103_file {n : Nat} {cfg : SelectCfg α} {times times' : List τ} (ht : times.take n = times'.take n) {sc sc' : StakeCfg}
    {io io' : IOState α} (hio : ∀ k, io.attrs k = none) (hio' : ∀ k, io'.attrs k = none) (hny : io'.ny = io.ny) (hnx : io'.nx = io.nx)
    {g nan nan' : Nat → Nat → Bool} {input : Nat → Nat → CellInput α τ} {data' : Nat → Nat → CellData α}
    (hs : ∀ y x, y < io.ny → x < io.nx → g y x = true → SameUntil n (input y x).data (data' y x))
    {order order' : List (Nat × Nat) → List (Nat × Nat)} (ho : ∀ l, (order l).Perm l) (ho' : ∀ l, (order' l).Perm l)
    {s s' : IOState α × StakeState α}
    (h : simulateDomain sv fuel c r cfg fill times sc io g nan input order = .ok s)
    (h' : simulateDomain sv fuel c r cfg fill times' sc' io' g nan' (fun y x => { input y x with data := data' y x }) order' = .ok s')
    {kind : OutKind} {name param : String} (hm : (kind, name, param) ∈ copyCalls) (hw : io.wants kind name = true)
    (hw' : io'.wants kind name = true) :
    ∃ a a' : Arr α, s.1.attrs (attrName kind name) = some a ∧ s'.1.attrs (attrName kind name) = some a' ∧
      ∀ t y x k, t < n → a.val t y x k = a'.val t y x k := by
  have own : ∀ {times : List τ} {input : Nat → Nat → CellInput α τ} (y x : Nat) (res : List (PyVal α)),
      kernel sv fuel c ((input y x).cfg r) cfg fill times (input y x).snowheight (input y x).restart (input y x).stakes
        (input y x).data y x = .ok res → ResultOf res y x := by
    intro times input y x res hr
    obtain ⟨_, _, _, _, _, _, _, -, -, -, -, -, -, rfl⟩ := body_ok hr
    exact ⟨rfl, rfl⟩
  unfold simulateDomain at h h'
  obtain ⟨a, e1, e2, e3, -⟩ := C46_written hio own ho h hm hw
  obtain ⟨a', f1, f2, f3, -⟩ := C46_written hio' own ho' h' hm hw'
  refine ⟨a, a', e1, f1, fun t y x k htn => ?_⟩
  by_cases hc : y < io.ny ∧ x < io.nx ∧ g y x = true
  · obtain ⟨res, i, v, a1, a2, a3, a4⟩ := e2 y x hc.1 hc.2.1 hc.2.2
    obtain ⟨res', i', v', b1, b2, b3, b4⟩ := f2 y x (hny ▸ hc.1) (hnx ▸ hc.2.1) hc.2.2
    obtain ⟨w, c1, c2⟩ := C103_past (hs y x hc.1 hc.2.1 hc.2.2) ht a1 b1 a3
    have hi : i = i' := by
      have hnd : coreReturn.Nodup := by decide +kernel
      have hi1 := (List.getElem?_eq_some_iff.1 a2).1
      exact (List.getElem?_inj hi1 hnd).1 (a2.trans b2.symm)
    subst hi
    rw [b3] at c1
    cases c1
    rw [a4, b4, c2 t k htn]
  · rw [e3 y x t k hc, f3 y x t k (by rw [hny, hnx]; exact hc)]


end

/-! ### A concrete cell -/

attribute [local instance] exTransc exTrunc in
/-- Two inputs that differ in the second hour. Both run, the first hour of the surface temperature and of the mass balance
is the same, the second hour of the snowfall is not. -/
example :
    let d' : CellData ℚ := { exCell with rrr := some [10, 8], snowfall := some [1/100, 1/50] }
    let go (d : CellData ℚ) : M (List (PyVal ℚ)) :=
      kernel exSolvers 40 exConstsQ exCfg exSel (-9999) [0, 1] (some (1/10)) none none d 0 0
    let value (d : CellData ℚ) (i t : Nat) : Option ℚ := match go d with
      | .ok res => match res[i]? with
        | some (.arr v) => some (v.val t 0)
        | _ => none
      | .error _ => none
    SameUntil 1 exCell d' ∧ (value exCell 4 0).isSome ∧ value exCell 4 0 = value d' 4 0 ∧ value exCell 11 0 = value d' 11 0 ∧
    (value d' 4 1).isSome ∧ value exCell 4 1 ≠ value d' 4 1 := by
  refine ⟨⟨by decide, by decide, by decide, rfl, rfl, rfl, rfl, rfl, rfl, rfl, rfl, rfl⟩, ?_⟩
  decide +kernel

attribute [local instance] exTransc exTrunc in
/-- Two domains whose cells differ in the second hour. -/
example :
    let d' : CellData ℚ := { exCell with rrr := some [10, 8], snowfall := some [1/100, 1/50] }
    (∀ k, exIOQ.attrs k = none) ∧ (∀ y x, SameUntil 1 (exInput y x).data d') ∧
    raised (simulateDomain exSolvers 40 exConstsQ exCfg exSel (-9999) [0, 1] ⟨false, false, false⟩ exIOQ exMask (fun _ _ => false)
      exInput List.reverse) = none ∧
    raised (simulateDomain exSolvers 40 exConstsQ exCfg exSel (-9999) [0, 1] ⟨false, false, false⟩ exIOQ exMask (fun _ _ => false)
      (fun y x => { exInput y x with data := d' }) id) = none ∧ exIOQ.wants .atm "LWin" = true := by
  refine ⟨fun _ => rfl, fun _ _ => ⟨by decide, show 1 ≤ exCell.nt by decide, by decide, rfl, rfl, rfl, rfl, rfl, rfl, rfl, rfl, rfl⟩, ?_⟩
  decide +kernel

end Cosipy
