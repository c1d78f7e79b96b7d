import Verif.Model.Stake
import Verif.Model.Real
import Verif.Props.C33
import Verif.Props.C01
import Verif.Lemmas.Example

/-!
# C60 Cumulative mass balance is the sum of the step balances

`C60_run`: recording stakes does not change the simulation. `C60_mass_balance`, `C60_snow_height`: at every measured
time that is simulated the table holds the sum of the balances recorded from the start through that time, and the snow
height of that time; other times stay missing. `C60_rmse`: the score of a column is the root of the mean squared residual
over the rows in which both values are present, missing exactly if there are none; never negative; zero exactly if all
these residuals vanish. `C60_evaluate`: the outcomes of the evaluation. "From the start" means from the start of the
present process: a resumed run starts at zero again (`C60_resume`), so its values are lower by the balance before the
interruption.
-/

set_option autoImplicit false
set_option linter.unusedSectionVars false

namespace Cosipy
section
variable {K : Type} [Field K] [LinearOrder K] [IsStrictOrderedRing K] [Transc K] {τ : Type} [DecidableEq τ]
variable {sv : Solvers K} {fuel : Nat} {c : Consts K} {r : RunCfg K} {names : List String} {index : List τ}

theorem runStakes_cons {s s' : SimState K} {df df' : SimTable K} {t : τ} {f : Forcing K} {rest : List (τ × Forcing K)}
    {os : List (StepOut K)} (h : runStakes sv fuel c r names index s df ((t, f) :: rest) = .ok (s', os, df')) :
    ∃ s1 o1 df1 os1, step sv fuel c r s f = .ok (s1, o1) ∧ recordStakes c names index df t s1 = .ok df1 ∧
      runStakes sv fuel c r names index s1 df1 rest = .ok (s', os1, df') ∧ os = o1 :: os1 := by
  rw [runStakes, bind_eq_ok] at h
  obtain ⟨⟨s1, o1⟩, h1, h⟩ := h
  simp only [bind_eq_ok] at h
  obtain ⟨df1, h2, ⟨s2, os2, df2⟩, h3, h⟩ := h
  rw [pure_eq_ok] at h; cases h
  exact ⟨s1, o1, df1, os2, h1, h2, h3, rfl⟩

/-- **C60, the simulation is the same with and without stakes.** -/
theorem C60_run : ∀ {steps : List (τ × Forcing K)} {s s' : SimState K} {df df' : SimTable K} {os : List (StepOut K)},
    runStakes sv fuel c r names index s df steps = .ok (s', os, df') →
    run sv fuel c r s (steps.map Prod.snd) = .ok (s', os) := by
  intro steps
  induction steps with
  | nil => intro s s' df df' os h; rw [runStakes] at h; cases h; rfl
  | cons p rest ih =>
    intro s s' df df' os h
    obtain ⟨t, f⟩ := p
    obtain ⟨s1, o1, df1, os1, h1, _, h3, rfl⟩ := runStakes_cons h
    rw [List.map_cons, run, h1, ok_bind]
    simp only [ih h3, ok_bind]
    rfl

/-- **C60, stakes do not make a run fail**: from a well-formed column, if the simulation returns, so does the one with
stakes. -/
theorem C60_returns : ∀ {steps : List (τ × Forcing K)} {s s' : SimState K} {df : SimTable K} {os : List (StepOut K)},
    s.grid.WF → run sv fuel c r s (steps.map Prod.snd) = .ok (s', os) →
    ∃ df', runStakes sv fuel c r names index s df steps = .ok (s', os, df') := by
  intro steps
  induction steps with
  | nil => intro s s' df os _ h; rw [List.map_nil, run] at h; cases h; exact ⟨df, rfl⟩
  | cons p rest ih =>
    intro s s' df os hw h
    obtain ⟨t, f⟩ := p
    obtain ⟨s1, o1, os1, h1, h2, rfl⟩ := run_cons h
    have hw1 := C01_step hw h1
    obtain ⟨df1, hd⟩ : ∃ df1, recordStakes c names index df t s1 = .ok df1 := by
      unfold recordStakes
      split_ifs
      · exact ⟨_, rfl⟩
      · rw [Grid.getTotalSnowheight_eq hw1, ok_bind]; exact ⟨_, rfl⟩
      · exact ⟨_, rfl⟩
    obtain ⟨df', h'⟩ := ih (df := df1) hw1 h2
    refine ⟨df', ?_⟩
    rw [runStakes, h1, ok_bind]
    simp only [hd, ok_bind, h']
    rfl

theorem setLoc_get {col : List (Option K)} {t u : τ} {v : K} {i : Nat} {x : Option K} (hi : index[i]? = some u)
    (hx : col[i]? = some x) : (setLoc index col t v)[i]? = some (if u = t then some v else x) := by
  unfold setLoc
  rw [List.getElem?_zipWith, hi, hx]

/-- What one recording does to a row. -/
theorem recordStakes_get (hn : names ≠ []) {df df1 : SimTable K} {t u : τ} {s : SimState K} {i : Nat} {x y : Option K}
    (hi : index[i]? = some u) (hx : df.mb[i]? = some x) (hy : df.snowheight[i]? = some y)
    (h : recordStakes c names index df t s = .ok df1) :
    (u ≠ t → df1.mb[i]? = some x ∧ df1.snowheight[i]? = some y) ∧
    (u = t → df1.mb[i]? = some (some s.mbCum) ∧
      ∃ v, s.grid.getTotalSnowheight c = .ok v ∧ df1.snowheight[i]? = some (some v)) := by
  unfold recordStakes at h
  rw [if_neg hn] at h
  split_ifs at h with hmem
  · simp only [bind_eq_ok] at h
    obtain ⟨v, hv, h⟩ := h
    rw [pure_eq_ok] at h; subst h
    refine ⟨fun hne => ?_, fun he => ?_⟩
    · exact ⟨by rw [setLoc_get hi hx, if_neg hne], by rw [setLoc_get hi hy, if_neg hne]⟩
    · exact ⟨by rw [setLoc_get hi hx, if_pos he], v, hv, by rw [setLoc_get hi hy, if_pos he]⟩
  · cases h
    refine ⟨fun _ => ⟨hx, hy⟩, fun he => ?_⟩
    subst he
    exact absurd (List.mem_of_getElem? hi) hmem

theorem recordStakes_row {df df1 : SimTable K} {t u : τ} {s : SimState K} {i : Nat} {x y : Option K}
    (hi : index[i]? = some u) (hx : df.mb[i]? = some x) (hy : df.snowheight[i]? = some y)
    (h : recordStakes c names index df t s = .ok df1) : ∃ x' y', df1.mb[i]? = some x' ∧ df1.snowheight[i]? = some y' := by
  by_cases hn : names = []
  · unfold recordStakes at h
    rw [if_pos hn] at h; cases h; exact ⟨x, y, hx, hy⟩
  · by_cases he : u = t
    · obtain ⟨a, v, _, b⟩ := (recordStakes_get hn hi hx hy h).2 he
      exact ⟨_, _, a, b⟩
    · obtain ⟨a, b⟩ := (recordStakes_get hn hi hx hy h).1 he
      exact ⟨_, _, a, b⟩

/-- A row whose time is not simulated keeps its values. -/
theorem runStakes_miss (hn : names ≠ []) : ∀ {steps : List (τ × Forcing K)} {s s' : SimState K} {df df' : SimTable K}
    {os : List (StepOut K)} {i : Nat} {u : τ} {x y : Option K}, index[i]? = some u → df.mb[i]? = some x →
    df.snowheight[i]? = some y → u ∉ steps.map Prod.fst →
    runStakes sv fuel c r names index s df steps = .ok (s', os, df') →
    df'.mb[i]? = some x ∧ df'.snowheight[i]? = some y := by
  intro steps
  induction steps with
  | nil => intro s s' df df' os i u x y _ hx hy _ h; rw [runStakes] at h; cases h; exact ⟨hx, hy⟩
  | cons p rest ih =>
    intro s s' df df' os i u x y hi hx hy hu h
    obtain ⟨t, f⟩ := p
    obtain ⟨s1, o1, df1, os1, h1, h2, h3, rfl⟩ := runStakes_cons h
    simp only [List.map_cons, List.mem_cons, not_or] at hu
    obtain ⟨a, b⟩ := (recordStakes_get hn hi hx hy h2).1 hu.1
    exact ih hi a b hu.2 h3

theorem runStakes_hit (hn : names ≠ []) : ∀ {pre post : List (τ × Forcing K)} {f : Forcing K} {s s' : SimState K}
    {df df' : SimTable K} {os : List (StepOut K)} {i : Nat} {u : τ} {x y : Option K}, index[i]? = some u →
    df.mb[i]? = some x → df.snowheight[i]? = some y → u ∉ post.map Prod.fst →
    runStakes sv fuel c r names index s df (pre ++ (u, f) :: post) = .ok (s', os, df') →
    df'.mb[i]? = some (some (s.mbCum + ((os.take (pre.length + 1)).map StepOut.mb).sum)) ∧
    ∃ s1 v, run sv fuel c r s ((pre ++ [(u, f)]).map Prod.snd) = .ok (s1, os.take (pre.length + 1)) ∧
      s1.grid.getTotalSnowheight c = .ok v ∧ df'.snowheight[i]? = some (some v) := by
  intro pre
  induction pre with
  | nil =>
    intro post f s s' df df' os i u x y hi hx hy hu h
    obtain ⟨s1, o1, df1, os1, h1, h2, h3, rfl⟩ := runStakes_cons h
    obtain ⟨a, v, hv, b⟩ := (recordStakes_get hn hi hx hy h2).2 rfl
    obtain ⟨a', b'⟩ := runStakes_miss hn hi a b hu h3
    obtain ⟨st⟩ := step_stages h1
    refine ⟨?_, s1, v, ?_, hv, b'⟩
    · rw [a', st.mbCum]; simp
    · simp only [List.nil_append, List.map_cons, List.map_nil, List.length_nil, zero_add, List.take_succ_cons, List.take_zero]
      rw [run, h1, ok_bind]; rfl
  | cons p pre ih =>
    intro post f s s' df df' os i u x y hi hx hy hu h
    obtain ⟨t, f0⟩ := p
    rw [List.cons_append] at h
    obtain ⟨s1, o1, df1, os1, h1, h2, h3, rfl⟩ := runStakes_cons h
    obtain ⟨x', y', hx', hy'⟩ := recordStakes_row hi hx hy h2
    obtain ⟨a, s2, v, hr, hv, b⟩ := ih hi hx' hy' hu h3
    obtain ⟨st⟩ := step_stages h1
    refine ⟨?_, s2, v, ?_, hv, b⟩
    · rw [a, st.mbCum]
      simp only [List.length_cons, List.take_succ_cons, List.map_cons, List.sum_cons]
      rw [add_assoc]
    · simp only [List.length_cons, List.take_succ_cons, List.cons_append, List.map_cons]
      rw [run, h1, ok_bind]
      simp only [hr, ok_bind]
      rfl

theorem init_row {index : List τ} {i : Nat} {u : τ} (hi : index[i]? = some u) :
    (SimTable.init index : SimTable K).mb[i]? = some none ∧ (SimTable.init index : SimTable K).snowheight[i]? = some none := by
  have hl : i < index.length := (List.getElem?_eq_some_iff.1 hi).1
  simp [SimTable.init, List.getElem?_replicate, hl]

/-- **C60, cumulative mass balance.** A cell with stakes, started as `cosipy_core` starts it: in the row of a measured time
`u`, the table holds the sum of the recorded balances of all steps up to and including the (last) one at `u`; if `u`
is not simulated, the value is missing. -/
theorem C60_mass_balance (hn : names ≠ []) {wrf : Bool} {g : Grid K} {steps : List (τ × Forcing K)} {s' : SimState K}
    {df' : SimTable K} {os : List (StepOut K)} {i : Nat} {u : τ} (hi : index[i]? = some u)
    (h : runStakes sv fuel c r names index (initState c wrf g) (SimTable.init index) steps = .ok (s', os, df')) :
    (∀ pre f post, steps = pre ++ (u, f) :: post → u ∉ post.map Prod.fst →
      df'.mb[i]? = some (some ((os.take (pre.length + 1)).map StepOut.mb).sum)) ∧
    (u ∉ steps.map Prod.fst → df'.mb[i]? = some none) := by
  obtain ⟨hx, hy⟩ := init_row (K := K) hi
  refine ⟨fun pre f post e hu => ?_, fun hu => (runStakes_miss hn hi hx hy hu h).1⟩
  subst e
  have := (runStakes_hit hn hi hx hy hu h).1
  rw [this]; simp [initState]

/-- **C60, snow height.** Likewise the snow height column holds the total snow height of the column after that step. -/
theorem C60_snow_height (hn : names ≠ []) {wrf : Bool} {g : Grid K} {steps : List (τ × Forcing K)} {s' : SimState K}
    {df' : SimTable K} {os : List (StepOut K)} {i : Nat} {u : τ} (hi : index[i]? = some u)
    (h : runStakes sv fuel c r names index (initState c wrf g) (SimTable.init index) steps = .ok (s', os, df')) :
    (∀ pre f post, steps = pre ++ (u, f) :: post → u ∉ post.map Prod.fst →
      ∃ s1 os1 v, run sv fuel c r (initState c wrf g) ((pre ++ [(u, f)]).map Prod.snd) = .ok (s1, os1) ∧
        s1.grid.getTotalSnowheight c = .ok v ∧ df'.snowheight[i]? = some (some v)) ∧
    (u ∉ steps.map Prod.fst → df'.snowheight[i]? = some none) := by
  obtain ⟨hx, hy⟩ := init_row (K := K) hi
  refine ⟨fun pre f post e hu => ?_, fun hu => (runStakes_miss hn hi hx hy hu h).2⟩
  subst e
  obtain ⟨_, s1, v, hr, hv, b⟩ := runStakes_hit hn hi hx hy hu h
  exact ⟨s1, _, v, hr, hv, b⟩

/-- **C60, cells without stakes** record nothing. -/
theorem C60_no_stakes : ∀ {steps : List (τ × Forcing K)} {s s' : SimState K} {df df' : SimTable K} {os : List (StepOut K)},
    runStakes sv fuel c r [] index s df steps = .ok (s', os, df') → df' = df := by
  intro steps
  induction steps with
  | nil => intro s s' df df' os h; rw [runStakes] at h; cases h; rfl
  | cons p rest ih =>
    intro s s' df df' os h
    obtain ⟨t, f⟩ := p
    obtain ⟨s1, o1, df1, os1, h1, h2, h3, rfl⟩ := runStakes_cons h
    unfold recordStakes at h2
    rw [if_pos rfl] at h2; cases h2
    exact ih h3

/-- **C60, resumed runs start at zero.** If the uninterrupted run recorded the balances `first ++ second` and the resumed
one records `second`, the value the uninterrupted run compares with a stake exceeds the one of the resumed run by the
whole balance before the interruption. -/
theorem C60_resume {wrf : Bool} {g g2 : Grid K} {fs1 fs2 : List (Forcing K)} {s s2 : SimState K} {first second : List (StepOut K)}
    (h : run sv fuel c r (initState c wrf g) (fs1 ++ fs2) = .ok (s, first ++ second))
    (h2 : run sv fuel c r (initState c wrf g2) fs2 = .ok (s2, second)) :
    s.mbCum = s2.mbCum + (first.map StepOut.mb).sum := by
  rw [C33_cumulative h, C33_cumulative h2]
  simp only [initState, List.map_append, List.sum_append]
  ring

/-- Rows in which both values are present. -/
def bothPresent (obs sim : List (Option K)) : List (K × K) :=
  (obs.zip sim).filterMap fun p => p.1.bind fun a => p.2.map fun b => (a, b)

theorem residuals_eq : ∀ (obs sim : List (Option K)), residuals obs sim = (bothPresent obs sim).map fun p => p.1 - p.2
  | [], _ => by simp [residuals, bothPresent]
  | _ :: _, [] => by simp [residuals, bothPresent]
  | none :: xs, y :: ys => by
    have := residuals_eq xs ys
    simp [residuals, bothPresent] at this ⊢
    exact this
  | some a :: xs, none :: ys => by
    have := residuals_eq xs ys
    simp [residuals, bothPresent] at this ⊢
    exact this
  | some a :: xs, some b :: ys => by
    have := residuals_eq xs ys
    simp [residuals, bothPresent] at this ⊢
    exact this

/-- **C60, which evaluations succeed.** A method other than `rmse` gives no result; an observation type other than `mb` and
`snowheight` raises NotImplementedError; otherwise the result has one score per stake, in order, or KeyError is raised
because a stake has no measurements. -/
theorem C60_evaluate (method obsType : String) (names : List String) (data : List (String × List (Option K))) (df : SimTable K) :
    (method ≠ "rmse" → evaluate method obsType names data df = .ok none) ∧
    (method = "rmse" → obsType ≠ "mb" → obsType ≠ "snowheight" →
      evaluate method obsType names data df = .error .notImpl) ∧
    (method = "rmse" → ∀ sim, (obsType = "mb" ∧ sim = df.mb ∨ obsType = "snowheight" ∧ sim = df.snowheight) →
      ((∀ n ∈ names, ∃ p ∈ data, p.1 = n) →
        ∃ rs, evaluate method obsType names data df = .ok (some rs) ∧
          List.Forall₂ (fun n q => ∃ col, (n, col) ∈ data ∧ q = (n, rmseColumn col sim)) names rs) ∧
      ((∃ n ∈ names, ∀ p ∈ data, p.1 ≠ n) → evaluate method obsType names data df = .error .key)) := by
  refine ⟨fun h => ?_, fun h h1 h2 => ?_, fun h sim hs => ?_⟩
  · unfold evaluate; rw [if_neg h]
  · unfold evaluate rmse obsColumn; rw [if_pos h, if_neg h1, if_neg h2]; rfl
  · have hsim : obsColumn obsType df = .ok sim := by
      unfold obsColumn
      rcases hs with ⟨rfl, rfl⟩ | ⟨rfl, rfl⟩
      · rw [if_pos rfl]
      · rw [if_neg (by decide), if_pos rfl]
    have hcol : ∀ n, (∃ p ∈ data, p.1 = n) → ∃ col, (n, col) ∈ data ∧ stakeColumn data n = .ok col := by
      rintro n ⟨p, hp, rfl⟩
      unfold stakeColumn
      cases hf : data.find? (fun q => q.1 == p.1) with
      | none =>
        have := List.find?_eq_none.1 hf p hp
        simp at this
      | some q =>
        refine ⟨q.2, ?_, rfl⟩
        have h1 : q.1 = p.1 := by simpa using List.find?_some hf
        have h2 := List.mem_of_find?_eq_some hf
        rw [← h1]; exact h2
    refine ⟨fun hall => ?_, fun hex => ?_⟩
    · have : ∃ rs, (names.mapM fun n => do
            let col ← stakeColumn data n
            return (n, rmseColumn col sim)) = .ok rs ∧
          List.Forall₂ (fun n q => ∃ col, (n, col) ∈ data ∧ q = (n, rmseColumn col sim)) names rs := by
        clear h hs
        induction names with
        | nil => exact ⟨[], rfl, .nil⟩
        | cons n ns ih =>
          obtain ⟨rs, h1, h2⟩ := ih fun m hm => hall m (by simp [hm])
          obtain ⟨col, c1, c2⟩ := hcol n (hall n (by simp))
          refine ⟨(n, rmseColumn col sim) :: rs, ?_, .cons ⟨col, c1, rfl⟩ h2⟩
          rw [List.mapM_cons, c2, ok_bind]
          simp only [pure_bind]
          rw [h1]; rfl
      obtain ⟨rs, h1, h2⟩ := this
      refine ⟨rs, ?_, h2⟩
      unfold evaluate rmse
      rw [if_pos h, hsim, ok_bind, h1]; rfl
    · have : (names.mapM fun n => do
            let col ← stakeColumn data n
            return (n, rmseColumn col sim)) = .error .key := by
        clear h hs
        induction names with
        | nil => obtain ⟨n, hn, _⟩ := hex; cases hn
        | cons n ns ih =>
          rw [List.mapM_cons]
          by_cases hp : ∃ p ∈ data, p.1 = n
          · obtain ⟨col, c1, c2⟩ := hcol n hp
            rw [c2, ok_bind]
            simp only [pure_bind]
            rw [ih (by
              obtain ⟨m, hm, hmd⟩ := hex
              rcases List.mem_cons.1 hm with rfl | hm
              · obtain ⟨p, hp1, hp2⟩ := hp
                exact absurd hp2 (hmd p hp1)
              · exact ⟨m, hm, hmd⟩)]
            rfl
          · have : stakeColumn data n = .error .key := by
              unfold stakeColumn
              have : data.find? (fun q => q.1 == n) = none := by
                rw [List.find?_eq_none]
                intro p hp1
                have : p.1 ≠ n := fun e => hp ⟨p, hp1, e⟩
                simpa using this
              rw [this]
            rw [this]; rfl
      unfold evaluate rmse
      rw [if_pos h, hsim, ok_bind, this]; rfl

end

section Reals

/-- **C60, the score.** With `rs` the differences of measured and simulated values in the rows that have both: no such row,
no score; otherwise the score is `√(Σ rs² / n)`, so its square times `n` is the sum of the squares; it is not negative,
and zero exactly if every difference is zero. -/
theorem C60_rmse (obs sim : List (Option ℝ)) :
    (rmseColumn obs sim = none ↔ bothPresent obs sim = []) ∧
    (∀ x, rmseColumn obs sim = some x → 0 ≤ x ∧
      x * x * ((bothPresent obs sim).length : ℝ) = ((bothPresent obs sim).map fun p => (p.1 - p.2) ^ 2).sum ∧
      (x = 0 ↔ ∀ p ∈ bothPresent obs sim, p.1 = p.2)) := by
  unfold rmseColumn
  rw [residuals_eq]
  generalize bothPresent obs sim = ps
  cases ps with
  | nil => simp
  | cons p ps =>
    simp only [List.map_cons, reduceCtorEq]
    refine ⟨by simp, ?_⟩
    intro x hx
    have hx := Option.some.inj hx
    have hn : (0 : ℝ) < ((p :: ps).length : ℝ) := by simp only [List.length_cons]; positivity
    have hsum : ∀ qs : List (ℝ × ℝ), 0 ≤ (qs.map fun p => (p.1 - p.2) ^ 2).sum ∧
        ((qs.map fun p => (p.1 - p.2) ^ 2).sum = 0 ↔ ∀ q ∈ qs, q.1 = q.2) := by
      intro qs
      induction qs with
      | nil => simp
      | cons q qs ih =>
        simp only [List.map_cons, List.sum_cons, List.mem_cons, forall_eq_or_imp]
        have h1 := sq_nonneg (q.1 - q.2)
        refine ⟨by linarith [ih.1], ?_⟩
        rw [← ih.2]
        constructor
        · intro h
          have h2 : (q.1 - q.2) ^ 2 = 0 := by linarith [ih.1]
          have := pow_eq_zero_iff (two_ne_zero) |>.1 h2
          exact ⟨by linarith, by linarith [ih.1]⟩
        · rintro ⟨h2, h3⟩
          rw [h2, h3]; simp
    have hx' : x = Real.sqrt (((p :: ps).map fun p => (p.1 - p.2) ^ 2).sum / ((p :: ps).length : ℝ)) := by
      rw [← hx]
      have e : pySum ((p.1 - p.2) * (p.1 - p.2) :: (ps.map fun p => p.1 - p.2).map fun x => x * x) =
          ((p :: ps).map fun p => (p.1 - p.2) ^ 2).sum := by
        rw [pySum_eq]
        simp only [List.map_map, List.map_cons, List.sum_cons, Function.comp_def, pow_two]
      have e2 : (((p.1 - p.2) :: ps.map fun p => p.1 - p.2).length : ℝ) = ((p :: ps).length : ℝ) := by simp
      show Real.sqrt _ = _
      rw [e, e2]
    obtain ⟨h0, hz⟩ := hsum (p :: ps)
    have hq : 0 ≤ ((p :: ps).map fun p => (p.1 - p.2) ^ 2).sum / ((p :: ps).length : ℝ) := div_nonneg h0 hn.le
    refine ⟨by rw [hx']; exact Real.sqrt_nonneg _, ?_, ?_⟩
    · rw [hx', Real.mul_self_sqrt hq, div_mul_cancel₀ _ hn.ne']; rfl
    · rw [hx', Real.sqrt_eq_zero hq, div_eq_zero_iff]
      constructor
      · rintro (h | h)
        · exact hz.1 h
        · exact absurd h hn.ne'
      · intro h; exact Or.inl (hz.2 h)

/-- Non-vacuity: two rows have both values; the residuals are 1 and 0. -/
example : bothPresent [some (3 : ℝ), none, some 4, some 5] [some 2, some 1, none, some 5] = [(3, 2), (5, 5)] := by
  simp [bothPresent]

end Reals

attribute [local instance] exTransc in
/-- Non-vacuity: three simulated hours, measurements in the second and outside; the run returns and the row of the second
hour holds two balances. -/
example : (runStakes exSolvers 40 exConsts exCfg ["s1"] [2, 9] (initState exConsts false exGrid) (SimTable.init [2, 9])
      [(1, exSnow), (2, exDry), (3, exDry)]).map (fun r => (r.2.2.mb.map Option.isSome, r.2.2.snowheight.map Option.isSome)) =
      .ok ([true, false], [true, false]) ∧
    (runStakes exSolvers 40 exConsts exCfg ["s1"] [2, 9] (initState exConsts false exGrid) (SimTable.init [2, 9])
      [(1, exSnow), (2, exDry), (3, exDry)]).map (fun r => r.2.2.mb.head?) =
    (exRun [exSnow, exDry]).map (fun r => some (some ((r.2.map StepOut.mb).sum))) := by decide +kernel

end Cosipy
