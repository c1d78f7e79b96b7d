import Verif.Model.Select
import Verif.Lemmas.Basic
import Verif.Lemmas.Erase
import Verif.Lemmas.StepInv
import Verif.Lemmas.Example
import Verif.Spec.Column

/-!
# C57 Every combination of optional forcings is handled

The optional inputs of a cell are SNOWFALL, RRR, LWin and N, the flags `force_use_TP` and `force_use_N`. What a step reads
is given by `ReadsAs` in terms of the input arrays alone. A combination is `Supported` if total precipitation is there and
longwave radiation can be read or computed; the theorems show that exactly these run, which error the others raise, and
which inputs have no influence.

The property as first stated asked for a documented ValueError in every other case. That is false (`C57_refuted`), hence
`C57_outcome_partial`.
-/

set_option autoImplicit false
set_option linter.unusedSectionVars false

namespace Cosipy

/-- All arrays of a cell have the length of the time axis. -/
structure CellData.Sized {α : Type} (d : CellData α) : Prop where
  t2 : d.t2.length = d.nt
  rh2 : d.rh2.length = d.nt
  pres : d.pres.length = d.nt
  g : d.g.length = d.nt
  u2 : d.u2.length = d.nt
  snowfall : ∀ l, d.snowfall = some l → l.length = d.nt
  rrr : ∀ l, d.rrr = some l → l.length = d.nt
  lwin : ∀ l, d.lwin = some l → l.length = d.nt
  n : ∀ l, d.n = some l → l.length = d.nt

/-- Value at time `t` of an input that may be missing. -/
def inputAt {α : Type} (x : Option (List α)) (t : Nat) : Option α := x.bind fun l => l[t]?

/-- `f` is what step `t` has to see: the measured values, precipitation and snowfall times the factor, snowfall hidden by
`force_use_TP`, longwave radiation hidden by `force_use_N`. -/
structure ReadsAs {α : Type} [Mul α] (cfg : SelectCfg α) (d : CellData α) (t : Nat) (f : Forcing α) : Prop where
  t2 : d.t2[t]? = some f.t2
  rh2 : d.rh2[t]? = some f.rh2
  pres : d.pres[t]? = some f.pres
  g : d.g[t]? = some f.g
  u2 : d.u2[t]? = some f.u2
  snowf : f.snowf = if cfg.forceTP then none else (inputAt d.snowfall t).map (· * cfg.multFactor)
  rrr : f.rrr = (inputAt d.rrr t).map (· * cfg.multFactor)
  lwin : f.lwin = if cfg.forceN then none else inputAt d.lwin t
  n : f.n = inputAt d.n t

/-- Total precipitation is given, and cloud cover or usable longwave radiation. -/
def Supported {α : Type} (cfg : SelectCfg α) (d : CellData α) : Prop :=
  d.rrr.isSome ∧ (d.n.isSome ∨ (d.lwin.isSome ∧ cfg.forceN = false))

section
variable {α : Type} [Mul α]

theorem pyGet_of_lt {β : Type} {xs : List β} {t : Nat} (h : t < xs.length) : pyGet xs (t : Int) = .ok xs[t] :=
  pyGet_nat (List.getElem?_eq_getElem h)

/-- The selection in closed form, when nothing raises. -/
theorem selectInputs_ok (cfg : SelectCfg α) (d : CellData α) (h1 : d.snowfall.isSome ∨ d.rrr.isSome)
    (h2 : d.lwin.isSome ∨ d.n.isSome) :
    selectInputs cfg d = .ok ⟨if cfg.forceTP then none else d.snowfall.map (scaleBy cfg.multFactor),
      d.rrr.map (scaleBy cfg.multFactor), if cfg.forceN then none else d.lwin,
      match d.n with | some n => n.map some | none => List.replicate d.nt none⟩ := by
  obtain ⟨nt, t2, rh2, pres, g, u2, s, r, l, n⟩ := d
  obtain ⟨k, ft, fn⟩ := cfg
  cases s <;> cases r <;> cases l <;> cases n <;> cases ft <;> cases fn <;>
    first
    | rfl
    | exact absurd h1 (show ¬ (false = true ∨ false = true) from fun h => h.elim Bool.false_ne_true Bool.false_ne_true)
    | exact absurd h2 (show ¬ (false = true ∨ false = true) from fun h => h.elim Bool.false_ne_true Bool.false_ne_true)

theorem optAt_ok {β : Type} {xs : Option (List β)} {nt t : Nat} (h : ∀ l, xs = some l → l.length = nt) (ht : t < nt) :
    optAt xs t = .ok (inputAt xs t) := by
  cases xs with
  | none => rfl
  | some l =>
    have hl : t < l.length := by rw [h l rfl]; exact ht
    simp only [optAt, inputAt, Option.bind_some, List.getElem?_eq_getElem hl]
    rw [pyGet_of_lt hl]; rfl

theorem inputAt_map {β γ : Type} (g : β → γ) (xs : Option (List β)) (t : Nat) :
    inputAt (xs.map fun l => l.map g) t = (inputAt xs t).map g := by
  cases xs <;> simp [inputAt]

/-- **C57, selection.** If precipitation is given in one of the two forms and longwave information in one of the two, the
step `t` sees exactly the values described by `ReadsAs`, for every step. -/
theorem C57_prepare (cfg : SelectCfg α) {d : CellData α} (hd : d.Sized) (h1 : d.snowfall.isSome ∨ d.rrr.isSome)
    (h2 : d.lwin.isSome ∨ d.n.isSome) :
    ∃ fs, prepare cfg d = .ok fs ∧ fs.length = d.nt ∧ ∀ t f, fs[t]? = some f → ReadsAs cfg d t f := by
  have key : ∀ t, t < d.nt → ∃ f, forcingAt d ⟨if cfg.forceTP then none else d.snowfall.map (scaleBy cfg.multFactor),
      d.rrr.map (scaleBy cfg.multFactor), if cfg.forceN then none else d.lwin,
      match d.n with | some n => n.map some | none => List.replicate d.nt none⟩ t = .ok f ∧ ReadsAs cfg d t f := by
    intro t ht
    have a1 : t < d.t2.length := by rw [hd.t2]; exact ht
    have a2 : t < d.rh2.length := by rw [hd.rh2]; exact ht
    have a3 : t < d.pres.length := by rw [hd.pres]; exact ht
    have a4 : t < d.g.length := by rw [hd.g]; exact ht
    have a5 : t < d.u2.length := by rw [hd.u2]; exact ht
    have b1 : optAt (if cfg.forceTP then none else d.snowfall.map (scaleBy cfg.multFactor)) t =
        .ok (if cfg.forceTP then none else (inputAt d.snowfall t).map (· * cfg.multFactor)) := by
      cases cfg.forceTP with
      | true => rfl
      | false =>
        simp only [Bool.false_eq_true, if_false]
        rw [optAt_ok (nt := d.nt) _ ht]
        · exact congrArg _ (inputAt_map _ _ _)
        · intro l hl
          cases hs : d.snowfall with
          | none => rw [hs] at hl; cases hl
          | some l' =>
            rw [hs] at hl
            injection hl with hl
            rw [← hl]
            simpa [scaleBy] using hd.snowfall l' hs
    have b2 : optAt (d.rrr.map (scaleBy cfg.multFactor)) t = .ok ((inputAt d.rrr t).map (· * cfg.multFactor)) := by
      rw [optAt_ok (nt := d.nt) _ ht]
      · exact congrArg _ (inputAt_map _ _ _)
      · intro l hl
        cases hs : d.rrr with
        | none => rw [hs] at hl; cases hl
        | some l' =>
          rw [hs] at hl
          injection hl with hl
          rw [← hl]
          simpa [scaleBy] using hd.rrr l' hs
    have b3 : optAt (if cfg.forceN then none else d.lwin) t = .ok (if cfg.forceN then none else inputAt d.lwin t) := by
      cases cfg.forceN with
      | true => rfl
      | false => exact optAt_ok hd.lwin ht
    have b4 : pyGet (match d.n with | some n => n.map some | none => List.replicate d.nt none) (t : Int) =
        .ok (inputAt d.n t) := by
      cases hn : d.n with
      | none => exact pyGet_nat (by simp [inputAt, ht])
      | some n =>
        have hl : t < n.length := by rw [hd.n n hn]; exact ht
        exact pyGet_nat (by simp [inputAt, hl])
    refine ⟨⟨d.t2[t], d.rh2[t], d.pres[t], d.g[t], d.u2[t],
      if cfg.forceTP then none else (inputAt d.snowfall t).map (· * cfg.multFactor),
      (inputAt d.rrr t).map (· * cfg.multFactor), if cfg.forceN then none else inputAt d.lwin t, inputAt d.n t⟩, ?_, ?_⟩
    · unfold forcingAt
      simp only [pyGet_of_lt a1, pyGet_of_lt a2, pyGet_of_lt a3, pyGet_of_lt a4, pyGet_of_lt a5, ok_bind]
      rw [b1, ok_bind, b2, ok_bind, b3, ok_bind, b4]
      rfl
    · exact ⟨List.getElem?_eq_getElem a1, List.getElem?_eq_getElem a2, List.getElem?_eq_getElem a3,
        List.getElem?_eq_getElem a4, List.getElem?_eq_getElem a5, rfl, rfl, rfl, rfl⟩
  unfold prepare
  rw [selectInputs_ok cfg d h1 h2, ok_bind]
  generalize hs : (Selected.mk _ _ _ _ : Selected α) = s at key ⊢
  have : ∀ n, n ≤ d.nt → ∃ fs, (List.range n).mapM (forcingAt d s) = .ok fs ∧ fs.length = n ∧
      ∀ t f, fs[t]? = some f → ReadsAs cfg d t f := by
    intro n
    induction n with
    | zero => intro _; exact ⟨[], rfl, rfl, by simp⟩
    | succ n ih =>
      intro hn
      obtain ⟨fs, e, el, hf⟩ := ih (by omega)
      obtain ⟨f, ef, hr⟩ := key n (by omega)
      refine ⟨fs ++ [f], ?_, by simp [el], ?_⟩
      · rw [List.range_succ, List.mapM_append, e, ok_bind]
        simp [ef]
      · intro t f' ht
        rw [List.getElem?_append] at ht
        split_ifs at ht with hlt
        · exact hf t f' ht
        · have : t - fs.length = 0 := by
            by_contra hne
            rw [List.getElem?_eq_none (by simp; omega)] at ht
            cases ht
          rw [this] at ht
          simp at ht
          subst ht
          have : t = n := by omega
          rw [this]; exact hr
  exact this d.nt le_rfl

/-- **C57, nothing to read.** Without any precipitation input, or without any longwave input, the selection raises
AttributeError before the first step, whatever the flags. -/
theorem C57_absent (cfg : SelectCfg α) {d : CellData α}
    (h : (d.snowfall = none ∧ d.rrr = none) ∨ (d.lwin = none ∧ d.n = none)) :
    prepare cfg d = .error .attribute := by
  obtain ⟨nt, t2, rh2, pres, g, u2, s, r, l, n⟩ := d
  unfold prepare selectInputs selectPrecip selectLongwave
  rcases h with ⟨h1, h2⟩ | ⟨h1, h2⟩
  · simp only at h1 h2
    subst h1 h2
    rfl
  · simp only at h1 h2
    subst h1 h2
    cases s <;> cases r <;> rfl

end

section
variable {α : Type} [Add α] [Sub α] [Mul α] [Div α] [Neg α] [LT α] [LE α]
  [DecidableLT α] [DecidableLE α] [BEq α] [Zero α] [One α] [NatCast α] [OfScientific α]
  [Transc α] {sv : Solvers α} {fuel : Nat} {c : Consts α} {r : RunCfg α}

/-- A step without total precipitation raises: TypeError if snowfall is there, else ValueError. -/
theorem step_no_rrr {s : SimState α} {f : Forcing α} (hp : f.rrr = none) :
    step sv fuel c r s f = .error (if f.snowf.isSome then .type else .value) := by
  unfold step precipitation
  rw [hp]
  cases f.snowf <;> rfl

theorem ebFluxes_no_longwave {wrf : Bool} {g : Grid α} {i : EbInput α} {t0 : α} (h1 : i.lwin = none) (h2 : i.n = none) :
    ebFluxes c wrf g i t0 = .error .attribute := by
  unfold ebFluxes incomingLongwave
  rw [h1, h2]
  rfl

/-- A step without longwave information raises. -/
theorem step_no_longwave {s : SimState α} {f : Forcing α} (h1 : f.lwin = none) (h2 : f.n = none) (q : SimState α × StepOut α) :
    step sv fuel c r s f ≠ .ok q := by
  intro h
  unfold step at h
  simp only [bind_eq_ok] at h
  obtain ⟨_, _, _, _, _, _, _, _, _, _, ⟨g, ts, fl⟩, hu, _⟩ := h
  unfold updateSurfaceTemperature at hu
  simp only [bind_eq_ok] at hu
  obtain ⟨_, _, _, _, _, _, _, _, _, hf, _⟩ := hu
  rw [ebFluxes_no_longwave h1 h2] at hf
  cases hf

/-- **C57, outcome.** A simulation that returns had at least one time step and a supported combination. -/
theorem C57_only_supported {cfg : SelectCfg α} {s : SimState α} {d : CellData α} (hd : d.Sized)
    {q : SimState α × List (StepOut α)} (h : simulateCell sv fuel c r cfg s d = .ok q) : 0 < d.nt ∧ Supported cfg d := by
  by_cases hp : (d.snowfall = none ∧ d.rrr = none) ∨ (d.lwin = none ∧ d.n = none)
  · unfold simulateCell at h
    rw [C57_absent cfg hp] at h
    cases h
  have h1 : d.snowfall.isSome ∨ d.rrr.isSome := by
    simp only [Option.isSome_iff_ne_none]; tauto
  have h2 : d.lwin.isSome ∨ d.n.isSome := by
    simp only [Option.isSome_iff_ne_none]; tauto
  obtain ⟨fs, e, el, hr⟩ := C57_prepare cfg hd h1 h2
  unfold simulateCell at h
  rw [e, ok_bind] at h
  simp only [bind_eq_ok] at h
  obtain ⟨⟨s1, os⟩, hrun, h⟩ := h
  cases fs with
  | nil => cases h
  | cons f fs =>
    have hnt : 0 < d.nt := by rw [← el]; simp
    refine ⟨hnt, ?_⟩
    have hf := hr 0 f rfl
    have hst : ∃ q, step sv fuel c r s f = .ok q := by
      unfold run at hrun
      simp only [bind_eq_ok] at hrun
      obtain ⟨x, hx, _⟩ := hrun
      exact ⟨x, hx⟩
    obtain ⟨q, hq⟩ := hst
    constructor
    · by_contra hn
      have hn' : d.rrr = none := by simpa using hn
      rw [step_no_rrr (by rw [hf.rrr, hn']; rfl)] at hq
      cases hq
    · by_contra hn
      have hn1 : d.n = none := by
        by_contra hx; exact hn (Or.inl (Option.isSome_iff_ne_none.2 hx))
      have hn2 : d.lwin.isSome → cfg.forceN = true := by
        intro hl
        by_contra hx
        exact hn (Or.inr ⟨hl, by simpa using hx⟩)
      refine step_no_longwave ?_ ?_ q hq
      · rw [hf.lwin]
        cases hl : d.lwin with
        | none => simp [inputAt]
        | some l => rw [hn2 (by simp [hl])]; rfl
      · rw [hf.n, hn1]; rfl

/-- **C57, outcome.** Conversely, in a supported combination no step fails for lack of an input: precipitation is split and
incoming longwave radiation is found, namely the measured value if it is given and not overruled, else the value from cloud
cover. -/
theorem C57_supported {cfg : SelectCfg α} {d : CellData α} (hd : d.Sized) (hs : Supported cfg d) :
    ∃ fs, prepare cfg d = .ok fs ∧ fs.length = d.nt ∧ ∀ t f, fs[t]? = some f →
      (∀ rho, ∃ sr, precipitation c f rho = .ok sr) ∧
      ∀ (i : EbInput α) (ea : α), i.lwin = f.lwin → i.n = f.n →
        (∀ l, cfg.forceN = false → inputAt d.lwin t = some l → incomingLongwave c i ea = .ok l) ∧
        (∀ n, (cfg.forceN = true ∨ d.lwin = none) → inputAt d.n t = some n → incomingLongwave c i ea =
          .ok (((0.23 + 0.433 * Transc.pow (100 * ea / i.t2) (1 / 8)) * (1 - Transc.pow n 2) + 0.984 * Transc.pow n 2)
            * c.sigma * Transc.pow i.t2 4)) ∧
        ∃ li, incomingLongwave c i ea = .ok li := by
  obtain ⟨fs, e, el, hr⟩ := C57_prepare cfg hd (Or.inr hs.1) (hs.2.elim Or.inr fun h => Or.inl h.1)
  refine ⟨fs, e, el, ?_⟩
  intro t f ht
  have hf := hr t f ht
  have htn : t < d.nt := by
    rw [← el]
    by_contra hge
    rw [List.getElem?_eq_none (by omega)] at ht
    cases ht
  constructor
  · intro rho
    obtain ⟨l, hl⟩ := Option.isSome_iff_exists.1 hs.1
    have : t < l.length := by rw [hd.rrr l hl]; exact htn
    have e : f.rrr = some (l[t] * cfg.multFactor) := by
      rw [hf.rrr, hl]; simp [inputAt, this]
    unfold precipitation
    rw [e]
    cases f.snowf <;> exact ⟨_, rfl⟩
  · intro i ea e1 e2
    rw [hf.lwin] at e1
    rw [hf.n] at e2
    have c1 : ∀ l, cfg.forceN = false → inputAt d.lwin t = some l → incomingLongwave c i ea = .ok l := by
      intro l h0 hl
      rw [h0, hl] at e1
      unfold incomingLongwave
      rw [e1]
      cases i.n <;> rfl
    have c2 : ∀ n, (cfg.forceN = true ∨ d.lwin = none) → inputAt d.n t = some n → incomingLongwave c i ea =
        .ok (((0.23 + 0.433 * Transc.pow (100 * ea / i.t2) (1 / 8)) * (1 - Transc.pow n 2) + 0.984 * Transc.pow n 2)
          * c.sigma * Transc.pow i.t2 4) := by
      intro n h0 hn
      have e1' : i.lwin = none := by
        rw [e1]
        rcases h0 with h0 | h0
        · rw [h0]; rfl
        · rw [h0]; simp [inputAt]
      unfold incomingLongwave
      rw [e1', e2, hn]
    refine ⟨c1, c2, ?_⟩
    cases hl : d.lwin with
    | some l =>
      cases hN : cfg.forceN with
      | false =>
        have : t < l.length := by rw [hd.lwin l hl]; exact htn
        exact ⟨_, c1 l[t] hN (by simp [hl, inputAt, this])⟩
      | true =>
        rcases hs.2 with h | h
        · obtain ⟨n, hn⟩ := Option.isSome_iff_exists.1 h
          have : t < n.length := by rw [hd.n n hn]; exact htn
          exact ⟨_, c2 n[t] (Or.inl hN) (by simp [hn, inputAt, this])⟩
        · rw [hN] at h; exact absurd h.2 (by simp)
    | none =>
      rcases hs.2 with h | h
      · obtain ⟨n, hn⟩ := Option.isSome_iff_exists.1 h
        have : t < n.length := by rw [hd.n n hn]; exact htn
        exact ⟨_, c2 n[t] (Or.inr hl) (by simp [hn, inputAt, this])⟩
      · rw [hl] at h; exact absurd h.1 (by simp)

/-- **C57, precipitation errors (partial).** With a longwave input and at least one time step, but SNOWFALL as the only
precipitation input, the run raises: the documented ValueError if `force_use_TP` is set, an undocumented TypeError
otherwise. Missing for the full property: a ValueError in every unsupported case; `C57_refuted` shows that it is false. -/
theorem C57_outcome_partial {cfg : SelectCfg α} {s : SimState α} {d : CellData α} (hd : d.Sized) (hnt : 0 < d.nt)
    (h1 : d.snowfall.isSome) (h2 : d.rrr = none) (h3 : d.lwin.isSome ∨ d.n.isSome) :
    simulateCell sv fuel c r cfg s d = .error (if cfg.forceTP then .value else .type) := by
  obtain ⟨fs, e, el, hr⟩ := C57_prepare cfg hd (Or.inl h1) h3
  cases fs with
  | nil => rw [← el] at hnt; simp at hnt
  | cons f fs =>
    have hf := hr 0 f rfl
    have e2 : f.snowf.isSome = !cfg.forceTP := by
      rw [hf.snowf]
      cases cfg.forceTP with
      | true => rfl
      | false =>
        obtain ⟨l, hl⟩ := Option.isSome_iff_exists.1 h1
        have : 0 < l.length := by rw [hd.snowfall l hl]; exact hnt
        simp [hl, inputAt, this]
    unfold simulateCell
    rw [e, ok_bind]
    unfold run
    rw [step_no_rrr (by rw [hf.rrr, h2]; rfl), e2]
    cases cfg.forceTP <;> rfl

/-- **C57, no time steps.** An empty period raises UnboundLocalError, not a documented error. -/
theorem C57_empty {cfg : SelectCfg α} {s : SimState α} {d : CellData α} (hd : d.Sized) (hnt : d.nt = 0)
    (h1 : d.snowfall.isSome ∨ d.rrr.isSome) (h2 : d.lwin.isSome ∨ d.n.isSome) :
    simulateCell sv fuel c r cfg s d = .error .unbound := by
  obtain ⟨fs, e, el, -⟩ := C57_prepare cfg hd h1 h2
  have : fs = [] := List.eq_nil_of_length_eq_zero (by rw [el, hnt])
  subst this
  unfold simulateCell
  rw [e]
  rfl

/-! ## Inputs without influence -/

/-- **C57, `force_use_TP`.** With total precipitation present the flag makes the simulation independent of SNOWFALL, present
or not. -/
theorem C57_ignores_snowfall {cfg : SelectCfg α} {s : SimState α} {d : CellData α} (hf : cfg.forceTP = true)
    (hr : d.rrr.isSome) (x : Option (List α)) :
    simulateCell sv fuel c r cfg s { d with snowfall := x } = simulateCell sv fuel c r cfg s d := by
  have : prepare cfg { d with snowfall := x } = prepare cfg d := by
    obtain ⟨nt, t2, rh2, pres, g, u2, sn, rr, l, n⟩ := d
    obtain ⟨k, ft, fn⟩ := cfg
    simp only at hf hr
    subst hf
    cases rr with
    | none => simp at hr
    | some rr => cases sn <;> cases x <;> cases l <;> cases n <;> rfl
  unfold simulateCell
  rw [this]

/-- **C57, `force_use_N`.** With cloud cover present the flag makes the simulation independent of LWin. -/
theorem C57_ignores_lwin {cfg : SelectCfg α} {s : SimState α} {d : CellData α} (hf : cfg.forceN = true)
    (hn : d.n.isSome) (x : Option (List α)) :
    simulateCell sv fuel c r cfg s { d with lwin := x } = simulateCell sv fuel c r cfg s d := by
  have : prepare cfg { d with lwin := x } = prepare cfg d := by
    obtain ⟨nt, t2, rh2, pres, g, u2, sn, rr, l, n⟩ := d
    obtain ⟨k, ft, fn⟩ := cfg
    simp only at hf hn
    subst hf
    cases n with
    | none => simp at hn
    | some n => cases sn <;> cases x <;> cases l <;> cases rr <;> rfl
  unfold simulateCell
  rw [this]

theorem ebFluxes_congr {wrf : Bool} {g : Grid α} {i : EbInput α} {l : α} (h : i.lwin = some l) (m : Option α) (t0 : α) :
    ebFluxes c wrf g { i with n := m } t0 = ebFluxes c wrf g i t0 := by
  unfold ebFluxes
  have : ∀ ea : α, incomingLongwave c { i with n := m } ea = incomingLongwave c i ea := by
    intro ea
    unfold incomingLongwave
    simp only [h]
  simp only [this]
  rfl

/-- A step with measured longwave radiation does not look at cloud cover. -/
theorem step_ignores_n {s : SimState α} {f : Forcing α} {l : α} (h : f.lwin = some l) (m : Option α) :
    step sv fuel c r s { f with n := m } = step sv fuel c r s f := by
  have hu : ∀ (g : Grid α) (z0 rain sw : α),
      updateSurfaceTemperature sv c r.wrf g
        (fun tz1 tz2 => ⟨r.dt, r.z, z0, f.t2, f.rh2, f.pres, f.u2, rain, r.slope, tz1, tz2, f.lwin, m⟩) sw =
      updateSurfaceTemperature sv c r.wrf g
        (fun tz1 tz2 => ⟨r.dt, r.z, z0, f.t2, f.rh2, f.pres, f.u2, rain, r.slope, tz1, tz2, f.lwin, f.n⟩) sw := by
    intro g z0 rain sw
    have hE : ∀ (g : Grid α) (tz1 tz2 t0 : α),
        ebFluxes c r.wrf g ⟨r.dt, r.z, z0, f.t2, f.rh2, f.pres, f.u2, rain, r.slope, tz1, tz2, f.lwin, m⟩ t0 =
        ebFluxes c r.wrf g ⟨r.dt, r.z, z0, f.t2, f.rh2, f.pres, f.u2, rain, r.slope, tz1, tz2, f.lwin, f.n⟩ t0 :=
      fun g tz1 tz2 t0 => ebFluxes_congr
        (i := ⟨r.dt, r.z, z0, f.t2, f.rh2, f.pres, f.u2, rain, r.slope, tz1, tz2, f.lwin, f.n⟩) h m t0
    have hO : ∀ (g : Grid α) (tz1 tz2 : α),
        ebOptim c r.wrf g ⟨r.dt, r.z, z0, f.t2, f.rh2, f.pres, f.u2, rain, r.slope, tz1, tz2, f.lwin, m⟩ sw =
        ebOptim c r.wrf g ⟨r.dt, r.z, z0, f.t2, f.rh2, f.pres, f.u2, rain, r.slope, tz1, tz2, f.lwin, f.n⟩ sw := by
      intro g tz1 tz2
      funext t0
      unfold ebOptim
      rw [hE]
    unfold updateSurfaceTemperature
    simp only [hE, hO]
  unfold step
  simp only [hu]
  rfl

theorem run_congr_n {fs gs : List (Forcing α)}
    (h : List.Forall₂ (fun f g : Forcing α => (∃ l, f.lwin = some l) ∧ ∃ m, g = { f with n := m }) fs gs) :
    ∀ s, run sv fuel c r s gs = run sv fuel c r s fs := by
  induction h with
  | nil => intro s; rfl
  | cons h0 _ ih =>
    intro s
    obtain ⟨⟨l, hl⟩, m, rfl⟩ := h0
    unfold run
    rw [step_ignores_n hl]
    simp only [ih]

/-- **C57, measured longwave radiation wins.** If LWin is given and not overruled, the simulation is independent of N,
present or not. -/
theorem C57_ignores_n {cfg : SelectCfg α} {s : SimState α} {d : CellData α} (hd : d.Sized) (hf : cfg.forceN = false)
    (hl : d.lwin.isSome) (x : Option (List α)) (hx : ∀ l, x = some l → l.length = d.nt) :
    simulateCell sv fuel c r cfg s { d with n := x } = simulateCell sv fuel c r cfg s d := by
  by_cases hp : d.snowfall = none ∧ d.rrr = none
  · unfold simulateCell
    rw [C57_absent cfg (d := d) (Or.inl hp), C57_absent cfg (d := { d with n := x }) (Or.inl hp)]
  have h1 : d.snowfall.isSome ∨ d.rrr.isSome := by
    simp only [Option.isSome_iff_ne_none]; tauto
  obtain ⟨fs, e, el, hr⟩ := C57_prepare cfg hd h1 (Or.inl hl)
  obtain ⟨gs, e', el', hr'⟩ := C57_prepare cfg (d := { d with n := x })
    ⟨hd.t2, hd.rh2, hd.pres, hd.g, hd.u2, hd.snowfall, hd.rrr, hd.lwin, hx⟩ h1 (Or.inl hl)
  have hall : List.Forall₂ (fun f g : Forcing α => (∃ l, f.lwin = some l) ∧ ∃ m, g = { f with n := m }) fs gs := by
    rw [List.forall₂_iff_get]
    refine ⟨by rw [el, el'], ?_⟩
    intro t a b
    have hf1 := hr t fs[t] (List.getElem?_eq_getElem a)
    have hf2 := hr' t gs[t] (List.getElem?_eq_getElem b)
    simp only [List.get_eq_getElem]
    generalize fs[t] = f at *
    generalize gs[t] = g at *
    constructor
    · obtain ⟨l, hl⟩ := Option.isSome_iff_exists.1 hl
      have : t < l.length := by rw [hd.lwin l hl, ← el]; exact a
      refine ⟨l[t], ?_⟩
      rw [hf1.lwin, hf]
      simp [hl, inputAt, this]
    · refine ⟨g.n, ?_⟩
      obtain ⟨a1, a2, a3, a4, a5, a6, a7, a8, a9⟩ := hf1
      obtain ⟨b1, b2, b3, b4, b5, b6, b7, b8, b9⟩ := hf2
      simp only at b1 b2 b3 b4 b5 b6 b7 b8
      rw [a1] at b1; rw [a2] at b2; rw [a3] at b3; rw [a4] at b4; rw [a5] at b5
      rw [← a6] at b6; rw [← a7] at b7; rw [← a8] at b8
      injection b1 with b1; injection b2 with b2; injection b3 with b3; injection b4 with b4; injection b5 with b5
      cases f; cases g
      simp_all
  unfold simulateCell
  rw [e, e', ok_bind, ok_bind, run_congr_n hall]
  cases hall <;> rfl

end

/-! ## Concrete cells -/

/-- Two hours with all optional inputs. -/
def exCell : CellData ℚ :=
  ⟨2, [268, 272], [90, 60], [700, 700], [0, 100], [2, 2], some [1/100, 0], some [10, 0], some [250, 250], some [1/2, 1/2]⟩

def exSel : SelectCfg ℚ := ⟨1, false, false⟩

theorem exCell_sized : exCell.Sized :=
  ⟨rfl, rfl, rfl, rfl, rfl, fun _ h => by cases h; rfl, fun _ h => by cases h; rfl, fun _ h => by cases h; rfl,
    fun _ h => by cases h; rfl⟩

attribute [local instance] exTransc in
/-- The supported case runs: two steps of output. -/
example : (simulateCell exSolvers 40 exConsts exCfg exSel (initState exConsts false exGrid) exCell).map
    (fun q => q.2.length) = .ok 2 := by decide +kernel

/-- `C57_supported`, `C57_only_supported`: the example cell is supported, also under both flags. -/
example : Supported exSel exCell ∧ Supported ⟨1, true, true⟩ exCell ∧ ¬ Supported exSel { exCell with rrr := none } ∧
    ¬ Supported ⟨1, false, true⟩ { exCell with n := none } := by
  unfold Supported exSel exCell; simp

attribute [local instance] exTransc in
/-- **C57 as first stated is false.** SNOWFALL without RRR raises TypeError; `force_use_N` without N, and no precipitation or no
longwave input at all, raise AttributeError: none of them the documented ValueError. -/
theorem C57_refuted :
    raised (simulateCell exSolvers 40 exConsts exCfg exSel (initState exConsts false exGrid)
      { exCell with rrr := none }) = some .type ∧
    raised (simulateCell exSolvers 40 exConsts exCfg ⟨1, false, true⟩ (initState exConsts false exGrid)
      { exCell with n := none }) = some .attribute ∧
    raised (simulateCell exSolvers 40 exConsts exCfg exSel (initState exConsts false exGrid)
      { exCell with rrr := none, snowfall := none }) = some .attribute ∧
    raised (simulateCell exSolvers 40 exConsts exCfg exSel (initState exConsts false exGrid)
      { exCell with lwin := none, n := none }) = some .attribute := by decide +kernel

attribute [local instance] exTransc in
/-- `C57_outcome_partial`: hypotheses are met, with both outcomes. -/
example : raised (simulateCell exSolvers 40 exConsts exCfg ⟨1, true, false⟩ (initState exConsts false exGrid)
      { exCell with rrr := none }) = some .value := by decide +kernel

attribute [local instance] exTransc in
/-- The flags do have an effect: hiding the measured snowfall changes the recorded snowfall, hiding LWin the longwave
radiation. -/
example : (simulateCell exSolvers 40 exConsts exCfg ⟨1, true, true⟩ (initState exConsts false exGrid) exCell).map
      (fun q => q.2.map fun o => (o.snowfall, o.fluxes.li)) ≠
    (simulateCell exSolvers 40 exConsts exCfg exSel (initState exConsts false exGrid) exCell).map
      (fun q => q.2.map fun o => (o.snowfall, o.fluxes.li)) := by decide +kernel

end Cosipy
