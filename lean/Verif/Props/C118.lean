import Verif.Props.C69

/-!
# C118 A glacier cell's results depend on the cell alone

What the program writes for a cell is determined by the cell's own input, slope, start and the settings. Other cells, the position of the
cell in the domain, the size of the domain, the order in which cells finish, the stakes and the labels of the times have no influence.
All results are for programs that finish: an exception in one cell ends the program for all (C71).
-/

set_option autoImplicit false
set_option linter.unusedSectionVars false

namespace Cosipy
section
variable {α : Type} [Add α] [Sub α] [Mul α] [Div α] [Neg α] [LT α] [LE α]
  [DecidableLT α] [DecidableLE α] [BEq α] [Zero α] [One α] [NatCast α] [OfScientific α] [Transc α] [HasTrunc α]
variable {τ τ' : Type} [DecidableEq τ] [DecidableEq τ']
variable {sv : Solvers α} {fuel : Nat} {c : Consts α} {r : RunCfg α} {fill : α}

/-! ### Spec -/

/-- Two cells with the same data, slope, initial snow height and restart state. Stakes may differ. -/
structure AlikeCells (i : CellInput α τ) (i' : CellInput α τ') : Prop where
  data : i.data = i'.data
  slope : i.slope = i'.slope
  snowheight : i.snowheight = i'.snowheight
  restart : i.restart = i'.restart

/-! ### The time loop -/

/-- States and records of the time loop do not depend on time labels and stakes. -/
theorem runRows_labels {names names' : List String} {index : List τ} {index' : List τ'} : ∀ {l : List (τ × Forcing α)} {l' : List (τ' × Forcing α)}
    {s : SimState α} {df : SimTable α} {df' : SimTable α} {a a'},
    l.map Prod.snd = l'.map Prod.snd → runRows sv fuel c r fill names index s df l = .ok a →
    runRows sv fuel c r fill names' index' s df' l' = .ok a' → a.1 = a'.1 ∧ a.2.1 = a'.2.1
  | [], [], s, df, df', a, a', _, h, h' => by
    unfold runRows at h h'
    cases h; cases h'
    exact ⟨rfl, rfl⟩
  | (t, f) :: l, (t', f') :: l', s, df, df', a, a', e, h, h' => by
    rw [List.map_cons, List.map_cons, List.cons.injEq] at e
    obtain ⟨e1, e2⟩ := e
    simp only at e1
    subst e1
    unfold runRows at h h'
    simp only [bind_eq_ok, pure_eq_ok] at h h'
    obtain ⟨⟨s1, o⟩, h1, df1, -, row, h3, ⟨s2, rows, df2⟩, h4, rfl⟩ := h
    obtain ⟨⟨s1', o'⟩, h1', df1', -, row', h3', ⟨s2', rows', df2'⟩, h4', rfl⟩ := h'
    rw [h1] at h1'
    cases h1'
    rw [h3] at h3'
    cases h3'
    obtain ⟨i1, i2⟩ := runRows_labels e2 h4 h4'
    simp only at i1 i2
    exact ⟨i1, by rw [i2]⟩

/-- The first forty-two values of what a cell returns, after its indices, do not depend on labels, stakes and position. -/
theorem kernel_labels {cfg : SelectCfg α} {times : List τ} {times' : List τ'} {sh : Option α} {rs : Option (Dataset α)}
    {st : Option (StakeInput α τ)} {st' : Option (StakeInput α τ')} {d : CellData α} {y x y' x' : Nat} {res res' : List (PyVal α)}
    (hl : times.length = times'.length)
    (h : kernel sv fuel c r cfg fill times sh rs st d y x = .ok res)
    (h' : kernel sv fuel c r cfg fill times' sh rs st' d y' x' = .ok res') :
    ResultOf res y x ∧ ResultOf res' y' x' ∧ ∀ i, 2 ≤ i → i < 42 → res[i]? = res'[i]? := by
  unfold kernel kernelBody at h h'
  simp only [bind_eq_ok, pure_eq_ok] at h h'
  obtain ⟨b, ⟨g, h1, fs, h2, ⟨s, rows, df⟩, h3, h4⟩, rfl⟩ := h
  obtain ⟨b', ⟨g', h1', fs', h2', ⟨s', rows', df'⟩, h3', h4'⟩, rfl⟩ := h'
  rw [h1] at h1'; cases h1'
  rw [h2] at h2'; cases h2'
  have key : s = s' ∧ rows = rows' := by
    refine runRows_labels ?_ h3 h3'
    have : ∀ (xs : List τ) (ys : List τ') (fs : List (Forcing α)), xs.length = ys.length →
        (xs.zip fs).map Prod.snd = (ys.zip fs).map Prod.snd := by
      intro xs
      induction xs with
      | nil => intro ys fs hh; cases ys with
        | nil => rfl
        | cons => simp at hh
      | cons a xs ih =>
        intro ys fs hh
        cases ys with
        | nil => simp at hh
        | cons b ys =>
          cases fs with
          | nil => rfl
          | cons f fs => simp [ih ys fs (by simpa using hh)]
    exact this times times' fs hl
  obtain ⟨rfl, rfl⟩ := key
  simp only at h4 h4'
  split_ifs at h4 with he
  rw [if_neg he] at h4'
  simp only [bind_eq_ok, pure_eq_ok] at h4 h4'
  obtain ⟨stakes, -, ds, h5, rfl⟩ := h4
  obtain ⟨stakes', -, ds', h5', rfl⟩ := h4'
  rw [h5] at h5'; cases h5'
  refine ⟨⟨rfl, rfl⟩, ⟨rfl, rfl⟩, fun i hi hi2 => ?_⟩
  obtain ⟨i, rfl⟩ : ∃ j, i = j + 2 := ⟨i - 2, by omega⟩
  simp only [List.getElem?_cons_succ]
  rcases i with _ | i
  · rfl
  · simp only [List.getElem?_cons_succ]
    have hlen : ((coreReturn.drop 3).take 39).length = 39 := by decide +kernel
    rw [List.getElem?_append_left (by rw [List.length_map, hlen]; omega), List.getElem?_append_left (by rw [List.length_map, hlen]; omega)]

theorem own_index {kind : OutKind} {name param : String} (hm : (kind, name, param) ∈ copyCalls) {i : Nat}
    (hi : coreReturn[i]? = some (ownArray kind name)) : 2 ≤ i ∧ i < 42 := by
  have h1 : ∀ e ∈ copyCalls, ownArray e.1 e.2.1 ∉ coreReturn.take 2 ∧ ownArray e.1 e.2.1 ∉ coreReturn.drop 42 := by decide +kernel
  obtain ⟨n1, n2⟩ := h1 _ hm
  constructor
  · by_contra hc
    apply n1
    refine List.mem_of_getElem? (i := i) ?_
    rw [List.getElem?_take, if_pos (by omega)]
    exact hi
  · by_contra hc
    apply n2
    refine List.mem_of_getElem? (i := i - 42) ?_
    rw [List.getElem?_drop, show 42 + (i - 42) = i by omega]
    exact hi

/-! ### Theorems -/

section
variable {cfg : SelectCfg α} {times : List τ} {times' : List τ'} {sc sc' : StakeCfg} {io io' : IOState α}
  {g nan g' nan' : Nat → Nat → Bool} {input : Nat → Nat → CellInput α τ} {input' : Nat → Nat → CellInput α τ'}
  {order order' : List (Nat × Nat) → List (Nat × Nat)} {s s' : IOState α × StakeState α}

/-- **C118, results.** Two runs of the program over the same number of times, on any two domains: a glacier cell of the first and one of
the second with the same input get the same values of every variable both write, at every time and in every layer. -/
theorem C118_cell (hl : times.length = times'.length) (hio : ∀ k, io.attrs k = none) (hio' : ∀ k, io'.attrs k = none)
    (ho : ∀ l, (order l).Perm l) (ho' : ∀ l, (order' l).Perm l)
    (h : simulateDomain sv fuel c r cfg fill times sc io g nan input order = .ok s)
    (h' : simulateDomain sv fuel c r cfg fill times' sc' io' g' nan' input' order' = .ok s')
    {y x y' x' : Nat} (hc : y < io.ny ∧ x < io.nx ∧ g y x = true) (hc' : y' < io'.ny ∧ x' < io'.nx ∧ g' y' x' = true)
    (he : AlikeCells (input y x) (input' y' x')) {kind : OutKind} {name param : String} (hm : (kind, name, param) ∈ copyCalls)
    (hw : io.wants kind name = true) (hw' : io'.wants kind name = true) :
    ∃ a a' : Arr α, s.1.result (attrName kind name) = some a ∧ s'.1.result (attrName kind name) = some a' ∧
      ∀ t k, a.val t y x k = a'.val t y' x' k := by
  unfold simulateDomain at h h'
  obtain ⟨a, e1, e2, e3, e4⟩ := C46_written hio (fun y x res hr => (kernel_labels rfl hr hr).1) ho h hm hw
  obtain ⟨a', f1, f2, f3, f4⟩ := C46_written hio' (fun y x res hr => (kernel_labels rfl hr hr).1) ho' h' hm hw'
  refine ⟨a, a', e4 ⟨y, x, hc⟩, f4 ⟨y', x', hc'⟩, fun t k => ?_⟩
  obtain ⟨res, i, v, a1, a2, a3, a4⟩ := e2 y x hc.1 hc.2.1 hc.2.2
  obtain ⟨res', i', v', b1, b2, b3, b4⟩ := f2 y' x' hc'.1 hc'.2.1 hc'.2.2
  have hcfg : (input' y' x').cfg r = (input y x).cfg r := by unfold CellInput.cfg; rw [he.slope]
  rw [hcfg, ← he.data, ← he.snowheight, ← he.restart] at b1
  obtain ⟨-, -, hk⟩ := kernel_labels hl a1 b1
  have hi : i = i' := by
    have hnd : coreReturn.Nodup := by decide +kernel
    exact (List.getElem?_inj (List.getElem?_eq_some_iff.1 a2).1 hnd).1 (a2.trans b2.symm)
  subst hi
  obtain ⟨q1, q2⟩ := own_index hm a2
  rw [hk i q1 q2, b3] at a3
  cases a3
  rw [a4, b4]

/-- **C118, restart file.** The same for the restart file. -/
theorem C118_restart (hl : times.length = times'.length) (hio : ∀ k, io.attrs k = none) (hio' : ∀ k, io'.attrs k = none)
    (ho : ∀ l, (order l).Perm l) (ho' : ∀ l, (order' l).Perm l)
    (h : simulateDomain sv fuel c r cfg fill times sc io g nan input order = .ok s)
    (h' : simulateDomain sv fuel c r cfg fill times' sc' io' g' nan' input' order' = .ok s')
    {y x y' x' : Nat} (hc : y < io.ny ∧ x < io.nx ∧ g y x = true) (hc' : y' < io'.ny ∧ x' < io'.nx ∧ g' y' x' = true)
    (he : AlikeCells (input y x) (input' y' x')) {name : String} (hn : name ∈ restartNames) :
    ∃ a a' : Arr α, s.1.restart name = some a ∧ s'.1.restart name = some a' ∧ ∀ t k, a.val t y x k = a'.val t y' x' k := by
  unfold simulateDomain at h h'
  obtain ⟨a, e1, e2, e3⟩ := C46_restart hio (fun y x res hr => (kernel_labels rfl hr hr).1) ho h hn ⟨y, x, hc⟩
  obtain ⟨a', f1, f2, f3⟩ := C46_restart hio' (fun y x res hr => (kernel_labels rfl hr hr).1) ho' h' hn ⟨y', x', hc'⟩
  refine ⟨a, a', e1, f1, fun t k => ?_⟩
  obtain ⟨res, d, v, a1, a2, a3, a4⟩ := e2 y x hc.1 hc.2.1 hc.2.2
  obtain ⟨res', d', v', b1, b2, b3, b4⟩ := f2 y' x' hc'.1 hc'.2.1 hc'.2.2
  have hcfg : (input' y' x').cfg r = (input y x).cfg r := by unfold CellInput.cfg; rw [he.slope]
  rw [hcfg, ← he.data, ← he.snowheight, ← he.restart] at b1
  obtain ⟨-, -, hk⟩ := kernel_labels hl a1 b1
  rw [hk 2 le_rfl (by omega), b2] at a2
  cases a2
  rw [a3] at b3
  cases b3
  rw [a4, b4]

end
end

/-- A domain of one cell. -/
def exSmall : IOState ℚ :=
  IOState.init "T2,RAIN,SNOWFALL,LWin,TS".toList "ME,MB,SNOWHEIGHT,LAYERS".toList "HEIGHT,T,CC,POROSITY".toList true 200 2 1 1
    (fun _ => none) (fun _ => none)

attribute [local instance] exTransc exTrunc in
/-- Non-vacuity: cell (1, 0) of the example domain and the only cell of another one, with other time labels. -/
example :
    let alone : Nat → Nat → CellInput ℚ String := fun _ _ => ⟨exCell, 5, some ((2 * 1 + 0 + 1 : Nat) / 10), none, none⟩
    (∀ k, exIOQ.attrs k = none) ∧ (∀ k, exSmall.attrs k = none) ∧ AlikeCells (exInput 1 0) (alone 0 0) ∧
    raised (simulateDomain exSolvers 40 exConstsQ exCfg exSel (-9999) [0, 1] ⟨false, false, false⟩ exIOQ exMask (fun _ _ => false)
      exInput List.reverse) = none ∧
    raised (simulateDomain exSolvers 40 exConstsQ exCfg exSel (-9999) ["one", "two"] ⟨false, false, false⟩ exSmall (fun _ _ => true)
      (fun _ _ => false) alone id) = none ∧ exMask 1 0 = true ∧ exIOQ.wants .atm "LWin" = true ∧ exSmall.wants .atm "LWin" = true := by
  refine ⟨fun _ => rfl, fun _ => rfl, ⟨rfl, rfl, rfl, rfl⟩, ?_⟩
  decide +kernel

end Cosipy
