import Verif.Props.C69
import Verif.Lemmas.Physical

/-! Reading a value in the result file back to the step of the simulation it comes from. -/

set_option autoImplicit false
set_option linter.unusedSectionVars false

namespace Cosipy
section
variable {K : Type} [Field K] [LinearOrder K] [IsStrictOrderedRing K] [Transc K] [HasTrunc K] {τ : Type} [DecidableEq τ]

/-- The `t`-th step of a run. -/
theorem run_at {sv : Solvers K} {fuel : Nat} {c : Consts K} {r : RunCfg K} :
    ∀ (fs : List (Forcing K)) {s s' : SimState K} {os : List (StepOut K)} {t : Nat} {o : StepOut K},
    run sv fuel c r s fs = .ok (s', os) → os[t]? = some o →
    ∃ sp st f, run sv fuel c r s (fs.take t) = .ok (sp, os.take t) ∧ fs[t]? = some f ∧
      step sv fuel c r sp f = .ok (st, o) ∧ run sv fuel c r s (fs.take (t + 1)) = .ok (st, os.take (t + 1)) := by
  intro fs
  induction fs with
  | nil => intro s s' os t o h ho; rw [run] at h; cases h; simp at ho
  | cons f fs ih =>
    intro s s' os t o h ho
    obtain ⟨s1, o1, os1, h1, h2, rfl⟩ := run_cons h
    cases t with
    | zero =>
      simp only [List.getElem?_cons_zero, Option.some.injEq] at ho
      subst ho
      refine ⟨s, s1, f, rfl, rfl, h1, ?_⟩
      simp only [Nat.zero_add, List.take_succ_cons, List.take_zero]
      rw [run, h1, ok_bind]
      rfl
    | succ t =>
      rw [List.getElem?_cons_succ] at ho
      obtain ⟨sp, st, f', a, b, d, e⟩ := ih h2 ho
      refine ⟨sp, st, f', ?_, by rw [List.getElem?_cons_succ]; exact b, d, ?_⟩
      · rw [List.take_succ_cons, List.take_succ_cons, run, h1, ok_bind]
        simp only [a, ok_bind]
        rfl
      · rw [List.take_succ_cons, List.take_succ_cons, run, h1, ok_bind]
        simp only [e, ok_bind]
        rfl

/-- A program run that finished, with a glacier cell and a time index. -/
structure Finished (sv : Solvers K) (fuel : Nat) (c : Consts K) (r : RunCfg K) (cfg : SelectCfg K) (fill : K)
    (times : List τ) (io : IOState K) (input : Nat → Nat → CellInput K τ) (out : IOState K) (y x t : Nat) : Prop where
  prog : ∃ sc g nan order stakes, (∀ l : List (Nat × Nat), (order l).Perm l) ∧ g y x = true ∧
    simulateDomain sv fuel c r cfg fill times sc io g nan input order = .ok (out, stakes)
  fresh : ∀ k, io.attrs k = none
  sizes : ∀ y x, times.length = (input y x).data.nt
  row : y < io.ny
  col : x < io.nx
  time : t < times.length

/-- The variables a simulation computes. -/
def computed : List (OutKind × String) := copyCalls.map fun e => (e.1, e.2.1)

theorem mem_computed {kind : OutKind} {name : String} (h : (kind, name) ∈ computed) :
    ∃ p, (kind, name, p) ∈ copyCalls := by
  unfold computed at h
  rw [List.mem_map] at h
  obtain ⟨⟨a, b, p⟩, hm, e⟩ := h
  cases e
  exact ⟨p, hm⟩

/-- Value `v` of a requested variable in the result file. -/
def FileValue (io out : IOState K) (kind : OutKind) (name : String) (t y x k : Nat) (v : K) : Prop :=
  io.wants kind name = true ∧ ∃ a : Arr K, out.result (attrName kind name) = some a ∧ a.val t y x k = v

variable {sv : Solvers K} {fuel : Nat} {c : Consts K} {r : RunCfg K} {cfg : SelectCfg K} {fill : K} {times : List τ}
  {io out : IOState K} {input : Nat → Nat → CellInput K τ} {y x t : Nat}

/-- The values of a cell and time are those of one step. -/
theorem Finished.step (F : Finished sv fuel c r cfg fill times io input out y x t) :
    ∃ s0 sE fs os sp st f o, CellRun sv fuel c r cfg (input y x) s0 sE fs os ∧ s0.grid.WF ∧
      os[t]? = some o ∧ fs[t]? = some f ∧
      run sv fuel c ((input y x).cfg r) s0 (fs.take t) = .ok (sp, os.take t) ∧ sp.grid.WF ∧ st.grid.WF ∧
      Cosipy.step sv fuel c ((input y x).cfg r) sp f = .ok (st, o) ∧
      run sv fuel c ((input y x).cfg r) s0 (fs.take (t + 1)) = .ok (st, os.take (t + 1)) ∧
      (∀ kind name k v, kind ≠ .full → (kind, name) ∈ computed → FileValue io out kind name t y x k v →
        SeriesMeans c fill name st o v) ∧
      (∀ name k v, (OutKind.full, name) ∈ computed → FileValue io out .full name t y x k v →
        (∀ n, st.grid.nodes[k]? = some n → LayerMeans c name n v) ∧ (st.grid.nodes.length ≤ k → v = fill)) := by
  obtain ⟨⟨sc, g, nan, order, stakes, ho, hg, h⟩, hio, ht, hy, hx, htt⟩ := F
  obtain ⟨s0, sE, fs, os, hc, hl, -⟩ := C69_simulated hio ho ht h hy hx hg
  have hto : t < os.length := by rw [hl]; exact htt
  have hot := List.getElem?_eq_getElem hto
  obtain ⟨sp, st, f, e1, e2, e3, e4⟩ := run_at fs hc.sim hot
  have hw : s0.grid.WF := startColumn_wf hc.column
  have hwp : sp.grid.WF := C01_run _ hw e1
  refine ⟨s0, sE, fs, os, sp, st, f, _, hc, hw, hot, e2, e1, hwp, C01_step hwp e3, e3, e4, ?_, ?_⟩
  · rintro kind name k v hk hp ⟨hw, a, ha, rfl⟩
    obtain ⟨p, hp⟩ := mem_computed hp
    obtain ⟨a', st', h1, h2, h3⟩ := C69_series hio ho ht h hy hx hg hc hp hw hk hot
    rw [ha] at h1
    cases h1
    have : st' = st := (Prod.mk.inj (ok_inj.1 (h2.symm.trans e4))).1
    rw [← this]
    exact h3 k
  · rintro name k v hp ⟨hw, a, ha, rfl⟩
    obtain ⟨p, hp⟩ := mem_computed hp
    obtain ⟨a', st', h1, h2, h3⟩ := C69_layers hio ho ht h hy hx hg hc hp hw hto
    rw [ha] at h1
    cases h1
    have : st' = st := (Prod.mk.inj (ok_inj.1 (h2.symm.trans e4))).1
    rw [← this]
    exact h3 k

/-- Requested variables are in the file. -/
theorem Finished.value (F : Finished sv fuel c r cfg fill times io input out y x t) {kind : OutKind} {name : String}
    (hm : (kind, name) ∈ computed) (hw : io.wants kind name = true) (k : Nat) :
    ∃ v, FileValue io out kind name t y x k v := by
  obtain ⟨⟨sc, g, nan, order, stakes, ho, hg, h⟩, hio, ht, hy, hx, htt⟩ := F
  obtain ⟨p, hp⟩ := mem_computed hm
  obtain ⟨a, _, -, -, har⟩ := C46_written hio (fun y x res hr => kernel_resultOf hr) ho h hp hw
  exact ⟨_, hw, a, har ⟨y, x, hy, hx, hg⟩, rfl⟩

/-- The same run at another time. -/
theorem Finished.at (F : Finished sv fuel c r cfg fill times io input out y x t) {t' : Nat} (h : t' < times.length) :
    Finished sv fuel c r cfg fill times io input out y x t' := ⟨F.prog, F.fresh, F.sizes, F.row, F.col, h⟩

end
end Cosipy
