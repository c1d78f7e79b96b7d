import Verif.Lemmas.Collect
import Verif.Lemmas.ExampleIO

/-!
# C45 The order in which grid points finish does not matter

Proved for all arrays and both datasets (`C45_order`, `C45_run`), including whether the program stops with an exception.
The rows of the stake statistics, however, come in the order of completion (`C45_stake_rows`, `C45_stake_order_matters`).
-/

set_option autoImplicit false
set_option linter.unusedSectionVars false

namespace Cosipy
section
variable {α : Type}

/-- **C45.** Collecting the same finished tasks in another order gives the same arrays, the same result dataset and the
same restart dataset, or an exception in both cases. Tasks are for different cells. -/
theorem C45_order {sc : StakeCfg} {s : IOState α × StakeState α} {done done' : List (M (List (PyVal α)))}
    (hp : done.Perm done') (hd : done.Pairwise DifferentCells) :
    (collectAll sc s done).toOption.map Prod.fst = (collectAll sc s done').toOption.map Prod.fst := by
  have key : ∀ {d d' : List (M (List (PyVal α)))} {s'}, d.Perm d' → d.Pairwise DifferentCells →
      collectAll sc s d = .ok s' → ∃ st, collectAll sc s d' = .ok (s'.1, st) := by
    intro d d' s' hp hd h
    rw [collectAll_eq_ok] at h
    obtain ⟨h1, h2⟩ := h
    have h3 := foldlM_perm (f := fun io r => r >>= collectIO io) (R := DifferentCells) (fun a b => DifferentCells.symm)
      (fun io a b s1 s2 hab e1 e2 => collectIO_comm hab e1 e2) hp hd h1
    have h4 := (foldlM_ok_iff (P := fun r => ∃ st, (r >>= collectStakesOf sc s.2) = .ok st)
      (fun st r => collectStakesOf_ok_iff sc st s.2 r) (l := d) (s := s.2)).1 ⟨_, h2⟩
    obtain ⟨st, h5⟩ := (foldlM_ok_iff (P := fun r => ∃ st, (r >>= collectStakesOf sc s.2) = .ok st)
      (fun st r => collectStakesOf_ok_iff sc st s.2 r) (l := d') (s := s.2)).2 fun r hr => h4 r (hp.mem_iff.2 hr)
    exact ⟨st, collectAll_eq_ok.2 ⟨h3, h5⟩⟩
  have hd' : done'.Pairwise DifferentCells := hd.perm hp (fun {a b} => DifferentCells.symm)
  rcases h : collectAll sc s done with e | s1
  · rcases h' : collectAll sc s done' with e' | s2
    · rfl
    · obtain ⟨st, h3⟩ := key hp.symm hd' h'
      rw [h] at h3; cases h3
  · obtain ⟨st, h3⟩ := key hp hd h
    rw [h3]; rfl

theorem cells_nodup (ny nx : Nat) : ((List.range ny).flatMap fun y => (List.range nx).map fun x => (y, x)).Nodup := by
  rw [List.nodup_flatMap]
  refine ⟨fun y _ => (List.nodup_range).map (fun a b h => (Prod.mk.inj h).2), ?_⟩
  refine (List.nodup_range (n := ny)).imp ?_
  intro a b hab
  rw [Function.onFun, List.disjoint_left]
  intro c h1 h2
  obtain ⟨x, _, rfl⟩ := List.mem_map.1 h1
  obtain ⟨x', _, h⟩ := List.mem_map.1 h2
  exact hab (Prod.mk.inj h).1.symm

theorem submit_fold (g n : Nat → Nat → Bool) : ∀ (cs acc l : List (Nat × Nat)), cs.foldlM (fun acc c =>
    if g c.1 c.2 then if n c.1 c.2 then (.error .exit : M (List (Nat × Nat))) else .ok (acc ++ [c]) else .ok acc) acc = .ok l ↔
    l = acc ++ cs.filter (fun c => g c.1 c.2) ∧ ∀ c ∈ cs, g c.1 c.2 = true → n c.1 c.2 = false
  | [], acc, l => by
    rw [List.foldlM_nil, pure_eq_ok, List.filter_nil, List.append_nil]
    constructor
    · intro h; exact ⟨h.symm, fun c hc => (List.not_mem_nil hc).elim⟩
    · rintro ⟨h, _⟩; exact h.symm
  | c :: cs, acc, l => by
    rw [List.foldlM_cons]
    have ih := submit_fold g n cs
    cases hg : g c.1 c.2
    · simp only [Bool.false_eq_true, if_false, ok_bind, ih]
      rw [List.filter_cons_of_neg (by simp [hg])]
      simp [hg]
    · cases hn : n c.1 c.2
      · simp only [if_true, Bool.false_eq_true, if_false, ok_bind, ih]
        rw [List.filter_cons_of_pos (by simpa using hg)]
        simp [hn]
      · simp only [if_true, error_bind]
        constructor
        · intro h; cases h
        · rintro ⟨_, h⟩
          have := h c (List.mem_cons_self ..) hg
          rw [hn] at this; cases this

/-- The submitted tasks. -/
theorem submitTasks_eq_ok {ny nx : Nat} {g n : Nat → Nat → Bool} {l : List (Nat × Nat)} :
    submitTasks ny nx g n = .ok l ↔
    l = ((List.range ny).flatMap fun y => (List.range nx).map fun x => (y, x)).filter (fun c => g c.1 c.2) ∧
      ∀ y x, y < ny → x < nx → g y x = true → n y x = false := by
  unfold submitTasks
  rw [submit_fold]
  simp only [List.nil_append, List.mem_flatMap, List.mem_range, List.mem_map]
  constructor
  · rintro ⟨h1, h2⟩; exact ⟨h1, fun y x hy hx => h2 (y, x) ⟨y, hy, x, hx, rfl⟩⟩
  · rintro ⟨h1, h2⟩
    refine ⟨h1, ?_⟩
    rintro _ ⟨y, hy, x, hx, rfl⟩
    exact h2 y x hy hx

theorem submitTasks_nodup {ny nx : Nat} {g n : Nat → Nat → Bool} {l : List (Nat × Nat)}
    (h : submitTasks ny nx g n = .ok l) : l.Nodup := by
  rw [(submitTasks_eq_ok.1 h).1]
  exact (cells_nodup ny nx).filter _

/-- Tasks for distinct cells give results for different cells. -/
theorem differentCells_of_nodup {worker : Nat → Nat → M (List (PyVal α))}
    (hw : ∀ y x res, worker y x = .ok res → ResultOf res y x) {l : List (Nat × Nat)} (hl : l.Nodup) :
    (l.map fun c => worker c.1 c.2).Pairwise DifferentCells := by
  rw [List.pairwise_map]
  refine hl.imp ?_
  intro a b hab va vb ha hb
  refine ⟨_, _, _, _, hw _ _ _ ha, hw _ _ _ hb, ?_⟩
  rintro ⟨h1, h2⟩
  exact hab (Prod.ext h1 h2)

/-- **C45, whole program.** For every domain, mask, workers and any two schedules: same arrays and datasets, or an
exception in both cases. A worker returns the indices it was called with, cosipy/cpkernel/cosipy_core.py:506. -/
theorem C45_run {sc : StakeCfg} {io : IOState α} {fill : α} {g n : Nat → Nat → Bool}
    {worker : Nat → Nat → M (List (PyVal α))} (hw : ∀ y x res, worker y x = .ok res → ResultOf res y x)
    {order order' : List (Nat × Nat) → List (Nat × Nat)} (ho : ∀ l, (order l).Perm l) (ho' : ∀ l, (order' l).Perm l) :
    (runCosipy sc io fill g n worker order).toOption.map Prod.fst =
      (runCosipy sc io fill g n worker order').toOption.map Prod.fst := by
  unfold runCosipy
  rcases ht : submitTasks io.ny io.nx g n with e | l
  · rfl
  simp only [ok_bind]
  have hp : (order l).Perm (order' l) := (ho l).trans (ho' l).symm
  exact C45_order (hp.map _) (differentCells_of_nodup hw ((ho l).nodup_iff.2 (submitTasks_nodup ht)))

/-- Rows contributed by a finished task. -/
private def rowsOf (r : M (List (PyVal α))) : List (String × α) :=
  match r with
  | .ok res => match stakePart res with
    | some p => p.1
    | none => []
  | .error _ => []

/-- **C45, stake statistics.** The rows of the stake statistics are the same for every schedule, up to their order. -/
theorem C45_stake_rows {sc : StakeCfg} (he : sc.evaluation = true) {s s1 s2 : IOState α × StakeState α}
    {done done' : List (M (List (PyVal α)))} (hp : done.Perm done') (h1 : collectAll sc s done = .ok s1)
    (h2 : collectAll sc s done' = .ok s2) : s1.2.stat.Perm s2.2.stat := by
  have key : ∀ (d : List (M (List (PyVal α)))) (st st' : StakeState α),
      d.foldlM (fun st r => r >>= collectStakesOf sc st) st = .ok st' → st'.stat = st.stat ++ d.flatMap rowsOf := by
    intro d
    induction d with
    | nil => intro st st' h; rw [List.foldlM_nil, pure_eq_ok] at h; subst h; simp
    | cons r d ih =>
      intro st st' h
      rw [List.foldlM_cons, bind_eq_ok] at h
      obtain ⟨s1, h1, h2⟩ := h
      rw [bind_eq_ok] at h1
      obtain ⟨v, rfl, h1⟩ := h1
      rw [collectStakesOf_eq_ok he] at h1
      obtain ⟨rs, ns, mb, sh, e, rfl⟩ := h1
      rw [ih _ _ h2, List.flatMap_cons, List.append_assoc]
      congr 1
      simp only [rowsOf, e]
  rw [key _ _ _ (collectAll_eq_ok.1 h1).2, key _ _ _ (collectAll_eq_ok.1 h2).2]
  exact (hp.flatMap_right _).append_left _

end

/-- **C45, stake statistics.** Their order does depend on the schedule: two tasks, two orders, two different tables. -/
theorem C45_stake_order_matters : ∃ (sc : StakeCfg) (s : IOState Nat × StakeState Nat) (a b : M (List (PyVal Nat)))
    (s1 s2 : IOState Nat × StakeState Nat),
    DifferentCells a b ∧ collectAll sc s [a, b] = .ok s1 ∧ collectAll sc s [b, a] = .ok s2 ∧ s1.2.stat ≠ s2.2.stat := by
  let s : IOState Nat × StakeState Nat := ((exIO.createResultArrays 9).createRestartArrays 9, ⟨[], fun _ => none⟩)
  have e1 : (collectAll ⟨true, true, false⟩ s [.ok (exRes 0 1), .ok (exRes 1 0)]).toOption.map (·.2.stat) =
    some [("A", 1), ("B", 0)] := by decide +kernel
  have e2 : (collectAll ⟨true, true, false⟩ s [.ok (exRes 1 0), .ok (exRes 0 1)]).toOption.map (·.2.stat) =
    some [("B", 0), ("A", 1)] := by decide +kernel
  refine ⟨⟨true, true, false⟩, s, .ok (exRes 0 1), .ok (exRes 1 0), ?_⟩
  rcases h1 : collectAll ⟨true, true, false⟩ s [.ok (exRes 0 1), .ok (exRes 1 0)] with e | s1
  · rw [h1] at e1; cases e1
  rcases h2 : collectAll ⟨true, true, false⟩ s [.ok (exRes 1 0), .ok (exRes 0 1)] with e | s2
  · rw [h2] at e2; cases e2
  rw [h1] at e1
  rw [h2] at e2
  refine ⟨s1, s2, ?_, rfl, rfl, ?_⟩
  · intro va vb ha hb
    cases ha; cases hb
    exact ⟨0, 1, 1, 0, ⟨rfl, rfl⟩, ⟨rfl, rfl⟩, by decide⟩
  · have e1 : s1.2.stat = [("A", 1), ("B", 0)] := Option.some.inj e1
    have e2 : s2.2.stat = [("B", 0), ("A", 1)] := Option.some.inj e2
    rw [e1, e2]
    decide

/-- Non-vacuity: a domain with three glacier cells runs through with both schedules, and workers return their cell. -/
example : (runCosipy ⟨true, true, false⟩ exIO 9 exMask (fun _ _ => false) (fun y x => .ok (exRes y x)) id).toOption.isSome = true ∧
    (runCosipy ⟨true, true, false⟩ exIO 9 exMask (fun _ _ => false) (fun y x => .ok (exRes y x)) List.reverse).toOption.isSome = true ∧
    (∀ y x res, (.ok (exRes y x) : M _) = .ok res → ResultOf res y x) := by
  refine ⟨by decide +kernel, by decide +kernel, ?_⟩
  intro y x res h
  cases h
  exact ⟨rfl, rfl⟩

end Cosipy
