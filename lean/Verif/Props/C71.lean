import Verif.Props.C46
import Verif.Props.C66
import Verif.Props.C69

/-!
# C71 — interrupting the program

The files after a crash at any point of a run: `C71_others`, `C71_order`, `C71_exception`, `C71_one_cell`, `C71_rerun`,
and what can be lost: `C71_old_result_lost`.
-/

set_option autoImplicit false
set_option linter.unusedSectionVars false

namespace Cosipy
open Program
section
variable {β ρ γ : Type} {parse : Parse} {fmt : Format} {cfg : Settings} {input : Option (Series β)}
  {simulate : Option γ → Series β → M (ρ × γ)}

/-- The states a run can leave on disk: the one it found and those it goes through. -/
def Left (parse : Parse) (fmt : Format) (cfg : Settings) (input : Option (Series β))
    (simulate : Option γ → Series β → M (ρ × γ)) (disk s : Files ρ γ) : Prop :=
  s = disk ∨ s ∈ (mainStates parse fmt cfg input simulate disk).1

/-- The two ways of describing a run agree: `main` succeeds iff the sequence ends without exception, and then with the same
files; otherwise with the same exception. -/
theorem main_states (disk : Files ρ γ) :
    (∀ e, Program.main parse fmt cfg input simulate disk.view = .error e ↔
      (mainStates parse fmt cfg input simulate disk).2 = some e) ∧
    (∀ d', Program.main parse fmt cfg input simulate disk.view = .ok d' →
      ∃ l s, (mainStates parse fmt cfg input simulate disk).1 = l ++ [s] ∧ s.view = d') := by
  unfold Program.main mainStates
  cases h1 : createData parse fmt cfg disk.view input with
  | error e => simp [bind, Except.bind]
  | ok df =>
    obtain ⟨d, f⟩ := df
    simp only [ok_bind]
    cases h2 : d.time.getLast? with
    | none => simp
    | some last =>
      simp only
      cases h3 : simulate (f.map (·.state)) d with
      | error e => simp [bind, Except.bind]
      | ok rs =>
        obtain ⟨res, st⟩ := rs
        simp only [ok_bind]
        cases h4 : outputName cfg with
        | error e => simp [bind, Except.bind]
        | ok name =>
          simp only [ok_bind, pure_eq_ok]
          refine ⟨fun e => by simp [pure, Except.pure], fun d' hd => ?_⟩
          subst hd
          refine ⟨[_, _, _], _, rfl, ?_⟩
          unfold Files.view Files.putRestart Files.putOutput
          simp only [Disk.mk.injEq]
          refine ⟨?_, ?_⟩
          · funext n
            by_cases hn : n = name
            · simp [hn, Content.read]
            · simp [hn]
          · funext n
            by_cases hn : n = fmt last
            · simp [hn, Content.read]
            · simp [hn]

/-- The states of a run that reaches the writing. -/
theorem left_cases {disk s : Files ρ γ} (h : Left parse fmt cfg input simulate disk s) :
    s = disk ∨ ∃ d f last res st name, createData parse fmt cfg disk.view input = .ok (d, f) ∧
      d.time.getLast? = some last ∧ simulate (f.map (·.state)) d = .ok (res, st) ∧ outputName cfg = .ok name ∧
      (s = disk.putOutput name .cut ∨ s = disk.putOutput name (.whole res) ∨
        s = (disk.putOutput name (.whole res)).putRestart (fmt last) .cut ∨
        s = (disk.putOutput name (.whole res)).putRestart (fmt last) (.whole ⟨last, st⟩)) := by
  rcases h with h | h
  · exact .inl h
  · unfold mainStates at h
    split at h
    · simp at h
    · rename_i d f h1
      split at h
      · simp at h
      · rename_i last h2
        split at h
        · simp at h
        · rename_i res st h3
          split at h
          · simp at h
          · rename_i name h4
            simp only [List.mem_cons, List.not_mem_nil, or_false] at h
            exact .inr ⟨d, f, last, res, st, name, h1, h2, h3, h4, h⟩

/-- **C71, exceptions.** A run that ends with an exception (in any cell, in reading, or in naming the result) has written
no result and no restart file. -/
theorem C71_exception (disk : Files ρ γ) {e : Err}
    (h : Program.main parse fmt cfg input simulate disk.view = .error e) :
    (mainStates parse fmt cfg input simulate disk).1 = [] := by
  have h' := ((main_states disk).1 e).1 h
  unfold mainStates at h' ⊢
  split at h' <;> try rfl
  split at h' <;> try rfl
  split at h' <;> try rfl
  split at h' <;> first | rfl | cases h'

/-- **C71, other files.** Whenever a run is interrupted, every other result and restart file is as before, where the result
name is the configured one and the restart name that of the last time step. -/
theorem C71_others {disk s : Files ρ γ} (h : Left parse fmt cfg input simulate disk s) :
    s = disk ∨ ∃ name d f last, outputName cfg = .ok name ∧ createData parse fmt cfg disk.view input = .ok (d, f) ∧
      d.time.getLast? = some last ∧ (∀ n, n ≠ name → s.output n = disk.output n) ∧
      ∀ n, n ≠ fmt last → s.restart n = disk.restart n := by
  rcases left_cases h with h | ⟨d, f, last, res, st, name, h1, h2, h3, h4, h⟩
  · exact .inl h
  · refine .inr ⟨name, d, f, last, h4, h1, h2, ?_⟩
    rcases h with rfl | rfl | rfl | rfl <;>
      exact ⟨fun n hn => by simp [Files.putOutput, Files.putRestart, hn],
        fun n hn => by simp [Files.putOutput, Files.putRestart, hn]⟩

/-- **C71, order.** A restart file is touched only after the result file of the same run is complete, and a file that can
be read is either the one from before or the complete new one. -/
theorem C71_order {disk s : Files ρ γ} (h : Left parse fmt cfg input simulate disk s) :
    s = disk ∨ ∃ d f last res st name, createData parse fmt cfg disk.view input = .ok (d, f) ∧
      d.time.getLast? = some last ∧ simulate (f.map (·.state)) d = .ok (res, st) ∧ outputName cfg = .ok name ∧
      ((∃ n, s.restart n ≠ disk.restart n) → s.output name = some (.whole res)) ∧
      (∀ n r, s.view.output n = some r → disk.view.output n = some r ∨ n = name ∧ r = res) ∧
      (∀ n r, s.view.restart n = some r → disk.view.restart n = some r ∨ n = fmt last ∧ r = ⟨last, st⟩) := by
  rcases left_cases h with h | ⟨d, f, last, res, st, name, h1, h2, h3, h4, h⟩
  · exact .inl h
  · refine .inr ⟨d, f, last, res, st, name, h1, h2, h3, h4, ?_, ?_, ?_⟩
    · rintro ⟨n, hn⟩
      rcases h with rfl | rfl | rfl | rfl
      · exact absurd rfl hn
      · exact absurd rfl hn
      · simp [Files.putRestart, Files.putOutput]
      · simp [Files.putRestart, Files.putOutput]
    · intro n r hr
      by_cases hn : n = name
      · subst hn
        right
        refine ⟨rfl, ?_⟩
        rcases h with rfl | rfl | rfl | rfl <;>
          simp [Files.view, Files.putRestart, Files.putOutput, Content.read] at hr <;> exact hr.symm
      · left
        rcases h with rfl | rfl | rfl | rfl <;>
          simpa [Files.view, Files.putRestart, Files.putOutput, Content.read, hn] using hr
    · intro n r hr
      by_cases hn : n = fmt last
      · subst hn
        rcases h with rfl | rfl | rfl | rfl
        · exact .inl hr
        · exact .inl hr
        · simp [Files.view, Files.putRestart, Files.putOutput, Content.read] at hr
        · simp [Files.view, Files.putRestart, Files.putOutput, Content.read] at hr
          exact .inr ⟨rfl, hr.symm⟩
      · left
        rcases h with rfl | rfl | rfl | rfl <;>
          simpa [Files.view, Files.putRestart, Files.putOutput, Content.read, hn] using hr

/-- **C71, repeating.** Running again after an interruption at any point of a run from scratch ends with exactly the files
the uninterrupted run would have left. -/
theorem C71_rerun (hr : cfg.restart = false) {disk s : Files ρ γ} (h : Left parse fmt cfg input simulate disk s) :
    (mainStates parse fmt cfg input simulate s).1.getLast? = (mainStates parse fmt cfg input simulate disk).1.getLast? ∧
    (mainStates parse fmt cfg input simulate s).2 = (mainStates parse fmt cfg input simulate disk).2 := by
  have key : ∀ d₁ d₂ : Files ρ γ, createData parse fmt cfg d₁.view input = createData parse fmt cfg d₂.view input := by
    intro d₁ d₂
    unfold createData
    rw [if_neg (by rw [hr]; simp), if_neg (by rw [hr]; simp)]
  rcases left_cases h with rfl | ⟨d, f, last, res, st, name, h1, h2, h3, h4, h⟩
  · exact ⟨rfl, rfl⟩
  · have h1' := (key s disk).trans h1
    unfold mainStates
    simp only [h1, h1', h2, h3, h4]
    refine ⟨?_, trivial⟩
    simp only [List.getLast?_cons_cons, List.getLast?_singleton, Option.some.injEq]
    unfold Files.putRestart Files.putOutput
    simp only [Files.mk.injEq]
    refine ⟨?_, ?_⟩
    · funext n
      by_cases hn : n = name
      · simp [hn]
      · rcases h with rfl | rfl | rfl | rfl <;> simp [hn, Files.putOutput, Files.putRestart]
    · funext n
      by_cases hn : n = fmt last
      · simp [hn]
      · rcases h with rfl | rfl | rfl | rfl <;> simp [hn, Files.putOutput, Files.putRestart]

/-- **C71, what can be lost.** Whatever was stored under the name of the result is unreadable while the new result is being
written: an interruption then leaves neither. -/
theorem C71_old_result_lost (disk : Files ρ γ) {d' : Disk ρ γ}
    (h : Program.main parse fmt cfg input simulate disk.view = .ok d') :
    ∃ s name, Left parse fmt cfg input simulate disk s ∧ outputName cfg = .ok name ∧ s.view.output name = none := by
  have hn : (mainStates parse fmt cfg input simulate disk).2 = none := by
    cases hs : (mainStates parse fmt cfg input simulate disk).2 with
    | none => rfl
    | some e => rw [((main_states disk).1 e).2 hs] at h; cases h
  unfold Left
  unfold mainStates at hn ⊢
  split at hn <;> rename_i h1
  · cases hn
  · split at hn <;> rename_i h2
    · cases hn
    · split at hn <;> rename_i h3
      · cases hn
      · split at hn <;> rename_i h4
        · cases hn
        · rename_i name
          refine ⟨disk.putOutput name .cut, name, .inr ?_, h4, by simp [Files.view, Files.putOutput, Content.read]⟩
          simp only [h1, h2, h3, h4]
          simp

end

section
variable {K : Type} [Field K] [LinearOrder K] [IsStrictOrderedRing K] [Transc K] [HasTrunc K] {τ : Type} [DecidableEq τ]

/-- **C71, one failing cell.** If the simulation of one glacier cell ends with an exception, the simulation of the domain
does, in whatever order the cells finish; so by `C71_exception` nothing is written for any cell. -/
theorem C71_one_cell {sv : Solvers K} {fuel : Nat} {c : Consts K} {r : RunCfg K} {cfg : SelectCfg K} {fill : K}
    {times : List τ} {sc : StakeCfg} {io : IOState K} {g nan : Nat → Nat → Bool} {input : Nat → Nat → CellInput K τ}
    {order : List (Nat × Nat) → List (Nat × Nat)} (hio : ∀ k, io.attrs k = none) (ho : ∀ l, (order l).Perm l)
    {y x : Nat} (hy : y < io.ny) (hx : x < io.nx) (hg : g y x = true) {e : Err}
    (he : kernel sv fuel c ((input y x).cfg r) cfg fill times (input y x).snowheight (input y x).restart
      (input y x).stakes (input y x).data y x = .error e) :
    ∃ e', simulateDomain sv fuel c r cfg fill times sc io g nan input order = .error e' := by
  cases h : simulateDomain sv fuel c r cfg fill times sc io g nan input order with
  | error e' => exact ⟨e', rfl⟩
  | ok s =>
    obtain ⟨res, hk⟩ := domain_cell hio ho h hy hx hg
    rw [he] at hk
    cases hk

end

/-- A run from scratch over an existing result: four states, the second result replaces the first. -/
example :
    let old : Files String String := ⟨fun n => if n = "a_0-1.nc".toList then some (.whole "old") else none, fun _ => none⟩
    let r := mainStates exParse exFmt (exSettings "a" "0" "1") (some ⟨[0, 3600], ["x", "y"]⟩)
      (fun _ _ => .ok ("new", "state")) old
    r.1.length = 4 ∧ r.2 = none ∧
    (r.1.map fun s => s.view.output "a_0-1.nc".toList) = [none, some "new", some "new", some "new"] ∧
    (r.1.map fun s => (s.view.restart (exFmt 3600)).map (·.state)) = [none, none, none, some "state"] := by
  decide +kernel

end Cosipy
