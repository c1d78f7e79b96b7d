import Verif.Props.C15
import Verif.Props.C65
import Mathlib.Tactic.Ring

/-!
# C98 The simulated time is the time of the input

Full property (`AxisRespected`): a run that finishes has simulated every record for the time until the next one, that is, the time stamps it
used are `dt` apart; otherwise the program stops. It is false: `C98_refuted`. What holds instead: every axis in order inside the
period is accepted (`C98_accepts`), the time stamps only label the results (`C98_relabel`), and the clock of the simulation
advances by `dt` per record whatever the time stamps say (`C98_clock`, `C98_drift`). For an axis with the configured step the two agree
(`C98_regular_partial`).
-/

set_option autoImplicit false
set_option linter.unusedSectionVars false

namespace Cosipy
open Program

/-- Consecutive time stamps are `dt` apart. -/
def Spaced (dt : Int) (times : List Int) : Prop := times.IsChain fun a b => b = a + dt

section
variable {β ρ γ : Type} {parse : Parse} {fmt : Format}

/-- The full property: a finished run used an axis with the configured step. -/
def AxisRespected (parse : Parse) (fmt : Format) (cfg : Settings) (simulate : Option γ → Series β → M (ρ × γ)) : Prop :=
  ∀ (d : Series β) (disk disk' : Disk ρ γ), Program.main parse fmt cfg (some d) simulate disk = .ok disk' →
    ∀ r f, createData parse fmt cfg disk (some d) = .ok (r, f) → Spaced cfg.dt r.time

/-- Time settings as in the shipped configuration, quoted to the minute: the period from `s` to `e`. -/
structure Quoted (parse : Parse) (cfg : Settings) (s e : Int) : Prop where
  fresh : cfg.restart = false
  start : ∃ x n, cfg.timeStart = .str x ∧ parse x = .ok (s, n)
  stop : ∃ x n, cfg.timeEnd = .str x ∧ parse x = .ok (e, n) ∧ 0 < n
  minute : s % 60 = 0

theorem Quoted.named {cfg : Settings} {s e : Int} (hq : Quoted parse cfg s e) : ∃ n, outputName cfg = .ok n := by
  obtain ⟨x, n, hx, _⟩ := hq.start
  obtain ⟨y, m, hy, _⟩ := hq.stop
  unfold outputName timestampLabel
  rw [hx, hy]
  exact ⟨_, rfl⟩

theorem select_all {d : Series β} {s e : Int} (hl : d.time.length = d.records.length) (h : ∀ t ∈ d.time, s ≤ t ∧ t < e) :
    select d s e = d := by
  unfold select
  have : (d.time.zip d.records).filter (fun p => decide (s ≤ p.1 ∧ p.1 < e)) = d.time.zip d.records := by
    rw [List.filter_eq_self]
    intro p hp
    have := h p.1 (List.of_mem_zip hp).1
    simpa using this
  simp only [this]
  cases d with
  | mk t r =>
    simp only [Series.mk.injEq]
    exact ⟨List.map_fst_zip hl.le, List.map_snd_zip hl.ge⟩

/-- **C98, acceptance.** Any axis in time order inside the period is accepted as it is, whatever its steps and gaps. -/
theorem C98_accepts {cfg : Settings} {s e : Int} (hq : Quoted parse cfg s e) {d : Series β} (hl : d.time.length = d.records.length)
    (hne : d.time ≠ []) (hsort : d.time.Pairwise (· ≤ ·)) (hin : ∀ t ∈ d.time, s ≤ t ∧ t ≤ e) (disk : Disk ρ γ) :
    createData parse fmt cfg disk (some d) = .ok (d, none) := by
  obtain ⟨x, n, hx, hpx⟩ := hq.start
  obtain ⟨y, m, hy, hpy, hm⟩ := hq.stop
  unfold createData
  rw [hq.fresh, if_neg (by simp)]
  have hi : initData parse (some d) cfg.timeStart cfg.timeEnd none = .ok d := by
    unfold initData
    simp only [sortTime_eq hsort]
    obtain ⟨lo, hlo⟩ : ∃ lo, d.time.head? = some lo := by
      cases h : d.time with
      | nil => exact absurd h hne
      | cons a l => exact ⟨a, rfl⟩
    obtain ⟨hi, hhi⟩ : ∃ hi, d.time.getLast? = some hi := ⟨_, List.getLast?_eq_some_getLast hne⟩
    rw [hlo, hhi]
    have h1 := hin lo (List.mem_of_head? hlo)
    have h2 := hin hi (List.mem_of_getLast? hhi)
    have hmin := hq.minute
    simp only [hx, hy, moment, hpx, hpy, ok_bind, pure, Except.pure]
    rw [if_neg (by unfold floorMinute; omega)]
    unfold choose
    simp only [sliceStart, sliceEnd, moment, hpx, hpy, ok_bind, pure, Except.pure]
    rw [select_all hl (fun t ht => ⟨(hin t ht).1, by have := (hin t ht).2; omega⟩)]
    unfold checkNonempty
    rw [if_neg hne]
  rw [hi]
  rfl

/-- A simulation that uses the records and puts the time stamps on the result. -/
def labelled (sim : Option γ → List β → M (ρ × γ)) : Option γ → Series β → M ((List Int × ρ) × γ) := fun s d => do
  let r ← sim s d.records
  return ((d.time, r.1), r.2)

/-- **C98, labels.** Two inputs with the same records and any two axes in order inside the period: the run ends in the same way, and the result and the
restart file hold the same data under other times. -/
theorem C98_relabel {cfg : Settings} {s e : Int} (hq : Quoted parse cfg s e) (sim : Option γ → List β → M (ρ × γ)) {records : List β}
    {t t' : List Int} (hl : t.length = records.length) (hl' : t'.length = records.length) (hne : records ≠ [])
    (hs : t.Pairwise (· ≤ ·)) (hs' : t'.Pairwise (· ≤ ·)) (hin : ∀ x ∈ t, s ≤ x ∧ x ≤ e) (hin' : ∀ x ∈ t', s ≤ x ∧ x ≤ e)
    (disk : Disk (List Int × ρ) γ) :
    (∃ err, Program.main parse fmt cfg (some ⟨t, records⟩) (labelled sim) disk = .error err ∧
      Program.main parse fmt cfg (some ⟨t', records⟩) (labelled sim) disk = .error err) ∨
    ∃ name res st last last', t.getLast? = some last ∧ t'.getLast? = some last' ∧ ∃ d1 d2,
      Program.main parse fmt cfg (some ⟨t, records⟩) (labelled sim) disk = .ok d1 ∧
      Program.main parse fmt cfg (some ⟨t', records⟩) (labelled sim) disk = .ok d2 ∧
      d1.output name = some (t, res) ∧ d2.output name = some (t', res) ∧
      d1.restart (fmt last) = some ⟨last, st⟩ ∧ d2.restart (fmt last') = some ⟨last', st⟩ := by
  have hn : t ≠ [] := by rintro rfl; exact hne (List.eq_nil_of_length_eq_zero hl.symm)
  have hn' : t' ≠ [] := by rintro rfl; exact hne (List.eq_nil_of_length_eq_zero hl'.symm)
  have hc := C98_accepts (fmt := fmt) hq (d := ⟨t, records⟩) hl hn hs hin disk
  have hc' := C98_accepts (fmt := fmt) hq (d := ⟨t', records⟩) hl' hn' hs' hin' disk
  unfold Program.main
  rw [hc, hc']
  simp only [ok_bind, List.getLast?_eq_some_getLast hn, List.getLast?_eq_some_getLast hn', Option.map_none, labelled]
  cases hsim : sim none records with
  | error err => left; exact ⟨err, rfl, rfl⟩
  | ok r =>
    right
    obtain ⟨nm, hnm⟩ := hq.named
    refine ⟨nm, r.1, r.2, _, _, rfl, rfl, ?_⟩
    simp only [ok_bind, pure, Except.pure, hnm]
    exact ⟨_, _, rfl, rfl, if_pos rfl, if_pos rfl, if_pos rfl, if_pos rfl⟩

/-- **C98, refuted.** Whatever the simulation does with the records: if it succeeds on some two records, the program accepts these records three
hours apart although the step is one hour. -/
theorem C98_refuted {cfg : Settings} {s : Int} (hq : Quoted parse cfg s (s + 10800)) (hdt : cfg.dt = 3600)
    (sim : Option γ → List β → M (ρ × γ)) {a b : β} {r : ρ × γ} (h : sim none [a, b] = .ok r) (disk : Disk (List Int × ρ) γ) :
    ¬ AxisRespected parse fmt cfg (labelled sim) := by
  intro hp
  have hin : ∀ t ∈ [s, s + 10800], s ≤ t ∧ t ≤ s + 10800 := by
    intro t ht
    rcases List.mem_cons.1 ht with rfl | ht
    · omega
    · rw [List.mem_singleton] at ht; omega
  have hsort : [s, s + 10800].Pairwise (· ≤ ·) := by
    rw [List.pairwise_pair]; omega
  have hc := C98_accepts (fmt := fmt) hq (d := ⟨[s, s + 10800], [a, b]⟩) rfl (by simp) hsort hin disk
  rcases C98_relabel (fmt := fmt) hq sim (records := [a, b]) (t := [s, s + 10800]) (t' := [s, s + 10800]) rfl rfl (by simp) hsort hsort hin hin disk with
    ⟨err, h1, _⟩ | ⟨_, _, _, _, _, _, _, d1, _, h1, _⟩
  · obtain ⟨n, hnm⟩ := hq.named
    unfold Program.main at h1
    rw [hc] at h1
    simp only [ok_bind, List.getLast?_cons_cons, List.getLast?_singleton, Option.map_none, labelled, h, hnm, pure, Except.pure] at h1
    cases h1
  · have := hp _ _ _ h1 _ _ hc
    rw [hdt] at this
    have h2 : s + 10800 = s + 3600 := by
      unfold Spaced at this
      simp at this
    omega

/-- **C98, an axis with the configured step.** The `i`-th record has the time of the `i`-th step, and the number of records times `dt` is the time covered. -/
theorem C98_regular_partial {dt : Int} {t0 : Int} {ts : List Int} (h : Spaced dt (t0 :: ts)) :
    (∀ i (hi : i < (t0 :: ts).length), (t0 :: ts)[i] = t0 + i * dt) ∧
    ((t0 :: ts).getLast (by simp) + dt) - t0 = (t0 :: ts).length * dt := by
  have key : ∀ (ts : List Int) (t0 : Int), Spaced dt (t0 :: ts) → ∀ i (hi : i < (t0 :: ts).length), (t0 :: ts)[i] = t0 + i * dt := by
    intro ts
    induction ts with
    | nil =>
      intro t0 _ i hi
      have : i = 0 := by simpa using hi
      subst this
      simp
    | cons a l ih =>
      intro t0 h i hi
      unfold Spaced at h
      rw [List.isChain_cons_cons] at h
      cases i with
      | zero => simp
      | succ j =>
        have := ih a h.2 j (by simpa using hi)
        rw [List.getElem_cons_succ, this, h.1]
        push_cast
        ring
  refine ⟨key ts t0 h, ?_⟩
  rw [List.getLast_eq_getElem, key ts t0 h]
  simp only [List.length_cons, Nat.add_sub_cancel]
  push_cast
  ring
end

section
variable {K : Type} [Field K] [LinearOrder K] [IsStrictOrderedRing K] [Transc K]

theorem run_records {sv : Solvers K} {fuel : Nat} {c : Consts K} {r : RunCfg K} : ∀ {fs : List (Forcing K)} {s s' : SimState K} {os : List (StepOut K)},
    run sv fuel c r s fs = .ok (s', os) → os.length = fs.length := by
  intro fs
  induction fs with
  | nil => intro s s' os h; rw [run] at h; cases h; rfl
  | cons f fs ih =>
    intro s s' os h
    obtain ⟨s1, o1, os1, h1, h2, rfl⟩ := run_cons h
    simp [ih h2]

/-- **C98, the clock.** After any run without new snow the recorded ages have grown by the number of records times `dt`: the time stamps play no role. -/
theorem C98_clock {sv : Solvers K} {fuel : Nat} {c : Consts K} {r : RunCfg K} {d : Series (Forcing K)} {s s' : SimState K} {os : List (StepOut K)}
    (hw : s.grid.WF) (h : run sv fuel c r s d.records = .ok (s', os)) (hs : ∀ o ∈ os, ¬ 0 < o.snowfall)
    (he : s.grid.newSnowTimestamp = s.grid.oldSnowTimestamp) :
    s'.grid.newSnowTimestamp = s.grid.newSnowTimestamp + d.records.length * r.dt := by
  have := (C15_before_first_snow _ hw h hs he).1
  rwa [run_records h] at this

/-- **C98, drift.** On an axis with the step `k` times the configured one the clock of the simulation is behind: of the time covered it
has simulated the `k`-th part. -/
theorem C98_drift {sv : Solvers K} {fuel : Nat} {c : Consts K} {r : RunCfg K} {s s' : SimState K} {os : List (StepOut K)}
    {records : List (Forcing K)} {dt k t0 : Int} {ts : List Int} (hl : (t0 :: ts).length = records.length) (hdt : r.dt = (dt : K)) (hk : Spaced (k * dt) (t0 :: ts))
    (hw : s.grid.WF) (h : run sv fuel c r s records = .ok (s', os)) (hs : ∀ o ∈ os, ¬ 0 < o.snowfall)
    (he : s.grid.newSnowTimestamp = s.grid.oldSnowTimestamp) :
    (((t0 :: ts).getLast (by simp) + k * dt - t0 : Int) : K) = k * (s'.grid.newSnowTimestamp - s.grid.newSnowTimestamp) := by
  rw [(C98_regular_partial hk).2, C98_clock (d := ⟨t0 :: ts, records⟩) hw h hs he, hl, hdt]
  push_cast
  ring
end

section
/-- Two texts of a minute each. -/
private def exParse98 : Parse := fun x => if x = "2009-01-01T00:00".toList then .ok (0, 60) else if x = "2009-01-01T03:00".toList then .ok (10800, 60) else .error .value
private def exSet98 : Settings := ⟨false, .str "2009-01-01T00:00".toList, .str "2009-01-01T03:00".toList, "x".toList, 3600⟩
private theorem exQuoted98 : Quoted exParse98 exSet98 0 (0 + 10800) :=
  ⟨rfl, ⟨_, 60, rfl, by decide +kernel⟩, ⟨_, 60, rfl, by decide +kernel, by decide⟩, by decide⟩

/-- Non-vacuity: an hourly, a three-hourly and an irregular axis are all accepted. -/
example (fmt : Format) (disk : Disk Unit Unit) :
    createData exParse98 fmt exSet98 disk (some ⟨[0, 3600, 7200, 10800], ["a", "b", "c", "d"]⟩) = .ok (⟨[0, 3600, 7200, 10800], ["a", "b", "c", "d"]⟩, none) ∧
    createData exParse98 fmt exSet98 disk (some ⟨[0, 10800], ["a", "b"]⟩) = .ok (⟨[0, 10800], ["a", "b"]⟩, none) ∧
    createData exParse98 fmt exSet98 disk (some ⟨[0, 60, 7200], ["a", "b", "c"]⟩) = .ok (⟨[0, 60, 7200], ["a", "b", "c"]⟩, none) :=
  ⟨C98_accepts exQuoted98 rfl (by decide) (by decide) (by decide) disk, C98_accepts exQuoted98 rfl (by decide) (by decide) (by decide) disk,
    C98_accepts exQuoted98 rfl (by decide) (by decide) (by decide) disk⟩

example (fmt : Format) : ¬ AxisRespected exParse98 fmt exSet98 (labelled fun (_ : Option Unit) (l : List String) => .ok (l.length, ())) :=
  C98_refuted (r := (2, ())) (a := "a") (b := "b") exQuoted98 rfl _ rfl ⟨fun _ => none, fun _ => none⟩

example : Spaced 3600 [0, 3600, 7200] := by unfold Spaced; simp

/-- A run of two dry steps: the snow age has grown by two hours, on any axis. -/
example : (exRun [exDry, exDry]).toOption.map (fun r => (r.1.grid.newSnowTimestamp - exGrid.newSnowTimestamp, r.2.map fun o => decide (0 < o.snowfall))) =
    some (7200, [false, false]) := by decide +kernel
end

end Cosipy
