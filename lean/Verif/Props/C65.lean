import Verif.Model.Program
import Verif.Lemmas.IO
import Verif.Props.C51

/-!
# C65 — continuing a finished run from its restart file

Full property: a run that ended at some step can be continued by a second run with `restart = true`, and both together
simulate every record of the whole period exactly once. `C65_refuted`: no form of the time settings lets a restarted run
write its results. `C65_stops_early`, `C65_stops_late` say where it stops. `C65_continue_partial`: as far as the choice
of the records goes, the two runs fit together.
-/

set_option autoImplicit false
set_option linter.unusedSectionVars false

namespace Cosipy
open Program

section
variable {β ρ γ : Type} {parse : Parse} {fmt : Format}

/-- **C65 fails**: whatever the settings, the input, the stored files and the simulation, a run with `restart = true`
ends with an error and writes nothing. -/
theorem C65_refuted (cfg : Settings) (h : cfg.restart = true) (input : Option (Series β))
    (simulate : Option γ → Series β → M (ρ × γ)) (disk : Disk ρ γ) :
    ∃ e, Program.main parse fmt cfg input simulate disk = .error e := by
  cases hm : Program.main parse fmt cfg input simulate disk with
  | error e => exact ⟨e, rfl⟩
  | ok disk' =>
    exfalso
    unfold Program.main at hm
    rw [bind_eq_ok] at hm
    obtain ⟨⟨d, f⟩, h1, h2⟩ := hm
    have hlab : ∃ l, timestampLabel cfg.timeStart = .ok l := by
      simp only at h2
      split at h2
      · cases h2
      · simp only [bind_eq_ok] at h2
        obtain ⟨_, _, n, hn, _⟩ := h2
        unfold outputName at hn
        rw [bind_eq_ok] at hn
        obtain ⟨l, hl, _⟩ := hn
        exact ⟨l, hl⟩
    unfold createData at h1
    rw [if_pos h] at h1
    simp only [bind_eq_ok] at h1
    obtain ⟨_, _, l, hl, _⟩ := h1
    obtain ⟨l', hl'⟩ := hlab
    cases ht : cfg.timeStart with
    | str s =>
      rw [ht] at hl
      unfold restartLabel at hl
      rw [bind_eq_ok] at hl
      obtain ⟨_, _, h3⟩ := hl
      cases h3
    | datetime t => rw [ht] at hl'; cases hl'
    | date t => rw [ht] at hl'; cases hl'
    | time t => rw [ht] at hl'; cases hl'
    | number => rw [ht] at hl'; cases hl'
    | array => rw [ht] at hl'; cases hl'

/-- **C65, quoted times** (as in the shipped file): AttributeError before the restart file is looked for. -/
theorem C65_stops_early (cfg : Settings) (h : cfg.restart = true) {s e : List Char} (hs : cfg.timeStart = .str s)
    (he : cfg.timeEnd = .str e) {a b : Int × Int} (ps : parse s = .ok a) (pe : parse e = .ok b)
    (input : Option (Series β)) (simulate : Option γ → Series β → M (ρ × γ)) (disk : Disk ρ γ) :
    Program.main parse fmt cfg input simulate disk = .error .attribute := by
  unfold Program.main createData
  rw [if_pos h, hs, he]
  simp only [restartLabel, ps, pe, ok_bind, error_bind]

/-- **C65, unquoted times**: the whole simulation runs, then the name of the output file cannot be formed (TypeError) and
nothing is written. -/
theorem C65_stops_late (cfg : Settings) {t : Int} (hs : cfg.timeStart = .datetime t) {input : Option (Series β)}
    {simulate : Option γ → Series β → M (ρ × γ)} {disk : Disk ρ γ} {d : Series β} {f : Option (RestartFile γ)}
    (h1 : createData parse fmt cfg disk input = .ok (d, f)) {last : Int} (h2 : d.time.getLast? = some last) {r : ρ × γ}
    (h3 : simulate (f.map (·.state)) d = .ok r) :
    Program.main parse fmt cfg input simulate disk = .error .type := by
  unfold Program.main
  rw [h1, ok_bind]
  simp only [h2, h3, ok_bind]
  unfold outputName
  rw [hs]
  rfl

/-! ## The records of the two runs -/

theorem sorted_split {l : List (Int × β)} (hs : l.Pairwise fun p q => p.1 ≤ q.1) (c : Int) :
    l.filter (fun p => decide (p.1 ≤ c)) ++ l.filter (fun p => decide (c < p.1)) = l := by
  induction l with
  | nil => rfl
  | cons a l ih =>
    rw [List.pairwise_cons] at hs
    by_cases h : a.1 ≤ c
    · rw [List.filter_cons_of_pos (by simpa using h), List.filter_cons_of_neg (by simpa using h), List.cons_append,
        ih hs.2]
    · have h' : c < a.1 := by omega
      rw [List.filter_cons_of_neg (by simpa using h), List.filter_cons_of_pos (by simpa using h'),
        List.filter_eq_nil_iff.2 ?_, List.filter_eq_self.2 ?_, List.nil_append]
      · intro p hp
        have := hs.1 p hp
        simp only [decide_eq_true_eq]
        omega
      · intro p hp
        have := hs.1 p hp
        simp only [decide_eq_true_eq]
        omega

theorem zip_pairwise {ts : List Int} (hs : ts.Pairwise (· ≤ ·)) (rs : List β) :
    (ts.zip rs).Pairwise fun p q => p.1 ≤ q.1 := by
  induction ts generalizing rs with
  | nil => exact List.Pairwise.nil
  | cons t ts ih =>
    cases rs with
    | nil => exact List.Pairwise.nil
    | cons r rs =>
      rw [List.pairwise_cons] at hs
      rw [List.zip_cons_cons, List.pairwise_cons]
      refine ⟨fun p hp => hs.1 p.1 ?_, ih hs.2 rs⟩
      exact (List.of_mem_zip (a := p.1) (b := p.2) hp).1

theorem select_zip (d : Series β) (s e : Int) : (select d s e).time.zip (select d s e).records =
    (d.time.zip d.records).filter fun p => decide (s ≤ p.1 ∧ p.1 < e) := by
  unfold select
  simp only
  generalize ((d.time.zip d.records).filter _) = l
  induction l with
  | nil => rfl
  | cons p l ih => simp only [List.map_cons, List.zip_cons_cons, ih]

theorem initData_eq {d r : Series β} (hs : d.time.Pairwise (· ≤ ·)) {ts te : TimeVal} {rd : Option Int}
    (h : initData parse (some d) ts te rd = .ok r) :
    ∃ e, choose parse ts te e rd d = .ok r := by
  unfold initData at h
  simp only [sortTime_eq hs] at h
  split at h
  · simp only [bind_eq_ok] at h
    obtain ⟨s, _, e, _, h⟩ := h
    split_ifs at h
    rw [bind_eq_ok] at h
    obtain ⟨r', hr', hn⟩ := h
    unfold checkNonempty at hn
    split_ifs at hn
    cases hn
    exact ⟨e, hr'⟩
  · cases h

/-- **C65, records of the two runs.** A run over some period ends at the record `last`; a second run started with
`time_start = last` (unquoted) finds the restart file the first one wrote. Whenever the second run gets as far as choosing
its records, the records of both runs together are exactly those from the first start to the second end: each once, in
order. This needs input records that are at least a time step apart. Missing for the full property: the second run cannot
write its results (`C65_refuted`). -/
theorem C65_continue_partial {d r₁ r₂ : Series β} (hs : d.time.Pairwise (· ≤ ·)) {cfg₂ : Settings} {ts te : TimeVal}
    (h₁ : initData parse (some d) ts te none = .ok r₁) {last : Int} (hl : r₁.time.getLast? = some last)
    (hr : cfg₂.restart = true) (ht : cfg₂.timeStart = .datetime last) {disk : Disk ρ γ} {f : RestartFile γ}
    (hf : disk.restart (fmt last) = some f) (hft : f.time = last) {g : Option (RestartFile γ)}
    (h₂ : createData parse fmt cfg₂ disk (some d) = .ok (r₂, g))
    (hdt : 0 < cfg₂.dt) (hgap : ∀ t ∈ d.time, last < t → last + cfg₂.dt ≤ t)
    {s e₁ e₂ : Int} (es : sliceStart parse ts = .ok s) (ee : sliceEnd parse te = .ok e₁)
    (ee₂ : sliceEnd parse cfg₂.timeEnd = .ok e₂) (hle : e₁ ≤ e₂) :
    g = some f ∧ r₁.time.zip r₁.records ++ r₂.time.zip r₂.records =
      (d.time.zip d.records).filter fun p => decide (s ≤ p.1 ∧ p.1 < e₂) := by
  -- first run
  obtain ⟨x₁, c₁⟩ := initData_eq hs h₁
  have hr₁ : r₁ = select d s e₁ := by
    unfold choose at c₁
    simp only [es, ee, ok_bind, pure_eq_ok] at c₁
    exact c₁.symm
  -- second run
  have hr₂ : r₂ = select d (last + cfg₂.dt) e₂ ∧ g = some f := by
    unfold createData at h₂
    rw [if_pos hr] at h₂
    simp only [bind_eq_ok] at h₂
    obtain ⟨_, _, l, hlab, h₂⟩ := h₂
    rw [ht] at hlab
    cases hlab
    unfold loadRestart at h₂
    rw [hf] at h₂
    simp only at h₂
    split_ifs at h₂
    rw [bind_eq_ok] at h₂
    obtain ⟨r', hr', h₂⟩ := h₂
    rw [pure_eq_ok] at h₂
    cases h₂
    have hr'' : initData parse (some d) cfg₂.timeStart cfg₂.timeEnd (some (f.time + cfg₂.dt)) = .ok r₂ := by
      unfold exitOnIndex at hr'
      split at hr'
      · cases hr'
      · exact hr'
    obtain ⟨x₂, c₂⟩ := initData_eq hs hr''
    unfold choose at c₂
    simp only at c₂
    split_ifs at c₂
    rw [ee₂, ok_bind, pure_eq_ok, hft] at c₂
    exact ⟨c₂.symm, rfl⟩
  refine ⟨hr₂.2, ?_⟩
  rw [hr₂.1, hr₁, select_zip, select_zip]
  set l := d.time.zip d.records with hlz
  have hsl : l.Pairwise fun p q => p.1 ≤ q.1 := zip_pairwise hs d.records
  -- the last selected time
  have hlast : ∃ q ∈ l, q.1 = last ∧ s ≤ last ∧ last < e₁ := by
    have hm := List.mem_of_getLast? hl
    rw [hr₁] at hm
    unfold select at hm
    simp only [List.mem_map, List.mem_filter, decide_eq_true_eq] at hm
    obtain ⟨q, ⟨hq, h3⟩, rfl⟩ := hm
    exact ⟨q, hq, rfl, h3⟩
  obtain ⟨q₀, hq₀, rfl, hs0, he0⟩ := hlast
  have hmax : ∀ p ∈ l, s ≤ p.1 → p.1 < e₁ → p.1 ≤ q₀.1 := by
    intro p hp h3 h4
    have hsorted : r₁.time.Pairwise (· ≤ ·) := by
      rw [hr₁]
      unfold select
      simp only
      rw [List.pairwise_map]
      exact hsl.filter _
    have hmem : p.1 ∈ r₁.time := by
      rw [hr₁]
      unfold select
      simp only [List.mem_map, List.mem_filter, decide_eq_true_eq]
      exact ⟨p, ⟨hp, h3, h4⟩, rfl⟩
    obtain ⟨pre, epre⟩ := List.getLast?_eq_some_iff.1 hl
    rw [epre] at hmem hsorted
    rcases List.mem_append.1 hmem with hx | hx
    · exact (List.pairwise_append.1 hsorted).2.2 _ hx _ (List.mem_singleton.2 rfl)
    · rw [List.mem_singleton.1 hx]
  have e1 : (l.filter fun p => decide (s ≤ p.1 ∧ p.1 < e₁)) =
      (l.filter fun p => decide (s ≤ p.1 ∧ p.1 < e₂)).filter fun p => decide (p.1 ≤ q₀.1) := by
    rw [List.filter_filter]
    refine List.filter_congr fun p hp => ?_
    rw [← Bool.decide_and, decide_eq_decide]
    constructor
    · rintro ⟨h3, h4⟩
      exact ⟨hmax p hp h3 h4, h3, by omega⟩
    · rintro ⟨h3, h4, h5⟩
      exact ⟨h4, by omega⟩
  have e2 : (l.filter fun p => decide (q₀.1 + cfg₂.dt ≤ p.1 ∧ p.1 < e₂)) =
      (l.filter fun p => decide (s ≤ p.1 ∧ p.1 < e₂)).filter fun p => decide (q₀.1 < p.1) := by
    rw [List.filter_filter]
    refine List.filter_congr fun p hp => ?_
    rw [← Bool.decide_and, decide_eq_decide]
    have hpt : p.1 ∈ d.time := (List.of_mem_zip (a := p.1) (b := p.2) hp).1
    constructor
    · rintro ⟨h3, h4⟩
      exact ⟨by omega, by omega, h4⟩
    · rintro ⟨h3, h4, h5⟩
      exact ⟨hgap _ hpt h3, h5⟩
  rw [e1, e2]
  exact sorted_split (hsl.filter _) q₀.1

/-- **C65, without restart.** With quoted, well-formed times and records in the period, the program simulates and writes;
so `C65_refuted` is not an artefact of the model. -/
theorem C65_plain {cfg : Settings} (hr : cfg.restart = false) {s e : List Char} (hs : cfg.timeStart = .str s)
    (he : cfg.timeEnd = .str e) {d r : Series β} (h1 : initData parse (some d) cfg.timeStart cfg.timeEnd none = .ok r)
    {last : Int} (h2 : r.time.getLast? = some last) {simulate : Option γ → Series β → M (ρ × γ)} {out : ρ × γ}
    (h3 : simulate none r = .ok out) (disk : Disk ρ γ) :
    ∃ disk', Program.main parse fmt cfg (some d) simulate disk = .ok disk' ∧
      disk'.restart (fmt last) = some ⟨last, out.2⟩ := by
  unfold Program.main createData
  rw [if_neg (by rw [hr]; simp), h1]
  simp only [ok_bind, pure, Except.pure, h2, Option.map_none, h3]
  unfold outputName
  rw [hs, he]
  exact ⟨_, rfl, by simp⟩

/-- **C65, settings outside the data.** If the wanted period begins after the last record or ends before the first one, a
restarted run stops with an exit, a fresh one with an IndexError; neither simulates anything. -/
theorem C65_outside {cfg : Settings} {d : Series β} {lo hi s e : Int} (hlo : d.sortTime.time.head? = some lo)
    (hhi : d.sortTime.time.getLast? = some hi) (hs : moment parse cfg.timeStart = .ok s)
    (he : moment parse cfg.timeEnd = .ok e) (hout : floorMinute hi < s ∨ e < floorMinute lo) {disk : Disk ρ γ} :
    (cfg.restart = false → createData parse fmt cfg disk (some d) = .error .index) ∧
    (cfg.restart = true → ∀ t, cfg.timeStart = .datetime t → createData parse fmt cfg disk (some d) = .error .exit) := by
  have hi0 : ∀ rd, initData parse (some d) cfg.timeStart cfg.timeEnd rd = .error .index := by
    intro rd
    unfold initData
    dsimp only
    rw [hlo, hhi]
    dsimp only
    rw [hs, ok_bind, he, ok_bind, if_pos hout]
  constructor
  · intro hr
    unfold createData
    rw [hr, if_neg (by simp), hi0, error_bind]
  · intro hr t ht
    have htail : (do
        let label ← restartLabel parse fmt cfg.timeStart
        loadRestart parse cfg disk label (some d)) = .error .exit := by
      have hl : restartLabel parse fmt cfg.timeStart = .ok (fmt t) := by rw [ht]; rfl
      rw [hl, ok_bind]
      unfold loadRestart
      cases disk.restart (fmt t) with
      | none => rfl
      | some f =>
        dsimp only
        by_cases hsame : sameTime parse cfg.timeStart cfg.timeEnd = true
        · rw [if_pos hsame]
        · rw [if_neg hsame, hi0]
          rfl
    unfold createData
    rw [if_pos hr]
    split
    · rename_i q hte
      rw [hte] at he
      unfold moment at he
      rw [bind_eq_ok] at he
      obtain ⟨p, hp, -⟩ := he
      rw [hp, ok_bind, ok_bind]
      exact htail
    · rw [ok_bind]
      exact htail

/-- An unquoted date stands for its midnight. -/
def atMidnight : TimeVal → TimeVal
  | .date t => .datetime t
  | v => v

/-- **C65, dates.** A run with unquoted dates in its settings does in every respect what it does with the midnights of these dates. -/
theorem C65_dates (cfg : Settings) (input : Option (Series β)) (simulate : Option γ → Series β → M (ρ × γ)) (disk : Disk ρ γ) :
    createData parse fmt { cfg with timeStart := atMidnight cfg.timeStart, timeEnd := atMidnight cfg.timeEnd } disk input =
      createData parse fmt cfg disk input ∧
    Program.main parse fmt { cfg with timeStart := atMidnight cfg.timeStart, timeEnd := atMidnight cfg.timeEnd } input simulate disk =
      Program.main parse fmt cfg input simulate disk := by
  have m1 : ∀ v, moment parse (atMidnight v) = moment parse v := by intro v; cases v <;> rfl
  have m2 : ∀ v, sliceEnd parse (atMidnight v) = sliceEnd parse v := by intro v; cases v <;> rfl
  have m3 : ∀ v, restartLabel parse fmt (atMidnight v) = restartLabel parse fmt v := by intro v; cases v <;> rfl
  have m4 : ∀ v, timestampLabel (atMidnight v) = timestampLabel v := by intro v; cases v <;> rfl
  have e1 : ∀ r, initData parse input (atMidnight cfg.timeStart) (atMidnight cfg.timeEnd) r = initData parse input cfg.timeStart cfg.timeEnd r := by
    intro r
    unfold initData choose sliceStart
    simp only [m1, m2]
  have e2 : createData parse fmt { cfg with timeStart := atMidnight cfg.timeStart, timeEnd := atMidnight cfg.timeEnd } disk input =
      createData parse fmt cfg disk input := by
    unfold createData loadRestart sameTime
    simp only [m1, m3, e1]
    cases cfg.timeEnd <;> rfl
  refine ⟨e2, ?_⟩
  unfold Program.main outputName
  rw [e2]
  simp only [m4]

end

/-! ## Non-vacuity -/

/-- A toy calendar for the examples: texts are single digits, "h" stands for hour h, each covering a minute. -/
def exParse : Parse := fun s => match s with
  | ['0'] => .ok (0, 60) | ['1'] => .ok (3600, 60) | ['2'] => .ok (7200, 60) | ['3'] => .ok (10800, 60)
  | _ => .error .value

def exFmt : Format := fun t => (toString (t / 60)).toList

/-- The first run: hours 0 and 1; the second: from the restart file to hour 3, started with an unquoted time. -/
example :
    initData exParse (some ⟨[0, 3600, 7200, 10800], ["a", "b", "c", "d"]⟩) (.str ['0']) (.str ['1']) none =
      .ok ⟨[0, 3600], ["a", "b"]⟩ ∧
    (createData exParse exFmt ⟨true, .datetime 3600, .str ['3'], ['p'], 3600⟩
      (⟨fun _ => none, fun n => if n = exFmt 3600 then some ⟨3600, 7⟩ else none⟩ : Disk Nat Nat)
      (some ⟨[0, 3600, 7200, 10800], ["a", "b", "c", "d"]⟩)).map (·.1) = .ok ⟨[7200, 10800], ["c", "d"]⟩ ∧
    (Program.main exParse exFmt ⟨true, .datetime 3600, .str ['3'], ['p'], 3600⟩
      (some ⟨[0, 3600, 7200, 10800], ["a", "b", "c", "d"]⟩) (fun s d => .ok (d.records, s.getD 0 + 1))
      ⟨fun _ => none, fun n => if n = exFmt 3600 then some ⟨3600, 7⟩ else none⟩).map (fun d => d.output []) = .error .type ∧
    (Program.main exParse exFmt ⟨false, .str ['0'], .str ['1'], ['p'], 3600⟩
      (some ⟨[0, 3600, 7200, 10800], ["a", "b", "c", "d"]⟩) (fun s d => .ok (d.records, s.getD 0 + 1))
      ⟨fun _ => none, fun _ => none⟩).map (fun d => (d.output "p_0-1.nc".toList, (d.restart (exFmt 3600)).map (·.time))) =
      .ok (some ["a", "b"], some 3600) := by
  refine ⟨by decide +kernel, by decide +kernel, by decide +kernel, by decide +kernel⟩

/-- `C65_dates`: with an unquoted date the records from its midnight on are chosen. -/
example : initData exParse (some ⟨[0, 3600, 7200, 10800], ["a", "b", "c", "d"]⟩) (.date 3600) (.date 7200) none =
    .ok ⟨[3600, 7200], ["b", "c"]⟩ := by decide +kernel

/-- A period after the data. -/
example : ((⟨[0, 3600], ["a", "b"]⟩ : Series String).sortTime.time.head? = some 0) ∧
    ((⟨[0, 3600], ["a", "b"]⟩ : Series String).sortTime.time.getLast? = some 3600) ∧
    moment exParse (.datetime 7200) = .ok 7200 ∧ moment exParse (.str ['3']) = .ok 10800 ∧
    floorMinute 3600 < 7200 := by decide +kernel

end Cosipy
