import Verif.Model.Input
import Verif.Lemmas.IO
import Mathlib.Data.List.Sort
import Mathlib.Data.List.Perm.Basic

/-!
# C51 Time axis of the input data

`C51_sorted_partial`: for input in time order, every record keeps its time stamp and exactly the records of the period are
selected. `C51_iff`: records keep their time stamps only for input in time order. `C51_refuted`: concrete input for which
a record gets another time. `C51_period`: when the period is rejected. `C51_gap`: accepted periods may be empty.
`C51_restart`: restarting with quoted times raises AttributeError.
-/

set_option autoImplicit false
set_option linter.unusedSectionVars false

namespace Cosipy
section
variable {β : Type}

theorem sortTime_eq {d : Series β} (h : d.time.Pairwise (· ≤ ·)) : d.sortTime = d := by
  unfold Series.sortTime
  rw [h.insertionSort_eq]

theorem sortTime_sorted (d : Series β) : d.sortTime.time.Pairwise (· ≤ ·) :=
  List.pairwise_insertionSort (· ≤ ·) d.time

theorem floorMinute_mono {a b : Int} (h : a ≤ b) : floorMinute a ≤ floorMinute b := by
  unfold floorMinute; omega

/-- The records with their time stamps in a period of whole minutes. -/
def inPeriod (time : List Int) (records : List β) (s e : Int) : List (Int × β) :=
  (time.zip records).filter fun p => decide (s ≤ p.1 ∧ p.1 < e + 60)

/-- **C51, input in time order.** Whatever is returned, it consists of exactly the records of the period, in order, each
with its own time stamp. -/
theorem C51_sorted_partial {d r : Series β} (hs : d.time.Pairwise (· ≤ ·)) {s e : Int}
    (h : initDataDataset (some d) s e = .ok r) : r.time.zip r.records = inPeriod d.time d.records s e := by
  unfold initDataDataset at h
  simp only [sortTime_eq hs] at h
  split at h
  · split_ifs at h
    cases h
    unfold Series.sel inPeriod
    simp only
    generalize ((d.time.zip d.records).filter _) = l
    induction l with
    | nil => rfl
    | cons p l ih => simp only [List.map_cons, List.zip_cons_cons, ih]
  · cases h

/-- **C51, exactly.** With records that can be told apart, sorting the axis leaves every record with its time stamp iff
the input was in time order. -/
theorem C51_iff {d : Series β} (hl : d.time.length = d.records.length) (hn : d.records.Nodup) :
    (∀ p, p ∈ d.sortTime.time.zip d.records ↔ p ∈ d.time.zip d.records) ↔ d.time.Pairwise (· ≤ ·) := by
  constructor
  · intro h
    suffices e : d.sortTime.time = d.time by rw [← e]; exact sortTime_sorted d
    have hl' : d.sortTime.time.length = d.records.length := by
      unfold Series.sortTime
      simpa using hl
    apply List.ext_getElem (hl'.trans hl.symm)
    intro i h1 h2
    have hi : i < d.records.length := hl' ▸ h1
    have hz : i < (d.sortTime.time.zip d.records).length := by rw [List.length_zip]; omega
    have hm := (h _).1 (List.getElem_mem hz)
    rw [List.getElem_zip] at hm
    obtain ⟨j, hj, e⟩ := List.getElem_of_mem hm
    rw [List.getElem_zip] at e
    have hj' : j < d.records.length := by rw [List.length_zip] at hj; omega
    have e2 := congrArg Prod.snd e
    have e1 := congrArg Prod.fst e
    simp only at e1 e2
    have : j = i := (List.Nodup.getElem_inj_iff hn).1 e2
    subst this
    exact e1.symm
  · intro h p
    rw [sortTime_eq h]

/-- **C51 is false in general**: hourly input in descending order. After loading, the record measured at 1 h carries the
time stamp 0 h. -/
theorem C51_refuted : ∃ (d r : Series String), initDataDataset (some d) 0 3600 = .ok r ∧
    (3600, "first") ∈ d.time.zip d.records ∧ (0, "first") ∈ r.time.zip r.records ∧
    (3600, "first") ∉ r.time.zip r.records :=
  ⟨⟨[3600, 0], ["first", "second"]⟩, ⟨[0, 3600], ["first", "second"]⟩, by decide +kernel, by decide +kernel,
    by decide +kernel, by decide +kernel⟩

/-- **C51, period.** The period is refused iff it begins after the last or ends before the first minute of the data (or
there is no data). -/
theorem C51_period (d : Series β) (s e : Int) :
    initDataDataset (some d) s e = .error .index ↔
      (∀ t ∈ d.time, floorMinute t < s) ∨ (∀ t ∈ d.time, e < floorMinute t) := by
  have hperm : d.sortTime.time.Perm d.time := List.perm_insertionSort (· ≤ ·) d.time
  have hmem : ∀ t, t ∈ d.sortTime.time ↔ t ∈ d.time := fun t => hperm.mem_iff
  have hsort := sortTime_sorted d
  unfold initDataDataset
  simp only
  cases hh : d.sortTime.time with
  | nil =>
    have : d.time = [] := by rw [hh] at hperm; exact hperm.symm.eq_nil
    simp [this]
  | cons lo l =>
    rw [hh] at hsort hmem
    simp only [List.head?_cons]
    obtain ⟨hi, hlast⟩ : ∃ hi, (lo :: l).getLast? = some hi := ⟨_, List.getLast?_eq_some_getLast (by simp)⟩
    rw [hlast]
    have hlo : ∀ t ∈ lo :: l, lo ≤ t := by
      intro t ht
      rcases List.mem_cons.1 ht with rfl | ht
      · exact le_refl _
      · exact (List.pairwise_cons.1 hsort).1 t ht
    have hhi : ∀ t ∈ lo :: l, t ≤ hi := by
      intro t ht
      obtain ⟨pre, hpre⟩ := List.getLast?_eq_some_iff.1 hlast
      rw [hpre] at ht hsort
      rcases List.mem_append.1 ht with ht | ht
      · exact (List.pairwise_append.1 hsort).2.2 t ht hi (List.mem_singleton.2 rfl)
      · rw [List.mem_singleton.1 ht]
    have hhim : hi ∈ lo :: l := by
      obtain ⟨pre, hpre⟩ := List.getLast?_eq_some_iff.1 hlast
      rw [hpre]; simp
    simp only
    constructor
    · intro h
      split_ifs at h with hc
      rcases hc with hc | hc
      · left
        intro t ht
        exact lt_of_le_of_lt (floorMinute_mono (hhi t ((hmem t).2 ht))) hc
      · right
        intro t ht
        exact lt_of_lt_of_le hc (floorMinute_mono (hlo t ((hmem t).2 ht)))
    · intro h
      rw [if_pos]
      rcases h with h | h
      · exact Or.inl (h hi ((hmem hi).1 hhim))
      · exact Or.inr (h lo ((hmem lo).1 (List.mem_cons_self ..)))

/-- **C51, gap.** An accepted period may select no record at all. -/
theorem C51_gap : initDataDataset (some ⟨[0, 7200], ["a", "b"]⟩) 3600 3600 = .ok (⟨[], []⟩ : Series String) := by
  decide +kernel

/-- **C51, restart.** With the times quoted as in the shipped configuration, restarting raises AttributeError before the
restart file is looked for. -/
theorem C51_restart (t : Int) : restartTimestamp (.str t) = .error .attribute ∧ restartTimestamp (.datetime t) = .ok t :=
  ⟨rfl, rfl⟩

end

/-- Non-vacuity: an hourly axis in order, a period inside it. -/
example : (([0, 3600, 7200] : List Int).Pairwise (· ≤ ·)) ∧
    initDataDataset (some ⟨[0, 3600, 7200], ["a", "b", "c"]⟩) 3600 7200 = .ok ⟨[3600, 7200], ["b", "c"]⟩ ∧
    (["a", "b", "c"].Nodup) := by
  refine ⟨by decide, by decide +kernel, by decide⟩

end Cosipy
