import Verif.Model.TextTime
import Mathlib.Tactic.Linarith

/-!
# C120 The configured period is what is simulated from a file prepared from WRF

wrf2cosipy writes times as text with a hyphen between hours and minutes; the configuration writes a colon there. The simulation selects by
comparing text. Within the file the text is in time order (`C120_order`). With a colon in the configuration, records of the hour of the
start are left out and records of the whole hour of the end are taken (`C120_selected_partial`), so on hourly data the run begins one step
late (`C120_first_refuted`). A day given to wrf2cosipy as the end excludes that day (`C120_days`). Full statement: the records simulated are
those with `start ≤ t ≤ stop`.
-/

set_option autoImplicit false
set_option linter.unusedSectionVars false

namespace Cosipy.TextTime

/-! ### Spec -/

/-- Fields as calendars have them, with a year of four digits. -/
structure Clock.Valid (t : Clock) : Prop where
  year : t.year < 10000
  month : t.month < 100
  day : t.day < 100
  hour : t.hour < 100
  minute : t.minute < 100

/-- Days, hours and minutes numbered in calendar order (not consecutively). -/
def Clock.days (t : Clock) : Nat := (t.year * 100 + t.month) * 100 + t.day
/-- As above. -/
def Clock.hours (t : Clock) : Nat := t.days * 100 + t.hour
/-- As above. -/
def Clock.minutes (t : Clock) : Nat := t.hours * 100 + t.minute

/-! ### Comparing text -/

theorem lex_cons {a b : Nat} {xs ys : List Nat} : List.Lex (· < ·) (a :: xs) (b :: ys) ↔ a < b ∨ a = b ∧ List.Lex (· < ·) xs ys := by
  constructor
  · intro h
    cases h with
    | cons h => exact Or.inr ⟨rfl, h⟩
    | rel h => exact Or.inl h
  · rintro (h | ⟨rfl, h⟩)
    · exact List.Lex.rel h
    · exact List.Lex.cons h

theorem lex_nil {xs : List Nat} : ¬List.Lex (· < ·) xs ([] : List Nat) := by
  intro h; cases h

theorem two_lex {a b : Nat} (ha : a < 100) (hb : b < 100) {xs ys : List Nat} :
    List.Lex (· < ·) (two a ++ xs) (two b ++ ys) ↔ a < b ∨ a = b ∧ List.Lex (· < ·) xs ys := by
  simp only [two, List.cons_append, List.nil_append, lex_cons, digit]
  generalize List.Lex (· < ·) xs ys = P
  constructor
  · rintro (h | ⟨h, h' | ⟨h', h''⟩⟩)
    · left; omega
    · left; omega
    · right; exact ⟨by omega, h''⟩
  · rintro (h | ⟨rfl, h⟩)
    · by_cases h' : a / 10 = b / 10
      · right; exact ⟨by rw [h'], Or.inl (by omega)⟩
      · left; omega
    · right; exact ⟨rfl, Or.inr ⟨rfl, h⟩⟩

theorem four_lex {a b : Nat} (ha : a < 10000) (hb : b < 10000) {xs ys : List Nat} :
    List.Lex (· < ·) (four a ++ xs) (four b ++ ys) ↔ a < b ∨ a = b ∧ List.Lex (· < ·) xs ys := by
  have e : ∀ a xs, a < 10000 → four a ++ xs = two (a / 100) ++ (two (a % 100) ++ xs) := by
    intro a xs h
    simp only [four, two, List.cons_append, List.nil_append, digit, List.cons.injEq, and_true, true_and]
    omega
  rw [e a xs ha, e b ys hb, two_lex (by omega) (by omega), two_lex (by omega) (by omega)]
  generalize List.Lex (· < ·) xs ys = P
  constructor
  · rintro (h | ⟨h, h' | ⟨h', h''⟩⟩)
    · left; omega
    · left; omega
    · right; exact ⟨by omega, h''⟩
  · rintro (h | ⟨rfl, h⟩)
    · by_cases h' : a / 100 = b / 100
      · right; exact ⟨h', Or.inl (by omega)⟩
      · left; omega
    · right; exact ⟨rfl, Or.inr ⟨rfl, h⟩⟩

theorem day_lex {s t : Clock} (hs : s.Valid) (ht : t.Valid) {xs ys : List Nat} :
    List.Lex (· < ·) (dayLabel s ++ xs) (dayLabel t ++ ys) ↔ s.days < t.days ∨ s.days = t.days ∧ List.Lex (· < ·) xs ys := by
  have e : ∀ t : Clock, ∀ xs, dayLabel t ++ xs = four t.year ++ (hyphen :: (two t.month ++ (hyphen :: (two t.day ++ xs)))) := by
    intro t xs; simp [dayLabel]
  rw [e, e, four_lex hs.year ht.year, lex_cons, two_lex hs.month ht.month, lex_cons, two_lex hs.day ht.day]
  generalize List.Lex (· < ·) xs ys = P
  have := hs.month; have := ht.month; have := hs.day; have := ht.day
  simp only [lt_irrefl, false_or, true_and, Clock.days]
  constructor
  · rintro (h | ⟨h, h' | ⟨h', h'' | ⟨h'', h3⟩⟩⟩)
    · left; omega
    · left; omega
    · left; omega
    · right; exact ⟨by omega, h3⟩
  · rintro (h | ⟨h, hP⟩)
    · omega
    · exact Or.inr ⟨by omega, Or.inr ⟨by omega, Or.inr ⟨by omega, hP⟩⟩⟩

/-- Labels with any two separators between hour and minute. -/
theorem label_lex {s t : Clock} (hs : s.Valid) (ht : t.Valid) (a b : Nat) :
    List.Lex (· < ·) (dayLabel s ++ letterT :: two s.hour ++ a :: two s.minute) (dayLabel t ++ letterT :: two t.hour ++ b :: two t.minute) ↔
      s.hours < t.hours ∨ s.hours = t.hours ∧ (a < b ∨ a = b ∧ s.minute < t.minute) := by
  have e : ∀ t : Clock, ∀ b, dayLabel t ++ letterT :: two t.hour ++ b :: two t.minute =
      dayLabel t ++ (letterT :: (two t.hour ++ (b :: (two t.minute ++ [])))) := by
    intro t b; simp
  rw [e, e, day_lex hs ht, lex_cons, two_lex hs.hour ht.hour, lex_cons, two_lex hs.minute ht.minute]
  have := hs.hour; have := ht.hour
  simp only [lt_irrefl, false_or, true_and, Clock.hours, lex_nil, and_false, or_false]
  generalize (a < b ∨ a = b ∧ s.minute < t.minute) = P
  constructor
  · rintro (h | ⟨h, h' | ⟨h', hP⟩⟩)
    · left; omega
    · left; omega
    · right; exact ⟨by omega, hP⟩
  · rintro (h | ⟨h, hP⟩)
    · by_cases h' : s.days = t.days
      · exact Or.inr ⟨h', Or.inl (by omega)⟩
      · left; omega
    · exact Or.inr ⟨by omega, Or.inr ⟨by omega, hP⟩⟩

/-! ### The claim -/

/-- **C120, order.** In the prepared file the text of times is in the order of the times, so the file is in time order, and two times have the
same text only if they are the same. -/
theorem C120_order {s t : Clock} (hs : s.Valid) (ht : t.Valid) :
    (textLe (wrfLabel s) (wrfLabel t) = true ↔ s.minutes ≤ t.minutes) ∧ (wrfLabel s = wrfLabel t ↔ s = t) := by
  have key : textLe (wrfLabel s) (wrfLabel t) = true ↔ s.minutes ≤ t.minutes := by
    unfold textLe wrfLabel
    rw [Bool.not_eq_true', decide_eq_false_iff_not, label_lex ht hs]
    have := hs.minute; have := ht.minute
    simp only [Clock.minutes, lt_irrefl, true_and, false_or]
    omega
  refine ⟨key, ⟨fun h => ?_, fun h => by rw [h]⟩⟩
  have h1 := label_lex hs ht hyphen hyphen
  have h2 := label_lex ht hs hyphen hyphen
  have irr : ∀ l : List Nat, ¬List.Lex (· < ·) l l := by
    intro l
    induction l with
    | nil => exact lex_nil
    | cons a l ih => rw [lex_cons]; rintro (h | ⟨_, h⟩); exacts [lt_irrefl _ h, ih h]
  unfold wrfLabel at h
  rw [h] at h1
  rw [h] at h2
  have n1 := (not_congr h1).1 (irr _)
  have n2 := (not_congr h2).1 (irr _)
  simp only [lt_irrefl, true_and, false_or] at n1 n2
  have e1 : s.hours = t.hours := by omega
  have e2 : s.minute = t.minute := by omega
  have := hs.hour; have := ht.hour; have := hs.day; have := ht.day; have := hs.month; have := ht.month
  simp only [Clock.hours, Clock.days] at e1
  cases s; cases t
  simp only [Clock.mk.injEq] at *
  omega

/-- A record is selected by the configuration iff its hour is after the hour of the start and not after the hour of the end. -/
theorem selected_iff {start stop t : Clock} (hs : start.Valid) (he : stop.Valid) (ht : t.Valid) :
    (textLe (cfgLabel start) (wrfLabel t) && textLe (wrfLabel t) (cfgLabel stop)) = true ↔ start.hours < t.hours ∧ t.hours ≤ stop.hours := by
  unfold textLe wrfLabel cfgLabel
  rw [Bool.and_eq_true, Bool.not_eq_true', Bool.not_eq_true', decide_eq_false_iff_not, decide_eq_false_iff_not, label_lex ht hs,
    label_lex he ht]
  simp only [hyphen, colon]
  omega

/-- **C120, what is selected.** From a prepared file a simulation uses exactly the records whose hour is after the hour of the configured
start and not after the hour of the configured end, in the order of the file. -/
theorem C120_selected_partial {β : Type} {start stop : Clock} (hs : start.Valid) (he : stop.Valid) {d : List (Clock × β)}
    (hd : ∀ p ∈ d, p.1.Valid) :
    simulated start stop d = prepared (d.filter fun p => decide (start.hours < p.1.hours ∧ p.1.hours ≤ stop.hours)) := by
  unfold simulated selText prepared
  rw [List.filter_map]
  congr 1
  apply List.filter_congr
  intro p hp
  rw [Bool.eq_iff_iff, decide_eq_true_iff]
  exact selected_iff hs he (hd p hp)

/-- Hourly data: all records on the hour. -/
def Hourly {β : Type} (d : List (Clock × β)) : Prop := ∀ p ∈ d, p.1.minute = 0

/-- **C120, hourly data.** For a period given in full hours the simulation uses the records after the start up to and including the end. -/
theorem C120_hourly_partial {β : Type} {start stop : Clock} (hs : start.Valid) (he : stop.Valid) (h1 : start.minute = 0) (h2 : stop.minute = 0)
    {d : List (Clock × β)} (hd : ∀ p ∈ d, p.1.Valid) (hh : Hourly d) :
    simulated start stop d = prepared (d.filter fun p => decide (start.minutes < p.1.minutes ∧ p.1.minutes ≤ stop.minutes)) := by
  rw [C120_selected_partial hs he hd]
  congr 1
  apply List.filter_congr
  intro p hp
  have := hh p hp
  rw [Bool.eq_iff_iff, decide_eq_true_iff, decide_eq_true_iff]
  simp only [Clock.minutes, h1, h2, this]
  omega

/-- **C120, violated.** The record of the configured start is never simulated, and one of the hour of the end is, however late in it. -/
theorem C120_first_refuted {β : Type} {start stop : Clock} (hs : start.Valid) (he : stop.Valid) (d : List (Clock × β)) (x : β) :
    (wrfLabel start, x) ∉ simulated start stop d ∧
    ∀ t : Clock, t.Valid → t.hours = stop.hours → start.hours < stop.hours → (t, x) ∈ d → (wrfLabel t, x) ∈ simulated start stop d := by
  constructor
  · intro h
    unfold simulated selText at h
    rw [List.mem_filter] at h
    have := (selected_iff hs he hs).1 h.2
    omega
  · intro t ht h1 h2 hm
    unfold simulated selText
    rw [List.mem_filter]
    exact ⟨List.mem_map.2 ⟨(t, x), hm, rfl⟩, (selected_iff hs he ht).2 (by omega)⟩

/-- **C120, days on the command line of wrf2cosipy.** The days from the start to the day before the end are kept: the day given as the end is
left out (aws2cosipy, whose times are not text, keeps it). -/
theorem C120_days {β : Type} {start stop : Clock} (hs : start.Valid) (he : stop.Valid) {d : List (Clock × β)} (hd : ∀ p ∈ d, p.1.Valid) :
    keptDays start stop d = prepared (d.filter fun p => decide (start.days ≤ p.1.days ∧ p.1.days < stop.days)) := by
  unfold keptDays selText prepared
  rw [List.filter_map]
  congr 1
  apply List.filter_congr
  intro p hp
  have e : ∀ t : Clock, dayLabel t = dayLabel t ++ [] := fun t => (List.append_nil _).symm
  have e' : wrfLabel p.1 = dayLabel p.1 ++ (letterT :: two p.1.hour ++ hyphen :: two p.1.minute) := by simp [wrfLabel]
  have k1 := day_lex (hd p hp) hs (xs := letterT :: two p.1.hour ++ hyphen :: two p.1.minute) (ys := [])
  have k2 := day_lex he (hd p hp) (xs := []) (ys := letterT :: two p.1.hour ++ hyphen :: two p.1.minute)
  rw [← e', List.append_nil] at k1 k2
  rw [Bool.eq_iff_iff, decide_eq_true_iff]
  show (textLe (dayLabel start) (wrfLabel p.1) && textLe (wrfLabel p.1) (dayLabel stop)) = true ↔ _
  unfold textLe
  rw [Bool.and_eq_true, Bool.not_eq_true', Bool.not_eq_true', decide_eq_false_iff_not, decide_eq_false_iff_not, k1, k2]
  have n1 : ¬List.Lex (· < ·) (letterT :: two p.1.hour ++ hyphen :: two p.1.minute) ([] : List Nat) := lex_nil
  have n2 : List.Lex (· < ·) ([] : List Nat) (letterT :: two p.1.hour ++ hyphen :: two p.1.minute) := List.Lex.nil
  simp only [n1, n2, and_false, or_false, and_true]
  omega

/-! ### Non-vacuity -/

/-- Five hourly records of a morning. -/
def exMorning : List (Clock × Nat) := [(⟨2009, 1, 1, 6, 0⟩, 0), (⟨2009, 1, 1, 7, 0⟩, 1), (⟨2009, 1, 1, 8, 0⟩, 2), (⟨2009, 1, 1, 9, 0⟩, 3),
  (⟨2009, 1, 1, 10, 0⟩, 4)]

theorem exMorning_valid : ∀ p ∈ exMorning, p.1.Valid := by
  intro p hp
  simp only [exMorning, List.mem_cons, List.not_mem_nil, or_false] at hp
  rcases hp with rfl | rfl | rfl | rfl | rfl <;> constructor <;> decide

/-- The shipped start, 06:00: the simulation begins at 07:00. -/
example : (simulated ⟨2009, 1, 1, 6, 0⟩ ⟨2009, 1, 1, 9, 0⟩ exMorning).map (·.2) = [1, 2, 3] := by decide

example : (simulated ⟨2009, 1, 1, 6, 0⟩ ⟨2009, 1, 1, 9, 0⟩ exMorning).map (·.2) = [1, 2, 3] := by
  rw [C120_hourly_partial (by constructor <;> decide) (by constructor <;> decide) rfl rfl exMorning_valid (by unfold Hourly; decide)]
  decide

/-- `2009-01-01T06-00`. -/
example : String.ofList ((wrfLabel ⟨2009, 1, 1, 6, 0⟩).map Char.ofNat) = "2009-01-01T06-00" := by decide

example : (keptDays ⟨2009, 1, 1, 0, 0⟩ ⟨2009, 1, 2, 0, 0⟩ ((⟨2009, 1, 2, 0, 0⟩, 5) :: exMorning)).map (·.2) = [0, 1, 2, 3, 4] := by decide

end Cosipy.TextTime
