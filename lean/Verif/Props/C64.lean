import Verif.Props.C53
import Mathlib.Algebra.BigOperators.Group.List.Basic
import Mathlib.Tactic.Ring

/-!
# C64 Hourly station data: every record counted once, no invented water, fallbacks that work

`C64_bins`: each record falls into exactly one interval of the aggregation step, and the intervals run without a gap from the first
to the last record; `C64_clock`: with a step that divides the day they begin at the same times every day.
`C64_total_partial`, `C64_fields`: aggregation keeps the total of precipitation and snowfall. `C64_mean`: means lie between
the smallest and largest value. False: gaps are filled with the last value before the aggregation, also for precipitation,
which creates water (`C64_gap_refuted`); the fallback of 660 hPa for stations without pressure is never reached, the program
stops with KeyError (`C64_pressure_refuted`, for every input without pressure).
-/

set_option autoImplicit false
set_option linter.unusedSectionVars false

namespace Cosipy
open Aws

/-! ## Intervals -/

theorem foldl_min_le (ts : List Int) (t : Int) : ts.foldl min t ≤ t ∧ ∀ s ∈ ts, ts.foldl min t ≤ s := by
  induction ts generalizing t with
  | nil => exact ⟨le_rfl, fun _ h => by cases h⟩
  | cons u ts ih =>
    obtain ⟨h1, h2⟩ := ih (min t u)
    rw [List.foldl_cons]
    refine ⟨h1.trans (min_le_left _ _), fun s hs => ?_⟩
    rcases List.mem_cons.1 hs with rfl | hs
    · exact h1.trans (min_le_right _ _)
    · exact h2 s hs

theorem foldl_max_ge (ts : List Int) (t : Int) : t ≤ ts.foldl max t ∧ ∀ s ∈ ts, s ≤ ts.foldl max t := by
  induction ts generalizing t with
  | nil => exact ⟨le_rfl, fun _ h => by cases h⟩
  | cons u ts ih =>
    obtain ⟨h1, h2⟩ := ih (max t u)
    rw [List.foldl_cons]
    refine ⟨(le_max_left _ _).trans h1, fun s hs => ?_⟩
    rcases List.mem_cons.1 hs with rfl | hs
    · exact (le_max_right _ _).trans h1
    · exact h2 s hs

theorem binOf_spec {step : Int} (hs : 0 < step) (o t : Int) : binOf step o t ≤ t ∧ t < binOf step o t + step := by
  unfold binOf
  have h1 := Int.ediv_mul_le (t - o) hs.ne'
  have h2 := Int.lt_ediv_add_one_mul_self (t - o) hs
  rw [add_mul, one_mul] at h2
  constructor <;> linarith

theorem binOf_mem {step : Int} (hs : 0 < step) {times : List Int} {t : Int} (h : t ∈ times) :
    binOf step (originOf times) t ∈ bins step times := by
  cases times with
  | nil => cases h
  | cons u us =>
    have hlo := foldl_min_le us u
    have hhi := foldl_max_ge us u
    have h1 : us.foldl min u ≤ t := by
      rcases List.mem_cons.1 h with rfl | h
      · exact hlo.1
      · exact hlo.2 t h
    have h2 : t ≤ us.foldl max u := by
      rcases List.mem_cons.1 h with rfl | h
      · exact hhi.1
      · exact hhi.2 t h
    unfold bins
    dsimp only
    generalize originOf (u :: us) = o
    generalize us.foldl min u = lo at *
    generalize us.foldl max u = hi at *
    have m1 : (lo - o) / step ≤ (t - o) / step := Int.ediv_le_ediv hs (by linarith)
    have m2 : (t - o) / step ≤ (hi - o) / step := Int.ediv_le_ediv hs (by linarith)
    rw [List.mem_map]
    refine ⟨((t - o) / step - (lo - o) / step).toNat, ?_, ?_⟩
    · rw [List.mem_range]
      have e : (binOf step o hi - binOf step o lo) / step = (hi - o) / step - (lo - o) / step := by
        unfold binOf
        rw [show o + (hi - o) / step * step - (o + (lo - o) / step * step) = ((hi - o) / step - (lo - o) / step) * step by ring]
        exact Int.mul_ediv_cancel _ hs.ne'
      rw [e]
      omega
    · rw [Int.toNat_of_nonneg (by linarith)]
      unfold binOf
      ring

theorem bins_form {step : Int} {times : List Int} {b : Int} (hb : b ∈ bins step times) :
    ∃ k : Int, b = originOf times + k * step := by
  cases times with
  | nil => cases hb
  | cons u us =>
    unfold bins at hb
    dsimp only at hb
    rw [List.mem_map] at hb
    obtain ⟨i, -, rfl⟩ := hb
    refine ⟨(us.foldl min u - originOf (u :: us)) / step + i, ?_⟩
    unfold binOf
    ring

/-- **C64, intervals.** For every positive step: each record lies in exactly one of the intervals; the intervals are in order, one
after the other without gaps, and the first and the last of them contain records. -/
theorem C64_bins {step : Int} (hs : 0 < step) (times : List Int) :
    (∀ t ∈ times, ∃ b ∈ bins step times, b ≤ t ∧ t < b + step ∧ ∀ b' ∈ bins step times, b' ≤ t → t < b' + step → b' = b) ∧
    (bins step times).Nodup ∧
    (∀ i (h : i + 1 < (bins step times).length), (bins step times)[i + 1] = (bins step times)[i] + step) ∧
    ∀ h : bins step times ≠ [], (∃ t ∈ times, (bins step times).head h ≤ t ∧ t < (bins step times).head h + step) ∧
      ∃ t ∈ times, (bins step times).getLast h ≤ t ∧ t < (bins step times).getLast h + step := by
  refine ⟨fun t ht => ?_, ?_, ?_, ?_⟩
  · obtain ⟨h1, h2⟩ := binOf_spec hs (originOf times) t
    refine ⟨_, binOf_mem hs ht, h1, h2, fun b' hb' h3 h4 => ?_⟩
    obtain ⟨k, rfl⟩ := bins_form hb'
    have e : binOf step (originOf times) t = originOf times + (t - originOf times) / step * step := rfl
    have : (t - originOf times) / step = k := by
      rw [Int.ediv_eq_iff_of_pos hs]
      constructor <;> linarith
    rw [e, this]
  · cases times with
    | nil => exact List.nodup_nil
    | cons u us =>
      unfold bins
      apply List.Nodup.map _ List.nodup_range
      intro i j hij
      have : (i : Int) * step = j * step := by simpa using hij
      exact_mod_cast mul_right_cancel₀ hs.ne' this
  · intro i h
    cases times with
    | nil => simp [bins] at h
    | cons u us =>
      simp only [bins, List.getElem_map, List.getElem_range]
      push_cast
      ring
  · intro h
    cases times with
    | nil => exact absurd rfl h
    | cons u us =>
      have hmin : us.foldl min u ∈ u :: us := by
        have : ∀ (us : List Int) (u : Int), us.foldl min u ∈ u :: us := by
          intro us
          induction us with
          | nil => intro u; simp
          | cons v us ih =>
            intro u
            rw [List.foldl_cons]
            rcases List.mem_cons.1 (ih (min u v)) with h | h
            · rw [h]; rcases min_choice u v with h | h <;> rw [h] <;> simp
            · simp [h]
        exact this us u
      have hmax : us.foldl max u ∈ u :: us := by
        have : ∀ (us : List Int) (u : Int), us.foldl max u ∈ u :: us := by
          intro us
          induction us with
          | nil => intro u; simp
          | cons v us ih =>
            intro u
            rw [List.foldl_cons]
            rcases List.mem_cons.1 (ih (max u v)) with h | h
            · rw [h]; rcases max_choice u v with h | h <;> rw [h] <;> simp
            · simp [h]
        exact this us u
      have hle : us.foldl min u ≤ us.foldl max u := ((foldl_min_le us u).1).trans (foldl_max_ge us u).1
      refine ⟨⟨_, hmin, ?_⟩, ⟨_, hmax, ?_⟩⟩
      · have e : (bins step (u :: us)).head h = binOf step (originOf (u :: us)) (us.foldl min u) := by
          rw [List.head_eq_getElem]
          simp [bins]
        rw [e]
        exact binOf_spec hs _ _
      · have e : (bins step (u :: us)).getLast h = binOf step (originOf (u :: us)) (us.foldl max u) := by
          rw [List.getLast_eq_getElem]
          simp only [bins, List.getElem_map, List.getElem_range, List.length_map, List.length_range]
          generalize originOf (u :: us) = o
          generalize us.foldl min u = lo at *
          generalize us.foldl max u = hi at *
          have m : (lo - o) / step ≤ (hi - o) / step := Int.ediv_le_ediv hs (by linarith)
          have e : (binOf step o hi - binOf step o lo) / step = (hi - o) / step - (lo - o) / step := by
            unfold binOf
            rw [show o + (hi - o) / step * step - (o + (lo - o) / step * step) = ((hi - o) / step - (lo - o) / step) * step by ring]
            exact Int.mul_ediv_cancel _ hs.ne'
          rw [e]
          have e2 : ((((hi - o) / step - (lo - o) / step + 1).toNat - 1 : Nat) : Int) = (hi - o) / step - (lo - o) / step := by
            omega
          rw [e2]
          unfold binOf
          ring
        rw [e]
        exact binOf_spec hs _ _

/-- **C64, clock.** A step that divides the day gives intervals that start at multiples of the step after midnight, whenever the data
begin: full hours for hourly data. -/
theorem C64_clock {step : Int} (hd : step ∣ 86400) {times : List Int} {b : Int} (hb : b ∈ bins step times) : step ∣ b := by
  obtain ⟨k, rfl⟩ := bins_form hb
  refine dvd_add ?_ (Dvd.intro_left k rfl)
  cases times with
  | nil => exact dvd_zero _
  | cons u us => exact hd.mul_left _

/-! ## Totals -/

section
variable {K : Type} [Field K] [LinearOrder K] [IsStrictOrderedRing K]

/-- The total of a series: the sum of its numbers. -/
def total (xs : List (Option K)) : K := (xs.filterMap id).sum

theorem total_cons (x : Option K) (xs : List (Option K)) : total (x :: xs) = x.getD 0 + total xs := by
  cases x <;> simp [total]

theorem foldl_sum (xs : List K) : xs.foldl (· + ·) 0 = xs.sum := by
  rw [List.sum_eq_foldl]

theorem nansum_getD (xs : List (Option K)) : (nansumwrapper xs).getD 0 = total xs := by
  unfold nansumwrapper total
  cases h : xs.filterMap id with
  | nil => simp
  | cons y ys => simp only [Option.getD_some]; exact foldl_sum _

theorem dfSum_getD (xs : List (Option K)) : (dfSum xs).getD 0 = total xs := by
  unfold dfSum total
  simp only [Option.getD_some]; exact foldl_sum _

theorem total_map {β : Type} (f : β → Option K) (bs : List β) : total (bs.map f) = (bs.map fun b => (f b).getD 0).sum := by
  induction bs with
  | nil => simp [total]
  | cons b bs ih => rw [List.map_cons, total_cons, ih, List.map_cons, List.sum_cons]

theorem sum_pick (c : Int) (v : K) : ∀ bs : List Int, bs.Nodup → c ∈ bs →
    (bs.map fun b => if c = b then v else 0).sum = v
  | [], _, h => by cases h
  | b :: bs, hn, hm => by
    rw [List.map_cons, List.sum_cons]
    have hn' := List.nodup_cons.1 hn
    by_cases hb : c = b
    · subst hb
      have : (bs.map fun b => if c = b then v else 0).sum = 0 := by
        apply List.sum_eq_zero
        intro x hx
        obtain ⟨b, hb, rfl⟩ := List.mem_map.1 hx
        rw [if_neg]
        rintro rfl
        exact hn'.1 hb
      rw [this]; simp
    · rw [if_neg hb, zero_add]
      rcases List.mem_cons.1 hm with h | h
      · exact absurd h hb
      · exact sum_pick c v bs hn'.2 h

theorem sum_inBin {step o : Int} {bs : List Int} (hn : bs.Nodup) : ∀ (times : List Int) (xs : List (Option K)),
    xs.length = times.length → (∀ t ∈ times, binOf step o t ∈ bs) →
    (bs.map fun b => total (inBin step o times xs b)).sum = total xs
  | [], xs, hl, _ => by
    have : xs = [] := List.eq_nil_of_length_eq_zero hl
    subst this
    apply List.sum_eq_zero
    intro x hx
    obtain ⟨b, -, rfl⟩ := List.mem_map.1 hx
    simp [inBin, total]
  | t :: times, [], hl, _ => by simp at hl
  | t :: times, x :: xs, hl, hm => by
    have ih := sum_inBin hn times xs (by simpa using hl) (fun s hs => hm s (List.mem_cons_of_mem _ hs))
    have e : ∀ b, total (inBin step o (t :: times) (x :: xs) b) =
        (if binOf step o t = b then x.getD 0 else 0) + total (inBin step o times xs b) := by
      intro b
      unfold inBin
      rw [List.zip_cons_cons, List.filter_cons]
      by_cases h : binOf step o t = b
      · simp only [h, decide_true, if_true, List.map_cons, total_cons]
      · simp only [h, decide_false, Bool.false_eq_true, if_false, zero_add]
    simp only [e]
    rw [List.sum_map_add, sum_pick _ _ bs hn (hm t List.mem_cons_self), ih, total_cons]

/-- **C64, totals.** Summing the records of every interval, as both programs do for precipitation and snowfall, keeps the total
of the series, whatever the step and the times are (also unordered or repeated) and wherever numbers are missing. Missing: the
point program fills gaps before (`C64_gap_refuted`). -/
theorem C64_total_partial {step : Int} (hs : 0 < step) (times : List Int) (xs : List (Option K)) (hl : xs.length = times.length) :
    total (resample step nansumwrapper times xs) = total xs ∧ total (resample step dfSum times xs) = total xs := by
  have hn := (C64_bins hs times).2.1
  have hm : ∀ t ∈ times, binOf step (originOf times) t ∈ bins step times := fun t h => binOf_mem hs h
  constructor
  · unfold resample
    rw [total_map]
    simp only [nansum_getD]
    exact sum_inBin hn times xs hl hm
  · unfold resample
    rw [total_map]
    simp only [dfSum_getD]
    exact sum_inBin hn times xs hl hm

/-- **C64, fields.** The frame distributed over a glacier holds the precipitation and the snowfall of the selected period, whatever
the configured aggregation step: the totals before and after aggregation agree. -/
theorem C64_fields [Transc K] {step : Int} (hs : 0 < step) {nm : Names} {df d : Frame K} {r : Option (Int × Int)} {name : String}
    (hn : name = nm.rrr ∨ name = nm.snowfall) (hp : name ≠ nm.pres) (h : gridFrame nm (some step) df r = .ok d)
    {xs : List (Option K)} (hx : (timeSlice df r).cols name = some xs) (hl : xs.length = (timeSlice df r).index.length) :
    ∃ ys, d.cols name = some ys ∧ total ys = total xs ∧ d.index = bins step (timeSlice df r).index := by
  unfold gridFrame at h
  dsimp only at h
  rw [bind_eq_ok] at h
  obtain ⟨-, -, h⟩ := h
  unfold setOrderAndType at h
  rw [bind_eq_ok] at h
  obtain ⟨-, -, h⟩ := h
  dsimp only at h
  split_ifs at h
  cases h
  refine ⟨resample step dfSum (timeSlice df r).index xs, ?_, (C64_total_partial hs _ _ hl).2, ?_⟩
  · have ha : aggOf2D (α := K) nm name = dfSum := by unfold aggOf2D; rw [if_pos hn]
    unfold replacePressure
    split_ifs
    · simp only [Store.set]
      rw [if_neg hp, hx, Option.map_some, ha]
    · dsimp only
      rw [hx, Option.map_some, ha]
  · unfold replacePressure
    split_ifs <;> rfl

theorem ffillFrom_id {α : Type} (xs : List α) : ∀ last : Option α, ffillFrom last (xs.map some) = xs.map some := by
  induction xs with
  | nil => intro _; rfl
  | cons x xs ih => intro last; simp only [List.map_cons, ffillFrom, ih]

/-- Without gaps nothing is filled, so the point program keeps the totals as well. -/
theorem C64_total_nogap (times : List Int) (xs : List K) (hl : xs.length = times.length) :
    total (resample hour nansumwrapper times (ffill (xs.map some))) = xs.sum := by
  unfold ffill
  rw [ffillFrom_id, (C64_total_partial (by decide) times (xs.map some) (by simpa using hl)).1]
  unfold total
  simp

/-- A gap of `n` records after the value `v` adds `n` times `v` to the total. -/
theorem C64_gap (v : K) (n : Nat) : total (ffill (some v :: List.replicate n none)) = v + n * v := by
  have h : ∀ n, total (ffillFrom (some v) (List.replicate n none)) = n * v := by
    intro n
    induction n with
    | zero => simp [ffillFrom, total]
    | succ n ih =>
      rw [List.replicate_succ, ffillFrom, total_cons, ih]
      push_cast
      simp only [Option.getD_some]
      ring
  unfold ffill
  rw [ffillFrom, total_cons, h]
  rfl

/-- Filling never loses water: with nonnegative precipitation the total after filling is at least the total before. -/
theorem C64_gap_ge {xs : List (Option K)} (hp : ∀ x, some x ∈ xs → 0 ≤ x) : total xs ≤ total (ffill xs) := by
  have h : ∀ (xs : List (Option K)) (last : Option K), (∀ x, some x ∈ xs → 0 ≤ x) → 0 ≤ last.getD 0 →
      total xs ≤ total (ffillFrom last xs) := by
    intro xs
    induction xs with
    | nil => intro _ _ _; simp [ffillFrom]
    | cons x xs ih =>
      intro last hx hl
      cases x with
      | none =>
        rw [ffillFrom, total_cons, total_cons]
        have := ih last (fun y hy => hx y (List.mem_cons_of_mem _ hy)) hl
        simp only [Option.getD_none]
        linarith
      | some x =>
        rw [ffillFrom, total_cons, total_cons]
        have := ih (some x) (fun y hy => hx y (List.mem_cons_of_mem _ hy)) (hx x List.mem_cons_self)
        linarith
  exact h xs none hp le_rfl

/-- **C64, means.** If all numbers of an hour lie in an interval, so does the mean. -/
theorem C64_mean {xs : List (Option K)} {m lo hi : K} (h : nanmean xs = some m)
    (hb : ∀ x, some x ∈ xs → lo ≤ x ∧ x ≤ hi) : lo ≤ m ∧ m ≤ hi := by
  unfold nanmean at h
  split at h
  · cases h
  · next hys =>
    cases h
    set ys := xs.filterMap id with hdef
    have hy : ∀ y ∈ ys, lo ≤ y ∧ y ≤ hi := by
      intro y hy
      rw [hdef, List.mem_filterMap] at hy
      obtain ⟨a, ha, e⟩ := hy
      simp only [id] at e
      subst e
      exact hb y ha
    have hpos : (0 : K) < ys.length := by
      rcases Nat.eq_zero_or_pos ys.length with h0 | h0
      · exact absurd (List.eq_nil_of_length_eq_zero h0) hys
      · exact_mod_cast h0
    rw [foldl_sum]
    have hs : ∀ l : List K, (∀ y ∈ l, lo ≤ y ∧ y ≤ hi) → lo * l.length ≤ l.sum ∧ l.sum ≤ hi * l.length := by
      intro l
      induction l with
      | nil => intro _; simp
      | cons y l ih =>
        intro hl
        obtain ⟨h1, h2⟩ := ih (fun z hz => hl z (List.mem_cons_of_mem _ hz))
        obtain ⟨h3, h4⟩ := hl y List.mem_cons_self
        simp only [List.sum_cons, List.length_cons, Nat.cast_add, Nat.cast_one]
        constructor <;> linarith
    obtain ⟨h1, h2⟩ := hs ys hy
    rw [le_div_iff₀ hpos, div_le_iff₀ hpos]
    exact ⟨h1, h2⟩

end

/-! ## Fallbacks -/

section
variable {α : Type} [Add α] [Sub α] [Mul α] [Div α] [LT α] [DecidableLT α] [Zero α] [NatCast α] [OfScientific α]

theorem requireAll_error {cols : Store (List (Option α))} : ∀ {ns : List String}, (∃ n ∈ ns, cols n = none) →
    requireAll cols ns = .error .key
  | [], h => by obtain ⟨_, h, _⟩ := h; cases h
  | m :: ns, ⟨n, hn, e⟩ => by
    unfold requireAll
    cases hm : cols m with
    | none =>
      have : getCol cols m = .error .key := by unfold getCol; rw [hm]
      rw [this, error_bind]
    | some xs =>
      have : getCol cols m = .ok xs := by unfold getCol; rw [hm]
      rw [this, ok_bind]
      rcases List.mem_cons.1 hn with rfl | hn
      · rw [hm] at e; cases e
      · exact requireAll_error ⟨n, hn, e⟩

/-- **C64 refuted, pressure.** A file without pressure, or with a column of NaN only, is not given 660 hPa: the program stops
with KeyError, for every such file. (The names of the columns differ from each other.) -/
theorem C64_pressure_refuted {nm : Names} {df : Frame α} {r : Option (Int × Int)}
    (hp : df.cols nm.pres = none ∨ ∃ xs, df.cols nm.pres = some xs ∧ ∀ x ∈ xs, x = none)
    (h1 : nm.pres ≠ nm.lwin) (h2 : nm.pres ≠ nm.n) (h3 : nm.pres ≠ nm.snowfall)
    (h4 : nm.pres ≠ nm.rrr) : pointFrame nm df r = .error .key := by
  have hset : ∀ (d : Frame α) (n : String), nm.pres ≠ n → (addMissing d n).cols nm.pres = d.cols nm.pres := by
    intro d n hn
    unfold addMissing
    split_ifs
    · simp only [Store.set]; rw [if_neg hn]
    · rfl
  unfold pointFrame
  simp only
  generalize hd0 : ({ df with cols := fun n => (df.cols n).map ffill } : Frame α) = d0
  have e0 : d0.cols nm.pres = (df.cols nm.pres).map ffill := by rw [← hd0]
  generalize hd1 : addMissing (addMissing (addMissing d0 nm.lwin) nm.n) nm.snowfall = d1
  have e1 : d1.cols nm.pres = (df.cols nm.pres).map ffill := by
    rw [← hd1, hset _ _ h3, hset _ _ h2, hset _ _ h1, e0]
  unfold selectCols
  rcases hp with hp | ⟨xs, hxs, hall⟩
  · rw [hp, Option.map_none] at e1
    rw [requireAll_error ⟨nm.pres, by simp, e1⟩, error_bind, error_bind]
  · rw [hxs, Option.map_some] at e1
    cases hreq : requireAll d1.cols [nm.t2, nm.rh2, nm.u2, nm.g, nm.rrr, nm.pres, nm.lwin, nm.n, nm.snowfall] with
    | error e =>
      rw [error_bind, error_bind]
      congr 1
      have hk : ∀ (cols : Store (List (Option α))) (ns : List String), requireAll cols ns = .error e → e = .key := by
        intro cols ns
        induction ns with
        | nil => intro h; cases h
        | cons m ns ih =>
          intro h
          unfold requireAll at h
          rw [bind_eq_error] at h
          rcases h with h | ⟨_, _, h⟩
          · unfold getCol at h
            cases hm : cols m with
            | none => rw [hm] at h; cases h; rfl
            | some _ => rw [hm] at h; cases h
          · exact ih h
      exact hk _ _ hreq
    | ok u =>
      rw [ok_bind]
      show setOrderAndType nm true _ = _
      unfold setOrderAndType
      have hff : ∀ (l : List (Option α)), (∀ x ∈ l, x = none) → ffillFrom none l = l := by
        intro l
        induction l with
        | nil => intro _; rfl
        | cons x l ih =>
          intro h
          have := h x List.mem_cons_self
          subst this
          rw [ffillFrom, ih (fun y hy => h y (List.mem_cons_of_mem _ hy))]
      have hdrop : (timeSlice (dropEmpty (resampleFrame nm
          { d1 with cols := fun n => if n ∈ [nm.t2, nm.rh2, nm.u2, nm.g, nm.rrr, nm.pres, nm.lwin, nm.n, nm.snowfall]
            then d1.cols n else none })) r).cols nm.pres = none := by
        have hd : (dropEmpty (resampleFrame nm
          { d1 with cols := fun n => if n ∈ [nm.t2, nm.rh2, nm.u2, nm.g, nm.rrr, nm.pres, nm.lwin, nm.n, nm.snowfall]
            then d1.cols n else none })).cols nm.pres = none := by
          simp only [dropEmpty, resampleFrame]
          rw [if_pos (by simp), e1, Option.map_some]
          have hagg : aggOf (α := α) nm nm.pres = nanmean := by
            unfold aggOf
            rw [if_neg]
            rintro (h | h)
            · exact h4 h
            · exact h3 h
          rw [hagg]
          have : (resample hour nanmean d1.index (ffill xs)).any Option.isSome = false := by
            unfold resample ffill
            rw [hff xs hall, List.any_eq_false]
            intro y hy
            obtain ⟨b, -, rfl⟩ := List.mem_map.1 hy
            have hz : (inBin hour (originOf d1.index) d1.index xs b).filterMap id = [] := by
              rw [List.filterMap_eq_nil_iff]
              intro z hz
              unfold inBin at hz
              obtain ⟨p, hp, rfl⟩ := List.mem_map.1 hz
              have hp' := (List.mem_filter.1 hp).1
              exact hall p.2 (List.of_mem_zip hp').2
            unfold nanmean
            rw [hz]
            simp
          simp [Option.filter, this]
        unfold timeSlice
        cases r with
        | none => exact hd
        | some r => simp only [hd, Option.map_none]
      rw [requireAll_error ⟨nm.pres, by simp, hdrop⟩, error_bind]

/-- Whatever the point program accepts had a pressure of its own: the written pressure comes from measured numbers. -/
theorem C64_pressure_measured {nm : Names} {df df' : Frame α} {r : Option (Int × Int)} (h : pointFrame nm df r = .ok df')
    (h1 : nm.pres ≠ nm.lwin) (h2 : nm.pres ≠ nm.n) (h3 : nm.pres ≠ nm.snowfall) (h4 : nm.pres ≠ nm.rrr) :
    ∃ xs, df.cols nm.pres = some xs ∧ ∃ x ∈ xs, x ≠ none := by
  by_contra hc
  have : pointFrame nm df r = .error .key := by
    apply C64_pressure_refuted _ h1 h2 h3 h4
    cases hx : df.cols nm.pres with
    | none => left; rfl
    | some xs =>
      right
      refine ⟨xs, rfl, fun x hxm => ?_⟩
      by_contra hne
      exact hc ⟨xs, hx, x, hxm, hne⟩
  rw [this] at h
  cases h

/-- A file without a precipitation column is rejected with KeyError, even if it has snowfall. -/
theorem C64_precipitation {nm : Names} {df : Frame α} {r : Option (Int × Int)} (hp : df.cols nm.rrr = none)
    (h1 : nm.rrr ≠ nm.lwin) (h2 : nm.rrr ≠ nm.n) (h3 : nm.rrr ≠ nm.snowfall) : pointFrame nm df r = .error .key := by
  have hset : ∀ (d : Frame α) (n : String), nm.rrr ≠ n → (addMissing d n).cols nm.rrr = d.cols nm.rrr := by
    intro d n hn
    unfold addMissing
    split_ifs
    · simp only [Store.set]; rw [if_neg hn]
    · rfl
  unfold pointFrame
  simp only
  unfold selectCols
  rw [requireAll_error ⟨nm.rrr, by simp, ?_⟩, error_bind, error_bind]
  rw [hset _ _ h3, hset _ _ h2, hset _ _ h1]
  simp [hp]

end

/-! ## Examples and the counterexample for gaps -/

section
local instance exTranscC64 : Transc ℚ := ⟨id, id, id, id, id, id, id, fun x _ => x, 3⟩

/-- Three hours with one record each; the rain gauge failed after the first. -/
def exGap : Frame ℚ where
  index := [0, 3600, 7200]
  cols := fun n => match n with
    | "T2" => some [some 270, some 272, some 271]
    | "RH2" => some [some 80, some 80, some 80]
    | "U2" => some [some 2, some 3, some 3]
    | "G" => some [some 0, some 10, some 20]
    | "PRES" => some [some 600, some 600, some 601]
    | "RRR" => some [some 5, none, none]
    | "N" => some [some 1, some 0, some 1]
    | _ => none

/-- **C64 refuted, water.** 5 mm were recorded; 15 mm are written. -/
theorem C64_gap_refuted : ∃ (nm : Names) (df : Frame ℚ) (c : Cfg ℚ) (static : List (Option ℚ)),
    (df.cols nm.rrr).map total = some 5 ∧ c.lapseRRR = 0 ∧
    (createPoint nm c static df none).map (fun r => (r.2 "RRR").map total) = .ok (some 15) :=
  ⟨exNames, exGap, ⟨true, 0, 0, 0, 0, 5000, 5000⟩, [some 0, some 0, some 1], by unfold total; decide +kernel, rfl,
    by unfold total; decide +kernel⟩

example : total (resample hour nansumwrapper [0, 1800, 9000, 3600] [some 1, none, some 4, some (2 : ℚ)]) = 7 := by
  rw [(C64_total_partial (by decide) _ _ rfl).1]; unfold total; decide +kernel

example : resample hour nansumwrapper [0, 1800, 9000] [some 1, none, some (4 : ℚ)] = [some 1, none, some 4] := by decide +kernel

example : bins hour [9000, 100] = [0, 3600, 7200] := by decide +kernel
/-- Steps of seven hours: counted from the midnight before the first record, so not at the same hours every day. -/
example : bins 25200 [100000, 90000, 180000] = [86400, 111600, 136800, 162000] ∧ ¬ (25200 : Int) ∣ 86400 := by
  decide +kernel

/-- The hypotheses of `C64_fields` are met: aggregation in steps of two hours. -/
example : (gridFrame exNames (some 7200) exGap none).map (fun d => (d.index, d.cols "RRR")) =
    .ok ([0, 7200], some [some 5, some 0]) := by decide +kernel
example : nanmean [some 1, none, some (3 : ℚ)] = some 2 := by decide +kernel

example : pointFrame exNames { exGap with cols := fun n => if n = "PRES" then none else exGap.cols n } none
    = .error .key :=
  C64_pressure_refuted (Or.inl rfl) (by decide) (by decide) (by decide) (by decide)

example : (pointFrame exNames exGap none).map (fun d => d.index) = .ok [0, 3600, 7200] := by decide +kernel

end

end Cosipy
