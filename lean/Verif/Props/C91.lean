import Verif.Props.C78

/-!
# C91 The shading table of a year

The table holds, for every step of every day, 1 for the glacier cells the sun reaches, 0 for those in the shade of terrain, -1 at night.
What is looked up for a day and hour is the entry of that day and of the step the hour lies in, if the step is a whole number
of hours that divides the day; for five hours the table cannot be built at all.
-/

set_option autoImplicit false
set_option linter.unusedSectionVars false

namespace Cosipy
open RadCor

section
variable {β P : Type}

theorem pyModify_nat {xs ys : List β} {i : Int} {f : β → β} (hi : 0 ≤ i) (h : pyModify xs i f = .ok ys) :
    i < xs.length ∧ ys = xs.modify i.toNat f := by
  unfold pyModify normIdx at h
  rw [if_pos hi] at h
  by_cases hl : i < (xs.length : Int)
  · rw [if_pos hl] at h
    cases h
    exact ⟨hl, rfl⟩
  · rw [if_neg hl] at h; cases h

/-- Filling a table: every written position holds its value, the others are untouched. -/
theorem fill_table {pos : P → Int} {f : P → M β} : ∀ (ps : List P) {t t' : List β},
    ps.foldlM (fun t p => do let e ← f p; pyModify t (pos p) fun _ => e) t = .ok t' → (∀ p ∈ ps, 0 ≤ pos p) →
    ps.Pairwise (fun p q => pos p ≠ pos q) →
    t'.length = t.length ∧ (∀ p ∈ ps, pos p < t.length ∧ ∃ e, f p = .ok e ∧ t'[(pos p).toNat]? = some e) ∧
      ∀ i : Nat, (∀ p ∈ ps, pos p ≠ i) → t'[i]? = t[i]?
  | [], t, t', h, _, _ => by
    cases h
    exact ⟨rfl, by simp, fun _ _ => rfl⟩
  | p :: ps, t, t', h, h0, hp => by
    rw [List.foldlM_cons, bind_eq_ok] at h
    obtain ⟨t1, h1, h⟩ := h
    rw [bind_eq_ok] at h1
    obtain ⟨e, he, h1⟩ := h1
    have hpos := h0 p (by simp)
    obtain ⟨hl, rfl⟩ := pyModify_nat hpos h1
    rw [List.pairwise_cons] at hp
    obtain ⟨a, b, c⟩ := fill_table ps h (fun q hq => h0 q (List.mem_cons_of_mem _ hq)) hp.2
    rw [List.length_modify] at a
    refine ⟨a, ?_, ?_⟩
    · intro q hq
      rcases List.mem_cons.1 hq with rfl | hq
      · refine ⟨hl, e, he, ?_⟩
        rw [c _ fun r hr hc => hp.1 r hr (by omega), List.getElem?_modify]
        have : (pos q).toNat < t.length := by omega
        simp [this]
      · obtain ⟨b1, b2⟩ := b q hq
        rw [List.length_modify] at b1
        exact ⟨b1, b2⟩
    · intro i hi
      rw [c i fun q hq => hi q (List.mem_cons_of_mem _ hq), List.getElem?_modify]
      have := hi p (by simp)
      have hne : (pos p).toNat ≠ i := by omega
      simp [hne]

theorem fill_ok {pos : P → Int} {f : P → M β} : ∀ (ps : List P) (t : List β),
    (∀ p ∈ ps, 0 ≤ pos p ∧ pos p < t.length ∧ ∃ e, f p = .ok e) →
    ∃ t', ps.foldlM (fun t p => do let e ← f p; pyModify t (pos p) fun _ => e) t = .ok t'
  | [], t, _ => ⟨t, rfl⟩
  | p :: ps, t, h => by
    obtain ⟨h0, h1, e, he⟩ := h p (by simp)
    have hm : pyModify t (pos p) (fun _ => e) = .ok (t.modify (pos p).toNat fun _ => e) := by
      unfold pyModify normIdx; rw [if_pos h0, if_pos h1]
    obtain ⟨t', ht⟩ := fill_ok ps (t.modify (pos p).toNat fun _ => e) fun q hq => by
      rw [List.length_modify]; exact h q (List.mem_cons_of_mem _ hq)
    refine ⟨t', ?_⟩
    rw [List.foldlM_cons, he, ok_bind, hm, ok_bind]
    exact ht

end

section
variable {α : Type} [Add α] [Sub α] [Mul α] [Div α] [Neg α] [LT α] [DecidableLT α] [BEq α] [Zero α] [NatCast α]
  [OfScientific α] [Transc α] [InvTrig α] [HasTrunc α]

/-- **C91, look-up.** The step is `k` hours and divides the day. The table of a year that was built holds at the position read for
day 1..366 and hour 0..23 the entry computed for that day and the beginning of the step the hour lies in. -/
theorem C91_lookup_partial {rows : List (SolRow α)} {lat tcart : α} {dem : Nat → Nat → α} {mask : Nat → Nat → Bool} {lats lons : List α}
    {k : Nat} (hk : k ∣ 24) {tbl : List (Nat → Nat → Option α)}
    (h : lutShad rows lat dem mask lats lons (3600 * k) tcart = .ok tbl) :
    tbl.length = 366 * (24 / k) ∧ ∀ doy hour, 1 ≤ doy → doy ≤ 366 → hour < 24 →
      ∃ (hod : Nat) (row : SolRow α) (e : Nat → Nat → Option α), k ∣ hod ∧ hod ≤ hour ∧ hour < hod + k ∧ rows[doy - 1]? = some row ∧
        shadeEntry dem mask lats lons row lat (hod : α) tcart = .ok e ∧ pyGet tbl (lutRead (3600 * k) doy hour) = .ok e := by
  obtain ⟨m, hm⟩ := id hk
  have hkm : k * m = 24 := hm.symm
  have hk0 : 0 < k := Nat.pos_of_ne_zero (by rintro rfl; simp at hkm)
  unfold lutShad at h
  rw [lutHours_eq hk0, ok_bind] at h
  have hmem : ∀ p : Nat × Nat, p ∈ (List.range 366).flatMap (fun doy => ((List.range 24).filter fun h => h % k == 0).map
      fun hod => (doy, hod)) ↔ p.1 < 366 ∧ p.2 < 24 ∧ k ∣ p.2 := by
    rintro ⟨d, o⟩
    simp [Nat.dvd_iff_mod_eq_zero]
  have hnd : ((List.range 366).flatMap (fun doy => ((List.range 24).filter fun h => h % k == 0).map
      fun hod => (doy, hod))).Nodup := by
    rw [List.nodup_flatMap]
    refine ⟨fun d _ => ?_, ?_⟩
    · exact (List.nodup_range.filter _).map fun a b e => (Prod.mk.inj e).2
    · refine List.nodup_range.pairwise_of_forall_ne fun a _ b _ hab => ?_
      intro p hp hq
      simp only [List.mem_map] at hp hq
      obtain ⟨_, _, rfl⟩ := hp
      obtain ⟨_, _, e⟩ := hq
      exact hab (Prod.mk.inj e).1.symm
  have hwrite : ∀ p ∈ (List.range 366).flatMap (fun doy => ((List.range 24).filter fun h => h % k == 0).map
      fun hod => (doy, hod)), 0 ≤ lutWrite (3600 * k) p.1 p.2 := by
    intro p hp
    obtain ⟨_, _, q, hq⟩ := (hmem p).1 hp
    rw [hq, lutWrite_eq hkm]
    positivity
  have hf := fill_table (pos := fun p : Nat × Nat => lutWrite (3600 * k) p.1 p.2)
    (f := fun p => do
      let row ← pyGet rows (p.1 : Int)
      shadeEntry dem mask lats lons row lat (p.2 : α) tcart) _ (t := List.replicate (lutSize (3600 * k)).toNat fun _ _ => none)
    (t' := tbl) (by simpa only [bind_assoc] using h) hwrite
    (hnd.pairwise_of_forall_ne fun p hp q hq hne e => by
      obtain ⟨_, p2, p3⟩ := (hmem p).1 hp
      obtain ⟨_, q2, q3⟩ := (hmem q).1 hq
      obtain ⟨e1, e2⟩ := C63_write_injective hk p2 q2 p3 q3 e
      exact hne (Prod.ext e1 e2))
  obtain ⟨hlen, hget, -⟩ := hf
  rw [List.length_replicate, lutSize_eq hkm] at hlen
  have hdiv : 24 / k = m := by rw [← hkm]; exact Nat.mul_div_cancel_left m hk0
  refine ⟨by rw [hlen, hdiv]; omega, fun doy hour h1 h2 h3 => ?_⟩
  obtain ⟨hours, hod, hh, hin, hle, hlt, hread, hread0, -⟩ := C63_lookup_partial hk h1 h2 h3
  rw [lutHours_eq hk0, ok_inj] at hh
  subst hh
  have hin' : hod < 24 ∧ k ∣ hod := by simpa [Nat.dvd_iff_mod_eq_zero] using hin
  obtain ⟨hl, e, he, hg⟩ := hget (doy - 1, hod) ((hmem _).2 ⟨by simp only; omega, hin'⟩)
  rw [bind_eq_ok] at he
  obtain ⟨row, hrow, he⟩ := he
  obtain ⟨i, hi, hr⟩ := pyGet_eq_ok.1 hrow
  have hi' : i = doy - 1 := by
    unfold normIdx at hi
    split_ifs at hi
    · simp only [Option.some.injEq] at hi; omega
    · omega
  refine ⟨hod, row, e, hin'.2, hle, hlt, by rw [← hi']; exact hr, he, ?_⟩
  simp only at hg hl
  rw [hread]
  have h0 : 0 ≤ lutWrite (3600 * k) (doy - 1) hod := by rw [← hread]; exact hread0
  have := pyGet_nat hg
  rwa [Int.toNat_of_nonneg h0] at this

/-- **C91, built.** With such a step the table is built if there is a row for each of the 366 days and every entry can be
computed: no write falls outside. -/
theorem C91_built_partial {rows : List (SolRow α)} {lat tcart : α} {dem : Nat → Nat → α} {mask : Nat → Nat → Bool} {lats lons : List α}
    {k : Nat} (hk : k ∣ 24) (hrows : 366 ≤ rows.length)
    (h : ∀ row ∈ rows, ∀ hod : Nat, hod < 24 → ∃ e, shadeEntry dem mask lats lons row lat (hod : α) tcart = .ok e) :
    ∃ tbl, lutShad rows lat dem mask lats lons (3600 * k) tcart = .ok tbl := by
  obtain ⟨m, hm⟩ := id hk
  have hkm : k * m = 24 := hm.symm
  have hk0 : 0 < k := Nat.pos_of_ne_zero (by rintro rfl; simp at hkm)
  unfold lutShad
  rw [lutHours_eq hk0, ok_bind]
  obtain ⟨t, ht⟩ := fill_ok (pos := fun p : Nat × Nat => lutWrite (3600 * k) p.1 p.2)
    (f := fun p => do
      let row ← pyGet rows (p.1 : Int)
      shadeEntry dem mask lats lons row lat (p.2 : α) tcart)
    ((List.range 366).flatMap fun doy => ((List.range 24).filter fun h => h % k == 0).map fun hod => (doy, hod))
    (List.replicate (lutSize (3600 * k)).toNat fun _ _ => none) (by
      rintro ⟨d, o⟩ hp
      have hp' : d < 366 ∧ o < 24 ∧ k ∣ o := by simpa [Nat.dvd_iff_mod_eq_zero] using hp
      obtain ⟨hd, ho, q, rfl⟩ := hp'
      simp only [lutWrite_eq hkm, lutSize_eq hkm, List.length_replicate]
      have hq : q < m := by
        by_contra hc
        have : k * m ≤ k * q := Nat.mul_le_mul_left k (by omega)
        omega
      have hdm : d * m + q < 366 * m := by
        have : (d + 1) * m ≤ 366 * m := Nat.mul_le_mul_right m (by omega)
        have h2 : (d + 1) * m = d * m + m := by ring
        omega
      refine ⟨by positivity, ?_, ?_⟩
      · have : (d : Int) * m + q < 366 * m := by exact_mod_cast hdm
        omega
      · obtain ⟨e, he⟩ := h rows[d] (List.getElem_mem (by omega)) (k * q) ho
        refine ⟨e, ?_⟩
        rw [pyGet_nat (List.getElem?_eq_getElem (by omega)), ok_bind]
        exact he)
  exact ⟨t, by simpa only [bind_assoc] using ht⟩

/-- **C91, five hours: violated.** With a step of five hours the table of a year is never built, whatever the terrain. -/
theorem C91_five_hours_refuted (rows : List (SolRow α)) (lat tcart : α) (dem : Nat → Nat → α) (mask : Nat → Nat → Bool) (lats lons : List α) :
    ∀ tbl, lutShad rows lat dem mask lats lons 18000 tcart ≠ .ok tbl := by
  intro tbl h
  unfold lutShad at h
  rw [show (18000 : Nat) = 3600 * 5 from rfl, lutHours_eq (by norm_num), ok_bind] at h
  have key : ∀ (ps : List (Nat × Nat)) (t t' : List (Nat → Nat → Option α)), (365, 20) ∈ ps → (t.length : Int) ≤ lutWrite 18000 365 20 →
      ps.foldlM (fun tbl (p : Nat × Nat) => do
        let row ← pyGet rows (p.1 : Int)
        let e ← shadeEntry dem mask lats lons row lat (p.2 : α) tcart
        pyModify tbl (lutWrite 18000 p.1 p.2) fun _ => e) t ≠ .ok t' := by
    intro ps
    induction ps with
    | nil => intro t t' h; simp at h
    | cons p ps ih =>
      intro t t' hm hl h
      rw [List.foldlM_cons, bind_eq_ok] at h
      obtain ⟨t1, h1, h⟩ := h
      simp only [bind_eq_ok] at h1
      obtain ⟨_, _, e, _, h1⟩ := h1
      have hlen : t1.length = t.length := by
        unfold pyModify at h1
        split at h1
        · cases h1; exact List.length_modify ..
        · cases h1
      rcases List.mem_cons.1 hm with rfl | hm
      · have h0 : 0 ≤ lutWrite 18000 365 20 := le_trans (Int.natCast_nonneg _) hl
        have := (pyModify_nat h0 h1).1
        omega
      · exact ih t1 t' hm (by rw [hlen]; exact hl) h
  refine key _ _ tbl ?_ ?_ h
  · simp only [List.mem_flatMap, List.mem_map, List.mem_range]
    exact ⟨365, by norm_num, 20, by decide, rfl⟩
  · have h5 := C63_five_hours_refuted.2
    have h0 : 0 ≤ lutWrite 18000 365 20 := by unfold lutWrite; norm_num
    rw [List.length_replicate]
    show ((lutSize 18000).toNat : Int) ≤ _
    omega

/-- A step under an hour raises ZeroDivisionError. -/
theorem C91_short_step (rows : List (SolRow α)) (lat tcart : α) (dem : Nat → Nat → α) (mask : Nat → Nat → Bool) (lats lons : List α)
    {step : Nat} (hs : step < 3600) : lutShad rows lat dem mask lats lons step tcart = .error .zeroDiv := by
  unfold lutShad
  rw [C63_short_step hs, error_bind]

end

/-- Tangent of the elevation of a direction of unit length. -/
noncomputable def Dir.tanElevation (d : Dir) : ℝ := d.u / Real.sqrt (1 - d.u ^ 2)

theorem sunPosition_height {δ lat stime h dir : ℝ} (hp : sunPosition δ lat stime = .ok (h, dir)) :
    -90 < h ∧ h < 90 ∧ Real.tan (deg h) = (sunDir δ (deg lat) (deg stime)).tanElevation := by
  have hpi := Real.pi_pos
  unfold sunPosition at hp
  simp only [bind_eq_ok] at hp
  obtain ⟨a, ha, q, hq, _, _, _, _, hp⟩ := hp
  rw [pure_eq_ok] at hp
  cases hp
  rw [sinElev_eq] at ha
  generalize (sunDir δ (deg lat) (deg stime)) = D at ha
  have hu : -1 ≤ D.u ∧ D.u ≤ 1 := by
    have e : (1.0 : ℝ) = 1 := by norm_num
    unfold pyAsin at ha
    rw [e] at ha
    split_ifs at ha with h1 h2
    exact ⟨not_lt.1 h1, not_lt.1 h2⟩
  rw [pyAsin_ok hu.1 hu.2, ok_inj] at ha
  subst ha
  have hc : Real.cos (Real.arcsin D.u) ≠ 0 := (fdiv_eq_ok.1 hq).1
  rw [Real.cos_arcsin] at hc
  have hsq : 0 < 1 - D.u ^ 2 := by
    by_contra hn
    exact hc (Real.sqrt_eq_zero_of_nonpos (not_lt.1 hn))
  have h1 : -1 < D.u := by nlinarith [hu.1, hu.2]
  have h2 : D.u < 1 := by nlinarith [hu.1, hu.2]
  have hlo := Real.neg_pi_div_two_lt_arcsin.2 h1
  have hhi := Real.arcsin_lt_pi_div_two.2 h2
  have e180 : (180.0 : ℝ) = 180 := by norm_num
  refine ⟨?_, ?_, ?_⟩
  · show -90 < Real.arcsin D.u * 180.0 / Real.pi
    rw [lt_div_iff₀ hpi, e180]; linarith
  · show Real.arcsin D.u * 180.0 / Real.pi < 90
    rw [div_lt_iff₀ hpi, e180]; linarith
  · have hd : deg (Real.arcsin D.u * 180.0 / Real.pi) = Real.arcsin D.u := by
      unfold deg; rw [e180]; field_simp
    show Real.tan (deg (Real.arcsin D.u * 180.0 / Real.pi)) = _
    rw [hd, Real.tan_arcsin]; rfl

/-- **C91, entries.** For every place, day and hour there is a list of terrain points per cell, independent of elevations; an entry
of the table is NaN off the glacier; at night (sine of the sun's elevation at most 0.01) it is -1; by day it is NaN on the border,
and inside 1 exactly if no point rises above the line of sight to the sun, otherwise 0. -/
theorem C91_entry (lats lons : List ℝ) (row : SolRow ℝ) (lat hod tcart : ℝ) : ∃ pts : Nat → Nat → List ((Nat × Nat) × ℝ),
    ∀ (dem : Nat → Nat → ℝ) (mask : Nat → Nat → Bool) (E : Nat → Nat → Option ℝ),
      shadeEntry dem mask lats lons row lat hod tcart = .ok E →
      let sun := sunDir row.soldec (deg lat) (deg (180 + 15 / 2 - hod * 15 - row.tcorr + tcart))
      ∀ i j, (mask i j = false → E i j = none) ∧
        (mask i j = true → sun.u ≤ 0.01 → E i j = some (-1)) ∧
        (mask i j = true → 0.01 < sun.u →
          (¬ (1 ≤ i ∧ i + 1 < lats.length ∧ 1 ≤ j ∧ j + 1 < lons.length) → E i j = none) ∧
          (1 ≤ i ∧ i + 1 < lats.length ∧ 1 ≤ j ∧ j + 1 < lons.length →
            pts i j ≠ [] ∧ (∀ q ∈ pts i j, 0 ≤ q.2 ∧ q.1.1 < lats.length ∧ q.1.2 < lons.length) ∧
            ((∀ q ∈ pts i j, (dem q.1.1 q.1.2 - dem i j) / q.2 ≤ sun.tanElevation) → E i j = some 1) ∧
            ((∃ q ∈ pts i j, sun.tanElevation < (dem q.1.1 q.1.2 - dem i j) / q.2) → E i j = some 0))) := by
  have hst : lutHourAngle hod row.tcorr tcart = 180 + 15 / 2 - hod * 15 - row.tcorr + tcart := by
    unfold lutHourAngle; norm_num
  rw [← hst]
  cases hp : sunPosition row.soldec lat (lutHourAngle hod row.tcorr tcart) with
  | error e =>
    refine ⟨fun _ _ => [], fun dem mask E h => ?_⟩
    unfold shadeEntry at h
    simp only [hp, error_bind] at h
    cases h
  | ok x =>
    obtain ⟨h, dir⟩ := x
    obtain ⟨h1, h2, htan⟩ := sunPosition_height hp
    obtain ⟨pts, hpts⟩ := C78_sight_line lats lons dir
    refine ⟨pts, fun dem mask E hE => ?_⟩
    unfold shadeEntry at hE
    simp only [hp, ok_bind, sinElev_eq] at hE
    generalize sunDir row.soldec (deg lat) (deg (lutHourAngle hod row.tcorr tcart)) = D at *
    intro sun i j
    by_cases hday : 0.01 < D.u
    · rw [if_pos hday, bind_eq_ok] at hE
      obtain ⟨A, hA, hE⟩ := hE
      rw [pure_eq_ok] at hE
      subst hE
      refine ⟨fun hm => by simp [hm], fun _ hn => absurd hday (not_lt.2 hn), fun hm _ => ?_⟩
      simp only [hm, if_true]
      have hw := C78_where hA i j
      refine ⟨fun hout => ?_, fun hin => ?_⟩
      · cases hb : A i j with
        | none => rfl
        | some b =>
          obtain ⟨c1, c2, c3, c4, -⟩ := hw.1 ⟨b, hb⟩
          exact absurd ⟨c1, c2, c3, c4⟩ hout
      · obtain ⟨b, hb⟩ := hw.2 ⟨hin.1, hin.2.1, hin.2.2.1, hin.2.2.2, hm⟩
        obtain ⟨hne, hgrid, hs⟩ := hpts dem mask h A h1 h2 hA i j b hb
        rw [htan] at hs
        rw [hb]
        refine ⟨hne, hgrid, fun hv => ?_, ?_⟩
        · rw [hs.2 hv]; norm_num
        · rintro ⟨q, hq, hlt⟩
          have hbf : b = false := by
            cases b with
            | false => rfl
            | true => exact absurd (hs.1 rfl q hq) (not_le.2 hlt)
          rw [hbf]; norm_num
    · rw [if_neg hday, pure_eq_ok] at hE
      subst hE
      refine ⟨fun hm => by simp [hm], fun hm _ => by simp only [hm, if_true]; norm_num, fun _ hd => absurd hd hday⟩

/-! ## Concrete cases -/

/-- An entry for a glacier cell in the middle of a level plain at 60 degrees north, at the equinox. -/
theorem plain_entry (hod : ℝ) : ∃ e, shadeEntry (fun _ _ => (1000 : ℝ)) (fun i j => i == 2 && j == 2) (latRow 47 0.01 5) (lonRow 10 0.01 5)
    ⟨1, 0, 0⟩ 60 hod 0 = .ok e := by
  have hc60 : Real.cos (deg 60) = 1 / 2 := by
    rw [show deg 60 = Real.pi / 3 by unfold deg; ring, Real.cos_pi_div_three]
  unfold shadeEntry
  have hu : |(sunDir 0 (deg 60) (deg (lutHourAngle hod 0 0))).u| < 1 := by
    have : (sunDir 0 (deg 60) (deg (lutHourAngle hod 0 0))).u = Real.cos (deg (lutHourAngle hod 0 0)) / 2 := by simp [sunDir, hc60]; ring
    rw [this, abs_div]
    have := Real.abs_cos_le_one (deg (lutHourAngle hod 0 0))
    norm_num
    linarith
  obtain ⟨h, a, hp, -⟩ := sunPosition_eq (by rw [hc60]; norm_num) hu
  simp only [hp, ok_bind]
  split_ifs
  · obtain ⟨A, hA⟩ := C78_returns (fun _ _ => (1000 : ℝ)) (fun i j => i == 2 && j == 2) (top := 47) (left := 10)
      (h := 0.01) (by norm_num) (n := 4) (m := 4) (fun i j h => by simp at h; omega) le_rfl le_rfl h a
    rw [hA, ok_bind]
    exact ⟨_, rfl⟩
  · exact ⟨_, rfl⟩

/-- Non-vacuity: the table of a year in steps of three hours is built, and noon of the last day is looked up. -/
example : ∃ tbl e, lutShad (List.replicate 366 ⟨(1 : ℝ), 0, 0⟩) 60 (fun _ _ => 1000) (fun i j => i == 2 && j == 2) (latRow 47 0.01 5)
    (lonRow 10 0.01 5) 10800 0 = .ok tbl ∧ tbl.length = 2928 ∧ pyGet tbl (lutRead 10800 366 13) = .ok e := by
  obtain ⟨tbl, h⟩ := C91_built_partial (rows := List.replicate 366 ⟨(1 : ℝ), 0, 0⟩) (lat := 60) (tcart := 0) (dem := fun _ _ => 1000)
    (mask := fun i j => i == 2 && j == 2) (lats := latRow 47 0.01 5) (lons := lonRow 10 0.01 5) (k := 3) (by norm_num) (by rw [List.length_replicate])
    (fun row hr hod _ => by rw [List.eq_of_mem_replicate hr]; exact plain_entry _)
  obtain ⟨h1, h2⟩ := C91_lookup_partial (k := 3) (by norm_num) h
  obtain ⟨hod, row, e, -, -, -, -, -, he⟩ := h2 366 13 (by norm_num) le_rfl (by norm_num)
  exact ⟨tbl, e, h, h1, he⟩

/-- Non-vacuity of `C91_entry`: the entry of hour 0 of that table is night. -/
example : ∃ E, shadeEntry (fun _ _ => (1000 : ℝ)) (fun i j => i == 2 && j == 2) (latRow 47 0.01 5) (lonRow 10 0.01 5) ⟨1, 0, 0⟩ 60 0 0 = .ok E ∧
    E 2 2 = some (-1) := by
  obtain ⟨E, hE⟩ := plain_entry 0
  obtain ⟨pts, h⟩ := C91_entry (latRow 47 0.01 5) (lonRow 10 0.01 5) ⟨1, 0, 0⟩ 60 0 0
  refine ⟨E, hE, (h _ _ E hE 2 2).2.1 rfl ?_⟩
  have : Real.cos (deg (180 + 15 / 2)) ≤ 0 := by
    apply Real.cos_nonpos_of_pi_div_two_le_of_le <;> unfold deg <;> nlinarith [Real.pi_pos]
  have hc60 : Real.cos (deg 60) = 1 / 2 := by
    rw [show deg 60 = Real.pi / 3 by unfold deg; ring, Real.cos_pi_div_three]
  simp only [sunDir, Real.sin_zero, Real.cos_zero, hc60]
  norm_num at this ⊢
  linarith

end Cosipy
