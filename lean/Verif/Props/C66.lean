import Verif.Model.Program
import Verif.Lemmas.IO
import Verif.Props.C65

/-!
# C66 — which files a run writes

Full property: runs with different settings (prefix or period) do not overwrite each other's files. `C66_frame`: a run
writes exactly one result file and one restart file. `C66_output_partial`: result files of two runs coincide exactly when
prefix and both dates coincide. `C66_hours_refuted`: periods that differ only in the hours share the result file.
`C66_restart_refuted`: the restart file does not carry the prefix, so runs of two glaciers over the same period share it.
-/

set_option autoImplicit false
set_option linter.unusedSectionVars false

namespace Cosipy
open Program

/-- A text that begins with a date YYYY-MM-DD. -/
def IsoDate (s y m d : List Char) : Prop :=
  (∃ rest, s = y ++ '-' :: m ++ '-' :: d ++ rest) ∧ y.length = 4 ∧ m.length = 2 ∧ d.length = 2 ∧
    '-' ∉ y ∧ '-' ∉ m ∧ '-' ∉ d

theorem filter_dash {l : List Char} (h : '-' ∉ l) : l.filter (· ≠ '-') = l := by
  rw [List.filter_eq_self]
  intro c hc
  have : c ≠ '-' := fun e => h (e ▸ hc)
  simpa using this

theorem iso_label {s y m d : List Char} (h : IsoDate s y m d) :
    timestampLabel (.str s) = .ok (y ++ m ++ d) ∧ (y ++ m ++ d).length = 8 ∧
      s.take 10 = y ++ '-' :: m ++ '-' :: d := by
  obtain ⟨⟨rest, rfl⟩, hy, hm, hd, ny, nm, nd⟩ := h
  have ht : (y ++ '-' :: m ++ '-' :: d ++ rest).take 10 = y ++ '-' :: m ++ '-' :: d := by
    apply List.take_left'
    simp [hy, hm, hd]
  refine ⟨?_, by simp [hy, hm, hd], ht⟩
  simp only [timestampLabel]
  rw [ht]
  simp only [List.filter_append, List.filter_cons, filter_dash ny, filter_dash nm, filter_dash nd]
  simp

section
variable {β ρ γ : Type} {parse : Parse} {fmt : Format}

/-- **C66, files written.** A successful run changes one result file, whose name is made of the prefix and the two dates,
and one restart file, whose name is the time of its last step; everything else stays. -/
theorem C66_frame {cfg : Settings} {input : Option (Series β)} {simulate : Option γ → Series β → M (ρ × γ)}
    {disk disk' : Disk ρ γ} (h : Program.main parse fmt cfg input simulate disk = .ok disk') :
    ∃ name last res, outputName cfg = .ok name ∧
      (∀ n, n ≠ name → disk'.output n = disk.output n) ∧ disk'.output name = some res ∧
      (∀ n, n ≠ fmt last → disk'.restart n = disk.restart n) ∧
      ∃ st, disk'.restart (fmt last) = some ⟨last, st⟩ := by
  unfold Program.main at h
  rw [bind_eq_ok] at h
  obtain ⟨⟨d, f⟩, h1, h⟩ := h
  simp only at h
  split at h
  · cases h
  · rename_i last hl
    simp only [bind_eq_ok, pure_eq_ok] at h
    obtain ⟨⟨res, st⟩, h2, name, h3, h4⟩ := h
    refine ⟨name, last, res, h3, ?_⟩
    rw [← h4]
    exact ⟨fun n hn => if_neg hn, if_pos rfl, fun n hn => if_neg hn, st, if_pos rfl⟩

end

theorem outputName_eq {cfg : Settings} {s e : List Char} (hs : cfg.timeStart = .str s) (he : cfg.timeEnd = .str e)
    {ys ms ds ye me de : List Char} (is : IsoDate s ys ms ds) (ie : IsoDate e ye me de) :
    outputName cfg = .ok (cfg.outputPrefix ++ '_' :: (ys ++ ms ++ ds) ++ '-' :: (ye ++ me ++ de) ++ ".nc".toList) := by
  unfold outputName
  rw [hs, he, (iso_label is).1, (iso_label ie).1]
  rfl

/-- **C66, result files.** For times that begin with a date, two runs write the same result file exactly when prefix,
start date and end date coincide. The part that fails: different periods within the same days (`C66_hours_refuted`). -/
theorem C66_output_partial {a b : Settings} {s e s' e' : List Char} (hs : a.timeStart = .str s) (he : a.timeEnd = .str e)
    (hs' : b.timeStart = .str s') (he' : b.timeEnd = .str e') {ys ms ds ye me de ys' ms' ds' ye' me' de' : List Char}
    (is : IsoDate s ys ms ds) (ie : IsoDate e ye me de) (is' : IsoDate s' ys' ms' ds') (ie' : IsoDate e' ye' me' de') :
    outputName a = outputName b ↔
      a.outputPrefix = b.outputPrefix ∧ s.take 10 = s'.take 10 ∧ e.take 10 = e'.take 10 := by
  rw [outputName_eq hs he is ie, outputName_eq hs' he' is' ie', ok_inj, (iso_label is).2.2, (iso_label is').2.2,
    (iso_label ie).2.2, (iso_label ie').2.2]
  obtain ⟨-, y1, m1, d1, -⟩ := is
  obtain ⟨-, y2, m2, d2, -⟩ := ie
  obtain ⟨-, y3, m3, d3, -⟩ := is'
  obtain ⟨-, y4, m4, d4, -⟩ := ie'
  have cut : ∀ {a b c a' b' c' : List Char}, a.length = a'.length → b.length = b'.length →
      (a ++ b ++ c = a' ++ b' ++ c' ↔ a = a' ∧ b = b' ∧ c = c') := by
    intro a b c a' b' c' h1 h2
    constructor
    · intro h
      rw [List.append_assoc, List.append_assoc] at h
      obtain ⟨h3, h4⟩ := List.append_inj h h1
      obtain ⟨h5, h6⟩ := List.append_inj h4 h2
      exact ⟨h3, h5, h6⟩
    · rintro ⟨rfl, rfl, rfl⟩; rfl
  constructor
  · intro h
    have h1 := List.append_inj_left' h rfl
    have h2 := List.append_inj' h1 (by simp [y2, m2, d2, y4, m4, d4])
    have h3 := List.append_inj' h2.1 (by simp [y1, m1, d1, y3, m3, d3])
    have h4 := (cut (y2.trans y4.symm) (m2.trans m4.symm)).1 (List.cons.inj h2.2).2
    have h5 := (cut (y1.trans y3.symm) (m1.trans m3.symm)).1 (List.cons.inj h3.2).2
    obtain ⟨rfl, rfl, rfl⟩ := h4
    obtain ⟨rfl, rfl, rfl⟩ := h5
    exact ⟨h3.1, rfl, rfl⟩
  · rintro ⟨h1, h2, h3⟩
    have key : ∀ {y m d y' m' d' : List Char}, y.length = 4 → m.length = 2 → y'.length = 4 → m'.length = 2 →
        y ++ '-' :: m ++ '-' :: d = y' ++ '-' :: m' ++ '-' :: d' → y = y' ∧ m = m' ∧ d = d' := by
      intro y m d y' m' d' a1 a2 b1 b2 h
      rw [List.append_assoc, List.append_assoc] at h
      obtain ⟨q1, q2⟩ := List.append_inj h (a1.trans b1.symm)
      rw [List.cons_append, List.cons_append] at q2
      obtain ⟨q3, q4⟩ := List.append_inj (List.cons.inj q2).2 (a2.trans b2.symm)
      exact ⟨q1, q3, (List.cons.inj q4).2⟩
    obtain ⟨rfl, rfl, rfl⟩ := key y1 m1 y3 m3 h2
    obtain ⟨rfl, rfl, rfl⟩ := key y2 m2 y4 m4 h3
    rw [h1]

/-- Shorthand for the examples. -/
def exSettings (p s e : String) : Settings := ⟨false, .str s.toList, .str e.toList, p.toList, 3600⟩

/-- **C66 fails for hours**: two consecutive runs within a day write the same result file. -/
theorem C66_hours_refuted :
    outputName (exSettings "Zhadang" "2009-01-01T00:00" "2009-01-01T11:00") =
      outputName (exSettings "Zhadang" "2009-01-01T12:00" "2009-01-01T23:00") ∧
    outputName (exSettings "Zhadang" "2009-01-01T00:00" "2009-01-01T11:00") =
      .ok "Zhadang_20090101-20090101.nc".toList := by
  decide +kernel

/-- **C66 fails for restart files**: a run of another glacier (different prefix) that ends at the same time replaces the
restart file of the first, while both result files survive. -/
theorem C66_restart_refuted : ∃ (a b : Settings) (d₀ d₁ d₂ : Disk String String) (n m r : List Char),
    a.outputPrefix ≠ b.outputPrefix ∧
    Program.main exParse exFmt a (some ⟨[0, 3600], ["x", "y"]⟩) (fun _ _ => .ok ("A", "state of A")) d₀ = .ok d₁ ∧
    Program.main exParse exFmt b (some ⟨[0, 3600], ["x", "y"]⟩) (fun _ _ => .ok ("B", "state of B")) d₁ = .ok d₂ ∧
    d₂.output n = some "A" ∧ d₂.output m = some "B" ∧
    (d₁.restart r).map (·.state) = some "state of A" ∧ (d₂.restart r).map (·.state) = some "state of B" := by
  refine ⟨exSettings "a" "0" "1", exSettings "b" "0" "1", ⟨fun _ => none, fun _ => none⟩, _, _, "a_0-1.nc".toList,
    "b_0-1.nc".toList, exFmt 3600, by decide, rfl, rfl, ?_, ?_, ?_, ?_⟩ <;> decide +kernel

/-- Non-vacuity of `C66_output_partial`: the shipped period. -/
example : IsoDate "2009-01-01T06:00".toList "2009".toList "01".toList "01".toList ∧
    IsoDate "2009-01-10T00:00".toList "2009".toList "01".toList "10".toList ∧
    outputName (exSettings "Zhadang_ERA5" "2009-01-01T06:00" "2009-01-10T00:00") =
      .ok "Zhadang_ERA5_20090101-20090110.nc".toList := by
  refine ⟨⟨⟨"T06:00".toList, by decide +kernel⟩, by decide +kernel⟩, ⟨⟨"T00:00".toList, by decide +kernel⟩,
    by decide +kernel⟩, by decide +kernel⟩

end Cosipy
