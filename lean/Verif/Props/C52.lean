import Verif.Model.Setup
import Mathlib.Data.List.Basic

/-!
# C52 cosipy-setup never overwrites without consent

All statements hold for the files left behind by every run, whether it ended normally or with an exception.
-/

set_option autoImplicit false
set_option linter.unusedSectionVars false

namespace Cosipy
namespace Setup

variable {norm : String → String} {source target : String} {silent : Bool}

/-- The user said yes / no / something else. -/
def Yes (norm : String → String) (a : String) : Prop := norm a = "y" ∨ norm a = "yes"
def No (norm : String → String) (a : String) : Prop := norm a = "n" ∨ norm a = "no" ∨ norm a = ""

/-- What a conversation about one file does: the files stay, lines are consumed in order, all but the last answer are
unrecognised, and the last one decides. -/
theorem confirm_spec (base : String) : ∀ (depth : Nat) (s : State), ∃ used rest,
    s.answers = used ++ rest ∧ (confirm norm base depth s).1 = ⟨s.fs, rest, s.log ++ used.map (base, ·)⟩ ∧
    ((∃ e, (confirm norm base depth s).2 = .error e ∧ ∀ a ∈ used, ¬ Yes norm a ∧ ¬ No norm a) ∨
     ∃ bad a, used = bad ++ [a] ∧ (∀ b ∈ bad, ¬ Yes norm b ∧ ¬ No norm b) ∧
      ((confirm norm base depth s).2 = .ok true ∧ Yes norm a ∨ (confirm norm base depth s).2 = .ok false ∧ No norm a))
  | 0, s => ⟨[], s.answers, rfl, by simp [confirm], Or.inl ⟨_, rfl, by simp⟩⟩
  | depth + 1, s => by
    unfold confirm
    cases ha : s.answers with
    | nil =>
      refine ⟨[], [], rfl, ?_, Or.inl ⟨_, rfl, by simp⟩⟩
      obtain ⟨fs, as, log⟩ := s
      simp only at ha
      subst ha
      simp
    | cons a as =>
      simp only
      by_cases hr : ["y", "yes", "n", "no", ""].contains (norm a) = true
      · rw [if_neg (by simp only [hr]; decide)]
        refine ⟨[a], as, rfl, rfl, Or.inr ⟨[], a, rfl, by simp, ?_⟩⟩
        by_cases hy : ["y", "yes"].contains (norm a) = true
        · left
          refine ⟨congrArg _ hy, ?_⟩
          simpa [Yes] using hy
        · right
          refine ⟨congrArg _ (Bool.eq_false_iff.2 hy), ?_⟩
          simp at hr hy
          unfold No
          rcases hr with h | h | h | h | h
          · exact absurd h hy.1
          · exact absurd h hy.2
          · exact Or.inl h
          · exact Or.inr (Or.inl h)
          · exact Or.inr (Or.inr h)
      · rw [if_pos (by simpa using hr)]
        have hbad : ¬ Yes norm a ∧ ¬ No norm a := by
          simp only [List.contains_eq_mem, List.mem_cons, List.not_mem_nil, or_false, decide_eq_true_eq, not_or] at hr
          exact ⟨fun h => h.elim hr.1 hr.2.1, fun h => h.elim hr.2.2.1 (fun h => h.elim hr.2.2.2.1 hr.2.2.2.2)⟩
        obtain ⟨used, rest, e1, e2, e3⟩ := confirm_spec base depth
          { s with answers := as, log := s.log ++ [(base, a)] }
        simp only at e1 e2
        refine ⟨a :: used, rest, by rw [e1]; rfl, by rw [e2]; simp, ?_⟩
        rcases e3 with ⟨e, e3, e4⟩ | ⟨bad, b, e3, e4, e5⟩
        · left
          refine ⟨e, e3, fun c hc => ?_⟩
          rcases List.mem_cons.1 hc with rfl | hc
          · exact hbad
          · exact e4 c hc
        · right
          refine ⟨a :: bad, b, by rw [e3]; rfl, fun c hc => ?_, e5⟩
          rcases List.mem_cons.1 hc with rfl | hc
          · exact hbad
          · exact e4 c hc

/-- What handling one file does. -/
theorem copyFile_spec (depth : Nat) (base : String) (s : State) : ∃ used rest,
    s.answers = used ++ rest ∧ (copyFile norm depth base source target silent s).1.answers = rest ∧
    (copyFile norm depth base source target silent s).1.log = s.log ++ used.map (base, ·) ∧
    (∀ d b, (d, b) ≠ (target, base) → (copyFile norm depth base source target silent s).1.fs d b = s.fs d b) ∧
    (used ≠ [] → silent = false ∧ (s.fs target base).isSome = true) ∧
    ((copyFile norm depth base source target silent s).1.fs target base ≠ s.fs target base →
      s.fs target base = none ∨ silent = true ∨ ∃ bad a, used = bad ++ [a] ∧ Yes norm a ∧
        ∀ b ∈ bad, ¬ Yes norm b ∧ ¬ No norm b) ∧
    ((∃ a ∈ used, No norm a) → (copyFile norm depth base source target silent s).1.fs target base = s.fs target base) ∧
    ((copyFile norm depth base source target silent s).2 = .ok () →
      ((s.fs target base = none ∨ silent = true ∨ ∃ a ∈ used, Yes norm a) →
        (copyFile norm depth base source target silent s).1.fs target base = s.fs source base) ∧
      (s.fs target base ≠ none → silent = false → ∃ a ∈ used, Yes norm a ∨ No norm a)) := by
  have hfin : ∀ s : State, (finish base source target s true).1.answers = s.answers ∧
      (finish base source target s true).1.log = s.log ∧
      (∀ d b, (d, b) ≠ (target, base) → (finish base source target s true).1.fs d b = s.fs d b) ∧
      ((finish base source target s true).2 = .ok () →
        (finish base source target s true).1.fs target base = s.fs source base) := by
    intro s
    unfold finish
    rw [if_pos rfl]
    cases hs : s.fs source base with
    | none => exact ⟨rfl, rfl, fun _ _ _ => rfl, fun h => by cases h⟩
    | some c =>
      refine ⟨rfl, rfl, fun d b hne => ?_, fun _ => ?_⟩
      · exact if_neg fun h => hne (Prod.ext h.1 h.2)
      · exact if_pos ⟨rfl, rfl⟩
  unfold copyFile
  by_cases hask : silent = false ∧ (s.fs target base).isSome = true
  · rw [if_pos hask]
    obtain ⟨used, rest, e1, e2, e3⟩ := confirm_spec (norm := norm) base depth s
    rcases hc : confirm norm base depth s with ⟨s', r⟩
    rw [hc] at e2 e3
    simp only at e2 e3
    subst e2
    refine ⟨used, rest, e1, ?_⟩
    have hsome : s.fs target base ≠ none := by
      intro h; rw [h] at hask; cases hask.2
    rcases e3 with ⟨e, rfl, e4⟩ | ⟨bad, a, rfl, e4, ⟨rfl, e5⟩ | ⟨rfl, e5⟩⟩
    · refine ⟨rfl, rfl, fun _ _ _ => rfl, fun _ => hask, fun h => absurd rfl h, fun _ => rfl, fun h => by cases h⟩
    · simp only
      obtain ⟨f1, f2, f3, f4⟩ := hfin ⟨s.fs, rest, s.log ++ (bad ++ [a]).map (base, ·)⟩
      have hnoNo : ∀ c ∈ bad ++ [a], ¬ No norm c := by
        intro c hc
        rcases List.mem_append.1 hc with hc | hc
        · exact (e4 c hc).2
        · rw [List.mem_singleton.1 hc]
          rintro (h | h | h) <;> rcases e5 with e5 | e5 <;> rw [e5] at h <;> revert h <;> decide
      refine ⟨f1, f2, f3, fun _ => hask, fun _ => Or.inr (Or.inr ⟨bad, a, rfl, e5, e4⟩), ?_, ?_⟩
      · rintro ⟨c, hc, hcn⟩
        exact absurd hcn (hnoNo c hc)
      · intro hok
        exact ⟨fun _ => f4 hok, fun _ _ => ⟨a, by simp, Or.inl e5⟩⟩
    · have hfalse : finish base source target ⟨s.fs, rest, s.log ++ (bad ++ [a]).map (base, ·)⟩ false =
          (⟨s.fs, rest, s.log ++ (bad ++ [a]).map (base, ·)⟩, .ok ()) := rfl
      simp only [hfalse]
      have hnoYes : ∀ c ∈ bad ++ [a], ¬ Yes norm c := by
        intro c hc
        rcases List.mem_append.1 hc with hc | hc
        · exact (e4 c hc).1
        · rw [List.mem_singleton.1 hc]
          rintro (h | h) <;> rcases e5 with e5 | e5 | e5 <;> rw [e5] at h <;> revert h <;> decide
      refine ⟨trivial, trivial, fun _ _ _ => trivial, fun _ => hask, fun h => absurd rfl h, fun _ => trivial, fun _ => ⟨?_, ?_⟩⟩
      · rintro (h | h | ⟨c, hc, hcy⟩)
        · exact absurd h hsome
        · rw [hask.1] at h; cases h
        · exact absurd hcy (hnoYes c hc)
      · intro _ _
        exact ⟨a, by simp, Or.inr e5⟩
  · rw [if_neg hask]
    obtain ⟨f1, f2, f3, f4⟩ := hfin s
    refine ⟨[], s.answers, rfl, f1, by rw [f2]; simp, f3, fun h => absurd rfl h, fun _ => ?_, ?_, fun hok => ⟨fun _ => f4 hok, ?_⟩⟩
    · cases hs : silent with
      | true => exact Or.inr (Or.inl rfl)
      | false =>
        left
        cases ht : s.fs target base with
        | none => rfl
        | some c => exact absurd ⟨hs, by rw [ht]; rfl⟩ hask
    · rintro ⟨a, ha, _⟩; cases ha
    · intro h1 h2
      exfalso
      apply hask
      refine ⟨h2, ?_⟩
      cases ht : s.fs target base with
      | none => exact absurd ht h1
      | some c => rfl

/-- Everything the loop does, by induction over the files. -/
theorem copyAll_spec (hne : source ≠ target) (depth : Nat) : ∀ (files : List String) (s : State), files.Nodup →
    ∃ (used : List (String × String)) (rest : List String),
    s.answers = used.map Prod.snd ++ rest ∧ (copyAll norm depth source target silent files s).1.answers = rest ∧
    (copyAll norm depth source target silent files s).1.log = s.log ++ used ∧
    (∀ p ∈ used, p.1 ∈ files ∧ silent = false ∧ (s.fs target p.1).isSome = true) ∧
    (∀ d b, ¬ (d = target ∧ b ∈ files) → (copyAll norm depth source target silent files s).1.fs d b = s.fs d b) ∧
    (∀ b ∈ files, (copyAll norm depth source target silent files s).1.fs target b ≠ s.fs target b →
      s.fs target b = none ∨ silent = true ∨ ∃ a, (b, a) ∈ used ∧ Yes norm a ∧ ∀ a', (b, a') ∈ used → ¬ No norm a') ∧
    (∀ b ∈ files, (∃ a, (b, a) ∈ used ∧ No norm a) →
      (copyAll norm depth source target silent files s).1.fs target b = s.fs target b) ∧
    ((copyAll norm depth source target silent files s).2 = .ok () → ∀ b ∈ files,
      ((s.fs target b = none ∨ silent = true ∨ ∃ a, (b, a) ∈ used ∧ Yes norm a) →
        (copyAll norm depth source target silent files s).1.fs target b = s.fs source b) ∧
      (s.fs target b ≠ none → silent = false → ∃ a, (b, a) ∈ used ∧ (Yes norm a ∨ No norm a)))
  | [], s, _ => ⟨[], s.answers, rfl, rfl, by simp [copyAll], by simp, fun _ _ _ => rfl, by simp, by simp, by simp⟩
  | base :: files, s, hnd => by
    rw [List.nodup_cons] at hnd
    unfold copyAll
    cases hsrc : s.fs source base with
    | none =>
      refine ⟨[], s.answers, rfl, rfl, by simp, by simp, fun _ _ _ => rfl, fun _ _ h => absurd rfl h, fun _ _ _ => rfl,
        fun h => by cases h⟩
    | some content =>
      simp only
      obtain ⟨u1, r1, a1, a2, a3, a4, a5, a6, a7, a8⟩ :=
        copyFile_spec (norm := norm) (source := source) (target := target) (silent := silent) depth base s
      rcases hc : copyFile norm depth base source target silent s with ⟨s', r⟩
      rw [hc] at a2 a3 a4 a6 a7 a8
      simp only at a2 a3 a4 a6 a7 a8
      have htgt : ∀ b, b ≠ base → s'.fs target b = s.fs target b := fun b hb => a4 _ _ (fun e => hb (congrArg Prod.snd e))
      have hsou : ∀ b, s'.fs source b = s.fs source b := fun b => a4 _ _ (fun e => hne (congrArg Prod.fst e))
      have hsnd : ∀ u : List String, (u.map (base, ·)).map Prod.snd = u := by
        intro u
        induction u with
        | nil => rfl
        | cons a u ih => rw [List.map_cons, List.map_cons, ih]
      have hnoyes : ∀ {used : List String} {bad a}, used = bad ++ [a] → Yes norm a →
          (∀ b ∈ bad, ¬ Yes norm b ∧ ¬ No norm b) → ∀ c ∈ used, ¬ No norm c := by
        intro used bad a e hy hb c hc
        subst e
        rcases List.mem_append.1 hc with hc | hc
        · exact (hb c hc).2
        · rw [List.mem_singleton.1 hc]
          rintro (h | h | h) <;> rcases hy with e5 | e5 <;> rw [e5] at h <;> revert h <;> decide
      cases r with
      | error e =>
        refine ⟨u1.map (base, ·), r1, ?_, a2, a3, ?_, ?_, ?_, ?_, fun h => by cases h⟩
        · rw [a1, hsnd]
        · intro p hp
          obtain ⟨a, ha, rfl⟩ := List.mem_map.1 hp
          exact ⟨List.mem_cons_self .., a5 (List.ne_nil_of_mem ha)⟩
        · intro d b hdb
          refine a4 d b fun e => hdb ?_
          cases e
          exact ⟨rfl, List.mem_cons_self ..⟩
        · intro b hb hch
          by_cases hbb : b = base
          · subst hbb
            rcases a6 hch with h | h | ⟨bad, a, h1, h2, h3⟩
            · exact Or.inl h
            · exact Or.inr (Or.inl h)
            · refine Or.inr (Or.inr ⟨a, List.mem_map.2 ⟨a, by rw [h1]; simp, rfl⟩, h2, ?_⟩)
              intro a' ha'
              obtain ⟨c, hc, e⟩ := List.mem_map.1 ha'
              cases e
              exact hnoyes h1 h2 h3 _ hc
          · exact absurd (htgt b hbb) hch
        · rintro b hb ⟨a, ha, hn⟩
          obtain ⟨c, hc, e⟩ := List.mem_map.1 ha
          cases e
          exact a7 ⟨_, hc, hn⟩
      | ok u =>
        obtain ⟨u2, r2, b1, b2, b3, b4, b5, b6, b7, b8⟩ := copyAll_spec hne depth files s' hnd.2
        have hu2 : ∀ a, (base, a) ∉ u2 := fun a ha => hnd.1 (b4 _ ha).1
        have hu1 : ∀ {b a}, (b, a) ∈ u1.map (base, ·) → b = base ∧ a ∈ u1 := by
          intro b a h
          obtain ⟨c, hc, e⟩ := List.mem_map.1 h
          cases e
          exact ⟨rfl, hc⟩
        have hbase : (copyAll norm depth source target silent files s').1.fs target base = s'.fs target base :=
          b5 _ _ fun h => hnd.1 h.2
        refine ⟨u1.map (base, ·) ++ u2, r2, ?_, b2, ?_, ?_, ?_, ?_, ?_, ?_⟩
        · rw [a1, ← a2, b1, List.map_append, hsnd, List.append_assoc]
        · rw [b3, a3, List.append_assoc]
        · intro p hp
          rcases List.mem_append.1 hp with hp | hp
          · obtain ⟨a, ha, rfl⟩ := List.mem_map.1 hp
            exact ⟨List.mem_cons_self .., a5 (List.ne_nil_of_mem ha)⟩
          · obtain ⟨c1, c2, c3⟩ := b4 p hp
            refine ⟨List.mem_cons_of_mem _ c1, c2, ?_⟩
            rw [← htgt p.1 (fun e => hnd.1 (e ▸ c1))]
            exact c3
        · intro d b hdb
          rw [b5 d b (fun h => hdb ⟨h.1, List.mem_cons_of_mem _ h.2⟩)]
          refine a4 d b fun e => hdb ?_
          cases e
          exact ⟨rfl, List.mem_cons_self ..⟩
        · intro b hb hch
          by_cases hbb : b = base
          · subst hbb
            rw [hbase] at hch
            rcases a6 hch with h | h | ⟨bad, a, h1, h2, h3⟩
            · exact Or.inl h
            · exact Or.inr (Or.inl h)
            · refine Or.inr (Or.inr ⟨a, List.mem_append_left _ (List.mem_map.2 ⟨a, by rw [h1]; simp, rfl⟩), h2, ?_⟩)
              intro a' ha'
              rcases List.mem_append.1 ha' with ha' | ha'
              · exact hnoyes h1 h2 h3 _ (hu1 ha').2
              · exact absurd ha' (hu2 a')
          · have hbf : b ∈ files := (List.mem_cons.1 hb).resolve_left hbb
            rw [← htgt b hbb] at hch ⊢
            rcases b6 b hbf hch with h | h | ⟨a, h1, h2, h3⟩
            · exact Or.inl h
            · exact Or.inr (Or.inl h)
            · refine Or.inr (Or.inr ⟨a, List.mem_append_right _ h1, h2, fun a' ha' => ?_⟩)
              rcases List.mem_append.1 ha' with ha' | ha'
              · exact absurd (hu1 ha').1 hbb
              · exact h3 a' ha'
        · rintro b hb ⟨a, ha, hn⟩
          rcases List.mem_append.1 ha with ha | ha
          · obtain ⟨hb', ha'⟩ := hu1 ha
            subst hb'
            rw [hbase]
            exact a7 ⟨a, ha', hn⟩
          · have hbf := (b4 _ ha).1
            have hbb : b ≠ base := fun e => hnd.1 (e ▸ hbf)
            rw [b7 b hbf ⟨a, ha, hn⟩, htgt b hbb]
        · intro hok b hb
          by_cases hbb : b = base
          · subst hbb
            rw [hbase]
            have a8 := a8 rfl
            refine ⟨fun h => a8.1 ?_, fun h1 h2 => ?_⟩
            · rcases h with h | h | ⟨a, ha, hy⟩
              · exact Or.inl h
              · exact Or.inr (Or.inl h)
              · rcases List.mem_append.1 ha with ha | ha
                · exact Or.inr (Or.inr ⟨a, (hu1 ha).2, hy⟩)
                · exact absurd ha (hu2 a)
            · obtain ⟨a, ha, hyn⟩ := a8.2 h1 h2
              exact ⟨a, List.mem_append_left _ (List.mem_map.2 ⟨a, ha, rfl⟩), hyn⟩
          · have hbf : b ∈ files := (List.mem_cons.1 hb).resolve_left hbb
            have b8 := b8 hok b hbf
            rw [htgt b hbb, hsou b] at b8
            refine ⟨fun h => b8.1 ?_, fun h1 h2 => ?_⟩
            · rcases h with h | h | ⟨a, ha, hy⟩
              · exact Or.inl h
              · exact Or.inr (Or.inl h)
              · rcases List.mem_append.1 ha with ha | ha
                · exact absurd (hu1 ha).1 hbb
                · exact Or.inr (Or.inr ⟨a, ha, hy⟩)
            · obtain ⟨a, ha, hyn⟩ := b8.2 h1 h2
              exact ⟨a, List.mem_append_right _ ha, hyn⟩

end Setup

open Setup in
/-- **C52.** For every file system, every sequence of answers and every way the run ends: with `log` the prompts the user
answered (file, line typed, in order; a prefix of the lines given),
* a file that changed is one of the four target files, and either did not exist, or -y was given, or the user typed yes
  (and never no) at a prompt for that very file;
* a file for which the user typed no is unchanged;
* the user is asked only about existing target files, and never with -y;
* if the run ends normally, every target file that was missing, or was agreed to, has the contents of the sample, and
  every existing one was asked about until yes or no (unless -y). -/
theorem C52_consent (norm : String → String) (depth : Nat) (sample cwd : String) (out : Option String) (silent : Bool)
    (fs : Files) (answers : List String) (target : String)
    (ht : target = match out with | none => cwd | some p => if p = "" then cwd else p) :
    let r := Setup.main norm depth sample cwd out silent fs answers
    (∃ rest, answers = r.1.log.map Prod.snd ++ rest) ∧
    (∀ d b, r.1.fs d b ≠ fs d b → d = target ∧ b ∈ configFiles ∧ (fs d b = none ∨ silent = true ∨
      ∃ a, (b, a) ∈ r.1.log ∧ Yes norm a ∧ ∀ a', (b, a') ∈ r.1.log → ¬ No norm a')) ∧
    (∀ b a, (b, a) ∈ r.1.log → No norm a → r.1.fs target b = fs target b) ∧
    (∀ b a, (b, a) ∈ r.1.log → b ∈ configFiles ∧ silent = false ∧ (fs target b).isSome = true) ∧
    (r.2 = .ok () → ∀ b ∈ configFiles,
      ((fs target b = none ∨ silent = true ∨ ∃ a, (b, a) ∈ r.1.log ∧ Yes norm a) → r.1.fs target b = fs sample b) ∧
      (fs target b ≠ none → silent = false → ∃ a, (b, a) ∈ r.1.log ∧ (Yes norm a ∨ No norm a))) := by
  intro r
  have hr : r = if target = sample then (⟨fs, answers, []⟩, .error .value)
      else copyAll norm depth sample target silent configFiles ⟨fs, answers, []⟩ := by
    subst ht; rfl
  by_cases heq : target = sample
  · rw [if_pos heq] at hr
    rw [hr]
    refine ⟨⟨answers, rfl⟩, fun _ _ h => absurd rfl h, fun _ _ _ _ => rfl,
      (fun _ _ h => (List.not_mem_nil h).elim), fun h => nomatch h⟩
  · rw [if_neg heq] at hr
    obtain ⟨used, rest, h1, h2, h3, h4, h5, h6, h7, h8⟩ := copyAll_spec (norm := norm) (silent := silent)
      (Ne.symm heq) depth configFiles ⟨fs, answers, []⟩ (by decide)
    rw [← hr] at h2 h3 h5 h6 h7 h8
    simp only [List.nil_append] at h3
    rw [← h3] at h1 h4 h6 h7 h8
    refine ⟨⟨rest, h1⟩, ?_, ?_, fun b a h => h4 _ h, h8⟩
    · intro d b hch
      by_cases hdb : d = target ∧ b ∈ configFiles
      · obtain ⟨rfl, hb⟩ := hdb
        exact ⟨rfl, hb, h6 b hb hch⟩
      · exact absurd (h5 d b hdb) hch
    · intro b a hm hn
      exact h7 b (h4 _ hm).1 ⟨a, hm, hn⟩

open Setup in
/-- **C52, asked again.** A line that is neither yes nor no is followed by another prompt for the same file, unless there
is no further line or Python's recursion limit is reached. -/
theorem C52_again (norm : String → String) (base a b : String) (depth : Nat) (fs : Files) (answers : List String)
    (log : List (String × String)) (h : ¬ Yes norm a ∧ ¬ No norm a) :
    confirm norm base (depth + 2) ⟨fs, a :: b :: answers, log⟩ =
      confirm norm base (depth + 1) ⟨fs, b :: answers, log ++ [(base, a)]⟩ ∧
    (b :: answers).head? = some b ∧ ∃ more, (confirm norm base (depth + 2) ⟨fs, a :: b :: answers, log⟩).1.log =
      log ++ (base, a) :: (base, b) :: more := by
  have hr : ["y", "yes", "n", "no", ""].contains (norm a) = false := by
    simp only [List.contains_eq_mem, List.mem_cons, List.not_mem_nil, or_false, decide_eq_false_iff_not, not_or]
    unfold Yes No at h
    tauto
  have e : confirm norm base (depth + 2) ⟨fs, a :: b :: answers, log⟩ =
      confirm norm base (depth + 1) ⟨fs, b :: answers, log ++ [(base, a)]⟩ := by
    rw [confirm]
    simp only [hr, Bool.not_false, if_true]
  refine ⟨e, rfl, ?_⟩
  rw [e]
  obtain ⟨used, rest, e1, e2, _⟩ := confirm_spec (norm := norm) base depth
    ⟨fs, answers, (log ++ [(base, a)]) ++ [(base, b)]⟩
  rw [confirm]
  simp only
  by_cases hb : ["y", "yes", "n", "no", ""].contains (norm b) = true
  · rw [if_neg (by simp only [hb]; decide)]
    exact ⟨[], by simp⟩
  · rw [if_pos (by simpa using hb), e2]
    exact ⟨used.map (base, ·), by simp⟩

/-- Non-vacuity: an existing file kept after "what?" and "n", another replaced after "yes", two created. -/
example :
    let fs : Setup.Files := fun d b => if d = "sample" then some ("new " ++ b) else
      if d = "work" ∧ (b = "config.toml" ∨ b = "constants.toml") then some "old" else none
    let r := Setup.main id 10 "sample" "work" none false fs ["what?", "n", "yes"]
    r.2 = .ok () ∧ r.1.log = [("config.toml", "what?"), ("config.toml", "n"), ("constants.toml", "yes")] ∧
    r.1.fs "work" "config.toml" = some "old" ∧ r.1.fs "work" "constants.toml" = some "new constants.toml" ∧
    r.1.fs "work" "utilities_config.toml" = some "new utilities_config.toml" := by
  decide +kernel

end Cosipy
