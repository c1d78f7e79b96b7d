import Verif.Model.Switches
import Verif.Props.C52
import Verif.Props.C130

/-!
# C138 Switches act when they are given, and only then

Command lines of cosipy-setup, cosipy-plot-field and cosipy-plot-vtk: files are overwritten only if an argument asks for it, what is written as
documented is used as documented, and missing or meaningless arguments stop the program before it does anything.
-/

set_option autoImplicit false
set_option linter.unusedSectionVars false

namespace Cosipy.Cli

/-! ## Specification -/

/-- The argument asks for the option with these names: it is such a name, possibly abbreviated, or its letter is among those behind a single dash. -/
def Asks (names : List Word) (w : Word) : Prop :=
  (w.head? = some '-' ∧ w ≠ ['-'] ∧ w ≠ ['-', '-'] ∧ ∃ n ∈ names, w <+: n) ∨
  ∃ c t, ['-', c] ∈ names ∧ w = '-' :: t ∧ t.head? ≠ some '-' ∧ c ∈ t

/-- A command line of switches and options with their values; a value is an argument of its own or follows an equals sign. -/
inductive Line : List Word → List (Word × Option Word) → Prop
  | nil : Line [] []
  | switch {n : Word} {ws : List Word} {ps : List (Word × Option Word)} (h : Line ws ps) : Line (n :: ws) ((n, none) :: ps)
  | two {n v : Word} {ws : List Word} {ps : List (Word × Option Word)} (hv : Plain v ∨ Negative v) (h : Line ws ps) :
      Line (n :: v :: ws) ((n, some v) :: ps)
  | one {n v : Word} {ws : List Word} {ps : List (Word × Option Word)} (h : Line ws ps) : Line ((n ++ '=' :: v) :: ws) ((n, some v) :: ps)

/-- The value given last under one of these names. -/
def lastValue (names : List Word) (ps : List (Word × Option Word)) : Option Word := (ps.reverse.find? fun p => p.1 ∈ names).bind Prod.snd

/-- One of these names was given. -/
def isGiven (names : List Word) (ps : List (Word × Option Word)) : Bool := ps.any fun p => p.1 ∈ names

/-! ## Nothing without being asked -/

/-- Names are a dash and a letter, or two dashes and more. -/
def goodNames (os : List Opt) : Bool := (allNames os).all fun p =>
  match p.1 with
  | ['-', c] => c != '-'
  | '-' :: '-' :: _ :: _ => true
  | _ => false

section
variable {conv : Opt → Word → Bool} {os : List Opt} {flags : List String}

theorem named_names {w : Word} {o : Opt} (h : named os w = some o) : w ∈ o.names ∧ o ∈ os := by
  have := named_mem h
  unfold allNames at this
  obtain ⟨o', ho, hm⟩ := List.mem_flatMap.1 this
  obtain ⟨n, hn, e⟩ := List.mem_map.1 hm
  cases e
  exact ⟨hn, ho⟩

theorem allNames_names {p : Word × Opt} (h : p ∈ allNames os) : p.1 ∈ p.2.names ∧ p.2 ∈ os := by
  unfold allNames at h
  obtain ⟨o', ho, hm⟩ := List.mem_flatMap.1 h
  obtain ⟨n, hn, e⟩ := List.mem_map.1 hm
  subst e
  exact ⟨hn, ho⟩

/-- Letters stand for the options with those letters. -/
theorem letters_spec : ∀ (e : Word) (o : Opt) {acts : Acts} {l : Option Opt}, letters os flags e o = some (acts, l) →
    ∀ q v, ((q, v) ∈ acts ∨ l = some q) → q = o ∨ ∃ c ∈ e, named os ['-', c] = some q
  | [], o, acts, l, h, q, v, hm => by
    unfold letters at h
    split_ifs at h
    cases h
    rcases hm with hm | hm
    · rw [List.mem_singleton] at hm; cases hm; exact .inl rfl
    · cases hm
  | c :: r, o, acts, l, h, q, v, hm => by
    unfold letters at h
    by_cases hs : isSwitch flags o = true
    · rw [if_pos hs] at h
      cases hn : named os ['-', c] with
      | none => rw [hn] at h; cases h
      | some o' =>
        rw [hn] at h
        simp only at h
        split_ifs at h with hr
        · cases h
          rcases hm with hm | hm
          · rw [List.mem_singleton] at hm; cases hm; exact .inl rfl
          · cases hm; exact .inr ⟨c, by simp, hn⟩
        · rw [Option.map_eq_some_iff] at h
          obtain ⟨⟨acts', l'⟩, h1, h2⟩ := h
          cases h2
          have hm' : (q, v) = (o, none) ∨ ((q, v) ∈ acts' ∨ l' = some q) := by
            rcases hm with hm | hm
            · rcases List.mem_cons.1 hm with hm | hm
              · exact .inl hm
              · exact .inr (.inl hm)
            · exact .inr (.inr hm)
          rcases hm' with hm' | hm'
          · cases hm'; exact .inl rfl
          · rcases letters_spec r o' h1 q v hm' with rfl | ⟨d, hd, e⟩
            · exact .inr ⟨c, by simp, hn⟩
            · exact .inr ⟨d, by simp [hd], e⟩
    · rw [if_neg hs] at h
      cases h
      rcases hm with hm | hm
      · rw [List.mem_singleton] at hm; cases hm; exact .inl rfl
      · cases hm

/-- Where an action comes from. -/
theorem consumeS_mem : ∀ (slots : List (Word × Slot)) (pend : Option (Acts × Opt)) {a : Acts} {x : List Word},
    consumeS conv os flags pend slots = .ok (a, x) → ∀ q v, (q, v) ∈ a →
      (∃ acts p, pend = some (acts, p) ∧ ((q, v) ∈ acts ∨ q = p)) ∨
      ∃ w o att acts l, (w, Slot.option o att) ∈ slots ∧ expand os flags w o att = some (acts, l) ∧ ((q, v) ∈ acts ∨ l = some q)
  | [], none, a, x, h, q, v, hm => by
    simp only [consumeS] at h; cases h; cases hm
  | [], some _, a, x, h, q, v, hm => by simp only [consumeS] at h; cases h
  | (w, s) :: r, some (acts, p), a, x, h, q, v, hm => by
    cases s with
    | word =>
      simp only [consumeS] at h
      obtain ⟨_, _, h⟩ := bind_ok' h
      obtain ⟨⟨a', x'⟩, h1, h⟩ := bind_ok' h
      cases h
      rw [List.mem_append, List.mem_append] at hm
      rcases hm with (hm | hm) | hm
      · exact .inl ⟨acts, p, rfl, .inl hm⟩
      · rw [List.mem_singleton] at hm; cases hm; exact .inl ⟨acts, _, rfl, .inr rfl⟩
      · rcases consumeS_mem r none h1 q v hm with ⟨_, _, e, _⟩ | ⟨w', o, att, acts', l, hs, he, hq⟩
        · cases e
        · exact .inr ⟨w', o, att, acts', l, by simp [hs], he, hq⟩
    | dashes => simp only [consumeS] at h; cases h
    | unknown => simp only [consumeS] at h; cases h
    | option o att => simp only [consumeS] at h; cases h
  | (w, s) :: r, none, a, x, h, q, v, hm => by
    have lift : ∀ {a' : Acts} {x' : List Word}, consumeS conv os flags none r = .ok (a', x') → (q, v) ∈ a' →
        ∃ w' o att acts l, (w', Slot.option o att) ∈ (w, s) :: r ∧ expand os flags w' o att = some (acts, l) ∧ ((q, v) ∈ acts ∨ l = some q) := by
      intro a' x' h1 hm
      rcases consumeS_mem r none h1 q v hm with ⟨_, _, e, _⟩ | ⟨w', o, att, acts', l, hs, he, hq⟩
      · cases e
      · exact ⟨w', o, att, acts', l, by simp [hs], he, hq⟩
    cases s with
    | word =>
      simp only [consumeS] at h
      obtain ⟨⟨a', x'⟩, h1, h⟩ := bind_ok' h
      cases h
      exact .inr (lift h1 hm)
    | dashes =>
      simp only [consumeS] at h
      obtain ⟨⟨a', x'⟩, h1, h⟩ := bind_ok' h
      cases h
      exact .inr (lift h1 hm)
    | unknown =>
      simp only [consumeS] at h
      obtain ⟨⟨a', x'⟩, h1, h⟩ := bind_ok' h
      cases h
      exact .inr (lift h1 hm)
    | option o att =>
      rw [consumeS] at h
      cases he : expand os flags w o att with
      | none => rw [he] at h; cases h
      | some al =>
        obtain ⟨acts, l⟩ := al
        rw [he] at h
        cases l with
        | none =>
          simp only at h
          obtain ⟨_, _, h⟩ := bind_ok' h
          obtain ⟨⟨a', x'⟩, h1, h⟩ := bind_ok' h
          cases h
          rcases List.mem_append.1 hm with hm | hm
          · exact .inr ⟨w, o, att, acts, none, by simp, he, .inl hm⟩
          · exact .inr (lift h1 hm)
        | some l =>
          simp only at h
          split_ifs at h with hs
          · obtain ⟨_, _, h⟩ := bind_ok' h
            obtain ⟨⟨a', x'⟩, h1, h⟩ := bind_ok' h
            cases h
            rw [List.mem_append, List.mem_append] at hm
            rcases hm with (hm | hm) | hm
            · exact .inr ⟨w, o, att, acts, some l, by simp, he, .inl hm⟩
            · rw [List.mem_singleton] at hm; cases hm; exact .inr ⟨w, o, att, acts, some _, by simp, he, .inr rfl⟩
            · exact .inr (lift h1 hm)
          · rcases consumeS_mem r (some (acts, l)) h q v hm with ⟨acts', p, e, hq⟩ | ⟨w', o', att', acts', l', hs, he', hq⟩
            · cases e
              exact .inr ⟨w, o, att, acts, some l, by simp, he, hq.imp id fun e => by rw [e]⟩
            · exact .inr ⟨w', o', att', acts', l', by simp [hs], he', hq⟩
where
  bind_ok' {β γ : Type} {x : Except Stop β} {f : β → Except Stop γ} {r : γ} (h : (x >>= f) = .ok r) : ∃ y, x = .ok y ∧ f y = .ok r := by
    cases x with
    | error e => cases h
    | ok y => exact ⟨y, rfl, h⟩

theorem slots_option : ∀ {argv : List Word} {slots : List (Word × Slot)}, classifyAll os argv = some slots → ∀ w o att,
    (w, Slot.option o att) ∈ slots → w ∈ argv ∧ w ≠ ['-', '-'] ∧ classify os w = some (.option o att)
  | [], slots, h, w, o, att, hm => by rw [classifyAll] at h; cases h; cases hm
  | u :: us, slots, h, w, o, att, hm => by
    by_cases hd : u = ['-', '-']
    · rw [classifyAll, if_pos hd] at h
      cases h
      rcases List.mem_cons.1 hm with hm | hm
      · cases hm
      · obtain ⟨_, _, e⟩ := List.mem_map.1 hm; cases e
    · obtain ⟨s, r, h1, h2, rfl⟩ := classifyAll_cons hd h
      rcases List.mem_cons.1 hm with hm | hm
      · cases hm; exact ⟨by simp, hd, h1⟩
      · obtain ⟨a, b, c⟩ := slots_option h2 w o att hm
        exact ⟨by simp [a], b, c⟩

theorem goodNames_cases (hg : goodNames os = true) {p : Word × Opt} (hp : p ∈ allNames os) :
    (∃ c, p.1 = ['-', c] ∧ c ≠ '-') ∨ ∃ c t, p.1 = '-' :: '-' :: c :: t := by
  have := List.all_eq_true.1 hg p hp
  split at this
  · rename_i c e; exact .inl ⟨c, e, by simpa using this⟩
  · rename_i c t e; exact .inr ⟨c, t, e⟩
  · cases this

theorem eq_split (w : Word) {e : Word} (h : afterEq w = some e) : w = beforeEq w ++ '=' :: e := by
  unfold afterEq at h
  unfold beforeEq
  split at h
  · cases h
  · rename_i c r hd
    cases h
    have hc : c = '=' := by
      have := List.head?_dropWhile_not (p := fun x : Char => decide (x ≠ '=')) w
      rw [hd] at this
      simpa using this
    conv_lhs => rw [← List.takeWhile_append_dropWhile (p := fun x : Char => decide (x ≠ '=')) (l := w)]
    rw [hd, hc]

/-- What an argument taken for an option looks like. -/
theorem option_shape (hg : goodNames os = true) {w : Word} {o : Opt} {att : Option Word} (h : classify os w = some (.option o att)) :
    o ∈ os ∧ ((att = none ∧ w.head? = some '-' ∧ w ≠ ['-'] ∧ ∃ n ∈ o.names, w <+: n) ∨
    ∃ e, att = some e ∧ ((w.drop 1).head? = some '-' ∨ ∃ c t, ['-', c] ∈ o.names ∧ w = '-' :: c :: t ∧ c ≠ '-' ∧ e <:+ t)) := by
  unfold classify at h
  split at h
  · rename_i r
    cases hn : named os ('-' :: r) with
    | some o' =>
      rw [hn] at h
      cases h
      refine ⟨(named_names hn).2, .inl ⟨rfl, rfl, fun e => ?_, _, (named_names hn).1, List.prefix_refl _⟩⟩
      rcases goodNames_cases hg (named_mem hn) with ⟨c, e', _⟩ | ⟨c, t, e'⟩ <;> simp only at e' <;> rw [e] at e' <;> cases e'
    | none =>
      rw [hn] at h
      simp only at h
      by_cases hr : r = []
      · rw [if_pos hr] at h; cases h
      rw [if_neg hr] at h
      split at h
      · rename_i e o' ha hb
        cases h
        refine ⟨(named_names hb).2, .inr ⟨e, rfl, ?_⟩⟩
        have hw := eq_split _ ha
        rcases goodNames_cases hg (named_mem hb) with ⟨c, e', hc⟩ | ⟨c, t, e'⟩ <;> simp only at e'
        · right
          refine ⟨c, '=' :: e, e' ▸ (named_names hb).1, ?_, hc, List.suffix_cons _ _⟩
          rw [hw, e']; rfl
        · left
          rw [hw, e']; rfl
      · split at h
        · cases h
        · rename_i o' e hc
          cases h
          have hm : (o, att) ∈ candidates os ('-' :: r) := by rw [hc]; simp
          unfold candidates at hm
          split at hm
          · rename_i t e
            obtain ⟨p, hp, e2⟩ := List.mem_map.1 hm
            rw [List.mem_filter] at hp
            cases e2
            cases ha : afterEq ('-' :: r) with
            | some v => exact ⟨(allNames_names hp.1).2, .inr ⟨v, rfl, .inl (by rw [e]; rfl)⟩⟩
            | none =>
              refine ⟨(allNames_names hp.1).2, .inl ⟨rfl, rfl, by simp [hr], p.1, (allNames_names hp.1).1, ?_⟩⟩
              have : beforeEq ('-' :: r) = '-' :: r := by
                unfold afterEq at ha
                unfold beforeEq
                split at ha
                · rename_i hd
                  have := List.takeWhile_append_dropWhile (p := fun x : Char => decide (x ≠ '=')) (l := '-' :: r)
                  rw [hd, List.append_nil] at this
                  exact this
                · cases ha
              rw [← this]
              exact List.isPrefixOf_iff_prefix.1 hp.2
          · rename_i hno
            obtain ⟨p, hp, e2⟩ := List.mem_filterMap.1 hm
            split_ifs at e2 with h1 h2
            · cases e2
              refine ⟨(allNames_names hp).2, .inr ⟨_, rfl, .inr ?_⟩⟩
              cases r with
              | nil => exact absurd rfl hr
              | cons c t =>
                have hc' : c ≠ '-' := fun e => hno t (by rw [e])
                have h1' : p.1 = ['-', c] := h1
                exact ⟨c, t, h1' ▸ (allNames_names hp).1, rfl, hc', List.suffix_refl _⟩
            · cases e2
              exact ⟨(allNames_names hp).2, .inl ⟨rfl, rfl, by simp [hr], p.1, (allNames_names hp).1, List.isPrefixOf_iff_prefix.1 h2⟩⟩
        · split_ifs at h <;> cases h
  · cases h

/-- **C138, switches.** Whatever the command line: a switch is set only if one of the arguments asks for it, by its name, an abbreviation of it, or
its letter behind a single dash. -/
theorem C138_switch (hg : goodNames os = true) {argv : List Word} {a : Acts} (h : parseS conv os flags argv = .ok a) {o : Opt}
    {v : Option Word} (ho : (o, v) ∈ a) (hsw : isSwitch flags o = true) : o ∈ os ∧ ∃ w ∈ argv, Asks o.names w := by
  unfold parseS at h
  split at h
  · cases h
  · rename_i slots hs
    obtain ⟨⟨a', x⟩, h1, h⟩ := consumeS_mem.bind_ok' h
    simp only at h
    split_ifs at h
    cases h
    rcases consumeS_mem slots none h1 o v ho with ⟨_, _, e, _⟩ | ⟨w, o0, att, acts, l, hm, he, hq⟩
    · cases e
    · obtain ⟨hw, hd, hc⟩ := slots_option hs w o0 att hm
      obtain ⟨ho0, hc⟩ := option_shape hg hc
      rcases hc with ⟨rfl, h2, h3, h4⟩ | ⟨e, rfl, h2⟩
      · simp only [expand] at he
        cases he
        rcases hq with hq | hq
        · cases hq
        · cases hq; exact ⟨ho0, w, hw, .inl ⟨h2, h3, hd, h4⟩⟩
      · simp only [expand] at he
        rcases h2 with h2 | ⟨c, t, h3, rfl, hc', hsuf⟩
        · rw [if_pos h2] at he
          split_ifs at he with hsw'
          cases he
          rcases hq with hq | hq
          · rw [List.mem_singleton] at hq; cases hq; exact absurd hsw hsw'
          · cases hq
        · rw [if_neg (by simpa using hc')] at he
          rcases letters_spec e o0 he o v hq with rfl | ⟨d, hd', hn⟩
          · exact ⟨ho0, _, hw, .inr ⟨c, c :: t, h3, rfl, by simpa using hc', by simp⟩⟩
          · exact ⟨(named_names hn).2, _, hw, .inr ⟨d, c :: t, (named_names hn).1, rfl, by simpa using hc', List.mem_cons_of_mem _ (hsuf.subset hd')⟩⟩

/-- **C138, required options.** If a command line is accepted, every required option was given. -/
theorem C138_required {argv : List Word} {a : Acts} (h : parseS conv os flags argv = .ok a) {o : Opt} (ho : o ∈ os) (hr : o.required = true) :
    ∃ v, (o, v) ∈ a := by
  unfold parseS at h
  split at h
  · cases h
  · obtain ⟨⟨a', x⟩, h1, h⟩ := consumeS_mem.bind_ok' h
    simp only at h
    split_ifs at h with hc
    cases h
    simp only [Bool.or_eq_true, not_or] at hc
    by_contra hn
    apply hc.1
    rw [List.any_eq_true]
    refine ⟨o, ho, ?_⟩
    rw [hr, Bool.true_and, Bool.not_eq_true']
    rw [List.any_eq_false]
    intro p hp e
    rw [beq_iff_eq] at e
    exact hn ⟨p.2, by rw [← e]; exact hp⟩

/-! ## Command lines as documented -/

theorem perform_append {xs ys : Acts} (h1 : perform conv xs = .ok ()) (h2 : perform conv ys = .ok ()) : perform conv (xs ++ ys) = .ok () := by
  induction xs with
  | nil => exact h2
  | cons p xs ih =>
    obtain ⟨o, v⟩ := p
    rw [List.cons_append, perform]
    rw [perform] at h1
    split_ifs at h1 with ha hb
    rw [if_neg ha, if_pos hb]
    exact ih h1

/-- Switches, names and values are read as such. -/
theorem line_read (hd : named os ['-'] = none) (hos : ∀ p ∈ allNames os, ordinaryName p.1 = true) (hg : goodNames os = true) (opt : Word → Opt)
    {ws : List Word} {ps : List (Word × Option Word)} (hw : Line ws ps) :
    (∀ p ∈ ps, named os p.1 = some (opt p.1) ∧ (opt p.1).kind ≠ .help ∧ isSwitch flags (opt p.1) = p.2.isNone ∧
      p.2.all (conv (opt p.1)) = true) →
    ∃ slots, classifyAll os ws = some slots ∧ consumeS conv os flags none slots = .ok (ps.map fun p => (opt p.1, p.2), []) := by
  have first : ∀ {n : Word} {o : Opt}, named os n = some o → (∃ r, n = '-' :: r) ∧ n ≠ ['-', '-'] := by
    intro n o hn
    rcases goodNames_cases hg (named_mem hn) with ⟨c, e, hc⟩ | ⟨c, t, e⟩ <;> simp only at e
    · exact ⟨⟨_, e⟩, by rw [e]; simpa using hc⟩
    · exact ⟨⟨_, e⟩, by rw [e]; simp⟩
  have one : ∀ {o : Opt} {v : Option Word}, o.kind ≠ .help → v.all (conv o) = true → perform conv [(o, v)] = .ok () := by
    intro o v h1 h2
    rw [perform, if_neg h1, if_pos h2, perform]
  induction hw with
  | nil => exact fun _ => ⟨[], rfl, rfl⟩
  | @switch n ws ps _ ih =>
    intro h
    obtain ⟨slots, e1, e2⟩ := ih fun q hq => h q (by simp [hq])
    obtain ⟨h1, h2, h3, h4⟩ := h (n, none) (by simp)
    obtain ⟨⟨r, hr⟩, hn⟩ := first h1
    refine ⟨(n, .option (opt n) none) :: slots, ?_, ?_⟩
    · rw [classifyAll, if_neg hn, classify_named hr h1, e1]; rfl
    · rw [consumeS]
      simp only [expand]
      rw [if_pos (by simpa using h3), List.nil_append, one h2 h4, e2]; rfl
  | @two n v ws ps h6 _ ih =>
    intro h
    obtain ⟨slots, e1, e2⟩ := ih fun q hq => h q (by simp [hq])
    obtain ⟨h1, h2, h3, h4⟩ := h (n, some v) (by simp)
    obtain ⟨⟨r, hr⟩, hn⟩ := first h1
    have h7 : v ≠ ['-', '-'] ∧ classify os v = some .word := h6.elim (fun h => ⟨h.ne, classify_plain hd h⟩) (classify_negative hos)
    refine ⟨(n, .option (opt n) none) :: (v, .word) :: slots, ?_, ?_⟩
    · rw [classifyAll, if_neg hn, classify_named hr h1, classifyAll, if_neg h7.1, h7.2, e1]; rfl
    · rw [consumeS]
      simp only [expand]
      rw [if_neg (by simpa using h3), consumeS, List.nil_append, one h2 h4, e2]; rfl
  | @one n v ws ps _ ih =>
    intro h
    obtain ⟨slots, e1, e2⟩ := ih fun q hq => h q (by simp [hq])
    obtain ⟨h1, h2, h3, h4⟩ := h (n, some v) (by simp)
    obtain ⟨⟨r, hr⟩, hn⟩ := first h1
    have he : '=' ∉ n := ordinaryName_eq (hos _ (named_mem h1))
    refine ⟨(n ++ '=' :: v, .option (opt n) (some v)) :: slots, ?_, ?_⟩
    · rw [classifyAll, if_neg (ne_dashes n v), classify_attached hr he h1 (named_attached hos n v), e1]; rfl
    · have h3' : ¬ isSwitch flags (opt n) = true := by simpa using h3
      have hx : expand os flags (n ++ '=' :: v) (opt n) (some v) = some ([(opt n, some v)], none) := by
        simp only [expand]
        rw [if_neg h3', ite_eq_left_iff]
        intro _
        cases v with
        | nil => rw [letters, if_neg h3']
        | cons c t => rw [letters, if_neg h3']
      rw [consumeS, hx]
      simp only
      rw [one h2 h4, e2]; rfl

/-- **C138, documented command lines.** For every parser of this kind: a command line of known switches, and options with convertible values, that has
all required options is accepted, and every switch and value is taken as it is given. -/
theorem C138_line (hd : named os ['-'] = none) (hos : ∀ p ∈ allNames os, ordinaryName p.1 = true) (hg : goodNames os = true) (opt : Word → Opt)
    {ws : List Word} {ps : List (Word × Option Word)} (hw : Line ws ps)
    (h : ∀ p ∈ ps, named os p.1 = some (opt p.1) ∧ (opt p.1).kind ≠ .help ∧ isSwitch flags (opt p.1) = p.2.isNone ∧
      p.2.all (conv (opt p.1)) = true) (hr : ∀ o ∈ os, o.required = true → ∃ p ∈ ps, opt p.1 = o) :
    parseS conv os flags ws = .ok (ps.map fun p => (opt p.1, p.2)) := by
  obtain ⟨slots, e1, e2⟩ := line_read (flags := flags) hd hos hg opt hw h
  unfold parseS
  rw [e1]
  simp only
  rw [e2]
  show (if _ then _ else _) = _
  rw [if_neg]
  · rfl
  · simp only [List.isEmpty_nil, Bool.not_true, Bool.or_false, List.any_eq_true, not_exists, not_and]
    intro o ho hn
    rw [Bool.and_eq_true, Bool.not_eq_true', List.any_eq_false] at hn
    obtain ⟨p, hp, e⟩ := hr o ho hn.1
    exact hn.2 (opt p.1, p.2) (List.mem_map_of_mem (f := fun p : Word × Option Word => (opt p.1, p.2)) hp) (by simp [e])

/-- **C138, missing options.** A documented command line without one of the required options is rejected. -/
theorem C138_missing (hd : named os ['-'] = none) (hos : ∀ p ∈ allNames os, ordinaryName p.1 = true) (hg : goodNames os = true) (opt : Word → Opt)
    {ws : List Word} {ps : List (Word × Option Word)} (hw : Line ws ps)
    (h : ∀ p ∈ ps, named os p.1 = some (opt p.1) ∧ (opt p.1).kind ≠ .help ∧ isSwitch flags (opt p.1) = p.2.isNone ∧
      p.2.all (conv (opt p.1)) = true) {o : Opt} (ho : o ∈ os) (hr : o.required = true) (hn : ∀ p ∈ ps, p.1 ∉ o.names) :
    parseS conv os flags ws = .error .usage := by
  obtain ⟨slots, e1, e2⟩ := line_read (flags := flags) hd hos hg opt hw h
  unfold parseS
  rw [e1]
  simp only
  rw [e2]
  show (if _ then _ else _) = _
  rw [if_pos]
  rw [Bool.or_eq_true, List.any_eq_true]
  refine .inl ⟨o, ho, ?_⟩
  rw [hr, Bool.true_and, Bool.not_eq_true', List.any_eq_false]
  intro q hq e
  obtain ⟨p, hp, rfl⟩ := List.mem_map.1 hq
  rw [beq_iff_eq] at e
  simp only at e
  exact hn p hp (e ▸ (named_names (h p hp).1).1)

/-- Documented arguments in front of others are read as such, whatever follows. -/
theorem line_before (hd : named os ['-'] = none) (hos : ∀ p ∈ allNames os, ordinaryName p.1 = true) (hg : goodNames os = true) (opt : Word → Opt)
    {ws : List Word} {ps : List (Word × Option Word)} (hw : Line ws ps) :
    (∀ p ∈ ps, named os p.1 = some (opt p.1) ∧ (opt p.1).kind ≠ .help ∧ isSwitch flags (opt p.1) = p.2.isNone ∧
      p.2.all (conv (opt p.1)) = true) →
    ∃ pre, (∀ t, classifyAll os (ws ++ t) = (classifyAll os t).map (pre ++ ·)) ∧ ∀ st, consumeS conv os flags none (pre ++ st) =
      (consumeS conv os flags none st).map fun r => (ps.map (fun p => (opt p.1, p.2)) ++ r.1, r.2) := by
  have first : ∀ {n : Word} {o : Opt}, named os n = some o → (∃ r, n = '-' :: r) ∧ n ≠ ['-', '-'] := by
    intro n o hn
    rcases goodNames_cases hg (named_mem hn) with ⟨c, e, hc⟩ | ⟨c, t, e⟩ <;> simp only at e
    · exact ⟨⟨_, e⟩, by rw [e]; simpa using hc⟩
    · exact ⟨⟨_, e⟩, by rw [e]; simp⟩
  have one : ∀ {o : Opt} {v : Option Word}, o.kind ≠ .help → v.all (conv o) = true → perform conv [(o, v)] = .ok () := by
    intro o v h1 h2
    rw [perform, if_neg h1, if_pos h2, perform]
  induction hw with
  | nil =>
    refine fun _ => ⟨[], fun t => ?_, fun st => ?_⟩
    · cases h : classifyAll os t <;> simp [h]
    · cases h : consumeS conv os flags none st <;> simp [h, Except.map]
  | @switch n ws ps _ ih =>
    intro h
    obtain ⟨pre, e1, e2⟩ := ih fun q hq => h q (by simp [hq])
    obtain ⟨h1, h2, h3, h4⟩ := h (n, none) (by simp)
    obtain ⟨⟨r, hr⟩, hn⟩ := first h1
    refine ⟨(n, .option (opt n) none) :: pre, fun t => ?_, fun st => ?_⟩
    · rw [List.cons_append, classifyAll, if_neg hn, classify_named hr h1, e1]; cases classifyAll os t <;> rfl
    · rw [List.cons_append, consumeS]
      simp only [expand]
      rw [if_pos (by simpa using h3), List.nil_append, one h2 h4, e2]; cases consumeS conv os flags none st <;> rfl
  | @two n v ws ps h6 _ ih =>
    intro h
    obtain ⟨pre, e1, e2⟩ := ih fun q hq => h q (by simp [hq])
    obtain ⟨h1, h2, h3, h4⟩ := h (n, some v) (by simp)
    obtain ⟨⟨r, hr⟩, hn⟩ := first h1
    have h7 : v ≠ ['-', '-'] ∧ classify os v = some .word := h6.elim (fun h => ⟨h.ne, classify_plain hd h⟩) (classify_negative hos)
    refine ⟨(n, .option (opt n) none) :: (v, .word) :: pre, fun t => ?_, fun st => ?_⟩
    · rw [List.cons_append, List.cons_append, classifyAll, if_neg hn, classify_named hr h1, classifyAll, if_neg h7.1, h7.2, e1]
      cases classifyAll os t <;> rfl
    · rw [List.cons_append, List.cons_append, consumeS]
      simp only [expand]
      rw [if_neg (by simpa using h3), consumeS, List.nil_append, one h2 h4, e2]; cases consumeS conv os flags none st <;> rfl
  | @one n v ws ps _ ih =>
    intro h
    obtain ⟨pre, e1, e2⟩ := ih fun q hq => h q (by simp [hq])
    obtain ⟨h1, h2, h3, h4⟩ := h (n, some v) (by simp)
    obtain ⟨⟨r, hr⟩, hn⟩ := first h1
    have he : '=' ∉ n := ordinaryName_eq (hos _ (named_mem h1))
    refine ⟨(n ++ '=' :: v, .option (opt n) (some v)) :: pre, fun t => ?_, fun st => ?_⟩
    · rw [List.cons_append, classifyAll, if_neg (ne_dashes n v), classify_attached hr he h1 (named_attached hos n v), e1]
      cases classifyAll os t <;> rfl
    · have h3' : ¬ isSwitch flags (opt n) = true := by simpa using h3
      have hx : expand os flags (n ++ '=' :: v) (opt n) (some v) = some ([(opt n, some v)], none) := by
        simp only [expand]
        rw [if_neg h3', ite_eq_left_iff]
        intro _
        cases v with
        | nil => rw [letters, if_neg h3']
        | cons c t => rw [letters, if_neg h3']
      rw [List.cons_append, consumeS, hx]
      simp only
      rw [one h2 h4, e2]; cases consumeS conv os flags none st <;> rfl

/-- **C138, nothing is ignored.** An argument that neither belongs to an option nor names one, after documented ones, stops the program, whatever
follows. -/
theorem C138_leftover (hd : named os ['-'] = none) (hos : ∀ p ∈ allNames os, ordinaryName p.1 = true) (hg : goodNames os = true) (opt : Word → Opt)
    {ws : List Word} {ps : List (Word × Option Word)} (hw : Line ws ps)
    (h : ∀ p ∈ ps, named os p.1 = some (opt p.1) ∧ (opt p.1).kind ≠ .help ∧ isSwitch flags (opt p.1) = p.2.isNone ∧
      p.2.all (conv (opt p.1)) = true) {v : Word} (hv : Plain v ∨ Negative v) (rest : List Word) (a : Acts) :
    parseS conv os flags (ws ++ v :: rest) ≠ .ok a := by
  obtain ⟨pre, e1, e2⟩ := line_before (flags := flags) hd hos hg opt hw h
  have h7 : v ≠ ['-', '-'] ∧ classify os v = some .word := hv.elim (fun h => ⟨h.ne, classify_plain hd h⟩) (classify_negative hos)
  intro hp
  unfold parseS at hp
  rw [e1, classifyAll, if_neg h7.1, h7.2] at hp
  cases hc : classifyAll os rest with
  | none => rw [hc] at hp; cases hp
  | some st =>
    rw [hc] at hp
    change (consumeS conv os flags none (pre ++ (v, .word) :: st) >>= fun r => _) = _ at hp
    rw [e2, consumeS] at hp
    · cases hs : consumeS conv os flags none st with
      | error e => rw [hs] at hp; cases hp
      | ok r =>
        rw [hs] at hp
        change (if _ then _ else _) = _ at hp
        rw [if_pos (by simp)] at hp
        cases hp
    · intro o att; simp

/-- **C138, help.** A documented command line with a request for help anywhere shows the help, and does nothing else, whatever is missing. -/
theorem C138_help (hd : named os ['-'] = none) (hos : ∀ p ∈ allNames os, ordinaryName p.1 = true) (hg : goodNames os = true) (opt : Word → Opt)
    {ws ws' : List Word} {ps ps' : List (Word × Option Word)} (hw : Line ws ps) (hw' : Line ws' ps')
    (h : ∀ p ∈ ps ++ ps', named os p.1 = some (opt p.1) ∧ (opt p.1).kind ≠ .help ∧ isSwitch flags (opt p.1) = p.2.isNone ∧
      p.2.all (conv (opt p.1)) = true) {n : Word} {o : Opt} (hn : named os n = some o) (ho : o.kind = .help) :
    parseS conv os flags (ws ++ n :: ws') = .error .help := by
  obtain ⟨slots', e1, -⟩ := line_read (flags := flags) hd hos hg opt hw' fun p hp => h p (List.mem_append_right _ hp)
  have hf : (∃ r, n = '-' :: r) ∧ n ≠ ['-', '-'] := by
    rcases goodNames_cases hg (named_mem hn) with ⟨c, e, hc⟩ | ⟨c, t, e⟩ <;> simp only at e
    · exact ⟨⟨_, e⟩, by rw [e]; simpa using hc⟩
    · exact ⟨⟨_, e⟩, by rw [e]; simp⟩
  obtain ⟨⟨r, hr⟩, hne⟩ := hf
  obtain ⟨pre, e2, e3⟩ := line_before (conv := conv) (flags := flags) hd hos hg opt hw fun p hp => h p (List.mem_append_left _ hp)
  have hs : consumeS conv os flags none ((n, .option o none) :: slots') = .error .help := by
    rw [consumeS]
    simp only [expand]
    rw [if_pos (by simp [isSwitch, ho]), List.nil_append, perform, if_pos ho]; rfl
  unfold parseS
  rw [e2, classifyAll, if_neg hne, classify_named hr hn, e1]
  change (consumeS conv os flags none (pre ++ (n, .option o none) :: slots') >>= fun r => _) = _
  rw [e3, hs]
  rfl

theorem valueS_map (opt : Word → Opt) {dest : String} {names : List Word} {ps : List (Word × Option Word)}
    (h : ∀ p ∈ ps, (opt p.1).dest = dest ↔ p.1 ∈ names) : valueS (ps.map fun p => (opt p.1, p.2)) dest = lastValue names ps := by
  unfold valueS lastValue
  rw [← List.map_reverse, List.find?_map]
  have : List.find? ((fun p : Opt × Option Word => p.1.dest == dest) ∘ fun p : Word × Option Word => (opt p.1, p.2)) ps.reverse =
      List.find? (fun p : Word × Option Word => decide (p.1 ∈ names)) ps.reverse := by
    have hrev : ∀ p ∈ ps.reverse, (opt p.1).dest = dest ↔ p.1 ∈ names := fun p hp => h p (List.mem_reverse.1 hp)
    generalize ps.reverse = qs at hrev
    induction qs with
    | nil => rfl
    | cons q qs ih =>
      rw [List.find?_cons, List.find?_cons, ih fun p hp => hrev p (by simp [hp])]
      have : ((fun p : Opt × Option Word => p.1.dest == dest) ∘ fun p : Word × Option Word => (opt p.1, p.2)) q = decide (q.1 ∈ names) := by
        simp only [Function.comp]
        rw [Bool.eq_iff_iff, beq_iff_eq, decide_eq_true_iff]
        exact hrev q (by simp)
      rw [this]
  rw [this]
  cases List.find? (fun p : Word × Option Word => decide (p.1 ∈ names)) ps.reverse <;> rfl

theorem switched_map (opt : Word → Opt) {dest : String} {names : List Word} {ps : List (Word × Option Word)}
    (h : ∀ p ∈ ps, (opt p.1).dest = dest ↔ p.1 ∈ names) : switched (ps.map fun p => (opt p.1, p.2)) dest = isGiven names ps := by
  unfold switched isGiven
  rw [List.any_map, Bool.eq_iff_iff, List.any_eq_true, List.any_eq_true]
  constructor
  · rintro ⟨p, hp, e⟩
    exact ⟨p, hp, decide_eq_true ((h p hp).1 (by simpa using e))⟩
  · rintro ⟨p, hp, e⟩
    exact ⟨p, hp, by simpa using (h p hp).2 (by simpa using e)⟩

end

/-- Switches and options with values of a program are given by their names. -/
def Uses (switches options : List Word) (ps : List (Word × Option Word)) : Prop :=
  ∀ p ∈ ps, (p.2 = none ∧ p.1 ∈ switches) ∨ (p.2 ≠ none ∧ p.1 ∈ options)

/-- The option with this name. -/
def optOf (os : List Opt) (n : Word) : Opt := (named os n).getD helpOpt

theorem uses_opt {os : List Opt} {flags : List String} {conv : Opt → Word → Bool} {sw op : List Word} {ps : List (Word × Option Word)}
    (hu : Uses sw op ps) (hs : ∀ n ∈ sw, (named os n).isSome = true ∧ (optOf os n).kind ≠ .help ∧ isSwitch flags (optOf os n) = true)
    (ho : ∀ n ∈ op, (named os n).isSome = true ∧ (optOf os n).kind ≠ .help ∧ isSwitch flags (optOf os n) = false)
    (hc : ∀ p ∈ ps, p.2.all (conv (optOf os p.1)) = true) :
    ∀ p ∈ ps, named os p.1 = some (optOf os p.1) ∧ (optOf os p.1).kind ≠ .help ∧ isSwitch flags (optOf os p.1) = p.2.isNone ∧
      p.2.all (conv (optOf os p.1)) = true := by
  intro p hp
  have get : (named os p.1).isSome = true → named os p.1 = some (optOf os p.1) := by
    intro h
    obtain ⟨o, e⟩ := Option.isSome_iff_exists.1 h
    unfold optOf
    rw [e]; rfl
  rcases hu p hp with ⟨e, hm⟩ | ⟨e, hm⟩
  · obtain ⟨a, b, c⟩ := hs _ hm
    exact ⟨get a, b, by rw [c, e]; rfl, hc p hp⟩
  · obtain ⟨a, b, c⟩ := ho _ hm
    refine ⟨get a, b, ?_, hc p hp⟩
    rw [c]
    cases h : p.2 with
    | none => exact absurd h e
    | some v => rfl

/-- Names of the switches and options of the three programs. -/
def yesNames : List Word := ["-y".toList, "--yes".toList]
def outputNames : List Word := ["-o".toList, "--output".toList]

/-- **C138, cosipy-setup.** From any command line: an existing file changes only if an argument asks for overwriting or the user agrees to it at the
prompt, and only the four configuration files of the target directory change. -/
theorem C138_consent (norm : String → String) (depth : Nat) (sample cwd : String) (argv : List Word) (fs : Setup.Files) (answers : List String)
    {r : Setup.State × M Unit} (h : setupMain norm depth sample cwd argv fs answers = .ok r) {d b : String} (hc : r.1.fs d b ≠ fs d b) :
    b ∈ ["config.toml", "constants.toml", "slurm_config.toml", "utilities_config.toml"] ∧
    (fs d b = none ∨ (∃ w ∈ argv, Asks yesNames w) ∨
      ∃ a, (b, a) ∈ r.1.log ∧ Setup.Yes norm a ∧ ∀ a', (b, a') ∈ r.1.log → ¬ Setup.No norm a') := by
  unfold setupMain at h
  obtain ⟨a, h1, h⟩ := consumeS_mem.bind_ok' h
  cases h
  obtain ⟨_, h2, _⟩ := C52_consent norm depth sample cwd ((valueS a "output_path").map String.ofList) (switched a "overwrite") fs answers _ rfl
  obtain ⟨_, h4, h5⟩ := h2 d b hc
  refine ⟨h4, h5.imp id (Or.imp (fun hs => ?_) id)⟩
  unfold switched at hs
  obtain ⟨p, hp, e⟩ := List.any_eq_true.1 hs
  rw [beq_iff_eq] at e
  obtain ⟨ho, hw⟩ := C138_switch (by decide +kernel) h1 (show (p.1, p.2) ∈ a from hp) (by unfold isSwitch setupFlags; rw [e]; simp)
  have : ∀ o ∈ setupOpts, o.dest = "overwrite" → o.names = yesNames := by decide +kernel
  rw [this _ ho e] at hw
  exact hw

/-- **C138, cosipy-setup as documented.** -/
theorem C138_setup (norm : String → String) (depth : Nat) (sample cwd : String) (fs : Setup.Files) (answers : List String) {ws : List Word}
    {ps : List (Word × Option Word)} (hw : Line ws ps) (hu : Uses yesNames outputNames ps) :
    setupMain norm depth sample cwd ws fs answers =
      .ok (Setup.main norm depth sample cwd ((lastValue outputNames ps).map String.ofList) (isGiven yesNames ps) fs answers) := by
  have h := uses_opt (os := setupOpts) (flags := setupFlags) (conv := fun _ _ => true) hu (by decide +kernel) (by decide +kernel)
    (fun p _ => by cases p.2 <;> rfl)
  have nr : ∀ o ∈ setupOpts, o.required = false := by decide +kernel
  have hp := C138_line (conv := fun _ _ => true) (os := setupOpts) (flags := setupFlags) (by decide +kernel) (by decide +kernel) (by decide +kernel)
    (optOf setupOpts) hw h (fun o ho hr => by rw [nr o ho] at hr; cases hr)
  have names : ∀ p ∈ ps, p.1 ∈ yesNames ++ outputNames := fun p hp => by
    rcases hu p hp with ⟨_, h⟩ | ⟨_, h⟩ <;> simp [h]
  have d1 : ∀ n ∈ yesNames ++ outputNames, (optOf setupOpts n).dest = "output_path" ↔ n ∈ outputNames := by decide +kernel
  have d2 : ∀ n ∈ yesNames ++ outputNames, (optOf setupOpts n).dest = "overwrite" ↔ n ∈ yesNames := by decide +kernel
  unfold setupMain
  rw [hp, ← valueS_map (optOf setupOpts) fun p hp => d1 _ (names p hp), ← switched_map (optOf setupOpts) fun p hp => d2 _ (names p hp)]
  rfl

/-- **C138, cosipy-plot-field as documented.** File, date, variable and type are the last ones given, the switches are set if they are given, the type is
1 unless given. Together with C137 this says what is drawn for a command line. -/
theorem C138_field (toInt : Word → Option Int) (moment : Word → Maps.When) {ws : List Word} {ps : List (Word × Option Word)} (hw : Line ws ps)
    (hu : Uses ["-m".toList, "--mean".toList, "-s".toList, "--save".toList]
      ["-i".toList, "--input".toList, "-d".toList, "--date".toList, "-v".toList, "--var".toList, "-t".toList, "--type".toList] ps)
    {file date : Word} (hi : lastValue ["-i".toList, "--input".toList] ps = some file) (hd : lastValue ["-d".toList, "--date".toList] ps = some date)
    (ht : ∀ p ∈ ps, p.1 ∈ ["-t".toList, "--type".toList] → ∀ v, p.2 = some v → toInt v = some 1 ∨ toInt v = some 2) :
    fieldArgs toInt moment ws = .ok (file, ⟨date, moment date, isGiven ["-m".toList, "--mean".toList] ps, isGiven ["-s".toList, "--save".toList] ps,
      (lastValue ["-v".toList, "--var".toList] ps).map String.ofList,
      match lastValue ["-t".toList, "--type".toList] ps with
      | none => 1
      | some v => if toInt v = some 2 then 2 else 1⟩) := by
  have names : ∀ p ∈ ps, p.1 ∈ ["-m".toList, "--mean".toList, "-s".toList, "--save".toList] ++
      ["-i".toList, "--input".toList, "-d".toList, "--date".toList, "-v".toList, "--var".toList, "-t".toList, "--type".toList] := fun p hp => by
    rcases hu p hp with ⟨_, h⟩ | ⟨_, h⟩
    · exact List.mem_append_left _ h
    · exact List.mem_append_right _ h
  have knum : ∀ n ∈ ["-m".toList, "--mean".toList, "-s".toList, "--save".toList] ++
      ["-i".toList, "--input".toList, "-d".toList, "--date".toList, "-v".toList, "--var".toList, "-t".toList, "--type".toList],
      (optOf fieldOpts n).kind = .number → n ∈ ["-t".toList, "--type".toList] := by decide +kernel
  have hconv : ∀ p ∈ ps, p.2.all (isType toInt (optOf fieldOpts p.1)) = true := by
    intro p hp
    cases hv : p.2 with
    | none => rfl
    | some v =>
      show isType toInt (optOf fieldOpts p.1) v = true
      unfold isType
      split
      · rename_i hk
        rcases ht p hp (knum _ (names p hp) hk) v hv with h | h <;> rw [h] <;> rfl
      · rfl
  have h := uses_opt (os := fieldOpts) (flags := fieldFlags) (conv := isType toInt) hu (by decide +kernel) (by decide +kernel) hconv
  have mem_of : ∀ {nm : List Word} {v : Word}, lastValue nm ps = some v → ∃ p ∈ ps, p.1 ∈ nm ∧ p.2 = some v := by
    intro nm v e
    unfold lastValue at e
    rw [Option.bind_eq_some_iff] at e
    obtain ⟨p, h1, h2⟩ := e
    exact ⟨p, List.mem_reverse.1 (List.mem_of_find?_eq_some h1), by simpa using List.find?_some h1, h2⟩
  have req : ∀ o ∈ fieldOpts, o.required = true → (∀ n ∈ ["-i".toList, "--input".toList], optOf fieldOpts n = o) ∨
      ∀ n ∈ ["-d".toList, "--date".toList], optOf fieldOpts n = o := by decide +kernel
  have hp := C138_line (conv := isType toInt) (os := fieldOpts) (flags := fieldFlags) (by decide +kernel) (by decide +kernel) (by decide +kernel)
    (optOf fieldOpts) hw h (fun o ho hr => by
      rcases req o ho hr with h | h
      · obtain ⟨p, hp, hn, _⟩ := mem_of hi; exact ⟨p, hp, h _ hn⟩
      · obtain ⟨p, hp, hn, _⟩ := mem_of hd; exact ⟨p, hp, h _ hn⟩)
  have dests : ∀ n ∈ ["-m".toList, "--mean".toList, "-s".toList, "--save".toList] ++
      ["-i".toList, "--input".toList, "-d".toList, "--date".toList, "-v".toList, "--var".toList, "-t".toList, "--type".toList],
      ((optOf fieldOpts n).dest = "file" ↔ n ∈ ["-i".toList, "--input".toList]) ∧ ((optOf fieldOpts n).dest = "pdate" ↔ n ∈ ["-d".toList, "--date".toList]) ∧
      ((optOf fieldOpts n).dest = "mean" ↔ n ∈ ["-m".toList, "--mean".toList]) ∧ ((optOf fieldOpts n).dest = "save" ↔ n ∈ ["-s".toList, "--save".toList]) ∧
      ((optOf fieldOpts n).dest = "variable" ↔ n ∈ ["-v".toList, "--var".toList]) ∧
      ((optOf fieldOpts n).dest = "plot_type" ↔ n ∈ ["-t".toList, "--type".toList]) := by decide +kernel
  have e1 := valueS_map (optOf fieldOpts) fun p hp => (dests _ (names p hp)).1
  have e2 := valueS_map (optOf fieldOpts) fun p hp => (dests _ (names p hp)).2.1
  have e3 := switched_map (optOf fieldOpts) fun p hp => (dests _ (names p hp)).2.2.1
  have e4 := switched_map (optOf fieldOpts) fun p hp => (dests _ (names p hp)).2.2.2.1
  have e5 := valueS_map (optOf fieldOpts) fun p hp => (dests _ (names p hp)).2.2.2.2.1
  have e6 := valueS_map (optOf fieldOpts) fun p hp => (dests _ (names p hp)).2.2.2.2.2
  have hty : (((lastValue ["-t".toList, "--type".toList] ps).bind toInt).getD 1).toNat =
      match lastValue ["-t".toList, "--type".toList] ps with
      | none => 1
      | some v => if toInt v = some 2 then 2 else 1 := by
    cases hl : lastValue ["-t".toList, "--type".toList] ps with
    | none => rfl
    | some v =>
      obtain ⟨p, hp, hn, hv⟩ := mem_of hl
      rcases ht p hp hn v hv with h | h <;> simp [h]
  unfold fieldArgs
  rw [hp]
  show Except.ok _ = _
  rw [e1, e2, e3, e4, e5, e6, hi, hd, hty]
  rfl

/-- **C138, cosipy-plot-vtk as documented.** The same for the program that draws the surface. -/
theorem C138_vtk {ws : List Word} {ps : List (Word × Option Word)} (hw : Line ws ps)
    (hu : Uses ["-m".toList, "--mean".toList, "-g".toList, "--gltf".toList]
      ["-i".toList, "--input".toList, "-n".toList, "--name".toList, "-t".toList, "--time".toList] ps)
    {file time : Word} (hi : lastValue ["-i".toList, "--input".toList] ps = some file) (ht : lastValue ["-t".toList, "--time".toList] ps = some time) :
    vtkArgs ws = .ok (file, lastValue ["-n".toList, "--name".toList] ps, time, isGiven ["-m".toList, "--mean".toList] ps,
      isGiven ["-g".toList, "--gltf".toList] ps) := by
  have names : ∀ p ∈ ps, p.1 ∈ ["-m".toList, "--mean".toList, "-g".toList, "--gltf".toList] ++
      ["-i".toList, "--input".toList, "-n".toList, "--name".toList, "-t".toList, "--time".toList] := fun p hp => by
    rcases hu p hp with ⟨_, h⟩ | ⟨_, h⟩
    · exact List.mem_append_left _ h
    · exact List.mem_append_right _ h
  have h := uses_opt (os := vtkOpts) (flags := vtkFlags) (conv := fun _ _ => true) hu (by decide +kernel) (by decide +kernel)
    (fun p _ => by cases p.2 <;> rfl)
  have mem_of : ∀ {nm : List Word} {v : Word}, lastValue nm ps = some v → ∃ p ∈ ps, p.1 ∈ nm := by
    intro nm v e
    unfold lastValue at e
    rw [Option.bind_eq_some_iff] at e
    obtain ⟨p, h1, h2⟩ := e
    exact ⟨p, List.mem_reverse.1 (List.mem_of_find?_eq_some h1), by simpa using List.find?_some h1⟩
  have req : ∀ o ∈ vtkOpts, o.required = true → (∀ n ∈ ["-i".toList, "--input".toList], optOf vtkOpts n = o) ∨
      ∀ n ∈ ["-t".toList, "--time".toList], optOf vtkOpts n = o := by decide +kernel
  have hp := C138_line (conv := fun _ _ => true) (os := vtkOpts) (flags := vtkFlags) (by decide +kernel) (by decide +kernel) (by decide +kernel)
    (optOf vtkOpts) hw h (fun o ho hr => by
      rcases req o ho hr with h | h
      · obtain ⟨p, hp, hn⟩ := mem_of hi; exact ⟨p, hp, h _ hn⟩
      · obtain ⟨p, hp, hn⟩ := mem_of ht; exact ⟨p, hp, h _ hn⟩)
  have dests : ∀ n ∈ ["-m".toList, "--mean".toList, "-g".toList, "--gltf".toList] ++
      ["-i".toList, "--input".toList, "-n".toList, "--name".toList, "-t".toList, "--time".toList],
      ((optOf vtkOpts n).dest = "input_file" ↔ n ∈ ["-i".toList, "--input".toList]) ∧ ((optOf vtkOpts n).dest = "name" ↔ n ∈ ["-n".toList, "--name".toList]) ∧
      ((optOf vtkOpts n).dest = "timestamp" ↔ n ∈ ["-t".toList, "--time".toList]) ∧ ((optOf vtkOpts n).dest = "mean" ↔ n ∈ ["-m".toList, "--mean".toList]) ∧
      ((optOf vtkOpts n).dest = "gltf" ↔ n ∈ ["-g".toList, "--gltf".toList]) := by decide +kernel
  have e1 := valueS_map (optOf vtkOpts) fun p hp => (dests _ (names p hp)).1
  have e2 := valueS_map (optOf vtkOpts) fun p hp => (dests _ (names p hp)).2.1
  have e3 := valueS_map (optOf vtkOpts) fun p hp => (dests _ (names p hp)).2.2.1
  have e4 := switched_map (optOf vtkOpts) fun p hp => (dests _ (names p hp)).2.2.2.1
  have e5 := switched_map (optOf vtkOpts) fun p hp => (dests _ (names p hp)).2.2.2.2
  unfold vtkArgs
  rw [hp]
  show Except.ok _ = _
  rw [e1, e2, e3, e4, e5, hi, ht]
  rfl

/-- **C138, required options of the two programs.** Without a file, or without a date or time, nothing is drawn. -/
theorem C138_needed (toInt : Word → Option Int) (moment : Word → Maps.When) {ws : List Word} {ps : List (Word × Option Word)} (hw : Line ws ps) :
    (Uses ["-m".toList, "--mean".toList, "-s".toList, "--save".toList]
        ["-i".toList, "--input".toList, "-d".toList, "--date".toList, "-v".toList, "--var".toList] ps →
      (isGiven ["-i".toList, "--input".toList] ps = false ∨ isGiven ["-d".toList, "--date".toList] ps = false) →
      fieldArgs toInt moment ws = .error .usage) ∧
    (Uses ["-m".toList, "--mean".toList, "-g".toList, "--gltf".toList]
        ["-i".toList, "--input".toList, "-n".toList, "--name".toList, "-t".toList, "--time".toList] ps →
      (isGiven ["-i".toList, "--input".toList] ps = false ∨ isGiven ["-t".toList, "--time".toList] ps = false) →
      vtkArgs ws = .error .usage) := by
  have no : ∀ {ns : List Word}, isGiven ns ps = false → ∀ p ∈ ps, p.1 ∉ ns := by
    intro ns e p hp
    unfold isGiven at e
    rw [List.any_eq_false] at e
    simpa using e p hp
  have pick : ∀ (os : List Opt) (a b : List Word), (∃ o ∈ os, o.required = true ∧ o.names = a) → (∃ o ∈ os, o.required = true ∧ o.names = b) →
      (isGiven a ps = false ∨ isGiven b ps = false) → ∃ o ∈ os, o.required = true ∧ ∀ p ∈ ps, p.1 ∉ o.names := by
    rintro os a b ⟨o, h1, h2, rfl⟩ ⟨o', h3, h4, rfl⟩ (h | h)
    · exact ⟨o, h1, h2, no h⟩
    · exact ⟨o', h3, h4, no h⟩
  constructor
  · intro hu hm
    obtain ⟨o, h1, h2, h3⟩ := pick fieldOpts _ _ (by decide +kernel) (by decide +kernel) hm
    have names : ∀ n ∈ ["-m".toList, "--mean".toList, "-s".toList, "--save".toList] ++
        ["-i".toList, "--input".toList, "-d".toList, "--date".toList, "-v".toList, "--var".toList], (optOf fieldOpts n).kind = .store := by decide +kernel
    have h := uses_opt (os := fieldOpts) (flags := fieldFlags) (conv := isType toInt) hu (by decide +kernel) (by decide +kernel) (fun p hp => by
      have : (optOf fieldOpts p.1).kind = .store := names _ (by
        rcases hu p hp with ⟨_, h⟩ | ⟨_, h⟩
        · exact List.mem_append_left _ h
        · exact List.mem_append_right _ h)
      cases p.2 with
      | none => rfl
      | some v => show isType toInt _ _ = true; unfold isType; rw [this])
    unfold fieldArgs
    rw [C138_missing (by decide +kernel) (by decide +kernel) (by decide +kernel) (optOf fieldOpts) hw h h1 h2 h3]
    rfl
  · intro hu hm
    obtain ⟨o, h1, h2, h3⟩ := pick vtkOpts _ _ (by decide +kernel) (by decide +kernel) hm
    have h := uses_opt (os := vtkOpts) (flags := vtkFlags) (conv := fun _ _ => true) hu (by decide +kernel) (by decide +kernel)
      (fun p _ => by cases p.2 <;> rfl)
    unfold vtkArgs
    rw [C138_missing (by decide +kernel) (by decide +kernel) (by decide +kernel) (optOf vtkOpts) hw h h1 h2 h3]
    rfl

/-- **C138, refuted.** cosipy-plot-vtk documents its variable as required, but every command line with a file and a time is accepted without it. -/
theorem C138_vtk_refuted {file time : Word} (hf : Plain file) (ht : Plain time) :
    vtkArgs ["-i".toList, file, "-t".toList, time] = .ok (file, none, time, false, false) := by
  have hw : Line ["-i".toList, file, "-t".toList, time] [("-i".toList, some file), ("-t".toList, some time)] := .two (.inl hf) (.two (.inl ht) .nil)
  refine C138_vtk hw (fun p hp => ?_) rfl rfl
  rcases List.mem_cons.1 hp with rfl | hp
  · exact .inr ⟨by simp, by simp⟩
  · rw [List.mem_singleton] at hp; subst hp; exact .inr ⟨by simp, by simp⟩

/-- **C138, help of cosipy-setup.** With `-h` or `--help` among the documented arguments nothing is copied and nothing is asked. -/
theorem C138_setup_help (norm : String → String) (depth : Nat) (sample cwd : String) (fs : Setup.Files) (answers : List String) {ws ws' : List Word}
    {ps ps' : List (Word × Option Word)} (hw : Line ws ps) (hw' : Line ws' ps') (hu : Uses yesNames outputNames (ps ++ ps')) {n : Word}
    (hn : n ∈ ["-h".toList, "--help".toList]) : setupMain norm depth sample cwd (ws ++ n :: ws') fs answers = .error .help := by
  have key : ∀ n ∈ ["-h".toList, "--help".toList], named setupOpts n = some helpOpt := by decide +kernel
  have hp := C138_help (conv := fun _ _ => true) (os := setupOpts) (flags := setupFlags) (by decide +kernel) (by decide +kernel) (by decide +kernel)
    (optOf setupOpts) hw hw' (uses_opt (os := setupOpts) (flags := setupFlags) (conv := fun _ _ => true) hu (by decide +kernel)
      (by decide +kernel) (fun p _ => by cases p.2 <;> rfl)) (key n hn) rfl
  unfold setupMain
  rw [hp]
  rfl

/-! ## Examples -/

/-- `cosipy-setup`: `-y` with another option behind one dash, abbreviated, and as part of a value; an unknown letter and a value for a switch are
rejected. -/
example : (parseS (fun _ _ => true) setupOpts setupFlags ["-yo".toList, "dir".toList]).toOption.map (fun a => (switched a "overwrite", valueS a "output_path")) =
      some (true, some "dir".toList) ∧
    (parseS (fun _ _ => true) setupOpts setupFlags ["--y".toList]).toOption.map (fun a => switched a "overwrite") = some true ∧
    (parseS (fun _ _ => true) setupOpts setupFlags ["-oy".toList]).toOption.map (fun a => (switched a "overwrite", valueS a "output_path")) =
      some (false, some "y".toList) ∧
    (parseS (fun _ _ => true) setupOpts setupFlags ["--yes=no".toList]).toOption = none ∧
    (parseS (fun _ _ => true) setupOpts setupFlags ["-yz".toList]).toOption = none ∧
    (parseS (fun _ _ => true) setupOpts setupFlags ["-y".toList, "-h".toList]).toOption = none ∧ goodNames setupOpts = true := by decide +kernel

/-- `C138_consent`: with `-y` an existing file is replaced without a question; without it the run asks, and an empty answer keeps the file. -/
example : (setupMain id 10 "src" "cwd" ["-y".toList] (fun _ _ => some "old") []).toOption.map (fun r => r.1.log) = some [] ∧
    (setupMain id 10 "src" "cwd" [] (fun d _ => some d) ["", "y", "n", ""]).toOption.map
      (fun r => ["config.toml", "constants.toml", "slurm_config.toml"].map (r.1.fs "cwd")) = some [some "cwd", some "src", some "cwd"] := by
  decide +kernel

/-- `C138_leftover`: a stray argument, in front, behind or between, and an unknown letter are rejected. -/
example : [["dir"], ["-y", "dir"], ["-o", "a", "b", "-y"], ["-z"], ["--", "-y"]].all (fun argv =>
      (parseS (fun _ _ => true) setupOpts setupFlags (argv.map String.toList)) matches .error .usage) = true ∧ Plain "dir".toList := by
  decide +kernel

/-- `C138_help`: help is shown for the three commands, also without required options, and also for `-yh`; not for a value `-h`. -/
example : setupMain id 10 "src" "cwd" ["-y".toList, "-h".toList] (fun _ _ => some "old") [] matches .error .help ∧
    setupMain id 10 "src" "cwd" ["-yh".toList] (fun _ _ => some "old") [] matches .error .help ∧
    setupMain id 10 "src" "cwd" ["-o".toList, "-h".toList] (fun _ _ => some "old") [] matches .error .usage ∧
    parseS (fun _ _ => true) vtkOpts vtkFlags ["--help".toList] matches .error .help ∧
    parseS (fun _ _ => true) fieldOpts fieldFlags ["-h".toList] matches .error .help ∧
    Uses yesNames outputNames [("-y".toList, none), ("-o".toList, some "dir".toList)] := by
  refine ⟨by decide +kernel, by decide +kernel, by decide +kernel, by decide +kernel, by decide +kernel, fun p hp => ?_⟩
  rcases List.mem_cons.1 hp with rfl | hp
  · exact .inl ⟨rfl, by decide +kernel⟩
  · rw [List.mem_singleton] at hp; subst hp; exact .inr ⟨by simp, by decide +kernel⟩

/-- `C138_line`, `C138_setup`, `C138_field`, `C138_vtk`: hypotheses. -/
example : Line ["-m".toList, "-i".toList, "a.nc".toList, "--date=2009-01-01".toList]
      [("-m".toList, none), ("-i".toList, some "a.nc".toList), ("--date".toList, some "2009-01-01".toList)] ∧
    lastValue ["-i".toList, "--input".toList] [("-m".toList, none), ("-i".toList, some "a.nc".toList), ("--date".toList, some "2009-01-01".toList)] =
      some "a.nc".toList :=
  ⟨.switch (.two (.inl (by decide +kernel)) (.one (n := "--date".toList) .nil)), by decide +kernel⟩

/-- cosipy-plot-field: switches and an option behind one dash, attached values; without a date, or with another type, it does not run. -/
example : let toInt : Word → Option Int := fun v => if v = "2".toList then some 2 else if v = "3".toList then some 3 else none
    let run := fun (argv : List String) => (fieldArgs toInt (fun _ => .date 0) (argv.map String.toList)).toOption.map fun r =>
      (r.1, r.2.date, r.2.mean, r.2.save, r.2.plotType)
    (vtkArgs ["-mi".toList, "a.nc".toList]).toOption = none ∧ run ["-msi", "a.nc", "-d2009", "-t=2"] = some ("a.nc".toList, "2009".toList, true, true, 2) ∧ run ["-i", "a.nc"] = none ∧
      run ["-i", "a.nc", "-d", "2009", "-t", "3"] = none ∧ goodNames fieldOpts = true ∧ goodNames vtkOpts = true := by decide +kernel

end Cosipy.Cli
