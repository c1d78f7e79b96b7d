import Verif.Model.FieldPlot
import Verif.Lemmas.Basic
import Verif.Lemmas.Shading
import Verif.Props.C92
import Verif.Props.C130

/-!
# C137 The installed commands start, and the map program draws what it is asked for

`C137_shown`: a drawn figure has one panel with the requested variable, or the twelve of the chosen type each in its place; every panel has
the title, unit and values of its variable, at the requested time. `C137_drawn`: a variable over time and space is drawn for every
record; `C137_run`: after a run with the shipped output lists the figure with several panels is drawn for every record.
`C137_static_refuted`: mask, slope and aspect are in every result file but can never be drawn. `C137_start_partial`: the installed commands call functions that exist;
`C137_profile_refuted`: except `cosipy-plot-profile`, which can never start. `C137_listed`: what `cosipy-shortcuts` prints.
-/

set_option autoImplicit false
set_option linter.unusedSectionVars false

namespace Cosipy.Maps

/-! ## Specification -/

/-- The figure with several panels: contours are type 1. -/
def figureOf (plotType : Nat) : List (List String) :=
  if plotType = 1 then
    [["H", "LE", "B"],
     ["SNOWHEIGHT", "surfM", "TS"],
     ["G", "LWin", "LWout"],
     ["MB", "surfMB", "Q"]]
  else
    [["H", "LE", "B"],
     ["SNOWHEIGHT", "surfM", "TS"],
     ["G", "Q", "LWout"],
     ["surfMB", "MB", "REFREEZE"]]

/-- A time is meant by the argument: it is that time, or one of that day. -/
def Meant : When → Int → Prop
  | .time q, t => t = q
  | .date d, t => t / 86400 * 86400 = d

section
variable {K : Type} [Field K] [LinearOrder K] [IsStrictOrderedRing K]

/-- The variable is the elevation of the ground. -/
def IsElevation (l : Label) : Prop := l.longName.toList.map Char.toLower = ['e', 'l', 'e', 'v', 'a', 't', 'i', 'o', 'n']

instance (l : Label) : Decidable (IsElevation l) := by unfold IsElevation; infer_instance

/-- The panel shows the variable. -/
structure Shows (title : String → String) (times : List Int) (v : Var (Option K)) (w : When) (mean : Bool) (p : Panel K) : Prop where
  title : p.title = title v.label.longName
  unit : p.unit = v.label.units
  elevation : IsElevation v.label → ∀ y x, p.field y x = v.data.val 0 y x 0
  record : ¬ IsElevation v.label → mean = false → ∃ k t, times[k]? = some t ∧ Meant w t ∧
    (∀ j s, times[j]? = some s → Meant w s → j = k) ∧ ∀ y x, p.field y x = v.data.val k y x 0
  /-- Before noon; see `C92_mean_refuted` for the afternoon. -/
  mean : ¬ IsElevation v.label → mean = true → ∀ d s a b : Int, (w = .time (d * 86400 + s) ∨ w = .date (d * 86400 + s)) → 0 ≤ s → s < 43200 →
    times.head? = some a →
    times.getLast? = some b → a / 86400 ≤ d → d * 86400 ≤ b → ∀ y x,
      p.field y x = meanSkipNan (ofDay (cellSeries times v.data y x) (d * 86400))

/-! ## Proofs -/

theorem selects_iff {w : When} {t : Int} : w.selects t = true ↔ Meant w t := by
  cases w <;> simp [When.selects, Meant, dayOf]

theorem recordAt_ok {times : List Int} {w : When} {k : Nat} (h : recordAt times w = .ok k) :
    ∃ t, times[k]? = some t ∧ Meant w t ∧ ∀ j s, times[j]? = some s → Meant w s → j = k := by
  unfold recordAt at h
  split at h
  · next k' hf =>
    cases h
    have hm : ∀ j, j ∈ [k] ↔ j < times.length ∧ (times[j]?).any w.selects = true := by
      intro j
      rw [← hf, List.mem_filter, List.mem_range]
    obtain ⟨h1, h2⟩ := (hm k).1 (List.mem_singleton.2 rfl)
    rw [List.getElem?_eq_getElem h1] at h2 ⊢
    refine ⟨_, rfl, selects_iff.1 (by simpa using h2), fun j s hj hs => ?_⟩
    have hl : j < times.length := (List.getElem?_eq_some_iff.1 hj).1
    exact List.mem_singleton.1 ((hm j).2 ⟨hl, by rw [hj]; simpa using selects_iff.2 hs⟩)
  · cases h

theorem recordAt_time {times : List Int} (hn : times.Nodup) {t : Int} (ht : t ∈ times) : ∃ k, recordAt times (.time t) = .ok k := by
  obtain ⟨k, hk, e⟩ := List.mem_iff_getElem.1 ht
  refine ⟨k, ?_⟩
  unfold recordAt
  have hf : ((List.range times.length).filter fun k => (times[k]?).any (When.time t).selects) = [k] := by
    have hnd : ((List.range times.length).filter fun k => (times[k]?).any (When.time t).selects).Nodup :=
      List.nodup_range.filter _
    have hm : ∀ j, j ∈ (List.range times.length).filter (fun k => (times[k]?).any (When.time t).selects) ↔ j = k := by
      intro j
      rw [List.mem_filter, List.mem_range]
      constructor
      · rintro ⟨h1, h2⟩
        rw [List.getElem?_eq_getElem h1] at h2
        have : times[j] = t := by simpa [When.selects] using h2
        exact (List.Nodup.getElem_inj_iff hn).1 (this.trans e.symm)
      · rintro rfl
        refine ⟨hk, ?_⟩
        rw [List.getElem?_eq_getElem hk]
        simpa [When.selects] using e
    exact List.perm_singleton.1 ((List.perm_ext_iff_of_nodup hnd (List.nodup_singleton k)).2 fun j => by rw [hm j, List.mem_singleton])
  rw [hf]

theorem cellSeries_ends {times : List Int} (v : Arr (Option K)) (y x : Nat) {a b : Int} (ha : times.head? = some a)
    (hb : times.getLast? = some b) : ∃ p q, (cellSeries times v y x).head? = some (a, p) ∧
      (cellSeries times v y x).getLast? = some (b, q) := by
  unfold cellSeries
  have hne : times ≠ [] := by rintro rfl; cases ha
  have hl : 0 < times.length := List.length_pos_iff.2 hne
  rw [List.head?_eq_getElem?] at ha
  rw [List.getLast?_eq_getElem?] at hb
  refine ⟨v.val 0 y x 0, v.val (times.length - 1) y x 0, ?_, ?_⟩
  · rw [List.head?_eq_getElem?, List.getElem?_map, List.getElem?_range hl, Option.map_some, ha]
    rfl
  · rw [List.getLast?_eq_getElem?, List.getElem?_map, List.length_map, List.length_range, List.getElem?_range (by omega), Option.map_some, hb]
    rfl

variable {title : String → String} {times : List Int} {ds : Store (Var (Option K))} {w : When} {mean : Bool} {dims : List (String × Nat)}

theorem plotAxes_shows {v : Var (Option K)} {p : Panel K} (h : plotAxes title times v w mean = .ok p) : Shows title times v w mean p := by
  unfold plotAxes at h
  obtain ⟨field, h1, h⟩ := bind_eq_ok.1 h
  split_ifs at h
  cases h
  unfold axesField at h1
  have he : lower v.label.longName = "elevation".toList ↔ IsElevation v.label := Iff.rfl
  by_cases hE : IsElevation v.label
  · rw [if_pos (he.2 hE)] at h1
    split_ifs at h1
    cases h1
    exact ⟨rfl, rfl, fun _ _ _ => rfl, fun h => absurd hE h, fun h => absurd hE h⟩
  · rw [if_neg (fun h => hE (he.1 h))] at h1
    unfold selection at h1
    split_ifs at h1 with ht hm hemp
    · cases h1
      refine ⟨rfl, rfl, fun h => absurd h hE, fun _ h => absurd (hm.symm.trans h) (by decide), ?_⟩
      intro _ _ d s a b hw h0 hn ha hb h2 h3 y x
      obtain ⟨p, q, e1, e2⟩ := cellSeries_ends v.data y x ha hb
      have := C92_mean_partial e1 e2 (d := d) h0 hn (by unfold dayOf; dsimp only; omega) h3
      have hw' : w.instant = d * 86400 + s := by rcases hw with rfl | rfl <;> rfl
      dsimp only
      rw [hw', this]
      rfl
    · obtain ⟨k, hk, h1⟩ := bind_eq_ok.1 h1
      cases h1
      obtain ⟨t, e1, e2, e3⟩ := recordAt_ok hk
      exact ⟨rfl, rfl, fun h => absurd h hE, fun _ _ => ⟨k, t, e1, e2, e3, fun _ _ => rfl⟩, fun _ h => absurd h hm⟩

theorem panel_shows {n : String} {p : Panel K} (h : panel title times ds w mean n = .ok p) :
    ∃ v, ds n = some v ∧ Shows title times v w mean p := by
  unfold panel at h
  cases hd : ds n with
  | none => rw [hd] at h; cases h
  | some v =>
    rw [hd] at h
    obtain ⟨_, -, h⟩ := bind_eq_ok.1 h
    exact ⟨v, rfl, plotAxes_shows h⟩

theorem layout_eq (n : Nat) : (if (n == 1) = true then contourRows else meshRows) = figureOf n := by
  unfold figureOf
  by_cases h : n = 1
  · subst h; rfl
  · rw [if_neg (by simpa using h), if_neg h]; rfl

/-- **C137, figures.** Whatever is drawn, of any file: with a variable given one panel that shows it, otherwise the figure of the chosen
type with every variable in its place. A file is written exactly if asked for, under the name for the argument, the variable and the type. -/
theorem C137_shown {a : PlotArgs} {ps : List (List (Panel K))} {file : Option (List Char)}
    (h : plotField title dims times ds a = .ok (ps, file)) :
    (∀ n, a.var = some n → ∃ v p, ds n = some v ∧ ps = [[p]] ∧ Shows title times v a.moment a.mean p) ∧
    (a.var = none → List.Forall₂ (List.Forall₂ fun n p => ∃ v, ds n = some v ∧ Shows title times v a.moment a.mean p)
      (figureOf a.plotType) ps) ∧
    file = (if a.save then some (imageName a.date (a.var.map String.toList) (if a.plotType = 1 then "contour".toList else "mesh".toList))
      else none) := by
  unfold plotField at h
  obtain ⟨_, -, h⟩ := bind_eq_ok.1 h
  obtain ⟨ps', h1, h⟩ := bind_eq_ok.1 h
  cases h
  rw [layout_eq] at h1
  unfold plotData at h1
  refine ⟨fun n hn => ?_, fun hn => ?_, ?_⟩
  · rw [hn] at h1
    obtain ⟨p, hp, h1⟩ := bind_eq_ok.1 h1
    cases h1
    obtain ⟨v, hv, hs⟩ := panel_shows hp
    exact ⟨v, p, hv, rfl, hs⟩
  · rw [hn] at h1
    dsimp only at h1
    split_ifs at h1
    rw [mapM_eq_ok_iff] at h1
    refine h1.imp fun row prow hrow => ?_
    rw [mapM_eq_ok_iff] at hrow
    exact hrow.imp fun n p hp => panel_shows hp
  · simp only [beq_iff_eq]

/-- A variable over time and space can be drawn. -/
theorem panel_drawn {n : String} {v hgt : Var (Option K)} (hv : ds n = some v) (hh : ds "HGT" = some hgt) (ht : v.data.time.isSome = true)
    (hE : ¬ IsElevation v.label) (hl : v.data.layer = none) (hn : times.Nodup) {t : Int} (hmem : t ∈ times) :
    ∃ p, panel title times ds (.time t) false n = .ok p := by
  obtain ⟨k, hk⟩ := recordAt_time hn hmem
  refine ⟨⟨title v.label.longName, v.label.units, fun y x => v.data.val k y x 0⟩, ?_⟩
  have h1 : selection times v.data (.time t) false = .ok fun y x => v.data.val k y x 0 := by
    unfold selection
    rw [if_neg (by cases hd : v.data.time <;> simp_all), if_neg (by decide), hk]
    rfl
  unfold panel plotAxes axesField Store.get
  rw [hv, hh]
  dsimp only
  rw [ok_bind, if_neg (show ¬ lower v.label.longName = "elevation".toList from hE), h1, ok_bind, hl]
  rfl

/-- **C137, single variables.** In every distributed result file with an elevation, every variable over time and space is drawn for every
record, in both types. -/
theorem C137_drawn {a : PlotArgs} {n : String} {v hgt : Var (Option K)} (hd : check2d dims = .ok ()) (hv : ds n = some v)
    (hh : ds "HGT" = some hgt) (ht : v.data.time.isSome = true) (hE : ¬ IsElevation v.label) (hl : v.data.layer = none)
    (hn : times.Nodup) {t : Int} (hmem : t ∈ times) (ha : a.var = some n) (hw : a.moment = .time t) (hm : a.mean = false) :
    ∃ r, plotField title dims times ds a = .ok r := by
  obtain ⟨p, hp⟩ := panel_drawn (title := title) hv hh ht hE hl hn hmem
  unfold plotField plotData
  rw [hd, ha, hw, hm, ok_bind]
  dsimp only
  rw [hp]
  exact ⟨_, rfl⟩

theorem written_shape {β : Type} {attrs : Store (Arr β)} : ∀ {ws : List (Bool × String)} {d d' : Store (Var β)},
    ws.foldlM (fun r p => writeLabelled attrs p.1 p.2 r) d = .ok d' → ∀ p ∈ ws, ∃ a, attrs p.2 = some a ∧ a.time.isSome = true ∧
      a.layer.isSome = p.1 := by
  intro ws
  induction ws with
  | nil => intro _ _ _ p hp; cases hp
  | cons q ws ih =>
    intro d d' h p hp
    rw [List.foldlM_cons] at h
    obtain ⟨d1, h1, h2⟩ := bind_eq_ok.1 h
    rcases List.mem_cons.1 hp with rfl | hp
    · unfold writeLabelled at h1
      obtain ⟨a, ha, h1⟩ := bind_eq_ok.1 h1
      obtain ⟨l, -, h1⟩ := bind_eq_ok.1 h1
      unfold addVar at h1
      split_ifs at h1 with hc
      exact ⟨a, Store.get_eq_ok.1 ha, hc.1, hc.2⟩
    · exact ih h2 p hp

theorem copyInput_shape {β : Type} {ht : Bool} {data : Store (Arr β)} : ∀ {tab : Dict Label} {d d' : Store (Var β)},
    copyInput ht data tab d = .ok d' → ∀ p ∈ tab, ∀ a, data p.1 = some a → a.time.isSome = ht ∧ a.layer.isSome = false := by
  intro tab
  induction tab with
  | nil => intro _ _ _ p hp; cases hp
  | cons q tab ih =>
    intro d d' h p hp a ha
    unfold copyInput at h
    rw [List.foldlM_cons] at h
    obtain ⟨d1, h1, h2⟩ := bind_eq_ok.1 h
    rcases List.mem_cons.1 hp with rfl | hp
    · rw [ha] at h1
      dsimp only at h1
      unfold addVar at h1
      split_ifs at h1 with hc
      exact hc
    · exact ih h2 p hp a ha

/-- **C137, after a run.** With the shipped output lists, and radiation and elevation in the input, the figure with several panels is drawn for
every record of the result file, in both types. -/
theorem C137_run {γ : Type} {text : CfgVal → String} {nan : Option K} {cfg consts : Store CfgVal} {coords : Store γ}
    {data : Store (Arr (Option K))} {r : ResultFile (Option K) γ} (h0 : initResult text nan cfg consts coords data = .ok r)
    {io : IOState (Option K)} (h : writeResultsLabelled io r.vars = .ok ds)
    (hatm : io.atm = (outputVariables defaultAtm.toList).filter fun n => !inputNames.contains n)
    (hint : io.internal = outputVariables defaultInternal.toList) (hg : data "G" ≠ none) (hh : data "HGT" ≠ none)
    (hd : check2d dims = .ok ()) (hn : times.Nodup) {t : Int} (hmem : t ∈ times) {a : PlotArgs} (ha : a.var = none)
    (hw : a.moment = .time t) (hm : a.mean = false) :
    ∃ res, plotField title dims times ds a = .ok res := by
  have hG : ∀ a, data "G" = some a → a.time.isSome = true ∧ a.layer.isSome = false := by
    have h1 := h0
    unfold initResult at h1
    simp only [bind_eq_ok, pure_eq_ok] at h1
    obtain ⟨cs, _, a, _, d1, -, d2, h2, -⟩ := h1
    intro a ha
    exact copyInput_shape h2 ("G", ⟨"W m⁻²", "Incoming shortwave radiation"⟩) (by decide +kernel) a ha
  have hf := C92_fields h0 h hatm hint hg hh
  rw [C85.writeResultsLabelled_eq] at h
  have hws := written_shape h
  obtain ⟨hgt, hH, -⟩ := hf "HGT" (List.mem_cons_self ..)
  have hlab : ∀ p ∈ resultLabels, p.1 ≠ "HGT" → ¬ IsElevation p.2 := by decide +kernel
  have hlabG : ∀ l, (seriesLabels.lookup "G").or (spatialLabels.lookup "G") = some l → ¬ IsElevation l := by
    intro l hl
    have : (seriesLabels.lookup "G").or (spatialLabels.lookup "G") = some ⟨"W m⁻²", "Incoming shortwave radiation"⟩ := rfl
    rw [this] at hl
    cases hl
    decide +kernel
  have key : ∀ n ∈ stampMesh ++ stampContour, n ≠ "HGT" ∧ (n = "G" ∨
      n ∈ (outputVariables defaultAtm.toList).filter (fun n => !inputNames.contains n) ∨
      n ∈ outputVariables defaultInternal.toList) := by decide +kernel
  have hpanel : ∀ n ∈ stampMesh ++ stampContour, ∃ p, panel title times ds (.time t) false n = .ok p := by
    intro n hmn
    obtain ⟨v, hv, -⟩ := hf n (List.mem_cons_of_mem _ hmn)
    obtain ⟨w1, w2⟩ := C85.written_value h n
    obtain ⟨hne, hk⟩ := key n hmn
    by_cases hw : n ∈ (C85.written io).map Prod.snd
    · obtain ⟨a', l, ha', hl, hv'⟩ := w1 hw
      have hmem' : (false, n) ∈ C85.written io ∨ n = "G" := by
        rcases hk with h | h | h
        · exact Or.inr h
        · exact Or.inl (List.mem_append_left _ (List.mem_map.2 ⟨n, List.mem_append_left _ (hatm ▸ h), rfl⟩))
        · exact Or.inl (List.mem_append_left _ (List.mem_map.2 ⟨n, List.mem_append_right _ (hint ▸ h), rfl⟩))
      rw [hv] at hv'
      cases hv'
      rcases hmem' with hmem' | rfl
      · obtain ⟨a2, e1, e2, e3⟩ := hws _ hmem'
        rw [ha'] at e1
        cases e1
        exact panel_drawn hv hH e2 (hlab _ (mem_of_lookup hl) hne) (by simpa using e3) hn hmem
      · exfalso
        unfold C85.written at hw
        rw [List.map_append, List.mem_append, List.map_map] at hw
        rcases hw with hw | hw
        · obtain ⟨m, hm1, hm2⟩ := List.mem_map.1 hw
          have : m = "G" := hm2
          subst this
          rw [List.mem_append, hatm, hint] at hm1
          revert hm1
          decide +kernel
        · cases hff : io.fullField with
          | false => rw [hff] at hw; cases hw
          | true =>
            rw [hff] at hw
            simp only [if_true, List.map_map, List.mem_map] at hw
            obtain ⟨m, -, e⟩ := hw
            have e2 : ("LAYER_" ++ m).toList = ("G" : String).toList := congrArg String.toList e
            rw [String.toList_append] at e2
            have := congrArg List.length e2
            rw [List.length_append] at this
            have h6 : "LAYER_".toList.length = 6 := by decide +kernel
            have h1 : ("G" : String).toList.length = 1 := by decide +kernel
            omega
    · have hnG : n = "G" := by
        rcases hk with h | h | h
        · exact h
        · refine absurd ?_ hw
          unfold C85.written
          rw [List.map_append, List.mem_append, List.map_map]
          exact Or.inl (List.mem_map.2 ⟨n, List.mem_append_left _ (hatm ▸ h), rfl⟩)
        · refine absurd ?_ hw
          unfold C85.written
          rw [List.map_append, List.mem_append, List.map_map]
          exact Or.inl (List.mem_map.2 ⟨n, List.mem_append_right _ (hint ▸ h), rfl⟩)
      subst hnG
      rw [w2 hw] at hv
      have hv2 := hv
      rcases C85.initResult_vars h0 "G" with ⟨h1, -⟩ | ⟨-, e⟩
      · rcases h1 with h1 | h1 <;> exact absurd h1 (by decide)
      · rw [e] at hv
        cases hdG : data "G" with
        | none => exact absurd hdG hg
        | some aG =>
          rw [hdG] at hv
          obtain ⟨g1, g2⟩ := hG aG hdG
          have hvv : v = ⟨aG, ⟨"W m⁻²", "Incoming shortwave radiation"⟩⟩ := (Option.some.inj hv).symm
          subst hvv
          exact panel_drawn (by rw [w2 hw]; exact hv2) hH g1 (hlabG _ rfl) (by simpa using g2) hn hmem
  have hall : ∀ rows : List (List String), (∀ row ∈ rows, ∀ n ∈ row, n ∈ stampMesh ++ stampContour) →
      ∃ ps, rows.mapM (fun row => row.mapM (panel title times ds (.time t) false)) = .ok ps := by
    intro rows hr
    rw [mapM_ok_iff]
    intro row hrow
    rw [mapM_ok_iff]
    exact fun n hn => hpanel n (hr row hrow n hn)
  have hrows : ∀ b : Bool, ∀ row ∈ (if b = true then contourRows else meshRows), ∀ n ∈ row, n ∈ stampMesh ++ stampContour := by
    decide +kernel
  obtain ⟨ps, hps⟩ := hall _ (hrows (a.plotType == 1))
  unfold plotField plotData
  rw [hd, ha, hw, hm, ok_bind]
  dsimp only
  rw [if_neg, hps]
  · exact ⟨_, rfl⟩
  · cases (a.plotType == 1) <;> decide

/-- **C137, refuted: static fields.** The glacier mask, the slope and the aspect are in the result file with their labels, but asking for
one of them always fails, whatever time is given, as does any other variable without time. Variables of layers cannot be drawn either. -/
theorem C137_static_refuted {a : PlotArgs} {n : String} {v : Var (Option K)} (ha : a.var = some n) (hv : ds n = some v)
    (hs : (v.data.time = none ∧ ((n, v.label) ∈ spatialLabels.tail ∨ ¬ IsElevation v.label)) ∨ v.data.layer.isSome = true) :
    ∃ e, plotField title dims times ds a = .error e := by
  cases hr : plotField title dims times ds a with
  | error e => exact ⟨e, rfl⟩
  | ok r =>
    exfalso
    unfold plotField at hr
    obtain ⟨_, -, hr⟩ := bind_eq_ok.1 hr
    obtain ⟨ps, h1, -⟩ := bind_eq_ok.1 hr
    unfold plotData at h1
    rw [ha] at h1
    obtain ⟨p, hp, -⟩ := bind_eq_ok.1 h1
    unfold panel at hp
    rw [hv] at hp
    obtain ⟨_, -, hp⟩ := bind_eq_ok.1 hp
    unfold plotAxes at hp
    obtain ⟨f, hf, hp⟩ := bind_eq_ok.1 hp
    split_ifs at hp with hl
    rcases hs with ⟨ht, hs⟩ | hs
    · have hE : ¬ IsElevation v.label := by
        rcases hs with hs | hs
        · have : ∀ p ∈ spatialLabels.tail, ¬ IsElevation p.2 := by decide +kernel
          exact this _ hs
        · exact hs
      unfold axesField at hf
      rw [if_neg (show ¬ lower v.label.longName = "elevation".toList from hE)] at hf
      unfold selection at hf
      rw [ht] at hf
      cases hf
    · exact hl hs

end

/-- A file with two records, elevation, slope, surface temperature and a layer variable. -/
def exDs : Store (Var (Option ℚ)) := fun n =>
  if n = "HGT" then some ⟨⟨none, 2, 2, none, fun _ y x _ => some (5000 + 10 * y + x)⟩, ⟨"m", "Elevation"⟩⟩
  else if n = "SLOPE" then some ⟨⟨none, 2, 2, none, fun _ _ _ _ => some 20⟩, ⟨"degrees", "Terrain slope"⟩⟩
  else if n = "TS" then some ⟨⟨some 2, 2, 2, none, fun t y x _ => if y = 1 ∧ x = 1 then none else some (270 + t)⟩, ⟨"K", "Surface temperature"⟩⟩
  else none

/-- `-d 2009-01-01T01:00 -v TS -t 2 --save`. -/
def exArgs : PlotArgs := ⟨"2009-01-01T01:00".toList, .time 3600, false, true, some "TS", 2⟩

/-- What those arguments draw. -/
def exDrawn : Option (List (List (Panel ℚ)) × Option (List Char)) :=
  (plotField id [("lat", 2), ("lon", 2), ("time", 2)] [0, 3600] exDs exArgs).toOption

/-- `C137_shown`, `C137_drawn`: the second record; outside the glacier nothing is drawn. -/
example : exDrawn.map (fun r => r.1.map fun row => row.map fun p => [p.title, p.unit]) = some [[["Surface temperature", "K"]]] ∧
    exDrawn.map (fun r => r.1.map fun row => row.map fun p => [p.field 0 1, p.field 1 1]) = some [[[some 271, none]]] ∧
    exDrawn.bind (fun r => r.2) = some "20090101T0100_TS_mesh.png".toList := by decide +kernel

/-- `C137_drawn`, `C137_run`, `C137_static_refuted`: hypotheses. -/
example : check2d [("lat", 2), ("lon", 2), ("time", 2)] = .ok () ∧ [(0 : Int), 3600].Nodup ∧
    ("SLOPE", (⟨"degrees", "Terrain slope"⟩ : Label)) ∈ spatialLabels.tail := by decide +kernel

/-- The elevation is drawn, the slope is not, nor is a whole day without `--mean`. -/
example : (plotField id [("lat", 2), ("lon", 2)] [0, 3600] exDs ⟨[], .date 0, false, false, some "HGT", 1⟩).toOption.map
      (fun r => r.1.map fun row => row.map fun p => p.field 1 0) = some [[some 5010]] ∧
    (plotField id [("lat", 2), ("lon", 2)] [0, 3600] exDs ⟨[], .time 0, false, false, some "SLOPE", 1⟩).toOption.isNone = true ∧
    (plotField id [("lat", 2), ("lon", 2)] [0, 3600] exDs ⟨[], .date 0, false, false, some "TS", 1⟩).toOption.isNone = true ∧
    (plotField id [("lat", 2), ("lon", 2)] [0, 3600] exDs ⟨[], .date 0, true, false, some "TS", 1⟩).toOption.map
      (fun r => r.1.map fun row => row.map fun p => p.field 1 0) = some [[some (541/2)]] := by decide +kernel

/-- `C137_run`: an input with radiation and elevation, default output; both figures are drawn. -/
example : (((initResult C85.exText none C85.exCfg C85.exConsts (fun _ => some ()) (fun n => (exInput n).map fun a =>
      (⟨a.time, a.ny, a.nx, a.layer, fun t y x l => some (a.val t y x l : ℚ)⟩ : Arr (Option ℚ)))).bind fun f =>
      writeResultsLabelled ⟨(outputVariables defaultAtm.toList).filter fun n => !inputNames.contains n,
        outputVariables defaultInternal.toList, [], false, 5, 2, 2, 2,
        fun _ => some ⟨some 2, 2, 2, none, fun _ _ _ _ => some 7⟩, fun _ => none, fun _ => none⟩ f.vars).toOption.map fun d =>
      [1, 2].map fun k => (plotField id [("lat", 2), ("lon", 2)] [0, 3600] d ⟨[], .time 0, false, false, none, k⟩).toOption.map
        fun r => r.1.map fun row => row.length) = some [some [3, 3, 3, 3], some [3, 3, 3, 3]] := by
  decide +kernel

/-! ## Commands -/

/-- **C137, commands (partial).** Full statement: every installed command starts. Proved for all but `cosipy-plot-profile`, see
`C137_profile_refuted`. These are the installed commands of C130. -/
theorem C137_start_partial : commandTable.map Prod.fst = Cli.entryPoints ∧
    ∀ n ∈ Cli.entryPoints, n ≠ "cosipy-plot-profile" → startCommand n = .ok () := by
  decide +kernel

/-- **C137, refuted.** The installed command `cosipy-plot-profile` names a function `main` that its module does not have. -/
theorem C137_profile_refuted : "cosipy-plot-profile" ∈ Cli.entryPoints ∧ startCommand "cosipy-plot-profile" = .error .attribute ∧
    "main" ∉ moduleNames "cosipy.postprocessing.profile_plots.plot_profiles" := by
  decide +kernel

/-- **C137, list of commands.** `cosipy-shortcuts` prints a command of any package if and only if its name contains `cosipy` or begins with
`COSIPY`; hence all commands of this package. -/
theorem C137_listed (name : List Char) :
    (isListed name = true ↔ (∃ a b, name = a ++ "cosipy".toList ++ b) ∨ ∃ b, name = "COSIPY".toList ++ b) ∧
      ∀ n ∈ Cli.entryPoints, isListed n.toList = true := by
  refine ⟨?_, by decide +kernel⟩
  unfold isListed
  rw [Bool.or_eq_true, Bool.or_eq_true, List.isPrefixOf_iff_prefix, List.isPrefixOf_iff_prefix, List.any_eq_true]
  constructor
  · rintro ((⟨b, e⟩ | ⟨b, e⟩) | ⟨k, -, hk⟩)
    · exact Or.inr ⟨b, e.symm⟩
    · exact Or.inl ⟨[], b, by rw [List.nil_append]; exact e.symm⟩
    · rw [List.isPrefixOf_iff_prefix] at hk
      obtain ⟨b, e⟩ := hk
      refine Or.inl ⟨name.take k, b, ?_⟩
      rw [List.append_assoc, e, List.take_append_drop]
  · rintro (⟨a, b, rfl⟩ | ⟨b, rfl⟩)
    · refine Or.inr ⟨a.length, by rw [List.mem_range]; simp only [List.length_append]; omega, ?_⟩
      rw [List.isPrefixOf_iff_prefix, List.append_assoc, List.drop_left]
      exact ⟨b, rfl⟩
    · exact Or.inl (Or.inl ⟨b, rfl⟩)

end Cosipy.Maps
