import Verif.Model.Result
import Verif.Props.C61
import Verif.Spec.Output
import Verif.Lemmas.Collect
import Mathlib.Tactic.LinearCombination
import Mathlib.Tactic.Ring

/-!
# C85: the result file describes itself

Global attributes say with which settings the file was computed, and every variable carries units and a description.
-/

set_option autoImplicit false
set_option linter.unusedSectionVars false

namespace Cosipy
namespace C85
open Util

/-! ## Settings -/

/-- The keys of a file. -/
def keys (c : Toml) : List String := c.keyPairs.map Prod.snd

/-- Constants that leave no trace in the result file. -/
def lostConstants : List String :=
  ["thermal_conductivity_method", "sfc_temperature_method", "zlt1", "zlt2", "t_star_wet", "t_star_dry", "t_star_K",
   "t_star_cutoff"]

/-- Settings of the configuration that leave a trace. -/
def keptConfig : List String :=
  ["restart", "stake_evaluation", "WRF", "compression_level", "slurm_use", "full_field", "force_use_TP", "force_use_N",
   "tile"]

theorem attrs_fold {text : CfgVal → String} {cfg consts : Store CfgVal} :
    ∀ {tab : List (String × AttrSource)} {a0 a : Store CfgVal},
    tab.foldlM (fun a e => do
      let v ← e.2.value text cfg consts
      return a.set e.1 v) a0 = (.ok a : M _) → ∀ {n : String} {src : AttrSource}, (∀ e ∈ tab, e.1 = n → e.2 = src) →
    (n ∈ tab.map Prod.fst → ∃ v, src.value text cfg consts = .ok v ∧ a n = some v) ∧
    (n ∉ tab.map Prod.fst → a n = a0 n) := by
  intro tab
  induction tab with
  | nil =>
    intro a0 a h n src _
    rw [List.foldlM_nil, pure_eq_ok] at h
    subst h
    exact ⟨fun h => absurd h (by simp), fun _ => rfl⟩
  | cons e tab ih =>
    intro a0 a h n src hs
    rw [List.foldlM_cons] at h
    simp only [bind_eq_ok, pure_eq_ok] at h
    obtain ⟨a1, ⟨v, hv, rfl⟩, h⟩ := h
    obtain ⟨i1, i2⟩ := ih h (n := n) (src := src) fun e he => hs e (List.mem_cons_of_mem _ he)
    by_cases hn : n ∈ tab.map Prod.fst
    · exact ⟨fun _ => i1 hn, fun hc => absurd (List.mem_cons_of_mem _ hn) hc⟩
    · have := i2 hn
      constructor
      · intro hc
        rcases List.mem_cons.1 hc with hc | hc
        · refine ⟨v, ?_, ?_⟩
          · rw [← hs e List.mem_cons_self hc.symm]; exact hv
          · rw [this, hc]; exact if_pos rfl
        · exact absurd hc hn
      · intro hc
        rw [this]
        exact if_neg fun he => hc (by rw [he]; exact List.mem_cons_self)

/-- The attribute `n` is only ever written from `src`. -/
def Written (n : String) (src : AttrSource) : Prop :=
  n ∈ attrTable.map Prod.fst ∧ ∀ e ∈ attrTable, e.1 = n → e.2 = src

instance (n : String) (src : AttrSource) : Decidable (Written n src) := by unfold Written; infer_instance

theorem attr_value {text : CfgVal → String} {cfg consts a : Store CfgVal} (h : resultAttrs text cfg consts = .ok a)
    {n : String} {src : AttrSource} (hw : Written n src) : ∃ v, src.value text cfg consts = .ok v ∧ a n = some v :=
  (attrs_fold h hw.2).1 hw.1

theorem attrs_ok {text : CfgVal → String} {cfg consts : Store CfgVal} :
    ∀ {tab : List (String × AttrSource)} (a0 : Store CfgVal),
    (∀ e ∈ tab, ∃ v, e.2.value text cfg consts = .ok v) →
    ∃ a, tab.foldlM (fun a e => do
      let v ← e.2.value text cfg consts
      return a.set e.1 v) a0 = (.ok a : M _) := by
  intro tab
  induction tab with
  | nil => intro a0 _; exact ⟨a0, rfl⟩
  | cons e tab ih =>
    intro a0 h
    obtain ⟨v, hv⟩ := h e List.mem_cons_self
    obtain ⟨a, ha⟩ := ih (a0.set e.1 v) fun e he => h e (List.mem_cons_of_mem _ he)
    exact ⟨a, by rw [List.foldlM_cons, hv]; exact ha⟩

/-- Is the source among the given settings? -/
def fromKeys (cfg consts : List String) : AttrSource → Bool
  | .cfgText k => cfg.contains k
  | .cfg k => cfg.contains k
  | .const k => consts.contains k

/-- **C85.** With configuration and constants files that have the shipped keys (any values) the attributes of the result
file can be written. -/
theorem C85_attributes {c k : Toml} (h : c.Follows shippedConfig) (hk : k.Follows shippedConstants)
    (cls cls' : Store CfgVal) (text : CfgVal → String) : ∃ s z a, configLoad cls c = .ok s ∧
      constantsLoad s cls' k = .ok z ∧ resultAttrs text s z = .ok a := by
  obtain ⟨s, z, hs, hz, hd⟩ := C61_constants h hk cls cls'
  obtain ⟨s', hs', hc⟩ := C61_config h cls
  rw [hs, ok_inj] at hs'
  subst hs'
  obtain ⟨a, ha⟩ := attrs_ok (text := text) (cfg := s) (consts := z) (tab := attrTable) (fun _ => none) (by
    have key : ∀ e ∈ attrTable, fromKeys Util.configAttributes (keys shippedConstants) e.2 = true := by decide +kernel
    intro e he
    have := key e he
    cases hsrc : e.2 with
    | cfgText k =>
      rw [hsrc] at this
      obtain ⟨v, hv⟩ := hc k (List.contains_iff_mem.1 this)
      exact ⟨.str (text v), by
        show (s.get k >>= fun v => pure (CfgVal.str (text v))) = _
        rw [Store.get_eq_ok.2 hv]
        rfl⟩
    | cfg k =>
      rw [hsrc] at this
      obtain ⟨v, hv⟩ := hc k (List.contains_iff_mem.1 this)
      exact ⟨v, Store.get_eq_ok.2 hv⟩
    | const k =>
      rw [hsrc] at this
      obtain ⟨p, hp, rfl⟩ := List.mem_map.1 (List.contains_iff_mem.1 this)
      obtain ⟨v, hv⟩ := hd p hp
      exact ⟨v, Store.get_eq_ok.2 hv⟩)
  exact ⟨s, z, a, hs, hz, ha⟩

/-- **C85, settings.** Full statement: files with the same attributes were computed with the same constants and the same
switches. Proved for all constants of the shipped file but `lostConstants` and for the switches `keptConfig` (where the
attribute is a text, for truth values). Missing: the others, for which it is false. -/
theorem C85_settings_partial {text : CfgVal → String} (htext : text (.bool true) ≠ text (.bool false))
    {cfg cfg' consts consts' a a' : Store CfgVal} (h : resultAttrs text cfg consts = .ok a)
    (h' : resultAttrs text cfg' consts' = .ok a') (he : ∀ n, a n = a' n) :
    (∀ k ∈ keys shippedConstants, k ∉ lostConstants → consts k = consts' k) ∧
    (∀ k ∈ keptConfig, ∀ b b', cfg k = some (.bool b) → cfg' k = some (.bool b') → b = b') ∧
    cfg "compression_level" = cfg' "compression_level" := by
  have getOf : ∀ {s : Store CfgVal} {k : String} {v : CfgVal}, s.get k = .ok v → s k = some v :=
    fun h => Store.get_eq_ok.1 h
  refine ⟨fun k hk hl => ?_, fun k hk b b' hb hb' => ?_, ?_⟩
  · have tab : ∀ k ∈ keys shippedConstants, k ∉ lostConstants →
        ∃ e ∈ attrTable, Written e.1 (.const k) := by decide +kernel
    obtain ⟨e, _, hw⟩ := tab k hk hl
    obtain ⟨v, hv, hav⟩ := attr_value h hw
    obtain ⟨v', hv', hav'⟩ := attr_value h' hw
    have : v = v' := by
      have := he e.1
      rw [hav, hav'] at this
      exact Option.some.inj this
    subst this
    rw [getOf hv, getOf hv']
  · have tab : ∀ k ∈ keptConfig, ∃ e ∈ attrTable, Written e.1 (.cfgText k) ∨ Written e.1 (.cfg k) := by decide +kernel
    obtain ⟨e, _, hw⟩ := tab k hk
    have e1 := he e.1
    rcases hw with hw | hw
    · obtain ⟨v, hv, hav⟩ := attr_value h hw
      obtain ⟨v', hv', hav'⟩ := attr_value h' hw
      unfold AttrSource.value at hv hv'
      simp only [bind_eq_ok, pure_eq_ok, Store.get_eq_ok] at hv hv'
      obtain ⟨w, hw1, rfl⟩ := hv
      obtain ⟨w', hw2, rfl⟩ := hv'
      rw [hb] at hw1
      rw [hb'] at hw2
      cases hw1
      cases hw2
      rw [hav, hav'] at e1
      have e2 : text (.bool b) = text (.bool b') := by
        have := Option.some.inj e1
        injection this
      cases b <;> cases b' <;> first | rfl | exact absurd e2.symm htext | exact absurd e2 htext
    · obtain ⟨v, hv, hav⟩ := attr_value h hw
      obtain ⟨v', hv', hav'⟩ := attr_value h' hw
      have hv := getOf hv
      have hv' := getOf hv'
      rw [hb] at hv
      rw [hb'] at hv'
      cases hv
      cases hv'
      rw [hav, hav'] at e1
      have := Option.some.inj e1
      injection this
  · have hw : Written "Compression_level" (.cfg "compression_level") := by decide +kernel
    obtain ⟨v, hv, hav⟩ := attr_value h hw
    obtain ⟨v', hv', hav'⟩ := attr_value h' hw
    have := he "Compression_level"
    rw [hav, hav'] at this
    cases this
    rw [getOf hv, getOf hv']

theorem attrs_congr {text : CfgVal → String} {cfg cfg' consts consts' : Store CfgVal} :
    ∀ {tab : List (String × AttrSource)} (a : Store CfgVal),
    (∀ e ∈ tab, e.2.value text cfg consts = e.2.value text cfg' consts') →
    tab.foldlM (fun a e => do
      let v ← e.2.value text cfg consts
      return a.set e.1 v) a = (tab.foldlM (fun a e => do
      let v ← e.2.value text cfg' consts'
      return a.set e.1 v) a : M _) := by
  intro tab
  induction tab with
  | nil => intro a _; rfl
  | cons e tab ih =>
    intro a h
    rw [List.foldlM_cons, List.foldlM_cons, h e List.mem_cons_self]
    cases e.2.value text cfg' consts' with
    | error err => rfl
    | ok v => exact ih (a.set e.1 v) fun e he => h e (List.mem_cons_of_mem _ he)

/-- Constants and settings that leave no trace: whatever their value, the attributes are the same. Among them are the
method of the surface temperature, the thermal conductivity, the depths of the bottom heat flux, the ageing of albedo,
and of the configuration the period, the input file and the bounds of the tile. -/
theorem C85_lost (text : CfgVal → String) (cfg consts : Store CfgVal) (v : CfgVal) :
    (∀ k ∈ lostConstants, resultAttrs text cfg (consts.set k v) = resultAttrs text cfg consts) ∧
    (∀ k, k ∉ keptConfig → resultAttrs text (cfg.set k v) consts = resultAttrs text cfg consts) := by
  constructor
  · intro k hk
    refine attrs_congr _ fun e he => ?_
    have tab : ∀ e ∈ attrTable, ∀ k ∈ lostConstants, e.2 ≠ .const k := by decide +kernel
    have := tab e he k hk
    cases hs : e.2 with
    | cfgText j => rfl
    | cfg j => rfl
    | const j =>
      rw [hs] at this
      unfold AttrSource.value Store.get Store.set
      dsimp only
      rw [if_neg fun hj => this (by rw [hj])]
  · intro k hk
    refine attrs_congr _ fun e he => ?_
    have tab : ∀ e ∈ attrTable, fromKeys keptConfig (keys shippedConstants) e.2 = true := by decide +kernel
    have := tab e he
    cases hs : e.2 with
    | cfgText j =>
      rw [hs] at this
      unfold AttrSource.value Store.get Store.set
      dsimp only
      rw [if_neg fun hj : j = k => hk (hj ▸ List.contains_iff_mem.1 this)]
    | cfg j =>
      rw [hs] at this
      unfold AttrSource.value Store.get Store.set
      dsimp only
      rw [if_neg fun hj : j = k => hk (hj ▸ List.contains_iff_mem.1 this)]
    | const j => rfl

/-- Hence the attributes do not determine the settings: two complete sets of settings that differ in the method of the
thermal conductivity have the same attributes. -/
theorem C85_settings_refuted (text : CfgVal → String) : ¬ ∀ (cfg cfg' consts consts' a : Store CfgVal),
    resultAttrs text cfg consts = .ok a → resultAttrs text cfg' consts' = .ok a →
    ∀ k ∈ keys shippedConstants, consts k = consts' k := by
  intro hall
  obtain ⟨s, z, a, _, _, ha⟩ := C85_attributes (c := shippedConfig) (k := shippedConstants)
    (follows_of_bool (by decide +kernel)) (follows_of_bool (by decide +kernel)) (fun _ => none) (fun _ => none)
    text
  have key (v : CfgVal) := (C85_lost text s z v).1 "thermal_conductivity_method" (by decide)
  have := hall s s (z.set "thermal_conductivity_method" (.str "bulk")) (z.set "thermal_conductivity_method" (.str "empirical"))
    a ((key _).trans ha) ((key _).trans ha) "thermal_conductivity_method" (by decide +kernel)
  simp [Store.set] at this

/-- The sets of keys are neither empty nor everything. -/
example : (keys shippedConstants).length = 62 ∧ (∀ k ∈ lostConstants, k ∈ keys shippedConstants) ∧
    "albedo_method" ∉ lostConstants ∧ "albedo_method" ∈ keys shippedConstants ∧
    "time_start" ∈ keys shippedConfig ∧ "time_start" ∉ keptConfig := by decide +kernel

/-! ## Labels -/

section
variable {α γ : Type}

/-- Units of the input variables. -/
def inputUnits : String → Option String
  | "HGT" => some "m"
  | "MASK" => some "boolean"
  | "SLOPE" | "ASPECT" => some "degrees"
  | "T2" => some "K"
  | "RH2" => some "%"
  | "U2" => some "m s⁻¹"
  | "PRES" => some "hPa"
  | "G" | "LWin" => some "W m⁻²"
  | "RRR" => some "mm"
  | "SNOWFALL" => some "m"
  | "N" => some "-"
  | _ => none

/-- Units of the simulated variables. -/
def outputUnits : String → Option String
  | "RAIN" => some "mm"
  | "LWin" | "LWout" | "H" | "LE" | "B" | "QRR" | "ME" => some "W m⁻²"
  | "SNOWFALL" | "surfMB" | "MB" | "intMB" | "Q" | "EVAPORATION" | "SUBLIMATION" | "CONDENSATION" | "DEPOSITION" |
    "REFREEZE" | "subM" | "surfM" | "LAYER_REFREEZE" => some "m w.e."
  | "SNOWHEIGHT" | "TOTALHEIGHT" | "Z0" | "MOL" | "LAYER_HEIGHT" => some "m"
  | "TS" | "LAYER_T" => some "K"
  | "ALBEDO" | "LAYERS" | "LAYER_POROSITY" | "LAYER_ICE_FRACTION" | "LAYER_IRREDUCIBLE_WATER" => some "-"
  | "LAYER_RHO" => some "kg m^-3"
  | "LAYER_CC" => some "J m^-2"
  | "LAYER_LWC" => some "kg m^-2"
  | _ => none

theorem addVar_eq_ok {ht hl : Bool} {a : Arr α} {n : String} {l : Label} {ds ds' : Store (Var α)}
    (h : addVar ht hl a n l ds = .ok ds') : ds' = ds.set n ⟨a, l⟩ := by
  unfold addVar at h
  split_ifs at h
  rw [ok_inj] at h
  exact h.symm

theorem copyInput_value {ht : Bool} {data : Store (Arr α)} : ∀ {tab : Dict Label} {ds ds' : Store (Var α)},
    (tab.map Prod.fst).Nodup → copyInput ht data tab ds = .ok ds' → ∀ n,
    ds' n = match tab.lookup n, data n with
      | some l, some a => some ⟨a, l⟩
      | _, _ => ds n := by
  intro tab
  induction tab with
  | nil =>
    intro ds ds' _ h n
    unfold copyInput at h
    rw [List.foldlM_nil, pure_eq_ok] at h
    subst h
    rfl
  | cons p tab ih =>
    intro ds ds' hn h n
    unfold copyInput at h
    rw [List.foldlM_cons, bind_eq_ok] at h
    obtain ⟨d1, h1, h⟩ := h
    rw [List.map_cons, List.nodup_cons] at hn
    have := ih hn.2 h n
    rw [this, List.lookup_cons]
    by_cases hp : n = p.1
    · subst hp
      rw [lookup_none_of_not_mem hn.1, beq_self_eq_true]
      cases hd : data p.1 with
      | none =>
        rw [hd] at h1
        rw [ok_inj] at h1
        subst h1
        rfl
      | some a =>
        rw [hd] at h1
        rw [addVar_eq_ok h1]
        exact if_pos rfl
    · rw [beq_false_of_ne hp]
      have e : d1 n = ds n := by
        cases hd : data p.1 with
        | none => rw [hd] at h1; rw [ok_inj] at h1; rw [h1]
        | some a => rw [hd] at h1; rw [addVar_eq_ok h1]; exact if_neg hp
      cases tab.lookup n <;> cases data n <;> first | exact e | rfl

theorem fillAbsent_value {nan : α} {data : Store (Arr α)} {name : String} {ds ds' : Store (Var α)} {l : Label}
    (hl : seriesLabels.lookup name = some l) (h : fillAbsent nan data name ds = .ok ds') (n : String) :
    (n = name ∧ data name = none ∧ ∃ t2, data "T2" = some t2 ∧
      ds' n = some ⟨{ t2 with val := fun _ _ _ _ => nan }, ⟨l.longName, l.units⟩⟩) ∨
    (¬ (n = name ∧ data name = none) ∧ ds' n = ds n) := by
  unfold fillAbsent at h
  cases hd : data name with
  | some a =>
    rw [hd, ok_inj] at h
    exact Or.inr ⟨fun h => (by cases h.2), by rw [h]⟩
  | none =>
    rw [hd] at h
    simp only [bind_eq_ok] at h
    obtain ⟨t2, h2, l', hl', h⟩ := h
    rw [Dict.get_eq_ok, hl] at hl'
    cases hl'
    rw [addVar_eq_ok h]
    by_cases hn : n = name
    · exact Or.inl ⟨hn, rfl, t2, Store.get_eq_ok.1 h2, if_pos hn⟩
    · exact Or.inr ⟨fun h => hn h.1, if_neg hn⟩

/-- The variables of the new result file: an input variable with its label, or the field for an absent one. -/
theorem initResult_vars {text : CfgVal → String} {nan : α} {cfg consts : Store CfgVal} {coords : Store γ}
    {data : Store (Arr α)} {f : ResultFile α γ} (h : initResult text nan cfg consts coords data = .ok f) (n : String) :
    ((n = "RRR" ∨ n = "N") ∧ data n = none ∧ ∃ t2 l, data "T2" = some t2 ∧ seriesLabels.lookup n = some l ∧
      f.vars n = some ⟨{ t2 with val := fun _ _ _ _ => nan }, ⟨l.longName, l.units⟩⟩) ∨
    (¬ ((n = "RRR" ∨ n = "N") ∧ data n = none) ∧
      f.vars n = match (seriesLabels.lookup n).or (spatialLabels.lookup n), data n with
        | some l, some a => some ⟨a, l⟩
        | _, _ => none) := by
  unfold initResult at h
  simp only [bind_eq_ok, pure_eq_ok] at h
  obtain ⟨cs, _, a, _, d1, h1, d2, h2, d3, h3, d4, h4, rfl⟩ := h
  have v1 := copyInput_value (by decide +kernel) h1 n
  have v2 := copyInput_value (by decide +kernel) h2 n
  have v3 := fillAbsent_value (l := ⟨"mm", "Total precipitation"⟩) (by decide +kernel) h3 n
  have v4 := fillAbsent_value (l := ⟨"-", "Cloud fraction"⟩) (by decide +kernel) h4 n
  have v12 : d2 n = match (seriesLabels.lookup n).or (spatialLabels.lookup n), data n with
        | some l, some a => some ⟨a, l⟩
        | _, _ => none := by
    rw [v2, v1]
    cases seriesLabels.lookup n <;> cases spatialLabels.lookup n <;> cases data n <;> rfl
  rcases v4 with ⟨rfl, hd, t2, ht, hv⟩ | ⟨hn4, hv4⟩
  · exact Or.inl ⟨Or.inr rfl, hd, t2, ⟨"-", "Cloud fraction"⟩, ht, by decide +kernel, hv⟩
  · rcases v3 with ⟨rfl, hd, t2, ht, hv⟩ | ⟨hn3, hv3⟩
    · exact Or.inl ⟨Or.inl rfl, hd, t2, ⟨"mm", "Total precipitation"⟩, ht, by decide +kernel, hv4.trans hv⟩
    · refine Or.inr ⟨?_, hv4.trans (hv3.trans v12)⟩
      rintro ⟨rfl | rfl, hd⟩
      · exact hn3 ⟨rfl, hd⟩
      · exact hn4 ⟨rfl, hd⟩

/-- **C85, input variables.** Full statement: every variable of the new result file carries the units and the
description of its quantity. Proved: for every variable of the input, whose values are copied unchanged; there are no
others, but for absent precipitation or cloud cover, whose label is false (`C85_labels_refuted`). -/
theorem C85_labels_partial {text : CfgVal → String} {nan : α} {cfg consts : Store CfgVal} {coords : Store γ}
    {data : Store (Arr α)} {f : ResultFile α γ} (h : initResult text nan cfg consts coords data = .ok f) {n : String}
    {v : Var α} (hv : f.vars n = some v) (hn : ¬ ((n = "RRR" ∨ n = "N") ∧ data n = none)) :
    data n = some v.data ∧ inputUnits n = some v.label.units := by
  rcases initResult_vars h n with ⟨h1, h2, _⟩ | ⟨_, he⟩
  · exact absurd ⟨h1, h2⟩ hn
  · rw [hv] at he
    cases hl : (seriesLabels.lookup n).or (spatialLabels.lookup n) with
    | none => rw [hl] at he; cases he
    | some l =>
      cases hd : data n with
      | none => rw [hl, hd] at he; cases he
      | some a =>
        rw [hl, hd] at he
        cases he
        refine ⟨rfl, ?_⟩
        have tab : ∀ p ∈ seriesLabels ++ spatialLabels, inputUnits p.1 = some p.2.units := by decide +kernel
        have : (n, l) ∈ seriesLabels ++ spatialLabels := by
          rw [List.mem_append]
          cases hs : seriesLabels.lookup n with
          | some l' => rw [hs] at hl; cases hl; exact Or.inl (mem_of_lookup hs)
          | none => rw [hs] at hl; exact Or.inr (mem_of_lookup hl)
        exact tab _ this

/-- What the input variables are. -/
def inputMeaning : String → Option String
  | "HGT" => some "Elevation" | "MASK" => some "Glacier mask" | "SLOPE" => some "Terrain slope" | "ASPECT" => some "Aspect of slope"
  | "T2" => some "Air temperature at 2 m" | "RH2" => some "Relative humidity at 2 m" | "U2" => some "Wind velocity at 2 m"
  | "PRES" => some "Atmospheric pressure" | "G" => some "Incoming shortwave radiation" | "RRR" => some "Total precipitation"
  | "SNOWFALL" => some "Snowfall" | "N" => some "Cloud fraction" | "LWin" => some "Incoming longwave radiation"
  | _ => none

/-- **C85, descriptions of input variables.** A variable of the input carries its own description in the new result file. -/
theorem C85_input_described {text : CfgVal → String} {nan : α} {cfg consts : Store CfgVal} {coords : Store γ}
    {data : Store (Arr α)} {f : ResultFile α γ} (h : initResult text nan cfg consts coords data = .ok f) {n : String}
    {v : Var α} (hv : f.vars n = some v) (hn : ¬ ((n = "RRR" ∨ n = "N") ∧ data n = none)) : inputMeaning n = some v.label.longName := by
  rcases initResult_vars h n with ⟨h1, h2, _⟩ | ⟨_, he⟩
  · exact absurd ⟨h1, h2⟩ hn
  · rw [hv] at he
    cases hl : (seriesLabels.lookup n).or (spatialLabels.lookup n) with
    | none => rw [hl] at he; cases he
    | some l =>
      cases hd : data n with
      | none => rw [hl, hd] at he; cases he
      | some a =>
        rw [hl, hd] at he
        cases he
        have tab : ∀ p ∈ seriesLabels ++ spatialLabels, inputMeaning p.1 = some p.2.longName := by decide +kernel
        have : (n, l) ∈ seriesLabels ++ spatialLabels := by
          rw [List.mem_append]
          cases hs : seriesLabels.lookup n with
          | some l' => rw [hs] at hl; cases hl; exact Or.inl (mem_of_lookup hs)
          | none => rw [hs] at hl; exact Or.inr (mem_of_lookup hl)
        exact tab _ this

/-- Precipitation that is absent from the input: its units are "Total precipitation", its description is "mm"; likewise
for cloud cover. This holds in every result file without them. -/
theorem C85_labels_refuted {text : CfgVal → String} {nan : α} {cfg consts : Store CfgVal} {coords : Store γ}
    {data : Store (Arr α)} {f : ResultFile α γ} (h : initResult text nan cfg consts coords data = .ok f) :
    (data "RRR" = none → ∃ v, f.vars "RRR" = some v ∧ v.label = ⟨"Total precipitation", "mm"⟩) ∧
    (data "N" = none → ∃ v, f.vars "N" = some v ∧ v.label = ⟨"Cloud fraction", "-"⟩) := by
  constructor <;> intro hd
  · rcases initResult_vars h "RRR" with ⟨_, _, t2, l, _, hl, hv⟩ | ⟨h1, _⟩
    · refine ⟨_, hv, ?_⟩
      have : seriesLabels.lookup "RRR" = some ⟨"mm", "Total precipitation"⟩ := by decide +kernel
      rw [this] at hl
      cases hl
      rfl
    · exact absurd ⟨Or.inl rfl, hd⟩ h1
  · rcases initResult_vars h "N" with ⟨_, _, t2, l, _, hl, hv⟩ | ⟨h1, _⟩
    · refine ⟨_, hv, ?_⟩
      have : seriesLabels.lookup "N" = some ⟨"-", "Cloud fraction"⟩ := by decide +kernel
      rw [this] at hl
      cases hl
      rfl
    · exact absurd ⟨Or.inr rfl, hd⟩ h1

/-- **C85, attributes of the file.** The file carries exactly the attributes made from the settings (see `C85_attributes` and
`C85_settings_partial` for what they say). -/
theorem C85_carried {text : CfgVal → String} {nan : α} {cfg consts : Store CfgVal} {coords : Store γ} {data : Store (Arr α)}
    {f : ResultFile α γ} (h : initResult text nan cfg consts coords data = .ok f) : resultAttrs text cfg consts = .ok f.attrs := by
  unfold initResult at h
  simp only [bind_eq_ok, pure_eq_ok] at h
  obtain ⟨cs, hc, a, ha, d1, h1, d2, h2, d3, h3, d4, h4, rfl⟩ := h
  exact ha

/-- **C85, coordinates.** Time and place are those of the input. -/
theorem C85_coordinates {text : CfgVal → String} {nan : α} {cfg consts : Store CfgVal} {coords : Store γ}
    {data : Store (Arr α)} {f : ResultFile α γ} (h : initResult text nan cfg consts coords data = .ok f) :
    f.coords "time" = coords "time" ∧ f.coords "lat" = coords "lat" ∧ f.coords "lon" = coords "lon" := by
  unfold initResult at h
  simp only [bind_eq_ok, pure_eq_ok] at h
  obtain ⟨cs, hc, a, _, d1, h1, d2, h2, d3, h3, d4, h4, rfl⟩ := h
  simp only [List.foldlM_cons, List.foldlM_nil, bind_eq_ok, pure_eq_ok] at hc
  obtain ⟨c1, e1, c2, e2, c3, e3, rfl⟩ := hc
  cases ht : coords "time" with
  | none => rw [ht] at e1; cases e1
  | some t =>
    cases hla : coords "lat" with
    | none => rw [hla] at e2; cases e2
    | some la =>
      cases hlo : coords "lon" with
      | none => rw [hlo] at e3; cases e3
      | some lo =>
        rw [ht, ok_inj] at e1
        rw [hla, ok_inj] at e2
        rw [hlo, ok_inj] at e3
        subst e1 e2 e3
        exact ⟨by simp [Store.set], by simp [Store.set], by simp [Store.set]⟩

/-! ### Simulated variables -/

/-- The dataset without its labels. -/
def unlabelled (ds : Store (Var α)) : Store (Arr α) := fun n => (ds n).map Var.data

/-- Names of the simulated variables in the file. -/
def written (io : IOState α) : List (Bool × String) :=
  (io.atm ++ io.internal).map (fun n => (false, n)) ++
    if io.fullField then io.full.map (fun n => (true, "LAYER_" ++ n)) else []

theorem writeResultsLabelled_eq (io : IOState α) (ds : Store (Var α)) :
    writeResultsLabelled io ds = (written io).foldlM (fun r p => writeLabelled io.attrs p.1 p.2 r) ds := by
  unfold writeResultsLabelled written
  simp only [List.foldlM_append, List.map_append, List.foldlM_map, bind_assoc]
  congr 1
  funext r
  congr 1
  funext r
  cases io.fullField
  · rfl
  · simp only [if_true, List.foldlM_map]

theorem writeLabelled_eq_ok {attrs : Store (Arr α)} {hl : Bool} {n : String} {ds ds' : Store (Var α)}
    (h : writeLabelled attrs hl n ds = .ok ds') : ∃ a l, attrs n = some a ∧ resultLabels.lookup n = some l ∧
      ds' = ds.set n ⟨a, l⟩ := by
  unfold writeLabelled at h
  simp only [bind_eq_ok] at h
  obtain ⟨a, ha, l, hl, h⟩ := h
  exact ⟨a, l, Store.get_eq_ok.1 ha, Dict.get_eq_ok.1 hl, addVar_eq_ok h⟩

theorem written_value {attrs : Store (Arr α)} : ∀ {ws : List (Bool × String)} {ds ds' : Store (Var α)},
    ws.foldlM (fun r p => writeLabelled attrs p.1 p.2 r) ds = .ok ds' → ∀ n,
    (n ∈ ws.map Prod.snd → ∃ a l, attrs n = some a ∧ resultLabels.lookup n = some l ∧ ds' n = some ⟨a, l⟩) ∧
    (n ∉ ws.map Prod.snd → ds' n = ds n) := by
  intro ws
  induction ws with
  | nil =>
    intro ds ds' h n
    rw [List.foldlM_nil, pure_eq_ok] at h
    subst h
    exact ⟨fun h => absurd h (by simp), fun _ => rfl⟩
  | cons w ws ih =>
    intro ds ds' h n
    rw [List.foldlM_cons, bind_eq_ok] at h
    obtain ⟨d1, h1, h⟩ := h
    obtain ⟨a, l, ha, hl, rfl⟩ := writeLabelled_eq_ok h1
    obtain ⟨i1, i2⟩ := ih h n
    by_cases hn : n ∈ ws.map Prod.snd
    · exact ⟨fun _ => i1 hn, fun hc => absurd (List.mem_cons_of_mem _ hn) hc⟩
    · have e := i2 hn
      by_cases hw : n = w.2
      · refine ⟨fun _ => ⟨a, l, by rw [hw]; exact ha, by rw [hw]; exact hl, by rw [e]; exact if_pos hw⟩, fun hc => ?_⟩
        exact absurd (by rw [hw]; exact List.mem_cons_self) hc
      · exact ⟨fun hc => absurd hc (by rw [List.map_cons, List.mem_cons]; exact not_or.2 ⟨hw, hn⟩),
          fun _ => by rw [e]; exact if_neg hw⟩

theorem resultLabels_units : ∀ p ∈ resultLabels, p.1 = "LAYER_IF" ∨ inputNames.contains p.1 = true ∨
    (spatialLabels.map Prod.fst).contains p.1 = true ∨ outputUnits p.1 = some p.2.units := by decide +kernel

/-- **C85, simulated variables.** In the file, a variable of the output lists holds the simulated values, with the units
of the simulated quantity; every other variable is as before. In particular snowfall is either labelled "m" and is the
input, or labelled "m w.e." and is the simulated one. -/
theorem C85_output {io : IOState α} {ds ds' : Store (Var α)} (h : writeResultsLabelled io ds = .ok ds') (n : String) :
    (n ∈ (written io).map Prod.snd → ∃ v, ds' n = some v ∧ io.attrs n = some v.data ∧
      (n ≠ "LAYER_IF" → n ∉ inputNames → n ∉ ["HGT", "MASK", "SLOPE", "ASPECT"] → outputUnits n = some v.label.units)) ∧
    (n ∉ (written io).map Prod.snd → ds' n = ds n) := by
  rw [writeResultsLabelled_eq] at h
  obtain ⟨h1, h2⟩ := written_value h n
  refine ⟨fun hn => ?_, h2⟩
  obtain ⟨a, l, ha, hl, hv⟩ := h1 hn
  refine ⟨⟨a, l⟩, hv, ha, fun n1 n2 n3 => ?_⟩
  rcases resultLabels_units _ (mem_of_lookup hl) with h | h | h | h
  · exact absurd h n1
  · exact absurd (List.contains_iff_mem.1 h) n2
  · exact absurd (List.contains_iff_mem.1 h) n3
  · exact h

/-- What the simulated variables of the surface and the layers are. -/
def outputMeaning : String → Option String
  | "RAIN" => some "Liquid precipitation" | "SNOWFALL" => some "Snowfall"
  | "LWin" => some "Incoming longwave radiation" | "LWout" => some "Outgoing longwave radiation"
  | "H" => some "Sensible heat flux" | "LE" => some "Latent heat flux" | "B" => some "Ground heat flux"
  | "QRR" => some "Rain heat flux" | "ME" => some "Available melt energy"
  | "surfMB" => some "Surface mass balance" | "intMB" => some "Internal mass balance" | "MB" => some "Mass balance"
  | "surfM" => some "Surface melt" | "subM" => some "Subsurface melt" | "REFREEZE" => some "Refreezing"
  | "Q" => some "Runoff" | "EVAPORATION" => some "Evaporation" | "SUBLIMATION" => some "Sublimation"
  | "CONDENSATION" => some "Condensation" | "DEPOSITION" => some "Deposition"
  | "SNOWHEIGHT" => some "Snowheight" | "TOTALHEIGHT" => some "Total domain height"
  | "TS" => some "Surface temperature" | "ALBEDO" => some "Albedo" | "LAYERS" => some "Number of layers"
  | "Z0" => some "Roughness length" | "MOL" => some "Monin Obukhov length"
  | "LAYER_HEIGHT" => some "Layer height" | "LAYER_RHO" => some "Layer density" | "LAYER_T" => some "Layer temperature"
  | "LAYER_LWC" => some "layer liquid water content" | "LAYER_CC" => some "Cold content" | "LAYER_POROSITY" => some "Porosity"
  | "LAYER_ICE_FRACTION" => some "Layer ice fraction" | "LAYER_IRREDUCIBLE_WATER" => some "Irreducible water"
  | "LAYER_REFREEZE" => some "Refreezing"
  | _ => none

/-- **C85, descriptions.** A simulated variable of the surface or the layers in the file carries its own description. -/
theorem C85_described {io : IOState α} {ds ds' : Store (Var α)} (h : writeResultsLabelled io ds = .ok ds') {n d : String}
    (hn : n ∈ (written io).map Prod.snd) (hd : outputMeaning n = some d) :
    ∃ v, ds' n = some v ∧ v.label.longName = d := by
  rw [writeResultsLabelled_eq] at h
  obtain ⟨a, l, _, hl, hv⟩ := (written_value h n).1 hn
  refine ⟨⟨a, l⟩, hv, ?_⟩
  have tab : ∀ p ∈ resultLabels, outputMeaning p.1 = none ∨ outputMeaning p.1 = some p.2.longName := by decide +kernel
  rcases tab _ (mem_of_lookup hl) with e | e
  · rw [e] at hd; cases hd
  · rw [e] at hd; exact Option.some.inj hd

theorem C85_snowfall {text : CfgVal → String} {nan : α} {cfg consts : Store CfgVal} {coords : Store γ}
    {data : Store (Arr α)} {f : ResultFile α γ} (h : initResult text nan cfg consts coords data = .ok f)
    {io : IOState α} {ds' : Store (Var α)} (hw : writeResultsLabelled io f.vars = .ok ds') {v : Var α}
    (hv : ds' "SNOWFALL" = some v) :
    (v.label.units = "m" ∧ data "SNOWFALL" = some v.data) ∨
    (v.label.units = "m w.e." ∧ io.attrs "SNOWFALL" = some v.data) := by
  obtain ⟨h1, h2⟩ := C85_output hw "SNOWFALL"
  by_cases hn : "SNOWFALL" ∈ (written io).map Prod.snd
  · obtain ⟨v', hv', ha, hu⟩ := h1 hn
    rw [hv] at hv'
    cases hv'
    have := hu (by decide) (by decide) (by decide)
    exact Or.inr ⟨(Option.some.inj this).symm, ha⟩
  · have := h2 hn
    rw [hv] at this
    obtain ⟨e1, e2⟩ := C85_labels_partial h this.symm (fun hc => by simp at hc)
    exact Or.inl ⟨(Option.some.inj e2).symm, e1⟩

theorem labels_iff (n : String) : (∃ l, resultLabels.lookup n = some l) ↔ n ∈ resultMetadata := by
  constructor
  · rintro ⟨l, h⟩
    have tab : ∀ p ∈ resultLabels, p.1 ∈ resultMetadata := by decide +kernel
    exact tab _ (mem_of_lookup h)
  · intro h
    have tab : ∀ n ∈ resultMetadata, (resultLabels.lookup n).isSome = true := by decide +kernel
    exact Option.isSome_iff_exists.1 (tab n h)

theorem unlabelled_set (ds : Store (Var α)) (n : String) (v : Var α) :
    unlabelled (ds.set n v) = (unlabelled ds).set n v.data := by
  funext k
  unfold unlabelled Store.set
  split_ifs <;> rfl

theorem writeLabelled_unlabelled (attrs : Store (Arr α)) (hl : Bool) (n : String) (ds : Store (Var α)) :
    (writeLabelled attrs hl n ds).map unlabelled = writeVariable resultMetadata attrs true hl n n (unlabelled ds) := by
  unfold writeLabelled writeVariable
  cases attrs.get n with
  | error e => rfl
  | ok a =>
    rw [ok_bind, ok_bind]
    by_cases hm : n ∈ resultMetadata
    · obtain ⟨l, hl'⟩ := (labels_iff n).2 hm
      rw [if_pos (by simpa using hm), Dict.get_eq_ok.2 hl', ok_bind]
      unfold addVar addVariable
      split_ifs
      · exact congrArg Except.ok (unlabelled_set ds n ⟨a, l⟩)
      · rfl
    · rw [if_neg (by simpa using hm)]
      have : resultLabels.get n = .error .key := by
        unfold Dict.get
        cases hc : List.lookup n resultLabels with
        | none => rfl
        | some l => exact absurd ((labels_iff n).1 ⟨l, hc⟩) hm
      rw [this]
      rfl

theorem foldl_unlabelled (attrs : Store (Arr α)) : ∀ (ws : List (Bool × String)) (ds : Store (Var α)),
    (ws.foldlM (fun r p => writeLabelled attrs p.1 p.2 r) ds).map unlabelled =
      ws.foldlM (fun r p => writeVariable resultMetadata attrs true p.1 p.2 p.2 r) (unlabelled ds) := by
  intro ws
  induction ws with
  | nil => intro ds; rfl
  | cons w ws ih =>
    intro ds
    rw [List.foldlM_cons, List.foldlM_cons, ← writeLabelled_unlabelled]
    cases writeLabelled attrs w.1 w.2 ds with
    | error e => rfl
    | ok d => exact ih d

/-- The model with labels agrees with the one without, about which the other claims are (C42, C70): same outcome, same
data. -/
theorem C85_same (io : IOState α) (ds : Store (Var α)) (hr : io.result = unlabelled ds) :
    (writeResultsLabelled io ds).map unlabelled = (io.writeResults).map IOState.result := by
  rw [writeResultsLabelled_eq, foldl_unlabelled]
  unfold IOState.writeResults written
  rw [hr]
  simp only [List.foldlM_append, List.map_append, List.foldlM_map]
  cases io.atm.foldlM (fun r n => writeVariable resultMetadata io.attrs true false n n r) (unlabelled ds) with
  | error e => rfl
  | ok r =>
    rw [ok_bind, ok_bind]
    cases io.internal.foldlM (fun r n => writeVariable resultMetadata io.attrs true false n n r) r with
    | error e => rfl
    | ok r =>
      rw [ok_bind, ok_bind]
      cases io.fullField with
      | false => rfl
      | true =>
        simp only [if_true, List.foldlM_map]
        cases io.full.foldlM
          (fun r n => writeVariable resultMetadata io.attrs true true ("LAYER_" ++ n) ("LAYER_" ++ n) r) r <;> rfl

end

/-! ### Liquid water of the layers -/

/-- The variable LAYER_LWC is labelled "kg m^-2", but holds a volume fraction: its value is the layer's mass of water per
square metre only if there is none or the layer is as thick as one kilogram of water (1 mm). -/
theorem C85_water_refuted {K : Type} [Field K] [LinearOrder K] [IsStrictOrderedRing K] [Transc K] (c : Consts K)
    (n : Node K) {v : K} (h : LayerMeans c "LWC" n v) : resultLabels.lookup "LAYER_LWC" =
      some ⟨"kg m^-2", "layer liquid water content"⟩ ∧
    (v = n.height * n.lwc * c.waterDensity ↔ n.lwc = 0 ∨ n.height * c.waterDensity = 1) := by
  refine ⟨by decide +kernel, ?_⟩
  have hv : v = n.lwc := h
  subst hv
  constructor
  · intro h
    by_cases h0 : n.lwc = 0
    · exact Or.inl h0
    · refine Or.inr (mul_left_cancel₀ h0 ?_)
      rw [mul_one]
      linear_combination -h
  · rintro (h0 | h1)
    · rw [h0]; ring
    · linear_combination -n.lwc * h1

/-! ### A concrete file -/

/-- Input with precipitation, without cloud cover, on one grid point and two times. -/
def exData : Store (Arr Int) := fun n =>
  if n = "T2" then some ⟨some 2, 1, 1, none, fun t _ _ _ => 270 + t⟩
  else if n = "SNOWFALL" then some ⟨some 2, 1, 1, none, fun _ _ _ _ => 1⟩
  else if n = "HGT" then some ⟨none, 1, 1, none, fun _ _ _ _ => 5000⟩
  else none

def exText : CfgVal → String
  | .bool true => "True"
  | .bool false => "False"
  | _ => "?"

def exConsts : Store CfgVal := fun _ => some (.int 0)
def exCfg : Store CfgVal := fun _ => some (.bool true)

/-- The labels and the data at the second time after opening the file, and after writing a simulated snowfall of 7. -/
example : ((initResult exText (-9999) exCfg exConsts (fun _ => some ()) exData).toOption.map fun f =>
      (["T2", "SNOWFALL", "HGT", "RRR", "U2"].map fun n => (f.vars n).map fun v => (v.label.units, v.data.val 1 0 0 0),
        f.attrs "WRF_simulation", f.attrs "thermal_conductivity_method")) =
    some ([some ("K", 271), some ("m", 1), some ("m", 5000), some ("Total precipitation", -9999), none],
      some (.str "True"), none) ∧
    (((initResult exText (-9999) exCfg exConsts (fun _ => some ()) exData).bind fun f =>
      writeResultsLabelled ⟨["SNOWFALL"], [], [], false, 5, 2, 1, 1,
        fun _ => some ⟨some 2, 1, 1, none, fun _ _ _ _ => 7⟩, fun _ => none, fun _ => none⟩ f.vars).toOption.map fun d =>
      ["T2", "SNOWFALL"].map fun n => (d n).map fun v => (v.label.units, v.data.val 1 0 0 0)) =
    some [some ("K", 271), some ("m w.e.", 7)] := by decide +kernel

example : exText (.bool true) ≠ exText (.bool false) := by decide

end C85
end Cosipy
