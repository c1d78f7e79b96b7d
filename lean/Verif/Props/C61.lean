import Verif.Model.Utilities
import Verif.Lemmas.Config
import Verif.Props.C49

/-!
# C61 — generated configuration files contain every key the programs read

`cosipy-setup` copies sample files and `convert_config.py` writes files from an old configuration. The theorems are about
every file with the generated keys, whatever values the user fills in. `C61_aws_partial` is the restricted form for the
aws2cosipy utility: the generated utilities_config.toml lacks `LUT_path` (`C61_refuted`).
-/

set_option autoImplicit false
set_option linter.unusedSectionVars false

namespace Cosipy
open Util

/-- The file gives key `k` of section `sec` of `tool` the value `v`. -/
def Util.Gives (c : UtilToml) (tool sec k : String) (v : CfgVal) : Prop :=
  ∃ t s, List.lookup tool c = some t ∧ List.lookup sec t = some s ∧ List.lookup k s = some v

/-- The file has all keys of the list. -/
def Util.HasKeys (c : UtilToml) (keys : List (String × String × List String)) : Prop :=
  ∀ e ∈ keys, ∀ k ∈ e.2.2, ∃ v, Gives c e.1 e.2.1 k v

theorem read_of_gives {c : UtilToml} (hn : (c.map Prod.fst).Nodup) {tool sec k : String} {v : CfgVal}
    (h : Gives c tool sec k v) (cls : Store (Dict (Dict CfgVal))) : read (load cls c) tool sec k = .ok v := by
  obtain ⟨t, s, h1, h2, h3⟩ := h
  unfold Util.read Store.get Util.load
  rw [foldl_set_last (lookup_split hn h1)]
  rw [ok_bind]
  simp only [h2]
  exact Dict.get_eq_ok.2 h3

/-- Every listed key is readable. -/
def Util.Readable (rd : Reader) (keys : List (String × List String)) : Prop :=
  ∀ e ∈ keys, ∀ k ∈ e.2, ∃ v, rd e.1 k = .ok v

/-- The keys of one tool. -/
def Util.keysOf (tool : String) (keys : List (String × String × List String)) : List (String × List String) :=
  keys.filterMap fun e => if e.1 = tool then some e.2 else none

theorem readable_of_has {c : UtilToml} (hn : (c.map Prod.fst).Nodup) {keys : List (String × String × List String)}
    (h : HasKeys c keys) (cls : Store (Dict (Dict CfgVal))) (tool : String) :
    Readable (read (load cls c) tool) (keysOf tool keys) := by
  intro e he k hk
  unfold Util.keysOf at he
  rw [List.mem_filterMap] at he
  obtain ⟨e', he', h2⟩ := he
  split_ifs at h2 with ht
  cases h2
  obtain ⟨v, hv⟩ := h e' he' k hk
  exact ⟨v, by rw [← ht]; exact read_of_gives hn hv cls⟩

theorem readAll_ok {rd : Reader} {sec : String} {ks : List String} (h : ∀ k ∈ ks, ∃ v, rd sec k = .ok v) :
    readAll rd sec ks = .ok () := by
  induction ks with
  | nil => rfl
  | cons k ks ih =>
    obtain ⟨v, hv⟩ := h k List.mem_cons_self
    rw [readAll, hv, ok_bind, ih fun j hj => h j (List.mem_cons_of_mem _ hj)]

theorem readAll_sub {rd : Reader} {keys : List (String × List String)} (h : Readable rd keys) {sec : String}
    {all ks : List String} (hm : (sec, all) ∈ keys) (hs : ks.all (all.contains ·) = true) : readAll rd sec ks = .ok () := by
  refine readAll_ok fun k hk => h _ hm k ?_
  have := List.all_eq_true.1 hs k hk
  simpa using this

theorem rd_sub {rd : Reader} {keys : List (String × List String)} (h : Readable rd keys) {sec : String}
    {all : List String} (hm : (sec, all) ∈ keys) {k : String} (hk : k ∈ all) : ∃ v, rd sec k = .ok v := h _ hm k hk

section
variable {rd : Reader} {d : Data}

/-- The keys of aws2cosipy apart from the radiation section. -/
def Util.commonKeys : List (String × List String) :=
  [("names", ["PRES_var", "T2_var", "in_K", "RH2_var", "G_var", "RRR_var", "U2_var", "LWin_var", "SNOWFALL_var", "N_var"]),
   ("coords", ["WRF", "aggregate", "aggregation_step", "delimiter"]),
   ("points", ["point_model", "plon", "plat", "hgt"]),
   ("station", ["stationName", "stationAlt", "stationLat"]),
   ("lapse", ["lapse_T", "lapse_RH", "lapse_RRR", "lapse_SNOWFALL"])]

theorem names_ok (h : Readable rd commonKeys) (ks : List String)
    (hs : ks.all (["PRES_var", "T2_var", "in_K", "RH2_var", "G_var", "RRR_var", "U2_var", "LWin_var", "SNOWFALL_var",
      "N_var"].contains ·) = true) : readAll rd "names" ks = .ok () :=
  readAll_sub h (by unfold Util.commonKeys; exact List.mem_cons_self) hs

theorem coords_ok (h : Readable rd commonKeys) (ks : List String)
    (hs : ks.all (["WRF", "aggregate", "aggregation_step", "delimiter"].contains ·) = true) :
    readAll rd "coords" ks = .ok () :=
  readAll_sub h (by unfold Util.commonKeys; simp) hs

theorem points_ok (h : Readable rd commonKeys) (ks : List String)
    (hs : ks.all (["point_model", "plon", "plat", "hgt"].contains ·) = true) : readAll rd "points" ks = .ok () :=
  readAll_sub h (by unfold Util.commonKeys; simp) hs

theorem station_ok (h : Readable rd commonKeys) (ks : List String)
    (hs : ks.all (["stationName", "stationAlt", "stationLat"].contains ·) = true) : readAll rd "station" ks = .ok () :=
  readAll_sub h (by unfold Util.commonKeys; simp) hs

theorem lapse_ok (h : Readable rd commonKeys) (ks : List String)
    (hs : ks.all (["lapse_T", "lapse_RH", "lapse_RRR", "lapse_SNOWFALL"].contains ·) = true) :
    readAll rd "lapse" ks = .ok () :=
  readAll_sub h (by unfold Util.commonKeys; simp) hs

theorem name_ok (h : Readable rd commonKeys) {k : String}
    (hk : k ∈ ["PRES_var", "T2_var", "in_K", "RH2_var", "G_var", "RRR_var", "U2_var", "LWin_var", "SNOWFALL_var",
      "N_var"]) : ∃ v, rd "names" k = .ok v :=
  rd_sub h (by unfold Util.commonKeys; exact List.mem_cons_self) hk

theorem lapseIf_ok (h : Readable rd commonKeys) {var rate : String}
    (hk : var ∈ ["PRES_var", "T2_var", "in_K", "RH2_var", "G_var", "RRR_var", "U2_var", "LWin_var", "SNOWFALL_var",
      "N_var"]) (hr : [rate].all (["lapse_T", "lapse_RH", "lapse_RRR", "lapse_SNOWFALL"].contains ·) = true) :
    lapseIf rd d var rate = .ok () := by
  obtain ⟨v, hv⟩ := name_ok h hk
  unfold lapseIf
  rw [hv, ok_bind]
  split_ifs
  · exact lapse_ok h _ hr
  · rfl

/-- The table has one of the two columns for longwave radiation. -/
def Util.Data.Longwave (d : Data) (lw n : CfgVal) : Prop := d.has lw = true ∨ d.has n = true

theorem orderReads_eq (h : Readable rd commonKeys) {lw n : CfgVal} (h1 : rd "names" "LWin_var" = .ok lw)
    (h2 : rd "names" "N_var" = .ok n) :
    (d.Longwave lw n ∧ orderReads rd d = .ok ()) ∨ (¬ d.Longwave lw n ∧ orderReads rd d = .error .value) := by
  unfold orderReads Data.Longwave requireLongwave
  rw [names_ok h _ (by decide), ok_bind, h1, ok_bind, h2, ok_bind]
  cases ha : d.has lw
  · cases hb : d.has n
    · right; simp [error_bind]
    · left; simp [ok_bind, names_ok h ["SNOWFALL_var"] (by decide)]
  · left; simp [ok_bind, names_ok h ["SNOWFALL_var"] (by decide)]

theorem pointReads_eq (h : Readable rd commonKeys) {lw n : CfgVal} (h1 : rd "names" "LWin_var" = .ok lw)
    (h2 : rd "names" "N_var" = .ok n) :
    (d.Longwave lw n ∧ pointReads rd d = .ok ()) ∨ (¬ d.Longwave lw n ∧ pointReads rd d = .error .value) := by
  unfold pointReads
  rw [coords_ok h _ (by decide), ok_bind, names_ok h _ (by decide), ok_bind, coords_ok h _ (by decide), ok_bind,
    points_ok h _ (by decide), ok_bind]
  rcases orderReads_eq (d := d) h h1 h2 with ⟨a, b⟩ | ⟨a, b⟩
  · left
    refine ⟨a, ?_⟩
    rw [b, ok_bind, points_ok h _ (by decide), ok_bind, station_ok h _ (by decide), ok_bind, names_ok h _ (by decide),
      ok_bind, lapse_ok h _ (by decide), ok_bind, lapseIf_ok h (by decide) (by decide), ok_bind,
      lapseIf_ok h (by decide) (by decide), ok_bind, names_ok h _ (by decide)]
  · right
    exact ⟨a, by rw [b, error_bind]⟩

theorem aggregateReads_ok (h : Readable rd commonKeys) : aggregateReads rd = .ok () := by
  obtain ⟨v, hv⟩ := rd_sub h (sec := "coords") (k := "aggregate")
    (all := ["WRF", "aggregate", "aggregation_step", "delimiter"]) (by unfold Util.commonKeys; simp) (by decide)
  unfold aggregateReads
  rw [hv, ok_bind]
  split_ifs
  · rw [names_ok h _ (by decide), ok_bind, coords_ok h _ (by decide)]
  · rfl

theorem interpReads_ok (h : Readable rd commonKeys) : interpReads rd d = .ok () := by
  unfold interpReads
  split_ifs
  · rfl
  · rw [lapse_ok h _ (by decide), ok_bind, station_ok h _ (by decide), ok_bind, lapseIf_ok h (by decide) (by decide),
      ok_bind, lapseIf_ok h (by decide) (by decide)]

theorem gridReads_eq (h : Readable rd commonKeys) {lw n : CfgVal} (h1 : rd "names" "LWin_var" = .ok lw)
    (h2 : rd "names" "N_var" = .ok n) :
    (d.Longwave lw n ∧ gridReads rd d = radiationReads rd d) ∨ (¬ d.Longwave lw n ∧ gridReads rd d = .error .value) := by
  unfold gridReads
  rw [coords_ok h _ (by decide), ok_bind, aggregateReads_ok h, ok_bind, coords_ok h _ (by decide), ok_bind]
  rcases orderReads_eq (d := d) h h1 h2 with ⟨a, b⟩ | ⟨a, b⟩
  · left
    refine ⟨a, ?_⟩
    rw [b, ok_bind, names_ok h _ (by decide), ok_bind, station_ok h _ (by decide), ok_bind, interpReads_ok h, ok_bind,
      names_ok h _ (by decide)]
    cases radiationReads rd d <;> rfl
  · right
    exact ⟨a, by rw [b, error_bind]⟩

end

/-- The radiation keys of the sample file. -/
def Util.radSample : List String := ["radiationModule", "LUT", "dtstep", "tcart", "timezone_lon", "zeni_thld"]

theorem common_sub {keys : List (String × List String)} {rd : Reader} (h : Readable rd keys)
    (hs : commonKeys.all (keys.contains ·) = true) : Readable rd commonKeys := by
  intro e he
  have := List.all_eq_true.1 hs e he
  exact h e (by simpa using this)

/-- **C61, aws2cosipy with generated files.** For every file with the generated keys (any values, any further entries)
and every station table: reading the settings never meets a missing section, and meets a missing key exactly when the
grid mode is chosen together with the radiation module Moelg2009 (and the table has a longwave or cloud column, without
which the program stops earlier). Full property, which fails by `C61_refuted`: never a missing key. -/
theorem C61_aws_partial {c : UtilToml} (hn : (c.map Prod.fst).Nodup) (h : HasKeys c sampleKeys)
    (hl : ∀ v, ¬ Gives c "aws2cosipy" "radiation" "LUT_path" v)
    (cls : Store (Dict (Dict CfgVal))) (d : Data) {pm rm lw n : CfgVal}
    (hpm : Gives c "aws2cosipy" "points" "point_model" pm)
    (hrm : Gives c "aws2cosipy" "radiation" "radiationModule" rm)
    (hlw : Gives c "aws2cosipy" "names" "LWin_var" lw) (hnv : Gives c "aws2cosipy" "names" "N_var" n) :
    (awsReads (read (load cls c) "aws2cosipy") d ≠ .error .attribute) ∧
    (awsReads (read (load cls c) "aws2cosipy") d = .error .key ↔
      pm.truthy = false ∧ rm = .str "Moelg2009" ∧ (d.has lw = true ∨ d.has n = true)) := by
  have hr := readable_of_has hn h cls "aws2cosipy"
  have hc : Readable (read (load cls c) "aws2cosipy") commonKeys := common_sub hr (by decide +kernel)
  have e1 := read_of_gives hn hpm cls
  have e2 := read_of_gives hn hrm cls
  have e3 := read_of_gives hn hlw cls
  have e4 := read_of_gives hn hnv cls
  have hlut : read (load cls c) "aws2cosipy" "radiation" "LUT_path" = .error .key := by
    obtain ⟨t, s, h1, h2, _⟩ := hrm
    have h3 : List.lookup "LUT_path" s = none := by
      cases hx : List.lookup "LUT_path" s with
      | none => rfl
      | some v => exact absurd ⟨t, s, h1, h2, hx⟩ (hl v)
    unfold Util.read Store.get Util.load
    rw [foldl_set_last (lookup_split hn h1), ok_bind]
    simp only [h2]
    unfold Dict.get
    rw [h3]
  have hrad : ("radiation", radSample) ∈ keysOf "aws2cosipy" sampleKeys := by decide +kernel
  obtain ⟨lutv, hlutv⟩ := rd_sub hr hrad (k := "LUT") (by decide)
  generalize read (load cls c) "aws2cosipy" = rd at *
  unfold awsReads
  rw [e1, ok_bind]
  cases hp : pm.truthy with
  | true =>
    simp only [if_true]
    rcases pointReads_eq (d := d) hc e3 e4 with ⟨a, b⟩ | ⟨a, b⟩ <;> rw [b] <;> simp
  | false =>
    simp only [Bool.false_eq_true, if_false]
    rcases gridReads_eq (d := d) hc e3 e4 with ⟨a, b⟩ | ⟨a, b⟩
    · rw [b]
      unfold radiationReads
      rw [e2, ok_bind]
      have ha : d.has lw = true ∨ d.has n = true := a
      by_cases w : rm = .str "Wohlfahrt2016" ∨ rm = .str "none" ∨ rm = .none
      · rw [if_pos w]
        have hne : rm ≠ .str "Moelg2009" := by
          rcases w with rfl | rfl | rfl <;> decide
        have : wohlfahrtReads rd d rm = .ok () := by
          unfold wohlfahrtReads
          split_ifs
          · exact readAll_sub hr hrad (by decide)
          · rfl
        rw [this]
        simp [hne]
      · rw [if_neg w]
        by_cases m : rm = .str "Moelg2009"
        · rw [if_pos m]
          have hlr : lutReads rd = .error .key := by
            unfold lutReads
            rw [hlutv, ok_bind]
            split_ifs
            · rw [readAll, hlut, error_bind]
            · obtain ⟨v1, hv1⟩ := rd_sub hr hrad (k := "dtstep") (by decide)
              obtain ⟨v2, hv2⟩ := rd_sub hr hrad (k := "tcart") (by decide)
              rw [station_ok hc _ (by decide), ok_bind, readAll, hv1, ok_bind, readAll, hv2, ok_bind, readAll, hlut,
                error_bind]
          have : moelgReads rd d = .error .key := by
            unfold moelgReads
            rw [station_ok hc _ (by decide), ok_bind, hlr, error_bind]
          rw [this]
          simp [m, ha]
        · rw [if_neg m]
          simp [m]
    · rw [b]
      have ha : ¬ (d.has lw = true ∨ d.has n = true) := a
      simp only [ne_eq, Except.error.injEq, reduceCtorEq, not_false_eq_true, true_and, false_iff]
      exact fun hh => ha hh.2

/-- **C61, aws2cosipy with the file at the root of the repository.** With its keys (any values) reading the settings
never meets a missing section or key. -/
theorem C61_aws_root {c : UtilToml} (hn : (c.map Prod.fst).Nodup) (h : HasKeys c rootKeys)
    (cls : Store (Dict (Dict CfgVal))) (d : Data) :
    awsReads (read (load cls c) "aws2cosipy") d ≠ .error .attribute ∧
    awsReads (read (load cls c) "aws2cosipy") d ≠ .error .key := by
  have hr := readable_of_has hn h cls "aws2cosipy"
  have hc : Readable (read (load cls c) "aws2cosipy") commonKeys := common_sub hr (by decide +kernel)
  have hrad : ("radiation", ["radiationModule", "LUT", "LUT_path", "dtstep", "tcart", "timezone_lon", "zeni_thld"]) ∈
    keysOf "aws2cosipy" rootKeys := by decide +kernel
  generalize read (load cls c) "aws2cosipy" = rd at *
  obtain ⟨lw, e3⟩ := name_ok hc (k := "LWin_var") (by decide)
  obtain ⟨n, e4⟩ := name_ok hc (k := "N_var") (by decide)
  obtain ⟨lutv, hlutv⟩ := rd_sub hr hrad (k := "LUT") (by decide)
  obtain ⟨rm, e2⟩ := rd_sub hr hrad (k := "radiationModule") (by decide)
  obtain ⟨pm, e1⟩ := rd_sub hc (sec := "points") (k := "point_model") (all := ["point_model", "plon", "plat", "hgt"])
    (by unfold Util.commonKeys; simp) (by decide)
  unfold awsReads
  rw [e1, ok_bind]
  split_ifs
  · rcases pointReads_eq (d := d) hc e3 e4 with ⟨_, b⟩ | ⟨_, b⟩ <;> rw [b] <;> simp
  · rcases gridReads_eq (d := d) hc e3 e4 with ⟨_, b⟩ | ⟨_, b⟩
    · rw [b]
      unfold radiationReads
      rw [e2, ok_bind]
      split_ifs
      · have : wohlfahrtReads rd d rm = .ok () := by
          unfold wohlfahrtReads
          split_ifs
          · exact readAll_sub hr hrad (by decide)
          · rfl
        rw [this]; simp
      · have : lutReads rd = .ok () := by
          unfold lutReads
          rw [hlutv, ok_bind]
          split_ifs
          · exact readAll_sub hr hrad (by decide)
          · rw [station_ok hc _ (by decide), ok_bind]
            exact readAll_sub hr hrad (by decide)
        unfold moelgReads
        rw [station_ok hc _ (by decide), ok_bind, this, ok_bind]
        unfold moelgLoop
        split_ifs
        · simp
        · rw [e4, ok_bind, station_ok hc _ (by decide), ok_bind]
          split_ifs
          · rw [readAll_sub hr hrad (by decide)]; simp
          · simp
      · simp
    · rw [b]; simp

/-- **C61, the other utilities.** With the generated keys create_static and wrf2cosipy find all their settings. -/
theorem C61_static_wrf {c : UtilToml} (hn : (c.map Prod.fst).Nodup) (h : HasKeys c sampleKeys)
    (cls : Store (Dict (Dict CfgVal))) :
    staticReads (read (load cls c) "create_static") = .ok () ∧ wrfReads (read (load cls c) "wrf2cosipy") = .ok () := by
  have hr := readable_of_has hn h cls "create_static"
  have hw := readable_of_has hn h cls "wrf2cosipy"
  have hp : ("paths", ["static_folder", "dem_path", "shape_path", "output_file"]) ∈
    keysOf "create_static" sampleKeys := by decide +kernel
  have hq : ("coords", ["tile", "aggregate", "aggregate_degree", "longitude_upper_left", "latitude_upper_left",
     "longitude_lower_right", "latitude_lower_right"]) ∈ keysOf "create_static" sampleKeys := by decide +kernel
  have hc : ("constants", ["hu", "lu_class"]) ∈ keysOf "wrf2cosipy" sampleKeys := by decide +kernel
  constructor
  · unfold staticReads
    rw [readAll_sub hr hp (by decide), ok_bind, readAll_sub hr hq (by decide), ok_bind, readAll_sub hr hp (by decide),
      ok_bind, readAll_sub hr hq (by decide)]
  · unfold wrfReads
    exact readAll_sub hw hc (by decide)

theorem readAll_iff {rd : Reader} {sec : String} {ks : List String} : readAll rd sec ks = .ok () ↔ ∀ k ∈ ks, ∃ v, rd sec k = .ok v := by
  refine ⟨fun h => ?_, readAll_ok⟩
  induction ks with
  | nil => intro k hk; cases hk
  | cons k ks ih =>
    unfold readAll at h
    rw [bind_eq_ok] at h
    obtain ⟨v, hv, h⟩ := h
    intro q hq
    rcases List.mem_cons.1 hq with rfl | hq
    · exact ⟨v, hv⟩
    · exact ih h q hq

/-- **C61, which settings are needed.** create_static and wrf2cosipy need exactly these settings: they find what they read if and only if all are
there, whatever reads them. -/
theorem C61_needed (rd : Reader) :
    (staticReads rd = .ok () ↔ Readable rd [("paths", ["static_folder", "dem_path", "shape_path", "output_file"]),
      ("coords", ["tile", "aggregate", "aggregate_degree", "longitude_upper_left", "latitude_upper_left", "longitude_lower_right",
        "latitude_lower_right"])]) ∧
    (wrfReads rd = .ok () ↔ Readable rd [("constants", ["hu", "lu_class"])]) := by
  have unit : ∀ {x y : M Unit}, (do x; y) = .ok () ↔ x = .ok () ∧ y = .ok () := by
    intro x y
    rw [bind_eq_ok]
    exact ⟨fun ⟨u, h1, h2⟩ => ⟨h1, h2⟩, fun ⟨h1, h2⟩ => ⟨(), h1, h2⟩⟩
  constructor
  · unfold staticReads Readable
    rw [unit, unit, unit, readAll_iff, readAll_iff, readAll_iff, readAll_iff]
    simp only [List.forall_mem_cons, List.not_mem_nil, false_implies, implies_true, and_true]
    constructor
    · rintro ⟨a, ⟨b, c⟩, ⟨d, e, f⟩, g, h, i, j, k⟩
      exact ⟨⟨a, d, e, f⟩, b, c, k, g, h, i, j⟩
    · rintro ⟨⟨a, d, e, f⟩, b, c, k, g, h, i, j⟩
      exact ⟨a, ⟨b, c⟩, ⟨d, e, f⟩, g, h, i, j, k⟩
  · unfold wrfReads Readable
    rw [readAll_iff]
    simp

/-- **C61, settings of aws2cosipy.** Preparing data for a point stops unless these settings are there; so does preparing a field, with its own. -/
theorem C61_aws_needed (rd : Reader) (d : Data) :
    (pointReads rd d = .ok () → Readable rd [("coords", ["delimiter", "WRF"]), ("points", ["plon", "plat", "hgt"]), ("station", ["stationAlt"]),
      ("names", ["PRES_var", "T2_var", "in_K", "RH2_var", "G_var", "RRR_var", "U2_var", "LWin_var", "SNOWFALL_var", "N_var"]),
      ("lapse", ["lapse_T", "lapse_RH"])]) ∧
    (gridReads rd d = .ok () → Readable rd [("coords", ["delimiter", "aggregate", "WRF"]), ("station", ["stationAlt"]),
      ("names", ["PRES_var", "T2_var", "in_K", "RH2_var", "G_var", "RRR_var", "U2_var", "LWin_var", "SNOWFALL_var", "N_var"]),
      ("radiation", ["radiationModule"])]) := by
  have unit : ∀ {x y : M Unit}, (do x; y) = .ok () ↔ x = .ok () ∧ y = .ok () := by
    intro x y
    rw [bind_eq_ok]
    exact ⟨fun ⟨u, h1, h2⟩ => ⟨h1, h2⟩, fun ⟨h1, h2⟩ => ⟨(), h1, h2⟩⟩
  constructor
  · intro h
    unfold pointReads at h
    simp only [unit, readAll_iff, List.forall_mem_cons, List.not_mem_nil, false_implies, implies_true, and_true] at h
    unfold Readable
    simp only [List.forall_mem_cons, List.not_mem_nil, false_implies, implies_true, and_true]
    obtain ⟨h1, ⟨n1, n2, n3, n4, n5, n6, n7, n8, n9⟩, h2, ⟨h3, h4⟩, -, h5, h6, h7, ⟨h8, h9⟩, -⟩ := h
    exact ⟨⟨h1, h2⟩, ⟨h3, h4, h5⟩, h6, ⟨n9, n4, h7, n5, n7, n8, n6, n1, n3, n2⟩, h8, h9⟩
  · intro h
    unfold gridReads at h
    simp only [unit, readAll_iff, List.forall_mem_cons, List.not_mem_nil, false_implies, implies_true, and_true] at h
    unfold Readable
    simp only [List.forall_mem_cons, List.not_mem_nil, false_implies, implies_true, and_true]
    obtain ⟨h1, ha, h2, -, ⟨n1, n2, n3, n4, n5, n6, n7, n8, n9, n10⟩, h3, -, hr, -⟩ := h
    have ha' : ∃ v, rd "coords" "aggregate" = .ok v := by
      unfold aggregateReads at ha
      rw [bind_eq_ok] at ha
      obtain ⟨v, hv, -⟩ := ha
      exact ⟨v, hv⟩
    have hr' : ∃ v, rd "radiation" "radiationModule" = .ok v := by
      unfold radiationReads at hr
      rw [bind_eq_ok] at hr
      obtain ⟨v, hv, -⟩ := hr
      exact ⟨v, hv⟩
    exact ⟨⟨h1, ha', h2⟩, h3, ⟨n4, n6, n5, n1, n3, n7, n2, n9, n8, n10⟩, hr'⟩

/-- **C61, lapse rates.** For a point, and for a field with at least one time, the lapse rates of temperature and humidity must be there, and those
of precipitation and snowfall if the data have that column. -/
theorem C61_lapse_needed {rd : Reader} {d : Data} (h : pointReads rd d = .ok () ∨ (gridReads rd d = .ok () ∧ d.steps ≠ 0)) :
    (∃ v, rd "lapse" "lapse_T" = .ok v) ∧ (∃ v, rd "lapse" "lapse_RH" = .ok v) ∧
    ∀ p ∈ [("RRR_var", "lapse_RRR"), ("SNOWFALL_var", "lapse_SNOWFALL")], ∀ col, rd "names" p.1 = .ok col → d.has col = true →
      ∃ v, rd "lapse" p.2 = .ok v := by
  have unit : ∀ {x y : M Unit}, (do x; y) = .ok () ↔ x = .ok () ∧ y = .ok () := by
    intro x y
    rw [bind_eq_ok]
    exact ⟨fun ⟨u, h1, h2⟩ => ⟨h1, h2⟩, fun ⟨h1, h2⟩ => ⟨(), h1, h2⟩⟩
  have lapse : ∀ {var rate : String}, lapseIf rd d var rate = .ok () → ∀ col, rd "names" var = .ok col → d.has col = true →
      ∃ v, rd "lapse" rate = .ok v := by
    intro var rate hl col hc hd
    unfold lapseIf at hl
    rw [hc, ok_bind, if_pos hd, readAll_iff] at hl
    exact hl rate (by simp)
  simp only [List.forall_mem_cons, List.not_mem_nil, false_implies, implies_true, and_true]
  rcases h with h | ⟨h, hs⟩
  · unfold pointReads at h
    simp only [unit, readAll_iff, List.forall_mem_cons, List.not_mem_nil, false_implies, implies_true, and_true] at h
    obtain ⟨-, -, -, -, -, -, -, -, ⟨h1, h2⟩, h3, h4, -⟩ := h
    exact ⟨h1, h2, lapse h3, lapse h4⟩
  · unfold gridReads at h
    simp only [unit] at h
    obtain ⟨-, -, -, -, -, -, h, -⟩ := h
    unfold interpReads at h
    rw [if_neg hs] at h
    simp only [unit, readAll_iff, List.forall_mem_cons, List.not_mem_nil, false_implies, implies_true, and_true] at h
    obtain ⟨⟨h1, h2⟩, -, h3, h4⟩ := h
    exact ⟨h1, h2, lapse h3, lapse h4⟩

/-- **C61, radiation.** A field is only prepared with one of the three documented radiation modules. Wohlfahrt2016 needs the longitude of the time zone and
the limit of the zenith angle as soon as there is a glacier cell and a time; Moelg2009 needs the latitude of the station and the tables, to fill or use
them also their step, and cloud cover in the data. -/
theorem C61_radiation_needed {rd : Reader} {d : Data} (h : gridReads rd d = .ok ()) :
    ∃ m, rd "radiation" "radiationModule" = .ok m ∧ m ∈ [CfgVal.str "Wohlfahrt2016", .str "none", .none, .str "Moelg2009"] ∧
      (m = .str "Wohlfahrt2016" → d.steps ≠ 0 → d.glacier = true → Readable rd [("radiation", ["timezone_lon", "zeni_thld"])]) ∧
      (m = .str "Moelg2009" → Readable rd [("station", ["stationLat"]), ("radiation", ["LUT", "LUT_path"])]) ∧
      (m = .str "Moelg2009" → (rd "radiation" "LUT" = .ok (.bool false) ∨ d.steps ≠ 0) → Readable rd [("radiation", ["dtstep", "tcart"])]) ∧
      (m = .str "Moelg2009" → d.steps ≠ 0 → ∃ n, rd "names" "N_var" = .ok n ∧ d.has n = true) := by
  have unit : ∀ {x y : M Unit}, (do x; y) = .ok () ↔ x = .ok () ∧ y = .ok () := by
    intro x y
    rw [bind_eq_ok]
    exact ⟨fun ⟨u, h1, h2⟩ => ⟨h1, h2⟩, fun ⟨h1, h2⟩ => ⟨(), h1, h2⟩⟩
  unfold gridReads at h
  simp only [unit] at h
  obtain ⟨-, -, -, -, -, -, -, h⟩ := h
  replace h : radiationReads rd d = .ok () := by
    first
      | exact h
      | exact h.1
  unfold radiationReads at h
  rw [bind_eq_ok] at h
  obtain ⟨m, hm, h⟩ := h
  refine ⟨m, hm, ?_⟩
  unfold Readable
  simp only [List.forall_mem_cons, List.not_mem_nil, false_implies, implies_true, and_true]
  by_cases hW : m = .str "Wohlfahrt2016" ∨ m = .str "none" ∨ m = .none
  · rw [if_pos hW] at h
    have hne : m ≠ .str "Moelg2009" := by rcases hW with rfl | rfl | rfl <;> decide
    refine ⟨by rcases hW with rfl | rfl | rfl <;> simp, ?_, fun e => absurd e hne, fun e => absurd e hne, fun e => absurd e hne⟩
    intro e hs hg
    unfold wohlfahrtReads at h
    rw [if_pos ⟨hs, hg, e⟩, readAll_iff] at h
    simpa using h
  · rw [if_neg hW] at h
    by_cases hM : m = .str "Moelg2009"
    · rw [if_pos hM] at h
      unfold moelgReads at h
      simp only [unit, readAll_iff, List.forall_mem_cons, List.not_mem_nil, false_implies, implies_true, and_true] at h
      obtain ⟨h1, h2, h3⟩ := h
      unfold lutReads at h2
      rw [bind_eq_ok] at h2
      obtain ⟨lut, hl, h2⟩ := h2
      have hp : (∃ v, rd "radiation" "LUT_path" = .ok v) ∧
          (lut.truthy = false → (∃ v, rd "radiation" "dtstep" = .ok v) ∧ ∃ v, rd "radiation" "tcart" = .ok v) := by
        by_cases ht : lut.truthy = true
        · rw [if_pos ht, readAll_iff] at h2
          exact ⟨by simpa using h2, fun e => by rw [ht] at e; cases e⟩
        · rw [if_neg ht] at h2
          simp only [unit, readAll_iff, List.forall_mem_cons, List.not_mem_nil, false_implies, implies_true, and_true] at h2
          exact ⟨h2.2.2.2, fun _ => ⟨h2.2.1, h2.2.2.1⟩⟩
      have hloop : d.steps ≠ 0 → (∃ n, rd "names" "N_var" = .ok n ∧ d.has n = true) ∧
          (∃ v, rd "radiation" "dtstep" = .ok v) ∧ ∃ v, rd "radiation" "tcart" = .ok v := by
        intro hs
        unfold moelgLoop at h3
        rw [if_neg hs, bind_eq_ok] at h3
        obtain ⟨n, hn, h3⟩ := h3
        rw [unit] at h3
        obtain ⟨-, h3⟩ := h3
        by_cases hd : d.has n = true
        · rw [if_pos hd, readAll_iff] at h3
          simp only [List.forall_mem_cons, List.not_mem_nil, false_implies, implies_true, and_true] at h3
          exact ⟨⟨n, hn, hd⟩, h3⟩
        · rw [if_neg hd] at h3; cases h3
      refine ⟨by rw [hM]; simp, fun e => absurd (Or.inl e) hW, fun _ => ⟨h1, ⟨lut, hl⟩, hp.1⟩, ?_, fun _ hs => (hloop hs).1⟩
      rintro - (e | hs)
      · rw [hl] at e
        cases e
        exact hp.2 rfl
      · exact (hloop hs).2
    · rw [if_neg hM] at h; cases h

/-- `C61_lapse_needed`, `C61_radiation_needed`: a reader with Moelg2009 and all settings. -/
example : gridReads (fun _ k => .ok (if k = "radiationModule" then .str "Moelg2009" else .bool false)) ⟨fun _ => true, true, 24, true⟩ = .ok () ∧
    pointReads (fun _ _ => .ok (.bool false)) ⟨fun _ => true, true, 24, true⟩ = .ok () := by
  constructor <;> rfl

/-- `C61_needed`: without one of its settings wrf2cosipy stops. -/
example : wrfReads (fun _ k => if k = "hu" then .ok (.int 2) else .error .key) = .error .key ∧
    wrfReads (fun _ _ => .ok (.int 2)) = .ok () ∧ staticReads (fun _ _ => .ok (.int 2)) = .ok () := ⟨rfl, rfl, rfl⟩

/-- A file with given keys, all values `v` except the listed ones. -/
def Util.fileOf (keys : List (String × String × List String)) (v : String → CfgVal) : UtilToml :=
  (["aws2cosipy", "create_static", "wrf2cosipy"]).map fun tool =>
    (tool, (keysOf tool keys).map fun e => (e.1, e.2.map fun k => (k, v k)))

/-- Values used in the examples: the shipped ones that matter, with a chosen radiation module. -/
def Util.exVals (module : String) (k : String) : CfgVal :=
  if k = "radiationModule" then .str module
  else if k = "point_model" then .bool false
  else if k = "LUT" then .bool false
  else if k = "RRR_var" then .str "RRR"
  else .str k

/-- **C61 fails for generated files.** The sample file with the documented choice Moelg2009 stops with KeyError. -/
theorem C61_refuted : ∃ c : UtilToml, (c.map Prod.fst).Nodup ∧ HasKeys c sampleKeys ∧
    ∀ (cls : Store (Dict (Dict CfgVal))), awsReads (read (load cls c) "aws2cosipy") ⟨fun _ => true, true, 24, true⟩ =
      .error .key := by
  refine ⟨fileOf sampleKeys (exVals "Moelg2009"), by decide, ?_, fun cls => ?_⟩
  · have : (sampleKeys.all fun e => e.2.2.all fun k =>
        (((List.lookup e.1 (fileOf sampleKeys (exVals "Moelg2009"))).bind (List.lookup e.2.1)).bind
          (List.lookup k)).isSome) = true := by decide +kernel
    intro e he k hk
    have h1 := List.all_eq_true.1 (List.all_eq_true.1 this e he) k hk
    obtain ⟨v, hv⟩ := Option.isSome_iff_exists.1 h1
    obtain ⟨s, hs, hv⟩ := Option.bind_eq_some_iff.1 hv
    obtain ⟨t, ht, hs⟩ := Option.bind_eq_some_iff.1 hs
    exact ⟨v, t, s, ht, hs, hv⟩
  · rfl

/-- Non-vacuity: the sample file with the default module meets the hypotheses of `C61_aws_partial` and is read to the
end. -/
example : awsReads (read (load (fun _ => none) (fileOf sampleKeys (exVals "Wohlfahrt2016"))) "aws2cosipy")
    ⟨fun _ => true, true, 24, true⟩ = .ok () ∧
    ((fileOf sampleKeys (exVals "Wohlfahrt2016")).map Prod.fst).Nodup ∧
    staticReads (read (load (fun _ => none) (fileOf sampleKeys (exVals "Wohlfahrt2016"))) "create_static") = .ok () :=
  ⟨rfl, by decide, rfl⟩

/-- With the key added, Moelg2009 reads its settings, but a table without cloud cover then stops with
UnboundLocalError. -/
example : awsReads (read (load (fun _ => none) (fileOf rootKeys (exVals "Moelg2009"))) "aws2cosipy")
      ⟨fun _ => true, true, 24, true⟩ = .ok () ∧
    awsReads (read (load (fun _ => none) (fileOf rootKeys (exVals "Moelg2009"))) "aws2cosipy")
      ⟨fun v => v != .str "N_var", true, 24, true⟩ = .error .unbound := ⟨rfl, rfl⟩

/-- A misspelt section is an AttributeError, a missing tool as well. -/
example : read (load (fun _ => none) (fileOf rootKeys (exVals "none"))) "aws2cosipy" "name" "T2_var" = .error .attribute ∧
    read (load (fun _ => none) (fileOf rootKeys (exVals "none"))) "aws2cosip" "names" "T2_var" = .error .attribute :=
  ⟨rfl, rfl⟩

/-! ## The main program -/

/-- The (table, key) pairs of a file. -/
def Toml.keyPairs (c : Toml) : List (String × String) :=
  c.flatMap fun e => match e.2 with
    | .table t => t.map fun kv => (e.1, kv.1)
    | .scalar _ => []

/-- The file has the keys of `ref`, with any values, and no key outside the tables. -/
def Toml.Follows (c ref : Toml) : Prop :=
  (∀ n v, (n, TopVal.scalar v) ∉ c) ∧ ∀ e ∈ ref.keyPairs, ∃ v, c.item e.1 e.2 = .ok v

theorem Follows.setItem {c c' ref : Toml} (h : c.Follows ref) {n k : String} {v : CfgVal}
    (hs : c.setItem n k v = .ok c') : c'.Follows ref := by
  refine ⟨fun m w hm => ?_, fun e he => ?_⟩
  · obtain ⟨t, ht, rfl⟩ := Toml.setItem_eq_ok.1 hs
    rcases Dict.mem_set hm with e | hm
    · cases e
    · exact h.1 m w hm
  · rw [Toml.item_setItem hs]
    split_ifs
    · exact ⟨v, rfl⟩
    · exact h.2 e he

theorem setItem_of_item {c : Toml} {n k j : String} {w : CfgVal} (h : c.item n j = .ok w) (v : CfgVal) :
    ∃ c', c.setItem n k v = .ok c' := by
  obtain ⟨t, ht, _⟩ := Toml.item_eq_ok.1 h
  exact ⟨_, Toml.setItem_eq_ok.2 ⟨t, ht, rfl⟩⟩

theorem foldl_set_defined {β : Type} {l : List (String × β)} {k : String} (h : (∃ p ∈ l, p.1 = k)) (s : Store β) :
    ∃ v, (l.foldl (fun s p => s.set p.1 p.2) s) k = some v := by
  induction l generalizing s with
  | nil => obtain ⟨p, hp, _⟩ := h; cases hp
  | cons q l ih =>
    rw [List.foldl_cons]
    by_cases hl : ∃ p ∈ l, p.1 = k
    · exact ih hl _
    · have : ∀ p ∈ l, p.1 ≠ k := fun p hp hk => hl ⟨p, hp, hk⟩
      rw [foldl_set_absent this]
      obtain ⟨p, hp, hk⟩ := h
      rcases List.mem_cons.1 hp with rfl | hp
      · exact ⟨p.2, by unfold Store.set; rw [if_pos hk.symm]⟩
      · exact absurd hk (this p hp)

theorem mem_flat_of_item {c : Toml} {n k : String} {v : CfgVal} (h : c.item n k = .ok v) : ∃ p ∈ c.flat, p.1 = k := by
  obtain ⟨t, ht, hk⟩ := Toml.item_eq_ok.1 h
  have hm := Toml.mem_of_lookup ht
  have hk' : (k, v) ∈ t := by
    clear ht hm
    induction t with
    | nil => cases hk
    | cons p t ih =>
      rw [List.lookup_cons] at hk
      by_cases e : k = p.1
      · subst e
        rw [beq_self_eq_true] at hk
        cases hk
        exact List.mem_cons_self
      · rw [beq_false_of_ne e] at hk
        exact List.mem_cons_of_mem _ (ih hk)
  exact ⟨(k, v), List.mem_flatMap.2 ⟨_, hm, hk'⟩, rfl⟩

theorem load_follows {c ref : Toml} (h : c.Follows ref) (s : Store CfgVal) :
    ∃ s', setConfigValues s c = .ok s' ∧ ∀ e ∈ ref.keyPairs, ∃ v, s' e.2 = some v := by
  obtain ⟨s', hs⟩ := (C49_fails_iff c s).2 h.1
  refine ⟨s', hs, fun e he => ?_⟩
  obtain ⟨v, hv⟩ := h.2 e he
  rw [setConfigValues_eq_ok hs]
  exact foldl_set_defined (mem_flat_of_item hv) s

/-- **C61, main program.** Every configuration file with the shipped keys (any values, in any order, with further tables
and keys) loads, and afterwards every setting the program reads is defined. -/
theorem C61_config {c : Toml} (h : c.Follows shippedConfig) (cls : Store CfgVal) :
    ∃ s', configLoad cls c = .ok s' ∧ ∀ a ∈ configAttributes, ∃ v, s' a = some v := by
  have key : ∀ n k, (n, k) ∈ shippedConfig.keyPairs → ∀ {c : Toml}, c.Follows shippedConfig → ∃ v, c.item n k = .ok v :=
    fun n k hm c hc => hc.2 (n, k) hm
  have corr : ∃ c', configCorrect c = .ok c' ∧ c'.Follows shippedConfig := by
    obtain ⟨wrf, h1⟩ := key "DIMENSIONS" "WRF" (by decide +kernel) h
    have s1 : ∃ c1, correctWrf c wrf = .ok c1 ∧ c1.Follows shippedConfig := by
      unfold correctWrf
      split_ifs
      · obtain ⟨d1, hd1⟩ := setItem_of_item (k := "northing") h1 (.str "south_north")
        have f1 := Follows.setItem h hd1
        obtain ⟨w, hw⟩ := key "DIMENSIONS" "WRF" (by decide +kernel) f1
        obtain ⟨d2, hd2⟩ := setItem_of_item (k := "easting") hw (.str "west_east")
        exact ⟨d2, by rw [hd1, ok_bind, hd2], Follows.setItem f1 hd2⟩
      · exact ⟨c, rfl, h⟩
    obtain ⟨c1, e1, f1⟩ := s1
    obtain ⟨cp, h2⟩ := key "DIMENSIONS" "WRF_X_CSPY" (by decide +kernel) f1
    have s2 : ∃ c2, correctCoupled c1 cp = .ok c2 ∧ c2.Follows shippedConfig := by
      unfold correctCoupled
      split_ifs
      · obtain ⟨w, hw⟩ := key "FULL_FIELDS" "full_field" (by decide +kernel) f1
        obtain ⟨d1, hd1⟩ := setItem_of_item (k := "full_field") hw (.bool true)
        exact ⟨d1, hd1, Follows.setItem f1 hd1⟩
      · exact ⟨c1, rfl, f1⟩
    obtain ⟨c2, e2, f2⟩ := s2
    obtain ⟨wk, h3⟩ := key "PARALLELIZATION" "workers" (by decide +kernel) f2
    have s3 : ∃ c3, correctWorkers c2 wk = .ok c3 ∧ c3.Follows shippedConfig := by
      unfold correctWorkers
      split_ifs
      · obtain ⟨d1, hd1⟩ := setItem_of_item (k := "workers") h3 .none
        exact ⟨d1, hd1, Follows.setItem f2 hd1⟩
      · exact ⟨c2, rfl, f2⟩
    obtain ⟨c3, e3, f3⟩ := s3
    refine ⟨c3, ?_, f3⟩
    unfold configCorrect
    rw [h1, ok_bind, e1, ok_bind, h2, ok_bind, e2, ok_bind, h3, ok_bind, e3]
  obtain ⟨c', hc', f⟩ := corr
  obtain ⟨s', hs', hd⟩ := load_follows f cls
  refine ⟨s', by unfold configLoad; rw [hc', ok_bind, hs'], fun a ha => ?_⟩
  have : (configAttributes.all fun a => shippedConfig.keyPairs.any fun e => e.2 == a) = true := by decide +kernel
  obtain ⟨e, he, hea⟩ := List.any_eq_true.1 (List.all_eq_true.1 this a ha)
  rw [← beq_iff_eq.1 hea]
  exact hd e he

/-- **C61, constants.** Every constants file with the shipped keys loads after such a configuration, and every constant
is defined. -/
theorem C61_constants {c k : Toml} (h : c.Follows shippedConfig) (hk : k.Follows shippedConstants)
    (cls cls' : Store CfgVal) : ∃ s z, configLoad cls c = .ok s ∧ constantsLoad s cls' k = .ok z ∧
      ∀ e ∈ shippedConstants.keyPairs, ∃ v, z e.2 = some v := by
  obtain ⟨s, hs, hd⟩ := C61_config h cls
  obtain ⟨cp, hcp⟩ := hd "WRF_X_CSPY" (by decide)
  have corr : ∃ k', constantsCorrect cp k = .ok k' ∧ k'.Follows shippedConstants := by
    unfold constantsCorrect
    split_ifs
    · obtain ⟨w, hw⟩ := hk.2 ("PARAMETERIZATIONS", "albedo_method") (by decide +kernel)
      obtain ⟨d1, hd1⟩ := setItem_of_item (k := "albedo_method") hw (.str "Oerlemans98")
      have f1 := Follows.setItem hk hd1
      obtain ⟨w', hw'⟩ := f1.2 ("PARAMETERIZATIONS", "albedo_method") (by decide +kernel)
      obtain ⟨d2, hd2⟩ := setItem_of_item (k := "stability_correction") hw' (.str "MO")
      exact ⟨d2, by rw [hd1, ok_bind, hd2], Follows.setItem f1 hd2⟩
    · exact ⟨k, rfl, hk⟩
  obtain ⟨k', hk', f⟩ := corr
  obtain ⟨z, hz, hdz⟩ := load_follows f cls'
  refine ⟨s, z, hs, ?_, hdz⟩
  unfold constantsLoad
  have : s.get "WRF_X_CSPY" = .ok cp := by unfold Store.get; rw [hcp]
  rw [this, ok_bind, hk', ok_bind, hz]

/-- Executable form of `Follows`. -/
def followsB (c ref : Toml) : Bool :=
  (c.all fun e => match e.2 with | .table _ => true | .scalar _ => false) &&
  (ref.keyPairs.all fun e => match c.item e.1 e.2 with | .ok _ => true | .error _ => false)

theorem follows_of_bool {c ref : Toml} (h : followsB c ref = true) : c.Follows ref := by
  unfold followsB at h
  rw [Bool.and_eq_true] at h
  refine ⟨fun n v hm => ?_, fun e he => ?_⟩
  · have := List.all_eq_true.1 h.1 _ hm
    cases this
  · have := List.all_eq_true.1 h.2 e he
    cases hx : c.item e.1 e.2 with
    | ok v => exact ⟨v, rfl⟩
    | error x => rw [hx] at this; cases this

/-- Non-vacuity: the shipped files themselves. -/
example : shippedConfig.Follows shippedConfig ∧ shippedConstants.Follows shippedConstants :=
  ⟨follows_of_bool (by decide +kernel), follows_of_bool (by decide +kernel)⟩

/-! ## Converted files -/

theorem lookup_map_self {β : Type} (ks : List String) (f : String → β) {k : String} (hk : k ∈ ks) :
    List.lookup k (ks.map fun a => (a, f a)) = some (f k) := by
  induction ks with
  | nil => cases hk
  | cons a ks ih =>
    rw [List.map_cons, List.lookup_cons]
    by_cases e : k = a
    · subst e; rw [beq_self_eq_true]
    · rw [beq_false_of_ne e]
      exact ih ((List.mem_cons.1 hk).resolve_left e)

theorem lookup_map_table {pairs : List (String × List String)} (hn : (pairs.map Prod.fst).Nodup)
    (f : List String → TopVal) {n : String} {ks : List String} (hm : (n, ks) ∈ pairs) :
    List.lookup n (pairs.map fun p => (p.1, f p.2)) = some (f ks) := by
  induction pairs with
  | nil => cases hm
  | cons p pairs ih =>
    rw [List.map_cons, List.nodup_cons] at hn
    rw [List.map_cons, List.lookup_cons]
    rcases List.mem_cons.1 hm with rfl | hm
    · rw [beq_self_eq_true]
    · have : n ≠ p.1 := fun e => hn.1 (e ▸ List.mem_map_of_mem (f := Prod.fst) hm)
      rw [beq_false_of_ne this]
      exact ih hn.2 hm

/-- What a setting of the old configuration becomes: missing and `None` are written as 0. -/
def oldValue (mod : Store CfgVal) (a : String) : CfgVal :=
  match mod a with
  | some .none => .int 0
  | some v => v
  | none => .int 0

theorem setModuleParams_item (mod : Store CfgVal) {pairs : List (String × List String)}
    (hn : (pairs.map Prod.fst).Nodup) {n k : String} {ks : List String} (hm : (n, ks) ∈ pairs) (hk : k ∈ ks) :
    (setModuleParams mod pairs).item n k = .ok (oldValue mod k) := by
  rw [Toml.item_eq_ok]
  refine ⟨_, lookup_map_table hn (fun ks => .table (ks.map fun a => (a, oldValue mod a))) hm, ?_⟩
  exact lookup_map_self ks (oldValue mod) hk

theorem setModuleParams_noScalar (mod : Store CfgVal) (pairs : List (String × List String)) (n : String) (v : CfgVal) :
    (n, TopVal.scalar v) ∉ setModuleParams mod pairs := by
  intro h
  unfold setModuleParams at h
  obtain ⟨p, _, hp⟩ := List.mem_map.1 h
  cases hp

/-- **C61, converter.** For every old configuration module, file name and output selection the converter produces a file
with the shipped keys, so the new program loads it with every setting defined; the values are those of the old module,
with 0 for missing settings, and the output prefix is derived from the file name. -/
theorem C61_convert (mod : Store CfgVal) (name : String) (out : CfgVal × CfgVal × CfgVal) :
    ∃ c, convertConfig mod name out = .ok c ∧ c.Follows shippedConfig ∧
      (∀ e ∈ convertConfigKeys, ∀ k ∈ e.2, k ≠ "output_prefix" → c.item e.1 k = .ok (oldValue mod k)) ∧
      c.item "FILENAMES" "output_prefix" = .ok (.str (String.ofList (outputPrefix name.toList))) := by
  have hn : (convertConfigKeys.map Prod.fst).Nodup := by decide +kernel
  have hf : ("FILENAMES", ["data_path", "input_netcdf", "output_prefix"]) ∈ convertConfigKeys := by decide +kernel
  obtain ⟨c1, h1⟩ := setItem_of_item (k := "output_prefix")
    (setModuleParams_item mod hn hf (k := "output_prefix") (by decide))
    (.str (String.ofList (outputPrefix name.toList)))
  have e1 : convertConfig mod name out = .ok (Dict.set c1 "OUTPUT_VARIABLES" (.table [("output_atm", out.1),
      ("output_internal", out.2.1), ("output_full", out.2.2)])) := by
    unfold convertConfig
    rw [h1, ok_bind]; rfl
  have look : ∀ n k, n ≠ "OUTPUT_VARIABLES" → Toml.item (Dict.set c1 "OUTPUT_VARIABLES" (.table [("output_atm", out.1),
      ("output_internal", out.2.1), ("output_full", out.2.2)])) n k = c1.item n k := by
    intro n k hne
    unfold Toml.item Toml.table Dict.get
    rw [Dict.lookup_set, if_neg hne]
  have vals : ∀ e ∈ convertConfigKeys, ∀ k ∈ e.2, c1.item e.1 k =
      if e.1 = "FILENAMES" ∧ k = "output_prefix" then .ok (.str (String.ofList (outputPrefix name.toList)))
      else .ok (oldValue mod k) := by
    intro e he k hk
    rw [Toml.item_setItem h1]
    split_ifs
    · rfl
    · exact setModuleParams_item mod hn (n := e.1) (ks := e.2) he hk
  have hne : ∀ e ∈ convertConfigKeys, e.1 ≠ "OUTPUT_VARIABLES" := by decide +kernel
  refine ⟨_, e1, ⟨fun n v hm => ?_, fun e he => ?_⟩, fun e he k hk hne' => ?_, ?_⟩
  · rcases Dict.mem_set hm with e | hm
    · cases e
    · obtain ⟨t, ht, rfl⟩ := Toml.setItem_eq_ok.1 h1
      rcases Dict.mem_set hm with e | hm
      · cases e
      · exact setModuleParams_noScalar mod _ n v hm
  · have : (shippedConfig.keyPairs.all fun e =>
        (e.1 == "OUTPUT_VARIABLES" && ["output_atm", "output_internal", "output_full"].contains e.2) ||
        convertConfigKeys.any fun q => q.1 == e.1 && q.2.contains e.2) = true := by decide +kernel
    have := List.all_eq_true.1 this e he
    rw [Bool.or_eq_true] at this
    rcases this with hx | hx
    · rw [Bool.and_eq_true, beq_iff_eq] at hx
      have hmem : e.2 ∈ ["output_atm", "output_internal", "output_full"] := by simpa using hx.2
      rw [hx.1]
      unfold Toml.item Toml.table Dict.get
      rw [Dict.lookup_set, if_pos rfl]
      simp only [List.mem_cons, List.not_mem_nil, or_false] at hmem
      rcases hmem with h | h | h <;> rw [h] <;> exact ⟨_, rfl⟩
    · obtain ⟨q, hq, hq2⟩ := List.any_eq_true.1 hx
      rw [Bool.and_eq_true, beq_iff_eq] at hq2
      have hk : e.2 ∈ q.2 := by simpa using hq2.2
      rw [← hq2.1, look _ _ (hne q hq), vals q hq e.2 hk]
      split_ifs <;> exact ⟨_, rfl⟩
  · rw [look _ _ (hne e he), vals e he k hk, if_neg fun hh => hne' hh.2]
  · rw [look _ _ (by decide), vals _ hf "output_prefix" (by decide), if_pos ⟨rfl, rfl⟩]

/-- **C61, converter, constants.** The same for the constants. -/
theorem C61_convert_constants (mod : Store CfgVal) : (convertConstants mod).Follows shippedConstants ∧
    ∀ e ∈ convertConstantsKeys, ∀ k ∈ e.2, (convertConstants mod).item e.1 k = .ok (oldValue mod k) := by
  have hn : (convertConstantsKeys.map Prod.fst).Nodup := by decide +kernel
  have vals : ∀ e ∈ convertConstantsKeys, ∀ k ∈ e.2, (convertConstants mod).item e.1 k = .ok (oldValue mod k) :=
    fun e he k hk => setModuleParams_item mod hn (n := e.1) (ks := e.2) he hk
  refine ⟨⟨setModuleParams_noScalar mod _, fun e he => ?_⟩, vals⟩
  have : (shippedConstants.keyPairs.all fun e => convertConstantsKeys.any fun q => q.1 == e.1 && q.2.contains e.2) =
    true := by decide +kernel
  obtain ⟨q, hq, hq2⟩ := List.any_eq_true.1 (List.all_eq_true.1 this e he)
  rw [Bool.and_eq_true, beq_iff_eq] at hq2
  exact ⟨_, by rw [← hq2.1]; exact vals q hq e.2 (by simpa using hq2.2)⟩

/-- Non-vacuity: an old module with three settings; the old `workers = None` survives the round trip through 0. -/
example : (do
    let c ← convertConfig (fun a => if a = "workers" then some .none else if a = "tile" then some (.bool true) else
      if a = "time_start" then some (.str "2009-01-01T06:00") else none) "Zhadang_ERA5_20090101-20091231.nc"
        (.str "T2", .str "MB", .str "RHO")
    let s ← configLoad (fun _ => none) c
    return ["workers", "tile", "time_start", "output_prefix", "restart"].map s) =
    (.ok [some .none, some (.bool true), some (.str "2009-01-01T06:00"), some (.str "Zhadang_ERA5"), some (.int 0)] : M _) := by
  decide +kernel

/-! ## Converted settings of the utilities -/

theorem lookup_sections {β : Type} {pairs : List (String × List String)} (hn : (pairs.map Prod.fst).Nodup)
    (f : String → List String → β) {n : String} {ks : List String} (hm : (n, ks) ∈ pairs) :
    List.lookup n (pairs.map fun p => (p.1, f p.1 p.2)) = some (f n ks) := by
  induction pairs with
  | nil => cases hm
  | cons p pairs ih =>
    rw [List.map_cons, List.nodup_cons] at hn
    rw [List.map_cons, List.lookup_cons]
    rcases List.mem_cons.1 hm with rfl | hm
    · rw [beq_self_eq_true]
    · have : n ≠ p.1 := fun e => hn.1 (e ▸ List.mem_map_of_mem (f := Prod.fst) hm)
      rw [beq_false_of_ne this]
      exact ih hn.2 hm

theorem lookup_moduleSections (mod : Store CfgVal) {pairs : List (String × List String)} (hn : (pairs.map Prod.fst).Nodup)
    {n : String} {ks : List String} (hm : (n, ks) ∈ pairs) :
    List.lookup n (moduleSections mod pairs) = some (ks.map fun a => (a, oldValue mod a)) :=
  lookup_sections hn (fun _ ks => ks.map fun a => (a, oldValue mod a)) hm

/-- **C61, converter, utilities.** For all old configuration modules of aws2cosipy and wrf2cosipy the converted file has exactly one value for
every setting the sample file has: that of the old module, with 0 for missing settings and `None`. It has no `LUT_path`. The settings of
create_static are placeholders. Hence the three programs find in it what they find in the sample file (`C61_aws_partial`, `C61_static_wrf`). -/
theorem C61_convert_utilities (aws wrf : Store CfgVal) :
    ((convertUtilities aws wrf).map Prod.fst).Nodup ∧ HasKeys (convertUtilities aws wrf) sampleKeys ∧
    (∀ e ∈ keysOf "aws2cosipy" sampleKeys, ∀ k ∈ e.2, Gives (convertUtilities aws wrf) "aws2cosipy" e.1 k (oldValue aws k)) ∧
    (∀ e ∈ keysOf "wrf2cosipy" sampleKeys, ∀ k ∈ e.2, Gives (convertUtilities aws wrf) "wrf2cosipy" e.1 k (oldValue wrf k)) ∧
    (∀ e ∈ keysOf "create_static" sampleKeys, ∀ k ∈ e.2, Gives (convertUtilities aws wrf) "create_static" e.1 k
      (if e.1 = "paths" then .str "" else if k = "tile" ∨ k = "aggregate" then .bool true else .float 0 0)) ∧
    ∀ v, ¬ Gives (convertUtilities aws wrf) "aws2cosipy" "radiation" "LUT_path" v := by
  have hA : keysOf "aws2cosipy" sampleKeys = convertAwsKeys := by decide +kernel
  have hS : keysOf "create_static" sampleKeys = convertStaticKeys := by decide +kernel
  have hW : keysOf "wrf2cosipy" sampleKeys = [("constants", ["hu", "lu_class"])] := by decide +kernel
  have na : (convertAwsKeys.map Prod.fst).Nodup := by decide +kernel
  have ns : (convertStaticKeys.map Prod.fst).Nodup := by decide +kernel
  have nw : (([("constants", ["hu", "lu_class"])] : List (String × List String)).map Prod.fst).Nodup := by decide +kernel
  have a1 : ∀ e ∈ keysOf "aws2cosipy" sampleKeys, ∀ k ∈ e.2,
      Gives (convertUtilities aws wrf) "aws2cosipy" e.1 k (oldValue aws k) := by
    rw [hA]
    intro e he k hk
    exact ⟨_, _, rfl, lookup_moduleSections aws na (n := e.1) (ks := e.2) he, lookup_map_self e.2 (oldValue aws) hk⟩
  have a2 : ∀ e ∈ keysOf "wrf2cosipy" sampleKeys, ∀ k ∈ e.2,
      Gives (convertUtilities aws wrf) "wrf2cosipy" e.1 k (oldValue wrf k) := by
    rw [hW]
    intro e he k hk
    exact ⟨_, _, rfl, lookup_moduleSections wrf nw (n := e.1) (ks := e.2) he, lookup_map_self e.2 (oldValue wrf) hk⟩
  have a3 : ∀ e ∈ keysOf "create_static" sampleKeys, ∀ k ∈ e.2, Gives (convertUtilities aws wrf) "create_static" e.1 k
      (if e.1 = "paths" then .str "" else if k = "tile" ∨ k = "aggregate" then .bool true else .float 0 0) := by
    rw [hS]
    intro e he k hk
    have hv : (if e.1 = "paths" then CfgVal.str "" else if k = "tile" ∨ k = "aggregate" then .bool true else .float 0 0) =
        staticPlaceholder e.1 k := by
      have : ∀ e ∈ convertStaticKeys, ∀ k ∈ e.2,
          (if e.1 = "paths" then CfgVal.str "" else if k = "tile" ∨ k = "aggregate" then .bool true else .float 0 0) =
            staticPlaceholder e.1 k := by decide +kernel
      exact this e he k hk
    rw [hv]
    exact ⟨_, _, rfl, lookup_sections ns (fun n ks => ks.map fun a => (a, staticPlaceholder n a)) (n := e.1) (ks := e.2) he,
      lookup_map_self e.2 (staticPlaceholder e.1) hk⟩
  refine ⟨show (["aws2cosipy", "create_static", "wrf2cosipy"] : List String).Nodup by decide, fun e he k hk => ?_, a1, a2, a3, ?_⟩
  · have hm : ∀ e ∈ sampleKeys, e.1 = "aws2cosipy" ∨ e.1 = "create_static" ∨ e.1 = "wrf2cosipy" := by decide +kernel
    have mk : ∀ t, e.1 = t → e.2 ∈ keysOf t sampleKeys := fun t ht =>
      List.mem_filterMap.2 ⟨e, he, by rw [if_pos ht]⟩
    rcases hm e he with h | h | h
    · rw [h]; exact ⟨_, a1 _ (mk _ h) k hk⟩
    · rw [h]; exact ⟨_, a3 _ (mk _ h) k hk⟩
    · rw [h]; exact ⟨_, a2 _ (mk _ h) k hk⟩
  · rintro v ⟨t, s, h1, h2, h3⟩
    obtain rfl : moduleSections aws convertAwsKeys = t := Option.some.inj h1
    rw [lookup_moduleSections aws na (n := "radiation")
      (ks := ["radiationModule", "LUT", "dtstep", "tcart", "timezone_lon", "zeni_thld"]) (by decide +kernel)] at h2
    obtain rfl := Option.some.inj h2
    simp [List.lookup] at h3

/-- **C61, converter, all files.** The converter always writes its three files, and they are those of the theorems above. -/
theorem C61_convert_all (config constants aws wrf : Store CfgVal) (name : String) (out : CfgVal × CfgVal × CfgVal) :
    ∃ c, convertAll config constants aws wrf name out = .ok (c, convertConstants constants, convertUtilities aws wrf) ∧
      convertConfig config name out = .ok c := by
  obtain ⟨c, hc, _⟩ := C61_convert config name out
  refine ⟨c, ?_, hc⟩
  unfold convertAll
  rw [hc, ok_bind]; rfl

/-- **C61, refuted for converted files.** aws2cosipy takes `radiationModule = None` as no correction of the radiation; from an old configuration
with that value the converter writes 0, with which aws2cosipy always stops in grid mode, where it had not before. -/
theorem C61_convert_refuted (aws wrf : Store CfgVal) (cls : Store (Dict (Dict CfgVal))) (d : Data) (h : aws "radiationModule" = some .none)
    (hp : aws "point_model" = some (.bool false)) :
    awsReads (read (load cls (convertUtilities aws wrf)) "aws2cosipy") d = .error .value ∧
      ∀ (rd : Reader), rd "radiation" "radiationModule" = .ok .none → radiationReads rd d = .ok () := by
  obtain ⟨hn, hk, ha, _⟩ := C61_convert_utilities aws wrf
  have hr := readable_of_has hn hk cls "aws2cosipy"
  have hc : Readable (read (load cls (convertUtilities aws wrf)) "aws2cosipy") commonKeys := common_sub hr (by decide +kernel)
  have g : ∀ sec k, (sec, k) ∈ (keysOf "aws2cosipy" sampleKeys).flatMap (fun e => e.2.map fun k => (e.1, k)) →
      read (load cls (convertUtilities aws wrf)) "aws2cosipy" sec k = .ok (oldValue aws k) := by
    intro sec k hm
    obtain ⟨e, he, hm⟩ := List.mem_flatMap.1 hm
    obtain ⟨k', hk', e'⟩ := List.mem_map.1 hm
    cases e'
    exact read_of_gives hn (ha e he k hk') cls
  have h1 := g "points" "point_model" (by decide +kernel)
  have h2 := g "radiation" "radiationModule" (by decide +kernel)
  have h3 := g "names" "LWin_var" (by decide +kernel)
  have h4 := g "names" "N_var" (by decide +kernel)
  have hv1 : oldValue aws "point_model" = .bool false := by unfold oldValue; rw [hp]
  have hv2 : oldValue aws "radiationModule" = .int 0 := by unfold oldValue; rw [h]
  constructor
  · unfold awsReads
    rw [h1, hv1, ok_bind, if_neg (by decide)]
    rcases gridReads_eq (d := d) hc h3 h4 with ⟨_, e⟩ | ⟨_, e⟩
    · rw [e]
      unfold radiationReads
      rw [h2, hv2, ok_bind, if_neg (by decide), if_neg (by decide)]
    · exact e
  · intro rd hrd
    unfold radiationReads
    rw [hrd, ok_bind, if_pos (Or.inr (Or.inr rfl))]
    unfold wohlfahrtReads
    rw [if_neg (fun h => by have := h.2.2; cases this)]

/-- Old modules as in `C61_convert_refuted`, and with a radiation module, whose file aws2cosipy reads to the end. -/
example : let old (rm : CfgVal) : Store CfgVal := fun k =>
      if k = "radiationModule" then some rm else if k = "point_model" then some (.bool false) else if k = "RRR_var" then some (.str "RRR") else none
    awsReads (read (load (fun _ => none) (convertUtilities (old .none) fun _ => none)) "aws2cosipy") ⟨fun _ => true, true, 24, true⟩ =
      .error .value ∧
    awsReads (read (load (fun _ => none) (convertUtilities (old (.str "none")) fun _ => none)) "aws2cosipy") ⟨fun _ => true, true, 24, true⟩ =
      .ok () := ⟨rfl, rfl⟩

/-! ## The output prefix -/

theorem splitOn_ne_nil (sep : Char) (l : List Char) : splitOn sep l ≠ [] := by
  induction l with
  | nil => simp [splitOn]
  | cons c cs ih =>
    unfold splitOn
    split_ifs
    · simp
    · split <;> simp

theorem splitOn_absent {sep : Char} {l : List Char} (h : sep ∉ l) : splitOn sep l = [l] := by
  induction l with
  | nil => rfl
  | cons c cs ih =>
    rw [List.mem_cons, not_or] at h
    unfold splitOn
    rw [if_neg (fun e => h.1 e.symm), ih h.2]

theorem splitOn_append {sep : Char} (p : List Char) {d : List Char} (h : sep ∉ d) :
    splitOn sep (p ++ sep :: d) = splitOn sep p ++ [d] := by
  induction p with
  | nil =>
    rw [List.nil_append]
    conv_lhs => unfold splitOn
    rw [if_pos rfl, splitOn_absent h]; rfl
  | cons c cs ih =>
    rw [List.cons_append]
    by_cases e : c = sep
    · rw [splitOn, if_pos e, ih, splitOn, if_pos e]; rfl
    · rw [splitOn, if_neg e, ih, splitOn, if_neg e]
      cases hs : splitOn sep cs with
      | nil => exact absurd hs (splitOn_ne_nil _ _)
      | cons a as => rfl

theorem joinWith_splitOn (sep : Char) (l : List Char) : joinWith sep (splitOn sep l) = l := by
  induction l with
  | nil => rfl
  | cons c cs ih =>
    unfold splitOn
    split_ifs with e
    · cases hs : splitOn sep cs with
      | nil => exact absurd hs (splitOn_ne_nil _ _)
      | cons a as => rw [hs] at ih; rw [joinWith, ih, e]; rfl; simp
    · cases hs : splitOn sep cs with
      | nil => exact absurd hs (splitOn_ne_nil _ _)
      | cons a as =>
        rw [hs] at ih
        cases as with
        | nil => rw [joinWith] at ih; rw [← ih]; rfl
        | cons b bs => rw [joinWith] at ih; rw [← ih]; rfl; simp

/-- **C61, output prefix.** For a name `prefix_date` (the date part without underscore) the converter recovers the prefix
exactly, however many underscores it has; for a name without underscore and a single dot it drops the extension. -/
theorem C61_prefix_partial (p d : List Char) :
    ('_' ∉ d → outputPrefix (p ++ '_' :: d) = p) ∧
    ('_' ∉ p → '_' ∉ d → '.' ∉ p → '.' ∉ d → outputPrefix (p ++ '.' :: d) = p) := by
  refine ⟨fun h => ?_, fun h1 h2 h3 h4 => ?_⟩
  · unfold outputPrefix
    rw [if_pos (by simp), splitOn_append p h, List.dropLast_concat, joinWith_splitOn]
  · unfold outputPrefix
    rw [if_neg (by simp [h1, h2]), splitOn_append p h4, List.dropLast_concat, splitOn_absent h3]
    rfl

/-- **The prefix is not always the name without extension**: an underscore outside the date part cuts the name, dots
become underscores. -/
theorem C61_prefix_refuted :
    outputPrefix "my_output.nc".toList = "my".toList ∧ outputPrefix "a.b.nc".toList = "a_b".toList := by
  decide +kernel

/-- Non-vacuity of `C61_prefix_partial`. -/
example : outputPrefix "Zhadang_ERA5_2009.nc".toList = "Zhadang_ERA5".toList ∧
    outputPrefix "out.nc".toList = "out".toList := by decide +kernel

end Cosipy
