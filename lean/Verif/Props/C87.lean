import Verif.Model.Prepared
import Verif.Props.C50

/-!
# C87: the checks of preparation and simulation agree

aws2cosipy and wrf2cosipy warn about values out of range before the simulation prints "ok" or not for the same
variables.
-/

set_option autoImplicit false
set_option linter.unusedSectionVars false

namespace Cosipy.Aws

section
variable {K : Type} [Field K] [LinearOrder K] [IsStrictOrderedRing K]

/-- A field is warned about iff the routine of the simulation would not say ok with the same bounds. -/
theorem warns_eq (field : List (Option K)) (mx mn : K) : warns field mx mn = (checkField field mx mn).map not := by
  unfold warns checkField
  cases nanMax field with
  | error e => rfl
  | ok hi =>
    rw [ok_bind, ok_bind]
    by_cases h : optGt hi mx = true
    · rw [if_pos h, if_pos h]; rfl
    · rw [if_neg h, if_neg h]
      cases nanMin field with
      | error e => rfl
      | ok lo =>
        rw [ok_bind, ok_bind]
        cases optLt lo mn <;> rfl

/-- **C87, the routine.** A non-empty field is warned about iff some value that is not NaN is out of the bounds. -/
theorem C87_routine {field : List (Option K)} (hne : field ≠ []) (mx mn : K) :
    ∃ w, warns field mx mn = .ok w ∧ (w = true ↔ ¬ InRange field mn mx) := by
  obtain ⟨b, hb, hi⟩ := C50_routine hne mx mn
  refine ⟨!b, by rw [warns_eq, hb]; rfl, ?_⟩
  rw [← hi]
  cases b <;> simp

theorem warnings_mem {bounds : List (String × K × K)} {data : Store (List (Option K))} {ws : List (String × Bool)}
    (h : warnings bounds data = .ok ws) {name : String} {w : Bool} (hm : (name, w) ∈ ws) :
    ∃ mx mn field, (name, mx, mn) ∈ bounds ∧ data name = some field ∧ warns field mx mn = .ok w := by
  unfold warnings at h
  rw [mapM_eq_ok_iff] at h
  obtain ⟨hl, hall⟩ := List.forall₂_iff_get.1 h
  obtain ⟨i, hi, hpi⟩ := List.getElem_of_mem hm
  have := hall i (by rw [hl]; exact hi) hi
  have hin := List.getElem_mem (by rw [hl]; exact hi :
    i < (bounds.filterMap fun e => (data e.1).map fun f => (e.1, f, e.2)).length)
  obtain ⟨e, he, hf⟩ := List.mem_filterMap.1 hin
  simp only [List.get_eq_getElem] at this
  rw [hpi, ] at this
  simp only [bind_eq_ok, pure_eq_ok] at this
  obtain ⟨w', hw, heq⟩ := this
  cases hd : data e.1 with
  | none => rw [hd] at hf; cases hf
  | some f =>
    rw [hd] at hf
    have hf := Option.some.inj hf
    rw [← hf] at hw heq
    injection heq with h1 h2
    subst h1 h2
    exact ⟨e.2.1, e.2.2, f, he, hd, hw⟩

/-- Every listed variable of the data is reported. -/
theorem warnings_complete {bounds : List (String × K × K)} {data : Store (List (Option K))} {ws : List (String × Bool)}
    (h : warnings bounds data = .ok ws) {name : String} {mx mn : K} (hb : (name, mx, mn) ∈ bounds) {field : List (Option K)}
    (hd : data name = some field) : ∃ w, (name, w) ∈ ws := by
  unfold warnings at h
  rw [mapM_eq_ok_iff] at h
  obtain ⟨hl, hall⟩ := List.forall₂_iff_get.1 h
  have hin : (name, field, mx, mn) ∈ bounds.filterMap fun e => (data e.1).map fun f => (e.1, f, e.2) :=
    List.mem_filterMap.2 ⟨_, hb, by simp [hd]⟩
  obtain ⟨i, hi, hpi⟩ := List.getElem_of_mem hin
  have := hall i hi (by rw [← hl]; exact hi)
  simp only [List.get_eq_getElem, hpi, bind_eq_ok, pure_eq_ok] at this
  obtain ⟨w, _, he⟩ := this
  exact ⟨w, by rw [he]; exact List.getElem_mem _⟩

/-- What aws2cosipy takes for plausible: lowest and highest value of a variable. -/
def PlausibleStation (name : String) (lo hi : K) : Prop :=
  match name with
  | "T2" => lo = 223.16 ∧ hi = 316.16
  | "RH2" => lo = 0 ∧ hi = 100
  | "U2" => lo = 0 ∧ hi = 50
  | "G" => lo = 0 ∧ hi = 1600
  | "PRES" => lo = 200 ∧ hi = 1080
  | "RRR" => lo = 0 ∧ hi = 20
  | "SNOWFALL" => lo = 0 ∧ hi = 0.05
  | "LWin" => lo = 0 ∧ hi = 400
  | "N" => lo = 0 ∧ hi = 1
  | _ => False

/-- Likewise for wrf2cosipy. -/
def PlausibleWrf (name : String) (lo hi : K) : Prop :=
  match name with
  | "T2" => lo = 223.16 ∧ hi = 316.16
  | "RH2" => lo = 0 ∧ hi = 100
  | "SNOWFALL" => lo = 0 ∧ hi = 1
  | "U2" => lo = 0 ∧ hi = 50
  | "G" => lo = 0 ∧ hi = 1600
  | "PRES" => lo = 200 ∧ hi = 1080
  | "LWin" => lo = 100 ∧ hi = 500
  | _ => False

theorem warned {bounds : List (String × K × K)} {P : String → K → K → Prop}
    (h1 : ∀ n mx mn, (n, mx, mn) ∈ bounds → ∀ lo hi, P n lo hi → mn = lo ∧ mx = hi) (h2 : ∀ n lo hi, P n lo hi → (n, hi, lo) ∈ bounds)
    {data : Store (List (Option K))} {ws : List (String × Bool)} (h : warnings bounds data = .ok ws) {n : String} {lo hi : K}
    (hp : P n lo hi) {field : List (Option K)} (hd : data n = some field) (hne : field ≠ []) :
    ((n, true) ∈ ws ↔ ¬ InRange field lo hi) ∧ ((n, false) ∈ ws ↔ InRange field lo hi) := by
  have key : ∀ w, (n, w) ∈ ws → (w = true ↔ ¬ InRange field lo hi) := by
    intro w hw
    obtain ⟨mx, mn, f, e1, e2, e3⟩ := warnings_mem h hw
    obtain ⟨rfl, rfl⟩ := h1 n mx mn e1 lo hi hp
    rw [hd] at e2
    cases e2
    obtain ⟨w', f1, f2⟩ := C87_routine hne mx mn
    rw [e3, ok_inj] at f1
    subst f1
    exact f2
  obtain ⟨w, hw⟩ := warnings_complete h (h2 n lo hi hp) hd
  have kw := key w hw
  constructor
  · refine ⟨fun ht => (key true ht).1 rfl, fun hr => ?_⟩
    have := kw.2 hr
    subst this
    exact hw
  · refine ⟨fun ht => ?_, fun hr => ?_⟩
    · by_contra hc
      cases (key false ht).2 hc
    · cases w with
      | false => exact hw
      | true => exact absurd hr (kw.1 rfl)

/-- **C87, what aws2cosipy warns about.** A variable that is present is warned about iff one of its values that is not NaN is out of
the range above, and reported as fine otherwise. -/
theorem C87_aws_warned {data : Store (List (Option K))} {ws : List (String × Bool)} (h : warnings awsBounds data = .ok ws) {n : String}
    {lo hi : K} (hp : PlausibleStation n lo hi) {field : List (Option K)} (hd : data n = some field) (hne : field ≠ []) :
    ((n, true) ∈ ws ↔ ¬ InRange field lo hi) ∧ ((n, false) ∈ ws ↔ InRange field lo hi) := by
  refine warned (P := PlausibleStation) ?_ ?_ h hp hd hne
  · intro n mx mn hm lo hi hp
    unfold awsBounds at hm
    simp only [List.mem_cons, List.not_mem_nil, or_false, Prod.mk.injEq] at hm
    rcases hm with ⟨rfl, rfl, rfl⟩ | ⟨rfl, rfl, rfl⟩ | ⟨rfl, rfl, rfl⟩ | ⟨rfl, rfl, rfl⟩ | ⟨rfl, rfl, rfl⟩ | ⟨rfl, rfl, rfl⟩ |
      ⟨rfl, rfl, rfl⟩ | ⟨rfl, rfl, rfl⟩ | ⟨rfl, rfl, rfl⟩ <;> obtain ⟨rfl, rfl⟩ := hp <;> norm_num
  · intro n lo hi hp
    unfold PlausibleStation at hp
    split at hp
    all_goals first
      | exact hp.elim
      | (obtain ⟨rfl, rfl⟩ := hp; norm_num [awsBounds])

/-- **C87, what wrf2cosipy warns about.** -/
theorem C87_wrf_warned {data : Store (List (Option K))} {ws : List (String × Bool)} (h : warnings wrfBounds data = .ok ws) {n : String}
    {lo hi : K} (hp : PlausibleWrf n lo hi) {field : List (Option K)} (hd : data n = some field) (hne : field ≠ []) :
    ((n, true) ∈ ws ↔ ¬ InRange field lo hi) ∧ ((n, false) ∈ ws ↔ InRange field lo hi) := by
  refine warned (P := PlausibleWrf) ?_ ?_ h hp hd hne
  · intro n mx mn hm lo hi hp
    unfold wrfBounds at hm
    simp only [List.mem_cons, List.not_mem_nil, or_false, Prod.mk.injEq] at hm
    rcases hm with ⟨rfl, rfl, rfl⟩ | ⟨rfl, rfl, rfl⟩ | ⟨rfl, rfl, rfl⟩ | ⟨rfl, rfl, rfl⟩ | ⟨rfl, rfl, rfl⟩ | ⟨rfl, rfl, rfl⟩ |
      ⟨rfl, rfl, rfl⟩ <;> obtain ⟨rfl, rfl⟩ := hp <;> norm_num
  · intro n lo hi hp
    unfold PlausibleWrf at hp
    split at hp
    all_goals first
      | exact hp.elim
      | (obtain ⟨rfl, rfl⟩ := hp; norm_num [wrfBounds])

/-- Variables with bounds at least as strict in aws2cosipy as in the simulation. -/
def awsStrict : List String := ["RH2", "U2", "G", "RRR", "SNOWFALL", "N"]

/-- Likewise for wrf2cosipy. -/
def wrfStrict : List String := ["RH2", "U2", "G"]

theorem agree {bounds : List (String × K × K)} {strict : List String}
    (hs : ∀ n ∈ strict, ∀ mx mn, (n, mx, mn) ∈ bounds → ∀ mx' mn', (n, mx', mn') ∈ dataBounds (α := K) →
      mx ≤ mx' ∧ mn' ≤ mn)
    {data : Store (List (Option K))} {ws flags : List (String × Bool)} (h : warnings bounds data = .ok ws)
    {r : Bool} (hf : checkInputData data = .ok (r, flags)) {n : String} (hn : n ∈ strict) (hw : (n, false) ∈ ws)
    {b : Bool} (hb : (n, b) ∈ flags) : b = true := by
  obtain ⟨mx, mn, field, h1, h2, h3⟩ := warnings_mem h hw
  unfold checkInputData at hf
  simp only [bind_eq_ok, pure_eq_ok] at hf
  obtain ⟨fl, hfl, he⟩ := hf
  cases he
  obtain ⟨mx', mn', field', g1, g2, g3⟩ := checkFields_mem hfl hb
  rw [h2] at g2
  cases g2
  obtain ⟨l1, l2⟩ := hs n hn mx mn h1 mx' mn' g1
  have hne : field ≠ [] := by rintro rfl; cases g3
  obtain ⟨w, e1, e2⟩ := C87_routine hne mx mn
  obtain ⟨b', f1, f2⟩ := C50_routine hne mx' mn'
  rw [h3, ok_inj] at e1
  rw [g3, ok_inj] at f1
  subst e1 f1
  have hr : InRange field mn mx := by
    by_contra hc
    have := e2.2 hc
    cases this
  exact f2.2 fun v hv => ⟨l2.trans (hr v hv).1, (hr v hv).2.trans l1⟩

/-- **C87, aws2cosipy.** Full statement: for a variable it does not warn about, the simulation prints ok. Proved for
humidity, wind, radiation, precipitation, snowfall and cloud cover. Missing: temperature, pressure and longwave
radiation, for which it is false. -/
theorem C87_aws_partial {data : Store (List (Option K))} {ws flags : List (String × Bool)}
    (h : warnings awsBounds data = .ok ws) {r : Bool} (hf : checkInputData data = .ok (r, flags)) {n : String}
    (hn : n ∈ awsStrict) (hw : (n, false) ∈ ws) {b : Bool} (hb : (n, b) ∈ flags) : b = true := by
  refine agree ?_ h hf hn hw hb
  intro n hn mx mn h1 mx' mn' h2
  unfold awsStrict at hn
  unfold awsBounds at h1
  unfold dataBounds at h2
  simp only [List.mem_cons, List.not_mem_nil, or_false, Prod.mk.injEq] at hn h1 h2
  rcases hn with rfl | rfl | rfl | rfl | rfl | rfl <;> simp at h1 h2 <;> obtain ⟨rfl, rfl⟩ := h1 <;>
    obtain ⟨rfl, rfl⟩ := h2 <;> norm_num

/-- **C87, wrf2cosipy.** Proved for humidity, wind and radiation; false for temperature, pressure, longwave radiation and
snowfall. -/
theorem C87_wrf_partial {data : Store (List (Option K))} {ws flags : List (String × Bool)}
    (h : warnings wrfBounds data = .ok ws) {r : Bool} (hf : checkInputData data = .ok (r, flags)) {n : String}
    (hn : n ∈ wrfStrict) (hw : (n, false) ∈ ws) {b : Bool} (hb : (n, b) ∈ flags) : b = true := by
  refine agree ?_ h hf hn hw hb
  intro n hn mx mn h1 mx' mn' h2
  unfold wrfStrict at hn
  unfold wrfBounds at h1
  unfold dataBounds at h2
  simp only [List.mem_cons, List.not_mem_nil, or_false, Prod.mk.injEq] at hn h1 h2
  rcases hn with rfl | rfl | rfl <;> simp at h1 h2 <;> obtain ⟨rfl, rfl⟩ := h1 <;>
    obtain ⟨rfl, rfl⟩ := h2 <;> norm_num

end

/-- Cold, high and dry: 230 K, 300 hPa, 150 W/m². -/
def highStation : Store (List (Option ℚ)) := fun n =>
  if n = "T2" then some [some 230, none]
  else if n = "PRES" then some [some 300]
  else if n = "LWin" then some [some 150]
  else if n = "SNOWFALL" then some [some 0.5]
  else if n = "RH2" then some [some 80, some 90]
  else none

/-- aws2cosipy does not warn about temperature, pressure and longwave radiation, the simulation does not print ok. -/
theorem C87_aws_refuted :
    (warnings awsBounds highStation).toOption =
      some [("T2", false), ("RH2", false), ("PRES", false), ("SNOWFALL", true), ("LWin", false)] ∧
    (checkInputData highStation).toOption =
      some (true, [("T2", false), ("RH2", true), ("PRES", false), ("LWin", false), ("SNOWFALL", false)]) := by
  decide +kernel

/-- wrf2cosipy accepts even half a metre of snow in one step. -/
theorem C87_wrf_refuted :
    (warnings wrfBounds highStation).toOption =
      some [("T2", false), ("RH2", false), ("SNOWFALL", false), ("PRES", false), ("LWin", false)] := by
  decide +kernel

/-- The other direction: what the simulation calls ok, aws2cosipy does not warn about, but for snowfall (0.07 m). -/
theorem C87_converse_refuted :
    (warnings (α := ℚ) awsBounds fun n => if n = "SNOWFALL" then some [some 0.07] else none).toOption =
      some [("SNOWFALL", true)] ∧
    (checkInputData (α := ℚ) fun n => if n = "SNOWFALL" then some [some 0.07] else none).toOption =
      some (true, [("SNOWFALL", true)]) := by
  decide +kernel

/-- The hypotheses of `C87_aws_warned` and `C87_wrf_warned`. -/
example : PlausibleStation (K := ℚ) "LWin" 0 400 ∧ PlausibleWrf (K := ℚ) "LWin" 100 500 ∧ highStation "LWin" = some [some 150] ∧
    (warnings awsBounds highStation).isOk = true ∧ (warnings wrfBounds highStation).isOk = true :=
  ⟨⟨rfl, rfl⟩, ⟨rfl, rfl⟩, rfl, by decide +kernel, by decide +kernel⟩

/-- Cloud cover given in percent, as its label says (C86), is warned about. -/
example : (warnings (α := ℚ) awsBounds fun n => if n = "N" then some [some 50] else none).toOption =
    some [("N", true)] := by decide +kernel

end Cosipy.Aws
