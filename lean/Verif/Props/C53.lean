import Verif.Model.Preprocess
import Verif.Lemmas.IO
import Verif.Props.C50
import Verif.Lemmas.Arith
import Mathlib.Algebra.Field.Rat
import Mathlib.Algebra.Order.Ring.Unbundled.Rat
import Mathlib.Tactic.NormNum
import Mathlib.Tactic.NormNum.OfScientific
import Mathlib.Tactic.Linarith

/-!
# C53 Station data: bounded humidity, no negative precipitation, no gaps

The claim: after preprocessing relative humidity lies in (0, 100] and values in range are unchanged; precipitation and
snowfall are not negative. `C53_humidity_partial`: [0, 100], values in [0, 100] unchanged. The lower end is included, and
the order is not kept: `C53_refuted`. `C53_bias`: lapse-rate fields with the limit. `C53_point`, `C53_domain`: what the two
programs write.
-/

set_option autoImplicit false
set_option linter.unusedSectionVars false

namespace Cosipy
open Aws

section
variable {K : Type} [Field K] [LinearOrder K] [IsStrictOrderedRing K]

/-- **C53, humidity.** The result lies in [0, 100]; values in that range are unchanged, larger ones become 100 and negative
ones 0.1; NaN stays NaN. Missing: a positive lower end. -/
theorem C53_humidity_partial (x : K) : ∃ y, setRhBounds (some x) = some y ∧ 0 ≤ y ∧ y ≤ 100 ∧
    (0 ≤ x → x ≤ 100 → y = x) ∧ (100 < x → y = 100) ∧ (x < 0 → y = 0.1) ∧ (y = 0 ↔ x = 0) ∧
    setRhBounds (none : Option K) = none := by
  have e1 : (100.0 : K) = 100 := by norm_num
  have e0 : (0.0 : K) = 0 := by norm_num
  have e2 : (0.1 : K) = 1 / 10 := by norm_num
  unfold setRhBounds
  simp only [Option.map_some, Option.map_none, e1, e0, e2]
  refine ⟨_, rfl, ?_⟩
  by_cases h1 : 100 < x
  · rw [if_pos h1, if_neg (by linarith)]
    exact ⟨by linarith, le_rfl, fun _ h => by linarith, fun _ => rfl, fun h => by linarith,
      ⟨fun h => by linarith, fun h => by linarith⟩, trivial⟩
  · rw [if_neg h1]
    by_cases h0 : x < 0
    · rw [if_pos h0]
      exact ⟨by positivity, by norm_num, fun h => by linarith, fun h => by linarith, fun _ => rfl,
        ⟨fun h => absurd h (by norm_num), fun h => by linarith⟩, trivial⟩
    · rw [if_neg h0]
      exact ⟨not_lt.1 h0, not_lt.1 h1, fun _ _ => rfl, fun h => absurd h h1, fun h => absurd h h0, Iff.rfl, trivial⟩

/-- **C53 refuted at the lower end.** A humidity of exactly zero passes, and a smaller (negative) one ends up larger. -/
theorem C53_refuted : setRhBounds (some (0 : K)) = some 0 ∧ setRhBounds (some (-1 : K)) = some 0.1 ∧
    (-1 : K) < 0 ∧ (0 : K) < 0.1 := by
  obtain ⟨y, h, -, -, h1, -⟩ := C53_humidity_partial (0 : K)
  obtain ⟨z, h', -, -, -, -, h2, -⟩ := C53_humidity_partial (-1 : K)
  refine ⟨?_, ?_, by norm_num, by norm_num⟩
  · rw [h, h1 le_rfl (by norm_num)]
  · rw [h', h2 (by norm_num)]

/-- **C53, lapse rates.** With the limit the value is the corrected one or 0, whichever is larger; without it the corrected
one. NaN stays NaN. -/
theorem C53_bias (rate alt x : K) : setBias rate alt true (some x) = some (max 0 (x + alt * rate)) ∧
    setBias rate alt false (some x) = some (x + alt * rate) ∧
    setBias rate alt true (none : Option K) = none ∧ setBias rate alt false (none : Option K) = none := by
  have e0 : (0.0 : K) = 0 := by norm_num
  refine ⟨?_, rfl, rfl, rfl⟩
  unfold setBias
  simp only [Option.map_some, e0, if_true, Option.some.injEq]
  rcases lt_or_ge (x + alt * rate) 0 with h | h
  · rw [if_pos h, max_eq_left h.le]
  · rw [if_neg (not_lt.2 h), max_eq_right h]

theorem setBias_nonneg {rate alt y : K} {x : Option K} (h : setBias rate alt true x = some y) : 0 ≤ y := by
  cases x with
  | none => cases h
  | some x =>
    rw [(C53_bias rate alt x).1] at h
    cases h
    exact le_max_left _ _

theorem setRhBounds_range {x : Option K} {y : K} (h : setRhBounds x = some y) : 0 ≤ y ∧ y ≤ 100 := by
  cases x with
  | none => cases h
  | some x =>
    obtain ⟨z, e, h0, h1, -⟩ := C53_humidity_partial x
    rw [e] at h
    cases h
    exact ⟨h0, h1⟩

/-- **C53, temperature.** The check passes iff there are values and all that are not NaN lie between 173.16 K and 373.16 K;
otherwise it raises ValueError. -/
theorem C53_temperature (ts : List (Option K)) :
    (checkTemperatureBounds ts = .ok () ↔ ts ≠ [] ∧ ∀ v, some v ∈ ts → 173.16 ≤ v ∧ v ≤ 373.16) ∧
    ∀ e, checkTemperatureBounds ts = .error e → e = .value := by
  unfold checkTemperatureBounds
  cases ts with
  | nil => exact ⟨⟨fun h => (by cases h), fun h => absurd rfl h.1⟩, fun e h => by cases h; rfl⟩
  | cons a l =>
    unfold nanMax nanMin
    rw [ok_bind, ok_bind]
    by_cases h1 : optGt (l.foldl fmaxOpt a) 373.16 = true
    · rw [if_pos h1]
      obtain ⟨v, hv, hlt⟩ := (optGt_fold _ l a).1 h1
      exact ⟨⟨fun h => (by cases h), fun h => absurd (h.2 v hv).2 (not_le.2 hlt)⟩, fun e h => by cases h; rfl⟩
    · rw [if_neg h1]
      by_cases h2 : optLt (l.foldl fminOpt a) 173.16 = true
      · rw [if_pos h2]
        obtain ⟨v, hv, hlt⟩ := (optLt_fold _ l a).1 h2
        exact ⟨⟨fun h => (by cases h), fun h => absurd (h.2 v hv).1 (not_le.2 hlt)⟩, fun e h => by cases h; rfl⟩
      · rw [if_neg h2]
        refine ⟨⟨fun _ => ⟨by simp, fun v hv => ⟨not_lt.1 fun h => h2 ?_, not_lt.1 fun h => h1 ?_⟩⟩, fun _ => rfl⟩,
          fun e h => by cases h⟩
        · exact (optLt_fold _ l a).2 ⟨v, hv, h⟩
        · exact (optGt_fold _ l a).2 ⟨v, hv, h⟩

end

/-- Every column has an entry per time. -/
def Aws.Frame.WF {α : Type} (df : Frame α) : Prop := ∀ n xs, df.cols n = some xs → xs.length = df.index.length

section
variable {α : Type} [Add α] [Sub α] [Mul α] [Div α] [LT α] [DecidableLT α] [Zero α] [NatCast α] [OfScientific α]

theorem ffillFrom_length (xs : List (Option α)) : ∀ last, (ffillFrom last xs).length = xs.length := by
  induction xs with
  | nil => intro _; rfl
  | cons x xs ih => intro last; cases x <;> simp [ffillFrom, ih]

theorem addMissing_wf {df : Frame α} (h : df.WF) (name : String) : (addMissing df name).WF := by
  unfold addMissing
  split_ifs
  · intro n xs e
    simp only [Store.set] at e
    split_ifs at e
    · cases e; simp
    · exact h n xs e
  · exact h

theorem filter_zip_length {β γ : Type} (q : β → Bool) : ∀ (ix : List β) (ys : List γ), ys.length = ix.length →
    ((ix.zip ys).filter fun p => q p.1).length = (ix.filter q).length
  | [], _, _ => by simp
  | t :: ix, [], h => by simp at h
  | t :: ix, y :: ys, h => by
    simp only [List.length_cons, Nat.add_right_cancel_iff] at h
    simp only [List.zip_cons_cons, List.filter_cons]
    split_ifs <;> simp only [List.length_cons, filter_zip_length q ix ys h]

theorem timeSlice_wf {df : Frame α} (h : df.WF) (r : Option (Int × Int)) : (timeSlice df r).WF := by
  unfold timeSlice
  cases r with
  | none => exact h
  | some r =>
    intro n xs e
    simp only [Option.map_eq_some_iff] at e
    obtain ⟨ys, hy, rfl⟩ := e
    have hl := h n ys hy
    rw [List.length_map]
    exact filter_zip_length (fun t => decide (r.1 ≤ t ∧ t ≤ r.2)) _ _ hl

theorem setOrderAndType_ok {nm : Names} {b : Bool} {df df' : Frame α} (h : setOrderAndType nm b df = .ok df') :
    df' = df ∧ (∀ n ∈ [nm.t2, nm.rh2, nm.u2, nm.g, nm.pres], (df.cols n).isSome) ∧
      ((df.cols nm.lwin).isSome ∨ (df.cols nm.n).isSome) := by
  unfold setOrderAndType at h
  simp only [bind_eq_ok] at h
  obtain ⟨_, h1, h⟩ := h
  have hreq : ∀ (cols : Store (List (Option α))) (ns : List String) u, requireAll cols ns = .ok u →
      ∀ n ∈ ns, (cols n).isSome := by
    intro cols ns
    induction ns with
    | nil => intro _ _ n hn; cases hn
    | cons m ns ih =>
      intro u hu n hn
      unfold requireAll at hu
      simp only [bind_eq_ok] at hu
      obtain ⟨v, hv, hu⟩ := hu
      rcases List.mem_cons.1 hn with rfl | hn
      · unfold getCol at hv
        cases e : cols n with
        | none => rw [e] at hv; cases hv
        | some _ => rfl
      · exact ih u hu n hn
  have hp := hreq _ _ _ h1
  have e : replacePressure nm b df = df := by
    unfold replacePressure
    rw [if_neg]
    have := hp nm.pres (by simp)
    rw [Option.isSome_iff_ne_none] at this
    simp [this]
  rw [e] at h
  split_ifs at h with hc
  cases h
  refine ⟨rfl, hp, ?_⟩
  by_contra hn
  rw [not_or] at hn
  apply hc
  simp only [Bool.and_eq_true, Option.isNone_iff_eq_none]
  simpa using hn

theorem pointFrame_wf {nm : Names} {df df' : Frame α} (h : df.WF) {r : Option (Int × Int)}
    (hp : pointFrame nm df r = .ok df') : df'.WF := by
  unfold pointFrame at hp
  simp only [bind_eq_ok] at hp
  obtain ⟨d1, h1, hp⟩ := hp
  obtain ⟨rfl, -⟩ := setOrderAndType_ok hp
  have w0 : Frame.WF ({ df with cols := fun n => (df.cols n).map ffill } : Frame α) := by
    intro n xs e
    simp only [Option.map_eq_some_iff] at e
    obtain ⟨ys, hy, rfl⟩ := e
    exact (ffillFrom_length ys none).trans (h n ys hy)
  have w1 := addMissing_wf (addMissing_wf (addMissing_wf w0 nm.lwin) nm.n) nm.snowfall
  unfold selectCols at h1
  simp only [bind_eq_ok] at h1
  obtain ⟨_, -, h1⟩ := h1
  rw [pure_eq_ok] at h1
  cases h1
  apply timeSlice_wf
  intro n xs e
  simp only [dropEmpty, resampleFrame, Option.filter_eq_some_iff, Option.map_eq_some_iff] at e
  obtain ⟨⟨ys, hy, rfl⟩, -⟩ := e
  simp [resample, dropEmpty, resampleFrame]

/-- What the NaN check lets through. -/
theorem checkForNanPoint_ok {static : List (Option α)} {ds : Store (List (Option α))} {u : Unit}
    (h : checkForNanPoint static ds = .ok u) :
    (∀ x ∈ static, x ≠ none) ∧ ∀ v ∈ varNames, ∀ xs, ds v = some xs → ∀ x ∈ xs, x ≠ none := by
  unfold checkForNanPoint at h
  split_ifs at h with hc
  simp only [Bool.or_eq_true, not_or, Bool.not_eq_true, List.any_eq_false, Option.isNone_iff_eq_none] at hc
  refine ⟨hc.1, fun v hv xs e x hx hn => ?_⟩
  have := hc.2 v hv
  rw [e] at this
  simp only [List.any_eq_false] at this
  exact this x hx (by rw [hn]; rfl)

end

theorem forall₂_mem_right {β γ : Type} {R : β → γ → Prop} {l : List β} {l' : List γ} (h : List.Forall₂ R l l') {y : γ}
    (hy : y ∈ l') : ∃ x, R x y := by
  induction h with
  | nil => cases hy
  | cons hr _ ih =>
    rcases List.mem_cons.1 hy with rfl | hy
    · exact ⟨_, hr⟩
    · exact ih hy

/-- A series is complete and its values satisfy `P`. -/
def Complete {K : Type} (P : K → Prop) (len : Nat) (xs : List (Option K)) : Prop :=
  xs.length = len ∧ ∀ x ∈ xs, ∃ v, x = some v ∧ P v

section
variable {K : Type} [Field K] [LinearOrder K] [IsStrictOrderedRing K] [Transc K]

/-- **C53, point input.** Whatever `create_1D_input` writes has no gaps, one value per time, relative humidity in [0, 100]
and no negative precipitation or snowfall. The five basic variables and one of longwave radiation and cloud cover are
there. -/
theorem C53_point {nm : Names} {c : Cfg K} {static : List (Option K)} {df : Frame K} (hw : df.WF)
    {r : Option (Int × Int)} {index : List Int} {ds : Store (List (Option K))}
    (h : createPoint nm c static df r = .ok (index, ds)) :
    (∀ v ∈ varNames, ∀ xs, ds v = some xs → Complete (fun _ => True) index.length xs) ∧
    (∃ xs, ds "RH2" = some xs ∧ Complete (fun y => 0 ≤ y ∧ y ≤ 100) index.length xs) ∧
    (∀ xs, ds "RRR" = some xs → Complete (fun y => 0 ≤ y) index.length xs) ∧
    (∀ xs, ds "SNOWFALL" = some xs → Complete (fun y => 0 ≤ y) index.length xs) ∧
    (ds "T2").isSome ∧ (ds "U2").isSome ∧ (ds "G").isSome ∧ (ds "PRES").isSome ∧
    ((ds "LWin").isSome ∨ (ds "N").isSome) := by
  unfold createPoint at h
  simp only [bind_eq_ok] at h
  obtain ⟨d, hd, vs, hv, _, hc, h⟩ := h
  rw [pure_eq_ok] at h
  cases h
  have wd := pointFrame_wf hw hd
  obtain ⟨-, hn⟩ := checkForNanPoint_ok hc
  have hopt : (d.cols nm.lwin).isSome ∨ (d.cols nm.n).isSome := by
    unfold pointFrame at hd
    simp only [bind_eq_ok] at hd
    obtain ⟨d1, -, hd⟩ := hd
    obtain ⟨rfl, -, ho⟩ := setOrderAndType_ok hd
    exact ho
  unfold pointVars at hv
  simp only [bind_eq_ok] at hv
  obtain ⟨t2, ht, _, -, rh, hr, u2, hu, g, hg, p, hp, hv⟩ := hv
  rw [pure_eq_ok] at hv
  have gets : ∀ {n : String} {xs : List (Option K)}, getCol d.cols n = .ok xs → xs.length = d.index.length := by
    intro n xs e
    unfold getCol at e
    cases e' : d.cols n with
    | none => rw [e'] at e; cases e
    | some ys => rw [e'] at e; cases e; exact wd n _ e'
  have eT : ds "T2" = _ := (congrFun hv "T2").symm
  have eH : ds "RH2" = _ := (congrFun hv "RH2").symm
  have eU : ds "U2" = _ := (congrFun hv "U2").symm
  have eG : ds "G" = _ := (congrFun hv "G").symm
  have eP : ds "PRES" = _ := (congrFun hv "PRES").symm
  have eR : ds "RRR" = _ := (congrFun hv "RRR").symm
  have eS : ds "SNOWFALL" = _ := (congrFun hv "SNOWFALL").symm
  have eL : ds "LWin" = _ := (congrFun hv "LWin").symm
  have eN : ds "N" = _ := (congrFun hv "N").symm
  clear hv
  simp only at eT eH eU eG eP eR eS eL eN
  have lens : ∀ v ∈ varNames, ∀ xs, ds v = some xs → xs.length = d.index.length := by
    intro v hv xs e
    simp only [varNames, List.mem_cons, List.not_mem_nil, or_false] at hv
    rcases hv with rfl | rfl | rfl | rfl | rfl | rfl | rfl | rfl | rfl
    · rw [eT] at e; cases e; simpa using gets ht
    · rw [eH] at e; cases e; simpa using gets hr
    · rw [eU] at e; cases e; exact gets hu
    · rw [eG] at e; cases e; exact gets hg
    · rw [eP] at e; cases e; simpa using gets hp
    · rw [eR] at e; obtain ⟨ys, hy, rfl⟩ := Option.map_eq_some_iff.1 e; simpa using wd _ _ hy
    · rw [eS] at e; obtain ⟨ys, hy, rfl⟩ := Option.map_eq_some_iff.1 e; simpa using wd _ _ hy
    · rw [eL] at e; exact wd _ _ e
    · rw [eN] at e; exact wd _ _ e
  have full : ∀ v ∈ varNames, ∀ xs, ds v = some xs → Complete (fun _ => True) d.index.length xs := by
    intro v hv xs e
    refine ⟨lens v hv xs e, fun x hx => ?_⟩
    obtain ⟨y, hy⟩ := Option.ne_none_iff_exists'.1 (hn v hv xs e x hx)
    exact ⟨y, hy, trivial⟩
  refine ⟨full, ⟨_, eH, ?_⟩, ?_, ?_, by rw [eT]; rfl, by rw [eU]; rfl, by rw [eG]; rfl, by rw [eP]; rfl,
    by rw [eL, eN]; exact hopt⟩
  · have hf := full "RH2" (by simp [varNames]) _ eH
    refine ⟨hf.1, fun x hx => ?_⟩
    obtain ⟨y, rfl, -⟩ := hf.2 x hx
    obtain ⟨z, -, hz⟩ := List.mem_map.1 hx
    exact ⟨y, rfl, setRhBounds_range hz⟩
  · intro xs e
    have hf := full "RRR" (by simp [varNames]) xs e
    refine ⟨hf.1, fun x hx => ?_⟩
    obtain ⟨y, rfl, -⟩ := hf.2 x hx
    rw [eR] at e
    obtain ⟨ys, -, rfl⟩ := Option.map_eq_some_iff.1 e
    obtain ⟨z, -, hz⟩ := List.mem_map.1 hx
    exact ⟨y, rfl, setBias_nonneg hz⟩
  · intro xs e
    have hf := full "SNOWFALL" (by simp [varNames]) xs e
    refine ⟨hf.1, fun x hx => ?_⟩
    obtain ⟨y, rfl, -⟩ := hf.2 x hx
    rw [eS] at e
    obtain ⟨ys, -, rfl⟩ := Option.map_eq_some_iff.1 e
    obtain ⟨z, -, hz⟩ := List.mem_map.1 hx
    exact ⟨y, rfl, setBias_nonneg hz⟩

/-- The radiation of a cell: NaN outside the mask, never negative where the module Wohlfahrt2016 is used. -/
theorem cellRadiationAt_range {correct : Option (Int → K → M K)} {s : Static K} {t : Int} {x y : Option K}
    (h : cellRadiationAt correct s t x = .ok y) :
    (s.mask ≠ some 1 → y = none) ∧ (s.mask = some 1 → correct = none → y = x) ∧
    (s.mask = some 1 → correct.isSome → ∀ v, y = some v → 0 ≤ v) := by
  have e0 : (0.0 : K) = 0 := by norm_num
  unfold cellRadiationAt at h
  cases hm : s.mask with
  | none => rw [hm] at h; cases h; exact ⟨fun _ => rfl, fun e => (by cases e), fun e => (by cases e)⟩
  | some m =>
    rw [hm] at h
    simp only at h
    by_cases h1 : m = 1
    · subst h1
      rw [if_pos (by simp)] at h
      refine ⟨fun e => absurd rfl e, fun _ hc => ?_, fun _ hc v hv => ?_⟩
      · subst hc; cases h; rfl
      · cases correct with
        | none => cases hc
        | some f =>
          cases x with
          | none => cases h; cases hv
          | some x =>
            simp only [bind_eq_ok] at h
            obtain ⟨q, -, h⟩ := h
            rw [pure_eq_ok] at h
            rw [hv] at h
            simp only [Option.some.injEq, e0] at h
            rw [← h]
            split_ifs with hq
            · exact le_rfl
            · exact not_lt.1 hq
    · rw [if_neg (by simpa using h1)] at h
      cases h
      exact ⟨fun _ => rfl, fun e => absurd (Option.some.inj e) h1, fun e => absurd (Option.some.inj e) h1⟩

/-- **C53, distributed input.** Whatever `create_2D_input` writes (Wohlfahrt2016 or no radiation module): every cell of the
mask has no NaN, relative humidity in [0, 100], no negative precipitation, snowfall or, with the module, radiation. -/
theorem C53_domain {nm : Names} {c : Cfg K} {agg : Option Int} {correct : Static K → Option (Int → K → M K)}
    {cells : List (Static K)} {df : Frame K} {r : Option (Int × Int)} {index : List Int}
    {out : List (Store (List (Option K)))} (h : createDomain nm c agg correct cells df r = .ok (index, out)) :
    List.Forall₂ (fun s ds => s.mask = some 1 →
      (∀ v ∈ varNames, ∀ xs, ds v = some xs → ∀ x ∈ xs, x ≠ none) ∧
      (∃ xs, ds "RH2" = some xs ∧ ∀ x ∈ xs, ∃ y, x = some y ∧ 0 ≤ y ∧ y ≤ 100) ∧
      (∀ xs, ds "RRR" = some xs → ∀ x ∈ xs, ∃ y, x = some y ∧ 0 ≤ y) ∧
      (∀ xs, ds "SNOWFALL" = some xs → ∀ x ∈ xs, ∃ y, x = some y ∧ 0 ≤ y) ∧
      ((correct s).isSome → ∃ xs, ds "G" = some xs ∧ ∀ x ∈ xs, ∃ y, x = some y ∧ 0 ≤ y)) cells out := by
  unfold createDomain at h
  simp only [bind_eq_ok] at h
  obtain ⟨d, -, _, -, _, -, o, ho, h⟩ := h
  rw [pure_eq_ok] at h
  cases h
  rw [mapM_eq_ok_iff] at ho
  refine ho.imp fun s ds hs hm => ?_
  unfold createCell at hs
  simp only [bind_eq_ok] at hs
  obtain ⟨g, -, sw, hsw, vs, hv, _, hc, hs⟩ := hs
  rw [pure_eq_ok] at hs
  cases hs
  unfold checkCell at hc
  rw [hm] at hc
  simp only [BEq.rfl, if_true] at hc
  obtain ⟨-, hn⟩ := checkForNanPoint_ok hc
  unfold cellVars at hv
  simp only [bind_eq_ok] at hv
  obtain ⟨t2, -, rh, -, u2, -, p, -, hv⟩ := hv
  rw [pure_eq_ok] at hv
  have eH : ds "RH2" = _ := (congrFun hv "RH2").symm
  have eG : ds "G" = _ := (congrFun hv "G").symm
  have eR : ds "RRR" = _ := (congrFun hv "RRR").symm
  have eS : ds "SNOWFALL" = _ := (congrFun hv "SNOWFALL").symm
  clear hv
  simp only at eH eG eR eS
  have bias : ∀ {rate : K} {alt x : Option K} {y : K}, setBiasAt rate alt true x = some y → 0 ≤ y := by
    intro rate alt x y e
    unfold setBiasAt at e
    obtain ⟨a, -, e⟩ := Option.bind_eq_some_iff.1 e
    exact setBias_nonneg e
  refine ⟨hn, ⟨_, eH, fun x hx => ?_⟩, fun xs e x hx => ?_, fun xs e x hx => ?_, fun hsome => ⟨_, eG, fun x hx => ?_⟩⟩
  · obtain ⟨y, rfl⟩ := Option.ne_none_iff_exists'.1 (hn "RH2" (by simp [varNames]) _ eH x hx)
    obtain ⟨z, -, hz⟩ := List.mem_map.1 hx
    exact ⟨y, rfl, setRhBounds_range hz⟩
  · obtain ⟨y, rfl⟩ := Option.ne_none_iff_exists'.1 (hn "RRR" (by simp [varNames]) _ e x hx)
    rw [eR] at e
    obtain ⟨ys, -, rfl⟩ := Option.map_eq_some_iff.1 e
    obtain ⟨z, -, hz⟩ := List.mem_map.1 hx
    exact ⟨y, rfl, bias hz⟩
  · obtain ⟨y, rfl⟩ := Option.ne_none_iff_exists'.1 (hn "SNOWFALL" (by simp [varNames]) _ e x hx)
    rw [eS] at e
    obtain ⟨ys, -, rfl⟩ := Option.map_eq_some_iff.1 e
    obtain ⟨z, -, hz⟩ := List.mem_map.1 hx
    exact ⟨y, rfl, bias hz⟩
  · obtain ⟨y, rfl⟩ := Option.ne_none_iff_exists'.1 (hn "G" (by simp [varNames]) _ eG x hx)
    unfold cellRadiation at hsw
    rw [mapM_eq_ok_iff] at hsw
    obtain ⟨p, hp⟩ := forall₂_mem_right hsw hx
    exact ⟨y, rfl, (cellRadiationAt_range hp).2.2 hm hsome y rfl⟩

/-- **C53, temperature of point input.** What `create_1D_input` writes lies between 173.16 K and 373.16 K. -/
theorem C53_point_temperature {nm : Names} {c : Cfg K} {static : List (Option K)} {df : Frame K}
    {r : Option (Int × Int)} {index : List Int} {ds : Store (List (Option K))}
    (h : createPoint nm c static df r = .ok (index, ds)) :
    ∃ xs, ds "T2" = some xs ∧ xs ≠ [] ∧ ∀ v, some v ∈ xs → 173.16 ≤ v ∧ v ≤ 373.16 := by
  unfold createPoint at h
  simp only [bind_eq_ok] at h
  obtain ⟨d, hd, vs, hv, _, hc, h⟩ := h
  rw [pure_eq_ok] at h
  cases h
  unfold pointVars at hv
  simp only [bind_eq_ok] at hv
  obtain ⟨t2, ht, _, hb, rh, hr, u2, hu, g, hg, p, hp, hv⟩ := hv
  rw [pure_eq_ok] at hv
  have eT : ds "T2" = _ := (congrFun hv "T2").symm
  exact ⟨_, eT, (C53_temperature _).1.1 hb⟩

/-- **C53, temperature of distributed input.** The temperatures of the station (in kelvin) lie in that range; those of the
cells differ from them by the lapse rate and are not checked. -/
theorem C53_domain_temperature {nm : Names} {c : Cfg K} {agg : Option Int} {correct : Static K → Option (Int → K → M K)}
    {cells : List (Static K)} {df : Frame K} {r : Option (Int × Int)} {index : List Int}
    {out : List (Store (List (Option K)))} (h : createDomain nm c agg correct cells df r = .ok (index, out)) :
    ∃ xs : List (Option K), (∀ v, some v ∈ xs → 173.16 ≤ v ∧ v ≤ 373.16) ∧
      List.Forall₂ (fun s ds => ds "T2" = some (xs.map fun x => s.hgt.bind fun z => x.map fun v =>
        v + (z - c.stationAlt) * c.lapseT)) cells out := by
  unfold createDomain at h
  simp only [bind_eq_ok] at h
  obtain ⟨d, -, t2, ht, _, hb, o, ho, h⟩ := h
  rw [pure_eq_ok] at h
  cases h
  refine ⟨_, ((C53_temperature _).1.1 hb).2, ?_⟩
  rw [mapM_eq_ok_iff] at ho
  refine ho.imp fun s ds hs => ?_
  unfold createCell at hs
  simp only [bind_eq_ok] at hs
  obtain ⟨g, -, sw, hsw, vs, hv, _, hc, hs⟩ := hs
  rw [pure_eq_ok] at hs
  cases hs
  unfold cellVars at hv
  simp only [bind_eq_ok] at hv
  obtain ⟨t2', ht', rh, -, u2, -, p, -, hv⟩ := hv
  rw [ht] at ht'
  cases ht'
  rw [pure_eq_ok] at hv
  have eT : ds "T2" = _ := (congrFun hv "T2").symm
  rw [eT]
  simp only [Option.some.injEq]
  refine List.map_congr_left fun x _ => ?_
  unfold setBiasAt altitude
  cases s.hgt with
  | none => rfl
  | some z =>
    cases x with
    | none => rfl
    | some v => rw [Option.map_some, Option.bind_some, Option.bind_some, (C53_bias _ _ v).2.1]; rfl

end

/-! ## Non-vacuity -/

section
/-- Powers are not needed here. -/
local instance exTranscC53 : Transc ℚ := ⟨id, id, id, id, id, id, id, fun x _ => x, 3⟩

def exNames : Names := ⟨"T2", "RH2", "U2", "G", "PRES", "RRR", "LWin", "N", "SNOWFALL"⟩

example : (checkTemperatureBounds [some (250 : ℚ), none, some 280]).isOk = true ∧
    (checkTemperatureBounds [some (250 : ℚ), some 374]).isOk = false ∧
    (checkTemperatureBounds [some (173 : ℚ), some 280]).isOk = false := by decide +kernel

/-- Two hours, three records; the second one has a humidity of 120 and negative precipitation. -/
def exFrame : Frame ℚ where
  index := [0, 1800, 3600]
  cols := fun n => match n with
    | "T2" => some [some 270, some 272, some 271]
    | "RH2" => some [some 120, some 130, some (-3)]
    | "U2" => some [some 2, some 3, none]
    | "G" => some [some 0, some 10, some 20]
    | "PRES" => some [some 600, some 600, some 601]
    | "RRR" => some [some 1, some 2, some (-1)]
    | "N" => some [some 1, some 0, some 1]
    | _ => none

example : exFrame.WF := by
  intro n xs e
  unfold exFrame at e ⊢
  simp only at e ⊢
  split at e <;> first | (cases e; rfl) | cases e

example : (createPoint exNames ⟨true, -6/1000, 0, 0, 0, 5000, 5100⟩ [some 0, some 0, some 1] exFrame none).map
    (fun r => (r.1, [r.2 "RH2", r.2 "RRR", r.2 "U2", r.2 "SNOWFALL"])) =
    .ok ([0, 3600], [some [some 100, some (1/10)], some [some 3, some 0], some [some (5/2), some 3], none]) := by
  decide +kernel

example : (createDomain exNames ⟨true, -6/1000, 0, 0, 0, 5000, 5100⟩ (some 3600)
    (fun _ => some fun _ x => .ok (x - 15)) [⟨some 5200, some 1, some 3, some 0⟩, ⟨some 5200, none, some 3, some 0⟩]
    { exFrame with cols := exFrame.cols.set "U2" [some 2, some 3, some 4] } none).map (fun r => (r.1, r.2.map fun d => d "G")) =
    .ok ([0, 3600], [some [some 0, some 5], some [none, none]]) := by
  decide +kernel

end

end Cosipy
