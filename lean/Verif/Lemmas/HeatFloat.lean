import Verif.Lemmas.Binary
import Verif.Lemmas.Grid
import Verif.Model.Heat
import Verif.Spec.Termination

/-!
# The sub-stepping loop of the heat conduction in binary floating point
-/

set_option autoImplicit false
set_option linter.unusedSectionVars false

namespace Cosipy

section AnyArithmetic
variable {α : Type} [Add α] [Sub α] [Mul α] [Div α] [Neg α] [LT α] [LE α]
  [DecidableLT α] [DecidableLE α] [BEq α] [Zero α] [One α] [NatCast α] [OfScientific α]

/-- The cell of a layer. -/
def CellFor (c : Consts α) (n : Node α) (x : HeatCell α) : Prop :=
  x.h = n.height ∧ x.t = n.temperature ∧ n.thermalDiffusivity c = .ok x.k

theorem heatBelow_len (τ : α) : ∀ cs : List (HeatCell α), (heatBelow τ cs).length = cs.length - 1
  | [] => rfl
  | [_] => rfl
  | [_, _] => rfl
  | a :: b :: d :: rest => by rw [heatBelow, List.length_cons, heatBelow_len τ (b :: d :: rest)]; simp

theorem heatPass_len (τ : α) (cs : List (HeatCell α)) : (heatPass τ cs).length = cs.length := by
  cases cs with
  | nil => rfl
  | cons a rest => rw [heatPass, List.length_cons, heatBelow_len]; simp

theorem foldl_heatPass_len (τs : List α) (cs : List (HeatCell α)) :
    (τs.foldl (fun cs τ => heatPass τ cs) cs).length = cs.length := by
  induction τs generalizing cs with
  | nil => rfl
  | cons τ τs ih => rw [List.foldl_cons, ih, heatPass_len]

theorem mapNodes_cells {c : Consts α} {g : Grid α} (hw : g.WF) {cells : List (HeatCell α)}
    (h : List.Forall₂ (CellFor c) g.nodes cells) :
    (g.mapNodes fun n => do
        let k ← n.thermalDiffusivity c
        return HeatCell.mk n.height k n.temperature) = .ok cells := by
  rw [Grid.mapNodes_eq hw, mapM_eq_ok_iff]
  refine h.imp fun n x hx => ?_
  obtain ⟨h1, h2, h3⟩ := hx
  rw [h3, ok_bind, ← h1, ← h2]
  rfl

theorem zip_setTemperature : ∀ (ts : List α) (ns : List (Node α)), ts.length = ns.length →
    (List.zipWith Node.setTemperature ts ns).map (fun n => n.temperature) = ts
  | [], [], _ => rfl
  | t :: ts, n :: ns, h => by
    rw [List.zipWith_cons_cons, List.map_cons, zip_setTemperature ts ns (by simpa using h)]
    rfl

end AnyArithmetic

section
variable {K : Type} [Field K] [LinearOrder K] [IsStrictOrderedRing K] [FloorRing K] {p : ℕ} {emin : ℤ} {hp : 23 ≤ p} {he : emin ≤ -30}

local notation "F" => Fl (binary K p emin hp he)

theorem Fl.kept (a : F) : binRound p emin a.1 = a.1 := a.2

theorem Fl.add_val (a b : F) : (a + b).1 = binRound p emin (a.1 + b.1) := rfl
theorem Fl.sub_val (a b : F) : (a - b).1 = binRound p emin (a.1 - b.1) := rfl
theorem Fl.lt_val (a b : F) : a < b ↔ a.1 < b.1 := Iff.rfl
theorem Fl.le_val (a b : F) : a ≤ b ↔ a.1 ≤ b.1 := Iff.rfl
theorem Fl.zero_val : (0 : F).1 = 0 := rfl

theorem two_small : (2 : K) ^ (-(p : ℤ) - 1) < 1 := by
  rw [show (1 : K) = 2 ^ (0 : ℤ) by simp]
  exact zpow_lt_zpow_right₀ (by norm_num) (by omega)

theorem Fl.sub_pos {a b : F} (h : a < b) : 0 < b - a := by
  have h1 := sub_rel (Fl.kept b) (Fl.kept a)
  have h2 : 0 < b.1 - a.1 := _root_.sub_pos.2 h
  rw [abs_of_pos h2] at h1
  have h3 := mul_lt_mul_of_pos_right (two_small (K := K) (p := p)) h2
  have := (abs_le.1 h1).1
  show (0 : K) < binRound p emin (b.1 - a.1)
  linarith

/-- States of the loop: nothing done, at least one full sub-step done, or finished. -/
def HeatTime (dt st s : F) : Prop := s ≤ dt ∧ (s = 0 ∨ st ≤ s ∨ s = dt)

/-- One sub-step either finishes exactly or is a full one. -/
theorem heatTime_step {dt st s : F} (hst : 0 < st) (h : HeatTime dt st s) (hs : s < dt) :
    HeatTime dt st (s + pyMin st (dt - s)) ∧
      (s + pyMin st (dt - s) = dt ∨ pyMin st (dt - s) = st ∧ s.1 + st.1 ≤ dt.1) := by
  have hst' : (0 : K) < st.1 := hst
  have hs' : s.1 < dt.1 := hs
  have fin : ∀ x : F, x = dt → HeatTime dt st x := fun x hx => ⟨hx.le, Or.inr (Or.inr hx)⟩
  have full : 0 ≤ s.1 → s.1 + st.1 ≤ dt.1 → HeatTime dt st (s + st) := by
    intro h0 h1
    refine ⟨?_, Or.inr (Or.inl ?_)⟩
    · show binRound p emin (s.1 + st.1) ≤ dt.1
      rw [← Fl.kept dt]; exact binRound_mono h1
    · show st.1 ≤ binRound p emin (s.1 + st.1)
      conv_lhs => rw [← Fl.kept st]
      exact binRound_mono (by linarith)
  have done : ∀ d : F, d.1 = dt.1 - s.1 → s + d = dt := by
    intro d hd
    apply Subtype.ext
    show binRound p emin (s.1 + d.1) = dt.1
    rw [hd, add_sub_cancel, Fl.kept]
  rcases h.2 with h0 | h0 | h0
  · have z : s.1 = 0 := congrArg Subtype.val h0
    have e : (dt - s).1 = dt.1 - s.1 := by
      show binRound p emin (dt.1 - s.1) = _
      rw [z, sub_zero, Fl.kept]
    unfold pyMin
    split_ifs with hm
    · have := done _ e
      exact ⟨fin _ this, Or.inl this⟩
    · have hm' : st.1 ≤ (dt - s).1 := not_lt.1 hm
      rw [e] at hm'
      exact ⟨full z.ge (by linarith), Or.inr ⟨rfl, by linarith⟩⟩
  · have h0' : st.1 ≤ s.1 := h0
    rcases le_total dt.1 (2 * s.1) with hd | hd
    · have e : (dt - s).1 = dt.1 - s.1 := sub_exact (Fl.kept dt) (Fl.kept s) (by linarith) hs'.le hd
      unfold pyMin
      split_ifs with hm
      · have := done _ e
        exact ⟨fin _ this, Or.inl this⟩
      · have hm' : st.1 ≤ (dt - s).1 := not_lt.1 hm
        rw [e] at hm'
        exact ⟨full (by linarith) (by linarith), Or.inr ⟨rfl, by linarith⟩⟩
    · have : ¬ dt - s < st := by
        rw [not_lt]
        show st.1 ≤ binRound p emin (dt.1 - s.1)
        rw [← Fl.kept st]
        exact binRound_mono (by linarith)
      unfold pyMin
      rw [if_neg this]
      exact ⟨full (by linarith) (by linarith), Or.inr ⟨rfl, by linarith⟩⟩
  · exact absurd hs (by rw [h0]; exact lt_irrefl _)

theorem heatPass_some {dt st s : F} {cs : List (HeatCell F)} (hs : s < dt) :
    heatLoopPass dt st (s, cs) = .ok (some (s + pyMin st (dt - s), heatPass (pyMin st (dt - s)) cs)) := by
  unfold heatLoopPass; rw [if_pos hs]

theorem heatPass_none {dt st s : F} {cs : List (HeatCell F)} (hs : ¬ s < dt) : heatLoopPass dt st (s, cs) = .ok none := by
  unfold heatLoopPass; rw [if_neg hs]

theorem pyMin_pos {dt st s : F} (hst : 0 < st) (hs : s < dt) : 0 < pyMin st (dt - s) := by
  unfold pyMin; split_ifs
  · exact Fl.sub_pos hs
  · exact hst

theorem pyMin_le_st {st d : F} : pyMin st d ≤ st := by
  unfold pyMin; split_ifs with h
  · exact h.le
  · exact le_rfl

/-- The sub-steps of the loop: their running sum, rounded after every addition, ends exactly at `dt`. -/
theorem heatLoop_float {dt st : F} (hst : 0 < st) : ∀ (fuel : Nat) (s : F) (cs : List (HeatCell F)) {r : F × List (HeatCell F)},
    HeatTime dt st s → whileM (heatLoopPass dt st) fuel (s, cs) = .ok r →
    ∃ τs : List F, (∀ τ ∈ τs, 0 < τ ∧ τ ≤ st) ∧ τs.foldl (· + ·) s = dt ∧
      r.2 = τs.foldl (fun cs τ => heatPass τ cs) cs := by
  intro fuel
  induction fuel with
  | zero => intro s cs r _ h; simp [whileM] at h
  | succ n ih =>
    intro s cs r hi h
    rw [whileM] at h
    by_cases hs : s < dt
    · rw [heatPass_some hs] at h
      obtain ⟨τs, h1, h2, h3⟩ := ih _ _ (heatTime_step hst hi hs).1 h
      refine ⟨pyMin st (dt - s) :: τs, ?_, by rw [List.foldl_cons]; exact h2, by rw [List.foldl_cons]; exact h3⟩
      intro τ hτ
      rcases List.mem_cons.1 hτ with rfl | hτ
      · exact ⟨pyMin_pos hst hs, pyMin_le_st⟩
      · exact h1 τ hτ
    · rw [heatPass_none hs] at h
      simp only [ok_inj] at h
      subst h
      exact ⟨[], by simp, le_antisymm hi.1 (not_lt.1 hs), rfl⟩

/-- A full sub-step advances by at least half its length. -/
theorem full_step {dt st s : F} (hst : 0 < st) (hf : (2 : K) ^ (1 - (p : ℤ)) * dt.1 ≤ st.1) (h1 : s.1 + st.1 ≤ dt.1) (h0 : 0 ≤ s.1) :
    s.1 + st.1 / 2 ≤ (s + st).1 := by
  have hst' : (0 : K) < st.1 := hst
  have h2 := (abs_le.1 (add_rel (Fl.kept s) (Fl.kept st))).1
  have h3 : (2 : K) ^ (-(p : ℤ) - 1) * (s.1 + st.1) ≤ 2 ^ (-(p : ℤ) - 1) * dt.1 := mul_le_mul_of_nonneg_left h1 (ulp_pos _).le
  have e : (2 : K) ^ (1 - (p : ℤ)) = 4 * 2 ^ (-(p : ℤ) - 1) := by
    rw [show 1 - (p : ℤ) = 2 + (-(p : ℤ) - 1) by ring, zpow_add₀ two_ne]; norm_num
  rw [e] at hf
  rw [abs_of_pos (by linarith : 0 < s.1 + st.1)] at h2
  show _ ≤ binRound p emin (s.1 + st.1)
  linarith

/-- The loop ends when a sub-step is not negligible beside `dt`. -/
theorem heatLoop_float_terminates [Archimedean K] {dt st : F} (hst : 0 < st) (hdt : 0 ≤ dt)
    (hf : (2 : K) ^ (1 - (p : ℤ)) * dt.1 ≤ st.1) (cs : List (HeatCell F)) :
    ∃ r N, ∀ n, N ≤ n → whileM (heatLoopPass dt st) n (0, cs) = .ok r := by
  have hst' : (0 : K) < st.1 := hst
  obtain ⟨m, hm⟩ := Archimedean.arch dt.1 (show (0 : K) < st.1 / 2 by linarith)
  have key : ∀ (k : Nat) (s : F) (cs : List (HeatCell F)), 0 ≤ s → HeatTime dt st s → dt.1 - s.1 ≤ k • (st.1 / 2) →
      ∃ r, ∀ n, k + 1 < n → whileM (heatLoopPass dt st) n (s, cs) = .ok r := by
    intro k
    induction k with
    | zero =>
      intro s cs _ _ h
      refine ⟨(s, cs), fun n hn => ?_⟩
      obtain ⟨n, rfl⟩ : ∃ j, n = j + 1 := ⟨n - 1, by omega⟩
      have : ¬ s < dt := by rw [zero_nsmul, sub_nonpos] at h; exact not_lt.2 h
      rw [whileM, heatPass_none this]
    | succ k ih =>
      intro s cs h0 hi h
      by_cases hs : s < dt
      · obtain ⟨hi', hc⟩ := heatTime_step hst hi hs
        have hk : dt.1 - (s + pyMin st (dt - s)).1 ≤ k • (st.1 / 2) := by
          rcases hc with e | ⟨e, hle⟩
          · rw [e, sub_self]; exact nsmul_nonneg (by linarith) k
          · rw [e]
            have := full_step hst hf hle h0
            rw [succ_nsmul] at h; linarith
        have h0' : 0 ≤ s + pyMin st (dt - s) := by
          have := Rounded.add_mono (α := F) h0 (pyMin_pos hst hs).le
          rwa [Rounded.add_zero] at this
        obtain ⟨r, hr⟩ := ih _ (heatPass (pyMin st (dt - s)) cs) h0' hi' hk
        refine ⟨r, fun n hn => ?_⟩
        obtain ⟨n, rfl⟩ : ∃ j, n = j + 1 := ⟨n - 1, by omega⟩
        rw [whileM, heatPass_some hs]
        exact hr n (by omega)
      · refine ⟨(s, cs), fun n hn => ?_⟩
        obtain ⟨n, rfl⟩ : ∃ j, n = j + 1 := ⟨n - 1, by omega⟩
        rw [whileM, heatPass_none hs]
  obtain ⟨r, hr⟩ := key m 0 cs le_rfl ⟨hdt, Or.inl rfl⟩ (by rw [Fl.zero_val, sub_zero]; exact hm)
  exact ⟨r, m + 2, fun n hn => hr n (by omega)⟩

end

section Stuck
variable {α : Type} [LinearOrder α] [Zero α] [One α] [Add α] [Sub α] [Mul α] [Div α] [Neg α] [NatCast α] [OfScientific α] [Rounded α]

/-- If some time before `dt` absorbs a sub-step, the loop never gets past it. -/
theorem heatLoop_stuck {dt st b : α} (h0 : 0 ≤ b) (hb : b + st ≤ b) (hdt : b < dt) (cs : List (HeatCell α)) (fuel : Nat) :
    whileM (heatLoopPass dt st) fuel (0, cs) = .error .diverge := by
  refine whileM_diverges (fun s => s.1 ≤ b) ?_ fuel (0, cs) h0
  rintro ⟨s, cs⟩ (hs : s ≤ b)
  refine ⟨(s + pyMin st (dt - s), heatPass (pyMin st (dt - s)) cs), ?_, ?_⟩
  · unfold heatLoopPass; rw [if_pos (hs.trans_lt hdt)]
  · have : pyMin st (dt - s) ≤ st := by
      unfold pyMin; split_ifs with h
      · exact h.le
      · exact le_rfl
    exact (Rounded.add_mono hs this).trans hb

end Stuck
end Cosipy
