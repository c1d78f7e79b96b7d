import Verif.Model.Divisions
import Verif.Props.C74
import Verif.Props.C75

/-!
# C119 The surface fluxes are computed without dividing by zero

The code divides numbers in compiled functions, where a zero divisor raises ZeroDivisionError and ends the program. `ebFluxesD` is the flux
routine with these checks (Model/Divisions.lean). Whenever it returns, it returns what `ebFluxes` returns (`C119_agree`, for every
arithmetic). In the Richardson scheme it never raises for sane weather (`C119_ri`, with the range in which the solvers search in
`C119_range`). In the Monin-Obukhov scheme this holds over surfaces not warmer than the air (`C119_mo_partial`). Over a warmer surface there
is always a wind speed for which the second pass divides by zero (`C119_mo_refuted`): the correction for momentum reaches the logarithm.
Full statement: `∀ i t0, SaneInput i → … → ebFluxesD c wrf g i t0 = ebFluxes c wrf g i t0` for both schemes.
-/

set_option autoImplicit false
set_option linter.unusedSectionVars false

namespace Cosipy

/-! ### Whenever the checked routine returns -/

section
variable {α : Type} [Add α] [Sub α] [Mul α] [Div α] [Neg α] [LT α] [LE α]
  [DecidableLT α] [DecidableLE α] [BEq α] [Zero α] [One α] [NatCast α] [OfScientific α] [Transc α]

theorem methodEWSonntagD_ok {t y : α} (h : methodEWSonntagD t = .ok y) : methodEWSonntag t = y := by
  unfold methodEWSonntagD at h
  unfold methodEWSonntag
  split_ifs at h ⊢ <;>
  · simp only [bind_eq_ok, pure_eq_ok] at h
    obtain ⟨q, h1, rfl⟩ := h
    rw [fdiv_ok h1]

theorem phiMStableD_ok {wrf : Bool} {z l y : α} (h : phiMStableD wrf z l = .ok y) : phiMStable wrf z l = y := by
  unfold phiMStableD at h
  unfold phiMStable
  simp only [bind_eq_ok] at h
  obtain ⟨q, h1, h⟩ := h
  rw [fdiv_ok h1] at h
  simp only
  split_ifs at h ⊢ <;> exact pure_eq_ok.1 h

theorem phiMD_ok {wrf : Bool} {z l y : α} (h : phiMD wrf z l = .ok y) : phiM wrf z l = y := by
  unfold phiMD at h
  unfold phiM
  split_ifs at h ⊢
  · exact phiMStableD_ok h
  · simp only [bind_eq_ok, pure_eq_ok] at h
    obtain ⟨q, h1, rfl⟩ := h
    rw [fdiv_ok h1]
  · exact pure_eq_ok.1 h

theorem phiTqD_ok {wrf : Bool} {z l y : α} (h : phiTqD wrf z l = .ok y) : phiTq wrf z l = y := by
  unfold phiTqD at h
  unfold phiTq
  split_ifs at h ⊢
  · exact phiMStableD_ok h
  · simp only [bind_eq_ok, pure_eq_ok] at h
    obtain ⟨q, h1, rfl⟩ := h
    rw [fdiv_ok h1]
  · exact pure_eq_ok.1 h

theorem ustarD_ok {wrf : Bool} {u z z0 l y : α} (h : ustarD wrf u z z0 l = .ok y) : ustar wrf u z z0 l = y := by
  unfold ustarD at h
  simp only [bind_eq_ok] at h
  obtain ⟨r, h1, p, h2, h3⟩ := h
  rw [fdiv_ok h3, fdiv_ok h1, ← phiMD_ok h2]
  rfl

theorem moLengthD_ok {c : Consts α} {rho ust t2 h y : α} (e : moLengthD c rho ust t2 h = .ok y) : moLength c rho ust t2 h = y := by
  unfold moLengthD at e
  unfold moLength
  split_ifs at e ⊢
  · exact ok_inj.1 e
  · exact (fdiv_ok e).symm

theorem moPassD_ok {c : Consts α} {wrf : Bool} {i : EbInput α} {t0 rho lv q0 q2 cs : α} {s : MoState α} {y : Option (MoState α)}
    (h : moPassD c wrf i t0 rho lv q0 q2 cs s = .ok y) : moPass c wrf i t0 rho lv q0 q2 cs s = .ok y := by
  unfold moPassD at h
  unfold moPass
  split_ifs at h ⊢
  · simp only [bind_eq_ok, pure_eq_ok] at h
    obtain ⟨ust, h1, t1, h2, t2, h3, r, h4, m1, h5, m2, h6, cd, h7, rt, h8, csT, h9, rq, h10, csQ, h11, l, h12, rfl⟩ := h
    have e1 := ustarD_ok h1
    have e2 := phiTqD_ok h2
    have e3 := phiTqD_ok h3
    have e4 := fdiv_ok h4
    have e5 := phiMD_ok h5
    have e6 := phiMD_ok h6
    have e7 := fdiv_ok h7
    have e8 := fdiv_ok h8
    have e9 := fdiv_ok h9
    have e10 := fdiv_ok h10
    have e11 := fdiv_ok h11
    have e12 := moLengthD_ok h12
    subst e12 e11 e10 e9 e8 e7 e6 e5 e4 e3 e2 e1
    rfl
  · exact h

theorem whileM_refine {σ : Type} {body body' : σ → M (Option σ)} (h : ∀ s y, body s = .ok y → body' s = .ok y) :
    ∀ n s r, whileM body n s = .ok r → whileM body' n s = .ok r
  | 0, _, _, e => by simp [whileM] at e
  | n + 1, s, r, e => by
    unfold whileM at e ⊢
    cases hb : body s with
    | error x => rw [hb] at e; cases e
    | ok o =>
      rw [hb] at e
      rw [h s o hb]
      cases o with
      | none => exact e
      | some s' => exact whileM_refine h n s' r e

theorem bulkRiD_ok {i : EbInput α} {t0 y : α} (h : bulkRiD i t0 = .ok y) : bulkRi i t0 = y := by
  unfold bulkRiD at h
  unfold bulkRi
  split_ifs at h ⊢
  · exact ok_inj.1 h
  · exact (fdiv_ok h).symm

theorem incomingLongwaveD_ok {c : Consts α} {i : EbInput α} {ea y : α} (h : incomingLongwaveD c i ea = .ok y) :
    incomingLongwave c i ea = .ok y := by
  unfold incomingLongwaveD at h
  unfold incomingLongwave
  cases hl : i.lwin <;> cases hn : i.n <;> simp only [hl, hn] at h ⊢
  · cases h
  · simp only [bind_eq_ok, pure_eq_ok] at h
    obtain ⟨q, h1, rfl⟩ := h
    rw [fdiv_ok h1]
  · exact h
  · exact h

/-- **C119, agreement.** Whenever the routine with checked divisions returns, the routine of the model returns the same fluxes. This holds
for every arithmetic, so for doubles as well. -/
theorem C119_agree {c : Consts α} {wrf : Bool} {g : Grid α} {i : EbInput α} {t0 : α} {fl : Fluxes α}
    (h : ebFluxesD c wrf g i t0 = .ok fl) : ebFluxes c wrf g i t0 = .ok fl := by
  unfold ebFluxesD at h
  simp only [bind_eq_ok, pure_eq_ok] at h
  obtain ⟨ew, h1, ew0, h2, li, h3, m2, h4, m0, h5, rho, h6, ⟨hh, le, mol, csT, csQ⟩, h7, top, h8, lam, h9, a1, h10, a2, h11, a3, h12,
    a4, h13, rate, h14, rfl⟩ := h
  have e1 := methodEWSonntagD_ok h1
  have e2 := methodEWSonntagD_ok h2
  subst e1 e2
  have e4 := fdiv_ok h4
  have e5 := fdiv_ok h5
  subst e4 e5
  have e6 := fdiv_ok h6
  subst e6
  have e10 := fdiv_ok h10
  have e11 := fdiv_ok h11
  have e12 := fdiv_ok h12
  have e13 := fdiv_ok h13
  have e14 := fdiv_ok h14
  subst e10 e11 e12 e13 e14
  unfold ebFluxes
  simp only [incomingLongwaveD_ok h3, h8, h9, ok_bind, bind_eq_ok, pure_eq_ok]
  refine ⟨(hh, le, mol, csT, csQ), ?_, rfl⟩
  unfold turbulentD at h7
  split at h7 <;> rename_i hm <;> simp only [hm]
  · simp only [bind_eq_ok] at h7 ⊢
    obtain ⟨s, hs, h7⟩ := h7
    exact ⟨s, whileM_refine (fun _ _ => moPassD_ok) _ _ _ hs, h7⟩
  · simp only [bind_eq_ok, pure_eq_ok] at h7
    obtain ⟨r, k1, rt, k2, rq, k3, ct, k4, cq, k5, ri, k6, k7⟩ := h7
    have e1 := fdiv_ok k1
    have e2 := fdiv_ok k2
    have e3 := fdiv_ok k3
    subst e1 e2 e3
    have e4 := fdiv_ok k4
    have e5 := fdiv_ok k5
    have e6 := bulkRiD_ok k6
    subst e4 e5 e6
    rw [k7]
  · cases h7

end

/-! ### When no divisor vanishes -/

theorem methodEWSonntagD_eq {t : ℝ} (h : 0.55 < t) : methodEWSonntagD t = .ok (methodEWSonntag t) := by
  unfold methodEWSonntagD methodEWSonntag
  split_ifs with hw
  · rw [fdiv_of_ne (by norm_num at *; linarith), ok_bind]; rfl
  · rw [fdiv_of_ne (by norm_num at *; linarith), ok_bind]; rfl

theorem phiMStableD_eq {z l : ℝ} (h : l ≠ 0) (wrf : Bool) : phiMStableD wrf z l = .ok (phiMStable wrf z l) := by
  unfold phiMStableD phiMStable
  rw [fdiv_of_ne h, ok_bind]
  simp only
  split_ifs <;> rfl

theorem phiMD_eq (z l : ℝ) (wrf : Bool) : phiMD wrf z l = .ok (phiM wrf z l) := by
  unfold phiMD phiM
  split_ifs with h1 h2
  · exact phiMStableD_eq h1.ne' wrf
  · rw [fdiv_of_ne h2.ne, ok_bind]; rfl
  · rfl

theorem phiTqD_eq (z l : ℝ) (wrf : Bool) : phiTqD wrf z l = .ok (phiTq wrf z l) := by
  unfold phiTqD phiTq
  split_ifs with h1 h2
  · exact phiMStableD_eq h1.ne' wrf
  · rw [fdiv_of_ne h2.ne, ok_bind]; rfl
  · rfl

theorem moLengthD_eq (c : Consts ℝ) (rho ust t2 h : ℝ) : moLengthD c rho ust t2 h = .ok (moLength c rho ust t2 h) := by
  unfold moLengthD moLength
  split_ifs with hh
  · rfl
  · rw [fdiv_of_ne]
    have : h ≠ 0 := fun e => hh (by simp [e])
    norm_num [this]

theorem logs_pos {z z0 : ℝ} (h0 : 0 < z0) (hz : z0 < z) :
    0 < Real.log (z / z0) ∧ Real.log (z / z0) < Real.log (z / (z0 / 100)) ∧ Real.log (z / z0) < Real.log (z / (z0 / 10)) := by
  have hz' : 0 < z := h0.trans hz
  refine ⟨Real.log_pos (by rw [lt_div_iff₀ h0]; linarith), ?_, ?_⟩
  · apply Real.log_lt_log (by positivity)
    apply div_lt_div_of_pos_left hz' (by positivity) (by linarith)
  · apply Real.log_lt_log (by positivity)
    apply div_lt_div_of_pos_left hz' (by positivity) (by linarith)

/-- The only divisors of a pass that can vanish are the two with the correction for momentum. -/
theorem moPassD_eq {c : Consts ℝ} {wrf : Bool} {i : EbInput ℝ} {t0 rho lv q0 q2 cs : ℝ} {s : MoState ℝ} (h0 : 0 < i.z0) (hz : i.z0 < i.z)
    (d1 : Real.log (i.z / i.z0) - phiM wrf i.z s.l ≠ 0) (d2 : Real.log (i.z / i.z0) - phiM wrf i.z s.l - phiM wrf i.z0 s.l ≠ 0) :
    moPassD c wrf i t0 rho lv q0 q2 cs s = moPass c wrf i t0 rho lv q0 q2 cs s := by
  obtain ⟨l0, l1, l2⟩ := logs_pos h0 hz
  have hd := phiTq_diff h0 hz s.l wrf
  have hu : ustarD wrf i.u2 i.z i.z0 s.l = .ok (ustar wrf i.u2 i.z i.z0 s.l) := by
    unfold ustarD
    rw [fdiv_of_ne h0.ne', ok_bind, phiMD_eq, ok_bind, fdiv_of_ne]
    · rfl
    · exact d1
  unfold moPassD moPass
  split_ifs with ho
  · have z1 : i.z0 / 100 ≠ 0 := by positivity
    have z2 : i.z0 / 10 ≠ 0 := by positivity
    have c1 : (Transc.pow (Transc.log (i.z / i.z0) - phiM wrf i.z s.l - phiM wrf i.z0 s.l) 2 : ℝ) ≠ 0 := by
      show (Real.log (i.z / i.z0) - phiM wrf i.z s.l - phiM wrf i.z0 s.l) ^ (2 : ℝ) ≠ 0
      rw [Real.rpow_two]
      exact pow_ne_zero 2 d2
    have c2 : Transc.log (i.z / (i.z0 / 100)) - (phiTq wrf i.z s.l - phiTq wrf i.z0 s.l) ≠ 0 := by
      show Real.log (i.z / (i.z0 / 100)) - (phiTq wrf i.z s.l - phiTq wrf i.z0 s.l) ≠ 0
      exact (by linarith : (0 : ℝ) < _).ne'
    have c3 : Transc.log (i.z / (i.z0 / 10)) - (phiTq wrf i.z s.l - phiTq wrf i.z0 s.l) ≠ 0 := by
      show Real.log (i.z / (i.z0 / 10)) - (phiTq wrf i.z s.l - phiTq wrf i.z0 s.l) ≠ 0
      exact (by linarith : (0 : ℝ) < _).ne'
    simp only [hu, ok_bind, phiTqD_eq, phiMD_eq, fdiv_of_ne h0.ne', fdiv_of_ne z1, fdiv_of_ne z2, fdiv_of_ne c1, fdiv_of_ne c2,
      fdiv_of_ne c3, moLengthD_eq]
    rfl
  · rfl

theorem whileM_congr {σ : Type} {body body' : σ → M (Option σ)} (P : σ → Prop) (h : ∀ s, P s → body s = body' s)
    (hP : ∀ s s', P s → body' s = .ok (some s') → P s') : ∀ n s, P s → whileM body n s = whileM body' n s
  | 0, _, _ => rfl
  | n + 1, s, hs => by
    unfold whileM
    rw [h s hs]
    cases hb : body' s with
    | error e => rfl
    | ok o =>
      cases o with
      | none => rfl
      | some s' => exact whileM_congr P h hP n s' (hP s s' hs hb)

/-! ### Sane weather -/

/-- Temperatures above the pole of the vapour pressure formula, no boiling at the surface, a time step and two distinct depths. -/
structure FluxRange (c : Consts ℝ) (i : EbInput ℝ) (t0 : ℝ) : Prop where
  air : 0.55 < i.t2
  surface : 0.55 < t0
  boil : methodEWSonntag t0 < i.p
  dt : i.dt ≠ 0
  upper : 0 < c.zlt1
  lower : c.zlt1 < c.zlt2

theorem bulkRiD_eq {i : EbInput ℝ} (h : 0 < i.t2) (t0 : ℝ) : bulkRiD i t0 = .ok (bulkRi i t0) := by
  unfold bulkRiD bulkRi
  split_ifs with hu
  · rfl
  · have : i.u2 ≠ 0 := fun e => hu (by simp [e])
    rw [fdiv_of_ne]
    show i.t2 * i.u2 ^ (2 : ℝ) ≠ 0
    rw [Real.rpow_two]
    positivity

theorem incomingLongwaveD_eq {c : Consts ℝ} {i : EbInput ℝ} (h : 0 < i.t2) (ea : ℝ) :
    incomingLongwaveD c i ea = incomingLongwave c i ea := by
  unfold incomingLongwaveD incomingLongwave
  cases i.lwin <;> cases i.n <;> simp only [fdiv_of_ne h.ne', ok_bind]
  rfl

/-- If the turbulent part agrees, the routines agree. -/
theorem ebFluxesD_of {c : Consts ℝ} {wrf : Bool} {g : Grid ℝ} {i : EbInput ℝ} {t0 : ℝ} (hi : SaneInput i) (hr : FluxRange c i t0)
    (ht : ∀ rho lv q0 q2 cs : ℝ, 0 < rho → 0 ≤ cs → turbulentD c wrf i t0 rho lv q0 q2 cs =
      (match c.stabilityCorrection with
      | .mo => do
        let s ← whileM (moPass c wrf i t0 rho lv q0 q2 cs) 8 ⟨0, none, true, 0, 0, 0, 0, 0⟩
        return (s.h, s.le, some s.l, s.csT, s.csQ)
      | .ri =>
        let z0t := i.z0 / 100
        let z0q := i.z0 / 10
        let csT := Transc.pow 0.41 2 / (Transc.log (i.z / i.z0) * Transc.log (i.z / z0t))
        let csQ := Transc.pow 0.41 2 / (Transc.log (i.z / i.z0) * Transc.log (i.z / z0q))
        let phi := riPhi (bulkRi i t0)
        .ok (phi * sensibleHeatFlux c rho csT i.u2 (i.t2 - t0) cs,
          phi * latentHeatFlux rho lv csQ i.u2 (q2 - q0) cs, none, csT, csQ)
      | .other => .error .value : M (ℝ × ℝ × Option ℝ × ℝ × ℝ))) :
    ebFluxesD c wrf g i t0 = ebFluxes c wrf g i t0 := by
  have hpi := Real.pi_pos
  have hcos : 0 ≤ Real.cos (i.slope * Real.pi / 180) := by
    apply Real.cos_nonneg_of_neg_pi_div_two_le_of_le
    · have := mul_le_mul_of_nonneg_right hi.slope.1 hpi.le
      linarith
    · have := mul_le_mul_of_nonneg_right hi.slope.2 hpi.le
      linarith
  have ew := ew_pos i.t2
  have hp := hi.pres
  have hq : 0 < i.p - methodEWSonntag i.t2 := by linarith
  have hq0 : 0 < i.p - methodEWSonntag t0 := by linarith [hr.boil]
  have hpp : 0 < i.p := by linarith
  have ha := hi.air
  have hh := hi.hum
  have hrho : 0 < 287.058 * (i.t2 * (1 + 0.608 * (i.rh2 * 0.622 * (methodEWSonntag i.t2 / (i.p - methodEWSonntag i.t2)) / 100))) := by
    positivity
  have hrho' : 0 < i.p * 100 / (287.058 * (i.t2 * (1 + 0.608 * (i.rh2 * 0.622 * (methodEWSonntag i.t2 / (i.p - methodEWSonntag i.t2)) / 100)))) := by
    positivity
  have z1 : c.zlt2 - c.zlt1 + c.zlt1 ≠ 0 := by
    rw [sub_add_cancel]; exact (hr.upper.trans hr.lower).ne'
  have z2 : c.zlt2 - c.zlt1 ≠ 0 := (sub_pos.2 hr.lower).ne'
  unfold ebFluxesD ebFluxes
  simp only [methodEWSonntagD_eq hr.air, methodEWSonntagD_eq hr.surface, ok_bind, incomingLongwaveD_eq hi.air, fdiv_of_ne hq.ne',
    fdiv_of_ne hq0.ne', fdiv_of_ne hrho.ne', fdiv_of_ne z1, fdiv_of_ne z2, fdiv_of_ne hr.upper.ne', fdiv_of_ne hr.dt]
  congr 1
  funext li
  have k := ht _ (if c.zeroTemperature ≤ t0 then c.latHeatVaporize else c.latHeatSublimation)
    ((100 * 0.622 * (methodEWSonntag t0 / (i.p - methodEWSonntag t0))) / 100)
    (i.rh2 * 0.622 * (methodEWSonntag i.t2 / (i.p - methodEWSonntag i.t2)) / 100) _ hrho' hcos
  exact congrArg (· >>= _) k

/-- **C119, Richardson scheme.** For sane weather no divisor is zero: the routine with checked divisions does what the routine of the model
does, and raises only what that raises (missing radiation data, unknown methods, an empty column). -/
theorem C119_ri {c : Consts ℝ} (hm : c.stabilityCorrection = .ri) {wrf : Bool} {g : Grid ℝ} {i : EbInput ℝ} {t0 : ℝ} (hi : SaneInput i)
    (hr : FluxRange c i t0) : ebFluxesD c wrf g i t0 = ebFluxes c wrf g i t0 := by
  refine ebFluxesD_of hi hr (fun rho lv q0 q2 cs _ _ => ?_)
  obtain ⟨l0, l1, l2⟩ := logs_pos hi.z0 hi.z
  have h0 := hi.z0
  have z1 : i.z0 / 100 ≠ 0 := by positivity
  have z2 : i.z0 / 10 ≠ 0 := by positivity
  have p1 : (Transc.log (i.z / i.z0) * Transc.log (i.z / (i.z0 / 100)) : ℝ) ≠ 0 := mul_ne_zero l0.ne' (l0.trans l1).ne'
  have p2 : (Transc.log (i.z / i.z0) * Transc.log (i.z / (i.z0 / 10)) : ℝ) ≠ 0 := mul_ne_zero l0.ne' (l0.trans l2).ne'
  unfold turbulentD
  simp only [hm, fdiv_of_ne h0.ne', fdiv_of_ne z1, fdiv_of_ne z2, fdiv_of_ne p1, fdiv_of_ne p2, ok_bind, bulkRiD_eq hi.air]
  rfl

/-- **C119, Monin-Obukhov scheme in stable and neutral air.** Over a surface that is not warmer than the air no pass of the iteration
divides by zero. -/
theorem C119_mo_partial {c : Consts ℝ} (hc : c.Phys) (hm : c.stabilityCorrection = .mo) {wrf : Bool} {g : Grid ℝ} {i : EbInput ℝ} {t0 : ℝ}
    (hi : SaneInput i) (hr : FluxRange c i t0) (ht : t0 ≤ i.t2) : ebFluxesD c wrf g i t0 = ebFluxes c wrf g i t0 := by
  refine ebFluxesD_of hi hr (fun rho lv q0 q2 cs hrho hcs => ?_)
  obtain ⟨l0, l1, l2⟩ := logs_pos hi.z0 hi.z
  unfold turbulentD
  simp only [hm]
  rw [whileM_congr (fun s => 0 ≤ s.l)]
  · intro s hs
    have n1 := phiM_nonpos hs (hi.z0.trans hi.z) wrf
    have n2 := phiM_nonpos hs hi.z0 wrf
    exact moPassD_eq hi.z0 hi.z (by linarith : (0 : ℝ) < _).ne' (by linarith : (0 : ℝ) < _).ne'
  · intro s s' hs h
    exact ((moPass_out h).stable hc hi.z0 hi.z hi.wind hrho hcs ht hi.air hs).1
  · exact le_rfl

/-! ### Unstable air -/

/-- In unstable air the correction for momentum takes every positive value. -/
theorem phiM_takes {z b : ℝ} (hz : 0 < z) (hb : 0 < b) (wrf : Bool) : ∃ l < 0, phiM wrf z l = b := by
  let f : ℝ → ℝ := fun x => 2 * Real.log ((1 + x) / 2) + Real.log ((1 + x ^ 2) / 2) - 2 * Real.arctan x + Real.pi / 2
  have hf : ContinuousOn f (Set.Ici 1) := by
    intro x hx
    have hx1 : (1 : ℝ) ≤ x := hx
    apply ContinuousAt.continuousWithinAt
    have c1 : ContinuousAt (fun x : ℝ => Real.log ((1 + x) / 2)) x :=
      ContinuousAt.log (by fun_prop) (by positivity)
    have c2 : ContinuousAt (fun x : ℝ => Real.log ((1 + x ^ 2) / 2)) x :=
      ContinuousAt.log (by fun_prop) (by positivity)
    have c3 := Real.continuous_arctan.continuousAt (x := x)
    exact (((c1.const_mul 2).add c2).sub (c3.const_mul 2)).add continuousAt_const
  have f1 : f 1 = 0 := by
    simp only [f, Real.arctan_one]
    norm_num
    ring
  have hpi := Real.pi_pos
  obtain ⟨X, hX1, hX⟩ : ∃ X : ℝ, 1 ≤ X ∧ b ≤ f X := by
    have e1 : 1 ≤ Real.exp (b + Real.pi) := Real.one_le_exp (by positivity)
    refine ⟨2 * Real.exp (b + Real.pi) - 1, by linarith, ?_⟩
    have k1 : Real.log ((1 + (2 * Real.exp (b + Real.pi) - 1)) / 2) = b + Real.pi := by
      rw [show (1 + (2 * Real.exp (b + Real.pi) - 1)) / 2 = Real.exp (b + Real.pi) by ring, Real.log_exp]
    have k2 : 0 ≤ Real.log ((1 + (2 * Real.exp (b + Real.pi) - 1) ^ 2) / 2) := Real.log_nonneg (by nlinarith)
    have k3 := Real.arctan_lt_pi_div_two (2 * Real.exp (b + Real.pi) - 1)
    simp only [f, k1]
    linarith
  obtain ⟨x, ⟨hx1, _⟩, hx⟩ := intermediate_value_Icc hX1 (hf.mono fun y hy => hy.1) ⟨by rw [f1]; exact hb.le, hX⟩
  have hx1' : 1 < x := lt_of_le_of_ne hx1 (fun e => by rw [← e, f1] at hx; linarith)
  have h4 : 0 < x ^ 4 - 1 := by
    have := one_lt_pow₀ hx1' (by norm_num : 4 ≠ 0)
    linarith
  refine ⟨-(16 * z) / (x ^ 4 - 1), div_neg_of_neg_of_pos (by linarith) h4, ?_⟩
  have hl : -(16 * z) / (x ^ 4 - 1) < 0 := div_neg_of_neg_of_pos (by linarith) h4
  unfold phiM
  rw [if_neg (not_lt.2 hl.le), if_pos hl]
  have e : (1 : ℝ) - 16 * z / (-(16 * z) / (x ^ 4 - 1)) = x ^ 4 := by
    field_simp
    ring
  have ex : (Transc.pow ((1 : ℝ) - 16 * z / (-(16 * z) / (x ^ 4 - 1))) 0.25 : ℝ) = x := by
    show ((1 : ℝ) - 16 * z / (-(16 * z) / (x ^ 4 - 1))) ^ (0.25 : ℝ) = x
    rw [e, ← Real.rpow_natCast x 4, ← Real.rpow_mul (by linarith)]
    norm_num
  simp only [ex]
  show 2 * Real.log ((1 + x) / 2.0) + Real.log ((1 + x ^ (2 : ℝ)) / 2.0) - 2 * Real.arctan x + Real.pi / 2.0 = b
  rw [Real.rpow_two, ← hx]
  norm_num [f]

/-- The friction velocity is then a quotient by zero, whatever the wind. -/
theorem C119_friction_refuted {z z0 : ℝ} (h0 : 0 < z0) (hz : z0 < z) (wrf : Bool) :
    ∃ l < 0, ∀ u, ustarD wrf u z z0 l = .error .zeroDiv := by
  obtain ⟨l, hl, e⟩ := phiM_takes (h0.trans hz) (logs_pos h0 hz).1 wrf
  refine ⟨l, hl, fun u => ?_⟩
  unfold ustarD
  rw [fdiv_of_ne h0.ne', ok_bind, phiMD_eq, ok_bind, e]
  show fdiv (0.41 * u) (Real.log (z / z0) - Real.log (z / z0)) = _
  rw [sub_self]
  unfold fdiv
  rw [if_pos (beq_self_eq_true _)]

/-- **C119, Monin-Obukhov scheme, violated in unstable air.** For every sane weather over a warmer surface there is a wind speed for which
the flux routine divides by zero: the first pass gives the Obukhov length at which the correction for momentum equals the logarithm, and the
second pass divides by their difference. -/
theorem C119_mo_refuted {c : Consts ℝ} (hc : c.Phys) (hm : c.stabilityCorrection = .mo) {wrf : Bool} (g : Grid ℝ) {i : EbInput ℝ} {t0 : ℝ}
    (hi : SaneInput i) (hr : FluxRange c i t0) (hs : -90 < i.slope ∧ i.slope < 90) (hl : i.lwin.isSome ∨ i.n.isSome) (ht : i.t2 < t0) :
    ∃ u > 0, SaneInput { i with u2 := u } ∧ ebFluxesD c wrf g { i with u2 := u } t0 = .error .zeroDiv := by
  obtain ⟨l, hl0, hz⟩ := C119_friction_refuted hi.z0 hi.z wrf
  obtain ⟨l0, l1, l2⟩ := logs_pos hi.z0 hi.z
  have hpi := Real.pi_pos
  have hcos : 0 < Real.cos (i.slope * Real.pi / 180) := by
    apply Real.cos_pos_of_mem_Ioo
    constructor
    · have := mul_lt_mul_of_pos_right hs.1 hpi
      linarith
    · have := mul_lt_mul_of_pos_right hs.2 hpi
      linarith
  have ew := ew_pos i.t2
  have hp := hi.pres
  have hq : 0 < i.p - methodEWSonntag i.t2 := by linarith
  have hq0 : 0 < i.p - methodEWSonntag t0 := by linarith [hr.boil]
  have hpp : 0 < i.p := by linarith
  have ha := hi.air
  have hh := hi.hum
  have hrho : 0 < 287.058 * (i.t2 * (1 + 0.608 * (i.rh2 * 0.622 * (methodEWSonntag i.t2 / (i.p - methodEWSonntag i.t2)) / 100))) := by
    positivity
  have hrho' : 0 < i.p * 100 / (287.058 * (i.t2 * (1 + 0.608 * (i.rh2 * 0.622 * (methodEWSonntag i.t2 / (i.p - methodEWSonntag i.t2)) / 100)))) := by
    positivity
  obtain ⟨A, hA⟩ : ∃ A : ℝ, A = 0.41 * (0.41 / |Real.log (i.z / i.z0)|) / Real.log (i.z / (i.z0 / 100)) := ⟨_, rfl⟩
  have hA0 : 0 < A := by
    rw [hA, abs_of_pos l0]
    have := l0.trans l1
    positivity
  obtain ⟨κ, hκ⟩ : ∃ κ : ℝ, κ = (0.41 / Real.log (i.z / i.z0)) ^ 3 * i.t2 /
      (0.41 * 9.81 * (A * (i.t2 - t0) * Real.cos (i.slope * Real.pi / 180))) := ⟨_, rfl⟩
  have hd : i.t2 - t0 < 0 := by linarith
  have hκ0 : κ < 0 := by
    rw [hκ]
    apply div_neg_of_pos_of_neg (by positivity)
    have : A * (i.t2 - t0) * Real.cos (i.slope * Real.pi / 180) < 0 :=
      mul_neg_of_neg_of_pos (mul_neg_of_pos_of_neg hA0 hd) hcos
    norm_num at *
    linarith
  have hu : 0 < Real.sqrt (l / κ) := Real.sqrt_pos.2 (div_pos_of_neg_of_neg hl0 hκ0)
  have hu2 : Real.sqrt (l / κ) ^ 2 * κ = l := by
    rw [Real.sq_sqrt (div_pos_of_neg_of_neg hl0 hκ0).le, div_mul_cancel₀ _ hκ0.ne]
  generalize Real.sqrt (l / κ) = u at hu hu2
  refine ⟨u, hu, ⟨hu.le, hi.air, hi.hum, hi.pres, hi.z0, hi.z, hi.slope⟩, ?_⟩
  have turb : ∀ rho lv q0 q2 : ℝ, 0 < rho →
      turbulentD c wrf { i with u2 := u } t0 rho lv q0 q2 (Real.cos (i.slope * Real.pi / 180)) = .error .zeroDiv := by
    intro rho lv q0 q2 hr'
    have e0 : ∀ z : ℝ, phiM wrf z 0 = 0 := fun z => by unfold phiM; rw [if_neg (lt_irrefl _), if_neg (lt_irrefl _)]
    have e0' : ∀ z : ℝ, phiTq wrf z 0 = 0 := fun z => by unfold phiTq; rw [if_neg (lt_irrefl _), if_neg (lt_irrefl _)]
    obtain ⟨s1, h1, ho⟩ : ∃ s1, moPass c wrf { i with u2 := u } t0 rho lv q0 q2 (Real.cos (i.slope * Real.pi / 180))
        ⟨0, none, true, 0, 0, 0, 0, 0⟩ = .ok (some s1) ∧ s1.optim = true := by
      unfold moPass
      rw [if_pos rfl]
      exact ⟨_, rfl, rfl⟩
    have o := moPass_out h1
    have h1' : moPassD c wrf { i with u2 := u } t0 rho lv q0 q2 (Real.cos (i.slope * Real.pi / 180))
        ⟨0, none, true, 0, 0, 0, 0, 0⟩ = .ok (some s1) := by
      rw [moPassD_eq (i := { i with u2 := u }) hi.z0 hi.z, h1]
      · simp only [e0, sub_zero]; exact l0.ne'
      · simp only [e0, sub_zero]; exact l0.ne'
    have hT : s1.csT = A := by
      rw [o.csT, hA]
      simp only [e0, e0', sub_zero]
    have hH : s1.h = rho * c.specHeatAir * u * (A * (i.t2 - t0) * Real.cos (i.slope * Real.pi / 180)) := by
      rw [o.h, hT]
      simp only
      ring
    have hcp := hc.cAir
    have hneg : A * (i.t2 - t0) * Real.cos (i.slope * Real.pi / 180) < 0 :=
      mul_neg_of_neg_of_pos (mul_neg_of_pos_of_neg hA0 hd) hcos
    have hH0 : s1.h ≠ 0 := by
      rw [hH]
      exact (mul_neg_of_pos_of_neg (by positivity) hneg).ne
    have hL : s1.l = l := by
      rw [o.l, if_neg hH0, hH, ← hu2, hκ]
      simp only [e0, sub_zero]
      have := hneg.ne
      have := l0.ne'
      generalize A * (i.t2 - t0) * Real.cos (i.slope * Real.pi / 180) = w at *
      field_simp
    unfold turbulentD
    simp only [hm]
    have h2 : moPassD c wrf { i with u2 := u } t0 rho lv q0 q2 (Real.cos (i.slope * Real.pi / 180)) s1 = .error .zeroDiv := by
      unfold moPassD
      rw [if_pos ho, hL]
      simp only [hz]
      rfl
    unfold whileM
    rw [h1']
    simp only
    unfold whileM
    rw [h2]
    rfl
  obtain ⟨li, hli⟩ : ∃ li, incomingLongwave c { i with u2 := u } (i.rh2 * methodEWSonntag i.t2 / 100) = .ok li := by
    unfold incomingLongwave
    simp only
    cases h1 : i.lwin <;> cases h2 : i.n <;> simp [h1, h2] at hl ⊢
  unfold ebFluxesD
  simp only [methodEWSonntagD_eq hr.air, methodEWSonntagD_eq hr.surface, ok_bind, fdiv_of_ne hq.ne',
    fdiv_of_ne hq0.ne', fdiv_of_ne hrho.ne']
  rw [incomingLongwaveD_eq (i := { i with u2 := u }) hi.air, hli, ok_bind]
  have k := turb _ (if c.zeroTemperature ≤ t0 then c.latHeatVaporize else c.latHeatSublimation)
    ((100 * 0.622 * (methodEWSonntag t0 / (i.p - methodEWSonntag t0))) / 100)
    (i.rh2 * 0.622 * (methodEWSonntag i.t2 / (i.p - methodEWSonntag i.t2)) / 100) hrho'
  exact congrArg (· >>= _) k

/-! ### The range of the solvers -/

/-- **C119, range.** Between 220 K and 330 K, where the solvers search, the surface does not boil at a pressure of 210 hPa or more. -/
theorem C119_range {t p : ℝ} (h1 : 220 ≤ t) (h2 : t ≤ 330) (hp : 210 ≤ p) : 0.55 < t ∧ methodEWSonntag t < p := by
  have h55 : (0.55 : ℝ) < t := by norm_num; linarith
  refine ⟨h55, lt_of_lt_of_le ?_ hp⟩
  have m := C75_saturation.2.1.monotoneOn (a := t) (b := 330) h55 (by show (0.55 : ℝ) < 330; norm_num) h2
  refine lt_of_le_of_lt m ?_
  rw [ew_water (by norm_num)]
  have k1 : Real.exp (17.67 * (330 - 273.16) / (330 - 29.66)) ≤ Real.exp 3.5 := Real.exp_le_exp.2 (by norm_num)
  have k2 : Real.exp 3.5 < 34 := by
    have e : Real.exp 3.5 ^ 2 = Real.exp 1 ^ 7 := by
      rw [← Real.exp_nat_mul, ← Real.exp_nat_mul]; norm_num
    have e1 := Real.exp_one_lt_d9
    have e2 : Real.exp 1 ^ 7 ≤ 2.7182818286 ^ 7 := pow_le_pow_left₀ (Real.exp_pos 1).le e1.le 7
    have e3 : Real.exp 3.5 ^ 2 < 34 ^ 2 := by rw [e]; refine lt_of_le_of_lt e2 ?_; norm_num
    exact lt_of_pow_lt_pow_left₀ 2 (by norm_num) e3
  have k3 := k1.trans_lt k2
  generalize Real.exp (17.67 * (330 - 273.16) / (330 - 29.66)) = x at k3
  norm_num
  linarith

/-! ### Non-vacuity -/

theorem exMo_range {c : Consts ℝ} (h1 : 0 < c.zlt1) (h2 : c.zlt1 < c.zlt2) {t0 : ℝ} (a : 220 ≤ t0) (b : t0 ≤ 330) : FluxRange c exMo t0 := by
  obtain ⟨k1, k2⟩ := C119_range a b (p := exMo.p) (by norm_num [exMo])
  exact ⟨by norm_num [exMo], k1, k2, by norm_num [exMo], h1, h2⟩

/-- A stable winter situation in both schemes. -/
example (m : StabilityMethod) (hm : m = .ri ∨ m = .mo) : ∃ fl, ebFluxesD { Consts.default ℝ with stabilityCorrection := m } false
    ⟨[⟨1/10, 268, 0, 1/2, 0⟩], 1, 0, 0, 0⟩ exMo 268 = .ok fl := by
  have hp : ∀ m, ({ Consts.default ℝ with stabilityCorrection := m } : Consts ℝ).Phys := by
    intro m; constructor <;> norm_num [Consts.default]
  have hr : ∀ m, FluxRange { Consts.default ℝ with stabilityCorrection := m } exMo 268 := fun m =>
    exMo_range (by norm_num [Consts.default]) (by norm_num [Consts.default]) (by norm_num) (by norm_num)
  rcases hm with rfl | rfl
  · rw [C119_ri rfl exMo_sane (hr _)]
    unfold ebFluxes
    simp only [incomingLongwave, exMo, ok_bind]
    exact ⟨_, rfl⟩
  · rw [C119_mo_partial (hp _) rfl exMo_sane (hr _) (by norm_num [exMo])]
    exact exMo_fluxes 268

/-- A surface at the melting point below colder air: some wind speed ends the program. -/
example : ∃ u > 0, ebFluxesD { Consts.default ℝ with stabilityCorrection := .mo } false
    ⟨[⟨1/10, 268, 0, 1/2, 0⟩], 1, 0, 0, 0⟩ { exMo with u2 := u } 273 = .error .zeroDiv := by
  have hp : ({ Consts.default ℝ with stabilityCorrection := .mo } : Consts ℝ).Phys := by
    constructor <;> norm_num [Consts.default]
  obtain ⟨u, hu, _, h⟩ := C119_mo_refuted hp rfl (wrf := false) ⟨[⟨1/10, 268, 0, 1/2, 0⟩], 1, 0, 0, 0⟩ exMo_sane
    (exMo_range (by norm_num [Consts.default]) (by norm_num [Consts.default]) (by norm_num) (by norm_num) : FluxRange _ exMo 273)
    (by norm_num [exMo]) (Or.inl rfl) (by norm_num [exMo])
  exact ⟨u, hu, h⟩

end Cosipy
