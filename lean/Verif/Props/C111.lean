import Verif.Props.C104
import Verif.Props.C76

/-!
# C111 More radiation never makes the surface colder or the melt smaller

A surface is *settled* if it is below the melting point and the fluxes balance, or at the melting point and the balance is
not negative; what is left there melts. In calm air, in both stability schemes, a settled surface that receives more shortwave and longwave
radiation is at least as warm and melts at least as much, and is strictly warmer below the melting point (`C111_calm_partial`). If the balance is only met up to a tolerance, as by the solvers of the program, the surface is at most by the
tolerance over the slope of the emitted radiation colder (`C111_tolerance_partial`). At the melting point the melt energy grows by
exactly the additional radiation, whatever the wind and the scheme (`C111_melting`). `C111_step_partial` lifts the comparison to whole time steps that differ
in the incoming longwave radiation. The program as a whole does not have the property, since the surface need not be settled:
with the shipped constants and method, in calm air over a column at 215 K, a surface that would settle just below 220 K is
reported at the melting point, and with more sun at 220.01 K (`C111_refuted`). Exact real arithmetic.
-/

set_option autoImplicit false
set_option linter.unusedSectionVars false

namespace Cosipy
open Set

/-- The sum of net shortwave radiation and all recorded fluxes. -/
def Fluxes.total (sw : ℝ) (fl : Fluxes ℝ) : ℝ := sw + fl.li + fl.lo + fl.h + fl.le + fl.b + fl.qrr

/-- Up to `ε`: the surface is below the melting point and the fluxes balance, or at the melting point and they do not sum to less than
zero. -/
def SettledUpTo (ε tz sw ts : ℝ) (fl : Fluxes ℝ) : Prop :=
  (ts < tz ∧ |fl.total sw| ≤ ε) ∨ (ts = tz ∧ -ε ≤ fl.total sw)

section
variable {c : Consts ℝ} {wrf : Bool} {g : Grid ℝ} {i : EbInput ℝ}

/-- Incoming longwave radiation that is given enters the fluxes as it is and nothing else. -/
theorem ebFluxes_lwin {l l' t : ℝ} {fl : Fluxes ℝ} (hi : i.lwin = some l) (h : ebFluxes c wrf g i t = .ok fl) :
    fl.li = l ∧ ebFluxes c wrf g { i with lwin := some l' } t = .ok { fl with li := l' } := by
  unfold ebFluxes at h
  simp only [bind_eq_ok] at h
  obtain ⟨li, h1, x, hx, top, h2, lam, h3, h⟩ := h
  rw [pure_eq_ok] at h
  subst h
  unfold incomingLongwave at h1
  rw [hi] at h1
  simp only [ok_inj] at h1
  refine ⟨h1.symm, ?_⟩
  have e : incomingLongwave c { i with lwin := some l' } (i.rh2 * methodEWSonntag i.t2 / 100) = .ok l' := by
    unfold incomingLongwave
    rfl
  unfold ebFluxes
  exact bind_eq_ok.2 ⟨l', e, bind_eq_ok.2 ⟨x, hx, bind_eq_ok.2 ⟨top, h2, bind_eq_ok.2 ⟨lam, h3, rfl⟩⟩⟩⟩

/-- The conductivity of a layer with ice, water and air is not negative. -/
theorem conductivity_nonneg (hc : c.Phys) {n : Node ℝ} (hi : 0 ≤ n.iceFraction) (hw : 0 ≤ n.lwc) {lam : ℝ}
    (h : n.thermalConductivity c = .ok lam) : 0 ≤ lam := by
  unfold Node.thermalConductivity at h
  split at h
  · rw [ok_inj] at h
    subst h
    have ha : 0 ≤ n.airPorosity := by unfold Node.airPorosity; rw [pyMax_eq]; exact le_max_left _ _
    have h1 := mul_nonneg hi hc.kI.le
    have h2 := mul_nonneg ha hc.kA.le
    have h3 := mul_nonneg hw hc.kW.le
    linarith
  · rw [ok_inj] at h
    subst h
    have := mul_self_nonneg (n.density c / 1000)
    norm_num
    linarith
  · cases h

/-- In calm air the balance falls at least as fast as the emitted radiation grows. -/
theorem calm_slope (hc : Cooling c i) (hm : c.stabilityCorrection = .ri ∨ c.stabilityCorrection = .mo) (hu : i.u2 = 0)
    (hl : ∀ top lam, g.node 0 = .ok top → top.thermalConductivity c = .ok lam → 0 ≤ lam) {a b sw : ℝ} (ha : 0 < a) (hab : a ≤ b)
    {fa fb : Fluxes ℝ} (h1 : ebFluxes c wrf g i a = .ok fa) (h2 : ebFluxes c wrf g i b = .ok fb) :
    fb.total sw + c.surfaceEmissionCoeff * c.sigma * (4 * a ^ 3) * (b - a) ≤ fa.total sw := by
  have van : ∀ {t fl}, ebFluxes c wrf g i t = .ok fl → fl.h = 0 ∧ fl.le = 0 := by
    intro t fl h
    rcases hm with hm | hm
    · exact C35_vanish hm h (Or.inl hu)
    · exact C37_calm hm hu h
  obtain ⟨a1, a2⟩ := van h1
  obtain ⟨b1, b2⟩ := van h2
  obtain ⟨top, lam, e1, e2, e3, e4, e5, e6, _⟩ := ebFluxes_parts h1
  obtain ⟨top', lam', f1, f2, f3, f4, f5, f6, _⟩ := ebFluxes_parts h2
  have ht : top = top' := ok_inj.1 (e1.symm.trans f1)
  subst ht
  have hlam : lam = lam' := ok_inj.1 (e2.symm.trans f2)
  subst hlam
  have hli : fb.li = fa.li := ok_inj.1 (f3.symm.trans e3)
  have hlam := hl _ _ e1 e2
  have hk : 0 < c.surfaceEmissionCoeff * c.sigma := mul_pos hc.emission hc.sigma
  have h4 : 4 * a ^ 3 * (b - a) ≤ b ^ 4 - a ^ 4 := by
    have e : b ^ 4 - a ^ 4 = (b ^ 3 + b ^ 2 * a + b * a ^ 2 + a ^ 3) * (b - a) := by ring
    rw [e]
    apply mul_le_mul_of_nonneg_right _ (by linarith)
    have p3 : a ^ 3 ≤ b ^ 3 := pow_le_pow_left₀ ha.le hab 3
    have p2 : a ^ 2 * a ≤ b ^ 2 * a := mul_le_mul_of_nonneg_right (pow_le_pow_left₀ ha.le hab 2) ha.le
    have p1 : a * a ^ 2 ≤ b * a ^ 2 := mul_le_mul_of_nonneg_right hab (by positivity)
    nlinarith
  have r1 : fb.lo + c.surfaceEmissionCoeff * c.sigma * (4 * a ^ 3) * (b - a) ≤ fa.lo := by
    rw [e4, f4]
    have := mul_le_mul_of_nonneg_left h4 hk.le
    nlinarith
  have r2 : fb.b ≤ fa.b := by
    rw [e5, f5]
    apply mul_le_mul_of_nonneg_left _ hlam
    have hd := hc.depth1
    have hd2 := hc.depth2
    have : 0 ≤ (c.zlt2 - c.zlt1) / (c.zlt2 - c.zlt1 + c.zlt1) := div_nonneg (by linarith) (by linarith)
    have h5 : (i.tz1 - b) / c.zlt1 ≤ (i.tz1 - a) / c.zlt1 := by
      apply div_le_div_of_nonneg_right _ hd.le
      linarith
    have := mul_le_mul_of_nonneg_left h5 this
    linarith
  have r3 : fb.qrr ≤ fa.qrr := by
    rw [e6, f6]
    have : 0 ≤ c.waterDensity * c.specHeatWater * (i.rain / 1000 / i.dt) :=
      mul_nonneg (mul_nonneg hc.water hc.heat) (div_nonneg (div_nonneg hc.rain (by norm_num)) hc.dt.le)
    nlinarith
  unfold Fluxes.total
  rw [a1, a2, b1, b2, hli]
  linarith

theorem meltEnergy_total (sw : ℝ) (fl : Fluxes ℝ) : meltEnergy sw fl = max 0 (fl.total sw) := by
  unfold meltEnergy Fluxes.total
  rw [pyMax_eq]
  congr 1
  ring

/-- The comparison for two evaluations of the fluxes. -/
theorem calm_compare (hc : Cooling c i) (hm : c.stabilityCorrection = .ri ∨ c.stabilityCorrection = .mo) (hu : i.u2 = 0)
    (hl : ∀ top lam, g.node 0 = .ok top → top.thermalConductivity c = .ok lam → 0 ≤ lam) {l1 l2 sw1 sw2 t1 t2 ε : ℝ}
    {f1 f2 : Fluxes ℝ} (hi : i.lwin = some l1) (h1 : ebFluxes c wrf g i t1 = .ok f1)
    (h2 : ebFluxes c wrf g { i with lwin := some l2 } t2 = .ok f2) (hr : sw1 + l1 ≤ sw2 + l2) (hε : 0 ≤ ε)
    (s1 : SettledUpTo ε c.zeroTemperature sw1 t1 f1) (s2 : SettledUpTo ε c.zeroTemperature sw2 t2 f2) (h0 : 0 < t2) :
    c.surfaceEmissionCoeff * c.sigma * (4 * t2 ^ 3) * (t1 - t2) ≤ 2 * ε ∧ meltEnergy sw1 f1 ≤ meltEnergy sw2 f2 + ε ∧
      (sw1 + l1 < sw2 + l2 → ε = 0 → t1 < c.zeroTemperature → t1 < t2) := by
  obtain ⟨e2, h2'⟩ := ebFluxes_lwin (l' := l1) rfl h2
  have ei : ({ ({ i with lwin := some l2 } : EbInput ℝ) with lwin := some l1 } : EbInput ℝ) = i := by
    cases i; simp only at hi; subst hi; rfl
  rw [ei] at h2'
  have t2' : ({ f2 with li := l1 } : Fluxes ℝ).total sw1 = f2.total sw2 - ((sw2 + l2) - (sw1 + l1)) := by
    unfold Fluxes.total
    simp only [e2]
    ring
  have hk : 0 < c.surfaceEmissionCoeff * c.sigma * (4 * t2 ^ 3) := mul_pos (mul_pos hc.emission hc.sigma) (by positivity)
  have lo1 : -ε ≤ f1.total sw1 := by
    rcases s1 with ⟨_, h⟩ | ⟨_, h⟩
    · exact (abs_le.1 h).1
    · exact h
  refine ⟨?_, ?_, ?_⟩
  · rcases le_or_gt t1 t2 with h | h
    · have := mul_nonneg hk.le (sub_nonneg.2 h)
      linarith
    · have sl := calm_slope (sw := sw1) hc hm hu hl h0 h.le h2' h1
      rw [t2'] at sl
      rcases s2 with ⟨_, b⟩ | ⟨b, _⟩
      · have := (abs_le.1 b).2
        linarith
      · exfalso
        rcases s1 with ⟨a, _⟩ | ⟨a, _⟩ <;> linarith
  · rw [meltEnergy_total, meltEnergy_total]
    have hm0 := le_max_left 0 (f2.total sw2)
    have hm1 := le_max_right 0 (f2.total sw2)
    apply max_le (by linarith)
    rcases s1 with ⟨_, a⟩ | ⟨a, _⟩
    · have := (abs_le.1 a).2
      linarith
    · have h : t2 ≤ t1 := by
        rcases s2 with ⟨b, _⟩ | ⟨b, _⟩ <;> linarith
      have sl := calm_slope (sw := sw1) hc hm hu hl h0 h h2' h1
      rw [t2'] at sl
      have := mul_nonneg hk.le (sub_nonneg.2 h)
      linarith
  · intro hlt h0' hz
    subst h0'
    by_contra hn
    have sl := calm_slope (sw := sw1) hc hm hu hl h0 (not_lt.1 hn) h2' h1
    rw [t2'] at sl
    have := mul_nonneg hk.le (sub_nonneg.2 (not_lt.1 hn))
    rcases s2 with ⟨_, b⟩ | ⟨b, _⟩
    · have := (abs_le.1 b).2
      linarith
    · linarith

/-- Two updates of the same column under weather that differs in the radiation only evaluate the fluxes over the same column and with the
same other inputs. -/
theorem two_updates {sv sv' : Solvers ℝ} {mk : ℝ → ℝ → EbInput ℝ} {l2 sw1 sw2 ts1 ts2 : ℝ} {g1 g2 : Grid ℝ} {fl1 fl2 : Fluxes ℝ}
    (h1 : updateSurfaceTemperature sv c wrf g mk sw1 = .ok (g1, ts1, fl1))
    (h2 : updateSurfaceTemperature sv' c wrf g (fun x y => { mk x y with lwin := some l2 }) sw2 = .ok (g2, ts2, fl2)) :
    ∃ x y, interpSubT c g = .ok (x, y) ∧ ebFluxes c wrf g (mk x y) ts1 = .ok fl1 ∧ ebFluxes c wrf g { mk x y with lwin := some l2 } ts2 = .ok fl2 := by
  obtain ⟨x, y, top, z, a1, _, _, _, a5⟩ := update_decomp h1
  obtain ⟨x', y', top', z', b1, _, _, _, b5⟩ := update_decomp h2
  rw [a1, ok_inj, Prod.mk.injEq] at b1
  obtain ⟨rfl, rfl⟩ := b1
  exact ⟨x, y, a1, a5, b5⟩

/-- **C111, calm air (partial).** Full statement: for every column and weather, an update with more radiation reports a surface at least as
warm and at least as much melt energy. Missing: wind, and surfaces that are not settled (both refuted below and in C104). In
calm air, in both stability schemes and whatever the solvers do: if both reported surfaces are settled, the one that receives at
least as much shortwave and longwave radiation together is at least as warm and has at least as much melt energy; if it receives more and the other
one is below the melting point, it is warmer. -/
theorem C111_calm_partial {sv sv' : Solvers ℝ} {mk : ℝ → ℝ → EbInput ℝ} {l1 l2 sw1 sw2 ts1 ts2 : ℝ} {g1 g2 : Grid ℝ}
    {fl1 fl2 : Fluxes ℝ} (hm : c.stabilityCorrection = .ri ∨ c.stabilityCorrection = .mo)
    (hmk : ∀ x y, interpSubT c g = .ok (x, y) → Cooling c (mk x y) ∧ (mk x y).u2 = 0 ∧ (mk x y).lwin = some l1)
    (hl : ∀ top lam, g.node 0 = .ok top → top.thermalConductivity c = .ok lam → 0 ≤ lam) (hr : sw1 + l1 ≤ sw2 + l2)
    (h1 : updateSurfaceTemperature sv c wrf g mk sw1 = .ok (g1, ts1, fl1))
    (h2 : updateSurfaceTemperature sv' c wrf g (fun x y => { mk x y with lwin := some l2 }) sw2 = .ok (g2, ts2, fl2))
    (s1 : SettledUpTo 0 c.zeroTemperature sw1 ts1 fl1) (s2 : SettledUpTo 0 c.zeroTemperature sw2 ts2 fl2) (h0 : 0 < ts2) :
    ts1 ≤ ts2 ∧ meltEnergy sw1 fl1 ≤ meltEnergy sw2 fl2 ∧
      (sw1 + l1 < sw2 + l2 → ts1 < c.zeroTemperature → ts1 < ts2) := by
  obtain ⟨x, y, e0, e1, e2⟩ := two_updates h1 h2
  obtain ⟨hc, hu, hi⟩ := hmk x y e0
  obtain ⟨a, b, d⟩ := calm_compare hc hm hu hl hi e1 e2 hr le_rfl s1 s2 h0
  refine ⟨?_, by linarith, fun h => d h rfl⟩
  have hk : 0 < c.surfaceEmissionCoeff * c.sigma * (4 * ts2 ^ 3) := mul_pos (mul_pos hc.emission hc.sigma) (by positivity)
  by_contra hn
  have := mul_pos hk (sub_pos.2 (not_le.1 hn))
  linarith

/-- **C111, tolerance (partial).** As `C111_calm_partial`, with balances that are met up to `ε` only: the surface that receives more
radiation is colder by at most `2 ε` over the slope of the emitted radiation at its temperature, and its melt energy is smaller by at
most `ε`. -/
theorem C111_tolerance_partial {sv sv' : Solvers ℝ} {mk : ℝ → ℝ → EbInput ℝ} {l1 l2 sw1 sw2 ts1 ts2 ε : ℝ} {g1 g2 : Grid ℝ}
    {fl1 fl2 : Fluxes ℝ} (hm : c.stabilityCorrection = .ri ∨ c.stabilityCorrection = .mo)
    (hmk : ∀ x y, interpSubT c g = .ok (x, y) → Cooling c (mk x y) ∧ (mk x y).u2 = 0 ∧ (mk x y).lwin = some l1)
    (hl : ∀ top lam, g.node 0 = .ok top → top.thermalConductivity c = .ok lam → 0 ≤ lam) (hr : sw1 + l1 ≤ sw2 + l2)
    (h1 : updateSurfaceTemperature sv c wrf g mk sw1 = .ok (g1, ts1, fl1))
    (h2 : updateSurfaceTemperature sv' c wrf g (fun x y => { mk x y with lwin := some l2 }) sw2 = .ok (g2, ts2, fl2))
    (hε : 0 ≤ ε) (s1 : SettledUpTo ε c.zeroTemperature sw1 ts1 fl1) (s2 : SettledUpTo ε c.zeroTemperature sw2 ts2 fl2) (h0 : 0 < ts2) :
    ts1 - ts2 ≤ 2 * ε / (4 * c.surfaceEmissionCoeff * c.sigma * ts2 ^ 3) ∧ meltEnergy sw1 fl1 - meltEnergy sw2 fl2 ≤ ε := by
  obtain ⟨x, y, e0, e1, e2⟩ := two_updates h1 h2
  obtain ⟨hc, hu, hi⟩ := hmk x y e0
  obtain ⟨a, b, _⟩ := calm_compare hc hm hu hl hi e1 e2 hr hε s1 s2 h0
  refine ⟨?_, by linarith⟩
  have hk : 0 < 4 * c.surfaceEmissionCoeff * c.sigma * ts2 ^ 3 := by
    have := hc.emission
    have := hc.sigma
    positivity
  rw [le_div_iff₀ hk]
  linarith

/-- **C111, melting.** At the melting point the sum of the fluxes grows by exactly the additional radiation, and so does the melt energy if the
sum was not negative; whatever the wind, the scheme and the solvers. -/
theorem C111_melting {sv sv' : Solvers ℝ} {mk : ℝ → ℝ → EbInput ℝ} {l1 l2 sw1 sw2 ts1 ts2 : ℝ} {g1 g2 : Grid ℝ}
    {fl1 fl2 : Fluxes ℝ} (hmk : ∀ x y, (mk x y).lwin = some l1)
    (h1 : updateSurfaceTemperature sv c wrf g mk sw1 = .ok (g1, ts1, fl1))
    (h2 : updateSurfaceTemperature sv' c wrf g (fun x y => { mk x y with lwin := some l2 }) sw2 = .ok (g2, ts2, fl2))
    (z1 : ts1 = c.zeroTemperature) (z2 : ts2 = c.zeroTemperature) :
    fl2.total sw2 - fl1.total sw1 = (sw2 + l2) - (sw1 + l1) ∧
      (sw1 + l1 ≤ sw2 + l2 → meltEnergy sw1 fl1 ≤ meltEnergy sw2 fl2 ∧ meltEnergy sw2 fl2 - meltEnergy sw1 fl1 ≤ (sw2 + l2) - (sw1 + l1)) ∧
      (0 ≤ fl1.total sw1 → sw1 + l1 ≤ sw2 + l2 →
        meltEnergy sw2 fl2 - meltEnergy sw1 fl1 = (sw2 + l2) - (sw1 + l1)) := by
  obtain ⟨x, y, e0, e1, e2⟩ := two_updates h1 h2
  rw [z1] at e1
  rw [z2] at e2
  obtain ⟨k1, k2⟩ := ebFluxes_lwin (l' := l2) (hmk x y) e1
  have : fl2 = { fl1 with li := l2 } := ok_inj.1 (e2.symm.trans k2)
  have key : fl2.total sw2 - fl1.total sw1 = (sw2 + l2) - (sw1 + l1) := by
    rw [this]
    unfold Fluxes.total
    simp only [k1]
    ring
  refine ⟨key, ?_, ?_⟩
  · intro hr
    rw [meltEnergy_total, meltEnergy_total]
    have := le_max_left 0 (fl1.total sw1)
    have := le_max_right 0 (fl1.total sw1)
    constructor
    · exact max_le_max le_rfl (by linarith)
    · rw [sub_le_iff_le_add]
      exact max_le (by linarith) (by linarith)
  · intro hp hr
    rw [meltEnergy_total, meltEnergy_total, max_eq_right hp, max_eq_right (by linarith)]
    exact key

/-- **C111, near neutral (partial).** With wind and the Richardson scheme the comparison of the temperatures holds among settled surfaces below the
melting point at which the air is nearly neutral or unstable. -/
theorem C111_neutral_partial {sv sv' : Solvers ℝ} {mk : ℝ → ℝ → EbInput ℝ} {l1 l2 sw1 sw2 ts1 ts2 ts : ℝ} {g1 g2 : Grid ℝ}
    {fl1 fl2 : Fluxes ℝ} (hmk : ∀ x y, interpSubT c g = .ok (x, y) → Windy c g (mk x y) ∧ richardson (mk x y) ts = 0.01 ∧ (mk x y).lwin = some l1)
    (hr : sw1 + l1 ≤ sw2 + l2) (h0 : 0.55 < ts)
    (h1 : updateSurfaceTemperature sv c wrf g mk sw1 = .ok (g1, ts1, fl1))
    (h2 : updateSurfaceTemperature sv' c wrf g (fun x y => { mk x y with lwin := some l2 }) sw2 = .ok (g2, ts2, fl2))
    (z1 : ts1 < c.zeroTemperature) (z2 : ts ≤ ts2) (s1 : fl1.total sw1 = 0) (s2 : fl2.total sw2 = 0) :
    ts1 ≤ ts2 := by
  obtain ⟨x, y, e0, e1, e2⟩ := two_updates h1 h2
  obtain ⟨hw, hri, hi⟩ := hmk x y e0
  obtain ⟨k1, k2⟩ := ebFluxes_lwin (l' := l1) rfl e2
  have ei : ({ ({ mk x y with lwin := some l2 } : EbInput ℝ) with lwin := some l1 } : EbInput ℝ) = mk x y := by
    revert hi
    cases mk x y
    intro hi
    simp only at hi
    subst hi
    rfl
  rw [ei] at k2
  obtain ⟨R, hR⟩ := balance_exists e1 sw1
  by_contra hn
  have := C104_neutral hw hR h0 hri z2 (not_le.1 hn) z1
  rw [hR.at e1, hR.at k2] at this
  unfold Fluxes.total at s1 s2
  simp only at this
  linarith

end

section
variable {c : Consts ℝ} {r : RunCfg ℝ}

/-- **C111, time step (partial).** Two time steps from the same state under calm weather that differs only in the incoming longwave radiation, both
with a surface settled up to `ε`: more radiation gives a surface that is colder by at most `2 ε` over the slope of the emitted radiation (with
`ε = 0`: not colder), and at least as much melt energy and melt, up to `ε`. -/
theorem C111_step_partial {sv : Solvers ℝ} (hb : sv.RespectsLower) {fuel : Nat} {tlo ε l1 l2 : ℝ} (hs : Sane c r tlo)
    (hm : c.stabilityCorrection = .ri ∨ c.stabilityCorrection = .mo) (hem : 0 < c.surfaceEmissionCoeff) (hsg : 0 < c.sigma)
    (hd1 : 0 < c.zlt1) (hd2 : c.zlt1 < c.zlt2) {s s1 s2 : SimState ℝ} {f : Forcing ℝ} {o1 o2 : StepOut ℝ} (hw : s.grid.WF)
    (hg : ∀ n ∈ s.grid.nodes, PhysLayer c tlo n) (ht2 : tlo ≤ f.t2) (hu : f.u2 = 0) (hf : f.lwin = some l1) (hl : l1 ≤ l2)
    (h1 : step sv fuel c r s f = .ok (s1, o1)) (h2 : step sv fuel c r s { f with lwin := some l2 } = .ok (s2, o2)) (hε : 0 ≤ ε)
    (t1 : SettledUpTo ε c.zeroTemperature o1.swnet o1.ts o1.fluxes) (t2 : SettledUpTo ε c.zeroTemperature o2.swnet o2.ts o2.fluxes)
    (h0 : 0 < o2.ts) :
    o1.ts - o2.ts ≤ 2 * ε / (4 * c.surfaceEmissionCoeff * c.sigma * o2.ts ^ 3) ∧ o1.meltEnergy ≤ o2.meltEnergy + ε ∧
      o1.melt ≤ o2.melt + ε * r.dt / (1000 * c.latHeatMelting) := by
  obtain ⟨a⟩ := step_stages h1
  obtain ⟨b⟩ := step_stages h2
  have ph := a.phys hb hs hw hg ht2 h1
  have hrho : o2.densityFreshSnow = o1.densityFreshSnow := b.rho.trans a.rho.symm
  have hsr : b.sr = a.sr := by
    have h := b.precip
    rw [hrho] at h
    exact ok_inj.1 (h.symm.trans a.precip)
  have hsf : o2.snowfall = o1.snowfall := by rw [b.snowfall, a.snowfall, hrho, hsr]
  have hrain : o2.rain = o1.rain := by rw [b.rain, a.rain, hrho, hsr]
  have e1 : b.g1 = a.g1 := by
    have h := b.remesh
    rw [hsf, hrho] at h
    exact ok_inj.1 (h.symm.trans a.remesh)
  have e2 := b.albedo
  rw [e1] at e2
  have e2' := e2.symm.trans a.albedo
  simp only [ok_inj, Prod.mk.injEq] at e2'
  obtain ⟨eg2, ealb, _⟩ := e2'
  have ez : o2.z0 = o1.z0 := by
    have h := b.roughness
    rw [eg2] at h
    exact ok_inj.1 (h.symm.trans a.roughness)
  have e3 := b.radiation
  rw [eg2, ealb] at e3
  have e3' := e3.symm.trans a.radiation
  simp only [ok_inj, Prod.mk.injEq] at e3'
  obtain ⟨eg3, _, epen⟩ := e3'
  have esw : o2.swnet = o1.swnet := by rw [b.swnet, a.swnet, ealb, epen]
  have hb4 := b.surface
  rw [eg3, ez, hrain, esw] at hb4
  have hc : ∀ x y, Cooling c (⟨r.dt, r.z, o1.z0, f.t2, f.rh2, f.pres, f.u2, o1.rain, r.slope, x, y, f.lwin, f.n⟩ : EbInput ℝ) :=
    fun x y => ⟨hem, hsg, hd1, hd2, hs.phys.water.le, hs.phys.cW.le, ph.rain, hs.dt⟩
  have hlam : ∀ top lam, a.g3.node 0 = .ok top → top.thermalConductivity c = .ok lam → 0 ≤ lam := by
    intro top lam ht hk
    have hmem : top ∈ a.g3.nodes := by
      unfold Grid.node at ht
      cases hn : a.g3.nodes with
      | nil => rw [hn] at ht; cases ht
      | cons p q => rw [hn, pyGet_zero, ok_inj] at ht; rw [← ht]; exact List.mem_cons_self
    exact conductivity_nonneg hs.phys (ph.p3 top hmem).ice.le (ph.p3 top hmem).water hk
  rw [esw] at t2
  obtain ⟨r1, r2⟩ := C111_tolerance_partial hm (fun x y _ => ⟨hc x y, hu, hf⟩) hlam (by linarith : o1.swnet + l1 ≤ o1.swnet + l2)
    a.surface hb4 hε t1 t2 h0
  have r2' : o1.meltEnergy ≤ o2.meltEnergy + ε := by
    rw [a.meltEnergy, b.meltEnergy, esw]
    linarith
  refine ⟨r1, r2', ?_⟩
  rw [a.melt, b.melt, ← add_div]
  apply div_le_div_of_nonneg_right _ (by have := hs.phys.melt; positivity)
  nlinarith [hs.dt]

end
/-- A column at 215 K with a surface of temperature `t`. -/
noncomputable def dimGrid (t : ℝ) : Grid ℝ :=
  ⟨[⟨0.02, t, 0, 0.4, 0⟩, ⟨0.03, 215, 0, 0.4, 0⟩, ⟨0.05, 215, 0, 0.4, 0⟩, ⟨0.05, 215, 0, 0.4, 0⟩], 4, 0, 0, 0⟩

theorem dimGrid_sub (t : ℝ) : interpSubT (Consts.default ℝ) (dimGrid t) = .ok (215, 215) := by
  have hh : (dimGrid t).getHeight = .ok [0.02, 0.03, 0.05, 0.05] := by
    rw [Grid.getHeight_eq (by unfold Grid.WF dimGrid; simp)]; rfl
  have hcum : cumsumFrom (0 : ℝ) [0.02, 0.03, 0.05, 0.05] = [0.02, 0.05, 0.1, 0.15] := by
    simp only [cumsumFrom]; norm_num
  have h1 : argmin (List.map (fun x : ℝ => pyAbs (x - 0.06)) [0.02, 0.05, 0.1, 0.15]) = .ok 1 := by
    simp only [List.map, argmin, pyAbs_eq, argminFrom]
    norm_num [abs_of_neg, abs_of_pos]
  have h2 : argmin (List.map (fun x : ℝ => pyAbs (x - 0.1)) [0.02, 0.05, 0.1, 0.15]) = .ok 2 := by
    simp only [List.map, argmin, pyAbs_eq, argminFrom]
    norm_num [abs_of_neg, abs_of_pos]
  have e1 : (Consts.default ℝ).zlt1 = 0.06 := rfl
  have e2 : (Consts.default ℝ).zlt2 = 0.1 := rfl
  have g1 : pyGet ([0.02, 0.05, 0.1, 0.15] : List ℝ) 1 = .ok 0.05 := rfl
  have g2 : pyGet ([0.02, 0.05, 0.1, 0.15] : List ℝ) 2 = .ok 0.1 := rfl
  have g3 : pyGet ([0.02, 0.05, 0.1, 0.15] : List ℝ) 3 = .ok 0.15 := rfl
  have n1 : (dimGrid t).node 1 = .ok ⟨0.03, 215, 0, 0.4, 0⟩ := rfl
  have n2 : (dimGrid t).node 2 = .ok ⟨0.05, 215, 0, 0.4, 0⟩ := rfl
  have n3 : (dimGrid t).node 3 = .ok ⟨0.05, 215, 0, 0.4, 0⟩ := rfl
  have s1 : getSubsurfaceTemperature (dimGrid t) [0.02, 0.05, 0.1, 0.15] 0.06 = .ok 215 := by
    unfold getSubsurfaceTemperature
    rw [h1, ok_bind, Nat.cast_one, g1, ok_bind, if_neg (by norm_num), show (1 : Int) + 1 = 2 by rfl]
    simp only [n1, n2, g2, ok_bind]
    rw [fdiv_of_ne (by norm_num), ok_bind, pure_eq_ok]
    norm_num
  have s2 : getSubsurfaceTemperature (dimGrid t) [0.02, 0.05, 0.1, 0.15] 0.1 = .ok 215 := by
    unfold getSubsurfaceTemperature
    rw [h2, ok_bind, show ((2 : Nat) : Int) = 2 by rfl, g2, ok_bind, if_neg (by norm_num), show (2 : Int) + 1 = 3 by rfl]
    simp only [n2, n3, g3, ok_bind]
    rw [fdiv_of_ne (by norm_num), ok_bind, pure_eq_ok]
    norm_num
  unfold interpSubT
  rw [hh, ok_bind]
  simp only [hcum, e1, e2, s1, s2, ok_bind]
  rfl

theorem dimGrid_lam (t : ℝ) (top : Node ℝ) (lam : ℝ) (h1 : (dimGrid t).node 0 = .ok top)
    (h2 : top.thermalConductivity (Consts.default ℝ) = .ok lam) : 0 ≤ lam := by
  have e : (dimGrid t).node 0 = .ok ⟨0.02, t, 0, 0.4, 0⟩ := rfl
  rw [e, ok_inj] at h1
  subst h1
  exact conductivity_nonneg Consts.default_phys (by norm_num) (by norm_num) h2

/-- The calm night of C73 over the defaults. -/
theorem dim_cooling (x y : ℝ) : Cooling (Consts.default ℝ) (coldInput x y) := by
  refine ⟨?_, ?_, ?_, ?_, ?_, ?_, ?_, ?_⟩ <;> simp only [Consts.default, coldInput] <;> norm_num

/-- Radiation that balances the fluxes at a temperature of at least 219 K; more for a warmer surface. -/
theorem dim_balance (t : ℝ) : ∃ S : ℝ → ℝ, (∀ sw, Balance (Consts.default ℝ) false (dimGrid t) (coldInput 215 215) sw (fun x => sw + S x)) ∧
    (∀ a b, 0 < a → a < b → S b < S a) ∧ ∀ x, 219 ≤ x → S x < 0 := by
  have hfl : ∃ fl, ebFluxes (Consts.default ℝ) false (dimGrid t) (coldInput 215 215) 220 = .ok fl := ⟨_, rfl⟩
  obtain ⟨fl, hfl⟩ := hfl
  obtain ⟨S, hS⟩ := balance_exists hfl 0
  have hanti : ∀ a b, 0 < a → a < b → S b < S a := fun a b ha hab =>
    C73_calm (dim_cooling 215 215) (Or.inl rfl) rfl (dimGrid_lam t) hS ha.le hab
  refine ⟨S, ?_, hanti, ?_⟩
  · intro sw x
    obtain ⟨f, h, e⟩ := hS x
    exact ⟨f, h, by show sw + S x = _; rw [e]; ring⟩
  · intro x hx
    have h219 : S 219 < 0 := by
      obtain ⟨f, h, e⟩ := hS 219
      obtain ⟨top, lam, n1, n2, n3, n4, n5, n6, _⟩ := ebFluxes_parts h
      have hlam := dimGrid_lam t _ _ n1 n2
      obtain ⟨v1, v2⟩ := C35_vanish (c := Consts.default ℝ) rfl h (Or.inl rfl)
      have hli : f.li = 90 := by
        unfold incomingLongwave coldInput at n3
        simp only [ok_inj] at n3
        exact n3.symm
      have hq : f.qrr = 0 := by rw [n6]; simp [coldInput]
      have hb : f.b ≤ 0 := by
        rw [n5]
        apply mul_nonpos_of_nonneg_of_nonpos hlam
        simp only [Consts.default, coldInput]
        norm_num
      rw [e, v1, v2, hli, hq, n4]
      simp only [Consts.default]
      norm_num
      linarith
    rcases hx.eq_or_lt with rfl | hlt
    · exact h219
    · exact (hanti 219 x (by norm_num) hlt).trans h219

/-- **C111, refuted.** With the shipped constants and the shipped (secant) method, over a column at 215 K in calm air: without the
additional sun every surface temperature that is returned is the melting point, 273.16 K, with it the surface is reported at 220.01 K, and there the
fluxes balance. The minimiser is assumed to find minima; the first update succeeds for some solvers that do. -/
theorem C111_refuted : ∃ t sw1 sw2 : ℝ, 219 < t ∧ t < 220 ∧ 0 < sw1 ∧ sw1 < sw2 ∧
    (∃ g' ts fl, updateSurfaceTemperature exactSolvers (Consts.default ℝ) false (dimGrid t) coldInput sw1 = .ok (g', ts, fl)) ∧
    ∀ sv : Solvers ℝ, sv.ExactMin →
      (∀ g' ts fl, updateSurfaceTemperature sv (Consts.default ℝ) false (dimGrid t) coldInput sw1 = .ok (g', ts, fl) → ts = 273.16) ∧
      ∃ g' fl, updateSurfaceTemperature sv (Consts.default ℝ) false (dimGrid t) coldInput sw2 = .ok (g', 220.01, fl) ∧ fl.total sw2 = 0 := by
  obtain ⟨t, ht⟩ : ∃ t : ℝ, t = (220.01 - 0.0001) / 1.0001 := ⟨_, rfl⟩
  have t1 : 219.98 < t := by rw [ht]; norm_num
  have t2 : t < 219.99 := by rw [ht]; norm_num
  have start : secantStart t = 220.01 := by
    unfold secantStart
    have : 0 ≤ t * (1 + 0.0001) := mul_nonneg (by norm_num at t1; linarith) (by norm_num)
    rw [if_pos this, ht]
    norm_num
  obtain ⟨S, hS, hanti, hneg⟩ := dim_balance t
  have hm : (Consts.default ℝ).sfcTemperatureMethod = .secant := rfl
  have hz : (Consts.default ℝ).zeroTemperature = 273.16 := rfl
  norm_num at t1 t2
  have hlt : S 220.01 < S t := hanti t 220.01 (by linarith) (by norm_num; linarith)
  have hdist : (0.01 : ℝ) < |220.01 - t| := by
    rw [abs_of_pos (by norm_num; linarith)]
    norm_num
    linarith
  have hf : ∀ sw, ebOptim (Consts.default ℝ) false (dimGrid t) (coldInput 215 215) sw = fun y => .ok (sw + S y) :=
    fun sw => funext fun y => ebOptim_balance (hS sw) (Or.inr rfl) y
  have sec1 : secant (fun y => .ok (-S t + S y)) t 0.01 50 none 0 = .ok (t, 3) :=
    secant_at_root (R := fun y => -S t + S y) (Or.inl ⟨rfl, start⟩) (by ring) (by intro h; linarith) (by rw [abs_sub_comm]; exact hdist)
  have sec2 : secant (fun y => .ok (-S 220.01 + S y)) t 0.01 50 none 0 = .ok (220.01, 3) :=
    secant_at_root (R := fun y => -S 220.01 + S y) (Or.inr ⟨rfl, start⟩) (by ring) (by intro h; linarith) hdist
  -- the program on this column, given the answer of the solver
  have prog : ∀ (sv : Solvers ℝ) (sw x : ℝ), solveSurfaceTemperature sv (Consts.default ℝ) (fun y => .ok (sw + S y)) t = .ok x →
      ∃ g' fl, updateSurfaceTemperature sv (Consts.default ℝ) false (dimGrid t) coldInput sw = .ok (g', min 273.16 x, fl) ∧
        fl.total sw = sw + S (min 273.16 x) := by
    intro sv sw x hx
    obtain ⟨fl, hfl, e⟩ := hS sw (min 273.16 x)
    refine ⟨{ dimGrid t with nodes := ⟨0.02, min 273.16 x, 0, 0.4, 0⟩ :: (dimGrid t).nodes.tail }, fl, ?_, e.symm⟩
    have n0 : (dimGrid t).node 0 = .ok ⟨0.02, t, 0, 0.4, 0⟩ := rfl
    have hset : ∀ y, (dimGrid t).setNodeTemperature 0 y =
        .ok { dimGrid t with nodes := ⟨0.02, y, 0, 0.4, 0⟩ :: (dimGrid t).nodes.tail } := fun y => rfl
    have hfl3 := (ebFluxes_top (c := Consts.default ℝ) (wrf := false) (g := dimGrid t) rfl (min 273.16 x) (coldInput 215 215) (min 273.16 x)).trans hfl
    unfold updateSurfaceTemperature
    simp only [dimGrid_sub, ok_bind, n0, pyMin_eq, hf]
    rw [min_eq_left (by linarith), hx, ok_bind, hz]
    simp only [hset, ok_bind]
    exact congrArg (fun m => m >>= fun f => pure (_, _, f)) hfl3
  refine ⟨t, -S t, -S 220.01, by linarith, by linarith, by have := hneg t (by linarith); linarith, by linarith, ?_, ?_⟩
  · have hmin : ∃ p, exactSolvers.minimize .slsqp (fun y => .ok (-S t + S y)) t 220 (Consts.default ℝ).zeroTemperature = .ok p := by
      unfold exactSolvers
      simp only
      rw [dif_pos]
      · exact ⟨_, rfl⟩
      · refine ⟨(Consts.default ℝ).zeroTemperature, by rw [hz]; norm_num, le_rfl, ?_⟩
        intro v hv y w hy hy' hw
        rw [ok_inj] at hv hw
        rw [← hv, ← hw]
        rcases hy'.eq_or_lt with he | h
        · rw [he]
        · have := hanti y _ (by linarith) h
          linarith
    obtain ⟨p, hp⟩ := hmin
    have hsolve : solveSurfaceTemperature exactSolvers (Consts.default ℝ) (fun y => .ok (-S t + S y)) t = .ok p := by
      unfold solveSurfaceTemperature
      rw [hm]
      simp only [sec1, ok_bind]
      rw [if_pos (by linarith)]
      exact hp
    obtain ⟨g', fl, h, _⟩ := prog _ _ _ hsolve
    exact ⟨g', _, fl, h⟩
  · intro sv hsv
    constructor
    · intro g' ts fl h
      obtain ⟨x, y, top, z, a1, a2, a3, a4, _⟩ := update_decomp h
      rw [dimGrid_sub, ok_inj, Prod.mk.injEq] at a1
      obtain ⟨rfl, rfl⟩ := a1
      have ht0 : top.temperature = t := by
        have : (dimGrid t).nodes.head? = some ⟨0.02, t, 0, 0.4, 0⟩ := rfl
        rw [this] at a2
        cases a2
        rfl
      rw [ht0, min_eq_left (by linarith), hf] at a3
      rw [a4, ← hz]
      refine C73_fallback hsv (by rw [hz]; norm_num) (by rw [hz]; norm_num) (R := fun y => -S t + S y) ?_ (fun y => rfl)
        (Or.inr ⟨hm, Or.inr (Or.inr ⟨t, 3, sec1, by linarith⟩)⟩) a3
      intro a b ha hab _
      have := hanti a b (by linarith) hab
      linarith
    · have hsolve : solveSurfaceTemperature sv (Consts.default ℝ) (fun y => .ok (-S 220.01 + S y)) t = .ok 220.01 := by
        unfold solveSurfaceTemperature
        rw [hm]
        simp only [sec2, ok_bind]
        rw [if_neg (by norm_num)]
        unfold checkResidualClip
        rw [if_neg (by norm_num), ok_bind]
        rfl
      obtain ⟨g', fl, h, e⟩ := prog _ _ _ hsolve
      rw [min_eq_right (by norm_num)] at h e
      exact ⟨g', fl, h, by rw [e]; ring⟩

/-- Over the cold column of C73, with Newton's method and exact solvers: radiation for which the fluxes balance at a given temperature of
at least 220 K, and the update with it. -/
theorem cold_settles : ∃ S : ℝ → ℝ, (∀ a b, 0 ≤ a → a < b → S b < S a) ∧ ∀ x, 220 ≤ x → ∃ g' fl,
    updateSurfaceTemperature exactSolvers coldConsts false coldGrid coldInput (-S x) = .ok (g', min 273.16 x, fl) ∧
      fl.total (-S x) = -S x + S (min 273.16 x) := by
  have hfl : ∃ fl, ebFluxes coldConsts false coldGrid (coldInput 215 215) 220 = .ok fl := ⟨_, rfl⟩
  obtain ⟨fl, hfl⟩ := hfl
  obtain ⟨S, hS⟩ := balance_exists hfl 0
  have hanti : ∀ a b, 0 ≤ a → a < b → S b < S a := fun a b ha hab =>
    C73_calm (coldInput_spec 215 215).1 (Or.inl rfl) rfl coldGrid_lam hS ha hab
  have hb : ∀ sw, Balance coldConsts false coldGrid (coldInput 215 215) sw (fun x => sw + S x) := by
    intro sw x
    obtain ⟨f, h, e⟩ := hS x
    exact ⟨f, h, by show sw + S x = _; rw [e]; ring⟩
  refine ⟨S, hanti, fun x hx => ?_⟩
  have hz : coldConsts.zeroTemperature = 273.16 := rfl
  have hf : ebOptim coldConsts false coldGrid (coldInput 215 215) (-S x) = fun y => .ok (-S x + S y) :=
    funext fun y => ebOptim_balance (hb (-S x)) (Or.inl rfl) y
  have hn : exactSolvers.newton (fun y => .ok (-S x + S y)) 215 = .ok x := by
    unfold exactSolvers
    simp only
    have hex : ∃ y, (.ok (-S x + S y) : M ℝ) = .ok 0 ∧ 0 ≤ y := ⟨x, by rw [neg_add_cancel], by linarith⟩
    rw [dif_pos hex, ok_inj]
    obtain ⟨h1, h2⟩ := hex.choose_spec
    rw [ok_inj] at h1
    rcases lt_trichotomy hex.choose x with h | h | h
    · have := hanti _ _ h2 h; linarith
    · exact h
    · have := hanti _ _ (by linarith) h; linarith
  have hsolve : solveSurfaceTemperature exactSolvers coldConsts (fun y => .ok (-S x + S y)) 215 = .ok x := by
    unfold solveSurfaceTemperature
    have hm : coldConsts.sfcTemperatureMethod = .newton := rfl
    rw [hm]
    simp only [hn, ok_bind]
    unfold checkResidualClip
    rw [if_neg (by linarith), ok_bind]
    rfl
  obtain ⟨fl, hfl, e⟩ := hb (-S x) (min 273.16 x)
  refine ⟨{ coldGrid with nodes := ⟨0.05, min 273.16 x, 0, 0.4, 0⟩ :: coldGrid.nodes.tail }, fl, ?_, e.symm⟩
  have n0 : coldGrid.node 0 = .ok ⟨0.05, 215, 0, 0.4, 0⟩ := rfl
  have hset : ∀ y, coldGrid.setNodeTemperature 0 y =
      .ok { coldGrid with nodes := ⟨0.05, y, 0, 0.4, 0⟩ :: coldGrid.nodes.tail } := fun y => rfl
  have hfl3 := (ebFluxes_top (c := coldConsts) (wrf := false) (g := coldGrid) rfl (min 273.16 x) (coldInput 215 215) (min 273.16 x)).trans hfl
  unfold updateSurfaceTemperature
  simp only [coldGrid_sub, ok_bind, n0, pyMin_eq, hf]
  rw [min_eq_left (by norm_num), hsolve, ok_bind, hz]
  simp only [hset, ok_bind]
  exact congrArg (fun m => m >>= fun f => pure (_, _, f)) hfl3

/-- Non-vacuity of `C111_calm_partial` and `C111_tolerance_partial`: radiation that balances the fluxes at 240 K and at 250 K. -/
example : ∃ (sw1 sw2 : ℝ) (g1 g2 : Grid ℝ) (fl1 fl2 : Fluxes ℝ), sw1 < sw2 ∧
    updateSurfaceTemperature exactSolvers coldConsts false coldGrid coldInput sw1 = .ok (g1, 240, fl1) ∧
    updateSurfaceTemperature exactSolvers coldConsts false coldGrid (fun x y => { coldInput x y with lwin := some 90 }) sw2 = .ok (g2, 250, fl2) ∧
    SettledUpTo 0 coldConsts.zeroTemperature sw1 240 fl1 ∧ SettledUpTo 0 coldConsts.zeroTemperature sw2 250 fl2 ∧
    (∀ x y, Cooling coldConsts (coldInput x y) ∧ (coldInput x y).u2 = 0 ∧ (coldInput x y).lwin = some 90) := by
  obtain ⟨S, hanti, h⟩ := cold_settles
  obtain ⟨g1, fl1, h1, e1⟩ := h 240 (by norm_num)
  obtain ⟨g2, fl2, h2, e2⟩ := h 250 (by norm_num)
  rw [min_eq_right (by norm_num)] at h1 e1 h2 e2
  have hz : coldConsts.zeroTemperature = 273.16 := rfl
  have := hanti 240 250 (by norm_num) (by norm_num)
  refine ⟨-S 240, -S 250, g1, g2, fl1, fl2, by linarith, h1, h2, Or.inl ⟨by rw [hz]; norm_num, ?_⟩,
    Or.inl ⟨by rw [hz]; norm_num, ?_⟩, fun x y => ⟨(coldInput_spec x y).1, rfl, rfl⟩⟩
  · rw [e1]; simp
  · rw [e2]; simp

/-- Non-vacuity of `C111_melting`: so much radiation that the fluxes would balance at 280 K and at 290 K. -/
example : ∃ (sw1 sw2 : ℝ) (g1 g2 : Grid ℝ) (fl1 fl2 : Fluxes ℝ), sw1 < sw2 ∧
    updateSurfaceTemperature exactSolvers coldConsts false coldGrid coldInput sw1 = .ok (g1, 273.16, fl1) ∧
    updateSurfaceTemperature exactSolvers coldConsts false coldGrid (fun x y => { coldInput x y with lwin := some 90 }) sw2 = .ok (g2, 273.16, fl2) ∧
    0 < fl1.total sw1 := by
  obtain ⟨S, hanti, h⟩ := cold_settles
  obtain ⟨g1, fl1, h1, e1⟩ := h 280 (by norm_num)
  obtain ⟨g2, fl2, h2, e2⟩ := h 290 (by norm_num)
  rw [min_eq_left (by norm_num)] at h1 e1 h2 e2
  have := hanti 280 290 (by norm_num) (by norm_num)
  have := hanti 273.16 280 (by norm_num) (by norm_num)
  exact ⟨-S 280, -S 290, g1, g2, fl1, fl2, by linarith, h1, h2, by rw [e1]; linarith⟩

/-- Non-vacuity of `C111_neutral_partial`: the upper one of the two balanced surfaces of C104. -/
example : ∃ (sw tb b : ℝ) (g' : Grid ℝ) (fl : Fluxes ℝ), 253.89 ≤ b ∧ b < 273.16 ∧ fl.total sw = 0 ∧
    updateSurfaceTemperature exactSolvers (Consts.default ℝ) false (gustGrid tb) (gustInput 100) sw = .ok (g', b, fl) ∧
    ∀ x y, interpSubT (Consts.default ℝ) (gustGrid tb) = .ok (x, y) → Windy (Consts.default ℝ) (gustGrid tb) (gustInput 100 x y) ∧
      richardson (gustInput 100 x y) 253.89 = 0.01 ∧ (gustInput 100 x y).lwin = some 90 := by
  obtain ⟨sw, ta, tb, a, b, _, _, _, _, _, _, _, h1, h2, h⟩ := C104_refuted
  obtain ⟨g', fl, hu, e⟩ := (h exactSolvers).2
  refine ⟨sw, tb, b, g', fl, h1.le, h2.trans (by norm_num), e, hu, ?_⟩
  intro x y hxy
  have hs := gustGrid_sub .secant tb
  have : (x, y) = ((250 : ℝ), (250 : ℝ)) := ok_inj.1 (hxy.symm.trans hs)
  cases this
  exact ⟨gust_windy (m := .secant) (by norm_num) tb, gust_step 100, rfl⟩

/-- Non-vacuity of `C111_step_partial`: calm dark hours with 200 and with 240 W m⁻² of incoming longwave radiation. -/
example : ∃ N s1 o1 s2 o2 ε, step quietSolvers N quietConsts quietCfg quietState (quietWeather 0 200) = .ok (s1, o1) ∧
    step quietSolvers N quietConsts quietCfg quietState { quietWeather 0 200 with lwin := some 240 } = .ok (s2, o2) ∧ 0 ≤ ε ∧
    SettledUpTo ε quietConsts.zeroTemperature o1.swnet o1.ts o1.fluxes ∧
    SettledUpTo ε quietConsts.zeroTemperature o2.swnet o2.ts o2.fluxes ∧ 0 < o2.ts ∧ (∀ n ∈ quietState.grid.nodes, PhysLayer quietConsts 200 n) := by
  obtain ⟨N1, s1, o1, h1⟩ := C76_completes (f := quietWeather 0 200) quiet_ready quiet_supplied quiet_good.1 quiet_good.2
    (quiet_not_fails (by norm_num))
  obtain ⟨N2, s2, o2, h2⟩ := C76_completes (f := quietWeather 0 240) quiet_ready quiet_supplied quiet_good.1 quiet_good.2
    (quiet_not_fails (by norm_num))
  have h1 := h1 (max N1 N2) (le_max_left _ _)
  have h2 := h2 (max N1 N2) (le_max_right _ _)
  have key : ∀ {f : Forcing ℝ} {s' : SimState ℝ} {o : StepOut ℝ},
      step quietSolvers (max N1 N2) quietConsts quietCfg quietState f = .ok (s', o) →
      0 < o.ts ∧ ∀ ε, |o.fluxes.total o.swnet| ≤ ε → SettledUpTo ε quietConsts.zeroTemperature o.swnet o.ts o.fluxes := by
    intro f s' o h
    obtain ⟨st⟩ := step_stages h
    obtain ⟨_, _, top, x, _, _, hx, e, _⟩ := update_decomp st.surface
    have hx' : x = 270 := by
      unfold solveSurfaceTemperature at hx
      simp only [quietConsts, quietSolvers, ok_inj] at hx
      rw [← hx]; norm_num
    have hz : quietConsts.zeroTemperature = 273.16 := rfl
    rw [hx', hz, min_eq_right (by norm_num)] at e
    rw [e]
    exact ⟨by norm_num, fun ε hε => Or.inl ⟨by rw [hz]; norm_num, hε⟩⟩
  obtain ⟨_, k1⟩ := key h1
  obtain ⟨k0, k2⟩ := key h2
  exact ⟨_, s1, o1, s2, o2, max |o1.fluxes.total o1.swnet| |o2.fluxes.total o2.swnet|, h1, h2, (abs_nonneg _).trans (le_max_left _ _),
    k1 _ (le_max_left _ _), k2 _ (le_max_right _ _), k0, fun n hn => (quiet_good.2 n hn).phys⟩

end Cosipy
