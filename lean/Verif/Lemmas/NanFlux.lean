import Verif.Lemmas.NanModules

/-! The surface fluxes (Richardson scheme) commute with `toNan` where they are defined. -/

set_option autoImplicit false
set_option linter.unusedSectionVars false

namespace Cosipy
section
variable {K : Type} [Field K] [LinearOrder K] [IsStrictOrderedRing K]

local notation "N" => (Nan.num : K → Nan K)

theorem toNan_cumsum : ∀ (hs : List K) (s : K), cumsumFrom (N s) (hs.map N) = (cumsumFrom s hs).map N := by
  intro hs
  induction hs with
  | nil => intro s; rfl
  | cons h hs ih => intro s; simp only [List.map_cons, cumsumFrom, nanpush, ih]

theorem toNan_argminFrom : ∀ (xs : List K) (b : Nat) (v : K) (i : Nat),
    argminFrom b (N v) i (xs.map N) = argminFrom b v i xs := by
  intro xs
  induction xs with
  | nil => intro b v i; rfl
  | cons x xs ih => intro b v i; simp only [List.map_cons, argminFrom, nanpush, ih]

theorem toNan_argmin (xs : List K) : argmin (xs.map N) = argmin xs := by
  cases xs with
  | nil => rfl
  | cons x xs => simp only [List.map_cons, argmin, toNan_argminFrom]

theorem toNan_subsurface (g : Grid K) (cum : List K) (z : K) :
    getSubsurfaceTemperature g.toNan (cum.map N) (N z) = (getSubsurfaceTemperature g cum z).map N := by
  unfold getSubsurfaceTemperature
  have e : (cum.map N).map (fun x => pyAbs (x - N z)) = (cum.map fun x => pyAbs (x - z)).map N := by
    rw [List.map_map, List.map_map]
    congr 1
    funext x
    simp only [Function.comp, nanpush]
  rw [e, toNan_argmin]
  simp only [pyGet_map, nanpush]

theorem toNan_interpSubT (c : Consts K) (g : Grid K) :
    interpSubT c.toNan g.toNan = (interpSubT c g).map fun t => (N t.1, N t.2) := by
  unfold interpSubT
  have e : ∀ hs : List K, cumsumFrom (N 0) (hs.map N) = (cumsumFrom 0 hs).map N := fun hs => toNan_cumsum hs 0
  simp only [nanpush, e, toNan_subsurface]

end

section
variable {K : Type} [Field K] [LinearOrder K] [IsStrictOrderedRing K] [Transc K]

local notation "N" => (Nan.num : K → Nan K)

/-- Flux inputs without NaN. -/
def EbInput.toNan (i : EbInput K) : EbInput (Nan K) :=
  ⟨N i.dt, N i.z, N i.z0, N i.t2, N i.rh2, N i.p, N i.u2, N i.rain, N i.slope, N i.tz1, N i.tz2, i.lwin.map N, i.n.map N⟩

/-- The specific humidity of the air, as in the flux computation. -/
def airHumidity (i : EbInput K) : K :=
  (i.rh2 * 0.622 * (methodEWSonntag i.t2 / (i.p - methodEWSonntag i.t2))) / 100

/-- Everything the flux computation divides by or takes the logarithm or a power of is in order. -/
structure FluxDefined (c : Consts K) (i : EbInput K) (t0 : K) : Prop where
  air : 1 ≤ i.t2
  surface : 1 ≤ t0
  p : i.p - methodEWSonntag i.t2 ≠ 0
  p0 : i.p - methodEWSonntag t0 ≠ 0
  dry : 1 + 0.608 * airHumidity i ≠ 0
  vapour : 0 ≤ (i.rh2 * methodEWSonntag i.t2) / 100
  wind : i.u2 ≠ 0 → Transc.pow i.u2 2 ≠ 0
  z0 : 0 < i.z0
  z : 0 < i.z
  log : Transc.log (i.z / i.z0) ≠ 0
  logT : Transc.log (i.z / (i.z0 / 100)) ≠ 0
  logQ : Transc.log (i.z / (i.z0 / 10)) ≠ 0
  zlt1 : c.zlt1 ≠ 0
  zlt2 : c.zlt2 ≠ 0
  zlt : c.zlt2 - c.zlt1 ≠ 0
  dt : i.dt ≠ 0

theorem toNan_ew {t : K} (h : 1 ≤ t) : methodEWSonntag (N t) = N (methodEWSonntag t) := by
  unfold methodEWSonntag
  have h2 : t - 0.55 ≠ 0 := by
    have : (0.55 : K) < 1 := by norm_num
    exact (sub_pos.2 (this.trans_le h)).ne'
  by_cases h3 : (273.16 : K) ≤ t
  · have h1 : t - 29.66 ≠ 0 := by
      have : (29.66 : K) < 273.16 := by norm_num
      exact (sub_pos.2 (this.trans_le h3)).ne'
    simp only [nanpush, h3, if_true, h1]
  · simp only [nanpush, h3, if_false, h2]

theorem toNan_incomingLongwave (c : Consts K) {i : EbInput K} {ea : K} (he : 0 ≤ ea) (ht : 1 ≤ i.t2) :
    incomingLongwave c.toNan i.toNan (N ea) = (incomingLongwave c i ea).map N := by
  unfold incomingLongwave
  have h0 : i.t2 ≠ 0 := (zero_lt_one.trans_le ht).ne'
  have h1 : 0 ≤ 100 * ea / i.t2 := div_nonneg (mul_nonneg (by norm_num) he) (zero_le_one.trans ht)
  have h2 : (0 : K) ≤ 1 / 8 := by norm_num
  rcases hl : i.lwin with _ | l <;> rcases hn : i.n with _ | n <;>
    simp only [nanpush, EbInput.toNan, hl, hn, Option.map, h0, Nan.pow_num h1 h2]

theorem toNan_bulkRi {i : EbInput K} {t0 : K} (ht : 1 ≤ i.t2) (hu : i.u2 ≠ 0 → Transc.pow i.u2 2 ≠ 0) :
    bulkRi i.toNan (N t0) = N (bulkRi i t0) := by
  unfold bulkRi
  by_cases h : i.u2 = 0
  · simp only [nanpush, EbInput.toNan, h, beq_self_eq_true, if_true]
  · have h1 : i.t2 * Transc.pow i.u2 2 ≠ 0 := mul_ne_zero (zero_lt_one.trans_le ht).ne' (hu h)
    have h2 : (i.u2 == 0) = false := by simpa using h
    simp only [nanpush, EbInput.toNan, h2, h1]

theorem toNan_riPhi (x : K) : riPhi (N x) = N (riPhi x) := by
  unfold riPhi
  simp only [nanpush]

theorem toNan_ebFluxes {c : Consts K} (hm : c.stabilityCorrection = .ri) {wrf : Bool} {g : Grid K} {i : EbInput K} {t0 : K}
    (hi : FluxDefined c i t0) : ebFluxes c.toNan wrf g.toNan i.toNan (N t0) = (ebFluxes c wrf g i t0).map Fluxes.toNan := by
  obtain ⟨h1, h2, h3, h4, h5, h6, h7, h8, h9, h10, h11, h12, h13, h14, h15, h16⟩ := hi
  have e1 := toNan_ew h1
  have e2 := toNan_ew h2
  have e3 := toNan_incomingLongwave c h6 h1
  have e4 := toNan_bulkRi (t0 := t0) h1 h7
  have d1 : 287.058 * (i.t2 * (1 + 0.608 * (i.rh2 * 0.622 * (methodEWSonntag i.t2 / (i.p - methodEWSonntag i.t2)) / 100))) ≠ 0 :=
    mul_ne_zero (by norm_num) (mul_ne_zero (zero_lt_one.trans_le h1).ne' h5)
  have d2 : c.zlt2 - c.zlt1 + c.zlt1 ≠ 0 := by rw [sub_add_cancel]; exact h14
  have g1 : 0 < i.z / i.z0 := div_pos h9 h8
  have g2 : i.z0 / 100 ≠ 0 := div_ne_zero h8.ne' (by norm_num)
  have g3 : i.z0 / 10 ≠ 0 := div_ne_zero h8.ne' (by norm_num)
  have g4 : 0 < i.z / (i.z0 / 100) := div_pos h9 (div_pos h8 (by norm_num))
  have g5 : 0 < i.z / (i.z0 / 10) := div_pos h9 (div_pos h8 (by norm_num))
  have d3 := mul_ne_zero h10 h11
  have d4 := mul_ne_zero h10 h12
  have em : c.toNan.stabilityCorrection = .ri := hm
  have p : ∀ i : EbInput K, i.toNan.dt = N i.dt ∧ i.toNan.z = N i.z ∧ i.toNan.z0 = N i.z0 ∧ i.toNan.t2 = N i.t2 ∧
      i.toNan.rh2 = N i.rh2 ∧ i.toNan.p = N i.p ∧ i.toNan.u2 = N i.u2 ∧ i.toNan.rain = N i.rain ∧
      i.toNan.slope = N i.slope ∧ i.toNan.tz1 = N i.tz1 ∧ i.toNan.tz2 = N i.tz2 :=
    fun i => ⟨rfl, rfl, rfl, rfl, rfl, rfl, rfl, rfl, rfl, rfl, rfl⟩
  obtain ⟨p1, p2, p3, p4, p5, p6, p7, p8, p9, p10, p11⟩ := p i
  have ef : ∀ (a b d e f g h k l m n o : K), (⟨N a, N b, N d, N e, N f, N g, N h, N k, none, N l, N m, N n, N o⟩ : Fluxes (Nan K)) =
    (⟨a, b, d, e, f, g, h, k, none, l, m, n, o⟩ : Fluxes K).toNan := fun _ _ _ _ _ _ _ _ _ _ _ _ => rfl
  unfold ebFluxes sensibleHeatFlux latentHeatFlux
  rw [em, hm]
  simp only [p1, p2, p3, p4, p5, p6, p7, p8, p9, p10, p11, nanpush, e1, e2, h3, h4, d1, d2, d3, d4, g1, g2, g3, g4, g5, e3, e4,
    toNan_riPhi, h8.ne', h13, h15, h16, ef]

end
end Cosipy
