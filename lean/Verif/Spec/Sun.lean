import Mathlib.Analysis.SpecialFunctions.Trigonometric.Basic

/-! # Directions on the sky -/

set_option autoImplicit false

namespace Cosipy

/-- A direction at a place: components towards east, north and up. -/
structure Dir where
  e : ℝ
  n : ℝ
  u : ℝ

/-- Scalar product. -/
def Dir.dot (a b : Dir) : ℝ := a.e * b.e + a.n * b.n + a.u * b.u

/-- Direction of the sun for declination `δ`, latitude `φ` and hour angle `ω`, positive before noon (radians). -/
noncomputable def sunDir (δ φ ω : ℝ) : Dir :=
  ⟨Real.cos δ * Real.sin ω, Real.sin δ * Real.cos φ - Real.cos δ * Real.sin φ * Real.cos ω,
   Real.sin δ * Real.sin φ + Real.cos δ * Real.cos φ * Real.cos ω⟩

/-- Normal of a surface of slope `s` facing `a` (radians clockwise from north). -/
noncomputable def slopeNormal (s a : ℝ) : Dir := ⟨Real.sin s * Real.sin a, Real.sin s * Real.cos a, Real.cos s⟩

/-- Direction with elevation `h` in the compass direction `a`. -/
noncomputable def compassDir (h a : ℝ) : Dir := ⟨Real.cos h * Real.sin a, Real.cos h * Real.cos a, Real.sin h⟩

/-- Degrees to radians. -/
noncomputable def deg (x : ℝ) : ℝ := x * Real.pi / 180

end Cosipy
