import Verif.Model.Num

/-!
# Termination
The model gives every `while` loop a number of passes ("fuel"). A computation terminates if its outcome stops
depending on the fuel, and the final outcome is not "out of fuel". It diverges if it runs out of every fuel.
-/

set_option autoImplicit false

namespace Cosipy

/-- From some fuel on the outcome is always the same proper result or exception `r`. -/
def TerminatesWith {β : Type} (f : Nat → M β) (r : M β) : Prop :=
  r ≠ .error .diverge ∧ ∃ N, ∀ n, N ≤ n → f n = r

/-- The computation ends, with a result or an exception. -/
def Terminates {β : Type} (f : Nat → M β) : Prop := ∃ r, TerminatesWith f r

/-- The computation never ends. -/
def Diverges {β : Type} (f : Nat → M β) : Prop := ∀ n, f n = .error .diverge

end Cosipy
