import Mathlib.Algebra.Field.Basic
import Mathlib.Algebra.Group.Even
import Mathlib.Tactic.Ring
/-
Twisted Edwards curves -x² + y² = 1 + d x² y² over a field, with the textbook addition law (RFC 8032, section 5.1.4).
That this is a group is proved in Proofs/Edwards.lean.
-/
namespace Verif.Ed

/-- The points of the curve. -/
@[ext] structure Point (K : Type) [Field K] (d : K) where
  x : K
  y : K
  on : -x ^ 2 + y ^ 2 = 1 + d * x ^ 2 * y ^ 2

variable {K : Type} [Field K] {d : K}

/-- The condition under which the addition law is defined everywhere: odd characteristic, -1 is a square, d is not. -/
def Complete (d : K) : Prop := (2 : K) ≠ 0 ∧ (∃ i : K, i ^ 2 = -1) ∧ ¬ IsSquare d

/-- The neutral element (0, 1). -/
def Point.zero : Point K d := ⟨0, 1, by ring⟩

/-- The inverse (-x, y). -/
def Point.inv (P : Point K d) : Point K d := ⟨-P.x, P.y, by rw [neg_sq]; exact P.on⟩

/-- The coordinates of the sum. -/
def sumX (P Q : Point K d) : K := (P.x * Q.y + Q.x * P.y) / (1 + d * P.x * Q.x * P.y * Q.y)
def sumY (P Q : Point K d) : K := (P.y * Q.y + P.x * Q.x) / (1 - d * P.x * Q.x * P.y * Q.y)

end Verif.Ed
