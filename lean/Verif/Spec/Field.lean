import Verif.Model.Field
/-
What the field arithmetic is about, independently of how it is computed: the integer a limb vector stands for, the
documented size bounds, the field's modulus and little-endian byte strings.
-/
namespace Verif.Limb

/-- The field's characteristic, 2^255 - 19. -/
def P25519 : Nat := 2 ^ 255 - 19

/-- "An element t, entries t[0]...t[9], represents the integer t[0]+2^26 t[1]+2^51 t[2]+2^77 t[3]+2^102 t[4]+...+2^230
t[9]" (comment at edwards25519.go:10-13). -/
def Fe.val (t : Fe) : Int :=
  t 0 + 2 ^ 26 * t 1 + 2 ^ 51 * t 2 + 2 ^ 77 * t 3 + 2 ^ 102 * t 4 + 2 ^ 128 * t 5 + 2 ^ 153 * t 6 + 2 ^ 179 * t 7
    + 2 ^ 204 * t 8 + 2 ^ 230 * t 9

/-- `|t|` bounded by `c/100 * 2^25, c/100 * 2^24, c/100 * 2^25, …`, the form of all bounds documented in
edwards25519.go: 1.1*2^25 is 110, 1.65*2^26 is 330, 1.01*2^25 is 101. -/
def Fe.within (c : Int) (t : Fe) : Prop :=
  ∀ i : Fin 10, -(c * 2 ^ (25 - i.val % 2)) ≤ 100 * t i ∧ 100 * t i ≤ c * 2 ^ (25 - i.val % 2)

/-- Every element is a byte. -/
def areBytes (l : List Int) : Prop := ∀ b ∈ l, 0 ≤ b ∧ b < 256

/-- The number a little-endian byte string stands for. -/
def leVal : List Int → Int
  | [] => 0
  | b :: l => b + 256 * leVal l

end Verif.Limb
