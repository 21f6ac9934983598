import Verif.Spec.Edwards
import Mathlib.Tactic.LinearCombination
import Mathlib.Tactic.FieldSimp
import Mathlib.Algebra.Group.Basic
/-
The points of a twisted Edwards curve -x² + y² = 1 + d x² y², with -1 a square and d not, form a commutative group.
-/
namespace Verif.Ed

variable {K : Type} [Field K] {d : K}

/-- The denominators never vanish (Bernstein and Lange). -/
theorem complete_ne (hd : Complete d) (P Q : Point K d) (e : K) (he : e ^ 2 = 1) : d * P.x * Q.x * P.y * Q.y ≠ e := by
  obtain ⟨htwo, ⟨i, hi⟩, hd⟩ := hd
  intro h
  obtain ⟨x1, y1, h1⟩ := P
  obtain ⟨x2, y2, h2⟩ := Q
  simp only at h
  have hne : d * x1 * x2 * y1 * y2 ≠ 0 := by
    rw [h]; rintro rfl; simp at he
  have hx1 : x1 ≠ 0 := by rintro rfl; simp at hne
  have hy1 : y1 ≠ 0 := by rintro rfl; simp at hne
  have hx2 : x2 ≠ 0 := by rintro rfl; simp at hne
  have h' : e ^ 2 = (d * x1 * x2 * y1 * y2) ^ 2 := by rw [h]
  have key : (i * x1 + e * y1) ^ 2 = d * (x1 * y1 * (i * x2 + y2)) ^ 2 := by
    linear_combination (x1 ^ 2 - d * x1 ^ 2 * x2 ^ 2 * y1 ^ 2) * hi + (y1 ^ 2 - 1) * he + h1 + h' - d * x1 ^ 2 * y1 ^ 2 * h2 - 2 * i * x1 * y1 * h
  have key2 : (i * x1 - e * y1) ^ 2 = d * (x1 * y1 * (i * x2 - y2)) ^ 2 := by
    linear_combination (x1 ^ 2 - d * x1 ^ 2 * x2 ^ 2 * y1 ^ 2) * hi + (y1 ^ 2 - 1) * he + h1 + h' - d * x1 ^ 2 * y1 ^ 2 * h2 + 2 * i * x1 * y1 * h
  have sq : ∀ a b : K, a ^ 2 = d * b ^ 2 → b ≠ 0 → False := by
    intro a b hab hb
    apply hd
    refine ⟨a / b, ?_⟩
    field_simp
    rw [← hab]
  have hi0 : i ≠ 0 := by rintro rfl; simp at hi
  by_cases c1 : i * x2 + y2 = 0
  · by_cases c2 : i * x2 - y2 = 0
    · have h2' : (2 : K) * (i * x2) = 0 := by linear_combination c1 + c2
      exact mul_ne_zero htwo (mul_ne_zero hi0 hx2) h2'
    · exact sq _ _ key2 (mul_ne_zero (mul_ne_zero hx1 hy1) c2)
  · exact sq _ _ key (mul_ne_zero (mul_ne_zero hx1 hy1) c1)

theorem den_pos (hd : Complete d) (P Q : Point K d) : 1 + d * P.x * Q.x * P.y * Q.y ≠ 0 := fun h =>
  complete_ne hd P Q (-1) (by ring) (by linear_combination h)
theorem den_neg (hd : Complete d) (P Q : Point K d) : 1 - d * P.x * Q.x * P.y * Q.y ≠ 0 := fun h =>
  complete_ne hd P Q 1 (by ring) (by linear_combination -h)

theorem frac_on {A B a b : K} (ha : a ≠ 0) (hb : b ≠ 0)
    (h : -(A ^ 2 * b ^ 2) + B ^ 2 * a ^ 2 = a ^ 2 * b ^ 2 + d * A ^ 2 * B ^ 2) :
    -(A / a) ^ 2 + (B / b) ^ 2 = 1 + d * (A / a) ^ 2 * (B / b) ^ 2 := by
  field_simp
  linear_combination h

theorem sum_on (hd : Complete d) (P Q : Point K d) :
    -(sumX P Q) ^ 2 + (sumY P Q) ^ 2 = 1 + d * (sumX P Q) ^ 2 * (sumY P Q) ^ 2 := by
  refine frac_on (den_pos hd P Q) (den_neg hd P Q) ?_
  obtain ⟨x1, y1, h1⟩ := P
  obtain ⟨x2, y2, h2⟩ := Q
  simp only
  linear_combination
      (x1^2*x2^2*y2^4*d - 4*x2^2*y2^2 + y1^2*x2^4*y2^2*d - y1^2*x2^2*y2^4*d - x1^2*x2^4*y2^2*d - 2*x2^2*y2^2*d +
      x1^2*y1^2*x2^4*y2^4*d^3 + y2^4 + x2^4 + 2*x2^2*y2^4 - 2*x2^4*y2^2 + y1^2*x2^4*y2^4*d^2 - x1^2*x2^4*y2^4*d^2 -
      x2^4*y2^4*d^2 - 2*x2^4*y2^4*d)*h1 + (x1^2*y2^2 + y1^2*x2^2 - y1^2*y2^2 - x1^2*x2^2 + 1 + y1^4*x2^2*y2^2*d -
      2*y1^2*x2^2*y2^2*d + x1^4*x2^2*y2^2*d + 2*x1^2*x2^2*y2^2*d + x2^2*y2^2*d - 2*y1^2*x2^2*y2^2 + 2*x1^2*x2^2*y2^2 +
      2*x2^2*y2^2 + y2^2 - x2^2)*h2

/-- The sum of two points. -/
def Point.add (hd : Complete d) (P Q : Point K d) : Point K d := ⟨sumX P Q, sumY P Q, sum_on hd P Q⟩

theorem Point.add_comm (hd : Complete d) (P Q : Point K d) : P.add hd Q = Q.add hd P := by
  apply Point.ext
  · simp only [Point.add, sumX]; congr 1 <;> ring
  · simp only [Point.add, sumY]; congr 1 <;> ring

theorem Point.zero_add (hd : Complete d) (P : Point K d) : Point.zero.add hd P = P := by
  apply Point.ext <;> simp [Point.add, sumX, sumY, Point.zero]

theorem Point.inv_add (hd : Complete d) (P : Point K d) : P.inv.add hd P = Point.zero := by
  have hn := den_neg hd P.inv P
  obtain ⟨x, y, h⟩ := P
  simp only [Point.inv] at hn
  apply Point.ext
  · simp only [Point.add, sumX, Point.inv, Point.zero]
    rw [show -x * y + x * y = 0 by ring, zero_div]
  · simp only [Point.add, sumY, Point.inv, Point.zero]
    rw [div_eq_one_iff_eq hn]
    linear_combination h

theorem frac_sum {A B a b x y c : K} (ha : a ≠ 0) (hb : b ≠ 0) :
    (A / a * y + x * (B / b)) / (1 + c * (A / a) * x * (B / b) * y) = (A * b * y + x * B * a) / (a * b + c * x * y * A * B) := by
  have e1 : A / a * y + x * (B / b) = (A * b * y + x * B * a) / (a * b) := by field_simp
  have e2 : 1 + c * (A / a) * x * (B / b) * y = (a * b + c * x * y * A * B) / (a * b) := by field_simp
  rw [e1, e2, div_div_div_cancel_right₀ (mul_ne_zero ha hb)]

theorem frac_ne {A B a b x y c : K} (ha : a ≠ 0) (hb : b ≠ 0) (h : 1 + c * (A / a) * x * (B / b) * y ≠ 0) :
    a * b + c * x * y * A * B ≠ 0 := by
  have e2 : 1 + c * (A / a) * x * (B / b) * y = (a * b + c * x * y * A * B) / (a * b) := by field_simp
  intro h0
  rw [e2, h0, zero_div] at h
  exact h rfl

theorem Point.add_assoc (hd : Complete d) (P Q R : Point K d) : (P.add hd Q).add hd R = P.add hd (Q.add hd R) := by
  rw [Point.add_comm hd P (Q.add hd R)]
  have p12 := den_pos hd P Q
  have n12 := den_neg hd P Q
  have p23 := den_pos hd Q R
  have n23 := den_neg hd Q R
  have pl := den_pos hd (P.add hd Q) R
  have nl := den_neg hd (P.add hd Q) R
  have pr := den_pos hd (Q.add hd R) P
  have nr := den_neg hd (Q.add hd R) P
  rw [sub_eq_add_neg] at nl nr
  obtain ⟨x1, y1, h1⟩ := P
  obtain ⟨x2, y2, h2⟩ := Q
  obtain ⟨x3, y3, h3⟩ := R
  simp only [Point.add, sumX, sumY] at pl nl pr nr p12 n12 p23 n23
  apply Point.ext
  · simp only [Point.add, sumX, sumY]
    rw [frac_sum p12 n12, frac_sum p23 n23, div_eq_div_iff (frac_ne p12 n12 pl) (frac_ne p23 n23 pr)]
    linear_combination
      (x1*x2^2*y2^3*y3^3*d + x1*x2*y2^4*x3*y3^2*d + y1*x2^3*y2^2*y3^3*d + y1*x2^4*y2*x3*y3^2*d - y1*x2*y2^4*x3^2*y3*d -
      y1*x2^2*y2^3*x3^3*d - x1*x2^4*y2*x3^2*y3*d - x1*x2^3*y2^2*x3^3*d - x1*x2^2*y2^3*y3*d - x1*x2^3*y2^4*x3*y3^2*d^2 -
      x1*x2^3*y2^2*x3*d - x1*x2^4*y2^3*x3^2*y3*d^2 - y1*x2^3*y2^2*y3*d + y1*x2^4*y2^3*x3*y3^2*d^2 - y1*x2^2*y2^3*x3*d +
      y1*x2^3*y2^4*x3^2*y3*d^2)*h1 + (x1*y2*x3^2*y3^3*d - x1^2*y1*x2*y2^2*x3^2*y3^3*d^2 + y1*x2*x3^2*y3^3*d -
      x1*y1^2*x2^2*y2*x3^2*y3^3*d^2 + y1*y2*x3^3*y3^2*d + x1*y1^2*x2*y2^2*x3^3*y3^2*d^2 + x1*x2*x3^3*y3^2*d +
      x1^2*y1*x2^2*y2*x3^3*y3^2*d^2 + x1^3*y2*x3^2*y3^3*d + x1^3*x2*x3^3*y3^2*d - y1^3*x2*x3^2*y3^3*d -
      y1^3*y2*x3^3*y3^2*d + x1^2*y1*x2*x3^2*y3^3*d + x1*y1^2*y2*y3^3 - x1^3*y2*y3^3 - x1*y2*y3^3 -
      x1*y1^2*y2*x3^2*y3^3*d + y1^3*x2*y3^3 - x1^2*y1*x2*y3^3 - y1*x2*y3^3 - x1*y1^2*x2*x3^3*y3^2*d - y1^3*y2*x3^3 +
      x1^2*y1*y2*x3^3 + y1*y2*x3^3 + x1^2*y1*y2*x3^3*y3^2*d - x1*y1^2*x2*x3^3 + x1^3*x2*x3^3 + x1*x2*x3^3 -
      x1*y1^2*y2*y3 + x1^3*y2*y3 + x1*y2*y3 - x1*y1^2*x2*y2^2*x3*y3^2*d + x1^3*x2*y2^2*x3*y3^2*d + x1*x2*y2^2*x3*y3^2*d
      - x1*y1^2*x2*x3 + x1^3*x2*x3 + x1*x2*x3 - x1*y1^2*x2^2*y2*x3^2*y3*d + x1^3*x2^2*y2*x3^2*y3*d +
      x1*x2^2*y2*x3^2*y3*d - y1^3*x2*y3 + x1^2*y1*x2*y3 + y1*x2*y3 + y1^3*x2^2*y2*x3*y3^2*d - x1^2*y1*x2^2*y2*x3*y3^2*d
      - y1*x2^2*y2*x3*y3^2*d - y1^3*y2*x3 + x1^2*y1*y2*x3 + y1*y2*x3 + y1^3*x2*y2^2*x3^2*y3*d -
      x1^2*y1*x2*y2^2*x3^2*y3*d - y1*x2*y2^2*x3^2*y3*d + x1*y1^2*x2*x3*y3^2 - x1^3*x2*x3*y3^2 - x1*x2*x3*y3^2 -
      x1*y1^2*y2*x3^2*y3 + x1^3*y2*x3^2*y3 + x1*y2*x3^2*y3 + y1^3*y2*x3*y3^2 - x1^2*y1*y2*x3*y3^2 - y1*y2*x3*y3^2 -
      y1^3*x2*x3^2*y3 + x1^2*y1*x2*x3^2*y3 + y1*x2*x3^2*y3)*h2 + (x1*y2^3*y3 - x1*x2^2*y2*y3 - x1*y2*y3 +
      x1^2*y1*x2*y2^2*y3*d + y1*x2*y2^2*y3 - y1*x2^3*y3 - y1*x2*y3 + x1*y1^2*x2^2*y2*y3*d + y1*y2^3*x3 - y1*x2^2*y2*x3 -
      y1*y2*x3 - x1*y1^2*x2*y2^2*x3*d + x1*x2*y2^2*x3 - x1*x2^3*x3 - x1*x2*x3 - x1^2*y1*x2^2*y2*x3*d + x1^3*y2^3*y3 -
      x1^3*x2^2*y2*y3 - x1^3*y2*y3 + x1^3*x2*y2^2*x3 - x1^3*x2^3*x3 - x1^3*x2*x3 - y1^3*x2*y2^2*y3 + y1^3*x2^3*y3 +
      y1^3*x2*y3 - y1^3*y2^3*x3 + y1^3*x2^2*y2*x3 + y1^3*y2*x3 + x1^2*y1*x2*y2^2*y3 - x1^2*y1*x2^3*y3 - x1^2*y1*x2*y3 -
      x1*y1^2*y2^3*y3 + x1*y1^2*x2^2*y2*y3 + x1*y1^2*y2*y3 - x1*y1^2*x2*y2^2*x3 + x1*y1^2*x2^3*x3 + x1*y1^2*x2*x3 +
      x1^2*y1*y2^3*x3 - x1^2*y1*x2^2*y2*x3 - x1^2*y1*y2*x3)*h3
  · simp only [Point.add, sumX, sumY]
    have hl := frac_ne (c := -d) p12 n12 (x := x3) (y := y3) (by rw [neg_mul, neg_mul, neg_mul, neg_mul]; exact nl)
    have hr := frac_ne (c := -d) p23 n23 (x := x1) (y := y1) (by rw [neg_mul, neg_mul, neg_mul, neg_mul]; exact nr)
    have e := fun (A B a b x y : K) (ha : a ≠ 0) (hb : b ≠ 0) => frac_sum (A := B) (B := A) (a := b) (b := a) (x := x) (y := y) (c := -d) hb ha
    have el : ∀ (A B a b x y : K), a ≠ 0 → b ≠ 0 → (B / b * y + A / a * x) / (1 - d * (A / a) * x * (B / b) * y)
        = (B * a * y + x * A * b) / (a * b + -d * x * y * A * B) := by
      intro A B a b x y ha hb
      have := e A B a b x y ha hb
      rw [show B / b * y + A / a * x = B / b * y + x * (A / a) by ring,
        show 1 - d * (A / a) * x * (B / b) * y = 1 + -d * (B / b) * x * (A / a) * y by ring, this]
      congr 1; ring
    rw [el _ _ _ _ _ _ p12 n12, el _ _ _ _ _ _ p23 n23, div_eq_div_iff hl hr]
    linear_combination
      (y1*x2^2*y2^3*y3^3*d + y1*x2*y2^4*x3*y3^2*d + x1*x2^3*y2^2*y3^3*d + x1*x2^4*y2*x3*y3^2*d - x1*x2*y2^4*x3^2*y3*d -
      x1*x2^2*y2^3*x3^3*d - y1*x2^4*y2*x3^2*y3*d - y1*x2^3*y2^2*x3^3*d - y1*x2^2*y2^3*y3*d - y1*x2^3*y2^4*x3*y3^2*d^2 -
      y1*x2^3*y2^2*x3*d - y1*x2^4*y2^3*x3^2*y3*d^2 - x1*x2^3*y2^2*y3*d + x1*x2^4*y2^3*x3*y3^2*d^2 - x1*x2^2*y2^3*x3*d +
      x1*x2^3*y2^4*x3^2*y3*d^2)*h1 + (y1*y2*x3^2*y3^3*d + x1*y1^2*x2*y2^2*x3^2*y3^3*d^2 + x1*x2*x3^2*y3^3*d +
      x1^2*y1*x2^2*y2*x3^2*y3^3*d^2 + x1*y2*x3^3*y3^2*d - x1^2*y1*x2*y2^2*x3^3*y3^2*d^2 + y1*x2*x3^3*y3^2*d -
      x1*y1^2*x2^2*y2*x3^3*y3^2*d^2 - y1^3*y2*x3^2*y3^3*d - y1^3*x2*x3^3*y3^2*d + x1^3*x2*x3^2*y3^3*d +
      x1^3*y2*x3^3*y3^2*d - x1*y1^2*x2*x3^2*y3^3*d + y1^3*y2*y3^3 - x1^2*y1*y2*y3^3 - y1*y2*y3^3 +
      x1^2*y1*y2*x3^2*y3^3*d + x1*y1^2*x2*y3^3 - x1^3*x2*y3^3 - x1*x2*y3^3 + x1^2*y1*x2*x3^3*y3^2*d - x1*y1^2*y2*x3^3 +
      x1^3*y2*x3^3 + x1*y2*x3^3 - x1*y1^2*y2*x3^3*y3^2*d - y1^3*x2*x3^3 + x1^2*y1*x2*x3^3 + y1*x2*x3^3 - y1^3*y2*y3 +
      x1^2*y1*y2*y3 + y1*y2*y3 - y1^3*x2*y2^2*x3*y3^2*d + x1^2*y1*x2*y2^2*x3*y3^2*d + y1*x2*y2^2*x3*y3^2*d - y1^3*x2*x3
      + x1^2*y1*x2*x3 + y1*x2*x3 - y1^3*x2^2*y2*x3^2*y3*d + x1^2*y1*x2^2*y2*x3^2*y3*d + y1*x2^2*y2*x3^2*y3*d -
      x1*y1^2*x2*y3 + x1^3*x2*y3 + x1*x2*y3 + x1*y1^2*x2^2*y2*x3*y3^2*d - x1^3*x2^2*y2*x3*y3^2*d - x1*x2^2*y2*x3*y3^2*d
      - x1*y1^2*y2*x3 + x1^3*y2*x3 + x1*y2*x3 + x1*y1^2*x2*y2^2*x3^2*y3*d - x1^3*x2*y2^2*x3^2*y3*d -
      x1*x2*y2^2*x3^2*y3*d + y1^3*x2*x3*y3^2 - x1^2*y1*x2*x3*y3^2 - y1*x2*x3*y3^2 - y1^3*y2*x3^2*y3 + x1^2*y1*y2*x3^2*y3
      + y1*y2*x3^2*y3 + x1*y1^2*y2*x3*y3^2 - x1^3*y2*x3*y3^2 - x1*y2*x3*y3^2 - x1*y1^2*x2*x3^2*y3 + x1^3*x2*x3^2*y3 +
      x1*x2*x3^2*y3)*h2 + (y1*y2^3*y3 - y1*x2^2*y2*y3 - y1*y2*y3 - x1*y1^2*x2*y2^2*y3*d + x1*x2*y2^2*y3 - x1*x2^3*y3 -
      x1*x2*y3 - x1^2*y1*x2^2*y2*y3*d + x1*y2^3*x3 - x1*x2^2*y2*x3 - x1*y2*x3 + x1^2*y1*x2*y2^2*x3*d + y1*x2*y2^2*x3 -
      y1*x2^3*x3 - y1*x2*x3 + x1*y1^2*x2^2*y2*x3*d - y1^3*y2^3*y3 + y1^3*x2^2*y2*y3 + y1^3*y2*y3 - y1^3*x2*y2^2*x3 +
      y1^3*x2^3*x3 + y1^3*x2*x3 + x1^3*x2*y2^2*y3 - x1^3*x2^3*y3 - x1^3*x2*y3 + x1^3*y2^3*x3 - x1^3*x2^2*y2*x3 -
      x1^3*y2*x3 - x1*y1^2*x2*y2^2*y3 + x1*y1^2*x2^3*y3 + x1*y1^2*x2*y3 + x1^2*y1*y2^3*y3 - x1^2*y1*x2^2*y2*y3 -
      x1^2*y1*y2*y3 + x1^2*y1*x2*y2^2*x3 - x1^2*y1*x2^3*x3 - x1^2*y1*x2*x3 - x1*y1^2*y2^3*x3 + x1*y1^2*x2^2*y2*x3 +
      x1*y1^2*y2*x3)*h3

end Verif.Ed
