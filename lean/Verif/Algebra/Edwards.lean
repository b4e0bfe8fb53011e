import Mathlib.Algebra.Group.Basic
import Mathlib.Algebra.Field.Basic
import Mathlib.Tactic.LinearCombination
import Mathlib.Tactic.FieldSimp
import Mathlib.Tactic.Ring

/-!
The group of a complete twisted Edwards curve `-x^2 + y^2 = 1 + d x^2 y^2`: the denominators of the addition law never
vanish, the sum of two points is on the curve, and addition is associative.  Used for `JubjubPoint`, which is
third-party code; the law itself is standard (Bernstein, Birkner, Joye, Lange, Peters: Twisted Edwards curves).
-/

namespace Verif.Edwards

variable {F : Type} [Field F]

/-- the curve equation -/
def OnCurve (d x y : F) : Prop := -x ^ 2 + y ^ 2 = 1 + d * x ^ 2 * y ^ 2

/-- what makes the addition law complete: `-1` is a square, `d` is not, and the characteristic is odd -/
structure Complete (d : F) : Prop where
  two : (2 : F) ≠ 0
  sqrt : ∃ i : F, i ^ 2 = -1
  nonsquare : ∀ s : F, s ^ 2 ≠ d

theorem no_unit_product {d : F} (hd : Complete d) {x1 y1 x2 y2 e : F} (h1 : OnCurve d x1 y1) (h2 : OnCurve d x2 y2)
    (he : e ^ 2 = 1) : d * (x1 * x2 * y1 * y2) ≠ e := by
  intro h
  obtain ⟨i, hi⟩ := hd.sqrt
  unfold OnCurve at h1 h2
  have hne : e ≠ 0 := by rintro rfl; simp at he
  have hx1 : x1 ≠ 0 := by rintro rfl; apply hne; rw [← h]; ring
  have hy1 : y1 ≠ 0 := by rintro rfl; apply hne; rw [← h]; ring
  have hx2 : x2 ≠ 0 := by rintro rfl; apply hne; rw [← h]; ring
  have hp : x1 * y1 ≠ 0 := mul_ne_zero hx1 hy1
  have plus : (i * x1 + e * y1) ^ 2 = d * (x1 * y1 * (i * x2 + y2)) ^ 2 := by
    have hh : d ^ 2 * (x1 * x2 * y1 * y2) ^ 2 = 1 := by rw [← he, ← h]; ring
    linear_combination (x1 ^ 2 - d * x1 ^ 2 * y1 ^ 2 * x2 ^ 2) * hi + y1 ^ 2 * he - 2 * i * x1 * y1 * h + h1
      - d * x1 ^ 2 * y1 ^ 2 * h2 - hh
  have minus : (i * x1 - e * y1) ^ 2 = d * (x1 * y1 * (i * x2 - y2)) ^ 2 := by
    have hh : d ^ 2 * (x1 * x2 * y1 * y2) ^ 2 = 1 := by rw [← he, ← h]; ring
    linear_combination (x1 ^ 2 - d * x1 ^ 2 * y1 ^ 2 * x2 ^ 2) * hi + y1 ^ 2 * he + 2 * i * x1 * y1 * h + h1
      - d * x1 ^ 2 * y1 ^ 2 * h2 - hh
  have key : ∀ a b : F, a ^ 2 = d * b ^ 2 → b = 0 := by
    intro a b hab
    by_contra hb
    refine hd.nonsquare (a / b) ?_
    rw [div_pow, hab, mul_div_assoc, div_self (pow_ne_zero 2 hb), mul_one]
  have k1 := (mul_eq_zero.mp (key _ _ plus)).resolve_left hp
  have k2 := (mul_eq_zero.mp (key _ _ minus)).resolve_left hp
  have hi0 : i ≠ 0 := by rintro rfl; norm_num at hi
  have : 2 * (i * x2) = 0 := by linear_combination k1 + k2
  exact (mul_ne_zero hd.two (mul_ne_zero hi0 hx2)) this

theorem den_x {d : F} (hd : Complete d) {x1 y1 x2 y2 : F} (h1 : OnCurve d x1 y1) (h2 : OnCurve d x2 y2) :
    1 + d * (x1 * x2 * y1 * y2) ≠ 0 := by
  intro h
  exact no_unit_product hd h1 h2 (e := -1) (by ring) (by linear_combination h)

theorem den_y {d : F} (hd : Complete d) {x1 y1 x2 y2 : F} (h1 : OnCurve d x1 y1) (h2 : OnCurve d x2 y2) :
    1 - d * (x1 * x2 * y1 * y2) ≠ 0 := by
  intro h
  exact no_unit_product hd h1 h2 (e := 1) (by ring) (by linear_combination -h)

/-- x-coordinate of the sum -/
def addX (d x1 y1 x2 y2 : F) : F := (x1 * y2 + y1 * x2) / (1 + d * (x1 * x2 * y1 * y2))

/-- y-coordinate of the sum -/
def addY (d x1 y1 x2 y2 : F) : F := (x1 * x2 + y1 * y2) / (1 - d * (x1 * x2 * y1 * y2))

theorem add_onCurve {d : F} (hd : Complete d) {x1 y1 x2 y2 : F} (h1 : OnCurve d x1 y1) (h2 : OnCurve d x2 y2) :
    OnCurve d (addX d x1 y1 x2 y2) (addY d x1 y1 x2 y2) := by
  have hp := den_x hd h1 h2
  have hm := den_y hd h1 h2
  unfold OnCurve at *
  unfold addX addY
  have hpoly : ((x1 * x2 + y1 * y2) * (1 + d * (x1 * x2 * y1 * y2))) ^ 2
      - ((x1 * y2 + y1 * x2) * (1 - d * (x1 * x2 * y1 * y2))) ^ 2
      - ((1 + d * (x1 * x2 * y1 * y2)) * (1 - d * (x1 * x2 * y1 * y2))) ^ 2
      - d * (x1 * y2 + y1 * x2) ^ 2 * (x1 * x2 + y1 * y2) ^ 2 = 0 := by
    linear_combination (y2^4 - 4 * x2^2 * y2^2 + 2 * x2^2 * y2^4 + x2^4 - 2 * x2^4 * y2^2 - 2 * d * x2^2 * y2^2 - 2 * d *
      x2^4 * y2^4 - d * y1^2 * x2^2 * y2^4 + d * y1^2 * x2^4 * y2^2 + d * x1^2 * x2^2 * y2^4 - d * x1^2 *
      x2^4 * y2^2 - d^2 * x2^4 * y2^4 + d^2 * y1^2 * x2^4 * y2^4 - d^2 * x1^2 * x2^4 * y2^4 + d^3 * x1^2 *
      y1^2 * x2^4 * y2^4) * h1
      + (1 + y2^2 - x2^2 + 2 * x2^2 * y2^2 - y1^2 * y2^2 + y1^2 * x2^2 - 2 * y1^2 * x2^2 * y2^2 + x1^2 * y2^2
      - x1^2 * x2^2 + 2 * x1^2 * x2^2 * y2^2 + d * x2^2 * y2^2 - 2 * d * y1^2 * x2^2 * y2^2 + d * y1^4 *
      x2^2 * y2^2 + 2 * d * x1^2 * x2^2 * y2^2 + d * x1^4 * x2^2 * y2^2) * h2
  generalize 1 + d * (x1 * x2 * y1 * y2) = p at *
  generalize 1 - d * (x1 * x2 * y1 * y2) = m at *
  generalize x1 * y2 + y1 * x2 = X at *
  generalize x1 * x2 + y1 * y2 = Y at *
  field_simp
  linear_combination hpoly

/-- numerators of the two bracketings of a sum of three points, x-coordinate -/
theorem assoc_x_poly {d x1 y1 x2 y2 x3 y3 : F} (h1 : OnCurve d x1 y1) (h2 : OnCurve d x2 y2) (h3 : OnCurve d x3 y3) :
    ((x1 * y2 + y1 * x2) * (1 - d * (x1 * x2 * y1 * y2)) * y3 + (x1 * x2 + y1 * y2) * (1 + d * (x1 * x2 * y1 * y2)) * x3)
      * ((1 + d * (x2 * x3 * y2 * y3)) * (1 - d * (x2 * x3 * y2 * y3))
        + d * x1 * y1 * (x2 * y3 + y2 * x3) * (x2 * x3 + y2 * y3))
    = (x1 * (x2 * x3 + y2 * y3) * (1 + d * (x2 * x3 * y2 * y3)) + y1 * (x2 * y3 + y2 * x3) * (1 - d * (x2 * x3 * y2 * y3)))
      * ((1 + d * (x1 * x2 * y1 * y2)) * (1 - d * (x1 * x2 * y1 * y2))
        + d * (x1 * y2 + y1 * x2) * (x1 * x2 + y1 * y2) * x3 * y3) := by
  unfold OnCurve at *
  linear_combination (-d * y1 * x2 * y2^4 * x3^2 * y3 - d * y1 * x2^2 * y2^3 * x3 - d * y1 * x2^2 * y2^3 * x3^3 - d * y1 *
      x2^3 * y2^2 * y3 + d * y1 * x2^3 * y2^2 * y3^3 + d * y1 * x2^4 * y2 * x3 * y3^2 + d * x1 * x2 * y2^4
      * x3 * y3^2 - d * x1 * x2^2 * y2^3 * y3 + d * x1 * x2^2 * y2^3 * y3^3 - d * x1 * x2^3 * y2^2 * x3 -
      d * x1 * x2^3 * y2^2 * x3^3 - d * x1 * x2^4 * y2 * x3^2 * y3 + d^2 * y1 * x2^3 * y2^4 * x3^2 * y3 +
      d^2 * y1 * x2^4 * y2^3 * x3 * y3^2 - d^2 * x1 * x2^3 * y2^4 * x3 * y3^2 - d^2 * x1 * x2^4 * y2^3 *
      x3^2 * y3) * h1
      + (y1 * y2 * x3 - y1 * y2 * x3 * y3^2 + y1 * y2 * x3^3 + y1 * x2 * y3 - y1 * x2 * y3^3 + y1 * x2 * x3^2
      * y3 - y1^3 * y2 * x3 + y1^3 * y2 * x3 * y3^2 - y1^3 * y2 * x3^3 - y1^3 * x2 * y3 + y1^3 * x2 * y3^3
      - y1^3 * x2 * x3^2 * y3 + x1 * y2 * y3 - x1 * y2 * y3^3 + x1 * y2 * x3^2 * y3 + x1 * x2 * x3 - x1 *
      x2 * x3 * y3^2 + x1 * x2 * x3^3 - x1 * y1^2 * y2 * y3 + x1 * y1^2 * y2 * y3^3 - x1 * y1^2 * y2 *
      x3^2 * y3 - x1 * y1^2 * x2 * x3 + x1 * y1^2 * x2 * x3 * y3^2 - x1 * y1^2 * x2 * x3^3 + x1^2 * y1 *
      y2 * x3 - x1^2 * y1 * y2 * x3 * y3^2 + x1^2 * y1 * y2 * x3^3 + x1^2 * y1 * x2 * y3 - x1^2 * y1 * x2
      * y3^3 + x1^2 * y1 * x2 * x3^2 * y3 + x1^3 * y2 * y3 - x1^3 * y2 * y3^3 + x1^3 * y2 * x3^2 * y3 +
      x1^3 * x2 * x3 - x1^3 * x2 * x3 * y3^2 + x1^3 * x2 * x3^3 + d * y1 * y2 * x3^3 * y3^2 + d * y1 * x2
      * x3^2 * y3^3 - d * y1 * x2 * y2^2 * x3^2 * y3 - d * y1 * x2^2 * y2 * x3 * y3^2 - d * y1^3 * y2 *
      x3^3 * y3^2 - d * y1^3 * x2 * x3^2 * y3^3 + d * y1^3 * x2 * y2^2 * x3^2 * y3 + d * y1^3 * x2^2 * y2
      * x3 * y3^2 + d * x1 * y2 * x3^2 * y3^3 + d * x1 * x2 * x3^3 * y3^2 + d * x1 * x2 * y2^2 * x3 * y3^2
      + d * x1 * x2^2 * y2 * x3^2 * y3 - d * x1 * y1^2 * y2 * x3^2 * y3^3 - d * x1 * y1^2 * x2 * x3^3 *
      y3^2 - d * x1 * y1^2 * x2 * y2^2 * x3 * y3^2 - d * x1 * y1^2 * x2^2 * y2 * x3^2 * y3 + d * x1^2 * y1
      * y2 * x3^3 * y3^2 + d * x1^2 * y1 * x2 * x3^2 * y3^3 - d * x1^2 * y1 * x2 * y2^2 * x3^2 * y3 - d *
      x1^2 * y1 * x2^2 * y2 * x3 * y3^2 + d * x1^3 * y2 * x3^2 * y3^3 + d * x1^3 * x2 * x3^3 * y3^2 + d *
      x1^3 * x2 * y2^2 * x3 * y3^2 + d * x1^3 * x2^2 * y2 * x3^2 * y3 + d^2 * x1 * y1^2 * x2 * y2^2 * x3^3
      * y3^2 - d^2 * x1 * y1^2 * x2^2 * y2 * x3^2 * y3^3 - d^2 * x1^2 * y1 * x2 * y2^2 * x3^2 * y3^3 + d^2
      * x1^2 * y1 * x2^2 * y2 * x3^3 * y3^2) * h2
      + (-y1 * y2 * x3 + y1 * y2^3 * x3 - y1 * x2 * y3 + y1 * x2 * y2^2 * y3 - y1 * x2^2 * y2 * x3 - y1 *
      x2^3 * y3 + y1^3 * y2 * x3 - y1^3 * y2^3 * x3 + y1^3 * x2 * y3 - y1^3 * x2 * y2^2 * y3 + y1^3 * x2^2
      * y2 * x3 + y1^3 * x2^3 * y3 - x1 * y2 * y3 + x1 * y2^3 * y3 - x1 * x2 * x3 + x1 * x2 * y2^2 * x3 -
      x1 * x2^2 * y2 * y3 - x1 * x2^3 * x3 + x1 * y1^2 * y2 * y3 - x1 * y1^2 * y2^3 * y3 + x1 * y1^2 * x2
      * x3 - x1 * y1^2 * x2 * y2^2 * x3 + x1 * y1^2 * x2^2 * y2 * y3 + x1 * y1^2 * x2^3 * x3 - x1^2 * y1 *
      y2 * x3 + x1^2 * y1 * y2^3 * x3 - x1^2 * y1 * x2 * y3 + x1^2 * y1 * x2 * y2^2 * y3 - x1^2 * y1 *
      x2^2 * y2 * x3 - x1^2 * y1 * x2^3 * y3 - x1^3 * y2 * y3 + x1^3 * y2^3 * y3 - x1^3 * x2 * x3 + x1^3 *
      x2 * y2^2 * x3 - x1^3 * x2^2 * y2 * y3 - x1^3 * x2^3 * x3 - d * x1 * y1^2 * x2 * y2^2 * x3 + d * x1
      * y1^2 * x2^2 * y2 * y3 + d * x1^2 * y1 * x2 * y2^2 * y3 - d * x1^2 * y1 * x2^2 * y2 * x3) * h3

/-- numerators of the two bracketings of a sum of three points, y-coordinate -/
theorem assoc_y_poly {d x1 y1 x2 y2 x3 y3 : F} (h1 : OnCurve d x1 y1) (h2 : OnCurve d x2 y2) (h3 : OnCurve d x3 y3) :
    ((x1 * y2 + y1 * x2) * (1 - d * (x1 * x2 * y1 * y2)) * x3 + (x1 * x2 + y1 * y2) * (1 + d * (x1 * x2 * y1 * y2)) * y3)
      * ((1 + d * (x2 * x3 * y2 * y3)) * (1 - d * (x2 * x3 * y2 * y3))
        - d * x1 * y1 * (x2 * y3 + y2 * x3) * (x2 * x3 + y2 * y3))
    = (x1 * (x2 * y3 + y2 * x3) * (1 - d * (x2 * x3 * y2 * y3)) + y1 * (x2 * x3 + y2 * y3) * (1 + d * (x2 * x3 * y2 * y3)))
      * ((1 + d * (x1 * x2 * y1 * y2)) * (1 - d * (x1 * x2 * y1 * y2))
        - d * (x1 * y2 + y1 * x2) * (x1 * x2 + y1 * y2) * x3 * y3) := by
  unfold OnCurve at *
  linear_combination (d * y1 * x2 * y2^4 * x3 * y3^2 - d * y1 * x2^2 * y2^3 * y3 + d * y1 * x2^2 * y2^3 * y3^3 - d * y1 *
      x2^3 * y2^2 * x3 - d * y1 * x2^3 * y2^2 * x3^3 - d * y1 * x2^4 * y2 * x3^2 * y3 - d * x1 * x2 * y2^4
      * x3^2 * y3 - d * x1 * x2^2 * y2^3 * x3 - d * x1 * x2^2 * y2^3 * x3^3 - d * x1 * x2^3 * y2^2 * y3 +
      d * x1 * x2^3 * y2^2 * y3^3 + d * x1 * x2^4 * y2 * x3 * y3^2 - d^2 * y1 * x2^3 * y2^4 * x3 * y3^2 -
      d^2 * y1 * x2^4 * y2^3 * x3^2 * y3 + d^2 * x1 * x2^3 * y2^4 * x3^2 * y3 + d^2 * x1 * x2^4 * y2^3 *
      x3 * y3^2) * h1
      + (y1 * y2 * y3 - y1 * y2 * y3^3 + y1 * y2 * x3^2 * y3 + y1 * x2 * x3 - y1 * x2 * x3 * y3^2 + y1 * x2 *
      x3^3 - y1^3 * y2 * y3 + y1^3 * y2 * y3^3 - y1^3 * y2 * x3^2 * y3 - y1^3 * x2 * x3 + y1^3 * x2 * x3 *
      y3^2 - y1^3 * x2 * x3^3 + x1 * y2 * x3 - x1 * y2 * x3 * y3^2 + x1 * y2 * x3^3 + x1 * x2 * y3 - x1 *
      x2 * y3^3 + x1 * x2 * x3^2 * y3 - x1 * y1^2 * y2 * x3 + x1 * y1^2 * y2 * x3 * y3^2 - x1 * y1^2 * y2
      * x3^3 - x1 * y1^2 * x2 * y3 + x1 * y1^2 * x2 * y3^3 - x1 * y1^2 * x2 * x3^2 * y3 + x1^2 * y1 * y2 *
      y3 - x1^2 * y1 * y2 * y3^3 + x1^2 * y1 * y2 * x3^2 * y3 + x1^2 * y1 * x2 * x3 - x1^2 * y1 * x2 * x3
      * y3^2 + x1^2 * y1 * x2 * x3^3 + x1^3 * y2 * x3 - x1^3 * y2 * x3 * y3^2 + x1^3 * y2 * x3^3 + x1^3 *
      x2 * y3 - x1^3 * x2 * y3^3 + x1^3 * x2 * x3^2 * y3 + d * y1 * y2 * x3^2 * y3^3 + d * y1 * x2 * x3^3
      * y3^2 + d * y1 * x2 * y2^2 * x3 * y3^2 + d * y1 * x2^2 * y2 * x3^2 * y3 - d * y1^3 * y2 * x3^2 *
      y3^3 - d * y1^3 * x2 * x3^3 * y3^2 - d * y1^3 * x2 * y2^2 * x3 * y3^2 - d * y1^3 * x2^2 * y2 * x3^2
      * y3 + d * x1 * y2 * x3^3 * y3^2 + d * x1 * x2 * x3^2 * y3^3 - d * x1 * x2 * y2^2 * x3^2 * y3 - d *
      x1 * x2^2 * y2 * x3 * y3^2 - d * x1 * y1^2 * y2 * x3^3 * y3^2 - d * x1 * y1^2 * x2 * x3^2 * y3^3 + d
      * x1 * y1^2 * x2 * y2^2 * x3^2 * y3 + d * x1 * y1^2 * x2^2 * y2 * x3 * y3^2 + d * x1^2 * y1 * y2 *
      x3^2 * y3^3 + d * x1^2 * y1 * x2 * x3^3 * y3^2 + d * x1^2 * y1 * x2 * y2^2 * x3 * y3^2 + d * x1^2 *
      y1 * x2^2 * y2 * x3^2 * y3 + d * x1^3 * y2 * x3^3 * y3^2 + d * x1^3 * x2 * x3^2 * y3^3 - d * x1^3 *
      x2 * y2^2 * x3^2 * y3 - d * x1^3 * x2^2 * y2 * x3 * y3^2 + d^2 * x1 * y1^2 * x2 * y2^2 * x3^2 * y3^3
      - d^2 * x1 * y1^2 * x2^2 * y2 * x3^3 * y3^2 - d^2 * x1^2 * y1 * x2 * y2^2 * x3^3 * y3^2 + d^2 * x1^2
      * y1 * x2^2 * y2 * x3^2 * y3^3) * h2
      + (-y1 * y2 * y3 + y1 * y2^3 * y3 - y1 * x2 * x3 + y1 * x2 * y2^2 * x3 - y1 * x2^2 * y2 * y3 - y1 *
      x2^3 * x3 + y1^3 * y2 * y3 - y1^3 * y2^3 * y3 + y1^3 * x2 * x3 - y1^3 * x2 * y2^2 * x3 + y1^3 * x2^2
      * y2 * y3 + y1^3 * x2^3 * x3 - x1 * y2 * x3 + x1 * y2^3 * x3 - x1 * x2 * y3 + x1 * x2 * y2^2 * y3 -
      x1 * x2^2 * y2 * x3 - x1 * x2^3 * y3 + x1 * y1^2 * y2 * x3 - x1 * y1^2 * y2^3 * x3 + x1 * y1^2 * x2
      * y3 - x1 * y1^2 * x2 * y2^2 * y3 + x1 * y1^2 * x2^2 * y2 * x3 + x1 * y1^2 * x2^3 * y3 - x1^2 * y1 *
      y2 * y3 + x1^2 * y1 * y2^3 * y3 - x1^2 * y1 * x2 * x3 + x1^2 * y1 * x2 * y2^2 * x3 - x1^2 * y1 *
      x2^2 * y2 * y3 - x1^2 * y1 * x2^3 * x3 - x1^3 * y2 * x3 + x1^3 * y2^3 * x3 - x1^3 * x2 * y3 + x1^3 *
      x2 * y2^2 * y3 - x1^3 * x2^2 * y2 * x3 - x1^3 * x2^3 * y3 - d * x1 * y1^2 * x2 * y2^2 * y3 + d * x1
      * y1^2 * x2^2 * y2 * x3 + d * x1^2 * y1 * x2 * y2^2 * x3 - d * x1^2 * y1 * x2^2 * y2 * y3) * h3

/-- adding a point to a sum, with the inner denominators cleared -/
theorem addX_left {d X Y p m x y : F} (hp : p ≠ 0) (hm : m ≠ 0) :
    addX d (X / p) (Y / m) x y = (X * m * y + Y * p * x) / (p * m + d * X * Y * x * y) := by
  unfold addX
  have e1 : X / p * y + Y / m * x = (X * m * y + Y * p * x) / (p * m) := by field_simp
  have e2 : 1 + d * (X / p * x * (Y / m) * y) = (p * m + d * X * Y * x * y) / (p * m) := by field_simp
  rw [e1, e2, div_div_div_cancel_right₀ (mul_ne_zero hp hm)]

theorem addY_left {d X Y p m x y : F} (hp : p ≠ 0) (hm : m ≠ 0) :
    addY d (X / p) (Y / m) x y = (X * m * x + Y * p * y) / (p * m - d * X * Y * x * y) := by
  unfold addY
  have e1 : X / p * x + Y / m * y = (X * m * x + Y * p * y) / (p * m) := by field_simp
  have e2 : 1 - d * (X / p * x * (Y / m) * y) = (p * m - d * X * Y * x * y) / (p * m) := by field_simp
  rw [e1, e2, div_div_div_cancel_right₀ (mul_ne_zero hp hm)]

theorem addX_comm (d x1 y1 x2 y2 : F) : addX d x1 y1 x2 y2 = addX d x2 y2 x1 y1 := by
  unfold addX
  rw [show x1 * y2 + y1 * x2 = x2 * y1 + y2 * x1 by ring, show x1 * x2 * y1 * y2 = x2 * x1 * y2 * y1 by ring]

theorem addY_comm (d x1 y1 x2 y2 : F) : addY d x1 y1 x2 y2 = addY d x2 y2 x1 y1 := by
  unfold addY
  rw [show x1 * x2 + y1 * y2 = x2 * x1 + y2 * y1 by ring, show x1 * x2 * y1 * y2 = x2 * x1 * y2 * y1 by ring]

/-- the denominator after clearing -/
theorem den_x_left {d X Y p m x y : F} (hp : p ≠ 0) (hm : m ≠ 0) (h : 1 + d * (X / p * x * (Y / m) * y) ≠ 0) :
    p * m + d * X * Y * x * y ≠ 0 := by
  intro h0
  apply h
  have e2 : 1 + d * (X / p * x * (Y / m) * y) = (p * m + d * X * Y * x * y) / (p * m) := by field_simp
  rw [e2, h0, zero_div]

theorem den_y_left {d X Y p m x y : F} (hp : p ≠ 0) (hm : m ≠ 0) (h : 1 - d * (X / p * x * (Y / m) * y) ≠ 0) :
    p * m - d * X * Y * x * y ≠ 0 := by
  intro h0
  apply h
  have e2 : 1 - d * (X / p * x * (Y / m) * y) = (p * m - d * X * Y * x * y) / (p * m) := by field_simp
  rw [e2, h0, zero_div]

section
variable {d : F} (hd : Complete d) {x1 y1 x2 y2 x3 y3 : F} (h1 : OnCurve d x1 y1) (h2 : OnCurve d x2 y2)
  (h3 : OnCurve d x3 y3)
include hd h1 h2 h3

theorem assoc_x : addX d (addX d x1 y1 x2 y2) (addY d x1 y1 x2 y2) x3 y3
    = addX d x1 y1 (addX d x2 y2 x3 y3) (addY d x2 y2 x3 y3) := by
  have p12 := den_x hd h1 h2
  have m12 := den_y hd h1 h2
  have p23 := den_x hd h2 h3
  have m23 := den_y hd h2 h3
  have q1 := den_x hd (add_onCurve hd h1 h2) h3
  have q2 := den_x hd (add_onCurve hd h2 h3) h1
  unfold addX addY at q1 q2
  have q1' := den_x_left p12 m12 q1
  have q2' := den_x_left p23 m23 q2
  rw [addX_comm d x1 y1 (addX d x2 y2 x3 y3)]
  rw [show addX d x1 y1 x2 y2 = (x1 * y2 + y1 * x2) / (1 + d * (x1 * x2 * y1 * y2)) from rfl,
    show addY d x1 y1 x2 y2 = (x1 * x2 + y1 * y2) / (1 - d * (x1 * x2 * y1 * y2)) from rfl,
    show addX d x2 y2 x3 y3 = (x2 * y3 + y2 * x3) / (1 + d * (x2 * x3 * y2 * y3)) from rfl,
    show addY d x2 y2 x3 y3 = (x2 * x3 + y2 * y3) / (1 - d * (x2 * x3 * y2 * y3)) from rfl,
    addX_left p12 m12, addX_left p23 m23, div_eq_div_iff q1' q2']
  linear_combination assoc_x_poly h1 h2 h3

theorem assoc_y : addY d (addX d x1 y1 x2 y2) (addY d x1 y1 x2 y2) x3 y3
    = addY d x1 y1 (addX d x2 y2 x3 y3) (addY d x2 y2 x3 y3) := by
  have p12 := den_x hd h1 h2
  have m12 := den_y hd h1 h2
  have p23 := den_x hd h2 h3
  have m23 := den_y hd h2 h3
  have q1 := den_y hd (add_onCurve hd h1 h2) h3
  have q2 := den_y hd (add_onCurve hd h2 h3) h1
  unfold addX addY at q1 q2
  have q1' := den_y_left p12 m12 q1
  have q2' := den_y_left p23 m23 q2
  rw [addY_comm d x1 y1 (addX d x2 y2 x3 y3)]
  rw [show addX d x1 y1 x2 y2 = (x1 * y2 + y1 * x2) / (1 + d * (x1 * x2 * y1 * y2)) from rfl,
    show addY d x1 y1 x2 y2 = (x1 * x2 + y1 * y2) / (1 - d * (x1 * x2 * y1 * y2)) from rfl,
    show addX d x2 y2 x3 y3 = (x2 * y3 + y2 * x3) / (1 + d * (x2 * x3 * y2 * y3)) from rfl,
    show addY d x2 y2 x3 y3 = (x2 * x3 + y2 * y3) / (1 - d * (x2 * x3 * y2 * y3)) from rfl,
    addY_left p12 m12, addY_left p23 m23, div_eq_div_iff q1' q2']
  linear_combination assoc_y_poly h1 h2 h3

end

/-! ### The group of points -/

/-- a point of the curve -/
@[ext]
structure Point (d : F) where
  x : F
  y : F
  on : OnCurve d x y

/-- the group operations, for a complete curve -/
def group {d : F} (hd : Complete d) : AddCommGroup (Point d) where
  add P Q := ⟨_, _, add_onCurve hd P.on Q.on⟩
  zero := ⟨0, 1, by simp [OnCurve]⟩
  neg P := ⟨-P.x, P.y, by have := P.on; unfold OnCurve at *; linear_combination this⟩
  add_assoc P Q R := Point.ext (assoc_x hd P.on Q.on R.on) (assoc_y hd P.on Q.on R.on)
  zero_add P := by
    refine Point.ext ?_ ?_
    · change addX d 0 1 P.x P.y = P.x; simp [addX]
    · change addY d 0 1 P.x P.y = P.y; simp [addY]
  add_zero P := by
    refine Point.ext ?_ ?_
    · change addX d P.x P.y 0 1 = P.x; simp [addX]
    · change addY d P.x P.y 0 1 = P.y; simp [addY]
  add_comm P Q := Point.ext (addX_comm _ _ _ _ _) (addY_comm _ _ _ _ _)
  neg_add_cancel P := by
    have hm : 1 - d * (-P.x * P.x * P.y * P.y) ≠ 0 := by
      refine den_y hd (x1 := -P.x) (y1 := P.y) ?_ P.on
      have := P.on; unfold OnCurve at *; linear_combination this
    refine Point.ext ?_ ?_
    · change addX d (-P.x) P.y P.x P.y = 0
      unfold addX; rw [show -P.x * P.y + P.y * P.x = 0 by ring, zero_div]
    · change addY d (-P.x) P.y P.x P.y = 1
      unfold addY
      rw [div_eq_one_iff_eq hm]
      have := P.on; unfold OnCurve at this
      linear_combination this
  nsmul := @nsmulRec _ ⟨⟨0, 1, by simp [OnCurve]⟩⟩ ⟨fun P Q => ⟨_, _, add_onCurve hd P.on Q.on⟩⟩
  zsmul := @zsmulRec _ ⟨⟨0, 1, by simp [OnCurve]⟩⟩ ⟨fun P Q => ⟨_, _, add_onCurve hd P.on Q.on⟩⟩
    ⟨fun P => ⟨-P.x, P.y, by have := P.on; unfold OnCurve at *; linear_combination this⟩⟩
    (@nsmulRec _ ⟨⟨0, 1, by simp [OnCurve]⟩⟩ ⟨fun P Q => ⟨_, _, add_onCurve hd P.on Q.on⟩⟩)

end Verif.Edwards
