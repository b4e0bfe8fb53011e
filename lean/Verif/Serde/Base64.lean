import Mathlib.Tactic.IntervalCases
import Mathlib.Tactic.NormNum
import Verif.Bytes

/-!
Base64 in the URL-safe alphabet with padding: `b64enc` and `b64dec`, algebra/src/utils.rs:48-55, which call the crate `base64` 0.13
(a dependency, modelled from its documented behaviour).
-/

namespace Verif.Serde

/-- the symbol of six bits (RFC 4648, section 5) -/
def b64Chr (v : Nat) : UInt8 :=
  if v < 26 then UInt8.ofNat (65 + v)
  else if v < 52 then UInt8.ofNat (97 + (v - 26))
  else if v < 62 then UInt8.ofNat (48 + (v - 52))
  else if v = 62 then 45
  else 95

/-- the six bits of a symbol -/
def b64Val (c : UInt8) : Option Nat :=
  let n := c.toNat
  if 65 ≤ n ∧ n ≤ 90 then some (n - 65)
  else if 97 ≤ n ∧ n ≤ 122 then some (n - 97 + 26)
  else if 48 ≤ n ∧ n ≤ 57 then some (n - 48 + 52)
  else if n = 45 then some 62
  else if n = 95 then some 63
  else none

/-- models `base64::encode_config(_, URL_SAFE)`, algebra/src/utils.rs:48-50: three bytes make four symbols; what is left over is padded
with `=` -/
def b64enc : Bytes → Bytes
  | [] => []
  | [a] => [b64Chr (a.toNat / 4), b64Chr (a.toNat % 4 * 16), 61, 61]
  | [a, b] => [b64Chr (a.toNat / 4), b64Chr (a.toNat % 4 * 16 + b.toNat / 16), b64Chr (b.toNat % 16 * 4), 61]
  | a :: b :: c :: r =>
    b64Chr (a.toNat / 4) :: b64Chr (a.toNat % 4 * 16 + b.toNat / 16) :: b64Chr (b.toNat % 16 * 4 + c.toNat / 64) ::
      b64Chr (c.toNat % 64) :: b64enc r

/-- one byte from two symbols; bits that are left over must be zero -/
def b64Two (a b : UInt8) : Option Bytes := do
  let x ← b64Val a
  let y ← b64Val b
  if y % 16 = 0 then some [UInt8.ofNat (x * 4 + y / 16)] else none

/-- two bytes from three symbols; bits that are left over must be zero -/
def b64Three (a b c : UInt8) : Option Bytes := do
  let x ← b64Val a
  let y ← b64Val b
  let z ← b64Val c
  if z % 4 = 0 then some [UInt8.ofNat (x * 4 + y / 16), UInt8.ofNat (y % 16 * 16 + z / 4)] else none

/-- three bytes from four symbols -/
def b64Four (a b c d : UInt8) : Option Bytes := do
  let x ← b64Val a
  let y ← b64Val b
  let z ← b64Val c
  let w ← b64Val d
  some [UInt8.ofNat (x * 4 + y / 16), UInt8.ofNat (y % 16 * 16 + z / 4), UInt8.ofNat (z % 4 * 64 + w)]

/-- models `base64::decode_config(_, URL_SAFE)`, algebra/src/utils.rs:53-55.  The crate takes the padding only where a group of four
ends, and does without it. -/
def b64dec : Bytes → Option Bytes
  | [] => some []
  | [_] => none
  | [a, b] => b64Two a b
  | [a, b, c] => if c = 61 then b64Two a b else b64Three a b c
  | a :: b :: c :: d :: r =>
    if r = [] ∧ c = 61 ∧ d = 61 then b64Two a b
    else if r = [] ∧ d = 61 then b64Three a b c
    else do
      let x ← b64Four a b c d
      let y ← b64dec r
      some (x ++ y)

theorem b64Val_chr {v : Nat} (h : v < 64) : b64Val (b64Chr v) = some v := by
  have : ∀ i : Fin 64, b64Val (b64Chr i.val) = some i.val := by decide
  exact this ⟨v, h⟩

theorem b64Chr_ne {v : Nat} (h : v < 64) : b64Chr v ≠ 61 := by
  have : ∀ i : Fin 64, b64Chr i.val ≠ 61 := by decide
  exact this ⟨v, h⟩

theorem byte_eq {a : UInt8} {n : Nat} (h : n = a.toNat) : UInt8.ofNat n = a := by
  rw [h, UInt8.ofNat_toNat]

/-- what is encoded is decoded -/
theorem b64dec_enc (b : Bytes) : b64dec (b64enc b) = some b := by
  fun_induction b64enc b with
  | case1 => rfl
  | case2 a =>
    have ha := a.toNat_lt
    simp only [b64dec, if_true, and_self, b64Two, b64Val_chr (show a.toNat / 4 < 64 by omega),
      b64Val_chr (show a.toNat % 4 * 16 < 64 by omega), Option.bind_eq_bind, Option.bind_some]
    rw [if_pos (by omega), byte_eq (a := a) (by omega)]
  | case3 a b =>
    have ha := a.toNat_lt
    have hb := b.toNat_lt
    have h := b64Chr_ne (show b.toNat % 16 * 4 < 64 by omega)
    simp only [b64dec, true_and, h, false_and, if_false, if_true, b64Three, b64Val_chr (show a.toNat / 4 < 64 by omega),
      b64Val_chr (show a.toNat % 4 * 16 + b.toNat / 16 < 64 by omega), b64Val_chr (show b.toNat % 16 * 4 < 64 by omega),
      Option.bind_eq_bind, Option.bind_some]
    rw [if_pos (by omega), byte_eq (a := a) (by omega), byte_eq (a := b) (by omega)]
  | case4 a b c r ih =>
    have ha := a.toNat_lt
    have hb := b.toNat_lt
    have hc := c.toNat_lt
    have h := b64Chr_ne (show c.toNat % 64 < 64 by omega)
    simp only [b64dec, h, and_false, if_false, b64Four, b64Val_chr (show a.toNat / 4 < 64 by omega),
      b64Val_chr (show a.toNat % 4 * 16 + b.toNat / 16 < 64 by omega), b64Val_chr (show b.toNat % 16 * 4 + c.toNat / 64 < 64 by omega),
      b64Val_chr (show c.toNat % 64 < 64 by omega), Option.bind_eq_bind, Option.bind_some, ih]
    rw [byte_eq (a := a) (by omega), byte_eq (a := b) (by omega), byte_eq (a := c) (by omega)]
    rfl

/-- different bytes have different encodings -/
theorem b64enc_inj {a b : Bytes} (h : b64enc a = b64enc b) : a = b := by
  have := b64dec_enc a
  rw [h, b64dec_enc] at this
  exact (Option.some.inj this).symm

end Verif.Serde
