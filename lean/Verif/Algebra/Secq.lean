import Mathlib.NumberTheory.LucasPrimality
import Mathlib.FieldTheory.Finite.Basic
import Mathlib.Algebra.BigOperators.Group.List.Basic
import Mathlib.Tactic.NormNum.Prime
import Mathlib.Tactic.Ring

/-!
The base field of secp256k1, which is the scalar field of secq256k1 (`SECQ256K1Scalar`, algebra/src/secq256k1.rs): its
order is prime, checked by a chain of Lucas certificates.
-/

namespace Verif.Secq

/-- `a ^ e % n` by squaring, least significant bit first; `k` bounds the number of bits -/
def powMod (n : Nat) : Nat → Nat → Nat → Nat → Nat
  | 0, _, _, acc => acc
  | k + 1, e, b, acc => powMod n k (e / 2) (b * b % n) (if e % 2 = 1 then acc * b % n else acc)

theorem powMod_eq (n k e b acc : Nat) (h : e < 2 ^ k) : powMod n k e b acc % n = acc * b ^ e % n := by
  induction k generalizing e b acc with
  | zero =>
    have : e = 0 := by simpa using h
    subst this
    simp [powMod]
  | succ k ih =>
    rw [powMod, ih _ _ _ (by rw [pow_succ] at h; omega)]
    have he := Nat.div_add_mod e 2
    have hb : (b * b % n) ^ (e / 2) % n = b ^ (2 * (e / 2)) % n := by rw [← Nat.pow_mod, pow_mul, pow_two]
    split
    · rename_i h1
      conv_rhs => rw [← he, h1, pow_succ]
      rw [Nat.mul_mod, hb, Nat.mod_mod, ← Nat.mul_mod]
      congr 1
      ring
    · conv_rhs => rw [← he, show e % 2 = 0 by omega, Nat.add_zero]
      rw [Nat.mul_mod, hb, ← Nat.mul_mod]

/-- Lucas' test with the factors of `n - 1` in a list -/
theorem lucas (n a : Nat) (fs : List Nat) (hp : ∀ q ∈ fs, q.Prime) (hf : fs.prod = n - 1) (hn2 : n < 2 ^ 256)
    (h1 : powMod n 256 (n - 1) a 1 % n = 1) (h2 : ∀ q ∈ fs, powMod n 256 ((n - 1) / q) a 1 % n ≠ 1) : n.Prime := by
  have hpm : ∀ e, e ≤ n → powMod n 256 e a 1 % n = a ^ e % n := fun e he => by
    rw [powMod_eq n 256 e a 1 (by omega), one_mul]
  rw [hpm _ (by omega)] at h1
  have hn : n ≠ 1 := by
    rintro rfl
    rw [Nat.mod_one] at h1
    exact absurd h1 (by norm_num)
  have cast : ∀ e, ((a : ZMod n) ^ e = 1 ↔ a ^ e % n = 1) := by
    intro e
    have h0 : (1 : Nat) % n = 1 := by
      rcases n with _ | _ | n
      · rfl
      · exact absurd rfl hn
      · exact Nat.mod_eq_of_lt (by omega)
    rw [← Nat.cast_pow, ← Nat.cast_one, ZMod.natCast_eq_natCast_iff', h0]
  refine lucas_primality n (a : ZMod n) ((cast _).mpr h1) (fun q hq hd => ?_)
  rw [Ne, cast]
  rw [← hf] at hd
  obtain ⟨f, hm, hdf⟩ := (Nat.Prime.prime hq).dvd_prod_iff.mp hd
  rw [(Nat.prime_dvd_prime_iff_eq hq (hp f hm)).mp hdf]
  rw [← hpm _ (le_trans (Nat.div_le_self _ _) (by omega))]
  exact h2 f hm

theorem prime_a3 : Nat.Prime 173378833005251801 := by
  refine lucas _ 6 [2, 2, 2, 5, 5, 2621, 24809, 13331831] ?_ (by norm_num) (by norm_num) (by decide +kernel) (by decide +kernel)
  simp only [List.forall_mem_cons, List.not_mem_nil, false_implies, implies_true, and_true]
  refine ⟨by norm_num, by norm_num, by norm_num, by norm_num, by norm_num, by norm_num, by norm_num, by norm_num⟩

theorem prime_a2 : Nat.Prime 22149492674086928081353 := by
  refine lucas _ 5 [2, 2, 2, 3, 5323, 173378833005251801] ?_ (by norm_num) (by norm_num) (by decide +kernel) (by decide +kernel)
  simp only [List.forall_mem_cons, List.not_mem_nil, false_implies, implies_true, and_true]
  refine ⟨by norm_num, by norm_num, by norm_num, by norm_num, by norm_num, prime_a3⟩

theorem prime_a : Nat.Prime 132896956044521568488119 := by
  refine lucas _ 6 [2, 3, 22149492674086928081353] ?_ (by norm_num) (by norm_num) (by decide +kernel) (by decide +kernel)
  simp only [List.forall_mem_cons, List.not_mem_nil, false_implies, implies_true, and_true]
  refine ⟨by norm_num, by norm_num, prime_a2⟩

theorem prime_b : Nat.Prime 255515944373312847190720520512484175977 := by
  refine lucas _ 3 [2, 2, 2, 7, 7, 11, 1627, 2657, 4423, 41201, 96557, 7240687, 107590001] ?_ (by norm_num) (by norm_num) (by decide +kernel) (by decide +kernel)
  simp only [List.forall_mem_cons, List.not_mem_nil, false_implies, implies_true, and_true]
  refine ⟨by norm_num, by norm_num, by norm_num, by norm_num, by norm_num, by norm_num, by norm_num, by norm_num, by norm_num, by norm_num, by norm_num, by norm_num, by norm_num⟩

theorem prime_q : Nat.Prime 205115282021455665897114700593932402728804164701536103180137503955397371 := by
  refine lucas _ 10 [2, 3, 5, 29, 29, 31, 7723, 132896956044521568488119, 255515944373312847190720520512484175977] ?_ (by norm_num) (by norm_num) (by decide +kernel) (by decide +kernel)
  simp only [List.forall_mem_cons, List.not_mem_nil, false_implies, implies_true, and_true]
  refine ⟨by norm_num, by norm_num, by norm_num, by norm_num, by norm_num, by norm_num, by norm_num, prime_a, prime_b⟩

theorem prime_p : Nat.Prime 115792089237316195423570985008687907853269984665640564039457584007908834671663 := by
  refine lucas _ 3 [2, 3, 7, 13441, 205115282021455665897114700593932402728804164701536103180137503955397371] ?_ (by norm_num) (by norm_num) (by decide +kernel) (by decide +kernel)
  simp only [List.forall_mem_cons, List.not_mem_nil, false_implies, implies_true, and_true]
  refine ⟨by norm_num, by norm_num, by norm_num, by norm_num, prime_q⟩

end Verif.Secq
