import Mathlib.GroupTheory.OrderOfElement
import Mathlib.FieldTheory.Finite.Basic
import Verif.Algebra.Bls
import Verif.Algebra.Secq
import Verif.Algebra.RistrettoOrder
import Verif.Algebra.SecpOrder
import Verif.Algebra.JubjubOrder
import Verif.Algebra.CodecProps

/-!
C85, continued: the orders of the five scalar fields are prime, so that inverses exist in all of them, and the constants that the
code returns as multiplicative generators are generators.
-/

namespace Verif.Codec

/-- an element whose powers by the cofactors of the prime factors of `n - 1` differ from one has order `n - 1` -/
theorem order_of_factors (n a : Nat) (fs : List Nat) (hp : ∀ q ∈ fs, q.Prime) (hf : fs.prod = n - 1) (hn2 : n < 2 ^ 256)
    (h1 : Secq.powMod n 256 (n - 1) a 1 % n = 1) (h2 : ∀ q ∈ fs, Secq.powMod n 256 ((n - 1) / q) a 1 % n ≠ 1) :
    orderOf (a : ZMod n) = n - 1 := by
  have hpm : ∀ e, e ≤ n → Secq.powMod n 256 e a 1 % n = a ^ e % n := fun e he => by
    rw [Secq.powMod_eq n 256 e a 1 (by omega), one_mul]
  rw [hpm _ (by omega)] at h1
  have hn : n ≠ 1 := by
    rintro rfl
    rw [Nat.mod_one] at h1
    exact absurd h1 (by norm_num)
  have cast : ∀ e, ((a : ZMod n) ^ e = 1 ↔ a ^ e % n = 1) := by
    intro e
    have h0 : (1 : Nat) % n = 1 := by
      rcases n with _ | _ | n
      · rfl
      · exact absurd rfl hn
      · exact Nat.mod_eq_of_lt (by omega)
    rw [← Nat.cast_pow, ← Nat.cast_one, ZMod.natCast_eq_natCast_iff', h0]
  have hpos : 0 < n - 1 := by
    rw [← hf]
    exact List.prod_pos (fun q hq => (hp q hq).pos)
  refine orderOf_eq_of_pow_and_pow_div_prime hpos ((cast _).mpr h1) (fun q hq hd => ?_)
  rw [Ne, cast]
  rw [← hf] at hd
  obtain ⟨f, hm, hdf⟩ := (Nat.Prime.prime hq).dvd_prod_iff.mp hd
  rw [(Nat.prime_dvd_prime_iff_eq hq (hp f hm)).mp hdf, ← hpm _ (le_trans (Nat.div_le_self _ _) (by omega))]
  exact h2 f hm

/-- the orders of the five fields are prime -/
theorem C85_orders_prime :
    blsSize.Prime ∧ jubjubSize.Prime ∧ secpSize.Prime ∧ secqSize.Prime ∧ ristSize.Prime :=
  ⟨Bls.prime_r, JubjubOrder.prime_s, SecpOrder.prime_n, Secq.prime_p, RistrettoOrder.prime_l⟩

/-- `JubjubScalar::multiplicative_generator`, jubjub.rs:218-220 -/
def jubjubGenerator : ZMod jubjubSize := (6 : Nat)

/-- `RistrettoScalar::multiplicative_generator`, ristretto.rs:209-211 -/
def ristGenerator : ZMod ristSize := (2 : Nat)

theorem not_square_of_order {n : Nat} (hp : n.Prime) (hodd : n % 2 = 1) (a : ZMod n) (h : orderOf a = n - 1) : ¬IsSquare a := by
  haveI : Fact n.Prime := ⟨hp⟩
  rintro ⟨b, rfl⟩
  have h2 := hp.two_le
  have hn : 0 < (n - 1) / 2 := by omega
  by_cases hb : b = 0
  · subst hb
    have : orderOf ((0 : ZMod n) * 0) = 0 := by
      rw [mul_zero, orderOf_eq_zero_iff']
      intro k hk
      rw [zero_pow hk.ne']
      exact zero_ne_one
    omega
  · have hpow : (b * b) ^ ((n - 1) / 2) = 1 := by
      rw [← pow_two, ← pow_mul, show 2 * ((n - 1) / 2) = n - 1 by omega]
      exact ZMod.pow_card_sub_one_eq_one hb
    have := orderOf_le_of_pow_eq_one hn hpow
    omega

/-- **Generators.** The two constants have the order of the group of units and are no squares, as the trait asks
(traits.rs:51-53). -/
theorem C85_generators :
    (orderOf jubjubGenerator = jubjubSize - 1 ∧ ¬IsSquare jubjubGenerator) ∧
    (orderOf ristGenerator = ristSize - 1 ∧ ¬IsSquare ristGenerator) := by
  have h1 : orderOf jubjubGenerator = jubjubSize - 1 := by
    refine order_of_factors jubjubSize 6 [2, 3, 12281, 1710050753150114629, 203928654140967434528233,
      255074062430788457494141376149] ?_ (by decide +kernel) (by decide +kernel) (by decide +kernel) (by decide +kernel)
    simp only [List.forall_mem_cons, List.not_mem_nil, false_implies, implies_true, and_true]
    exact ⟨by norm_num, by norm_num, by norm_num, JubjubOrder.prime_sa, JubjubOrder.prime_sb, JubjubOrder.prime_sc⟩
  have h2 : orderOf ristGenerator = ristSize - 1 := by
    refine order_of_factors ristSize 2 [2, 2, 3, 11, 198211423230930754013084525763697,
      276602624281642239937218680557139826668747] ?_ (by decide +kernel) (by decide +kernel) (by decide +kernel)
      (by decide +kernel)
    simp only [List.forall_mem_cons, List.not_mem_nil, false_implies, implies_true, and_true]
    exact ⟨by norm_num, by norm_num, by norm_num, by norm_num, RistrettoOrder.prime_la, RistrettoOrder.prime_lb⟩
  exact ⟨⟨h1, not_square_of_order JubjubOrder.prime_s (by decide +kernel) _ h1⟩,
    ⟨h2, not_square_of_order RistrettoOrder.prime_l (by decide +kernel) _ h2⟩⟩

/-- the hypotheses of `C85_inv` and `C85_ristretto_inv_partial` hold for the five types -/
theorem C85_inverses :
    (∀ A ∈ [bls, jubjub, secp, secq], ∀ x : ZMod A.q, (x = 0 → A.inv x = .err) ∧ (x ≠ 0 → ∃ y, A.inv x = .ok y ∧ x * y = 1)) ∧
    (∀ x : RScalar, residue x ≠ 0 → ∃ y, rInv x = .ok y ∧ ((x.1 : ZMod ristSize) * y.1) = 1) := by
  refine ⟨?_, fun x hx => C85_ristretto_inv_partial C85_orders_prime.2.2.2.2 x hx⟩
  intro A hA
  have hq : A.q.Prime := by
    simp only [List.mem_cons, List.not_mem_nil, or_false] at hA
    rcases hA with rfl | rfl | rfl | rfl
    · exact C85_orders_prime.1
    · exact C85_orders_prime.2.1
    · exact C85_orders_prime.2.2.1
    · exact C85_orders_prime.2.2.2.1
  exact C85_inv hq

example : ∃ y, rInv ⟨5, by decide⟩ = .ok y :=
  let ⟨y, h, _⟩ := C85_inverses.2 ⟨5, by decide⟩ (by decide +kernel)
  ⟨y, h⟩

end Verif.Codec
