import Verif.Setup.Size
import Verif.Snark.Sound

/-!
C94, first part: the numbers that the indexer works with over the scalar field of BLS12-381.  The representatives of the cosets come
from a generator with a fixed seed (plonk/src/plonk/indexer.rs:171, 193), so they are constants; they are taken from the verifier keys
in api/parameters, which all hold the same.
-/

namespace Verif.Setup

open Verif.Poly Verif.Plonk Verif.Snark Verif.Anon
open Verif.AnonCreds (Pairing)

/-- `k` of the verifier keys in api/parameters (`choose_ks`, indexer.rs:131-155, with the seed of l.171) -/
def kappa : Nat → ZMod Bls.r
  | 0 => 1
  | 1 => 43990773003688043764677533174322891303676367378480250914023208064854070922713
  | 2 => 15667092768067635224820187870293084761818177663602962708889311564795651896909
  | 3 => 17365629405828032067605033653803141831003129787325600746431819829317483461683
  | 4 => 29850373573427042102637775034978799337448010316310695772935792216911641086182
  | _ => 0

/-- the same as numbers -/
def kappaNat : Nat → Nat
  | 0 => 1
  | 1 => 43990773003688043764677533174322891303676367378480250914023208064854070922713
  | 2 => 15667092768067635224820187870293084761818177663602962708889311564795651896909
  | 3 => 17365629405828032067605033653803141831003129787325600746431819829317483461683
  | 4 => 29850373573427042102637775034978799337448010316310695772935792216911641086182
  | _ => 0

theorem kappa_cast (i : Nat) : kappa i = (kappaNat i : ZMod Bls.r) := by
  unfold kappa kappaNat
  split <;> simp

theorem kappa_pow (i e : Nat) (he : e < 2 ^ 256) : kappa i ^ e = (Secq.powMod Bls.r 256 e (kappaNat i) 1 : ZMod Bls.r) := by
  rw [kappa_cast, ← Nat.cast_pow, ZMod.natCast_eq_natCast_iff]
  have := Secq.powMod_eq Bls.r 256 e (kappaNat i) 1 he
  rw [one_mul] at this
  exact this.symm

/-- the last four are no squares -/
theorem kappa_nonresidue (i : Nat) (h1 : 1 ≤ i) (h2 : i ≤ 4) : kappa i ^ ((Bls.r - 1) / 2) ≠ 1 := by
  have he : (Bls.r - 1) / 2 < 2 ^ 256 := by norm_num
  rw [kappa_pow i _ he, show (1 : ZMod Bls.r) = ((1 : Nat) : ZMod Bls.r) from Nat.cast_one.symm, Ne, ZMod.natCast_eq_natCast_iff]
  interval_cases i <;> decide +kernel

/-- no two of the five lie in the same coset of the group of order `2^32`, the largest whose order is a power of two -/
theorem kappa_cosets (i j : Nat) (hi : i < 5) (hj : j < 5) (h : kappa i ^ 2 ^ 32 = kappa j ^ 2 ^ 32) : i = j := by
  rw [kappa_pow i _ (by norm_num), kappa_pow j _ (by norm_num), ZMod.natCast_eq_natCast_iff] at h
  revert h
  unfold Nat.ModEq
  interval_cases i <;> interval_cases j <;> decide +kernel

theorem kappa_ne_zero (i : Nat) (hi : i < 5) : kappa i ≠ 0 := by
  rw [kappa_cast, Ne, ZMod.natCast_eq_zero_iff]
  interval_cases i <;> decide +kernel

/-- C94: the shipped representatives are a possible result of `choose_ks`. -/
theorem C94_representatives_chosen :
    chooseKs (fun x : ZMod Bls.r => decide (x ^ ((Bls.r - 1) / 2) = 1)) 4 [1] [kappa 1, kappa 2, kappa 3, kappa 4] =
      some ((List.range 5).map kappa) := by
  have hne : ∀ i j, i < 5 → j < 5 → i ≠ j → kappa i ≠ kappa j := fun i j hi hj hij h => hij (kappa_cosets i j hi hj (by rw [h]))
  have n1 := kappa_nonresidue 1 (by omega) (by omega)
  have n2 := kappa_nonresidue 2 (by omega) (by omega)
  have n3 := kappa_nonresidue 3 (by omega) (by omega)
  have n4 := kappa_nonresidue 4 (by omega) (by omega)
  have z1 := kappa_ne_zero 1 (by omega)
  have z2 := kappa_ne_zero 2 (by omega)
  have z3 := kappa_ne_zero 3 (by omega)
  have z4 := kappa_ne_zero 4 (by omega)
  have e0 : (1 : ZMod Bls.r) = kappa 0 := rfl
  have a := fun j hj => hne 0 j (by omega) hj
  have b := fun j hj => hne 1 j (by omega) hj
  have c := fun j hj => hne 2 j (by omega) hj
  have d := fun j hj => hne 3 j (by omega) hj
  have hL : (List.range 5).map kappa = [kappa 0, kappa 1, kappa 2, kappa 3, kappa 4] := rfl
  rw [hL]
  generalize (Bls.r - 1) / 2 = e at *
  rw [← e0] at a
  rw [← e0]
  have a1 := a 1 (by omega) (by omega)
  have a2 := a 2 (by omega) (by omega)
  have a3 := a 3 (by omega) (by omega)
  have a4 := a 4 (by omega) (by omega)
  have b2 := b 2 (by omega) (by omega)
  have b3 := b 3 (by omega) (by omega)
  have b4 := b 4 (by omega) (by omega)
  have c3 := c 3 (by omega) (by omega)
  have c4 := c 4 (by omega) (by omega)
  have d4 := d 4 (by omega) (by omega)
  generalize kappa 1 = k1 at *
  generalize kappa 2 = k2 at *
  generalize kappa 3 = k3 at *
  generalize kappa 4 = k4 at *
  simp [chooseKs, z1, z2, z3, z4, n1, n2, n3, n4, a1, a2, a3, a4, b2, b3, b4, c3, c4, d4]

/-- the exponentiation of algebra/src/bls12_381.rs:328-333, from that of the curve library -/
abbrev blsPow (arkPow : ZMod Bls.r → List Nat → ZMod Bls.r) := Pow.powArray arkPow 4

/-- the group of order `n` that the indexer uses -/
def blsRoot (n : Nat) : ZMod Bls.r := 7 ^ ((Bls.r - 1) / n)

theorem primitiveRoot_eq {F : Type} [Field F] (q : Nat) (g : F) (pow : F → List Nat → Res F) (hq : 1 < q) (hq4 : q < 2 ^ (64 * 4))
    (hg : IsPrimitiveRoot g (q - 1))
    (hpow : ∀ x l, l.length ≤ 4 → (∀ e ∈ l, e < 2 ^ 64) → pow x l = .ok (x ^ Nat.ofDigits (2 ^ 64) l)) (n : Nat) (hn : 0 < n)
    (hd : n ∣ q - 1) : primitiveRoot q g pow n = .ok (some (g ^ ((q - 1) / n))) ∧ IsPrimitiveRoot (g ^ ((q - 1) / n)) n := by
  obtain ⟨e, he⟩ := hd
  have hee : (q - 1) / n = e := by rw [he, Nat.mul_div_cancel_left e hn]
  refine ⟨?_, by rw [hee]; exact hg.pow (by omega) (by rw [he, mul_comm])⟩
  unfold primitiveRoot
  rw [if_neg (by omega), if_neg (by rw [he]; simp), hee, hpow, packLimbs_value, Nat.ofDigits_digits]
  · rfl
  · have h1 := packLimbs_length (Nat.digits (2 ^ 32) e)
    have h2 : (Nat.digits (2 ^ 32) e).length ≤ 2 * 4 := by
      rw [Nat.digits_length_le_iff (by norm_num), ← pow_mul]
      have : e ≤ q - 1 := by rw [he]; exact Nat.le_mul_of_pos_left e hn
      rw [show 32 * (2 * 4) = 64 * 4 by ring]
      omega
    omega
  · exact packLimbs_bound _ fun e he => Nat.digits_lt_base (by norm_num) he

theorem primitiveRoot_bls (arkPow : ZMod Bls.r → List Nat → ZMod Bls.r) (hark : ∀ x l, arkPow x l = x ^ Nat.ofDigits (2 ^ 64) l)
    (n : Nat) (hn : 0 < n) (hd : n ∣ Bls.r - 1) :
    primitiveRoot Bls.r 7 (blsPow arkPow) n = .ok (some (blsRoot n)) ∧ IsPrimitiveRoot (blsRoot n) n :=
  primitiveRoot_eq Bls.r 7 _ (by norm_num) (by norm_num) bls_generator
    (fun x l hl _ => Pow.C30_pow_array_partial arkPow hark 4 x l hl) n hn hd

theorem quot_dvd (e : Nat) (he : e ≤ 29) : quotSize (2 ^ e) ∣ (Bls.r - 1) / 2 := by
  have h : 3 * 2 ^ 31 ∣ (Bls.r - 1) / 2 := by norm_num
  refine dvd_trans ?_ h
  unfold quotSize
  split
  · rw [show 2 ^ e * 6 = 3 * 2 ^ (e + 1) by ring]
    exact Nat.mul_dvd_mul_left 3 (pow_dvd_pow 2 (by omega))
  · rename_i h8
    have : e ≤ 3 := by
      by_contra hlt
      have : 2 ^ 4 ≤ 2 ^ e := Nat.pow_le_pow_right (by norm_num) (by omega)
      omega
    rw [show 2 ^ e * 16 = 2 ^ (e + 4) by ring]
    exact dvd_trans (pow_dvd_pow 2 (show e + 4 ≤ 31 by omega)) (Dvd.intro_left 3 rfl)

/-- C94: the domains of the indexer exist for every circuit of at most `2^29` gates, with the representatives of the shipped keys. -/
theorem C94_domain (arkPow : ZMod Bls.r → List Nat → ZMod Bls.r) (hark : ∀ x l, arkPow x l = x ^ Nat.ofDigits (2 ^ 64) l)
    (e : Nat) (he : e ≤ 29) :
    primitiveRoot Bls.r 7 (blsPow arkPow) (quotSize (2 ^ e)) = .ok (some (blsRoot (quotSize (2 ^ e)))) ∧
      Domain (2 ^ e) (blsRoot (quotSize (2 ^ e))) (blsRoot (2 ^ e)) kappa := by
  have hpos : 0 < 2 ^ e := by positivity
  obtain ⟨h1, h2, h3, -⟩ := quotSize_spec hpos
  have hq := quot_dvd e he
  have heven : 2 * ((Bls.r - 1) / 2) = Bls.r - 1 := by norm_num
  have hd : quotSize (2 ^ e) ∣ Bls.r - 1 := dvd_trans hq ⟨2, by omega⟩
  obtain ⟨r1, r2⟩ := primitiveRoot_bls arkPow hark _ (by omega) hd
  refine ⟨r1, ⟨⟨e, rfl⟩, r2, ?_, ?_, rfl, kappa_ne_zero 1 (by omega), ?_⟩⟩
  · have : 2 ^ e ≤ 2 ^ 29 := Nat.pow_le_pow_right (by norm_num) he
    rcases h3 with h | h
    · omega
    · unfold quotSize at h ⊢
      split
      · omega
      · omega
  · unfold blsRoot
    rw [← pow_mul]
    congr 1
    obtain ⟨c, hc⟩ := hd
    have hp : 0 < quotSize (2 ^ e) := by omega
    rw [hc, Nat.mul_div_cancel_left _ hp]
    conv_lhs => rw [← h1, mul_assoc, Nat.mul_div_cancel_left _ hpos]
    rw [mul_comm]
  · obtain ⟨c, hc⟩ := hq
    intro h
    refine kappa_nonresidue 1 (by omega) (by omega) ?_
    rw [hc, pow_mul, h, one_pow]

/-- C94: with the shipped representatives the positions of the wires have distinct places in the permutation argument, for every
circuit whose size is a power of two up to `2^32`: what may fail for `choose_ks` in general (`C60_choose_ks_cosets_may_meet`) holds
for these. -/
theorem C94_places_distinct (e : Nat) (he : e ≤ 32) (a b : Nat) (ha : a < 5 * 2 ^ e) (hb : b < 5 * 2 ^ e)
    (h : place (blsRoot (2 ^ e)) kappa (2 ^ e) a = place (blsRoot (2 ^ e)) kappa (2 ^ e) b) : a = b := by
  have hpos : 0 < 2 ^ e := by positivity
  have hd : 2 ^ e ∣ Bls.r - 1 := dvd_trans (pow_dvd_pow 2 he) (by norm_num)
  have hprim : IsPrimitiveRoot (blsRoot (2 ^ e)) (2 ^ e) := by
    obtain ⟨c, hc⟩ := hd
    unfold blsRoot
    rw [hc, Nat.mul_div_cancel_left _ hpos]
    exact bls_generator.pow (by norm_num) (by rw [hc, mul_comm])
  unfold place at h
  have hda : a / 2 ^ e < 5 := Nat.div_lt_of_lt_mul (by rw [mul_comm]; exact ha)
  have hdb : b / 2 ^ e < 5 := Nat.div_lt_of_lt_mul (by rw [mul_comm]; exact hb)
  have hij : a / 2 ^ e = b / 2 ^ e := by
    refine kappa_cosets _ _ hda hdb ?_
    have h2 := congrArg (· ^ 2 ^ e) h
    simp only [mul_pow, ← pow_mul, mul_comm _ (2 ^ e)] at h2
    rw [pow_mul, pow_mul, hprim.pow_eq_one, one_pow, one_pow, mul_one, mul_one] at h2
    rw [show 2 ^ 32 = 2 ^ e * 2 ^ (32 - e) by rw [← pow_add]; congr 1; omega, pow_mul, pow_mul, h2]
  rw [hij] at h
  have h3 := mul_left_cancel₀ (kappa_ne_zero _ hdb) h
  have h4 := hprim.pow_inj (Nat.mod_lt _ hpos) (Nat.mod_lt _ hpos) h3
  rw [← Nat.div_add_mod a (2 ^ e), ← Nat.div_add_mod b (2 ^ e), hij, h4]

end Verif.Setup
