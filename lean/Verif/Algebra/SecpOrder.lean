import Verif.Algebra.Secq

/-!
The order of secp256k1, which is the scalar field of `SECP256K1Scalar` (algebra/src/secp256k1.rs): it is prime, checked by a
chain of Lucas certificates.
-/

namespace Verif.SecpOrder

open Verif.Secq

theorem prime_na : Nat.Prime 107361793816595537 := by
  refine lucas _ 3 [2, 2, 2, 2, 16699, 85831, 4681609] ?_ (by norm_num) (by norm_num) (by decide +kernel) (by decide +kernel)
  simp only [List.forall_mem_cons, List.not_mem_nil, false_implies, implies_true, and_true]
  refine ⟨by norm_num, by norm_num, by norm_num, by norm_num, by norm_num, by norm_num, by norm_num⟩

theorem prime_nb : Nat.Prime 174723607534414371449 := by
  refine lucas _ 3 [2, 2, 2, 17, 59, 4051, 120233, 44706919] ?_ (by norm_num) (by norm_num) (by decide +kernel) (by decide +kernel)
  simp only [List.forall_mem_cons, List.not_mem_nil, false_implies, implies_true, and_true]
  refine ⟨by norm_num, by norm_num, by norm_num, by norm_num, by norm_num, by norm_num, by norm_num, by norm_num⟩

theorem prime_ncaa : Nat.Prime 545358713 := by
  refine lucas _ 5 [2, 2, 2, 41, 59, 28181] ?_ (by norm_num) (by norm_num) (by decide +kernel) (by decide +kernel)
  simp only [List.forall_mem_cons, List.not_mem_nil, false_implies, implies_true, and_true]
  refine ⟨by norm_num, by norm_num, by norm_num, by norm_num, by norm_num, by norm_num⟩

theorem prime_ncab : Nat.Prime 297159362677 := by
  refine lucas _ 2 [2, 2, 3, 3, 11, 461, 1627771] ?_ (by norm_num) (by norm_num) (by decide +kernel) (by decide +kernel)
  simp only [List.forall_mem_cons, List.not_mem_nil, false_implies, implies_true, and_true]
  refine ⟨by norm_num, by norm_num, by norm_num, by norm_num, by norm_num, by norm_num, by norm_num⟩

theorem prime_nca : Nat.Prime 29047611873442575647497758179 := by
  refine lucas _ 2 [2, 293, 305873, 545358713, 297159362677] ?_ (by norm_num) (by norm_num) (by decide +kernel) (by decide +kernel)
  simp only [List.forall_mem_cons, List.not_mem_nil, false_implies, implies_true, and_true]
  refine ⟨by norm_num, by norm_num, by norm_num, prime_ncaa, prime_ncab⟩

theorem prime_nc : Nat.Prime 341948486974166000522343609283189 := by
  refine lucas _ 2 [2, 2, 3, 3, 3, 109, 29047611873442575647497758179] ?_ (by norm_num) (by norm_num) (by decide +kernel) (by decide +kernel)
  simp only [List.forall_mem_cons, List.not_mem_nil, false_implies, implies_true, and_true]
  refine ⟨by norm_num, by norm_num, by norm_num, by norm_num, by norm_num, by norm_num, prime_nca⟩

theorem prime_n : Nat.Prime 115792089237316195423570985008687907852837564279074904382605163141518161494337 := by
  refine lucas _ 7 [2, 2, 2, 2, 2, 2, 3, 149, 631, 107361793816595537, 174723607534414371449, 341948486974166000522343609283189] ?_ (by norm_num) (by norm_num) (by decide +kernel) (by decide +kernel)
  simp only [List.forall_mem_cons, List.not_mem_nil, false_implies, implies_true, and_true]
  refine ⟨by norm_num, by norm_num, by norm_num, by norm_num, by norm_num, by norm_num, by norm_num, by norm_num, by norm_num, prime_na, prime_nb, prime_nc⟩

end Verif.SecpOrder
