import Verif.Algebra.Secq

/-!
The order of the prime-order subgroup of Jubjub, which is the scalar field of `JubjubScalar` (algebra/src/jubjub.rs): it is prime,
checked by a chain of Lucas certificates.
-/

namespace Verif.JubjubOrder

open Verif.Secq

theorem prime_saaaa : Nat.Prime 1036009829 := by
  refine lucas _ 2 [2, 2, 7, 499, 74149] ?_ (by norm_num) (by norm_num) (by decide +kernel) (by decide +kernel)
  simp only [List.forall_mem_cons, List.not_mem_nil, false_implies, implies_true, and_true]
  refine ⟨by norm_num, by norm_num, by norm_num, by norm_num, by norm_num⟩

theorem prime_saaa : Nat.Prime 35203613989421 := by
  refine lucas _ 2 [2, 2, 5, 1699, 1036009829] ?_ (by norm_num) (by norm_num) (by decide +kernel) (by decide +kernel)
  simp only [List.forall_mem_cons, List.not_mem_nil, false_implies, implies_true, and_true]
  refine ⟨by norm_num, by norm_num, by norm_num, by norm_num, prime_saaaa⟩

theorem prime_saa : Nat.Prime 12954929948106929 := by
  refine lucas _ 3 [2, 2, 2, 2, 23, 35203613989421] ?_ (by norm_num) (by norm_num) (by decide +kernel) (by decide +kernel)
  simp only [List.forall_mem_cons, List.not_mem_nil, false_implies, implies_true, and_true]
  refine ⟨by norm_num, by norm_num, by norm_num, by norm_num, by norm_num, prime_saaa⟩

theorem prime_sa : Nat.Prime 1710050753150114629 := by
  refine lucas _ 6 [2, 2, 3, 11, 12954929948106929] ?_ (by norm_num) (by norm_num) (by decide +kernel) (by decide +kernel)
  simp only [List.forall_mem_cons, List.not_mem_nil, false_implies, implies_true, and_true]
  refine ⟨by norm_num, by norm_num, by norm_num, by norm_num, prime_saa⟩

theorem prime_sbaa : Nat.Prime 2567293236931 := by
  refine lucas _ 2 [2, 3, 5, 457, 187256983] ?_ (by norm_num) (by norm_num) (by decide +kernel) (by decide +kernel)
  simp only [List.forall_mem_cons, List.not_mem_nil, false_implies, implies_true, and_true]
  refine ⟨by norm_num, by norm_num, by norm_num, by norm_num, by norm_num⟩

theorem prime_sba : Nat.Prime 431305263804409 := by
  refine lucas _ 13 [2, 2, 2, 3, 7, 2567293236931] ?_ (by norm_num) (by norm_num) (by decide +kernel) (by decide +kernel)
  simp only [List.forall_mem_cons, List.not_mem_nil, false_implies, implies_true, and_true]
  refine ⟨by norm_num, by norm_num, by norm_num, by norm_num, by norm_num, prime_sbaa⟩

theorem prime_sb : Nat.Prime 203928654140967434528233 := by
  refine lucas _ 5 [2, 2, 2, 3, 3, 6566909, 431305263804409] ?_ (by norm_num) (by norm_num) (by decide +kernel) (by decide +kernel)
  simp only [List.forall_mem_cons, List.not_mem_nil, false_implies, implies_true, and_true]
  refine ⟨by norm_num, by norm_num, by norm_num, by norm_num, by norm_num, by norm_num, prime_sba⟩

theorem prime_scaa : Nat.Prime 16356472538621 := by
  refine lucas _ 2 [2, 2, 5, 23, 62701, 567097] ?_ (by norm_num) (by norm_num) (by decide +kernel) (by decide +kernel)
  simp only [List.forall_mem_cons, List.not_mem_nil, false_implies, implies_true, and_true]
  refine ⟨by norm_num, by norm_num, by norm_num, by norm_num, by norm_num, by norm_num⟩

theorem prime_sca : Nat.Prime 623312455501769069 := by
  refine lucas _ 2 [2, 2, 7, 1361, 16356472538621] ?_ (by norm_num) (by norm_num) (by decide +kernel) (by decide +kernel)
  simp only [List.forall_mem_cons, List.not_mem_nil, false_implies, implies_true, and_true]
  refine ⟨by norm_num, by norm_num, by norm_num, by norm_num, prime_scaa⟩

theorem prime_sc : Nat.Prime 255074062430788457494141376149 := by
  refine lucas _ 2 [2, 2, 3, 311, 5521, 19861, 623312455501769069] ?_ (by norm_num) (by norm_num) (by decide +kernel) (by decide +kernel)
  simp only [List.forall_mem_cons, List.not_mem_nil, false_implies, implies_true, and_true]
  refine ⟨by norm_num, by norm_num, by norm_num, by norm_num, by norm_num, by norm_num, prime_sca⟩

theorem prime_s : Nat.Prime 6554484396890773809930967563523245729705921265872317281365359162392183254199 := by
  refine lucas _ 6 [2, 3, 12281, 1710050753150114629, 203928654140967434528233, 255074062430788457494141376149] ?_ (by norm_num) (by norm_num) (by decide +kernel) (by decide +kernel)
  simp only [List.forall_mem_cons, List.not_mem_nil, false_implies, implies_true, and_true]
  refine ⟨by norm_num, by norm_num, by norm_num, prime_sa, prime_sb, prime_sc⟩

end Verif.JubjubOrder
