import Verif.Algebra.Secq

/-!
The order of the Ristretto group, which is the scalar field of `RistrettoScalar` (algebra/src/ristretto.rs): it is prime,
checked by a chain of Lucas certificates.
-/

namespace Verif.RistrettoOrder

open Verif.Secq

theorem prime_laa : Nat.Prime 3044861653679985063343 := by
  refine lucas _ 5 [2, 3, 11, 30703, 82163, 132667, 137849] ?_ (by norm_num) (by norm_num) (by decide +kernel) (by decide +kernel)
  simp only [List.forall_mem_cons, List.not_mem_nil, false_implies, implies_true, and_true]
  refine ⟨by norm_num, by norm_num, by norm_num, by norm_num, by norm_num, by norm_num, by norm_num⟩

theorem prime_la : Nat.Prime 198211423230930754013084525763697 := by
  refine lucas _ 5 [2, 2, 2, 2, 3, 23, 58964693, 3044861653679985063343] ?_ (by norm_num) (by norm_num) (by decide +kernel) (by decide +kernel)
  simp only [List.forall_mem_cons, List.not_mem_nil, false_implies, implies_true, and_true]
  refine ⟨by norm_num, by norm_num, by norm_num, by norm_num, by norm_num, by norm_num, by norm_num, prime_laa⟩

theorem prime_lbaaaa : Nat.Prime 1257559732178653 := by
  refine lucas _ 2 [2, 2, 3, 7, 23, 531581, 1224481] ?_ (by norm_num) (by norm_num) (by decide +kernel) (by decide +kernel)
  simp only [List.forall_mem_cons, List.not_mem_nil, false_implies, implies_true, and_true]
  refine ⟨by norm_num, by norm_num, by norm_num, by norm_num, by norm_num, by norm_num, by norm_num⟩

theorem prime_lbaaa : Nat.Prime 4434155615661930479 := by
  refine lucas _ 17 [2, 41, 43, 1257559732178653] ?_ (by norm_num) (by norm_num) (by decide +kernel) (by decide +kernel)
  simp only [List.forall_mem_cons, List.not_mem_nil, false_implies, implies_true, and_true]
  refine ⟨by norm_num, by norm_num, by norm_num, prime_lbaaaa⟩

theorem prime_lbaa : Nat.Prime 172054593956031949258510691 := by
  refine lucas _ 2 [2, 5, 1361, 2851, 4434155615661930479] ?_ (by norm_num) (by norm_num) (by decide +kernel) (by decide +kernel)
  simp only [List.forall_mem_cons, List.not_mem_nil, false_implies, implies_true, and_true]
  refine ⟨by norm_num, by norm_num, by norm_num, by norm_num, prime_lbaaa⟩

theorem prime_lbaba : Nat.Prime 292386187 := by
  refine lucas _ 2 [2, 3, 3, 3, 3, 307, 5879] ?_ (by norm_num) (by norm_num) (by decide +kernel) (by decide +kernel)
  simp only [List.forall_mem_cons, List.not_mem_nil, false_implies, implies_true, and_true]
  refine ⟨by norm_num, by norm_num, by norm_num, by norm_num, by norm_num, by norm_num, by norm_num⟩

theorem prime_lbab : Nat.Prime 213441916511 := by
  refine lucas _ 13 [2, 5, 73, 292386187] ?_ (by norm_num) (by norm_num) (by decide +kernel) (by decide +kernel)
  simp only [List.forall_mem_cons, List.not_mem_nil, false_implies, implies_true, and_true]
  refine ⟨by norm_num, by norm_num, by norm_num, prime_lbaba⟩

theorem prime_lba : Nat.Prime 19757330305831588566944191468367130476339 := by
  refine lucas _ 2 [2, 269, 213441916511, 172054593956031949258510691] ?_ (by norm_num) (by norm_num) (by decide +kernel) (by decide +kernel)
  simp only [List.forall_mem_cons, List.not_mem_nil, false_implies, implies_true, and_true]
  refine ⟨by norm_num, by norm_num, prime_lbab, prime_lbaa⟩

theorem prime_lb : Nat.Prime 276602624281642239937218680557139826668747 := by
  refine lucas _ 2 [2, 7, 19757330305831588566944191468367130476339] ?_ (by norm_num) (by norm_num) (by decide +kernel) (by decide +kernel)
  simp only [List.forall_mem_cons, List.not_mem_nil, false_implies, implies_true, and_true]
  refine ⟨by norm_num, by norm_num, prime_lba⟩

/-- the order of the Ristretto group is prime -/
theorem prime_l : Nat.Prime 7237005577332262213973186563042994240857116359379907606001950938285454250989 := by
  refine lucas _ 2 [2, 2, 3, 11, 198211423230930754013084525763697, 276602624281642239937218680557139826668747] ?_ (by norm_num) (by norm_num) (by decide +kernel) (by decide +kernel)
  simp only [List.forall_mem_cons, List.not_mem_nil, false_implies, implies_true, and_true]
  refine ⟨by norm_num, by norm_num, by norm_num, by norm_num, prime_la, prime_lb⟩

end Verif.RistrettoOrder
