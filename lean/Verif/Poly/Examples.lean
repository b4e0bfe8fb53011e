import Verif.Poly.KzgProps
import Verif.Poly.Fft

/-! # The theorems of the polynomial commitments applied to concrete data (C58, C59)

Each line discharges all hypotheses of the theorem it names, so none of them is empty.
-/

namespace Verif.Poly

open AnonCreds

/-- C58: six values of a polynomial of degree 4 on the coset `4·⟨3⟩` of the integers modulo 7 -/
example := C58_coset_fft_evaluates ([1, 2, 3, 0, 5] : List (ZMod 7)) 3 6 4 ⟨1, Or.inr rfl⟩ three_primitive (by simp) (by simp)

/-- C59: a polynomial that fits and one that does not -/
example := C59_commit exPairing plainMsm plainMsm_correct 4 9 [1, 2, 3] (by simp)

example : commit plainMsm (setup exPairing 1 9) [(1 : ZMod 101), 2, 3] = .err :=
  C59_commit exPairing plainMsm plainMsm_correct 1 9 [1, 2, 3] (by simp)

/-- C59: two polynomials with one commitment differ by one that vanishes at the secret: `X - 9` -/
example := C59_binding exPairing exPairing_nonDegenerate plainMsm plainMsm_correct 4 9 [1, 2, 3] [1 - 9, 3, 3]
  ⟨by simp, fun _ => by decide⟩ ⟨by simp, fun _ => by decide⟩ 60
  (by decide +kernel) (by decide +kernel) (by decide)

/-- C59: the claimed values 86 and 30, of which the second should be 29, at the point 5 -/
example := C59_batch_sound exPairing exPairing_nonDegenerate plainMsm plainMsm_correct 4 9 5 [[1, 2, 3], [4, 5]] (by simp)
  [60, 49] (by decide +kernel) [86, 30] rfl (by
    simp only [List.map_cons, List.map_nil, ← C57_eval]
    decide)

/-- C59: openings at the points 5 and 6, both right -/
example := C59_diff_points_complete exPairing exPairing_nonDegenerate 4 9 33 [60, 49] [5, 6] [86, 34] [44, 5] (by simp) rfl rfl rfl
  (by
    intro i hi
    match i, hi with
    | 0, _ => exact (by decide +kernel : verify exPairing (setup exPairing 4 (9 : ZMod 101)) 60 5 86 44 = .ok ())
    | 1, _ => exact (by decide +kernel : verify exPairing (setup exPairing 4 (9 : ZMod 101)) 49 6 34 5 = .ok ()))

/-- C59: the second value wrong -/
example := C59_diff_points_sound exPairing exPairing_nonDegenerate 4 9 [60, 49] [5, 6] [86, 35] [44, 5] (by simp) rfl rfl rfl
  ⟨1, by decide, by decide +kernel⟩

end Verif.Poly
