import Verif.SimFr.Bounded
import Verif.Plonk.Ecc

/-!
The hypotheses of the theorems on the simulated fields are met, for both sets of parameters, over the scalar field of
BLS12-381.
-/

namespace Verif.SimFr

open Verif.Plonk Verif.Plonk.Spec Spec

theorem bls_big (P : Params) (h : P.bits ≤ 44) : 2 ^ (4 * P.bits + 8) ≤ ScalarRepr.order (ZMod Bls.r) := by
  change _ ≤ Bls.r
  refine (Nat.pow_le_pow_right (by norm_num) (show 4 * P.bits + 8 ≤ 184 by omega)).trans ?_
  unfold Bls.r
  norm_num

/-- `(3 * 5) - 15` is zero in both simulated fields: the native computation succeeds -/
example (P : Params) (h : P = ristretto ∨ P = secq256k1) : ∃ m c : SimMul (ZMod Bls.r),
    (ofBig P 3 : Sim (ZMod Bls.r)).mul P (ofBig P 5) = some m ∧ m.sub P (ofBig P 15) = some c ∧
      c.enforceZero P = some () := by
  have hP : P.Ok := by rcases h with rfl | rfl; exacts [ristretto_ok, secq256k1_ok]
  have hb : P.bits ≤ 44 := by rcases h with rfl | rfl <;> decide
  have hr : 15 < P.r := by rcases h with rfl | rfl <;> decide
  obtain ⟨a1, a2, a3⟩ := C61_from (F := ZMod Bls.r) P hP 3 (by omega)
  obtain ⟨b1, b2, b3⟩ := C61_from (F := ZMod Bls.r) P hP 5 (by omega)
  obtain ⟨d1, d2, d3⟩ := C61_from (F := ZMod Bls.r) P hP 15 (by omega)
  obtain ⟨m, hm, m1, m2, m3⟩ := C61_mul P hP _ _ a1 b1
  obtain ⟨c, hc, c1, c2, c3⟩ := C61_mul_sub P hP m _ m1 d1 (by rw [d3]; decide)
  refine ⟨m, c, hm, hc, ?_⟩
  rw [C61_enforce_zero P hP (bls_big P hb) c c1 (by rw [c2, m2, a3, b3]; decide)]
  rw [← ZMod.natCast_eq_zero_iff, c3, m3, a2, b2, d2]
  push_cast
  ring

/-- `3 * 5 = 16` is not -/
example (P : Params) (h : P = ristretto ∨ P = secq256k1) (m c : SimMul (ZMod Bls.r))
    (hm : (ofBig P 3 : Sim (ZMod Bls.r)).mul P (ofBig P 5) = some m) (hc : m.sub P (ofBig P 16) = some c) :
    c.enforceZero P ≠ some () := by
  have hP : P.Ok := by rcases h with rfl | rfl; exacts [ristretto_ok, secq256k1_ok]
  have hb : P.bits ≤ 44 := by rcases h with rfl | rfl <;> decide
  have hr : 16 < P.r := by rcases h with rfl | rfl <;> decide
  obtain ⟨a1, a2, a3⟩ := C61_from (F := ZMod Bls.r) P hP 3 (by omega)
  obtain ⟨b1, b2, b3⟩ := C61_from (F := ZMod Bls.r) P hP 5 (by omega)
  obtain ⟨d1, d2, d3⟩ := C61_from (F := ZMod Bls.r) P hP 16 (by omega)
  obtain ⟨m', hm', m1, m2, m3⟩ := C61_mul P hP _ _ a1 b1
  rw [hm] at hm'
  obtain rfl := Option.some.inj hm'
  obtain ⟨c', hc', c1, c2, c3⟩ := C61_mul_sub P hP m _ m1 d1 (by rw [d3]; decide)
  rw [hc] at hc'
  obtain rfl := Option.some.inj hc'
  rw [Ne, C61_enforce_zero P hP (bls_big P hb) c c1 (by rw [c2, m2, a3, b3]; decide)]
  rw [← ZMod.natCast_eq_zero_iff, c3, m3, a2, b2, d2]
  intro h0
  have h1 : ((1 : Nat) : ZMod P.r) = 0 := by
    push_cast at h0 ⊢
    linear_combination -h0
  rw [ZMod.natCast_eq_zero_iff] at h1
  have := Nat.le_of_dvd (by norm_num) h1
  omega

/-- the circuit that shows knowledge of factors of 15, honestly executed on a fresh constraint system -/
def sampleCircuit (P : Params) : Build (ZMod Bls.r) Unit := do
  let x ← allocWitness P (ofBig P 3)
  let y ← allocWitness P (ofBig P 5)
  let m ← x.1.mul P y.1
  let z ← allocConstant P (ofBig P 15)
  let c ← m.sub P z
  c.enforceZero true P

example (P : Params) (h : P = ristretto ∨ P = secq256k1) : ∃ cs,
    sampleCircuit P CS.new = some ((), cs) ∧ WF cs ∧ HSat cs := by
  have hP : P.Ok := by rcases h with rfl | rfl; exacts [ristretto_ok, secq256k1_ok]
  have hb : P.bits ≤ 44 := by rcases h with rfl | rfl <;> decide
  have hr : 15 < P.r := by rcases h with rfl | rfl <;> decide
  have hF := bls_big P hb
  have hF1 : 2 ^ P.bits ≤ ScalarRepr.order (ZMod Bls.r) := (Nat.pow_le_pow_right (by norm_num) (by omega)).trans hF
  obtain ⟨a1, a2, a3⟩ := C61_from (F := ZMod Bls.r) P hP 3 (by omega)
  obtain ⟨b1, b2, b3⟩ := C61_from (F := ZMod Bls.r) P hP 5 (by omega)
  obtain ⟨d1, d2, d3⟩ := C61_from (F := ZMod Bls.r) P hP 15 (by omega)
  have : Runs (sampleCircuit P) CS.new (fun _ _ => True) := by
    unfold sampleCircuit
    refine Runs.bind (C61_alloc_witness_complete P hP hF1 _ a1 a3 _ new_has.1) ?_
    rintro x cs1 w0 w1 m1 ⟨x1, x2, -⟩
    have h1 := new_has.1.mono w0 m1
    refine Runs.bind (C61_alloc_witness_complete P hP hF1 _ b1 b3 _ h1) ?_
    rintro y cs2 _ w2 m2 ⟨y1, y2, -⟩
    have h2 := h1.mono w1 m2
    refine Runs.bind (C61_mul_complete P hP _ _ _ h2 (x1.mono w1 m2) y1) ?_
    rintro m cs3 _ w3 m3 ⟨z1, z2⟩
    refine Runs.bind (C61_alloc_constant_complete P _ d1 _) ?_
    rintro z cs4 _ w4 m4 ⟨t1, t2⟩
    refine Runs.bind (C61_mul_sub_complete P hP _ _ _ (z1.mono w3 m4) t1 (by rw [t2, d3]; decide)) ?_
    rintro c cs5 _ w5 m5 ⟨c1, c2⟩
    obtain ⟨m', e1, _, e2, e3⟩ := C61_mul P hP _ _ x1.1 y1.1
    rw [z2] at e1
    obtain rfl := Option.some.inj e1
    obtain ⟨c', f1, _, f2, f3⟩ := C61_mul_sub P hP _ _ z1.1 t1.1 (by rw [t2, d3]; decide)
    rw [c2] at f1
    have f1 := Option.some.inj f1
    refine C61_enforce_zero_complete true P hP hF c cs5
      (((h2.mono w2 m3).mono w3 m4).mono w4 m5) c1 (by rw [f1, f2, e2, x2, y2]; norm_num [Red.num]) ?_
    rw [← ZMod.natCast_eq_zero_iff, f1, f3, e3, t2, x2, y2, a2, b2, d2]
    push_cast
    ring
  obtain ⟨o, cs, pv, e, w, s, -, -, -⟩ := this WF.new new_hsat
  exact ⟨cs, e, w, s⟩

/-- and it forces any prover, whatever values are stored, to know two numbers whose product is 15 in the simulated
field, if `zero_var` is zero -/
example (P : Params) (h : P = ristretto ∨ P = secq256k1) :
    Sound (sampleCircuit P) (fun w _ => w 0 = 0 → ∃ x y : Nat, ((x * y : Nat) : ZMod P.r) = 15) := by
  have hP : P.Ok := by rcases h with rfl | rfl; exacts [ristretto_ok, secq256k1_ok]
  have hb : P.bits ≤ 44 := by rcases h with rfl | rfl <;> decide
  have hr : 15 < P.r := by rcases h with rfl | rfl <;> decide
  obtain ⟨d1, d2, d3⟩ := C61_from (F := ZMod Bls.r) P hP 15 (by omega)
  unfold sampleCircuit
  refine Sound.bind (C61_alloc_witness_sound P hP _) (fun x => ?_)
  refine Sound.bind (C61_alloc_witness_sound P hP _) (fun y => ?_)
  refine Sound.bind (C61_mul_sound P hP _ _) (fun m => ?_)
  refine Sound.bind (C61_alloc_constant_sound P _ d1) (fun z => ?_)
  refine Sound.bind (C61_mul_sub_sound P hP _ _) (fun c => ?_)
  refine Sound.cons (C61_enforce_zero_sound true P hP (bls_big P hb) c) ?_
  rintro w _ hz ⟨_, hs⟩ ⟨hc, _⟩ ⟨_, hm⟩ ⟨_, Y, hy, _⟩ ⟨_, X, hx, _⟩ h0
  obtain ⟨C, c1, c2⟩ := hs _ _ (hm h0 X Y hx hy) hc
  have := hz h0 C c1
  rw [← ZMod.natCast_eq_zero_iff, c2, d2, sub_eq_zero] at this
  exact ⟨X, Y, by rw [this]; norm_num⟩

/-- the bounds of 64 and 240 bits used in abar_to_bar.rs and bar_to_abar.rs -/
example (total : Nat) (ht : total = 64 ∨ total = 240) : Runs (allocBounded ristretto (ofBig ristretto 1000) total)
    (CS.new : CS (ZMod Bls.r)) (fun r cs => r.1.Held ristretto cs ∧ r.1.val.val = 1000) := by
  obtain ⟨a1, a2, a3⟩ := C61_from (F := ZMod Bls.r) ristretto ristretto_ok 1000 (by decide +kernel)
  have hF1 : 2 ^ ristretto.bits ≤ ScalarRepr.order (ZMod Bls.r) :=
    (Nat.pow_le_pow_right (by norm_num) (by omega)).trans (bls_big ristretto (by decide))
  refine Runs.cons (C61_alloc_bounded_complete ristretto ristretto_ok hF1 _ a1 a3 total ?_ ?_ ?_ _ new_has.1) ?_
  · rcases ht with rfl | rfl <;> decide
  · rcases ht with rfl | rfl <;> decide
  · rcases ht with rfl | rfl <;> decide +kernel
  · rintro r cs _ _ _ ⟨h1, h2, -⟩
    exact ⟨h1, h2.trans a2⟩

end Verif.SimFr
