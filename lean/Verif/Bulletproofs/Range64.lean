import Verif.Bulletproofs.R1cs
import Verif.Plonk.Ecc

/-! C28: the 64-bit range gadget of the mixing circuit, crypto/src/bulletproofs/mix.rs:520-565. -/

namespace Verif.R1cs

open Verif.Plonk (ScalarRepr)

section
variable {F : Type} [Field F]

/-- the assignment of the prover in step `i`, mix.rs:531-543; `none` without a value.  The comparison of the index with
the number of bytes is the code's (`>`); an index equal to it would panic. -/
def rangeAssign (bytes : Option Bytes) (i : Nat) : M F (Option (F × F)) :=
  match bytes with
  | none => pure none
  | some bs =>
    if bs.length < i >>> 3 then fail
    else match bs[i >>> 3]? with
      | none => crash
      | some b =>
        let bit := (b.toNat >>> (i &&& 7)) &&& 1
        pure (some (((1 - bit : Nat) : F), ((bit : Nat) : F)))

/-- one iteration of the loop of mix.rs:528-559 on (`var`, `exp_2`) -/
def rangeStep (bytes : Option Bytes) (s : F × F) (i : Nat) : M F (F × F) := do
  let assignment ← rangeAssign bytes i
  let t ← allocateMultiplier assignment
  constrain t.2.2
  constrain (t.1 + (t.2.1 - 1))
  pure (s.1 - t.2.1 * s.2, s.2 + s.2)

/-- models `range_proof_64`, mix.rs:520-565 -/
def rangeProof64 [ScalarRepr F] (var : F) (value : Option F) : M F Nat := do
  let s ← forM' (List.range 64) (rangeStep (value.map fun v => leBytes 32 (ScalarRepr.val v))) (var, 1)
  constrain s.1
  pure 64

theorem soundR_rangeAssign {G : Rand F → Prop} (bytes : Option Bytes) (i : Nat) :
    SoundR (F := F) G (rangeAssign bytes i) (fun _ => True) := by
  unfold rangeAssign
  cases bytes with
  | none => exact SoundR.ret trivial
  | some bs =>
    simp only
    split
    · exact SoundR.fail
    · cases bs[i >>> 3]? with
      | none => exact SoundR.crash
      | some b => exact SoundR.ret trivial

theorem soundR_range {G : Rand F → Prop} [ScalarRepr F] (var : F) (value : Option F) :
    SoundR (F := F) G (rangeProof64 var value) (fun _ => ∃ k : Nat, k < 2 ^ 64 ∧ var = (k : F)) := by
  unfold rangeProof64
  refine SoundR.bind (SoundR.forM' (fun pre (s : F × F) => s.2 = 2 ^ pre.length ∧
    ∃ k : Nat, k < 2 ^ pre.length ∧ var = s.1 + (k : F)) _ _ ?_) fun s => ?_
  · intro pre i s
    refine SoundR.bind (soundR_rangeAssign _ _) fun _ => SoundR.bind (soundR_allocateMultiplier _) fun t =>
      SoundR.bind (soundR_constrain _) fun _ => SoundR.bind (soundR_constrain _) fun _ => SoundR.ret ?_
    rintro h1 h2 h3 - ⟨h4, k, hk, hv⟩
    rw [h3] at h2
    simp only [List.length_append, List.length_singleton]
    refine ⟨by rw [h4]; ring, ?_⟩
    have hp : 2 ^ (pre.length + 1) = 2 ^ pre.length + 2 ^ pre.length := by rw [pow_succ]; omega
    rcases mul_eq_zero.1 h2 with h0 | h0
    · have hb : t.2.1 = 1 := by rw [h0] at h1; linear_combination h1
      refine ⟨k + 2 ^ pre.length, by omega, ?_⟩
      rw [hv, hb, h4]; push_cast; ring
    · refine ⟨k, by omega, ?_⟩
      rw [hv, h0]; ring
  · refine SoundR.bind (soundR_constrain _) fun _ => SoundR.ret ?_
    rintro h1 h2
    obtain ⟨-, k, hk, hv⟩ := h2 ⟨by simp, 0, by simp, by simp⟩
    refine ⟨k, by simpa using hk, ?_⟩
    rw [hv, h1]; ring

theorem leBytes_getElem (n N i : Nat) (hi : i < n) :
    ∃ b, (leBytes n N)[i]? = some b ∧ b.toNat = N / 256 ^ i % 256 := by
  induction n generalizing N i with
  | zero => omega
  | succ n ih =>
    cases i with
    | zero => exact ⟨UInt8.ofNat N, by simp [leBytes], by simp⟩
    | succ i =>
      obtain ⟨b, h1, h2⟩ := ih (N / 256) i (by omega)
      refine ⟨b, by simpa [leBytes] using h1, ?_⟩
      rw [h2, Nat.div_div_eq_div_mul, pow_succ']

theorem byte_bit (N i : Nat) : ((N / 256 ^ (i >>> 3) % 256) >>> (i &&& 7)) &&& 1 = N / 2 ^ i % 2 := by
  have h7 : i &&& 7 = i % 8 := Nat.and_two_pow_sub_one_eq_mod i 3
  rw [Nat.and_one_is_mod, Nat.shiftRight_eq_div_pow, Nat.shiftRight_eq_div_pow, h7,
    show (256 : Nat) = 2 ^ 8 by norm_num, ← pow_mul]
  have hm : i % 8 < 8 := Nat.mod_lt _ (by norm_num)
  generalize hq : N / 2 ^ (8 * (i / 2 ^ 3)) = q
  have e : (2 : Nat) ^ 8 = 2 ^ (i % 8) * 2 ^ (8 - i % 8) := by rw [← pow_add]; congr 1; omega
  rw [e, Nat.mod_mul_right_div_self, Nat.mod_mod_of_dvd _ (dvd_pow_self 2 (by omega)), ← hq,
    Nat.div_div_eq_div_mul, ← pow_add]
  congr 3
  omega

theorem complete_range [ScalarRepr F] (x : F) (v : Option F) (hx : ScalarRepr.val x < 2 ^ 64) (hv : v = none) :
    Complete (rangeProof64 x (some x)) (rangeProof64 x v) (fun g => g = 64) := by
  subst hv
  unfold rangeProof64
  generalize hN : ScalarRepr.val x = N at *
  have hxN : x = (N : F) := by rw [← hN, ScalarRepr.cast_val]
  refine Complete.bind (Complete.forM' (fun pre (s : F × F) => s.2 = 2 ^ pre.length ∧
    s.1 = ((N / 2 ^ pre.length * 2 ^ pre.length : Nat) : F)) _ _ ⟨by simp, by simp [hxN]⟩ ?_) fun s hs => ?_
  · intro pre i post hl s ⟨h1, h2⟩
    have hi : i = pre.length ∧ i < 64 := by
      have e : (List.range 64)[pre.length]? = some i := by rw [hl]; simp
      obtain ⟨h1, h2⟩ := List.getElem?_eq_some_iff.1 e
      rw [List.getElem_range] at h2
      simp only [List.length_range] at h1
      omega
    obtain ⟨rfl, hi⟩ := hi
    have hbit : rangeAssign (F := F) (Option.map (fun v => leBytes 32 (ScalarRepr.val v)) (some x)) pre.length =
        pure (some (((1 - N / 2 ^ pre.length % 2 : Nat) : F), ((N / 2 ^ pre.length % 2 : Nat) : F))) := by
      obtain ⟨b, hb1, hb2⟩ := leBytes_getElem 32 N (pre.length >>> 3) (by
        rw [Nat.shiftRight_eq_div_pow]; omega)
      have hle : ¬ (leBytes 32 N).length < pre.length >>> 3 := by
        rw [leBytes_length, Nat.shiftRight_eq_div_pow]; omega
      have e1 := byte_bit N pre.length
      rw [← hb2] at e1
      simp only [Option.map_some, hN, rangeAssign, if_neg hle, hb1, e1]
    have hq : N / 2 ^ pre.length % 2 = 0 ∨ N / 2 ^ pre.length % 2 = 1 := by omega
    have hdiv : N / 2 ^ (pre.length + 1) = N / 2 ^ pre.length / 2 := by rw [pow_succ, Nat.div_div_eq_div_mul]
    have hsplit : N / 2 ^ pre.length * 2 ^ pre.length =
        N / 2 ^ (pre.length + 1) * 2 ^ (pre.length + 1) + N / 2 ^ pre.length % 2 * 2 ^ pre.length := by
      rw [hdiv]
      conv_lhs => rw [← Nat.div_add_mod (N / 2 ^ pre.length) 2]
      rw [pow_succ]; ring
    unfold rangeStep
    rw [hbit]
    refine Complete.bind (mp := allocateMultiplier _) (mv := allocateMultiplier none)
      (complete_allocateMultiplier _ _ _) fun t ht => ?_
    refine Complete.bind (complete_constrain ?_) fun _ _ => Complete.bind (complete_constrain ?_) fun _ _ =>
      Complete.ret ⟨?_, ?_⟩
    · rw [ht]; rcases hq with h | h <;> simp [h]
    · rw [ht]; rcases hq with h | h <;> simp [h]
    · rw [List.length_append, List.length_singleton, h1]; ring
    · rw [List.length_append, List.length_singleton, h2, hsplit, ht, h1]; push_cast; ring
  · refine Complete.bind (complete_constrain ?_) fun _ _ => Complete.ret rfl
    rw [hs.2, List.length_range, Nat.div_eq_of_lt hx]
    simp

/-! ### C28 -/

/-- C28 (soundness): whatever the verifier's variables are assigned, if the constraints of the gadget on the value `x`
hold, in any system, then `x` is the image of an integer below `2^64`. -/
theorem C28_range_sound [ScalarRepr F] (x : F) (st st' : St F) (g : Nat) (h : rangeProof64 x none st = .ok (g, st'))
    (hc : ∀ c ∈ st'.cons, c = 0) : ∃ k : Nat, k < 2 ^ 64 ∧ x = (k : F) := by
  obtain ⟨A, B, h1, -, h2⟩ := soundR_range (G := fun _ => True) x none st g st' h
  exact h2 (fun c hcA => hc c (by rw [h1]; exact List.mem_append_right _ hcA)) fun _ _ => trivial

/-- C28 (completeness): for the image of an integer below `2^64` the prover's run succeeds, and with the values it
assigns the verifier's constraints hold. -/
theorem C28_range_complete [ScalarRepr F] (k : Nat) (hk : k < 2 ^ 64) (ho : k < ScalarRepr.order F) :
    ∃ stp stv : St F, rangeProof64 (k : F) (some (k : F)) proverStart = .ok (64, stp) ∧
      rangeProof64 (k : F) none (verifierWith stp.allocs) = .ok (64, stv) ∧
      ∀ ch, Satisfied stp ch ∧ Satisfied stv ch := by
  obtain ⟨a, stp, stv, h1, h2, rfl, -, h3⟩ := (complete_range (k : F) none
    (by rw [ScalarRepr.val_cast k ho]; exact hk) rfl).satisfied
  exact ⟨stp, stv, h1, h2, h3⟩

/-- C28: the gadget is satisfiable for exactly the images of the integers below `2^64`. -/
theorem C28_range_iff [ScalarRepr F] (x : F) :
    (∃ s st g, rangeProof64 x none (verifierWith s) = .ok (g, st) ∧ ∀ ch, Satisfied st ch) ↔
      ScalarRepr.val x < 2 ^ 64 := by
  constructor
  · rintro ⟨s, st, g, h, hs⟩
    obtain ⟨k, hk, rfl⟩ := C28_range_sound x _ st g h (hs fun _ => (0, 0, 0)).1
    by_cases ho : k < ScalarRepr.order F
    · rwa [ScalarRepr.val_cast k ho]
    · exact lt_of_lt_of_le (ScalarRepr.val_lt _) ((not_lt.1 ho).trans hk.le)
  · intro hx
    obtain ⟨stp, stv, -, h, hs⟩ := C28_range_complete (F := F) (ScalarRepr.val x) hx (ScalarRepr.val_lt x)
    rw [ScalarRepr.cast_val] at h
    exact ⟨_, stv, 64, h, fun ch => (hs ch).2⟩

end

/-- a field that is larger than the range: the largest 64-bit value is accepted, the next one is not -/
example : (∃ s st g, rangeProof64 ((2 ^ 64 - 1 : Nat) : ZMod Bls.r) none (verifierWith s) = .ok (g, st) ∧
      ∀ ch, Satisfied st ch) ∧
    ¬ ∃ s st g, rangeProof64 ((2 ^ 64 : Nat) : ZMod Bls.r) none (verifierWith s) = .ok (g, st) ∧
      ∀ ch, Satisfied st ch := by
  have ho : ScalarRepr.order (ZMod Bls.r) = Bls.r := rfl
  constructor
  · rw [C28_range_iff, ScalarRepr.val_cast _ (by rw [ho]; norm_num)]
    norm_num
  · rw [C28_range_iff, ScalarRepr.val_cast _ (by rw [ho]; norm_num)]
    norm_num

end Verif.R1cs
