import Verif.Anon.Folding
import Verif.SimFr.Examples

/-!
C72 (soundness): what a satisfied address folding circuit says.
-/

namespace Verif.Anon

open Verif.Plonk Verif.Plonk.Spec Verif.SimFr Verif.SimFr.Spec Verif.StateComm Verif.Anon.Spec

variable {F : Type} [Field F]

/-! ### Bits -/

/-- the variables are the `n` bits of `N`, least significant first -/
def IsBits (w : Nat → F) (l : List Nat) (n N : Nat) : Prop :=
  l.length = n ∧ N < 2 ^ n ∧ ∀ i v, l[i]? = some v → w v = bit N i

theorem IsBits.append {w : Nat → F} {l l' : List Nat} {n m N M : Nat} (h : IsBits w l n N) (h' : IsBits w l' m M) :
    IsBits w (l ++ l') (n + m) (2 ^ n * M + N) := by
  obtain ⟨h1, h2, h3⟩ := h
  obtain ⟨g1, g2, g3⟩ := h'
  refine ⟨by simp [h1, g1], ?_, fun i v hv => ?_⟩
  · have : 2 ^ n * (M + 1) ≤ 2 ^ n * 2 ^ m := Nat.mul_le_mul_left _ g2
    rw [Nat.mul_succ] at this
    rw [pow_add]
    omega
  · unfold bit
    rw [Nat.testBit_two_pow_mul_add _ h2]
    by_cases hi : i < n
    · rw [if_pos hi]
      rw [List.getElem?_append_left (by omega)] at hv
      exact h3 i v hv
    · rw [if_neg hi]
      rw [List.getElem?_append_right (by omega), h1] at hv
      exact g3 _ v hv

theorem bit_inj {N M i j : Nat} (h : (bit N i : F) = bit M j) : N.testBit i = M.testBit j := by
  unfold bit at h
  cases h1 : N.testBit i <;> cases h2 : M.testBit j <;> simp [h1, h2] at h ⊢

theorem IsBits.eq {w : Nat → F} {l l' : List Nat} {n N M : Nat} (h : IsBits w l n N) (h' : IsBits w l' n M)
    (he : ∀ e ∈ l.zip l', w e.1 = w e.2) : N = M := by
  obtain ⟨h1, h2, h3⟩ := h
  obtain ⟨g1, g2, g3⟩ := h'
  refine Nat.eq_of_testBit_eq (fun i => ?_)
  by_cases hi : i < n
  · have a1 := List.getElem?_eq_getElem (show i < l.length by omega)
    have a2 := List.getElem?_eq_getElem (show i < l'.length by omega)
    have hm : (l[i], l'[i]) ∈ l.zip l' := by
      rw [← List.getElem_zip (h := by simp; omega)]
      exact List.getElem_mem _
    have := he _ hm
    simp only at this
    rw [h3 i _ a1, g3 i _ a2] at this
    exact bit_inj this
  · have hp : 2 ^ n ≤ 2 ^ i := Nat.pow_le_pow_right (by norm_num) (by omega)
    rw [Nat.testBit_lt_two_pow (by omega), Nat.testBit_lt_two_pow (by omega)]

theorem leNat_testBit (N n : Nat) : leNat ((List.range n).map N.testBit) = N % 2 ^ n := by
  induction n generalizing N with
  | zero => simp [leNat, Nat.mod_one]
  | succ n ih =>
    rw [List.range_succ_eq_map, List.map_cons, List.map_map, leNat]
    have : (N.testBit ∘ Nat.succ) = (N / 2).testBit := by
      funext i
      rw [Function.comp_apply, Nat.testBit_succ]
    rw [this, ih, pow_succ, Nat.mul_comm (2 ^ n) 2, Nat.mod_mul]
    congr 1
    rw [Nat.testBit_zero]
    have := Nat.mod_two_eq_zero_or_one N
    rcases this with h | h <;> simp [h]

theorem IsBits.forall₂ {w : Nat → F} {l : List Nat} {n N : Nat} (h : IsBits w l n N) :
    List.Forall₂ (fun v (b : Bool) => w v = if b then 1 else 0) l ((List.range n).map N.testBit) := by
  obtain ⟨h1, h2, h3⟩ := h
  refine List.forall₂_iff_get.mpr ⟨by simp [h1], fun i hi hi' => ?_⟩
  have := h3 i _ (List.getElem?_eq_getElem hi)
  rw [List.get_eq_getElem, this]
  simp [bit]

/-- every pair differs by `d ≠ 0`: all bits on the right are zero and `d = 1`, or all are one and `d = -1` -/
theorem IsBits.shift {w : Nat → F} {l l' : List Nat} {n N M : Nat} (h2 : (2 : F) ≠ 0) (h : IsBits w l n N)
    (h' : IsBits w l' n M) (d : F) (hd : d ≠ 0) (he : ∀ e ∈ l.zip l', w e.1 = w e.2 + d) (hn : 0 < n) :
    (d = 1 ∧ M = 0) ∨ (d = -1 ∧ ∀ v ∈ l', w v = 1) := by
  obtain ⟨h1, -, h3⟩ := h
  obtain ⟨g1, g2, g3⟩ := h'
  have hall : ∀ i, (hi : i < n) → (d = 1 ∧ M.testBit i = false) ∨ (d = -1 ∧ M.testBit i = true) := by
    intro i hi
    have a1 := List.getElem?_eq_getElem (show i < l.length by omega)
    have a2 := List.getElem?_eq_getElem (show i < l'.length by omega)
    have hm : (l[i], l'[i]) ∈ l.zip l' := by
      rw [← List.getElem_zip (h := by simp; omega)]
      exact List.getElem_mem _
    have := he _ hm
    simp only at this
    rw [h3 i _ a1, g3 i _ a2] at this
    unfold bit at this
    cases e1 : N.testBit i <;> cases e2 : M.testBit i <;> simp [e1, e2] at this ⊢
    · exact absurd this.symm hd
    · linear_combination -this
    · exact this.symm
    · exact absurd this hd
  have hne : (1 : F) ≠ -1 := fun h => h2 (by linear_combination h)
  rcases hall 0 hn with ⟨e, -⟩ | ⟨e, -⟩
  · left
    refine ⟨e, Nat.eq_of_testBit_eq (fun i => ?_)⟩
    rw [Nat.zero_testBit]
    by_cases hi : i < n
    · rcases hall i hi with ⟨-, h⟩ | ⟨h, -⟩
      · exact h
      · exact absurd (e.symm.trans h) hne
    · have hp : 2 ^ n ≤ 2 ^ i := Nat.pow_le_pow_right (by norm_num) (by omega)
      exact Nat.testBit_lt_two_pow (by omega)
  · right
    refine ⟨e, fun v hv => ?_⟩
    obtain ⟨i, hi, rfl⟩ := List.getElem_of_mem hv
    rw [g3 i _ (List.getElem?_eq_getElem hi)]
    rcases hall i (by omega) with ⟨h, -⟩ | ⟨-, h⟩
    · exact absurd (h.symm.trans e) hne
    · simp [bit, h]

/-! ### Step 4 -/

theorem sound_equalAll (l l' : List Nat) :
    Sound (equalAll l l' : Build F Unit) (fun w _ => ∀ e ∈ l.zip l', w e.1 = w e.2 + w 0) := by
  unfold equalAll
  refine (Sound.foldlM (fun (_ : Unit) (e : Nat × Nat) => equalV e.1 e.2)
    (fun w pre _ => ∀ e ∈ pre, w e.1 = w e.2 + w 0) _ () ?_).cons ?_
  · intro pre a x _
    refine (sound_equalV_raw _ _).cons ?_
    intro w _ h hI e he
    rcases List.mem_append.mp he with he | he
    · exact hI e he
    · rw [List.mem_singleton] at he; subst he; exact h
  · intro w _ h
    exact h (by simp)

theorem sound_lessThan_true (bitVars : List Nat) (bits modulus : List Bool) :
    Sound (lessThanModulus bitVars bits modulus : Build F Unit) (fun _ _ => True) := by
  unfold lessThanModulus
  refine Sound.ite (fun _ => Sound.failure _) (fun hb => ?_)
  refine Sound.bind (Sound.foldlM cmpStep (fun _ _ _ => True) _ _ ?_) (fun s => ?_)
  · rintro pre s ⟨⟨v, b0⟩, k⟩ -
    exact (sound_cmpStep s v b0 k).cons (fun _ _ _ _ => trivial)
  · exact (sound_pushGate_after _ (bothGate s.smallerVar s.meetVar) (by
      simp [Gate.wires, bothGate])).cons (fun _ _ _ _ => trivial)

/-- the comparison cannot be satisfied with `zero_var` equal to `-1` and all key bits one -/
theorem sound_lessThan_neg (h2 : (2 : F) ≠ 0) (bitVars : List Nat) (bits modulus : List Bool)
    (hl : bitVars.length = modulus.length) (hf : false ∈ modulus) :
    Sound (lessThanModulus bitVars bits modulus : Build F Unit) (fun w _ => w 0 = -1 → (∀ v ∈ bitVars, w v = 1) → False) := by
  unfold lessThanModulus
  refine Sound.ite (fun _ => Sound.failure _) (fun hb => ?_)
  push Not at hb
  refine Sound.bind (Sound.foldlM cmpStep (fun w pre s => w 0 = -1 → (∀ x ∈ pre, w x.1.1 = 1) →
    w s.smallerVar = -1 ∧ (w s.meetVar = 1 ∨ (w s.meetVar = -1 ∧ ∀ x ∈ pre, x.2 = true))) _ _ ?_) (fun s => ?_)
  · rintro pre s ⟨⟨v, b0⟩, k⟩ -
    unfold cmpStep
    cases k with
    | true =>
      simp only [if_true]
      refine Sound.bind (sound_gateVar _ _ _ (by intro o t ht; simp [smallerGate, Gate.wires] at ht ⊢; tauto)) (fun sv => ?_)
      refine Sound.bind (sound_gateVar _ _ _ (by intro o t ht; simp [meetGate1, Gate.wires] at ht ⊢; tauto)) (fun mv => ?_)
      refine Sound.pure _ _ ?_
      intro w hm hs hI h0 hx
      obtain ⟨i1, i2⟩ := hI h0 (fun x hx' => hx x (by simp [hx']))
      have hv : w v = 1 := hx ((v, b0), true) (by simp)
      simp only [Gate.Holds, smallerGate, meetGate1] at hm hs
      rw [hv] at hm hs
      have hs' : w sv = w s.smallerVar := by linear_combination -hs
      have hm' : w mv = w s.meetVar := by linear_combination -hm
      refine ⟨hs'.trans i1, ?_⟩
      simp only
      rw [hm']
      refine i2.imp id (fun ⟨i3, i4⟩ => ⟨i3, fun x hx' => ?_⟩)
      rcases List.mem_append.mp hx' with hx' | hx'
      · exact i4 x hx'
      · rw [List.mem_singleton] at hx'; subst hx'; rfl
    | false =>
      simp only [Bool.false_eq_true, if_false]
      refine Sound.bind (sound_gateVar _ _ _ (by intro o t ht; simp [meetGate0, Gate.wires] at ht ⊢; tauto)) (fun mv => ?_)
      refine Sound.pure _ _ ?_
      intro w hm hI h0 hx
      obtain ⟨i1, i2⟩ := hI h0 (fun x hx' => hx x (by simp [hx']))
      have hv : w v = 1 := hx ((v, b0), false) (by simp)
      simp only [Gate.Holds, meetGate0] at hm
      rw [hv] at hm
      exact ⟨i1, Or.inl (by linear_combination -hm)⟩
  · refine (sound_pushGate_after _ (bothGate s.smallerVar s.meetVar) (by
      simp [Gate.wires, bothGate])).cons ?_
    intro w _ hg hI h0 hv
    have hv' : ∀ x ∈ ((bitVars.zip bits).zip modulus).reverse, w x.1.1 = 1 := by
      intro x hx
      rw [List.mem_reverse] at hx
      exact hv _ (List.of_mem_zip (List.of_mem_zip hx).1).1
    obtain ⟨i1, i2⟩ := hI (fun h0 _ => ⟨h0, Or.inr ⟨h0, by simp⟩⟩) h0 hv'
    have i2 : w s.meetVar = 1 := by
      rcases i2 with i2 | ⟨-, i2⟩
      · exact i2
      · exfalso
        have hm : modulus = ((bitVars.zip bits).zip modulus).map Prod.snd := (List.map_snd_zip (by simp; omega)).symm
        rw [hm] at hf
        obtain ⟨x, hx, hx'⟩ := List.mem_map.mp hf
        have := i2 x (List.mem_reverse.mpr hx)
        rw [this] at hx'
        cases hx'
    simp only [Gate.Holds, bothGate] at hg
    rw [i1, i2] at hg
    apply h2
    linear_combination hg

/-! ### Bytes -/

theorem leNat_append (l r : List Bool) : leNat (l ++ r) = leNat l + 2 ^ l.length * leNat r := by
  induction l with
  | nil => simp [leNat]
  | cons b l ih => rw [List.cons_append, leNat, leNat, ih, List.length_cons, pow_succ]; ring

theorem leNat_byteBits (b : UInt8) : leNat (byteBits b) = b.toNat := by
  have h : ∀ n : Fin 256, leNat (byteBits (UInt8.ofNat n.val)) = n.val := by decide +kernel
  have := h ⟨b.toNat, UInt8.toNat_lt b⟩
  simpa using this

theorem leNat_bytes (l : Bytes) : leNat (l.flatMap byteBits) = ofLE l := by
  induction l with
  | nil => rfl
  | cons b l ih =>
    rw [List.flatMap_cons, leNat_append, leNat_byteBits, ih, ofLE]
    simp [byteBits]

theorem bytes_bits_length (l : Bytes) : (l.flatMap byteBits).length = 8 * l.length := by
  induction l with
  | nil => rfl
  | cons b l ih => rw [List.flatMap_cons, List.length_append, ih, List.length_cons]; simp [byteBits]; ring

/-! ### Steps 1 to 4 -/

namespace Spec

/-- the three public key scalars of the coordinates `x`, `y`: the 512-bit number `x + 2^256 * y` in pieces of 248, 248
and 16 bits -/
def pkWords (x y : Nat) : PK F :=
  ((((x + 2 ^ 256 * y) % 2 ^ 248 : Nat) : F), (((x + 2 ^ 256 * y) / 2 ^ 248 % 2 ^ 248 : Nat) : F),
    (((x + 2 ^ 256 * y) / 2 ^ 496 : Nat) : F))

/-- the two secret key scalars: pieces of 248 and 8 bits -/
def skWords (s : Nat) : SK F := (((s % 2 ^ 248 : Nat) : F), ((s / 2 ^ 248 : Nat) : F))

end Spec

theorem split3 (a b A B C : Nat) (hA : A < 2 ^ a) (hB : B < 2 ^ b) :
    (2 ^ (a + b) * C + (2 ^ a * B + A)) % 2 ^ a = A ∧ (2 ^ (a + b) * C + (2 ^ a * B + A)) / 2 ^ a % 2 ^ b = B ∧
      (2 ^ (a + b) * C + (2 ^ a * B + A)) / 2 ^ (a + b) = C := by
  have e : 2 ^ (a + b) * C + (2 ^ a * B + A) = A + 2 ^ a * (B + 2 ^ b * C) := by rw [pow_add]; ring
  have hp : (0 : Nat) < 2 ^ a := by positivity
  have hd : (A + 2 ^ a * (B + 2 ^ b * C)) / 2 ^ a = B + 2 ^ b * C := by
    rw [Nat.add_mul_div_left _ _ hp, Nat.div_eq_of_lt hA, Nat.zero_add]
  rw [e]
  refine ⟨?_, ?_, ?_⟩
  · rw [Nat.add_mul_mod_self_left, Nat.mod_eq_of_lt hA]
  · rw [hd, Nat.add_mul_mod_self_left, Nat.mod_eq_of_lt hB]
  · rw [pow_add, ← Nat.div_div_eq_div_mul, hd, Nat.add_mul_div_left _ _ (by positivity), Nat.div_eq_of_lt hB, Nat.zero_add]

theorem split2 (a A B : Nat) (hA : A < 2 ^ a) : (2 ^ a * B + A) % 2 ^ a = A ∧ (2 ^ a * B + A) / 2 ^ a = B := by
  have hp : (0 : Nat) < 2 ^ a := by positivity
  rw [Nat.add_comm]
  exact ⟨by rw [Nat.add_mul_mod_self_left, Nat.mod_eq_of_lt hA],
    by rw [Nat.add_mul_div_left _ _ hp, Nat.div_eq_of_lt hA, Nat.zero_add]⟩

variable [DecidableEq F] [ScalarRepr F]

/-- the conclusion about the keys: numbers that the variables of `r` hold and whose scalars are the key scalars -/
def KeysOpen (P : SimFr.Params) (order : Nat) (w : Nat → F) (pk : PK F) (sk : SK F) (r : SimVar F × SimVar F × SimVar F)
    (x y s : Nat) : Prop :=
  x < 2 ^ 256 ∧ y < 2 ^ 256 ∧ s < order ∧ r.1.Is P w x ∧ r.2.1.Is P w y ∧ r.2.2.Is P w s ∧
    pk = pkWords x y ∧ sk = skWords s

theorem sound_foldKeys (P : SimFr.Params) (hP : P.Ok) (h256 : P.bits * (P.limbs - 1) + P.top = 256) (h2 : (2 : F) ≠ 0)
    (modulus : Bytes) (hm : modulus.length = 32) (hf : false ∈ modulus.flatMap byteBits) (wit : FoldWitness P F)
    (pk : PK Nat) (sk : SK Nat) :
    Sound (foldKeys P modulus wit pk sk) (fun w r =>
      (r.1.val.adds = .one ∧ r.2.1.val.adds = .one ∧ r.2.2.val.adds = .one) ∧
      (w 0 = 0 → ∃ x y s, KeysOpen P (ofLE modulus) w (pkVal w pk) (skVal w sk) r x y s) ∧
      (w 0 = 0 ∨ (w 0 = 1 ∧ pkVal w pk = (0, 0, 0) ∧ skVal w sk = (0, 0)))) := by
  have hw := fun val : Sim F => C61_alloc_witness_sound P hP val
  rw [h256] at hw
  unfold foldKeys
  refine Sound.bind (C46_range_check_sound pk.1 248) (fun a0 => ?_)
  refine Sound.bind (C46_range_check_sound pk.2.1 248) (fun a1 => ?_)
  refine Sound.bind (C46_range_check_sound pk.2.2 16) (fun a2 => ?_)
  refine Sound.bind (C46_range_check_sound sk.1 248) (fun c0 => ?_)
  refine Sound.bind (C46_range_check_sound sk.2 8) (fun c1 => ?_)
  by_cases hlen : (c0 ++ c1).length = 256
  swap
  · refine Sound.bind (sound_lessThan_true _ _ _) (fun _ => ?_)
    refine Sound.bind (hw _) (fun x => Sound.bind (hw _) (fun y => Sound.bind (hw _) (fun s => ?_)))
    refine Sound.ite (fun _ => Sound.failure _) (fun _ => ?_)
    refine Sound.bind (sound_equalAll _ _) (fun _ => Sound.bind (sound_equalAll _ _) (fun _ => Sound.pure _ _ ?_))
    rintro w _ _ _ _ _ _ ⟨d1, -⟩ ⟨d0, -⟩
    exact absurd (by rw [List.length_append, d0, d1]) hlen
  refine Sound.bind ((C62_comparison_sound (c0 ++ c1) _ (modulus.flatMap byteBits) (by
    rw [hlen, bytes_bits_length, hm])).and (sound_lessThan_neg h2 (c0 ++ c1) _ (modulus.flatMap byteBits) (by
    rw [hlen, bytes_bits_length, hm]) hf)) (fun _ => ?_)
  refine Sound.bind (hw _) (fun x => Sound.bind (hw _) (fun y => Sound.bind (hw _) (fun s => ?_)))
  refine Sound.ite (fun _ => Sound.failure _) (fun _ => ?_)
  refine Sound.bind (sound_equalAll _ _) (fun _ => Sound.bind (sound_equalAll _ _) (fun _ => Sound.pure _ _ ?_))
  rintro w hs hp ⟨s1, S, s2, s3, s4, s5⟩ ⟨y1, Y, y2, y3, y4, y5⟩ ⟨x1, X, x2, x3, x4, x5⟩ ⟨hlt, hneg⟩ ⟨d1, D1, e1, f1, g1⟩
    ⟨d0, D0, e0, f0, g0⟩ ⟨b2, B2, i2, j2, k2⟩ ⟨b1, B1, i1, j1, k1⟩ ⟨b0, B0, i0, j0, k0⟩
  have hbx : IsBits w x.2 256 X := ⟨x4, x3, x5⟩
  have hby : IsBits w y.2 256 Y := ⟨y4, y3, y5⟩
  have hbs : IsBits w s.2 256 S := ⟨s4, s3, s5⟩
  have hxy := hbx.append hby
  have hpk := (IsBits.append ⟨b0, i0, k0⟩ ⟨b1, i1, k1⟩).append ⟨b2, i2, k2⟩
  have hsk := IsBits.append ⟨d0, e0, g0⟩ ⟨d1, e1, g1⟩
  refine ⟨⟨x1, y1, s1⟩, ?_, ?_⟩
  · intro h0
    have ex := hxy.eq hpk (fun e he => by rw [hp e he, h0, add_zero])
    have es := hbs.eq hsk (fun e he => by rw [hs e he, h0, add_zero])
    have hl := hlt h0 _ hsk.forall₂
    rw [leNat_testBit, Nat.mod_eq_of_lt hsk.2.1, leNat_bytes, ← es] at hl
    obtain ⟨t1, t2, t3⟩ := split3 248 248 B0 B1 B2 i0 i1
    obtain ⟨u1, u2⟩ := split2 248 D0 D1 e0
    rw [← ex] at t1 t2 t3
    rw [← es] at u1 u2
    refine ⟨X, Y, S, x3, y3, hl, x2, y2, s2, ?_, ?_⟩
    · unfold pkWords pkVal
      rw [Nat.add_comm X, t1, t2, t3, j0, j1, j2]
    · unfold skWords skVal
      rw [u1, u2, f0, f1]
  · by_cases h0 : w 0 = 0
    · exact Or.inl h0
    · right
      rcases hbs.shift h2 hsk (w 0) h0 hs (by norm_num) with ⟨hd, hz⟩ | ⟨hd, hv⟩
      · refine ⟨hd, ?_, ?_⟩
        · rcases hxy.shift h2 hpk (w 0) h0 hp (by norm_num) with ⟨-, hz'⟩ | ⟨hd', -⟩
          · obtain ⟨t1, t2, t3⟩ := split3 248 248 B0 B1 B2 i0 i1
            rw [hz'] at t1 t2 t3
            unfold pkVal
            rw [j0, j1, j2, ← t1, ← t2, ← t3]
            simp
          · exact absurd (by linear_combination hd' - hd) h2
        · obtain ⟨u1, u2⟩ := split2 248 D0 D1 e0
          rw [hz] at u1 u2
          unfold skVal
          rw [f0, f1, ← u1, ← u2]
          simp
      · exact (hneg hd hv).elim

/-! ### Limbs -/

omit [DecidableEq F] [ScalarRepr F] in
/-- variables that hold the limbs of `N` hold `N` -/
theorem is_of_limbs {P : SimFr.Params} (hP : P.Ok) {w : Nat → F} {a : SimVar F} {N : Nat}
    (hN : N < 2 ^ (P.bits * (P.limbs - 1) + P.top)) (h : a.var.map w = (ofBig P N : Sim F).limbs) : a.Is P w N := by
  obtain ⟨L, h1, h2, h3⟩ := splitLimbs_spec P.bits P.limbs N
  have hpos := hP.pos
  have htop := hP.top
  have hb : N < 2 ^ (P.bits * P.limbs) := by
    refine lt_of_lt_of_le hN (Nat.pow_le_pow_right (by norm_num) ?_)
    obtain ⟨m, hm⟩ : ∃ m, P.limbs = m + 1 := ⟨P.limbs - 1, by omega⟩
    rw [hm, Nat.add_sub_cancel, Nat.mul_succ]
    omega
  unfold ofBig at h
  rw [h1] at h
  refine ⟨L, ⟨by simpa using congrArg List.length h, fun i v hv => ?_⟩, by rw [h3, Nat.mod_eq_of_lt hb], fun i hi => ?_⟩
  · have := congrArg (fun l => l[i]?) h
    simp only [List.getElem?_map, hv, Option.map_some] at this
    by_cases hi : i < P.limbs
    · rw [List.getElem?_range hi] at this
      simpa using this
    · rw [List.getElem?_eq_none (by simpa using hi)] at this
      simp at this
  · have : L i < 2 ^ P.cap i := by
      rw [h2 i hi]
      unfold Params.cap
      split
      · rename_i e
        refine lt_of_le_of_lt (Nat.mod_le _ _) ?_
        rw [Nat.div_lt_iff_lt_mul (by positivity), ← pow_add, e, Nat.add_comm]
        exact hN
      · exact Nat.mod_lt _ (by positivity)
    omega

omit [DecidableEq F] [ScalarRepr F] in
/-- and conversely, when the limbs are in normal form -/
theorem limbs_of_is {P : SimFr.Params} (hP : P.Ok) {w : Nat → F} {a : SimVar F} {N : Nat} (ha : a.val.adds.pads = 0)
    (h : a.Is P w N) : a.var.map w = (ofBig P N : Sim F).limbs := by
  obtain ⟨L, ⟨h1, h2⟩, h3, h4⟩ := h
  have hL : ∀ i < P.limbs, L i < 2 ^ P.bits := by
    intro i hi
    have := h4 i hi
    rw [ha] at this
    simp only [Nat.zero_mul, Nat.add_zero] at this
    exact lt_of_lt_of_le this (Nat.pow_le_pow_right (by norm_num) (hP.cap_le i))
  obtain ⟨M, g1, g2, g3⟩ := splitLimbs_spec P.bits P.limbs N
  have hN : N < 2 ^ (P.bits * P.limbs) := by rw [← h3]; exact value_lt _ _ _ hL
  rw [Nat.mod_eq_of_lt hN] at g3
  have e := value_inj P.bits P.limbs L M hL (fun i hi => by rw [g2 i hi]; exact Nat.mod_lt _ (by positivity))
    (h3.trans g3.symm)
  unfold ofBig
  rw [g1, List.map_map]
  refine List.ext_getElem (by simp [h1]) (fun i hi hi' => ?_)
  rw [List.getElem_map, List.getElem_map, List.getElem_range, Function.comp_apply]
  simp only [List.length_map] at hi
  rw [h2 i _ (List.getElem?_eq_getElem hi), e i (by omega)]

/-- the number whose limbs, of `b` bits each, the assignment gives to the variables, least significant first -/
def bigVal {F : Type} [Field F] [ScalarRepr F] (b : Nat) (w : Nat → F) : List Nat → Nat
  | [] => 0
  | v :: vs => ScalarRepr.val (w v) + 2 ^ b * bigVal b w vs

omit [DecidableEq F] in
theorem bigVal_reads (b : Nat) (w : Nat → F) (l : List Nat) (L : Nat → Nat)
    (h : ∀ i v, l[i]? = some v → w v = (L i : F) ∧ L i < ScalarRepr.order F) : bigVal b w l = value b l.length L := by
  induction l generalizing L with
  | nil => simp [bigVal, value]
  | cons v vs ih =>
    rw [bigVal, List.length_cons, value_succ, ih (fun i => L (i + 1)) (fun i v hv => h (i + 1) v (by simpa using hv))]
    obtain ⟨h1, h2⟩ := h 0 v rfl
    rw [h1, ScalarRepr.val_cast _ h2]

omit [DecidableEq F] in
/-- limbs in normal form determine the number -/
theorem bigVal_is {P : SimFr.Params} (hP : P.Ok) (hF : 2 ^ P.bits ≤ ScalarRepr.order F) {w : Nat → F} {a : SimVar F}
    {N : Nat} (ha : a.val.adds.pads = 0) (h : a.Is P w N) : bigVal P.bits w a.var = N := by
  obtain ⟨L, ⟨h1, h2⟩, h3, h4⟩ := h
  rw [bigVal_reads P.bits w a.var L, h1, h3]
  intro i v hv
  have hi : i < P.limbs := by rw [← h1]; exact (List.getElem?_eq_some_iff.mp hv).1
  refine ⟨h2 i v hv, ?_⟩
  have := h4 i hi
  rw [ha, Nat.zero_mul, Nat.add_zero] at this
  have h5 : 2 ^ P.cap i ≤ 2 ^ P.bits := Nat.pow_le_pow_right (by norm_num) (hP.cap_le i)
  omega

omit [DecidableEq F] in
theorem sound_allocInput (P : SimFr.Params) (val : Sim F) :
    Sound (allocInput P val) (fun _ a => a.val = val ∧ a.var.length = P.limbs) := by
  unfold allocInput
  refine Sound.bind (Sound.mapM _ (fun _ _ _ => True) _ ?_) (fun var => Sound.pure _ _ ?_)
  · intro i _
    exact Sound.bind (Sound.liftM _) (fun x => (sound_newVar _).cons (fun _ _ _ _ => trivial))
  · intro w hf
    exact ⟨rfl, (forall₂_range hf).1⟩

/-! ### Step 5 -/

/-- what is known of the variables of step 5 -/
structure AllocOk (P : SimFr.Params) (w : Nat → F) (e : EqVars F) : Prop where
  len : e.l1.var.length = P.limbs ∧ e.l2.var.length = P.limbs ∧ e.b0.var.length = P.limbs ∧ e.b1.var.length = P.limbs ∧
    e.b2.var.length = P.limbs ∧ e.resp.var.length = P.limbs
  one : e.r0.val.adds = .one ∧ e.r1.val.adds = .one ∧ e.r2.val.adds = .one
  rands : ∃ R0 R1 R2, R0 < 2 ^ (P.bits * (P.limbs - 1) + P.top) ∧ R1 < 2 ^ (P.bits * (P.limbs - 1) + P.top) ∧
    R2 < 2 ^ (P.bits * (P.limbs - 1) + P.top) ∧ e.r0.Is P w R0 ∧ e.r1.Is P w R1 ∧ e.r2.Is P w R2

theorem sound_foldAlloc (P : SimFr.Params) (hP : P.Ok) (wit : FoldWitness P F) :
    Sound (foldAlloc P wit) (fun w e => AllocOk P w e) := by
  unfold foldAlloc
  refine Sound.bind (sound_allocInput _ _) (fun l1 => Sound.bind (sound_allocInput _ _) (fun l2 => ?_))
  refine Sound.bind (sound_allocInput _ _) (fun b0 => Sound.bind (sound_allocInput _ _) (fun b1 => ?_))
  refine Sound.bind (sound_allocInput _ _) (fun b2 => ?_)
  refine Sound.bind (Sound.liftM _) (fun e0 => Sound.bind (C61_alloc_witness_sound P hP _) (fun r0 => ?_))
  refine Sound.bind (Sound.liftM _) (fun e1 => Sound.bind (C61_alloc_witness_sound P hP _) (fun r1 => ?_))
  refine Sound.bind (Sound.liftM _) (fun e2 => Sound.bind (C61_alloc_witness_sound P hP _) (fun r2 => ?_))
  refine Sound.bind (Sound.liftM _) (fun c => Sound.bind (sound_allocInput _ _) (fun resp => Sound.pure _ _ ?_))
  rintro w ⟨-, h1⟩ _ ⟨o2, R2, i2, j2, -⟩ _ ⟨o1, R1, i1, j1, -⟩ _ ⟨o0, R0, i0, j0, -⟩ _ ⟨-, h2⟩ ⟨-, h3⟩ ⟨-, h4⟩ ⟨-, h5⟩ ⟨-, h6⟩
  exact ⟨⟨h6, h5, h4, h3, h2, h1⟩, ⟨o0, o1, o2⟩, R0, R1, R2, j0, j1, j2, i0, i1, i2⟩

theorem sound_foldEquation (dbg : Bool) (P : SimFr.Params) (hP : P.Ok) (hF : 2 ^ (4 * P.bits + 8) ≤ ScalarRepr.order F)
    (x y s : SimVar F) (e : EqVars F) :
    Sound (foldEquation dbg P x y s e) (fun w _ => w 0 = 0 → ∀ X Y S R0 R1 R2 L1 L2 B0 B1 B2 R : Nat,
      x.Is P w X → y.Is P w Y → s.Is P w S → e.r0.Is P w R0 → e.r1.Is P w R1 → e.r2.Is P w R2 →
      e.l1.Is P w L1 → e.l2.Is P w L2 → e.b0.Is P w B0 → e.b1.Is P w B1 → e.b2.Is P w B2 → e.resp.Is P w R →
      (X * B0 + Y * B1 + R1 * L1 + S * B2 + R2 * L2 : ZMod P.r) = (R : ZMod P.r) - (R0 : ZMod P.r)) := by
  unfold foldEquation
  refine Sound.bind (C61_mul_sound P hP _ _) (fun m1 => Sound.bind (C61_mul_sound P hP _ _) (fun m2 => ?_))
  refine Sound.bind (C61_add_sound P _ _) (fun s2 => Sound.bind (C61_mul_sound P hP _ _) (fun m3 => ?_))
  refine Sound.bind (C61_add_sound P _ _) (fun s3 => Sound.bind (C61_mul_sound P hP _ _) (fun m4 => ?_))
  refine Sound.bind (C61_add_sound P _ _) (fun s4 => Sound.bind (C61_mul_sound P hP _ _) (fun m5 => ?_))
  refine Sound.bind (C61_add_sound P _ _) (fun s5 => Sound.bind (C61_sub_sound P hP _ _) (fun rhs => ?_))
  refine Sound.bind (C61_mul_sub_sound P hP _ _) (fun res => ?_)
  refine (C61_enforce_zero_sound dbg P hP hF res).cons ?_
  rintro w _ hz ⟨-, hres⟩ ⟨-, hrhs⟩ ⟨-, h5⟩ ⟨-, g5⟩ ⟨-, h4⟩ ⟨-, g4⟩ ⟨-, h3⟩ ⟨-, g3⟩ ⟨-, h2⟩ ⟨-, g2⟩ ⟨-, g1⟩ h0
  intro X Y S R0 R1 R2 L1 L2 B0 B1 B2 R hX hY hS hR0 hR1 hR2 hL1 hL2 hB0 hB1 hB2 hR
  have k2 := h2 _ _ (g2 h0 _ _ hY hB1) (g1 h0 _ _ hX hB0)
  have k3 := h3 _ _ (g3 h0 _ _ hR1 hL1) k2
  have k4 := h4 _ _ (g4 h0 _ _ hS hB2) k3
  have k5 := h5 _ _ (g5 h0 _ _ hR2 hL2) k4
  obtain ⟨C, c1, c2⟩ := hrhs _ _ hR hR0
  obtain ⟨D, d1, d2⟩ := hres _ _ k5 c1
  have := hz h0 D d1
  rw [← ZMod.natCast_eq_zero_iff, d2, sub_eq_zero, c2] at this
  rw [← this]
  push_cast
  ring

/-! ### Steps 6 and 7 -/

omit [DecidableEq F] in
theorem sound_packWordC (P : SimFr.Params) (vs : List Nat) (hl : vs.length ≤ 5) :
    Sound (packWordC P vs : Build F Nat) (fun w o => w 0 = 0 → w o = packWord P (vs.map w)) := by
  have hget : ∀ (w : Nat → F), w 0 = 0 → ∀ (i : Nat), w (vs[i]?.getD zeroVar) = (vs.map w)[i]?.getD 0 := by
    intro w h0 i
    rw [List.getElem?_map]
    cases vs[i]? with
    | none => simpa [zeroVar] using h0
    | some v => rfl
  unfold packWordC
  refine Sound.bind (sound_linearCombine _ _ _ _ _ _ _ _) (fun sum => ?_)
  have hsum : ∀ (f : Nat → F) (n : Nat), (∀ i, n ≤ i → f i = 0) → n ≤ 5 →
      ∑ i ∈ Finset.range n, f i = f 0 + f 1 + f 2 + f 3 + f 4 := by
    intro f n hf hn
    interval_cases n <;> simp [Finset.sum_range_succ, hf 0, hf 1, hf 2, hf 3, hf 4]
  have hpw : ∀ w : Nat → F, packWord P (vs.map w) = (vs.map w)[0]?.getD 0 + (vs.map w)[1]?.getD 0 * 2 ^ (P.bits * 1) +
      (vs.map w)[2]?.getD 0 * 2 ^ (P.bits * 2) + (vs.map w)[3]?.getD 0 * 2 ^ (P.bits * 3) +
      (vs.map w)[4]?.getD 0 * 2 ^ (P.bits * 4) := by
    intro w
    rw [packWord_eq, hsum _ _ _ (by simpa using hl)]
    · simp
    · intro i hi
      rw [List.getElem?_eq_none hi]
      simp
  refine Sound.ite (fun h5 => ?_) (fun h5 => Sound.pure _ _ ?_)
  · refine (sound_linearCombine _ _ _ _ _ _ _ _).cons ?_
    intro w o h hs h0
    rw [hpw, h, hs, hget w h0, hget w h0, hget w h0, hget w h0, hget w h0]
    ring
  · intro w hs h0
    rw [hpw, hs, hget w h0, hget w h0, hget w h0, hget w h0]
    have : (vs.map w)[4]?.getD 0 = 0 := by rw [List.getElem?_eq_none (by rw [List.length_map]; omega)]; rfl
    rw [this]
    ring

omit [DecidableEq F] [ScalarRepr F] in
theorem sound_chainC (p : Rescue.Params F) (hp : GoodParams p) (n h : Nat) (l : List Nat) (hn : l.length ≤ n) :
    Sound (chainC p h l) (fun w o => chain p (w h) (l.map w) = some (w o)) := by
  induction n generalizing h l with
  | zero =>
    obtain rfl := List.length_eq_zero_iff.mp (Nat.le_zero.mp hn)
    exact Sound.pure _ _ (fun w => rfl)
  | succ n ih =>
    match l, hn with
    | [], _ => exact Sound.pure _ _ (fun w => rfl)
    | [a], _ => exact Sound.failure _
    | [a, b], _ => exact Sound.failure _
    | a :: b :: c :: rest, hn =>
      rw [chainC]
      refine Sound.bind (sound_rescueCircuit p hp _) (fun o => ?_)
      refine (ih o.1 rest (by simp only [List.length_cons] at hn; omega)).cons ?_
      intro w o' hc hr
      simp only [List.map_cons, chain]
      have hr' : (Rescue.rescue p (w h, w a, w b, w c)).1 = w o.1 := (congrArg Prod.fst hr).symm
      rw [hr', hc]

theorem resize_map {α β : Type} (z : α) (f : α → β) (l : List α) : (resize z l).map f = resize (f z) (l.map f) := by
  unfold resize
  simp

omit [DecidableEq F] [ScalarRepr F] in
theorem sound_spongeC (p : Rescue.Params F) (hp : GoodParams p) (words : List Nat) (r : Nat) :
    Sound (spongeC p words r) (fun w o => w 0 = 0 → sponge p (words.map w) (w r) = some (w o)) := by
  have hr : ∀ w : Nat → F, w 0 = 0 → resize 0 (words.map w ++ [w r]) = (resize zeroVar (words ++ [r])).map w := by
    intro w h0
    rw [resize_map, List.map_append]
    unfold zeroVar
    rw [h0]
    rfl
  unfold spongeC
  generalize resize zeroVar (words ++ [r]) = m at *
  match m with
  | [] => exact Sound.failure _
  | [a] => exact Sound.failure _
  | [a, b] => exact Sound.failure _
  | [a, b, c] => exact Sound.failure _
  | a :: b :: c :: d :: rest =>
    refine Sound.bind (sound_rescueCircuit p hp _) (fun o => ?_)
    refine (sound_chainC p hp _ o.1 rest (le_refl _)).cons ?_
    intro w o' hc hs h0
    unfold sponge
    rw [hr w h0]
    simp only [List.map_cons]
    have hr' : (Rescue.rescue p (w a, w b, w c, w d)).1 = w o.1 := (congrArg Prod.fst hs).symm
    rw [hr', hc]

omit [DecidableEq F] in
theorem sound_stateCommC (p : Rescue.Params F) (hp : GoodParams p) (P : SimFr.Params) (h5 : perWord P ≤ 5) (r comm : F)
    (vars : List Nat) : Sound (stateCommC p P r comm vars) (fun w c => w 0 = 0 →
      sponge p (packLimbs P (vars.map w)) (w c.2) = some (w c.1)) := by
  unfold stateCommC
  refine Sound.bind (Sound.mapM _ (fun w vs o => w 0 = 0 → w o = packWord P (vs.map w)) _ ?_) (fun words => ?_)
  · intro vs hvs
    exact sound_packWordC P vs (le_trans (chunks_length _ _ _ hvs) h5)
  refine Sound.bind (sound_newVar _) (fun rv => Sound.bind (sound_newVar _) (fun cv => ?_))
  refine Sound.bind (sound_spongeC p hp words rv) (fun h => Sound.bind (sound_equalV cv h) (fun _ => Sound.pure _ _ ?_))
  intro w he hs _ _ hw h0
  simp only
  rw [he h0, ← hs h0]
  congr 1
  unfold packLimbs
  rw [chunks_map, List.map_map]
  clear hs
  generalize chunks (perWord P) vars = cks at hw ⊢
  induction hw with
  | nil => rfl
  | cons h _ ih => rw [List.map_cons, List.map_cons, ih, h h0]; rfl

omit [DecidableEq F] [ScalarRepr F] in
theorem soundP_publicLimbs (P : SimFr.Params) (a : SimVar F) :
    SoundP (publicLimbs P a) (fun _ _ pv => a.var.length = P.limbs → pv = a.var) := by
  unfold publicLimbs
  refine (SoundP.foldlM _ (fun _ pre _ pv => List.Forall₂ (fun i v => a.var[i]? = some v) pre pv) _ () ?_).cons ?_
  · intro pre _ i _
    cases hi : a.var[i]? with
    | none => exact SoundP.cons (Sound.failure (fun _ _ => False)) (fun _ _ _ h => h.2.elim)
    | some v =>
      refine (soundP_preparePi v).cons ?_
      rintro w _ pv hpv pv0 h
      rw [hpv]
      exact List.rel_append h (.cons hi .nil)
  · intro w _ pv h hl
    obtain ⟨h1, h2⟩ := forall₂_range (h .nil)
    refine List.ext_getElem (by omega) (fun i hi hi' => ?_)
    have := h2 i _ (List.getElem?_eq_getElem hi)
    rw [List.getElem?_eq_getElem hi'] at this
    exact (Option.some.inj this).symm

/-! ### The circuit -/

namespace Spec

/-- an opening of the state commitment: the coordinates and the secret key, the randomizer scalars, the randomness -/
structure Opening (F : Type) where
  x : Nat
  y : Nat
  s : Nat
  r0 : Nat
  r1 : Nat
  r2 : Nat
  r : F
deriving DecidableEq

/-- what the public inputs of the folding circuit claim of the key scalars `pk`, `sk` and the opening `o`: the key scalars
are those of two coordinates below `2^256` and of a secret key below the group order, `comm` commits to the three numbers
together with three randomizers, and the combined response answers the challenge `beta` for the three numbers and
randomizers, weighted with the powers of `lambda`. -/
def Folds (p : Rescue.Params F) (P : SimFr.Params) (order : Nat) (comm : F) (beta lambda : ZMod P.r)
    (resps : List (ZMod P.r)) (pk : PK F) (sk : SK F) (o : Opening F) : Prop :=
  ∃ z0 z1 z2 : ZMod P.r, (o.x < 2 ^ 256 ∧ o.y < 2 ^ 256 ∧ o.s < order) ∧
    (o.r0 < 2 ^ 256 ∧ o.r1 < 2 ^ 256 ∧ o.r2 < 2 ^ 256) ∧
    pk = pkWords o.x o.y ∧ sk = skWords o.s ∧
    stateComm p P [o.x, o.y, o.s] [o.r0, o.r1, o.r2] o.r = some comm ∧
    (resps[0]? = some z0 ∧ resps[1]? = some z1 ∧ resps[2]? = some z2) ∧
    z0 + lambda * z1 + lambda ^ 2 * z2 =
      (beta * o.x + o.r0) + lambda * (beta * o.y + o.r1) + lambda ^ 2 * (beta * o.s + o.r2)

end Spec

/-- the opening the assignment gives to the variables -/
def foldVal (P : SimFr.Params) (w : Nat → F) (v : FoldVars) : Opening F :=
  ⟨bigVal P.bits w v.x, bigVal P.bits w v.y, bigVal P.bits w v.s, bigVal P.bits w v.r0, bigVal P.bits w v.r1,
    bigVal P.bits w v.r2, w v.r⟩

/-- the assumptions on the parameters that the instance of the code meets (`secq_fold`) -/
structure FoldOk (P : SimFr.Params) (F : Type) [Field F] [ScalarRepr F] : Prop where
  ok : P.Ok
  total : P.bits * (P.limbs - 1) + P.top = 256
  le : P.r ≤ 2 ^ 256
  pos : P.r ≠ 0
  field : 2 ^ (4 * P.bits + 8) ≤ ScalarRepr.order F
  words : perWord P ≤ 5
  two : (2 : F) ≠ 0
  big : 2 ^ 254 ≤ ScalarRepr.order F

theorem simOf_is {P : SimFr.Params} (h : FoldOk P F) {w : Nat → F} {a : SimVar F} (k : ZMod P.r)
    (e : a.var.map w = (simOf P k : Sim F).limbs) : a.Is P w k.val := by
  haveI : NeZero P.r := ⟨h.pos⟩
  refine is_of_limbs h.ok ?_ e
  rw [h.total]
  exact lt_of_lt_of_le (ZMod.val_lt k) h.le

theorem soundP_foldingCircuit (p : Rescue.Params F) (hp : GoodParams p) (dbg : Bool) (P : SimFr.Params) (h : FoldOk P F)
    (modulus : Bytes) (hm : modulus.length = 32) (hf : false ∈ modulus.flatMap byteBits) (wit : FoldWitness P F)
    (pk : PK Nat) (sk : SK Nat) :
    SoundP (foldingCircuit p dbg P modulus wit pk sk) (fun w vars pv =>
      (w 0 = 0 → ∀ comm beta lambda resps, verifierInput P comm beta lambda resps = some (pv.map w) →
        Spec.Folds p P (ofLE modulus) comm beta lambda resps (pkVal w pk) (skVal w sk) (foldVal P w vars)) ∧
      (w 0 = 0 ∨ (w 0 = 1 ∧ pkVal w pk = (0, 0, 0) ∧ skVal w sk = (0, 0)))) := by
  haveI : NeZero P.r := ⟨h.pos⟩
  unfold foldingCircuit
  refine SoundP.bindS (sound_foldKeys P h.ok h.total h.two modulus hm hf wit pk sk) (fun k => ?_)
  refine SoundP.bindS (sound_foldAlloc P h.ok wit) (fun e => ?_)
  refine SoundP.bindS (sound_foldEquation dbg P h.ok h.field _ _ _ e) (fun _ => ?_)
  refine SoundP.bindS (sound_stateCommC p hp P h.words _ _ _) (fun cv => ?_)
  refine SoundP.bind (soundP_preparePi cv.1) (fun _ => SoundP.bind (soundP_publicLimbs P e.l1) (fun _ => ?_))
  refine SoundP.bind (soundP_publicLimbs P e.l2) (fun _ => SoundP.bind (soundP_publicLimbs P e.b0) (fun _ => ?_))
  refine SoundP.bind (soundP_publicLimbs P e.b1) (fun _ => SoundP.bind (soundP_publicLimbs P e.b2) (fun _ => ?_))
  refine SoundP.bind (soundP_publicLimbs P e.resp) (fun _ => SoundP.pure _ _ ?_)
  intro w pv6 h6 pv5 h5 pv4 h4 pv3 h3 pv2 h2 pv1 h1 pv0 h0 hc he ha hk
  obtain ⟨⟨n1, n2, n3, n4, n5, n6⟩, ⟨o0, o1, o2⟩, R0, R1, R2, l0, l1, l2, i0, i1, i2⟩ := ha
  obtain ⟨⟨kx, ky, ks⟩, hopen, hzero⟩ := hk
  refine ⟨fun hw0 comm beta lambda resps hv => ?_, hzero⟩
  obtain ⟨x, y, s, hx, hy, hs, jx, jy, js, epk, esk⟩ := hopen hw0
  obtain rfl := h0
  obtain rfl := h1 n1
  obtain rfl := h2 n2
  obtain rfl := h3 n3
  obtain rfl := h4 n4
  obtain rfl := h5 n5
  obtain rfl := h6 n6
  unfold verifierInput combinedResponse at hv
  obtain ⟨z, hz, hv⟩ := Option.bind_eq_some_iff.mp hv
  obtain ⟨z0, hz0, hz⟩ := Option.bind_eq_some_iff.mp hz
  obtain ⟨z1, hz1, hz⟩ := Option.bind_eq_some_iff.mp hz
  obtain ⟨z2, hz2, hz⟩ := Option.bind_eq_some_iff.mp hz
  obtain rfl := Option.some.inj hz
  have hv := Option.some.inj hv
  have hlen : ∀ k : ZMod P.r, (simOf P k : Sim F).limbs.length = P.limbs := fun k => ofBig_limbs_length P _
  simp only [List.map_append, List.append_assoc, List.map_nil, List.append_nil] at hv
  obtain ⟨v0, hv⟩ := List.append_inj hv (by simp)
  obtain ⟨v1, hv⟩ := List.append_inj hv (by rw [hlen, List.length_map, n1])
  obtain ⟨v2, hv⟩ := List.append_inj hv (by rw [hlen, List.length_map, n2])
  obtain ⟨v3, hv⟩ := List.append_inj hv (by rw [hlen, List.length_map, n3])
  obtain ⟨v4, hv⟩ := List.append_inj hv (by rw [hlen, List.length_map, n4])
  obtain ⟨v5, v6⟩ := List.append_inj hv (by rw [hlen, List.length_map, n5])
  have hr := hc hw0
  have hcomm : w cv.1 = comm := by simpa using v0.symm
  have heq := he hw0 x y s R0 R1 R2 _ _ _ _ _ _ jx jy js i0 i1 i2 (simOf_is h _ v1.symm) (simOf_is h _ v2.symm)
    (simOf_is h _ v3.symm) (simOf_is h _ v4.symm) (simOf_is h _ v5.symm) (simOf_is h _ v6.symm)
  simp only [ZMod.natCast_val, ZMod.cast_id', id] at heq
  rw [h.total] at l0 l1 l2
  have hb : 2 ^ P.bits ≤ ScalarRepr.order F := le_trans (Nat.pow_le_pow_right (by norm_num) (by omega)) h.field
  have ho : foldVal P w ⟨k.1.var, k.2.1.var, k.2.2.var, e.r0.var, e.r1.var, e.r2.var, cv.2⟩ =
      ⟨x, y, s, R0, R1, R2, w cv.2⟩ := by
    unfold foldVal
    simp only [bigVal_is h.ok hb (by rw [kx]; rfl) jx, bigVal_is h.ok hb (by rw [ky]; rfl) jy,
      bigVal_is h.ok hb (by rw [ks]; rfl) js, bigVal_is h.ok hb (by rw [o0]; rfl) i0,
      bigVal_is h.ok hb (by rw [o1]; rfl) i1, bigVal_is h.ok hb (by rw [o2]; rfl) i2]
  rw [ho]
  refine ⟨z0, z1, z2, ⟨hx, hy, hs⟩, ⟨l0, l1, l2⟩, epk, esk, ?_, ⟨hz0, hz1, hz2⟩, ?_⟩
  · rw [← hcomm, ← hr]
    unfold stateComm stateLimbs
    simp only [List.map_append, limbs_of_is h.ok (by rw [kx]; rfl) jx, limbs_of_is h.ok (by rw [ky]; rfl) jy,
      limbs_of_is h.ok (by rw [ks]; rfl) js, limbs_of_is h.ok (by rw [o0]; rfl) i0, limbs_of_is h.ok (by rw [o1]; rfl) i1,
      limbs_of_is h.ok (by rw [o2]; rfl) i2, List.flatMap_cons, List.flatMap_nil,
      List.append_nil, List.append_assoc]
  · linear_combination -heq

end Verif.Anon
