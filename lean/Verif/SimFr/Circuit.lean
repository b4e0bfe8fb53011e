import Verif.SimFr.Native

/-!
C61 for the circuit: every assignment that satisfies the gates of the simulated field gadgets satisfies the
corresponding relation in the simulated field.
-/

namespace Verif.SimFr

open Verif.Plonk Verif.Plonk.Spec Finset Spec

variable {F : Type} [Field F]

/-- in the assignment `w`, the variables are the images of the integers `L 0, …, L (n - 1)` -/
def Reads (w : Nat → F) (vars : List Nat) (n : Nat) (L : Nat → Nat) : Prop :=
  vars.length = n ∧ ∀ i v, vars[i]? = some v → w v = (L i : F)

/-- In the assignment `w` the variables of `a` are limbs of the integer `N`, bounded as the recorded number of
additions says.  Nothing is assumed about the stored values `a.val.limbs` and `a.val.val`. -/
def SimVar.Is (P : Params) (w : Nat → F) (a : SimVar F) (N : Nat) : Prop :=
  ∃ L, Reads w a.var P.limbs L ∧ value P.bits P.limbs L = N ∧
    ∀ i < P.limbs, L i < 2 ^ P.cap i + a.val.adds.pads * P.padAt i

/-- the same for intermediate products -/
def SimMulVar.Is (P : Params) (w : Nat → F) (a : SimMulVar F) (N : Nat) : Prop :=
  ∃ L, Reads w a.var P.limbsMul L ∧ value P.bits P.limbsMul L = N ∧
    ∀ i < P.limbsMul, L i ≤ a.val.prod * (P.limbs * 2 ^ (2 * P.bits))

/-! ### Helpers -/

theorem rawGate_holds (a b c d o : Nat) (q1 q2 q3 q4 qm2 qc qo : F) (w : Nat → F) :
    Gate.Holds (rawGate a b c d o q1 q2 q3 q4 qm2 qc qo) w 0 ↔
      q1 * w a + q2 * w b + q3 * w c + q4 * w d + qm2 * (w c * w d) + qc = qo * w o := by
  simp [Gate.Holds, rawGate]

theorem sound_newGate (vs : List Nat) (x : F) (g : Nat → Gate F)
    (hsub : ∀ o, ∀ v ∈ (g o).wires, v ∈ vs ∨ v = o ∨ v = 0) :
    Sound (newGate vs x g) (fun w o => Gate.Holds (g o) w 0) :=
  sound_newVar_gate vs (fun _ => x) g hsub

theorem forall₂_range {α : Type} {R : Nat → α → Prop} {n : Nat} {l : List α} (h : List.Forall₂ R (List.range n) l) :
    l.length = n ∧ ∀ i v, l[i]? = some v → R i v := by
  have hl := h.length_eq
  rw [List.length_range] at hl
  refine ⟨hl.symm, fun i v hv => ?_⟩
  obtain ⟨hi, rfl⟩ := List.getElem?_eq_some_iff.mp hv
  have := List.forall₂_iff_get.mp h
  have := this.2 i (by simpa [hl] using hi) hi
  simpa using this

theorem choose_range {α : Type} {l : List α} {Q : Nat → α → Nat → Prop}
    (h : ∀ i p, l[i]? = some p → ∃ N, Q i p N) : ∃ L : Nat → Nat, ∀ i p, l[i]? = some p → Q i p (L i) := by
  have : ∀ i, ∃ N, ∀ p, l[i]? = some p → Q i p N := by
    intro i
    cases hp : l[i]? with
    | none => exact ⟨0, fun p h => absurd h (by simp)⟩
    | some p =>
      obtain ⟨N, hN⟩ := h i p hp
      exact ⟨N, fun q hq => by rw [← Option.some.inj hq]; exact hN⟩
  choose L hL using this
  exact ⟨L, hL⟩

theorem sub_some {P : Params} {a b c : Sim F} (h : a.sub P b = some c) :
    (b.adds = .strict ∨ b.adds = .one) ∧ c.adds = .others (a.adds.num + 3) := by
  unfold Sim.sub at h
  by_cases h1 : b.adds = .strict ∨ b.adds = .one
  · refine ⟨h1, ?_⟩
    simp only [guard, if_pos h1, Option.pure_def, Option.bind_eq_bind, Option.bind_some] at h
    obtain ⟨l, _, h⟩ := Option.bind_eq_some_iff.mp h
    split at h
    · simp only [Option.bind_some, Option.some.injEq] at h
      rw [← h]
    · simp [failure] at h
  · simp [guard, h1, failure] at h

theorem mul_some {P : Params} {a b : Sim F} {c : SimMul F} (h : a.mul P b = some c) :
    c.prod = (a.adds.num + 1) * (b.adds.num + 1) := by
  unfold Sim.mul at h
  obtain ⟨l, _, h⟩ := Option.bind_eq_some_iff.mp h
  simp only [Option.pure_def, Option.some.injEq] at h
  rw [← h]

theorem add_some {P : Params} {a b c : SimMul F} (h : a.add P b = some c) : c.prod = a.prod + b.prod := by
  unfold SimMul.add at h
  obtain ⟨l, _, h⟩ := Option.bind_eq_some_iff.mp h
  simp only [Option.pure_def, Option.some.injEq] at h
  rw [← h]

theorem mulsub_some {P : Params} {a c : SimMul F} {b : Sim F} (h : a.sub P b = some c) :
    b.adds.num ≤ 4 ∧ c.prod = a.prod + 12 := by
  unfold SimMul.sub at h
  by_cases h1 : b.adds.num ≤ 4
  · refine ⟨h1, ?_⟩
    simp only [guard, if_pos h1, Option.pure_def, Option.bind_eq_bind, Option.bind_some] at h
    obtain ⟨l, _, h⟩ := Option.bind_eq_some_iff.mp h
    split at h
    · simp only [Option.bind_some, Option.some.injEq] at h
      rw [← h]
    · simp [failure] at h
  · simp [guard, h1, failure] at h

/-! ### Allocation -/

/-- C61: a constant is what it says. -/
theorem C61_alloc_constant_sound (P : Params) (val : Sim F) (hv : val.Ok P) :
    Sound (allocConstant P val) (fun w a => a.Is P w val.val ∧ a.val = val) := by
  obtain ⟨L, h1, h2, h3, _⟩ := hv
  unfold allocConstant
  refine Sound.bind (Sound.mapM _ (fun w i v => w v = (L i : F)) _ ?_) (fun var => Sound.pure _ _ ?_)
  · intro i hi
    rw [List.mem_range] at hi
    refine Sound.bind (Sound.liftM _) (fun x => Sound.bind (sound_newVar _) (fun v => ?_))
    refine Sound.bind (sound_insertConstantGate v x) (fun _ => Sound.pure _ _ ?_)
    intro w hc _ hx
    rw [Sim.Ok.get h1 hi] at hx
    rw [hc, Option.some.inj hx]
  · intro w hf
    obtain ⟨hl, hf⟩ := forall₂_range hf
    exact ⟨⟨L, ⟨hl, hf⟩, h2, h3⟩, rfl⟩

/-- the sum of the values of the bits of limbs -/
theorem testBit_value (b n : Nat) (L : Nat → Nat) (h : ∀ i < n, L i < 2 ^ b) (i j : Nat) (hi : i < n) (hj : j < b) :
    (value b n L).testBit (b * i + j) = (L i).testBit j := by
  induction n generalizing i L with
  | zero => omega
  | succ n ih =>
    rw [value_succ]
    have h0 := h 0 (by omega)
    rw [Nat.add_comm]
    by_cases hz : i = 0
    · subst hz
      simp only [Nat.mul_zero, Nat.zero_add]
      rw [Nat.testBit_two_pow_mul_add _ h0, if_pos hj]
    · obtain ⟨k, rfl⟩ := Nat.exists_eq_succ_of_ne_zero hz
      rw [Nat.testBit_two_pow_mul_add _ h0, if_neg (by rw [Nat.mul_succ]; omega)]
      rw [show b * k.succ + j - b = b * k + j by rw [Nat.mul_succ]; omega]
      exact ih (fun i => L (i + 1)) (fun i hi => h (i + 1) (by omega)) k (by omega)

theorem value_lt_top {P : Params} (hP : P.Ok) (L : Nat → Nat) (h : ∀ i < P.limbs, L i < 2 ^ P.cap i) :
    value P.bits P.limbs L < 2 ^ (P.bits * (P.limbs - 1) + P.top) := by
  obtain ⟨m, hm⟩ : ∃ m, P.limbs = m + 1 := ⟨P.limbs - 1, by have := hP.pos; omega⟩
  have h1 : value P.bits m L < 2 ^ (P.bits * m) := by
    refine value_lt _ _ _ (fun i hi => ?_)
    have := h i (by omega)
    unfold Params.cap at this
    rwa [if_neg (by omega)] at this
  have h2 : L m < 2 ^ P.top := by
    have := h m (by omega)
    unfold Params.cap at this
    rwa [if_pos (by omega)] at this
  have e : value P.bits P.limbs L = value P.bits m L + L m * 2 ^ (P.bits * m) := by
    rw [hm]; unfold value; rw [sum_range_succ]
  rw [e, hm, Nat.add_sub_cancel, pow_add]
  have h3 : (L m + 1) * 2 ^ (P.bits * m) ≤ 2 ^ P.top * 2 ^ (P.bits * m) := Nat.mul_le_mul_right _ h2
  rw [Nat.add_mul, Nat.mul_comm (2 ^ P.top)] at h3
  omega

/-- positions in the concatenated list of bits of limbs -/
theorem flatMap_bits {α : Type} (b : Nat) (l : List (α × List Nat)) (i : Nat) (p : α × List Nat)
    (hp : l[i]? = some p) (hl : ∀ j q, j < i → l[j]? = some q → q.2.length = b) (k : Nat) (hk : k < p.2.length) :
    (l.flatMap Prod.snd)[b * i + k]? = p.2[k]? := by
  induction l generalizing i with
  | nil => simp at hp
  | cons a l ih =>
    rw [List.flatMap_cons]
    cases i with
    | zero =>
      simp only [List.getElem?_cons_zero, Option.some.injEq] at hp
      subst hp
      rw [Nat.mul_zero, Nat.zero_add, List.getElem?_append_left hk]
    | succ i =>
      have ha := hl 0 a (by omega) (by simp)
      rw [List.getElem?_append_right (by rw [ha, Nat.mul_succ]; omega), ha]
      rw [show b * (i + 1) + k - b = b * i + k by rw [Nat.mul_succ]; omega]
      refine ih i (by simpa using hp) (fun j q hj hq => hl (j + 1) q (by omega) (by simpa using hq))

/-- the variables of the bits, by position -/
theorem bits_index {α : Type} (P : Params) (hP : P.Ok) (l : List (α × List Nat)) (hl : l.length = P.limbs)
    (hf : ∀ i p, l[i]? = some p → p.2.length = P.cap i) (t : Nat) (ht : t < P.bits * (P.limbs - 1) + P.top) :
    ∃ i j p, i < P.limbs ∧ j < P.cap i ∧ t = P.bits * i + j ∧ l[i]? = some p ∧ (l.flatMap Prod.snd)[t]? = p.2[j]? := by
  obtain ⟨m, hm⟩ : ∃ m, P.limbs = m + 1 := ⟨P.limbs - 1, by have := hP.pos; omega⟩
  have hlen : ∀ j q, j < m → l[j]? = some q → q.2.length = P.bits := by
    intro j q hj hq
    rw [hf j q hq]
    unfold Params.cap
    rw [if_neg (by omega)]
  rw [hm, Nat.add_sub_cancel] at ht
  have hb0 : 0 < P.bits := by have := hP.top; omega
  have htop := hP.top
  obtain ⟨i, j, hi, hj, e⟩ : ∃ i j, i ≤ m ∧ j < P.cap i ∧ t = P.bits * i + j := by
    have hd := Nat.div_add_mod t P.bits
    have hmod := Nat.mod_lt t hb0
    by_cases h : t / P.bits < m
    · refine ⟨t / P.bits, t % P.bits, h.le, ?_, hd.symm⟩
      unfold Params.cap
      rwa [if_neg (by omega)]
    · have h2 : P.bits * m ≤ t := by
        have : P.bits * m ≤ P.bits * (t / P.bits) := Nat.mul_le_mul_left _ (by omega)
        omega
      refine ⟨m, t - P.bits * m, le_refl _, ?_, by omega⟩
      unfold Params.cap
      rw [if_pos (by omega)]
      omega
  have hil : i < l.length := by omega
  have hp := List.getElem?_eq_getElem hil
  refine ⟨i, j, _, by omega, hj, e, hp, ?_⟩
  rw [e]
  exact flatMap_bits P.bits l i _ hp (fun j q hj hq => hlen j q (by omega) hq) j (by rw [hf i _ hp]; exact hj)

variable [ScalarRepr F]

/-- C61: an allocated witness is a number with at most `BIT_PER_LIMB * (NUM_OF_LIMBS - 1) + BIT_IN_TOP_LIMB` bits, and
the returned variables are its bits. -/
theorem C61_alloc_witness_sound (P : Params) (hP : P.Ok) (val : Sim F) :
    Sound (allocWitness P val) (fun w r => r.1.val.adds = .one ∧ ∃ N, r.1.Is P w N ∧
      N < 2 ^ (P.bits * (P.limbs - 1) + P.top) ∧ r.2.length = P.bits * (P.limbs - 1) + P.top ∧
      ∀ i v, r.2[i]? = some v → w v = bit N i) := by
  unfold allocWitness
  refine Sound.ite (fun _ => ?_) (fun _ => Sound.failure _)
  refine Sound.bind (Sound.mapM _ (fun w i (p : Nat × List Nat) => p.2.length = P.cap i ∧ ∃ N : Nat, N < 2 ^ P.cap i ∧
    w p.1 = (N : F) ∧ ∀ j v, p.2[j]? = some v → w v = bit N j) _ ?_) (fun l => Sound.pure _ _ ?_)
  · intro i _
    refine Sound.bind (Sound.liftM _) (fun x => Sound.bind (sound_newVar _) (fun v => ?_))
    refine Sound.bind (C46_range_check_sound v _) (fun b => Sound.pure _ _ ?_)
    rintro w ⟨h1, N, h2, h3, h4⟩ _ _
    exact ⟨h1, N, h2, h3, h4⟩
  · intro w hf
    obtain ⟨hl, hf⟩ := forall₂_range hf
    refine ⟨rfl, ?_⟩
    obtain ⟨m, hm⟩ : ∃ m, P.limbs = m + 1 := ⟨P.limbs - 1, by have := hP.pos; omega⟩
    obtain ⟨L, hL⟩ := choose_range (fun i p hp => (hf i p hp).2)
    have hL1 : Reads w (l.map Prod.fst) P.limbs L := by
      refine ⟨by simpa using hl, fun i v hv => ?_⟩
      rw [List.getElem?_map, Option.map_eq_some_iff] at hv
      obtain ⟨p, hp, rfl⟩ := hv
      exact (hL i p hp).2.1
    have hL2 : ∀ i < P.limbs, L i < 2 ^ P.cap i := fun i hi =>
      (hL i _ (List.getElem?_eq_getElem (by omega))).1
    have hLb : ∀ i < P.limbs, L i < 2 ^ P.bits := fun i hi =>
      lt_of_lt_of_le (hL2 i hi) (Nat.pow_le_pow_right (by norm_num) (hP.cap_le i))
    have hlen : ∀ j q, j < m → l[j]? = some q → q.2.length = P.bits := by
      intro j q hj hq
      rw [(hf j q hq).1]
      unfold Params.cap
      rw [if_neg (by omega)]
    have htot : (l.flatMap Prod.snd).length = P.bits * m + P.top := by
      have hsplit : l = l.take m ++ [l[m]'(by omega)] := by
        rw [← List.take_succ_eq_append_getElem, List.take_of_length_le (by omega)]
      have h1 : ((l.take m).flatMap Prod.snd).length = P.bits * m := by
        rw [List.length_flatMap]
        have : (l.take m).map (fun p => p.2.length) = List.replicate m P.bits := by
          refine List.ext_getElem (by simp; omega) (fun i h1 h2 => ?_)
          rw [List.getElem_map, List.getElem_take, List.getElem_replicate]
          simp only [List.length_map, List.length_take] at h1
          exact hlen i _ (by omega) (List.getElem?_eq_getElem (by omega))
        rw [this]
        simp [Nat.mul_comm]
      rw [hsplit, List.flatMap_append, List.length_append, h1]
      have := (hf m _ (List.getElem?_eq_getElem (show m < l.length by omega))).1
      unfold Params.cap at this
      rw [if_pos (by omega)] at this
      simp [this]
    refine ⟨value P.bits P.limbs L, ⟨L, hL1, rfl, ?_⟩, value_lt_top hP L hL2, ?_, ?_⟩
    · intro i hi
      show L i < 2 ^ P.cap i + Red.pads .one * P.padAt i
      simpa [Red.pads] using hL2 i hi
    · rw [htot, hm, Nat.add_sub_cancel]
    · intro t v ht
      have hlt := (List.getElem?_eq_some_iff.mp ht).1
      simp only at hlt
      rw [htot] at hlt
      obtain ⟨i, j, p, hi, hj, e, hp, e2⟩ := bits_index P hP l hl (fun i p hp => (hf i p hp).1) t
        (by rw [hm, Nat.add_sub_cancel]; exact hlt)
      simp only at ht
      rw [e2] at ht
      rw [(hL i _ hp).2.2 j v ht, e]
      unfold bit
      rw [testBit_value _ _ _ hLb i j (by omega) (lt_of_lt_of_le hj (hP.cap_le i))]

/-! ### Arithmetic -/

theorem Reads.get {w : Nat → F} {vars : List Nat} {n : Nat} {L : Nat → Nat} (h : Reads w vars n L) {i v : Nat}
    (hv : vars[i]? = some v) : i < n ∧ w v = (L i : F) := by
  refine ⟨?_, h.2 i v hv⟩
  have := (List.getElem?_eq_some_iff.mp hv).1
  rwa [h.1] at this

/-- limbs of a difference -/
theorem value_sub (P : Params) (hP : P.Ok) (A B : Nat → Nat) (hB : ∀ i < P.limbs, B i < 2 ^ P.cap i) :
    value P.bits P.limbs (fun i => A i + P.padAt i - B i) + value P.bits P.limbs B
      = value P.bits P.limbs A + P.pad := by
  rw [← hP.padVal, ← value_add, ← value_add]
  refine value_congr _ _ _ _ (fun i hi => ?_)
  have h1 := hB i hi
  have h2 := hP.padLo i hi
  omega

theorem zmod_sub {r x a b pad : Nat} (h : x + b = a + pad) (hd : r ∣ pad) : (x : ZMod r) = (a : ZMod r) - (b : ZMod r) := by
  have := congrArg (Nat.cast : Nat → ZMod r) h
  push_cast at this
  rw [(ZMod.natCast_eq_zero_iff _ _).mpr hd, add_zero] at this
  rw [← this]; ring

/-- C61: the circuit for subtraction forces the result to be the difference in the simulated field. -/
theorem C61_sub_sound (P : Params) (hP : P.Ok) (a b : SimVar F) :
    Sound (a.sub P b) (fun w c => c.val.adds = .others (a.val.adds.num + 3) ∧ ∀ A B, a.Is P w A → b.Is P w B →
      ∃ C, c.Is P w C ∧ (C : ZMod P.r) = (A : ZMod P.r) - (B : ZMod P.r)) := by
  unfold SimVar.sub
  refine Sound.bind (Sound.liftM _) (fun val => ?_)
  refine Sound.bind (Sound.mapM _ (fun w i o => ∃ u v, a.var[i]? = some u ∧ b.var[i]? = some v ∧
    w o = w u + (P.padAt i : F) - w v) _ ?_) (fun var => Sound.pure _ _ ?_)
  · intro i hi
    rw [List.mem_range] at hi
    refine Sound.bind (Sound.liftM _) (fun x => Sound.bind (Sound.liftM _) (fun p => ?_))
    refine Sound.bind (Sound.liftM _) (fun u => Sound.bind (Sound.liftM _) (fun v => ?_))
    refine Sound.cons (sound_newGate _ _ _ ?_) (fun w o h h1 h2 h3 _ => ⟨u, v, h2, h1, ?_⟩)
    · intro o t ht
      simp [rawGate, Gate.wires] at ht ⊢
      tauto
    · rw [rawGate_holds] at h
      rw [hP.padAt_get hi] at h3
      rw [Option.some.inj h3]
      linear_combination -h
  · intro w hf hs
    obtain ⟨hl, hf⟩ := forall₂_range hf
    obtain ⟨s1, s2⟩ := sub_some hs
    refine ⟨s2, ?_⟩
    rintro A B ⟨LA, ra, va, ba⟩ ⟨LB, rb, vb, bb⟩
    have hpads : b.val.adds.pads = 0 := by rcases s1 with h | h <;> rw [h] <;> simp [Red.pads]
    have hB : ∀ i < P.limbs, LB i < 2 ^ P.cap i := by
      intro i hi
      have := bb i hi
      rwa [hpads, zero_mul, add_zero] at this
    refine ⟨_, ⟨fun i => LA i + P.padAt i - LB i, ⟨hl, ?_⟩, rfl, ?_⟩, ?_⟩
    · intro i v hv
      obtain ⟨x, y, h1, h2, h3⟩ := hf i v hv
      have hi := (ra.get h1).1
      have h4 := hB i hi
      have h5 := hP.padLo i hi
      rw [h3, (ra.get h1).2, (rb.get h2).2, Nat.cast_sub (by omega), Nat.cast_add]
    · intro i hi
      have h1 := ba i hi
      show _ < 2 ^ P.cap i + val.adds.pads * P.padAt i
      rw [s2]
      have e : Red.pads (.others (a.val.adds.num + 3)) = a.val.adds.num / 3 + 1 := by simp [Red.pads]
      rw [e]
      have h3 : a.val.adds.pads ≤ a.val.adds.num / 3 := by cases a.val.adds <;> simp [Red.pads, Red.num]
      have h4 : a.val.adds.pads * P.padAt i ≤ a.val.adds.num / 3 * P.padAt i := Nat.mul_le_mul_right _ h3
      rw [Nat.add_mul]
      simp only
      omega
    · have := value_sub P hP LA LB hB
      rw [va, vb] at this
      exact zmod_sub this hP.padDvd

/-- C61: the circuit for multiplication forces the result to be the product (of integers), provided that the variable
`zero_var`, from which the sums are started, is zero. -/
theorem C61_mul_sound (P : Params) (hP : P.Ok) (a b : SimVar F) :
    Sound (a.mul P b) (fun w c => c.val.prod = (a.val.adds.num + 1) * (b.val.adds.num + 1) ∧
      (w 0 = 0 → ∀ A B, a.Is P w A → b.Is P w B → c.Is P w (A * B))) := by
  unfold SimVar.mul
  refine Sound.bind (Sound.liftM _) (fun val => ?_)
  refine Sound.bind (Sound.mapM _ (fun w i o => ∀ A B : Nat → Nat, Reads w a.var P.limbs A → Reads w b.var P.limbs B →
    w o = w 0 + conv P.limbs (fun i => (A i : F)) (fun i => (B i : F)) i) _ ?_) (fun var => Sound.pure _ _ ?_)
  · intro i _
    refine Sound.bind (Sound.foldlM (mulInner a b i) (fun w pre s => ∀ A B : Nat → Nat, Reads w a.var P.limbs A →
      Reads w b.var P.limbs B → w s.1 = w 0 + (pre.map (fun j => (A j : F) * (B (i - j) : F))).sum) _ _ ?_)
      (fun s => Sound.pure _ _ ?_)
    · intro pre s j _
      unfold mulInner
      refine Sound.bind (Sound.liftM _) (fun x => Sound.bind (Sound.liftM _) (fun y => ?_))
      refine Sound.bind (Sound.liftM _) (fun u => Sound.bind (Sound.liftM _) (fun v => ?_))
      refine Sound.bind (sound_newGate _ _ _ ?_) (fun o => Sound.pure _ _ ?_)
      · intro o t ht
        simp [rawGate, Gate.wires] at ht ⊢
        tauto
      · intro w hg hv hu _ _ hI A B ha hb
        rw [rawGate_holds] at hg
        have h1 := hI A B ha hb
        rw [(ha.get hu).2, (hb.get hv).2] at hg
        rw [List.map_append, List.sum_append]
        simp only [List.map_cons, List.map_nil, List.sum_cons, List.sum_nil, add_zero]
        linear_combination h1 - hg
    · intro w hI A B ha hb
      rw [hI (fun _ _ _ _ => by simp [zeroVar]) A B ha hb, conv_lefts _ _ _ _ hP.pos]
  · intro w hf hs
    obtain ⟨hl, hf⟩ := forall₂_range hf
    have s1 := mul_some hs
    refine ⟨s1, ?_⟩
    rintro h0 A B ⟨LA, ra, va, ba⟩ ⟨LB, rb, vb, bb⟩
    refine ⟨conv P.limbs LA LB, ⟨hl, ?_⟩, ?_, ?_⟩
    · intro i v hv
      rw [hf i v hv LA LB ra rb, h0, zero_add, conv_cast]
    · rw [value_conv _ _ _ _ _ (le_of_eq hP.mul.symm), va, vb]
    · intro i _
      show _ ≤ val.prod * _
      rw [s1]
      refine (conv_le P.limbs _ _ LA LB i (fun i hi => (limb_bound hP _ i hi _ (ba i hi)).le)
        (fun i hi => (limb_bound hP _ i hi _ (bb i hi)).le)).trans (le_of_eq ?_)
      rw [Nat.two_mul, pow_add]
      ring

/-- C61: the circuit for addition of products forces the result to be the sum. -/
theorem C61_add_sound (P : Params) (a b : SimMulVar F) :
    Sound (a.add P b) (fun w c => c.val.prod = a.val.prod + b.val.prod ∧
      ∀ A B, a.Is P w A → b.Is P w B → c.Is P w (A + B)) := by
  unfold SimMulVar.add
  refine Sound.bind (Sound.liftM _) (fun val => ?_)
  refine Sound.bind (Sound.mapM _ (fun w i o => ∃ u v, a.var[i]? = some u ∧ b.var[i]? = some v ∧
    w o = w u + w v) _ ?_) (fun var => Sound.pure _ _ ?_)
  · intro i _
    refine Sound.bind (Sound.liftM _) (fun x => ?_)
    refine Sound.bind (Sound.liftM _) (fun u => Sound.bind (Sound.liftM _) (fun v => ?_))
    refine Sound.cons (sound_newGate _ _ _ ?_) (fun w o h h1 h2 _ => ⟨u, v, h2, h1, ?_⟩)
    · intro o t ht
      simp [rawGate, Gate.wires] at ht ⊢
      tauto
    · rw [rawGate_holds] at h
      linear_combination -h
  · intro w hf hs
    obtain ⟨hl, hf⟩ := forall₂_range hf
    have s1 := add_some hs
    refine ⟨s1, ?_⟩
    rintro A B ⟨LA, ra, va, ba⟩ ⟨LB, rb, vb, bb⟩
    refine ⟨fun i => LA i + LB i, ⟨hl, ?_⟩, ?_, ?_⟩
    · intro i v hv
      obtain ⟨x, y, h1, h2, h3⟩ := hf i v hv
      rw [h3, (ra.get h1).2, (rb.get h2).2, Nat.cast_add]
    · rw [value_add, va, vb]
    · intro i hi
      show _ ≤ val.prod * _
      rw [s1, Nat.add_mul]
      exact Nat.add_le_add (ba i hi) (bb i hi)

/-- limbs of a difference with a product -/
theorem value_mul_sub (P : Params) (hP : P.Ok) (A B : Nat → Nat) (hB : ∀ i < P.limbs, B i ≤ 4 * P.padAt i) :
    value P.bits P.limbsMul (fun i => if i < P.limbs then A i + 4 * P.padAt i - B i else A i)
      + value P.bits P.limbs B = value P.bits P.limbsMul A + 4 * P.pad := by
  have hm := hP.mul
  have hpos := hP.pos
  have e1 : ∀ X : Nat → Nat, value P.bits P.limbs X = value P.bits P.limbsMul (fun i => if i < P.limbs then X i else 0) := by
    intro X
    rw [value_extend _ P.limbs _ _ (by omega) (fun i hi => if_neg (by omega))]
    exact (value_congr _ _ _ _ (fun i hi => if_pos hi)).symm
  rw [← hP.padVal, ← value_smul, e1 B, e1 (fun i => 4 * P.padAt i), ← value_add, ← value_add]
  refine value_congr _ _ _ _ (fun i _ => ?_)
  by_cases hi : i < P.limbs
  · have := hB i hi
    simp only [if_pos hi]
    omega
  · simp only [if_neg hi]

/-- C61: the circuit for subtraction from a product forces the result to be the difference in the simulated field. -/
theorem C61_mul_sub_sound (P : Params) (hP : P.Ok) (a : SimMulVar F) (b : SimVar F) :
    Sound (a.sub P b) (fun w c => c.val.prod = a.val.prod + 12 ∧ ∀ A B, a.Is P w A → b.Is P w B →
      ∃ C, c.Is P w C ∧ (C : ZMod P.r) = (A : ZMod P.r) - (B : ZMod P.r)) := by
  unfold SimMulVar.sub
  refine Sound.bind (Sound.liftM _) (fun val => ?_)
  refine Sound.bind (Sound.mapM _ (fun w i o => ∃ u v, a.var[i]? = some u ∧ b.var[i]? = some v ∧
    w o = w u + 4 * (P.padAt i : F) - w v) _ ?_) (fun var => Sound.pure _ _ ?_)
  · intro i hi
    rw [List.mem_range] at hi
    refine Sound.bind (Sound.liftM _) (fun x => Sound.bind (Sound.liftM _) (fun p => ?_))
    refine Sound.bind (Sound.liftM _) (fun u => Sound.bind (Sound.liftM _) (fun v => ?_))
    refine Sound.cons (sound_newGate _ _ _ ?_) (fun w o h h1 h2 h3 _ => ⟨u, v, h2, h1, ?_⟩)
    · intro o t ht
      simp [rawGate, Gate.wires] at ht ⊢
      tauto
    · rw [rawGate_holds] at h
      rw [hP.padAt_get hi] at h3
      rw [Option.some.inj h3]
      linear_combination -h
  · intro w hf hs
    obtain ⟨hl, hf⟩ := forall₂_range hf
    obtain ⟨s0, s1⟩ := mulsub_some hs
    refine ⟨s1, ?_⟩
    rintro A B ⟨LA, ra, va, ba⟩ ⟨LB, rb, vb, bb⟩
    have hm := hP.mul
    have hpos := hP.pos
    have hB : ∀ i < P.limbs, LB i ≤ 4 * P.padAt i := by
      intro i hi
      have h1 := bb i hi
      have h2 := hP.padLo i hi
      have h3 : b.val.adds.pads ≤ 1 := by
        cases h : b.val.adds with
        | strict => simp [Red.pads]
        | one => simp [Red.pads]
        | others n => rw [h] at s0; simp only [Red.num] at s0; simp only [Red.pads]; omega
      have h4 : b.val.adds.pads * P.padAt i ≤ 1 * P.padAt i := Nat.mul_le_mul_right _ h3
      omega
    refine ⟨_, ⟨fun i => if i < P.limbs then LA i + 4 * P.padAt i - LB i else LA i, ⟨?_, ?_⟩, rfl, ?_⟩, ?_⟩
    · have := ra.1
      simp only [List.length_append, List.length_drop, hl]
      omega
    · intro i v hv
      simp only at hv
      by_cases hi : i < P.limbs
      · rw [List.getElem?_append_left (by omega)] at hv
        obtain ⟨x, y, h1, h2, h3⟩ := hf i v hv
        have := hB i hi
        rw [h3, (ra.get h1).2, (rb.get h2).2]
        simp only [if_pos hi]
        rw [Nat.cast_sub (by omega)]
        push_cast
        ring
      · rw [List.getElem?_append_right (by omega), List.getElem?_drop, hl,
          show P.limbs + (i - P.limbs) = i by omega] at hv
        simp only [if_neg hi]
        exact (ra.get hv).2
    · intro i hi
      show _ ≤ val.prod * _
      have h1 := ba i hi
      rw [s1, Nat.add_mul]
      simp only
      split
      · rename_i hi'
        have h2 := hP.padHi i hi'
        have h3 : 2 ^ P.bits ≤ P.limbs * 2 ^ (2 * P.bits) := by
          calc 2 ^ P.bits ≤ 1 * 2 ^ (2 * P.bits) := by
                rw [one_mul]; exact Nat.pow_le_pow_right (by norm_num) (by omega)
            _ ≤ _ := Nat.mul_le_mul_right _ hpos
        omega
      · omega
    · have := value_mul_sub P hP LA LB hB
      rw [va, vb] at this
      exact zmod_sub this (hP.padDvd.mul_left 4)

/-! ### Zero test -/

/-- the linear combinations for the product of `k` and the modulus -/
theorem sound_rkInner (P : Params) (kv : List Nat) (i : Nat) : (l : List Nat) → (res : Nat) →
    Sound (rkInner P kv i l res) (fun w o => ∀ K : Nat → F, (∀ j v, kv[j]? = some v → w v = K j) →
      w o = w res + (l.map (fun a => (P.rAt a : F) * K (i - a))).sum)
  | [], res => Sound.pure _ _ (fun w K _ => by simp)
  | [a], res => by
    unfold rkInner
    refine Sound.bind (Sound.liftM _) (fun u => Sound.bind (Sound.liftM _) (fun x => ?_))
    refine Sound.cons (sound_linearCombine _ _ _ _ _ _ _ _) (fun w o h hx hu K hK => ?_)
    have e1 : P.rAt a = x := by simp [Params.rAt, hx]
    rw [h, hK _ _ hu]
    simp [e1]
  | [a, b], res => by
    unfold rkInner
    refine Sound.bind (Sound.liftM _) (fun u => Sound.bind (Sound.liftM _) (fun x => ?_))
    refine Sound.bind (Sound.liftM _) (fun v => Sound.bind (Sound.liftM _) (fun y => ?_))
    refine Sound.cons (sound_linearCombine _ _ _ _ _ _ _ _) (fun w o h hy hv hx hu K hK => ?_)
    have e1 : P.rAt a = x := by simp [Params.rAt, hx]
    have e2 : P.rAt b = y := by simp [Params.rAt, hy]
    rw [h, hK _ _ hu, hK _ _ hv]
    simp [e1, e2]
    ring
  | a :: b :: c :: rest, res => by
    unfold rkInner
    refine Sound.bind (Sound.liftM _) (fun u => Sound.bind (Sound.liftM _) (fun x => ?_))
    refine Sound.bind (Sound.liftM _) (fun v => Sound.bind (Sound.liftM _) (fun y => ?_))
    refine Sound.bind (Sound.liftM _) (fun t => Sound.bind (Sound.liftM _) (fun z => ?_))
    refine Sound.bind (sound_linearCombine _ _ _ _ _ _ _ _) (fun res' => ?_)
    refine Sound.cons (sound_rkInner P kv i rest res') (fun w o h hl hz ht hy hv hx hu K hK => ?_)
    have e1 : P.rAt a = x := by simp [Params.rAt, hx]
    have e2 : P.rAt b = y := by simp [Params.rAt, hy]
    have e3 : P.rAt c = z := by simp [Params.rAt, hz]
    rw [h K hK, hl, hK _ _ hu, hK _ _ hv, hK _ _ ht]
    simp [e1, e2, e3]
    ring

theorem sound_groupStep (P : Params) (a : SimMulVar F) (rk : List F) (rkv : List Nat) (i : Nat) :
    Sound (groupStep P a rk rkv i) (fun w g => ∀ A R : Nat → F, (∀ j v, a.var[j]? = some v → w v = A j) →
      (∀ j v, rkv[j]? = some v → w v = R j) →
      w g.lv = grp P.bits P.limbsMul A i ∧ w g.rv = grp P.bits P.limbsMul R i ∧ g.k = grpSize P.limbsMul i) := by
  unfold groupStep
  refine Sound.ite (fun hc => ?_) (fun hc => ?_)
  · refine Sound.bind (Sound.liftM _) (fun x => Sound.bind (Sound.liftM _) (fun y => ?_))
    refine Sound.bind (Sound.liftM _) (fun u => Sound.bind (Sound.liftM _) (fun v => ?_))
    refine Sound.bind (sound_linearCombine _ _ _ _ _ _ _ _) (fun lv => ?_)
    refine Sound.bind (Sound.liftM _) (fun x' => Sound.bind (Sound.liftM _) (fun y' => ?_))
    refine Sound.bind (Sound.liftM _) (fun u' => Sound.bind (Sound.liftM _) (fun v' => ?_))
    refine Sound.bind (sound_linearCombine _ _ _ _ _ _ _ _) (fun rv => Sound.pure _ _ ?_)
    intro w hr hv' hu' _ _ hl hv hu _ _ A R hA hR
    unfold grp grpSize
    rw [if_pos (by omega), if_pos (by omega), if_pos (by omega)]
    refine ⟨?_, ?_, rfl⟩
    · simp only
      rw [hl, hA _ _ hu, hA _ _ hv]; ring
    · simp only
      rw [hr, hR _ _ hu', hR _ _ hv']; ring
  · refine Sound.bind (Sound.liftM _) (fun x => Sound.bind (Sound.liftM _) (fun u => ?_))
    refine Sound.bind (Sound.liftM _) (fun x' => Sound.bind (Sound.liftM _) (fun u' => Sound.pure _ _ ?_))
    intro w hu' _ hu _ A R hA hR
    unfold grp grpSize
    rw [if_neg (by omega), if_neg (by omega), if_neg (by omega)]
    exact ⟨hA _ _ hu, hR _ _ hu', rfl⟩

/-- the equation of one step of the carry loop, in integers -/
theorem carry_eq (P : Params) (hP : P.Ok) (hF : 2 ^ (4 * P.bits + 8) ≤ ScalarRepr.order F) (e : Nat × Nat × Nat)
    (he : GrpFits P e) (cin extra c : Nat) (hc : cin < 2 ^ (5 + P.bits * 2)) (hx : extra < 2 ^ (5 + P.bits * 2))
    (hcc : c < 2 ^ (5 + P.bits * 2))
    (h : (e.1 : F) + (cin : F) + (groupPad P e.2.2 : F)
      = (e.2.1 : F) + ((2 ^ (P.bits * e.2.2) : Nat) : F) * (c : F)
        + (((extra + groupPad P e.2.2) % 2 ^ (P.bits * e.2.2) : Nat) : F)) :
    e.1 + cin + groupPad P e.2.2
      = e.2.1 + 2 ^ (P.bits * e.2.2) * c + (extra + groupPad P e.2.2) % 2 ^ (P.bits * e.2.2) := by
  obtain ⟨b1, b2, b3, b4, b5⟩ := carry_bounds P hP e he cin extra hc hx
  refine cast_inj (F := F) (by omega) ?_ (by push_cast at h ⊢; linear_combination h)
  have hb := hP.top
  have hb2 := hP.top2
  have h1 : 2 ^ (P.bits * e.2.2) * c < 2 ^ (4 * P.bits + 6) := by
    calc 2 ^ (P.bits * e.2.2) * c < 2 ^ (P.bits * e.2.2) * 2 ^ (5 + P.bits * 2) :=
          Nat.mul_lt_mul_of_pos_left hcc (by positivity)
      _ = 2 ^ (P.bits * e.2.2 + (5 + P.bits * 2)) := (pow_add _ _ _).symm
      _ ≤ _ := Nat.pow_le_pow_right (by norm_num) (by rcases he.1 with h | h <;> rw [h] <;> omega)
  have h2 : (extra + groupPad P e.2.2) % 2 ^ (P.bits * e.2.2) < 2 ^ (4 * P.bits + 6) :=
    lt_of_lt_of_le (Nat.mod_lt _ (by positivity)) (Nat.pow_le_pow_right (by norm_num)
      (by rcases he.1 with h | h <;> rw [h] <;> omega))
  have h3 : e.2.1 < 2 ^ (4 * P.bits + 6) :=
    lt_of_lt_of_le he.2.2 ((groupPad_le P _ he.1).trans (Nat.pow_le_pow_right (by norm_num)
      (by rcases he.1 with h | h <;> rw [h] <;> omega)))
  have e : 2 ^ (4 * P.bits + 8) = 4 * 2 ^ (4 * P.bits + 6) := by rw [pow_add, pow_add]; ring
  rw [e] at hF
  generalize 2 ^ (4 * P.bits + 6) = T at *
  omega

/-- The carry loop in the circuit forces the two sides to be equal integers. -/
theorem sound_carryLoopC (P : Params) (hP : P.Ok) (hF : 2 ^ (4 * P.bits + 8) ≤ ScalarRepr.order F)
    (gs : List (Grp F)) (cval : F) (cv extra : Nat) :
    Sound (carryLoopC P gs cval cv extra) (fun w _ => ∀ (ns : List (Nat × Nat × Nat)) (cin : Nat), gs ≠ [] →
      List.Forall₂ (fun g e => w g.lv = (e.1 : F) ∧ w g.rv = (e.2.1 : F) ∧ g.k = e.2.2 ∧ GrpFits P e) gs ns →
      w cv = (cin : F) → cin < 2 ^ (5 + P.bits * 2) → extra < 2 ^ (5 + P.bits * 2) →
      gval P.bits (ns.map (fun e => (e.1, e.2.2))) + cin = gval P.bits (ns.map (fun e => (e.2.1, e.2.2))) + extra) := by
  induction gs generalizing cval cv extra with
  | nil => exact Sound.pure _ _ (fun w ns cin h => absurd rfl h)
  | cons g rest ih =>
    unfold carryLoopC
    refine Sound.ite (fun _ => ?_) (fun _ => Sound.failure _)
    -- the gate, the constraint on the new carry, and the rest
    have step : ∀ (w : Nat → F) (o : Nat), Gate.Holds (carryGate P g.k (groupExtra F P extra g.k) g.lv cv g.rv o) w 0 →
        ∀ (e : Nat × Nat × Nat) (ns : List (Nat × Nat × Nat)) (cin c : Nat),
        (w g.lv = (e.1 : F) ∧ w g.rv = (e.2.1 : F) ∧ g.k = e.2.2 ∧ GrpFits P e) →
        w cv = (cin : F) → cin < 2 ^ (5 + P.bits * 2) → extra < 2 ^ (5 + P.bits * 2) → w o = (c : F) →
        c < 2 ^ (5 + P.bits * 2) →
        gval P.bits (ns.map (fun e => (e.1, e.2.2))) + c
          = gval P.bits (ns.map (fun e => (e.2.1, e.2.2))) + groupExtra F P extra g.k / 2 ^ (P.bits * g.k) →
        gval P.bits ((e :: ns).map (fun e => (e.1, e.2.2))) + cin
          = gval P.bits ((e :: ns).map (fun e => (e.2.1, e.2.2))) + extra := by
      rintro w o hg e ns cin c ⟨h1, h2, h3, h4⟩ hcv hc hx ho hcc hrec
      obtain ⟨s1, s2, s3⟩ := carry_step (F := F) P hP hF e h4 cin extra hc hx
      unfold carryGate at hg
      rw [rawGate_holds] at hg
      rw [h3] at hg hrec
      rw [h1, h2, hcv, ho, s3] at hg
      rw [s3] at hrec
      have key := carry_eq (F := F) P hP hF e h4 cin extra c hc hx hcc (by linear_combination -hg)
      simp only [List.map_cons, gval]
      have hd := Nat.div_add_mod (extra + groupPad P e.2.2) (2 ^ (P.bits * e.2.2))
      set S := 2 ^ (P.bits * e.2.2)
      set X := gval P.bits (ns.map (fun e => (e.1, e.2.2)))
      set Y := gval P.bits (ns.map (fun e => (e.2.1, e.2.2)))
      have hm := congrArg (S * ·) hrec
      simp only [Nat.mul_add] at hm
      generalize (extra + groupPad P e.2.2) % S = z at *
      generalize S * ((extra + groupPad P e.2.2) / S) = y at *
      omega
    refine Sound.bind (sound_newGate _ _ _ ?_) (fun o => Sound.ite (fun hr => ?_) (fun hr => ?_))
    · intro o t ht
      simp [carryGate, rawGate, Gate.wires] at ht ⊢
      tauto
    · refine Sound.cons (sound_insertConstantGate _ _) (fun w _ hcst hg ns cin _ hf hcv hc hx => ?_)
      subst hr
      cases hf with
      | cons hhd htl =>
        cases htl
        rename_i e
        have hb := carry_bounds P hP e hhd.2.2.2 cin extra hc hx
        obtain ⟨s1, s2, s3⟩ := carry_step (F := F) P hP hF e hhd.2.2.2 cin extra hc hx
        refine step w o hg e [] cin _ hhd hcv hc hx hcst ?_ rfl
        rw [hhd.2.2.1, s3]
        exact hb.2.2.2.2
    · refine Sound.bind (C46_range_check_sound o _) (fun b => ?_)
      refine Sound.cons (ih _ o _) (fun w _ hrec hrc hg ns cin _ hf hcv hc hx => ?_)
      obtain ⟨_, c, hc1, hc2, _⟩ := hrc
      cases hf with
      | cons hhd htl =>
        rename_i e ns'
        have hb := carry_bounds P hP e hhd.2.2.2 cin extra hc hx
        obtain ⟨s1, s2, s3⟩ := carry_step (F := F) P hP hF e hhd.2.2.2 cin extra hc hx
        refine step w o hg e ns' cin c hhd hcv hc hx hc2 hc1 ?_
        refine hrec ns' c hr htl hc2 hc1 ?_
        rw [hhd.2.2.1, s3]
        exact hb.2.2.2.2

theorem forall₂_range_map {α β : Type} {R : β → α → Prop} {n : Nat} {l : List α} {f : Nat → β} (hl : l.length = n)
    (h : ∀ i v, l[i]? = some v → R (f i) v) : List.Forall₂ (fun a b => R b a) l ((List.range n).map f) := by
  rw [List.forall₂_iff_get]
  refine ⟨by simp [hl], fun i h1 h2 => ?_⟩
  have := h i _ (List.getElem?_eq_getElem h1)
  simpa using this

/-- C61: `enforce_zero` forces the value to be divisible by the modulus, provided that `zero_var` is zero. -/
theorem C61_enforce_zero_sound (dbg : Bool) (P : Params) (hP : P.Ok)
    (hF : 2 ^ (4 * P.bits + 8) ≤ ScalarRepr.order F) (a : SimMulVar F) :
    Sound (a.enforceZero dbg P) (fun w _ => w 0 = 0 → ∀ N, a.Is P w N → P.r ∣ N) := by
  unfold SimMulVar.enforceZero
  refine Sound.ite (fun hp => ?_) (fun _ => Sound.failure _)
  refine Sound.bind (Sound.liftM _) (fun cur => ?_)
  refine Sound.ite (fun _ => Sound.failure _) (fun _ => ?_)
  refine Sound.bind (Sound.mapM _ (fun w i v => ∃ N : Nat, N < 2 ^ (if i = P.limbs - 1 then P.top + 5 else P.bits) ∧
    w v = (N : F)) _ ?_) (fun kv => ?_)
  · intro i _
    refine Sound.bind (Sound.liftM _) (fun x => Sound.bind (sound_newVar _) (fun v => ?_))
    refine Sound.bind (C46_range_check_sound v _) (fun b => Sound.pure _ _ ?_)
    rintro w ⟨_, N, h2, h3, _⟩ _ _
    exact ⟨N, h2, h3⟩
  refine Sound.bind (Sound.liftM _) (fun rk => ?_)
  refine Sound.bind (Sound.mapM _ (fun w i o => ∀ K : Nat → F, (∀ j v, kv[j]? = some v → w v = K j) →
      w o = w 0 + ((lefts P.limbs i).map (fun a => (P.rAt a : F) * K (i - a))).sum) _
      (fun i _ => sound_rkInner P kv i _ _)) (fun rkv => ?_)
  refine Sound.bind (Sound.mapM _ (fun w i (g : Grp F) => ∀ A R : Nat → F, (∀ j v, a.var[j]? = some v → w v = A j) →
      (∀ j v, rkv[j]? = some v → w v = R j) →
      w g.lv = grp P.bits P.limbsMul A i ∧ w g.rv = grp P.bits P.limbsMul R i ∧ g.k = grpSize P.limbsMul i) _
      (fun i _ => sound_groupStep P a rk rkv i)) (fun gs => ?_)
  refine Sound.cons (sound_carryLoopC P hP hF gs 0 zeroVar 0) ?_
  rintro w _ hloop hgs hrkv _ hkv _ h0 N ⟨L, ra, va, ba⟩
  have hm := hP.mul
  have hpos := hP.pos
  obtain ⟨hkl, hkv⟩ := forall₂_range hkv
  obtain ⟨hrl, hrkv⟩ := forall₂_range hrkv
  obtain ⟨hgl, hgs⟩ := forall₂_range hgs
  obtain ⟨K, hK⟩ := choose_range hkv
  have hKb : ∀ i < P.limbs, K i < 2 ^ P.bits := by
    intro i hi
    refine lt_of_lt_of_le (hK i _ (List.getElem?_eq_getElem (by omega))).1 (Nat.pow_le_pow_right (by norm_num) ?_)
    have := hP.top
    split <;> omega
  have hR : ∀ j v, rkv[j]? = some v → w v = ((conv P.limbs P.rAt K j : Nat) : F) := by
    intro j v hv
    rw [hrkv j v hv (fun j => (K j : F)) (fun j v hv => (hK j v hv).2), h0, zero_add, conv_cast,
      conv_lefts _ _ _ _ hpos]
  have hG : ∀ i g, gs[i]? = some g → w g.lv = ((grp P.bits P.limbsMul L i : Nat) : F) ∧
      w g.rv = ((grp P.bits P.limbsMul (conv P.limbs P.rAt K) i : Nat) : F) ∧ g.k = grpSize P.limbsMul i ∧
      GrpFits P (grp P.bits P.limbsMul L i, grp P.bits P.limbsMul (conv P.limbs P.rAt K) i, grpSize P.limbsMul i) := by
    intro i g hg
    obtain ⟨e1, e2, e3⟩ := hgs i g hg _ _ (fun j v hv => ra.2 j v hv) hR
    rw [grp_cast, grp_cast]
    refine ⟨e1, e2, e3, grp_fits P hP L _ _ hp ba (fun i _ => rk_le P hP K hKb i) i ?_⟩
    have := (List.getElem?_eq_some_iff.mp hg).1
    rw [hgl, hP.grp] at this
    exact this
  have hfa := forall₂_range_map (R := fun (e : Nat × Nat × Nat) (g : Grp F) => w g.lv = (e.1 : F) ∧ w g.rv = (e.2.1 : F) ∧
    g.k = e.2.2 ∧ GrpFits P e) (f := fun i => (grp P.bits P.limbsMul L i,
      grp P.bits P.limbsMul (conv P.limbs P.rAt K) i, grpSize P.limbsMul i)) hgl hG
  have hne : gs ≠ [] := by
    intro h
    rw [h, hP.grp] at hgl
    simp at hgl
    omega
  have key := hloop _ 0 hne hfa (by simpa [zeroVar] using h0) (by positivity) (by positivity)
  rw [List.map_map, List.map_map, hP.grp, hm] at key
  have g1 := gval_grp P.bits P.limbs hpos L
  have g2 := gval_grp P.bits P.limbs hpos (conv P.limbs P.rAt K)
  have e1 : ((fun e : Nat × Nat × Nat => (e.1, e.2.2)) ∘ fun i => (grp P.bits (2 * P.limbs - 1) L i,
        grp P.bits (2 * P.limbs - 1) (conv P.limbs P.rAt K) i, grpSize (2 * P.limbs - 1) i))
      = fun i => (grp P.bits (2 * P.limbs - 1) L i, grpSize (2 * P.limbs - 1) i) := rfl
  have e2 : ((fun e : Nat × Nat × Nat => (e.2.1, e.2.2)) ∘ fun i => (grp P.bits (2 * P.limbs - 1) L i,
        grp P.bits (2 * P.limbs - 1) (conv P.limbs P.rAt K) i, grpSize (2 * P.limbs - 1) i))
      = fun i => (grp P.bits (2 * P.limbs - 1) (conv P.limbs P.rAt K) i, grpSize (2 * P.limbs - 1) i) := rfl
  rw [e1, e2, g1, g2, value_conv _ _ _ _ _ (le_refl _), hP.rVal, ← hm, va] at key
  exact ⟨value P.bits P.limbs K, by omega⟩

end Verif.SimFr
