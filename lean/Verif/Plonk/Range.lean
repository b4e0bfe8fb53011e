import Mathlib.Data.Nat.Bitwise
import Verif.Plonk.Gadgets

/-!
Property C46: the range check gadget.
-/

namespace Verif.Plonk

namespace Spec

/-- the `i`-th binary digit of `n`, as a field element -/
def bit {F : Type} [Field F] (n i : Nat) : F := if n.testBit i then 1 else 0

end Spec

open Spec

variable {F : Type} [Field F]

/-! ### Boolean constraints and arrays of variables -/

theorem attach_wf {cs : CS F} (hw : WF cs) (h : cs.gates.length ≠ 0) :
    WF { cs with boolIdx := cs.boolIdx ++ [cs.gates.length - 1] } where
  len := hw.len
  pi := hw.pi
  nodup := hw.nodup
  bool := by
    intro b hb
    rcases List.mem_append.mp hb with hb | hb
    · exact hw.bool b hb
    · rw [List.mem_singleton.mp hb]; simp only; omega
  wit := hw.wit
  wires := hw.wires
  two := hw.two

theorem attach_mono (cs : CS F) : Mono cs { cs with boolIdx := cs.boolIdx ++ [cs.gates.length - 1] } [] :=
  ⟨List.prefix_refl _, le_refl _, fun _ h => List.mem_append_left _ h, by simp, ⟨[], by simp, by simp⟩,
    List.prefix_refl _⟩

theorem insertLcGate_some {a b c d o : Nat} {q1 q2 q3 q4 : F} {cs cs' : CS F} {u : Unit}
    (h : insertLcGate a b c d o q1 q2 q3 q4 cs = some (u, cs')) :
    cs' = { cs with gates := cs.gates ++ [lcGate a b c d o q1 q2 q3 q4] } := by
  have h1 : (assertVars [a, b, c, d] cs).bind (fun p => (assertVars [o] p.2).bind (fun p =>
      pushGate (lcGate a b c d o q1 q2 q3 q4) p.2)) = some (u, cs') := h
  obtain ⟨⟨u1, cs1⟩, e1, e2⟩ := Option.bind_eq_some_iff.mp h1
  obtain ⟨rfl, -⟩ := assertVars_some e1
  obtain ⟨⟨u2, cs2⟩, e3, e4⟩ := Option.bind_eq_some_iff.mp e2
  obtain ⟨rfl, -⟩ := assertVars_some e3
  unfold pushGate at e4
  simp only [Option.some.injEq, Prod.mk.injEq] at e4
  exact e4.2.symm

/-- a linear combination gate with a boolean constraint on its last three inputs -/
theorem sound_lc_attach (a b c d o : Nat) (q1 q2 q3 q4 : F) :
    Sound (do insertLcGate a b c d o q1 q2 q3 q4; attachBoolean)
      (fun w _ => w o = q1 * w a + q2 * w b + q3 * w c + q4 * w d ∧ IsBit (w b) ∧ IsBit (w c) ∧ IsBit (w d)) := by
  intro cs x cs' hw hm
  simp only [Bind.bind, StateT.bind] at hm
  obtain ⟨⟨u, cs1⟩, h1, h2⟩ := Option.bind_eq_some_iff.mp hm
  obtain ⟨w1, pv, m1, s1⟩ := sound_insertLcGate a b c d o q1 q2 q3 q4 cs u cs1 hw h1
  have e := insertLcGate_some h1
  unfold attachBoolean at h2
  simp only at h2
  split at h2
  · simp at h2
  · rename_i hne
    simp only [Option.some.injEq, Prod.mk.injEq] at h2
    obtain ⟨_, rfl⟩ := h2
    refine ⟨attach_wf w1 hne, pv ++ [], m1.trans (attach_mono _), fun w on hs => ?_⟩
    obtain ⟨hp, hr⟩ := s1 w on (Sat.mono (attach_mono _) hs)
    refine ⟨by rw [hp]; rfl, hr, ?_⟩
    have hg : cs1.gates[cs1.gates.length - 1]? = some (lcGate a b c d o q1 q2 q3 q4) := by
      subst e
      simp
    exact (hs (cs1.gates.length - 1) _ hg).2 (by simp)

theorem sound_linearCombine_attach (a b c d : Nat) (q1 q2 q3 q4 : F) :
    Sound (do let o ← linearCombine a b c d q1 q2 q3 q4; attachBoolean; Pure.pure o)
      (fun w o => w o = q1 * w a + q2 * w b + q3 * w c + q4 * w d ∧ IsBit (w b) ∧ IsBit (w c) ∧ IsBit (w d)) := by
  have e : (do let o ← linearCombine a b c d q1 q2 q3 q4; attachBoolean; Pure.pure o : Build F Nat) = (do
      assertVars [a, b, c, d]
      let o ← newVar (fun w => w a * q1 + w b * q2 + w c * q3 + w d * q4)
      (do insertLcGate a b c d o q1 q2 q3 q4; attachBoolean)
      Pure.pure o) := by
    unfold linearCombine
    simp only [bind_assoc, pure_bind]
  rw [e]
  refine Sound.bind (sound_assertVars _) (fun _ => Sound.bind (sound_newVar _) (fun o => ?_))
  refine Sound.bind (sound_lc_attach _ _ _ _ o _ _ _ _) (fun _ => Sound.pure _ _ ?_)
  intro w h _ _
  exact h

theorem newVars_wf {cs : CS F} (hw : WF cs) (xs : List F) :
    WF { cs with numVars := cs.numVars + xs.length, witness := cs.witness ++ xs } where
  len := hw.len
  pi := hw.pi
  nodup := hw.nodup
  bool := hw.bool
  wit := by simp [hw.wit]
  wires := fun g hg v hv => Nat.lt_of_lt_of_le (hw.wires g hg v hv) (Nat.le_add_right _ _)
  two := Nat.le_trans hw.two (Nat.le_add_right _ _)

theorem newVars_mono (cs : CS F) (xs : List F) :
    Mono cs { cs with numVars := cs.numVars + xs.length, witness := cs.witness ++ xs } [] :=
  ⟨List.prefix_refl _, Nat.le_add_right _ _, fun _ h => h, by simp, ⟨[], by simp, by simp⟩, List.prefix_append _ _⟩

theorem sound_newVars (n : Nat) (f : (Nat → F) → List F) : Sound (newVars n f) (fun _ vs => vs.length = n) := by
  intro cs a cs' hw hm
  unfold newVars at hm
  simp only at hm
  split at hm
  · simp at hm
  · rename_i hlt
    simp only [Option.some.injEq, Prod.mk.injEq] at hm
    obtain ⟨rfl, rfl⟩ := hm
    have hl : ((f cs.value).take n).length = n := by simp; omega
    have w1 := newVars_wf hw ((f cs.value).take n)
    have m1 := newVars_mono cs ((f cs.value).take n)
    rw [hl] at w1 m1
    exact ⟨w1, [], m1, fun _ _ _ => ⟨rfl, by simp⟩⟩

theorem runs_newVars (n : Nat) (f : (Nat → F) → List F) (cs : CS F) (h : n ≤ (f cs.value).length) :
    Runs (newVars n f) cs (fun vs cs' => vs.length = n ∧
      ∀ i x, i < n → (f cs.value)[i]? = some x → ∃ v, vs[i]? = some v ∧ Has cs' v x) := by
  intro hw hs
  have hl : ((f cs.value).take n).length = n := by simp; omega
  have w1 := newVars_wf hw ((f cs.value).take n)
  have m1 := newVars_mono cs ((f cs.value).take n)
  rw [hl] at w1 m1
  have hv := value_mono hw m1
  refine ⟨(List.range n).map (cs.numVars + ·), _, [], ?_, w1, ?_, m1, rfl, ?_, ?_⟩
  · unfold newVars
    simp only
    rw [if_neg (by omega)]
  · have hon : CS.online { cs with numVars := cs.numVars + n, witness := cs.witness ++ (f cs.value).take n } =
        cs.online := by
      unfold CS.online
      refine List.map_congr_left fun v hvm => ?_
      obtain ⟨k, hk, rfl⟩ := List.mem_iff_getElem.mp hvm
      have hk' : k < cs.pubCons.length := hw.len ▸ hk
      have hg := hw.pi k _ _ (List.getElem?_eq_getElem hk') (List.getElem?_eq_getElem hk)
      exact hv _ (hw.wires _ (List.mem_of_getElem? hg) _ (by simp [Gate.wires, constGate]))
    intro i g hg
    simp only at hg
    obtain ⟨h1, h2⟩ := hs i g hg
    have hmem := List.mem_of_getElem? hg
    rw [hon]
    refine ⟨(holds_congr g _ _ _ (fun v hvm => hv v (hw.wires g hmem v hvm))).mpr h1, fun hb => ?_⟩
    obtain ⟨b1, b2, b3⟩ := h2 hb
    rw [hv _ (hw.wires g hmem _ (by simp [Gate.wires])), hv _ (hw.wires g hmem _ (by simp [Gate.wires])),
      hv _ (hw.wires g hmem _ (by simp [Gate.wires]))]
    exact ⟨b1, b2, b3⟩
  · simp
  · intro i x hi hx
    refine ⟨cs.numVars + i, by simp [hi], by simp [hi], ?_⟩
    show (cs.witness ++ (f cs.value).take n)[cs.numVars + i]?.getD 0 = x
    rw [← hw.wit, List.getElem?_append_right (by omega)]
    rw [Nat.add_sub_cancel_left, List.getElem?_take, if_pos hi, hx]
    rfl

theorem runs_attach (cs : CS F) (g : Gate F) (hg : cs.gates[cs.gates.length - 1]? = some g)
    (h1 : IsBit (cs.value g.w1)) (h2 : IsBit (cs.value g.w2)) (h3 : IsBit (cs.value g.w3)) :
    Runs attachBoolean cs (fun _ _ => True) := by
  intro hw hs
  have hne : cs.gates.length ≠ 0 := by
    have := (List.getElem?_eq_some_iff.mp hg).1
    omega
  refine ⟨(), _, [], ?_, attach_wf hw hne, ?_, attach_mono _, rfl, trivial⟩
  · unfold attachBoolean
    rw [if_neg hne]
  · intro i g' hg'
    simp only at hg'
    obtain ⟨a1, a2⟩ := hs i g' hg'
    refine ⟨a1, fun hb => ?_⟩
    rcases List.mem_append.mp hb with hb | hb
    · exact a2 hb
    · rw [List.mem_singleton.mp hb, hg] at hg'
      cases hg'
      exact ⟨h1, h2, h3⟩

theorem runs_lc_attach (a b c d o : Nat) (q1 q2 q3 q4 x1 x2 x3 x4 y : F) (cs : CS F)
    (h1 : Has cs a x1) (h2 : Has cs b x2) (h3 : Has cs c x3) (h4 : Has cs d x4) (ho : Has cs o y)
    (h : y = q1 * x1 + q2 * x2 + q3 * x3 + q4 * x4) (b2 : IsBit x2) (b3 : IsBit x3) (b4 : IsBit x4) :
    Runs (do insertLcGate a b c d o q1 q2 q3 q4; attachBoolean) cs (fun _ _ => True) := by
  intro hw hs
  obtain ⟨u, cs1, pv, e, w1, s1, mo, -, -⟩ := runs_insertLcGate a b c d o q1 q2 q3 q4 x1 x2 x3 x4 y cs h1 h2 h3 h4 ho
    h hw hs
  have ecs := insertLcGate_some e
  have hpv : pv = [] := by
    have := mo.pub
    rw [ecs] at this
    simpa using this
  subst hpv
  have hg : cs1.gates[cs1.gates.length - 1]? = some (lcGate a b c d o q1 q2 q3 q4) := by
    subst ecs
    simp
  obtain ⟨u2, cs2, pv2, e2, w2, s2, mo2, hp2, -⟩ := runs_attach cs1 _ hg
    (by simp only [lcGate]; rw [(h2.mono hw mo).2]; exact b2)
    (by simp only [lcGate]; rw [(h3.mono hw mo).2]; exact b3)
    (by simp only [lcGate]; rw [(h4.mono hw mo).2]; exact b4) w1 s1
  refine ⟨u2, cs2, [] ++ pv2, ?_, w2, s2, mo.trans mo2, by simp [hp2], trivial⟩
  simp only [Bind.bind, StateT.bind, e, Option.bind_some, e2]

theorem runs_linearCombine_attach (a b c d : Nat) (q1 q2 q3 q4 x1 x2 x3 x4 : F) (cs : CS F)
    (h1 : Has cs a x1) (h2 : Has cs b x2) (h3 : Has cs c x3) (h4 : Has cs d x4)
    (b2 : IsBit x2) (b3 : IsBit x3) (b4 : IsBit x4) :
    Runs (do let o ← linearCombine a b c d q1 q2 q3 q4; attachBoolean; Pure.pure o) cs
      (fun o cs' => Has cs' o (q1 * x1 + q2 * x2 + q3 * x3 + q4 * x4)) := by
  have e : (do let o ← linearCombine a b c d q1 q2 q3 q4; attachBoolean; Pure.pure o : Build F Nat) = (do
      assertVars [a, b, c, d]
      let o ← newVar (fun w => w a * q1 + w b * q2 + w c * q3 + w d * q4)
      (do insertLcGate a b c d o q1 q2 q3 q4; attachBoolean)
      Pure.pure o) := by
    unfold linearCombine
    simp only [bind_assoc, pure_bind]
  rw [e]
  refine Runs.bind (runs_assertVars _ cs (by simp [h1.1, h2.1, h3.1, h4.1])) ?_
  rintro _ cs1 _ _ _ rfl
  refine Runs.bind (runs_newVar _ _) ?_
  intro o cs2 w1 _ mo ho
  have ho' : Has cs2 o (q1 * x1 + q2 * x2 + q3 * x3 + q4 * x4) := by
    rw [h1.2, h2.2, h3.2, h4.2] at ho
    convert ho using 1
    ring
  refine Runs.bind (runs_lc_attach a b c d o _ _ _ _ _ _ _ _ _ cs2 (h1.mono w1 mo) (h2.mono w1 mo)
    (h3.mono w1 mo) (h4.mono w1 mo) ho' rfl b2 b3 b4) ?_
  intro _ cs3 w2 _ mo2 _
  exact Runs.pure _ _ _ (ho'.mono w2 mo2)

/-! ### Sums of bits -/

/-- `Σ 2^i x_i` -/
def bitSum : List F → F
  | [] => 0
  | x :: xs => x + 2 * bitSum xs

theorem bitSum_nat (xs : List F) (h : ∀ x ∈ xs, IsBit x) :
    ∃ N : Nat, N < 2 ^ xs.length ∧ bitSum xs = N ∧ ∀ i x, xs[i]? = some x → x = bit N i := by
  induction xs with
  | nil => exact ⟨0, by simp, by simp [bitSum], by simp⟩
  | cons x xs ih =>
    obtain ⟨N, hN, e, hb⟩ := ih (fun y hy => h y (by simp [hy]))
    have hpow : 2 ^ (xs.length + 1) = 2 * 2 ^ xs.length := by rw [pow_succ]; ring
    rcases h x (by simp) with rfl | rfl
    · refine ⟨2 * N, by rw [List.length_cons, hpow]; omega, by simp [bitSum, e], ?_⟩
      intro i y hy
      cases i with
      | zero => simp at hy; subst hy; simp [bit]
      | succ i =>
        rw [hb i y (by simpa using hy)]
        unfold bit
        rw [Nat.testBit_succ, Nat.mul_div_cancel_left _ (by norm_num)]
    · refine ⟨2 * N + 1, by rw [List.length_cons, hpow]; omega, by simp [bitSum, e]; ring, ?_⟩
      intro i y hy
      cases i with
      | zero => simp at hy; subst hy; simp [bit]
      | succ i =>
        rw [hb i y (by simpa using hy)]
        unfold bit
        rw [Nat.testBit_succ, show (2 * N + 1) / 2 = N by omega]

theorem bitSum_of_nat (n N k : Nat) :
    bitSum ((List.range n).map (fun i => (bit N (k + i) : F))) = ((N / 2 ^ k % 2 ^ n : Nat) : F) := by
  induction n generalizing k with
  | zero => simp [bitSum, Nat.mod_one]
  | succ n ih =>
    rw [List.range_succ_eq_map, List.map_cons, List.map_map]
    have : ((fun i => (bit N (k + i) : F)) ∘ Nat.succ) = fun i => (bit N (k + 1 + i) : F) := by
      funext i; simp only [Function.comp]; congr 1; omega
    rw [this, bitSum, ih (k + 1)]
    have h1 : N / 2 ^ (k + 1) = N / 2 ^ k / 2 := by rw [pow_succ, Nat.div_div_eq_div_mul]
    rw [h1]
    have h2 : N / 2 ^ k % 2 ^ (n + 1) = (N / 2 ^ k) % 2 + 2 * (N / 2 ^ k / 2 % 2 ^ n) := by
      rw [pow_succ, mul_comm, Nat.mod_mul]
    rw [h2]
    push_cast
    congr 1
    unfold bit
    rw [Nat.testBit_eq_decide_div_mod_eq]
    rcases Nat.mod_two_eq_zero_or_one (N / 2 ^ k) with h | h <;> simp [h]

/-- the last `k` bits of the list: `acc` holds the value of the bits from position `k` on -/
theorem bitSum_drop3 (xs : List F) (k : Nat) (a b c : F) (ha : xs[k]? = some a) (hb : xs[k + 1]? = some b)
    (hc : xs[k + 2]? = some c) : bitSum (xs.drop k) = a + 2 * b + 4 * c + 8 * bitSum (xs.drop (k + 3)) := by
  obtain ⟨h1, e1⟩ := List.getElem?_eq_some_iff.mp ha
  obtain ⟨h2, e2⟩ := List.getElem?_eq_some_iff.mp hb
  obtain ⟨h3, e3⟩ := List.getElem?_eq_some_iff.mp hc
  rw [List.drop_eq_getElem_cons h1, List.drop_eq_getElem_cons h2, List.drop_eq_getElem_cons h3, e1, e2, e3]
  simp only [bitSum]
  ring

/-! ### Soundness of the range check -/

theorem sound_rangeStep (b : List Nat) (n acc i : Nat) (hi : 3 * i + 4 ≤ n) :
    Sound (rangeStep b n acc i : Build F Nat) (fun w acc' =>
      (w acc = bitSum ((b.map w).drop (n - 1 - 3 * i)) ∧ ∀ j v, n - 1 - 3 * i ≤ j → b[j]? = some v → IsBit (w v)) →
      (w acc' = bitSum ((b.map w).drop (n - 1 - 3 * (i + 1))) ∧
        ∀ j v, n - 1 - 3 * (i + 1) ≤ j → b[j]? = some v → IsBit (w v))) := by
  unfold rangeStep
  refine Sound.bind (Sound.liftM _) (fun b1 => Sound.bind (Sound.liftM _) (fun b2 =>
    Sound.bind (Sound.liftM _) (fun b3 => ?_)))
  refine (sound_linearCombine_attach acc b1 b2 b3 8 4 2 1).cons ?_
  rintro w acc' ⟨h, hb1, hb2, hb3⟩ e3 e2 e1 ⟨hacc, hbits⟩
  have k1 : n - 1 - i * 3 - 1 = n - 1 - 3 * (i + 1) + 2 := by omega
  have k2 : n - 1 - i * 3 - 2 = n - 1 - 3 * (i + 1) + 1 := by omega
  have k3 : n - 1 - i * 3 - 3 = n - 1 - 3 * (i + 1) := by omega
  rw [k1] at e1
  rw [k2] at e2
  rw [k3] at e3
  constructor
  · rw [bitSum_drop3 (b.map w) (n - 1 - 3 * (i + 1)) (w b3) (w b2) (w b1) (by simp [e3]) (by simp [e2])
      (by simp [e1]), show n - 1 - 3 * (i + 1) + 3 = n - 1 - 3 * i by omega, ← hacc, h]
    ring
  · intro j v hj hv
    by_cases hj' : n - 1 - 3 * i ≤ j
    · exact hbits j v hj' hv
    · have : j = n - 1 - 3 * (i + 1) ∨ j = n - 1 - 3 * (i + 1) + 1 ∨ j = n - 1 - 3 * (i + 1) + 2 := by omega
      rcases this with rfl | rfl | rfl
      · rw [hv] at e3; cases e3; exact hb3
      · rw [hv] at e2; cases e2; exact hb2
      · rw [hv] at e1; cases e1; exact hb1

theorem sound_rangeFinal (b : List Nat) (acc var k : Nat) (hk : 1 ≤ k ∧ k ≤ 3) :
    Sound (do rangeFinal b acc var k; attachBoolean : Build F Unit) (fun w _ =>
      (w acc = bitSum ((b.map w).drop k) ∧ ∀ j v, k ≤ j → b[j]? = some v → IsBit (w v)) →
      w var = bitSum (b.map w) ∧ ∀ v ∈ b, IsBit (w v)) := by
  have all : ∀ (w : Nat → F), (∀ j v, k ≤ j → b[j]? = some v → IsBit (w v)) →
      (∀ j v, j < k → b[j]? = some v → IsBit (w v)) → ∀ v ∈ b, IsBit (w v) := by
    intro w h1 h2 v hv
    obtain ⟨j, hj, rfl⟩ := List.mem_iff_getElem.mp hv
    by_cases h : k ≤ j
    · exact h1 j _ h (List.getElem?_eq_getElem hj)
    · exact h2 j _ (by omega) (List.getElem?_eq_getElem hj)
  have cases3 : k = 1 ∨ k = 2 ∨ k = 3 := by omega
  rcases cases3 with rfl | rfl | rfl
  · unfold rangeFinal
    simp only [bind_assoc]
    refine Sound.bind (Sound.liftM _) (fun b0 => ?_)
    refine (sound_lc_attach acc b0 0 0 var 2 1 0 0).cons ?_
    rintro w - ⟨h, h0, -, -⟩ e0 ⟨hacc, hbits⟩
    refine ⟨?_, all w hbits ?_⟩
    · obtain ⟨l0, q0⟩ := List.getElem?_eq_some_iff.mp e0
      have : b.map w = w b0 :: (b.map w).drop 1 := by
        rw [← List.map_drop, ← List.map_cons]
        conv_lhs => rw [← List.drop_zero (l := b), List.drop_eq_getElem_cons l0, q0]
      rw [this, bitSum, ← hacc, h]; ring
    · intro j v hj hv
      have : j = 0 := by omega
      subst this
      rw [hv] at e0; cases e0; exact h0
  · unfold rangeFinal
    simp only [bind_assoc]
    refine Sound.bind (Sound.liftM _) (fun b1 => Sound.bind (Sound.liftM _) (fun b0 => ?_))
    refine (sound_lc_attach acc b1 b0 0 var 4 2 1 0).cons ?_
    rintro w - ⟨h, h1, h0, -⟩ e0 e1 ⟨hacc, hbits⟩
    refine ⟨?_, all w hbits ?_⟩
    · obtain ⟨l0, q0⟩ := List.getElem?_eq_some_iff.mp e0
      obtain ⟨l1, q1⟩ := List.getElem?_eq_some_iff.mp e1
      have : b.map w = w b0 :: w b1 :: (b.map w).drop 2 := by
        rw [← List.map_drop, ← List.map_cons, ← List.map_cons]
        conv_lhs => rw [← List.drop_zero (l := b), List.drop_eq_getElem_cons l0, q0, List.drop_eq_getElem_cons l1, q1]
      rw [this, bitSum, bitSum, ← hacc, h]; ring
    · intro j v hj hv
      have : j = 0 ∨ j = 1 := by omega
      rcases this with rfl | rfl
      · rw [hv] at e0; cases e0; exact h0
      · rw [hv] at e1; cases e1; exact h1
  · unfold rangeFinal
    simp only [bind_assoc]
    refine Sound.bind (Sound.liftM _) (fun b2 => Sound.bind (Sound.liftM _) (fun b1 =>
      Sound.bind (Sound.liftM _) (fun b0 => ?_)))
    refine (sound_lc_attach acc b2 b1 b0 var 8 4 2 1).cons ?_
    rintro w - ⟨h, h2, h1, h0⟩ e0 e1 e2 ⟨hacc, hbits⟩
    refine ⟨?_, all w hbits ?_⟩
    · have := bitSum_drop3 (b.map w) 0 (w b0) (w b1) (w b2) (by simp [e0]) (by simp [e1]) (by simp [e2])
      rw [List.drop_zero] at this
      rw [this, ← hacc, h]; ring
    · intro j v hj hv
      have : j = 0 ∨ j = 1 ∨ j = 2 := by omega
      rcases this with rfl | rfl | rfl
      · rw [hv] at e0; cases e0; exact h0
      · rw [hv] at e1; cases e1; exact h1
      · rw [hv] at e2; cases e2; exact h2

theorem sound_rangeCheck_sum [ScalarRepr F] (var n : Nat) :
    Sound (rangeCheck var n : Build F (List Nat)) (fun w b =>
      b.length = n ∧ (∀ v ∈ b, IsBit (w v)) ∧ w var = bitSum (b.map w)) := by
  unfold rangeCheck
  refine Sound.bind (sound_assertVars _) (fun _ => Sound.ite (fun _ => Sound.failure _) (fun hn => ?_))
  refine Sound.bind (sound_newVars n _) (fun b => ?_)
  refine Sound.bind (Sound.liftM _) (fun top => ?_)
  refine Sound.bind (sound_insertBooleanGate top) (fun _ => ?_)
  refine Sound.bind (Sound.foldlM (rangeStep b n) (fun w pre acc =>
      pre = List.range pre.length → (w acc = bitSum ((b.map w).drop (n - 1 - 3 * pre.length)) ∧
        ∀ j v, n - 1 - 3 * pre.length ≤ j → b[j]? = some v → IsBit (w v))) _ top ?_) (fun acc => ?_)
  · intro pre a i hi
    refine (sound_rangeStep b n a i (by have := List.mem_range.mp hi; omega)).cons ?_
    intro w a' h hinv hpre
    rw [List.length_append, List.length_singleton] at hpre ⊢
    rw [List.range_succ] at hpre
    obtain ⟨p1, p2⟩ := List.append_inj' hpre rfl
    have hii : i = pre.length := by simpa using p2
    subst hii
    exact h (hinv p1)
  · have e : ∀ (k : Nat), (do rangeFinal b acc var k; attachBoolean; Pure.pure b : Build F (List Nat)) =
        (do (do rangeFinal b acc var k; attachBoolean); Pure.pure b) := by
      intro k; simp only [bind_assoc]
    rw [e]
    refine Sound.bind (sound_rangeFinal b acc var _ (by omega)) (fun _ => Sound.pure _ _ ?_)
    intro w hfin hloop hbool htop hlen _
    refine ⟨hlen, ?_⟩
    obtain ⟨lt, qt⟩ := List.getElem?_eq_some_iff.mp htop
    have h0 : w top = bitSum ((b.map w).drop (n - 1 - 3 * 0)) ∧
        ∀ j v, n - 1 - 3 * 0 ≤ j → b[j]? = some v → IsBit (w v) := by
      constructor
      · rw [Nat.mul_zero, Nat.sub_zero, ← List.map_drop, List.drop_eq_getElem_cons lt, qt,
          List.drop_eq_nil_of_le (by omega)]
        simp [bitSum]
      · intro j v hj hv
        have := (List.getElem?_eq_some_iff.mp hv).1
        have : j = n - 1 := by omega
        subst this
        rw [hv] at htop; cases htop; exact hbool
    have := hloop (fun _ => h0) (by simp)
    simp only [List.length_range] at this
    obtain ⟨r1, r2⟩ := hfin this
    exact ⟨r2, r1⟩

/-! ### The honest range check -/

theorem computeBinaryLe_append (a b : Bytes) :
    (computeBinaryLe (a ++ b) : List F) = computeBinaryLe a ++ computeBinaryLe b := by
  simp [computeBinaryLe]

theorem computeBinaryLe_length (a : Bytes) : (computeBinaryLe a : List F).length = 8 * a.length := by
  induction a with
  | nil => simp [computeBinaryLe]
  | cons x a ih =>
    rw [show x :: a = [x] ++ a by rfl, computeBinaryLe_append, List.length_append, ih]
    simp [computeBinaryLe]; omega

theorem computeBinaryLe_leBytes (k N i : Nat) (hi : i < 8 * k) :
    (computeBinaryLe (leBytes k N) : List F)[i]? = some (bit N i) := by
  induction k generalizing N i with
  | zero => omega
  | succ k ih =>
    rw [leBytes, show ∀ (x : UInt8) (l : Bytes), x :: l = [x] ++ l from fun _ _ => rfl, computeBinaryLe_append]
    have h8 : (computeBinaryLe [UInt8.ofNat N] : List F).length = 8 := computeBinaryLe_length _
    by_cases h : i < 8
    · rw [List.getElem?_append_left (by omega)]
      simp only [computeBinaryLe, List.flatMap_cons, List.flatMap_nil, List.append_nil, List.getElem?_map,
        List.getElem?_range h, Option.map_some]
      congr 1
      unfold bit
      rw [Nat.testBit_eq_decide_div_mod_eq]
      have : (UInt8.ofNat N).toNat = N % 256 := by simp
      rw [this]
      have h256 : N % 256 / 2 ^ i % 2 = N / 2 ^ i % 2 := by
        have e : 256 = 2 ^ i * 2 ^ (8 - i) := by rw [← pow_add, show i + (8 - i) = 8 by omega]; norm_num
        rw [e, Nat.mod_mul_right_div_self]
        exact Nat.mod_mod_of_dvd _ (dvd_pow_self 2 (by omega))
      rw [h256]
      rcases Nat.mod_two_eq_zero_or_one (N / 2 ^ i) with h | h <;> simp [h]
    · rw [List.getElem?_append_right (by omega), h8, ih _ _ (by omega)]
      congr 1
      unfold bit
      congr 2
      rw [show (256 : Nat) = 2 ^ 8 by norm_num, Nat.testBit_div_two_pow]
      congr 1
      omega

theorem binaryRepr_getElem [ScalarRepr F] (x : F) (n i : Nat) (hi : i < n) :
    ((binaryRepr x n).take n)[i]? = some (bit (ScalarRepr.val x) i) := by
  rw [List.getElem?_take, if_pos hi]
  unfold binaryRepr
  have hl : (computeBinaryLe (leBytes 32 (ScalarRepr.val x)) : List F).length = 256 := by
    rw [computeBinaryLe_length, leBytes_length]
  simp only
  by_cases h : i < 256
  · rw [List.getElem?_append_left (by omega), computeBinaryLe_leBytes _ _ _ (by omega)]
  · rw [List.getElem?_append_right (by omega), hl, List.getElem?_replicate, if_pos (by omega)]
    congr 1
    unfold bit
    rw [Nat.testBit_lt_two_pow]
    · simp
    · calc ScalarRepr.val x < ScalarRepr.order F := ScalarRepr.val_lt x
        _ ≤ 256 ^ 32 := ScalarRepr.order_le
        _ = 2 ^ 256 := by norm_num
        _ ≤ 2 ^ i := Nat.pow_le_pow_right (by norm_num) (by omega)

theorem bit_isBit (N i : Nat) : IsBit (bit N i : F) := by
  unfold bit
  split
  · exact .inr rfl
  · exact .inl rfl

theorem cast_div_step (N j : Nat) :
    ((N / 2 ^ j : Nat) : F) = bit N j + 2 * ((N / 2 ^ (j + 1) : Nat) : F) := by
  have h1 : N / 2 ^ (j + 1) = N / 2 ^ j / 2 := by rw [pow_succ, Nat.div_div_eq_div_mul]
  rw [h1]
  have h2 : N / 2 ^ j = N / 2 ^ j % 2 + 2 * (N / 2 ^ j / 2) := (Nat.mod_add_div _ _).symm
  conv_lhs => rw [h2]
  push_cast
  congr 1
  unfold bit
  rw [Nat.testBit_eq_decide_div_mod_eq]
  rcases Nat.mod_two_eq_zero_or_one (N / 2 ^ j) with h | h <;> simp [h]

theorem runs_rangeFinal (b : List Nat) (acc var k n N : Nat) (x : F) (cs : CS F) (hk : 1 ≤ k ∧ k ≤ 3) (hkn : k ≤ n)
    (hz : Has cs 0 0) (hv : Has cs var ((N : Nat) : F)) (hacc : Has cs acc ((N / 2 ^ k : Nat) : F))
    (hb : ∀ i, i < n → ∃ v, b[i]? = some v ∧ Has cs v (bit N i)) :
    Runs (do rangeFinal b acc var k; attachBoolean : Build F Unit) cs (fun _ _ => True) := by
  have c0 := cast_div_step (F := F) N 0
  have c1 := cast_div_step (F := F) N 1
  have c2 := cast_div_step (F := F) N 2
  rw [pow_zero, Nat.div_one] at c0
  have cases3 : k = 1 ∨ k = 2 ∨ k = 3 := by omega
  rcases cases3 with rfl | rfl | rfl
  · obtain ⟨b0, e0, h0⟩ := hb 0 (by omega)
    unfold rangeFinal
    simp only [bind_assoc]
    refine Runs.bind (Runs.liftM _ b0 e0 cs) ?_
    rintro _ _ _ _ _ ⟨rfl, rfl⟩
    exact runs_lc_attach _ _ _ _ _ _ _ _ _ _ _ _ _ _ _ hacc h0 hz hz hv (by rw [c0]; ring) (bit_isBit _ _)
      (.inl rfl) (.inl rfl)
  · obtain ⟨b0, e0, h0⟩ := hb 0 (by omega)
    obtain ⟨b1, e1, h1⟩ := hb 1 (by omega)
    unfold rangeFinal
    simp only [bind_assoc]
    refine Runs.bind (Runs.liftM _ b1 e1 cs) ?_
    rintro _ _ _ _ _ ⟨rfl, rfl⟩
    refine Runs.bind (Runs.liftM _ b0 e0 _) ?_
    rintro _ _ _ _ _ ⟨rfl, rfl⟩
    exact runs_lc_attach _ _ _ _ _ _ _ _ _ _ _ _ _ _ _ hacc h1 h0 hz hv (by rw [c0, c1]; ring) (bit_isBit _ _)
      (bit_isBit _ _) (.inl rfl)
  · obtain ⟨b0, e0, h0⟩ := hb 0 (by omega)
    obtain ⟨b1, e1, h1⟩ := hb 1 (by omega)
    obtain ⟨b2, e2, h2⟩ := hb 2 (by omega)
    unfold rangeFinal
    simp only [bind_assoc]
    refine Runs.bind (Runs.liftM _ b2 e2 cs) ?_
    rintro _ _ _ _ _ ⟨rfl, rfl⟩
    refine Runs.bind (Runs.liftM _ b1 e1 _) ?_
    rintro _ _ _ _ _ ⟨rfl, rfl⟩
    refine Runs.bind (Runs.liftM _ b0 e0 _) ?_
    rintro _ _ _ _ _ ⟨rfl, rfl⟩
    exact runs_lc_attach _ _ _ _ _ _ _ _ _ _ _ _ _ _ _ hacc h2 h1 h0 hv (by rw [c0, c1, c2]; ring)
      (bit_isBit _ _) (bit_isBit _ _) (bit_isBit _ _)

theorem runs_rangeStep (b : List Nat) (acc i n N : Nat) (cs : CS F) (hi : 3 * i + 4 ≤ n)
    (hacc : Has cs acc ((N / 2 ^ (n - 1 - 3 * i) : Nat) : F))
    (hb : ∀ i, i < n → ∃ v, b[i]? = some v ∧ Has cs v (bit N i)) :
    Runs (rangeStep b n acc i) cs
      (fun acc' cs' => Has cs' acc' ((N / 2 ^ (n - 1 - 3 * (i + 1)) : Nat) : F)) := by
  obtain ⟨b1, e1, h1⟩ := hb (n - 1 - i * 3 - 1) (by omega)
  obtain ⟨b2, e2, h2⟩ := hb (n - 1 - i * 3 - 2) (by omega)
  obtain ⟨b3, e3, h3⟩ := hb (n - 1 - i * 3 - 3) (by omega)
  have c0 := cast_div_step (F := F) N (n - 1 - 3 * (i + 1))
  have c1 := cast_div_step (F := F) N (n - 1 - 3 * (i + 1) + 1)
  have c2 := cast_div_step (F := F) N (n - 1 - 3 * (i + 1) + 2)
  unfold rangeStep
  refine Runs.bind (Runs.liftM _ b1 e1 cs) ?_
  rintro _ _ _ _ _ ⟨rfl, rfl⟩
  refine Runs.bind (Runs.liftM _ b2 e2 _) ?_
  rintro _ _ _ _ _ ⟨rfl, rfl⟩
  refine Runs.bind (Runs.liftM _ b3 e3 _) ?_
  rintro _ _ _ _ _ ⟨rfl, rfl⟩
  refine (runs_linearCombine_attach _ _ _ _ _ _ _ _ _ _ _ _ _ hacc h1 h2 h3 (bit_isBit _ _) (bit_isBit _ _)
    (bit_isBit _ _)).cons ?_
  intro o cs' _ _ _ h
  convert h using 1
  rw [c0, c1, c2]
  rw [show n - 1 - i * 3 - 1 = n - 1 - 3 * (i + 1) + 2 by omega,
    show n - 1 - i * 3 - 2 = n - 1 - 3 * (i + 1) + 1 by omega,
    show n - 1 - i * 3 - 3 = n - 1 - 3 * (i + 1) by omega,
    show n - 1 - 3 * (i + 1) + 2 + 1 = n - 1 - 3 * i by omega,
    show n - 1 - 3 * (i + 1) + 1 + 1 = n - 1 - 3 * (i + 1) + 2 by omega]
  ring

/-- The honest range check of a value below `2^n` succeeds. -/
theorem runs_rangeCheck [ScalarRepr F] (var n : Nat) (x : F) (cs : CS F) (hn : 2 ≤ n) (hz : Has cs 0 0)
    (hv : Has cs var x) (hx : ScalarRepr.val x < 2 ^ n) :
    Runs (rangeCheck var n) cs (fun b cs' => b.length = n ∧
      ∀ i, i < n → ∃ v, b[i]? = some v ∧ Has cs' v (bit (ScalarRepr.val x) i)) := by
  have hxN : x = ((ScalarRepr.val x : Nat) : F) := (ScalarRepr.cast_val x).symm
  generalize hN : ScalarRepr.val x = N at *
  unfold rangeCheck
  refine Runs.bind (runs_assertVars _ cs (by simp [hv.1])) ?_
  rintro _ cs1 _ _ _ rfl
  rw [if_neg (by omega)]
  have hget : ∀ i, i < n → ((binaryRepr (cs1.value var) n).take n)[i]? = some (bit N i) := by
    intro i hi
    rw [binaryRepr_getElem _ _ _ hi, hv.2, hN]
  refine Runs.bind (runs_newVars n _ cs1 ?_) ?_
  · by_contra hlt
    push Not at hlt
    have := hget (n - 1) (by omega)
    have := (List.getElem?_eq_some_iff.mp this).1
    omega
  intro b cs2 w1 w2 mo1 ⟨hlen, hbits⟩
  have hb : ∀ i, i < n → ∃ v, b[i]? = some v ∧ Has cs2 v (bit N i) := fun i hi => hbits i _ hi (hget i hi)
  obtain ⟨top, et, ht⟩ := hb (n - 1) (by omega)
  refine Runs.bind (Runs.liftM _ top et _) ?_
  rintro _ _ _ _ _ ⟨rfl, rfl⟩
  rename_i cs2
  refine Runs.bind (runs_insertBooleanGate _ _ _ ht (bit_isBit _ _)) ?_
  intro _ cs3 _ w3 mo2 _
  have htop : (bit N (n - 1) : F) = ((N / 2 ^ (n - 1) : Nat) : F) := by
    rw [cast_div_step, show n - 1 + 1 = n by omega, Nat.div_eq_of_lt hx]; simp
  refine Runs.bind (Runs.foldlM (rangeStep b n) (fun cs pre acc => pre = List.range pre.length →
      Has cs acc ((N / 2 ^ (n - 1 - 3 * pre.length) : Nat) : F)) ?_ _ _ cs3 ?_ ?_) ?_
  · intro cs cs' pre a hw mo h hp
    exact (h hp).mono hw mo
  · intro _
    rw [htop] at ht
    exact ht.mono w2 mo2
  · intro cs pre a i post mo hsplit hw hinv
    have hpre : pre = List.range pre.length := by
      have := congrArg (List.take pre.length) hsplit
      rw [List.take_left] at this
      rw [← this, List.take_range]
      congr 1
      have := congrArg List.length hsplit
      simp only [List.length_range, List.length_append, List.length_cons] at this
      rw [Nat.min_eq_left (by omega)]
      simp
    have hi : i = pre.length := by
      have := congrArg (fun l => l[pre.length]?) hsplit
      simp only [List.getElem?_append_right (le_refl _), Nat.sub_self, List.getElem?_cons_zero] at this
      have := (List.getElem?_eq_some_iff.mp this).2
      simpa using this.symm
    subst hi
    have hlt : 3 * pre.length + 4 ≤ n := by
      have := congrArg List.length hsplit
      simp only [List.length_range, List.length_append, List.length_cons] at this
      omega
    refine (runs_rangeStep b a pre.length n N cs hlt (hinv hpre) ?_).cons ?_
    · intro j hj
      obtain ⟨v, e, h⟩ := hb j hj
      exact ⟨v, e, (h.mono w2 mo2).mono w3 mo⟩
    · intro a' cs' _ _ _ h _
      simpa using h
  · intro acc cs4 _ w4 mo3 hacc
    simp only [List.length_range, true_implies] at hacc
    have e : ∀ (k : Nat), (do rangeFinal b acc var k; attachBoolean; Pure.pure b : Build F (List Nat)) =
        (do (do rangeFinal b acc var k; attachBoolean); Pure.pure b) := by
      intro k; simp only [bind_assoc]
    rw [e]
    have hb4 : ∀ i, i < n → ∃ v, b[i]? = some v ∧ Has cs4 v (bit N i) := by
      intro j hj
      obtain ⟨v, e, h⟩ := hb j hj
      exact ⟨v, e, (h.mono w2 mo2).mono w3 mo3⟩
    rw [hxN] at hv
    refine Runs.bind (runs_rangeFinal b acc var _ n N x cs4 (by omega) (by omega)
      (((hz.mono w1 mo1).mono w2 mo2).mono w3 mo3) (((hv.mono w1 mo1).mono w2 mo2).mono w3 mo3) hacc hb4) ?_
    intro _ cs5 _ _ mo4 _
    refine Runs.pure _ _ _ ⟨hlen, ?_⟩
    intro i hi
    obtain ⟨v, e, h⟩ := hb4 i hi
    exact ⟨v, e, h.mono w4 mo4⟩

/-! ### C46 -/

/-- C46: every assignment that satisfies the range check makes the returned variables the binary digits of a number
below `2^n` equal to the variable in the field. -/
theorem C46_range_check_sound [ScalarRepr F] (var n : Nat) :
    Sound (rangeCheck var n : Build F (List Nat)) (fun w b => b.length = n ∧
      ∃ N : Nat, N < 2 ^ n ∧ w var = (N : F) ∧ ∀ i v, b[i]? = some v → w v = bit N i) := by
  refine (sound_rangeCheck_sum var n).cons ?_
  rintro w b ⟨hl, hb, hs⟩
  refine ⟨hl, ?_⟩
  obtain ⟨N, h1, h2, h3⟩ := bitSum_nat (b.map w) (by simpa using hb)
  refine ⟨N, by simpa [hl] using h1, by rw [hs, h2], ?_⟩
  intro i v hv
  exact h3 i _ (by simp [hv])

/-- C46: when `2^n` is at most the field size, the range check is exact: the value is below `2^n` and the returned
variables are its binary digits. -/
theorem C46_range_check_exact [ScalarRepr F] (var n : Nat) (hn : 2 ^ n ≤ ScalarRepr.order F) :
    Sound (rangeCheck var n : Build F (List Nat)) (fun w b => b.length = n ∧
      ScalarRepr.val (w var) < 2 ^ n ∧ ∀ i v, b[i]? = some v → w v = bit (ScalarRepr.val (w var)) i) := by
  refine (C46_range_check_sound var n).cons ?_
  rintro w b ⟨hl, N, h1, h2, h3⟩
  have : ScalarRepr.val (w var) = N := by rw [h2, ScalarRepr.val_cast N (by omega)]
  rw [this]
  exact ⟨hl, h1, h3⟩

/-- C46: on every circuit, the builder succeeds for values below `2^n` and its witness satisfies the circuit. -/
theorem C46_range_check_complete [ScalarRepr F] (var n : Nat) (x : F) (cs : CS F) (hn : 2 ≤ n) (hz : Has cs 0 0)
    (hv : Has cs var x) (hx : ScalarRepr.val x < 2 ^ n) :
    Runs (rangeCheck var n) cs (fun b cs' => b.length = n ∧
      ∀ i, i < n → ∃ v, b[i]? = some v ∧ Has cs' v (bit (ScalarRepr.val x) i)) :=
  runs_rangeCheck var n x cs hn hz hv hx

end Verif.Plonk
