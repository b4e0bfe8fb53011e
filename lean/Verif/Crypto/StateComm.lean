import Verif.SimFr.Native
import Verif.Plonk.RescueGadget

/-!
C65: the commitment to the inspector's state in the delegated Schnorr protocol,
crypto/src/delegated_schnorr.rs:112-180, and what it binds the prover to.
-/

namespace Verif.StateComm

open Verif.Plonk Verif.SimFr Verif.SimFr.Spec

variable {F : Type} [Field F]

/-- the standard library's `chunks(k)` for `k > 0`: pieces of `k` elements, the last one possibly shorter -/
def chunks {α : Type} (k : Nat) (l : List α) : List (List α) :=
  (List.range ((l.length + k - 1) / k)).map (fun i => (l.drop (k * i)).take k)

/-- `num_limbs_compressed`, delegated_schnorr.rs:143; `BLSScalar::capacity()` is 254 -/
def perWord (P : Params) : Nat := 254 / P.bits

/-- the limbs of the state, delegated_schnorr.rs:114-140; values are given as `BigUint`s -/
def stateLimbs (P : Params) (data rand : List Nat) : List F :=
  data.flatMap (fun v => (ofBig P v : Sim F).limbs) ++ rand.flatMap (fun v => (ofBig P v : Sim F).limbs)

/-- one word of packed limbs, delegated_schnorr.rs:146-153 -/
def packWord [ScalarRepr F] (P : Params) (limbs : List F) : F :=
  (((limbs.zipIdx.map (fun e => ScalarRepr.val e.1 * 2 ^ (P.bits * e.2))).sum : Nat) : F)

/-- the packed limbs, delegated_schnorr.rs:144-155 -/
def packLimbs [ScalarRepr F] (P : Params) (l : List F) : List F := (chunks (perWord P) l).map (packWord P)

/-- the state after absorbing the next three words repeatedly, delegated_schnorr.rs:168-170; a shorter last chunk is
an index out of range -/
def chain (p : Rescue.Params F) : F → List F → Option F
  | h, [] => some h
  | h, a :: b :: c :: rest => chain p (Rescue.rescue p (h, a, b, c)).1 rest
  | _, _ => none

/-- `input.resize((input.len() - 1 + 2) / 3 * 3 + 1, zero)`, delegated_schnorr.rs:162 -/
def resize {α : Type} (zero : α) (input : List α) : List α :=
  let m := (input.length - 1 + 2) / 3 * 3 + 1
  (input ++ List.replicate (m - input.length) zero).take m

/-- delegated_schnorr.rs:159-173: the hash of the words and `r` -/
def sponge (p : Rescue.Params F) (words : List F) (r : F) : Option F :=
  match resize 0 (words ++ [r]) with
  | a :: b :: c :: d :: rest => chain p (Rescue.rescue p (a, b, c, d)).1 rest
  | _ => none

/-- models delegated_schnorr.rs:112-174: the commitment to the values, the randomizer scalars and `r` -/
def stateComm [ScalarRepr F] (p : Rescue.Params F) (P : Params) (data rand : List Nat) (r : F) : Option F :=
  sponge p (packLimbs P (stateLimbs P data rand)) r

/-! ### Specification: the inputs of the permutation when computing a commitment -/

/-- the inputs given to the permutation by `chain` -/
def chainCalls (p : Rescue.Params F) : F → List F → List (St F)
  | h, a :: b :: c :: rest => (h, a, b, c) :: chainCalls p (Rescue.rescue p (h, a, b, c)).1 rest
  | _, _ => []

/-- the inputs given to the permutation by `sponge` -/
def spongeCalls (p : Rescue.Params F) (words : List F) (r : F) : List (St F) :=
  match resize 0 (words ++ [r]) with
  | a :: b :: c :: d :: rest => (a, b, c, d) :: chainCalls p (Rescue.rescue p (a, b, c, d)).1 rest
  | _ => []

/-- two calls at the same place of two computations that collide on the first output -/
def Collide (p : Rescue.Params F) (l l' : List (St F)) : Prop :=
  ∃ (i : Nat) (s s' : St F), l[i]? = some s ∧ l'[i]? = some s' ∧ s ≠ s' ∧ (Rescue.rescue p s).1 = (Rescue.rescue p s').1

/-! ### Chunks -/

theorem chunks_map {α β : Type} (k : Nat) (f : α → β) (l : List α) :
    chunks k (l.map f) = (chunks k l).map (List.map f) := by
  unfold chunks
  rw [List.length_map, List.map_map]
  refine List.map_congr_left (fun i _ => ?_)
  rw [Function.comp_apply, ← List.map_drop, ← List.map_take]

theorem chunks_length {α : Type} (k : Nat) (l c : List α) (h : c ∈ chunks k l) : c.length ≤ k := by
  unfold chunks at h
  obtain ⟨i, _, rfl⟩ := List.mem_map.mp h
  simp

theorem chunks_getElem {α : Type} (k : Nat) (l : List α) (i : Nat) (hi : i < (chunks k l).length) :
    (chunks k l)[i] = (l.drop (k * i)).take k := by
  unfold chunks at hi ⊢
  rw [List.getElem_map, List.getElem_range]

theorem chunks_flatten {α : Type} (k : Nat) (hk : 0 < k) (l : List α) : (chunks k l).flatten = l := by
  have key : ∀ n, ((List.range n).map (fun i => (l.drop (k * i)).take k)).flatten = l.take (k * n) := by
    intro n
    induction n with
    | zero => simp
    | succ n ih =>
      rw [List.range_succ, List.map_append, List.flatten_append, ih, Nat.mul_succ, List.take_add]
      simp
  unfold chunks
  rw [key]
  refine List.take_of_length_le ?_
  have := Nat.div_add_mod (l.length + k - 1) k
  have := Nat.mod_lt (l.length + k - 1) hk
  omega

/-! ### Packing -/

theorem sum_zipIdx {M : Type} [AddCommMonoid M] (l : List F) (f : F → Nat → M) :
    (l.zipIdx.map (fun e => f e.1 e.2)).sum = ∑ i ∈ Finset.range l.length, f (l[i]?.getD 0) i := by
  have key : ∀ (l : List F) (k : Nat), ((l.zipIdx k).map (fun e => f e.1 e.2)).sum =
      ∑ i ∈ Finset.range l.length, f (l[i]?.getD 0) (i + k) := by
    intro l
    induction l with
    | nil => intro k; simp
    | cons a l ih =>
      intro k
      rw [List.zipIdx_cons, List.map_cons, List.sum_cons, ih, List.length_cons, Finset.sum_range_succ']
      simp only [List.getElem?_cons_zero, List.getElem?_cons_succ, Option.getD_some, Nat.zero_add]
      rw [add_comm]
      congr 1
      exact Finset.sum_congr rfl (fun i _ => by rw [Nat.add_assoc, Nat.add_comm 1 k])
  have := key l 0
  simpa using this

variable [ScalarRepr F]

theorem packWord_value (P : Params) (l : List F) :
    packWord P l = ((value P.bits l.length (fun i => ScalarRepr.val (l[i]?.getD 0)) : Nat) : F) := by
  unfold packWord value
  rw [sum_zipIdx l (fun x i => ScalarRepr.val x * 2 ^ (P.bits * i))]

/-- the word is the linear combination of the limbs -/
theorem packWord_eq (P : Params) (l : List F) :
    packWord P l = ∑ i ∈ Finset.range l.length, l[i]?.getD 0 * 2 ^ (P.bits * i) := by
  rw [packWord_value]
  unfold value
  push_cast
  exact Finset.sum_congr rfl (fun i _ => by rw [ScalarRepr.cast_val])

theorem value_inj (b n : Nat) (L M : Nat → Nat) (hL : ∀ i < n, L i < 2 ^ b) (hM : ∀ i < n, M i < 2 ^ b)
    (h : value b n L = value b n M) : ∀ i < n, L i = M i := by
  induction n generalizing L M with
  | zero => intro i hi; omega
  | succ n ih =>
    rw [value_succ, value_succ] at h
    have h1 := hL 0 (by omega)
    have h2 := hM 0 (by omega)
    have e0 : L 0 = M 0 := by
      have := congrArg (· % 2 ^ b) h
      simpa [Nat.add_mul_mod_self_left, Nat.mod_eq_of_lt h1, Nat.mod_eq_of_lt h2] using this
    have e1 : value b n (fun i => L (i + 1)) = value b n (fun i => M (i + 1)) := by
      rw [e0, Nat.add_left_cancel_iff] at h
      exact Nat.eq_of_mul_eq_mul_left (by positivity) h
    intro i hi
    cases i with
    | zero => exact e0
    | succ i => exact ih _ _ (fun i hi => hL (i + 1) (by omega)) (fun i hi => hM (i + 1) (by omega)) e1 i (by omega)

theorem packWord_inj (P : Params) (k : Nat) (hF : 2 ^ (P.bits * k) ≤ ScalarRepr.order F) (l l' : List F)
    (hl : l.length = l'.length) (hk : l.length ≤ k) (h1 : ∀ x ∈ l, ScalarRepr.val x < 2 ^ P.bits)
    (h2 : ∀ x ∈ l', ScalarRepr.val x < 2 ^ P.bits) (h : packWord P l = packWord P l') : l = l' := by
  rw [packWord_value, packWord_value, ← hl] at h
  have b1 : ∀ (m : List F), m.length = l.length → (∀ x ∈ m, ScalarRepr.val x < 2 ^ P.bits) →
      ∀ i < l.length, ScalarRepr.val (m[i]?.getD 0) < 2 ^ P.bits := by
    intro m hm hx i hi
    rw [List.getElem?_eq_getElem (by omega)]
    exact hx _ (List.getElem_mem _)
  have v1 := b1 l rfl h1
  have v2 := b1 l' hl.symm h2
  have lt : ∀ L : Nat → Nat, (∀ i < l.length, L i < 2 ^ P.bits) → value P.bits l.length L < ScalarRepr.order F := by
    intro L hL
    refine lt_of_lt_of_le (value_lt _ _ _ hL) (le_trans (Nat.pow_le_pow_right (by norm_num) ?_) hF)
    exact Nat.mul_le_mul_left _ hk
  have h := congrArg ScalarRepr.val h
  rw [ScalarRepr.val_cast _ (lt _ v1), ScalarRepr.val_cast _ (lt _ v2)] at h
  have e := value_inj _ _ _ _ v1 v2 h
  refine List.ext_getElem hl (fun i hi hi' => ?_)
  have := e i hi
  rw [List.getElem?_eq_getElem hi, List.getElem?_eq_getElem hi', Option.getD_some, Option.getD_some] at this
  rw [← ScalarRepr.cast_val l[i], ← ScalarRepr.cast_val l'[i], this]

theorem packLimbs_inj (P : Params) (hk : 0 < perWord P) (hF : 2 ^ 254 ≤ ScalarRepr.order F) (l l' : List F)
    (hl : l.length = l'.length) (h1 : ∀ x ∈ l, ScalarRepr.val x < 2 ^ P.bits)
    (h2 : ∀ x ∈ l', ScalarRepr.val x < 2 ^ P.bits) (h : packLimbs P l = packLimbs P l') : l = l' := by
  have hF' : 2 ^ (P.bits * perWord P) ≤ ScalarRepr.order F :=
    le_trans (Nat.pow_le_pow_right (by norm_num) (Nat.mul_div_le 254 P.bits)) hF
  rw [← chunks_flatten (perWord P) hk l, ← chunks_flatten (perWord P) hk l']
  congr 1
  unfold packLimbs at h
  have hmem : ∀ (m c : List F), (∀ x ∈ m, ScalarRepr.val x < 2 ^ P.bits) → c ∈ chunks (perWord P) m →
      ∀ x ∈ c, ScalarRepr.val x < 2 ^ P.bits := by
    intro m c hm hc x hx
    refine hm x ?_
    rw [← chunks_flatten (perWord P) hk m]
    exact List.mem_flatten.mpr ⟨c, hc, hx⟩
  have hlen : (chunks (perWord P) l).length = (chunks (perWord P) l').length := by unfold chunks; simp [hl]
  refine List.ext_getElem hlen (fun i hi hi' => ?_)
  refine packWord_inj P (perWord P) hF' _ _ ?_ (chunks_length _ _ _ (List.getElem_mem _))
    (hmem l _ h1 (List.getElem_mem _)) (hmem l' _ h2 (List.getElem_mem _)) ?_
  · rw [chunks_getElem, chunks_getElem, List.length_take, List.length_drop, List.length_take, List.length_drop, hl]
  · have := congrArg (fun l => l[i]?) h
    simpa [List.getElem?_eq_getElem hi, List.getElem?_eq_getElem hi'] using this

omit [ScalarRepr F] in
theorem ofBig_limbs_length (P : Params) (v : Nat) : (ofBig P v : Sim F).limbs.length = P.limbs := by
  obtain ⟨L, h1, -, -⟩ := splitLimbs_spec P.bits P.limbs v
  unfold ofBig
  simp [h1]

theorem ofBig_limbs_lt (P : Params) (hF : 2 ^ P.bits ≤ ScalarRepr.order F) (v : Nat) :
    ∀ x ∈ (ofBig P v : Sim F).limbs, ScalarRepr.val x < 2 ^ P.bits := by
  obtain ⟨L, h1, h2, -⟩ := splitLimbs_spec P.bits P.limbs v
  intro x hx
  unfold ofBig at hx
  rw [h1] at hx
  simp only [List.map_map, List.mem_map, List.mem_range, Function.comp_apply] at hx
  obtain ⟨i, hi, rfl⟩ := hx
  have := h2 i hi
  have hlt : L i < 2 ^ P.bits := by rw [this]; exact Nat.mod_lt _ (by positivity)
  rw [ScalarRepr.val_cast _ (by omega)]
  exact hlt

theorem ofBig_limbs_inj (P : Params) (hF : 2 ^ P.bits ≤ ScalarRepr.order F) (v v' : Nat)
    (hv : v < 2 ^ (P.bits * P.limbs)) (hv' : v' < 2 ^ (P.bits * P.limbs))
    (h : (ofBig P v : Sim F).limbs = (ofBig P v' : Sim F).limbs) : v = v' := by
  obtain ⟨L, h1, h2, h3⟩ := splitLimbs_spec P.bits P.limbs v
  obtain ⟨M, g1, g2, g3⟩ := splitLimbs_spec P.bits P.limbs v'
  rw [Nat.mod_eq_of_lt hv] at h3
  rw [Nat.mod_eq_of_lt hv'] at g3
  rw [← h3, ← g3]
  refine value_congr _ _ _ _ (fun i hi => ?_)
  unfold ofBig at h
  rw [h1, g1] at h
  have := congrArg (fun l => l[i]?) h
  simp only [List.map_map, List.getElem?_map, List.getElem?_range hi, Option.map_some, Option.some.injEq,
    Function.comp_apply] at this
  have lt : ∀ a : Nat, a % 2 ^ P.bits < ScalarRepr.order F := fun a =>
    lt_of_lt_of_le (Nat.mod_lt _ (by positivity)) hF
  have e := congrArg ScalarRepr.val this
  rwa [h2 i hi, g2 i hi, ScalarRepr.val_cast _ (lt _), ScalarRepr.val_cast _ (lt _), ← h2 i hi, ← g2 i hi] at e

theorem flatMap_limbs_inj (P : Params) (hF : 2 ^ P.bits ≤ ScalarRepr.order F) (l l' : List Nat) (hl : l.length = l'.length)
    (h1 : ∀ v ∈ l, v < 2 ^ (P.bits * P.limbs)) (h2 : ∀ v ∈ l', v < 2 ^ (P.bits * P.limbs))
    (h : l.flatMap (fun v => (ofBig P v : Sim F).limbs) = l'.flatMap (fun v => (ofBig P v : Sim F).limbs)) : l = l' := by
  induction l generalizing l' with
  | nil => cases l' with
    | nil => rfl
    | cons => simp at hl
  | cons v l ih => cases l' with
    | nil => simp at hl
    | cons v' l' =>
      rw [List.flatMap_cons, List.flatMap_cons] at h
      obtain ⟨e1, e2⟩ := List.append_inj h (by rw [ofBig_limbs_length, ofBig_limbs_length])
      rw [ofBig_limbs_inj P hF v v' (h1 v (by simp)) (h2 v' (by simp)) e1,
        ih l' (by simpa using hl) (fun x hx => h1 x (by simp [hx])) (fun x hx => h2 x (by simp [hx])) e2]

omit [ScalarRepr F] in
theorem flatMap_limbs_length (P : Params) (l : List Nat) :
    (l.flatMap (fun v => (ofBig P v : Sim F).limbs)).length = l.length * P.limbs := by
  induction l with
  | nil => simp
  | cons v l ih => rw [List.flatMap_cons, List.length_append, ih, ofBig_limbs_length, List.length_cons]; ring

/-! ### Sponge -/

omit [ScalarRepr F] in
theorem chain_inj (p : Rescue.Params F) (n : Nat) (h h' : F) (l l' : List F) (o : F) (hn : l.length ≤ n)
    (hl : l.length = l'.length) (e : chain p h l = some o) (e' : chain p h' l' = some o) :
    (h = h' ∧ l = l') ∨ Collide p (chainCalls p h l) (chainCalls p h' l') := by
  induction n generalizing h h' l l' with
  | zero =>
    obtain rfl := List.length_eq_zero_iff.mp (Nat.le_zero.mp hn)
    obtain rfl := List.length_eq_zero_iff.mp hl.symm
    rw [chain] at e e'
    exact Or.inl ⟨Option.some.inj (e.trans e'.symm), rfl⟩
  | succ n ih =>
    match l, l', hl with
    | [], [], _ =>
      rw [chain] at e e'
      exact Or.inl ⟨Option.some.inj (e.trans e'.symm), rfl⟩
    | [a], _, _ => simp [chain] at e
    | [a, b], _, _ => simp [chain] at e
    | a :: b :: c :: rest, a' :: b' :: c' :: rest', hl =>
      rw [chain] at e e'
      rw [chainCalls, chainCalls]
      rcases ih _ _ rest rest' (by simp only [List.length_cons] at hn; omega) (by simpa using hl) e e' with ⟨e1, e2⟩ | ⟨i, s, s', c1, c2, c3⟩
      · by_cases ht : (h, a, b, c) = (h', a', b', c')
        · obtain ⟨r1, r2, r3, r4⟩ := by simpa using ht
          exact Or.inl ⟨r1, by rw [r2, r3, r4, e2]⟩
        · exact Or.inr ⟨0, _, _, rfl, rfl, ht, e1⟩
      · exact Or.inr ⟨i + 1, s, s', by simpa using c1, by simpa using c2, c3⟩

theorem resize_inj {α : Type} (z : α) (l l' : List α) (hl : l.length = l'.length) (h : resize z l = resize z l') : l = l' := by
  unfold resize at h
  rw [← hl] at h
  have hm : l.length ≤ (l.length - 1 + 2) / 3 * 3 + 1 := by omega
  have := congrArg (List.take l.length) h
  rw [List.take_take, List.take_take, Nat.min_eq_left hm, List.take_append_of_le_length (le_refl _), List.take_length,
    List.take_append_of_le_length (by omega), hl, List.take_length] at this
  exact this

omit [ScalarRepr F] in
theorem sponge_inj (p : Rescue.Params F) (l l' : List F) (r r' o : F) (hl : l.length = l'.length)
    (e : sponge p l r = some o) (e' : sponge p l' r' = some o) :
    (l = l' ∧ r = r') ∨ Collide p (spongeCalls p l r) (spongeCalls p l' r') := by
  have key : resize 0 (l ++ [r]) = resize 0 (l' ++ [r']) → l = l' ∧ r = r' := by
    intro h
    have := resize_inj 0 _ _ (by simp [hl]) h
    obtain ⟨h1, h2⟩ := List.append_inj this hl
    exact ⟨h1, by simpa using h2⟩
  have hlen : (resize 0 (l ++ [r])).length = (resize 0 (l' ++ [r'])).length := by
    unfold resize
    simp [hl]
  unfold sponge at e e'
  unfold spongeCalls
  generalize resize 0 (l ++ [r]) = m at *
  generalize resize 0 (l' ++ [r']) = m' at *
  match m, m', hlen with
  | [], _, _ => simp at e
  | [a], _, _ => simp at e
  | [a, b], _, _ => simp at e
  | [a, b, c], _, _ => simp at e
  | a :: b :: c :: d :: rest, a' :: b' :: c' :: d' :: rest', hlen =>
    simp only at e e' ⊢
    rcases chain_inj p _ _ _ rest rest' o (le_refl _) (by simpa using hlen) e e' with ⟨e1, e2⟩ | ⟨i, s, s', c1, c2, c3⟩
    · by_cases ht : (a, b, c, d) = (a', b', c', d')
      · left
        apply key
        obtain ⟨r1, r2, r3, r4⟩ := by simpa using ht
        rw [r1, r2, r3, r4, e2]
      · exact Or.inr ⟨0, _, _, rfl, rfl, ht, e1⟩
    · exact Or.inr ⟨i + 1, s, s', by simpa using c1, by simpa using c2, c3⟩

/-! ### C65 -/

/-- **C65 (the state commitment is binding).**  Two openings of the same commitment, with as many values and
randomizer scalars, are the same, unless the two computations contain a collision of the permutation's first output at
the same place. -/
theorem C65_state_commitment_binding (p : Rescue.Params F) (P : Params) (hb : P.bits ≠ 0 ∧ P.bits ≤ 254)
    (hF : 2 ^ 254 ≤ ScalarRepr.order F) (data rand data' rand' : List Nat) (r r' k : F)
    (hd : data.length = data'.length) (hr : rand.length = rand'.length)
    (hlt : ∀ v ∈ data ++ rand ++ data' ++ rand', v < 2 ^ (P.bits * P.limbs))
    (e : stateComm p P data rand r = some k) (e' : stateComm p P data' rand' r' = some k) :
    (data = data' ∧ rand = rand' ∧ r = r') ∨
      Collide p (spongeCalls p (packLimbs P (stateLimbs P data rand)) r)
        (spongeCalls p (packLimbs P (stateLimbs P data' rand')) r') := by
  have hF' : 2 ^ P.bits ≤ ScalarRepr.order F := le_trans (Nat.pow_le_pow_right (by norm_num) hb.2) hF
  have hk : 0 < perWord P := Nat.div_pos hb.2 (Nat.pos_of_ne_zero hb.1)
  have hll : (stateLimbs P data rand : List F).length = (stateLimbs P data' rand' : List F).length := by
    unfold stateLimbs
    rw [List.length_append, List.length_append, flatMap_limbs_length, flatMap_limbs_length, flatMap_limbs_length,
      flatMap_limbs_length, hd, hr]
  have hsm : ∀ d r : List Nat, ∀ x ∈ (stateLimbs P d r : List F), ScalarRepr.val x < 2 ^ P.bits := by
    intro d r x hx
    unfold stateLimbs at hx
    rcases List.mem_append.mp hx with hx | hx
    · obtain ⟨v, _, hv⟩ := List.mem_flatMap.mp hx
      exact ofBig_limbs_lt P hF' v x hv
    · obtain ⟨v, _, hv⟩ := List.mem_flatMap.mp hx
      exact ofBig_limbs_lt P hF' v x hv
  rcases sponge_inj p _ _ r r' k (by unfold packLimbs chunks; simp [hll]) e e' with ⟨h1, h2⟩ | h
  · left
    have := packLimbs_inj P hk hF _ _ hll (hsm _ _) (hsm _ _) h1
    unfold stateLimbs at this
    obtain ⟨e1, e2⟩ := List.append_inj this (by rw [flatMap_limbs_length, flatMap_limbs_length, hd])
    exact ⟨flatMap_limbs_inj P hF' _ _ hd (fun v hv => hlt v (by simp [hv])) (fun v hv => hlt v (by simp [hv])) e1,
      flatMap_limbs_inj P hF' _ _ hr (fun v hv => hlt v (by simp [hv])) (fun v hv => hlt v (by simp [hv])) e2, h2⟩
  · exact Or.inr h

omit [ScalarRepr F] in
theorem chain_some (p : Rescue.Params F) (n : Nat) (h : F) (l : List F) (hl : l.length = 3 * n) : ∃ o, chain p h l = some o := by
  induction n generalizing h l with
  | zero =>
    obtain rfl := List.length_eq_zero_iff.mp hl
    exact ⟨h, rfl⟩
  | succ n ih =>
    match l, hl with
    | [], hl => simp at hl
    | [a], hl => simp only [List.length_cons, List.length_nil] at hl; omega
    | [a, b], hl => simp only [List.length_cons, List.length_nil] at hl; omega
    | a :: b :: c :: rest, hl =>
      rw [chain]
      exact ih _ rest (by simp only [List.length_cons] at hl; omega)

omit [ScalarRepr F] in
theorem sponge_some (p : Rescue.Params F) (l : List F) (r : F) (hl : l ≠ []) : ∃ o, sponge p l r = some o := by
  have hpos : 0 < l.length := List.length_pos_iff.mpr hl
  have hlen : ∃ n, (resize 0 (l ++ [r])).length = 3 * n + 4 := by
    unfold resize
    simp only [List.length_take, List.length_append, List.length_replicate, List.length_singleton]
    exact ⟨(l.length + 2) / 3 - 1, by omega⟩
  obtain ⟨n, hn⟩ := hlen
  unfold sponge
  generalize resize 0 (l ++ [r]) = m at *
  match m, hn with
  | [], hn => simp at hn
  | [a], hn => simp at hn
  | [a, b], hn => simp at hn
  | [a, b, c], hn => simp at hn
  | a :: b :: c :: d :: rest, hn => exact chain_some p n _ rest (by simpa using hn)

/-- C65: the commitment to a non-empty state is computed without panic; the empty state panics. -/
theorem C65_state_commitment_total (p : Rescue.Params F) (P : Params) (hb : P.bits ≠ 0 ∧ P.bits ≤ 254) (hl : P.limbs ≠ 0)
    (data rand : List Nat) (r : F) : (∃ k, stateComm p P data rand r = some k) ↔ data ++ rand ≠ [] := by
  have hk : 0 < perWord P := Nat.div_pos hb.2 (Nat.pos_of_ne_zero hb.1)
  constructor
  · rintro ⟨k, h⟩ he
    obtain ⟨rfl, rfl⟩ := List.append_eq_nil_iff.mp he
    have : (packLimbs P (stateLimbs P [] [] : List F)) = [] := by
      simp [packLimbs, stateLimbs, chunks, Nat.div_eq_of_lt (show 0 + perWord P - 1 < perWord P by omega)]
      omega
    unfold stateComm at h
    rw [this] at h
    simp [sponge, resize] at h
  · intro he
    refine sponge_some p _ r (fun h => he ?_)
    have h0 : (stateLimbs P data rand : List F) = [] := by
      rw [← chunks_flatten (perWord P) hk (stateLimbs P data rand)]
      unfold packLimbs at h
      rw [List.map_eq_nil_iff.mp h]
      rfl
    have := congrArg List.length h0
    unfold stateLimbs at this
    rw [List.length_append, flatMap_limbs_length, flatMap_limbs_length, List.length_nil] at this
    have h1 : data.length * P.limbs = 0 := by omega
    have h2 : rand.length * P.limbs = 0 := by omega
    rcases Nat.mul_eq_zero.mp h1 with h1 | h1
    · rcases Nat.mul_eq_zero.mp h2 with h2 | h2
      · rw [List.length_eq_zero_iff.mp h1, List.length_eq_zero_iff.mp h2]; rfl
      · exact absurd h2 hl
    · exact absurd h1 hl

/-! ### Concrete cases -/

section Examples
open Verif.SimFr

/-- the hypotheses of `C65_state_commitment_binding` are met by the parameters of both curves over any field of 254 bits or
more: an opening is equal to itself or collides with itself -/
example (p : Rescue.Params F) (hF : 2 ^ 254 ≤ ScalarRepr.order F) (P : Params) (h : P = ristretto ∨ P = secq256k1) :
    ∃ k, stateComm p P [5, 7, 3] [100, 200, 300] (9 : F) = some k ∧
      ∀ d0 d1 d2 r0 r1 r2 : Nat, (∀ v ∈ [d0, d1, d2, r0, r1, r2], v < 2 ^ 255) → ∀ r,
        stateComm p P [d0, d1, d2] [r0, r1, r2] r = some k →
        ([5, 7, 3] = [d0, d1, d2] ∧ [100, 200, 300] = [r0, r1, r2] ∧ 9 = r) ∨
        Collide p (spongeCalls p (packLimbs P (stateLimbs P [5, 7, 3] [100, 200, 300])) 9)
          (spongeCalls p (packLimbs P (stateLimbs P [d0, d1, d2] [r0, r1, r2])) r) := by
  have hb : P.bits ≠ 0 ∧ P.bits ≤ 254 ∧ P.limbs ≠ 0 ∧ 255 ≤ P.bits * P.limbs := by
    rcases h with rfl | rfl <;> decide
  obtain ⟨k, hk⟩ := (C65_state_commitment_total p P ⟨hb.1, hb.2.1⟩ hb.2.2.1 [5, 7, 3] [100, 200, 300] 9).mpr (by simp)
  refine ⟨k, hk, fun d0 d1 d2 r0 r1 r2 hv r hr => ?_⟩
  refine C65_state_commitment_binding p P ⟨hb.1, hb.2.1⟩ hF _ _ _ _ _ _ k rfl rfl ?_ hk hr
  intro v hm
  refine lt_of_lt_of_le (b := 2 ^ 255) ?_ (Nat.pow_le_pow_right (by norm_num) hb.2.2.2)
  simp only [List.cons_append, List.nil_append, List.mem_cons, List.not_mem_nil, or_false] at hm hv
  rcases hm with rfl | rfl | rfl | rfl | rfl | rfl | h
  any_goals norm_num
  exact hv v h

/-- an empty state panics -/
example (p : Rescue.Params F) (r : F) : ¬ ∃ k, stateComm p ristretto [] [] r = some k := by
  rw [C65_state_commitment_total p ristretto ⟨by decide, by decide⟩ (by decide)]
  simp

end Examples

end Verif.StateComm
