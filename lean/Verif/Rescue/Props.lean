import Mathlib.Tactic.Ring
import Mathlib.Tactic.LinearCombination
import Verif.Rescue.Model

/-!
Property C42: Rescue is a permutation, online and precomputed round keys agree, the inverse exponent is right.
-/

namespace Verif.Rescue

namespace Spec

variable {F : Type} [Field F]

/-- The keyed block function with precomputed round keys: add the first key; then at each step apply the S-box
(`x ↦ x^(1/α)` at even, `x ↦ x^α` at odd steps), multiply by the MDS matrix and add the step's key. -/
def cipher (mds : State F → State F) (powInv pow : F → F) : List (State F) → State F → State F
  | [], x => x
  | k0 :: ks, x => ks.zipIdx.foldl (fun s ki =>
      let f := if ki.2 % 2 = 0 then powInv else pow
      let s' := mds (f s.1, f s.2.1, f s.2.2.1, f s.2.2.2)
      (s'.1 + ki.1.1, s'.2.1 + ki.1.2.1, s'.2.2.1 + ki.1.2.2.1, s'.2.2.2 + ki.1.2.2.2))
      (x.1 + k0.1, x.2.1 + k0.2.1, x.2.2.1 + k0.2.2.1, x.2.2.2 + k0.2.2.2)

/-- product of a matrix, given by its rows, and a vector -/
def mulVec (m : State (State F)) (v : State F) : State F :=
  let row (r : State F) : F := r.1 * v.1 + r.2.1 * v.2.1 + r.2.2.1 * v.2.2.1 + r.2.2.2 * v.2.2.2
  (row m.1, row m.2.1, row m.2.2.1, row m.2.2.2)

end Spec

open Spec

variable {F : Type} [Field F] (p : Params F)

/-- the block function of the parameters `p` -/
def block (keys : List (State F)) : State F → State F :=
  cipher (mulVec p.mds) (· ^ limbs64 p.alphaInv) (· ^ p.alpha) keys

theorem linearOp_eq (m : State (State F)) (v c : State F) :
    linearOp m v c = addState (mulVec m v) c := by
  simp only [linearOp, rowOp, addState, mulVec, Prod.mk.injEq]
  refine ⟨?_, ?_, ?_, ?_⟩ <;> ring

/-- one step of the block function -/
def blockStep (s : State F) (ki : State F × Nat) : State F := linearOp p.mds (sbox p s ki.2) ki.1

theorem block_cons (k0 : State F) (ks : List (State F)) (x : State F) :
    block p (k0 :: ks) x = ks.zipIdx.foldl (blockStep p) (addState x k0) := by
  have h : (fun (s : State F) (ki : State F × Nat) =>
      let f : F → F := if ki.2 % 2 = 0 then (· ^ limbs64 p.alphaInv) else (· ^ p.alpha)
      let s' := mulVec p.mds (f s.1, f s.2.1, f s.2.2.1, f s.2.2.2)
      ((s'.1 + ki.1.1, s'.2.1 + ki.1.2.1, s'.2.2.1 + ki.1.2.2.1, s'.2.2.2 + ki.1.2.2.2) : State F)) =
      blockStep p := by
    funext s ki
    unfold blockStep
    rw [linearOp_eq]
    unfold sbox powVector addState
    split <;> rfl
  rw [← h]
  rfl

/-- the round keys and the injections of both loops agree -/
theorem key_loop (n : Nat) (key : State F) :
    let K := (List.range n).foldl (keyStep p) (p.ic, addState key p.ic, [addState key p.ic])
    ∃ ks, K.2.2 = addState key p.ic :: ks ∧ ks.length = n ∧
      ∀ x, (List.range n).foldl (rescueRound p) (x, addState key p.ic, p.ic) =
        (ks.zipIdx.foldl (blockStep p) x, K.2.1, K.1) := by
  induction n with
  | zero => exact ⟨[], rfl, rfl, fun x => rfl⟩
  | succ n ih =>
    obtain ⟨ks, h1, h2, h3⟩ := ih
    refine ⟨ks ++ [linearOp p.mds (sbox p ((List.range n).foldl (keyStep p)
      (p.ic, addState key p.ic, [addState key p.ic])).2.1 n) (linearOp p.k ((List.range n).foldl (keyStep p)
      (p.ic, addState key p.ic, [addState key p.ic])).1 p.c)], ?_, by simp [h2], ?_⟩
    · rw [List.range_succ, List.foldl_append]
      simp only [List.foldl_cons, List.foldl_nil, keyStep, h1, List.cons_append]
    · intro x
      rw [List.range_succ, List.foldl_append, List.foldl_append, h3 x]
      rw [List.zipIdx_append, List.foldl_append]
      simp only [List.foldl_cons, List.foldl_nil, rescueRound, keyStep, h2, List.zipIdx_cons, List.zipIdx_nil,
        blockStep, Nat.zero_add]

/-- C42: the permutation computed with round keys sampled online is the block function with the precomputed keys
of the zero key, and the key schedule yields one key more than there are steps. -/
theorem C42_online_keys (x : State F) :
    rescue p x = block p (keyScheduling p (0, 0, 0, 0)) x ∧
    ∀ key, (keyScheduling p key).length = 2 * p.numRounds + 1 := by
  constructor
  · obtain ⟨ks, h1, -, h3⟩ := key_loop p (2 * p.numRounds) (0, 0, 0, 0)
    have h0 : addState (0, 0, 0, 0) p.ic = p.ic := by simp [addState]
    rw [h0] at h1 h3
    unfold rescue keyScheduling
    rw [h0, h1, block_cons, h3]
  · intro key
    obtain ⟨ks, h1, h2, -⟩ := key_loop p (2 * p.numRounds) key
    unfold keyScheduling
    rw [h1]
    simp [h2]

/-- C42: with S-boxes and matrix injective, the block function is a bijection of the states for all round keys. -/
theorem C42_block_bijective [Finite F] (h5 : Function.Injective (fun x : F => x ^ p.alpha))
    (hi : Function.Injective (fun x : F => x ^ limbs64 p.alphaInv)) (hm : Function.Injective (mulVec p.mds))
    (keys : List (State F)) : Function.Bijective (block p keys) := by
  refine Finite.injective_iff_bijective.mp ?_
  have hadd : ∀ k : State F, Function.Injective (fun x => addState x k) := by
    intro k x y h
    simp only [addState, Prod.mk.injEq, add_left_inj] at h
    exact Prod.ext h.1 (Prod.ext h.2.1 (Prod.ext h.2.2.1 h.2.2.2))
  have hbox : ∀ i, Function.Injective (fun x => sbox p x i) := by
    intro i x y h
    simp only [sbox] at h
    split at h
    · simp only [powVector, Prod.mk.injEq] at h
      exact Prod.ext (hi h.1) (Prod.ext (hi h.2.1) (Prod.ext (hi h.2.2.1) (hi h.2.2.2)))
    · simp only [powVector, Prod.mk.injEq] at h
      exact Prod.ext (h5 h.1) (Prod.ext (h5 h.2.1) (Prod.ext (h5 h.2.2.1) (h5 h.2.2.2)))
  have hfold : ∀ (l : List (State F × Nat)), Function.Injective (fun x => l.foldl (blockStep p) x) := by
    intro l
    induction l with
    | nil => exact fun _ _ h => h
    | cons ki l ih =>
      intro x y h
      have := ih h
      simp only [blockStep, linearOp_eq] at this
      exact hbox _ (hm (hadd _ this))
  cases keys with
  | nil => exact fun _ _ h => h
  | cons k0 ks =>
    intro x y h
    rw [block_cons, block_cons] at h
    exact hadd k0 (hfold _ h)

/-! ### The BLS12-381 instance -/

theorem alphaInv_val : limbs64 blsParams.alphaInv =
    20974350070050476191779096203274386335076221000211055129041463479975432473805 := by
  norm_num [limbs64, blsParams]

/-- exponents congruent to one modulo the group order act trivially -/
theorem pow_trivial (x : ZMod Bls.r) (n : Nat) (k : Nat) (h : n = k * (Bls.r - 1) + 1) : x ^ n = x := by
  subst h
  by_cases hx : x = 0
  · subst hx
    rw [zero_pow (Nat.succ_ne_zero _)]
  · rw [pow_succ, mul_comm k, pow_mul, ZMod.pow_card_sub_one_eq_one hx, one_pow, one_mul]

/-- C42: `x ↦ x^5` and `x ↦ x^ALPHA_INV` are inverse to each other on the whole field. -/
theorem C42_alpha_inverse (x : ZMod Bls.r) :
    (x ^ blsParams.alpha) ^ limbs64 blsParams.alphaInv = x ∧ (x ^ limbs64 blsParams.alphaInv) ^ blsParams.alpha = x ∧
      blsParams.alpha = 5 := by
  rw [alphaInv_val]
  have ha : blsParams.alpha = 5 := rfl
  rw [ha, ← pow_mul, ← pow_mul]
  exact ⟨pow_trivial x _ 2 (by norm_num), pow_trivial x _ 2 (by norm_num), rfl⟩

/-- inverse of the MDS matrix -/
def mdsInv : State (State (ZMod Bls.r)) :=
    ((22922488726920441052011226392697914029896572921284742429058959505195246281294, 45640135682529245941181621277243747849303558023336925351504138250368534377419, 50842506308828337280831299464770681152995028312566955579526300797599586142188, 15287427164759822297215084696264129981833980320853538723791154139923784601900),
     (18352085077552902901977801885207164617606855088800737704769694051352548355411, 45370605166208388313976191525801569860612025628067280567797022934705986617639, 29153379197118162623143275960578435818269573694243503656222809145245992904499, 13293821867151347511925199161383970990325426560644271122872266895962295140549),
     (17071639282219080110133619970761666038758944307992836525425346570002453073160, 1310151965110528888418821566508024659359641538186065843452738792230645138124, 37066715129622512065946514082931788020697976920710428554589734830106237559464, 39027509028635388905412212578086546409891909236021577794424851669458489757005),
     (46525537263559956894772832767705186989118732682976958985953317273326914659162, 12550857536404217815318846646818589306105879811465003882453417422571996235845, 40245024889809559468422132016276992521109078574062025677472131326863926947389, 37262992289705822244342984580637284293329788883535888004119044694532592869573))

/-- a left inverse, entry by entry -/
theorem mulVec_inv (n m : State (State F)) (v : State F)
    (h00 : n.1.1 * m.1.1 + n.1.2.1 * m.2.1.1 + n.1.2.2.1 * m.2.2.1.1 + n.1.2.2.2 * m.2.2.2.1 = 1)
    (h01 : n.1.1 * m.1.2.1 + n.1.2.1 * m.2.1.2.1 + n.1.2.2.1 * m.2.2.1.2.1 + n.1.2.2.2 * m.2.2.2.2.1 = 0)
    (h02 : n.1.1 * m.1.2.2.1 + n.1.2.1 * m.2.1.2.2.1 + n.1.2.2.1 * m.2.2.1.2.2.1 + n.1.2.2.2 * m.2.2.2.2.2.1 = 0)
    (h03 : n.1.1 * m.1.2.2.2 + n.1.2.1 * m.2.1.2.2.2 + n.1.2.2.1 * m.2.2.1.2.2.2 + n.1.2.2.2 * m.2.2.2.2.2.2 = 0)
    (h10 : n.2.1.1 * m.1.1 + n.2.1.2.1 * m.2.1.1 + n.2.1.2.2.1 * m.2.2.1.1 + n.2.1.2.2.2 * m.2.2.2.1 = 0)
    (h11 : n.2.1.1 * m.1.2.1 + n.2.1.2.1 * m.2.1.2.1 + n.2.1.2.2.1 * m.2.2.1.2.1 + n.2.1.2.2.2 * m.2.2.2.2.1 = 1)
    (h12 : n.2.1.1 * m.1.2.2.1 + n.2.1.2.1 * m.2.1.2.2.1 + n.2.1.2.2.1 * m.2.2.1.2.2.1 + n.2.1.2.2.2 * m.2.2.2.2.2.1 = 0)
    (h13 : n.2.1.1 * m.1.2.2.2 + n.2.1.2.1 * m.2.1.2.2.2 + n.2.1.2.2.1 * m.2.2.1.2.2.2 + n.2.1.2.2.2 * m.2.2.2.2.2.2 = 0)
    (h20 : n.2.2.1.1 * m.1.1 + n.2.2.1.2.1 * m.2.1.1 + n.2.2.1.2.2.1 * m.2.2.1.1 + n.2.2.1.2.2.2 * m.2.2.2.1 = 0)
    (h21 : n.2.2.1.1 * m.1.2.1 + n.2.2.1.2.1 * m.2.1.2.1 + n.2.2.1.2.2.1 * m.2.2.1.2.1 + n.2.2.1.2.2.2 * m.2.2.2.2.1 = 0)
    (h22 : n.2.2.1.1 * m.1.2.2.1 + n.2.2.1.2.1 * m.2.1.2.2.1 + n.2.2.1.2.2.1 * m.2.2.1.2.2.1 + n.2.2.1.2.2.2 * m.2.2.2.2.2.1 = 1)
    (h23 : n.2.2.1.1 * m.1.2.2.2 + n.2.2.1.2.1 * m.2.1.2.2.2 + n.2.2.1.2.2.1 * m.2.2.1.2.2.2 + n.2.2.1.2.2.2 * m.2.2.2.2.2.2 = 0)
    (h30 : n.2.2.2.1 * m.1.1 + n.2.2.2.2.1 * m.2.1.1 + n.2.2.2.2.2.1 * m.2.2.1.1 + n.2.2.2.2.2.2 * m.2.2.2.1 = 0)
    (h31 : n.2.2.2.1 * m.1.2.1 + n.2.2.2.2.1 * m.2.1.2.1 + n.2.2.2.2.2.1 * m.2.2.1.2.1 + n.2.2.2.2.2.2 * m.2.2.2.2.1 = 0)
    (h32 : n.2.2.2.1 * m.1.2.2.1 + n.2.2.2.2.1 * m.2.1.2.2.1 + n.2.2.2.2.2.1 * m.2.2.1.2.2.1 + n.2.2.2.2.2.2 * m.2.2.2.2.2.1 = 0)
    (h33 : n.2.2.2.1 * m.1.2.2.2 + n.2.2.2.2.1 * m.2.1.2.2.2 + n.2.2.2.2.2.1 * m.2.2.1.2.2.2 + n.2.2.2.2.2.2 * m.2.2.2.2.2.2 = 1)
    : mulVec n (mulVec m v) = v := by
  simp only [mulVec]
  refine Prod.ext ?_ (Prod.ext ?_ (Prod.ext ?_ ?_))
  · simp only; linear_combination h00 * v.1 + h01 * v.2.1 + h02 * v.2.2.1 + h03 * v.2.2.2
  · simp only; linear_combination h10 * v.1 + h11 * v.2.1 + h12 * v.2.2.1 + h13 * v.2.2.2
  · simp only; linear_combination h20 * v.1 + h21 * v.2.1 + h22 * v.2.2.1 + h23 * v.2.2.2
  · simp only; linear_combination h30 * v.1 + h31 * v.2.1 + h32 * v.2.2.1 + h33 * v.2.2.2

theorem mds_left_inverse (v : State (ZMod Bls.r)) : mulVec mdsInv (mulVec blsParams.mds v) = v := by
  refine mulVec_inv _ _ v ?_ ?_ ?_ ?_ ?_ ?_ ?_ ?_ ?_ ?_ ?_ ?_ ?_ ?_ ?_ ?_ <;>
    simp only [mdsInv, blsParams] <;> reduce_mod_char

/-- C42: for every key, the Rescue block function over the BLS12-381 scalar field is a bijection of the states. -/
theorem C42_keyed_bijective (key : State (ZMod Bls.r)) :
    Function.Bijective (block blsParams (keyScheduling blsParams key)) := by
  refine C42_block_bijective blsParams ?_ ?_ ?_ _
  · exact Function.LeftInverse.injective (g := fun x => x ^ limbs64 blsParams.alphaInv)
      (fun x => (C42_alpha_inverse x).1)
  · exact Function.LeftInverse.injective (g := fun x => x ^ blsParams.alpha) (fun x => (C42_alpha_inverse x).2.1)
  · exact Function.LeftInverse.injective (g := mulVec mdsInv) mds_left_inverse

/-- C42: `rescue` is a bijection of the states. -/
theorem C42_rescue_bijective : Function.Bijective (rescue blsParams) := by
  have h : rescue blsParams = block blsParams (keyScheduling blsParams (0, 0, 0, 0)) := by
    funext x
    exact (C42_online_keys blsParams x).1
  rw [h]
  exact C42_keyed_bijective _

end Verif.Rescue
