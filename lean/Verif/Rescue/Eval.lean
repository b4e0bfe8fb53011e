import Verif.Rescue.Model

/-!
Evaluation of the Rescue permutation over the scalar field of BLS12-381 in the kernel, and the test vectors of
crypto/src/basic/rescue.rs:334-396.  The vectors tie the constants of `blsParams` and the order of the operations to the code.
-/

namespace Verif.Rescue

/-- a power modulo `m`, by the bits of the exponent, most significant first -/
def powBits (m x : Nat) : List Bool → Nat → Nat
  | [], acc => acc
  | b :: bs, acc => powBits m x bs (if b then acc * acc % m * x % m else acc * acc % m)

/-- the number with these bits, most significant first, after `e` -/
def msb : List Bool → Nat → Nat
  | [], e => e
  | b :: bs, e => msb bs (if b then 2 * e + 1 else 2 * e)

theorem powBits_cast (m x : Nat) (bs : List Bool) : ∀ (acc e : Nat), (acc : ZMod m) = (x : ZMod m) ^ e →
    ((powBits m x bs acc : Nat) : ZMod m) = (x : ZMod m) ^ msb bs e := by
  induction bs with
  | nil => exact fun acc e h => h
  | cons b bs ih =>
    intro acc e h
    unfold powBits msb
    apply ih
    cases b
    · simp only [Bool.false_eq_true, if_false, ZMod.natCast_mod, Nat.cast_mul, h]
      ring
    · simp only [if_true, ZMod.natCast_mod, Nat.cast_mul, h]
      ring

/-- the permutation on numbers: the instance over `Nat`, reduced modulo `m` after every operation, with the two exponents given by
their bits -/
structure NParams where
  mds : State (State Nat)
  ic : State Nat
  c : State Nat
  k : State (State Nat)

section
variable (m : Nat)

def mapSt {A B : Type} (f : A → B) (s : State A) : State B := (f s.1, f s.2.1, f s.2.2.1, f s.2.2.2)

def rowN (r v : State Nat) (c : Nat) : Nat := (c + r.1 * v.1 + r.2.1 * v.2.1 + r.2.2.1 * v.2.2.1 + r.2.2.2 * v.2.2.2) % m

def linN (r : State (State Nat)) (v c : State Nat) : State Nat :=
  (rowN m r.1 v c.1, rowN m r.2.1 v c.2.1, rowN m r.2.2.1 v c.2.2.1, rowN m r.2.2.2 v c.2.2.2)

def sboxN (inv al : List Bool) (v : State Nat) (i : Nat) : State Nat :=
  if i % 2 = 0 then mapSt (fun x => powBits m x inv 1) v else mapSt (fun x => powBits m x al 1) v

def roundN (n : NParams) (inv al : List Bool) (s : State Nat × State Nat × State Nat) (i : Nat) : State Nat × State Nat × State Nat :=
  let key := sboxN m inv al s.2.1 i
  let state := sboxN m inv al s.1 i
  let inj := linN m n.k s.2.2 n.c
  let key := linN m n.mds key inj
  (linN m n.mds state key, key, inj)

def rescueN (n : NParams) (inv al : List Bool) (rounds : Nat) (x : State Nat) : State Nat :=
  ((List.range (2 * rounds)).foldl (roundN m n inv al) ((x.1 + n.ic.1, x.2.1 + n.ic.2.1, x.2.2.1 + n.ic.2.2.1, x.2.2.2 + n.ic.2.2.2),
    n.ic, n.ic)).1

end

/-- from numbers to the field -/
def toF (m : Nat) (s : State Nat) : State (ZMod m) := mapSt (fun x : Nat => (x : ZMod m)) s

theorem linN_cast (m : Nat) [Fact m.Prime] (r : State (State Nat)) (v c : State Nat) :
    toF m (linN m r v c) = linearOp (mapSt (toF m) r) (toF m v) (toF m c) := by
  simp [toF, linN, linearOp, rowN, rowOp, mapSt, ZMod.natCast_mod]

theorem sboxN_cast (m : Nat) [Fact m.Prime] (p : Params (ZMod m)) (inv al : List Bool) (hi : limbs64 p.alphaInv = msb inv 0)
    (ha : p.alpha = msb al 0) (v : State Nat) (i : Nat) : toF m (sboxN m inv al v i) = sbox p (toF m v) i := by
  unfold sboxN sbox
  rw [hi, ha]
  split
  · simp only [toF, mapSt, powVector]
    rw [powBits_cast m _ inv 1 0 (by simp), powBits_cast m _ inv 1 0 (by simp), powBits_cast m _ inv 1 0 (by simp),
      powBits_cast m _ inv 1 0 (by simp)]
  · simp only [toF, mapSt, powVector]
    rw [powBits_cast m _ al 1 0 (by simp), powBits_cast m _ al 1 0 (by simp), powBits_cast m _ al 1 0 (by simp),
      powBits_cast m _ al 1 0 (by simp)]

/-- the permutation on numbers is the permutation of the model -/
theorem rescueN_cast (m : Nat) [Fact m.Prime] (p : Params (ZMod m)) (n : NParams) (inv al : List Bool)
    (hm : p.mds = mapSt (toF m) n.mds) (hic : p.ic = toF m n.ic) (hc : p.c = toF m n.c) (hk : p.k = mapSt (toF m) n.k)
    (hi : limbs64 p.alphaInv = msb inv 0) (ha : p.alpha = msb al 0) (x : State Nat) :
    rescue p (toF m x) = toF m (rescueN m n inv al p.numRounds x) := by
  unfold rescue rescueN
  generalize List.range (2 * p.numRounds) = l
  have key : ∀ (l : List Nat) (s : State Nat × State Nat × State Nat),
      l.foldl (rescueRound p) (toF m s.1, toF m s.2.1, toF m s.2.2) =
        (toF m (l.foldl (roundN m n inv al) s).1, toF m (l.foldl (roundN m n inv al) s).2.1, toF m (l.foldl (roundN m n inv al) s).2.2) := by
    intro l
    induction l with
    | nil => exact fun s => rfl
    | cons i l ih =>
      intro s
      rw [List.foldl_cons, List.foldl_cons, ← ih]
      congr 1
      unfold rescueRound roundN
      simp only [linN_cast, sboxN_cast m p inv al hi ha, hm, hc, hk]
  have h0 : addState (toF m x) p.ic = toF m (x.1 + n.ic.1, x.2.1 + n.ic.2.1, x.2.2.1 + n.ic.2.2.1, x.2.2.2 + n.ic.2.2.2) := by
    rw [hic]
    simp [addState, toF, mapSt]
  rw [h0, hic]
  exact congrArg Prod.fst (key l (_, n.ic, n.ic))

/-- the constants of `blsParams` as numbers -/
def blsN : NParams where
  mds := mapSt (mapSt ZMod.val) blsParams.mds
  ic := mapSt ZMod.val blsParams.ic
  c := mapSt ZMod.val blsParams.c
  k := mapSt (mapSt ZMod.val) blsParams.k

/-- the bits of a number, most significant first -/
def bitsOf (n e : Nat) : List Bool := ((List.range n).map (fun i => e.testBit i)).reverse

/-- the permutation of the code on numbers -/
def blsRescueN (x : State Nat) : State Nat := rescueN Bls.r blsN (bitsOf 256 (limbs64 blsParams.alphaInv)) (bitsOf 3 5) blsParams.numRounds x

theorem toF_val (s : State (ZMod Bls.r)) : toF Bls.r (mapSt ZMod.val s) = s := by
  simp [toF, mapSt]

theorem blsRescue_eval (x : State Nat) : rescue blsParams (toF Bls.r x) = toF Bls.r (blsRescueN x) := by
  unfold blsRescueN
  refine rescueN_cast Bls.r blsParams blsN _ _ ?_ (toF_val _).symm (toF_val _).symm ?_ (by decide +kernel) (by decide +kernel) x
  · simp only [blsN, mapSt]
    simp [toF, mapSt]
  · simp only [blsN, mapSt]
    simp [toF, mapSt]

/-- The two vectors of `test_rescue_hash`, rescue.rs:364-395, hold of the model. -/
theorem C42_test_vectors :
    rescue blsParams (0, 0, 0, 0) =
      (6038713180564719469093204954070454311200442976044511285254586065910759707410,
        34329261730165386599160041834212446483842299157433262004736471876736429833755,
        2862237230994348516440719507068326488024178021789155173222527361984277349895,
        43585057371572541667806316000947875129969521379933781949636379096285260817308) ∧
    rescue blsParams (42537060686398681068720905217220236844590933627861183801397355384184270218630,
        12225154963254549867036423973370419579530821253177826398645943378468081695636,
        24365514044908739860551540899404524528046031872121777535250238952975251078869, 0) =
      (35832061285584612018010978377396475516386148728568768102972061541748447218154,
        14982435907911263894119260171766443289460927159355495366027587674112560884509,
        45163412910076015540204938060153898258490893781185872331302937226715728232099,
        39714470008892548080624693423358217990644071107421276480773579042887134307768) := by
  have e1 : blsRescueN (0, 0, 0, 0) =
      (6038713180564719469093204954070454311200442976044511285254586065910759707410,
        34329261730165386599160041834212446483842299157433262004736471876736429833755,
        2862237230994348516440719507068326488024178021789155173222527361984277349895,
        43585057371572541667806316000947875129969521379933781949636379096285260817308) := by decide +kernel
  have e2 : blsRescueN (42537060686398681068720905217220236844590933627861183801397355384184270218630,
        12225154963254549867036423973370419579530821253177826398645943378468081695636,
        24365514044908739860551540899404524528046031872121777535250238952975251078869, 0) =
      (35832061285584612018010978377396475516386148728568768102972061541748447218154,
        14982435907911263894119260171766443289460927159355495366027587674112560884509,
        45163412910076015540204938060153898258490893781185872331302937226715728232099,
        39714470008892548080624693423358217990644071107421276480773579042887134307768) := by decide +kernel
  have h1 := blsRescue_eval (0, 0, 0, 0)
  have h2 := blsRescue_eval (42537060686398681068720905217220236844590933627861183801397355384184270218630,
        12225154963254549867036423973370419579530821253177826398645943378468081695636,
        24365514044908739860551540899404524528046031872121777535250238952975251078869, 0)
  rw [e1] at h1
  rw [e2] at h2
  simp only [toF, mapSt, Nat.cast_zero, Nat.cast_ofNat] at h1 h2
  exact ⟨h1, h2⟩

end Verif.Rescue
