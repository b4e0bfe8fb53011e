import Mathlib.Algebra.Field.ZMod
import Verif.Algebra.Bls

/-!
Model of the Rescue permutation, crypto/src/basic/rescue.rs.  States are 4-tuples: every vector of the code has
length `state_size() = 4` (asserted in `rescue`, lines 115 and 39-56).
-/

namespace Verif.Rescue

/-- a state (`RescueState`, rescue.rs:62) or a round key (`RoundKey`, rescue.rs:60) -/
abbrev State (F : Type) := F × F × F × F

/-- models `RescueInstance`, rescue.rs:38-57; `alphaInv` holds the `u64` limbs, least significant first -/
structure Params (F : Type) where
  mds : State (State F)
  ic : State F
  c : State F
  k : State (State F)
  alpha : Nat
  alphaInv : List Nat
  numRounds : Nat

/-- the integer represented by 64-bit limbs, least significant first -/
def limbs64 : List Nat → Nat
  | [] => 0
  | l :: ls => l + 2 ^ 64 * limbs64 ls

section
variable {F : Type} [Field F]

/-- componentwise sum, rescue.rs:87-91 and 124-128 -/
def addState (a b : State F) : State F := (a.1 + b.1, a.2.1 + b.2.1, a.2.2.1 + b.2.2.1, a.2.2.2 + b.2.2.2)

/-- one row of `linear_op`: the inner loop of rescue.rs:167-169 -/
def rowOp (m v : State F) (c : F) : F := c + m.1 * v.1 + m.2.1 * v.2.1 + m.2.2.1 * v.2.2.1 + m.2.2.2 * v.2.2.2

/-- models `linear_op`, rescue.rs:163-174 -/
def linearOp (m : State (State F)) (v c : State F) : State F :=
  (rowOp m.1 v c.1, rowOp m.2.1 v c.2.1, rowOp m.2.2.1 v c.2.2.1, rowOp m.2.2.2 v c.2.2.2)

/-- models `pow_vector`, rescue.rs:176-180; the limb exponent is given as a number (`BLSScalar::pow` calls the
arkworks exponentiation, algebra/src/bls12_381.rs:328) -/
def powVector (v : State F) (e : Nat) : State F := (v.1 ^ e, v.2.1 ^ e, v.2.2.1 ^ e, v.2.2.2 ^ e)

variable (p : Params F)

/-- the S-box of step `i`, rescue.rs:94-98 and 149-155 -/
def sbox (v : State F) (i : Nat) : State F :=
  if i % 2 = 0 then powVector v (limbs64 p.alphaInv) else powVector v p.alpha

/-- one iteration of the loop of rescue.rs:93-109 on (`key_injection`, `prev_key`, `keys`) -/
def keyStep (s : State F × State F × List (State F)) (i : Nat) : State F × State F × List (State F) :=
  let prev := sbox p s.2.1 i
  let inj := linearOp p.k s.1 p.c
  let prev := linearOp p.mds prev inj
  (inj, prev, s.2.2 ++ [prev])

/-- models `key_scheduling`, rescue.rs:85-111 -/
def keyScheduling (key : State F) : List (State F) :=
  ((List.range (2 * p.numRounds)).foldl (keyStep p) (p.ic, addState key p.ic, [addState key p.ic])).2.2

/-- models `rescue_round`, rescue.rs:142-160, on (`state`, `key_state`, `key_injection`) -/
def rescueRound (s : State F × State F × State F) (round : Nat) : State F × State F × State F :=
  let keyState := sbox p s.2.1 round
  let state := sbox p s.1 round
  let inj := linearOp p.k s.2.2 p.c
  let keyState := linearOp p.mds keyState inj
  let state := linearOp p.mds state keyState
  (state, keyState, inj)

/-- models `rescue`, rescue.rs:114-139 -/
def rescue (input : State F) : State F :=
  ((List.range (2 * p.numRounds)).foldl (rescueRound p) (addState input p.ic, p.ic, p.ic)).1

end

/-- the instance over the scalar field of BLS12-381, rescue.rs:183-327 -/
def blsParams : Params (ZMod Bls.r) where
  mds :=
    ((52435875175126190479447740508185965837690552500527637822603658699938581066864, 52435875175126190479447740508185965837690552500527637822603658699938534124913, 52435875175126190479447740508185965837690552500527637822603658699922104442063, 52435875175126190479447740508185965837690552500527637822603658694270581781713),
     (137200, 54762351, 19167800400, 6593435097550),
     (52435875175126190479447740508185965837690552500527637822603658699938581164563, 52435875175126190479447740508185965837690552500527637822603658699938573341713, 52435875175126190479447740508185965837690552500527637822603658699935841949364, 52435875175126190479447740508185965837690552500527637822603658698996613844913),
     (400, 140050, 48177200, 16531644851))
  ic :=
    (23134431890904997735913685390433273947519177060544011867815065124418348995661, 7910743581020883359489900822814213105822551758045258908574127548576902234202, 6452335108146897903818881932868089947456740590166061243393158685187431809297, 864592593827916191968939823230510547087468030011538620003456937932684270153)
  c :=
    (47547237971610965741643776816276041546468880714675495834455049663798422970459, 10004118136888058764408398782965078987905732598601545000387602435395348015578, 41751554506863950612723183999266149980852802057217063263129581065630539355943, 28630474321717538333837377020183699597240697917209889448356171144508785456174)
  k :=
    ((20508694040621567351648110034447675442497630601368754313856884903339587777311, 21833126749675005420257511508741654628498211767962591705355382899857469438170, 10094259962876866855921243786568400951965635335279511958062644189442373357290, 19703017446530302026954081842172601421653728134317178448940156258115853425803),
     (10251498144790729877114984073212046753223574188577263253763854582885300616634, 23799697215770479455315980501436150478606639549341703710964277906023879274693, 3007859742890615231402252990001597094047140204544326329227026628202747223471, 28206680002640467010077105488518988050496606663258696654543362871739559141116),
     (3001386190657217866716811031197002190094834176598601007437349105366277408753, 3302832234223427084389235892793462946069958738751625733789554798277785616852, 33828191304584863092326289783666465913001308709873493077072772336792329272781, 39527082973012175895755035046102602497048600747962062191946750704586900696815),
     (28051483866417948291356906371063959987011977735069581088198413305545643762525, 940230548799789892304826428424685764994822279495712794369041189518965610982, 51086698257646416011541091115454938869982232807222651212625724712549497545484, 17476372527237931823914329908105757745889986759257828348803723712031461055028))
  alpha := 5
  alphaInv := [0x33333332CCCCCCCD, 0x217F0E679998F199, 0xE14A56699D73F002, 0x2E5F0FBADD72321C]
  numRounds := 12

end Verif.Rescue
