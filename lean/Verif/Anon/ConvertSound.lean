import Verif.Anon.Convert
import Verif.Anon.Spend

/-!
C73 to C76 (soundness): what satisfied conversion circuits say.
-/

namespace Verif.Anon

open Verif.Plonk Verif.Plonk.Spec Verif.SimFr Verif.SimFr.Spec Verif.StateComm Verif.Anon.Spec

variable {F : Type} [Field F]

theorem Sat.publics {cs : CS F} (hw : WF cs) {w : Nat → F} {online : List F} (hs : Sat cs w online)
    (hl : online.length = cs.pubVars.length) : cs.pubVars.map w = online := by
  refine List.ext_getElem? fun k => ?_
  rw [List.getElem?_map]
  cases hk : cs.pubVars[k]? with
  | none =>
    have : cs.pubVars.length ≤ k := by simpa using hk
    simp only [Option.map_none]
    exact (List.getElem?_eq_none (by omega)).symm
  | some v =>
    have hlt : k < cs.pubVars.length := (List.getElem?_eq_some_iff.mp hk).1
    have hx := List.getElem?_eq_getElem (l := online) (i := k) (by omega)
    rw [Option.map_some, hx]
    exact congrArg some (Sat.public hw hs k v _ hk hx)

variable [DecidableEq F] [ScalarRepr F] (p : Rescue.Params F)

/-! ### From a non-confidential record -/

theorem soundP_buildArToAbar (hp : GoodParams p) (t : Payee F) : SoundP (buildArToAbar p t) (fun w v pv =>
    pv.map w = [w v.amount, w v.ty, commitZ p (w 0) (pkVal w v.pk) (w v.blind) (w v.amount) (w v.ty)]) := by
  unfold buildArToAbar
  refine SoundP.bindS (sound_newVar _) (fun amount => SoundP.bind (soundP_preparePi _) (fun _ => ?_))
  refine SoundP.bindS (sound_newVar _) (fun ty => SoundP.bind (soundP_preparePi _) (fun _ => ?_))
  refine SoundP.bindS (sound_newVar _) (fun blind => SoundP.bindS (sound_pkVars _) (fun pk => ?_))
  refine SoundP.bindS (sound_commitInCs_z p hp _ _ _ _) (fun com => SoundP.bind (soundP_preparePi _) (fun _ => ?_))
  refine SoundP.bindS sound_pad (fun _ => SoundP.pure _ _ ?_)
  rintro w - pv3 rfl hc - - pv2 rfl - pv1 rfl -
  simp [hc, pkVal]

/-! ### The record that is spent -/

theorem sound_spendOne (hp : GoodParams p) (h2 : (2 : F) ≠ 0) (s : Payer F) (pk : PK F) (sk : SK F) :
    Sound (spendOne p s pk sk) (fun w v => v.payer.path.length = s.path.length ∧
      w v.nul = nullify p (pkVal w v.pk) (skVal w v.sk) (w v.payer.uid) (w v.payer.amount) (w v.payer.ty) ∧
      w v.root = (v.payer.path.map (nodeVal w)).foldl (Merkle.verifyStep (treeHashZ p (w 0)))
        (hash4 p (w v.payer.uid) (commitZ p (w 0) (pkVal w v.pk) (w v.payer.blind) (w v.payer.amount) (w v.payer.ty))
          (w 0) (w 0))) := by
  unfold spendOne
  refine Sound.bind (sound_payerVars h2 s) (fun v => Sound.bind (sound_pkVars _) (fun pkv => ?_))
  refine Sound.bind (sound_newVar _) (fun s0 => Sound.bind (sound_newVar _) (fun s1 => ?_))
  refine Sound.bind (sound_commitInCs_z p hp _ _ _ _) (fun com => ?_)
  refine Sound.bind (sound_linearCombine _ _ _ _ _ _ _ _) (fun ua => ?_)
  refine Sound.bind (sound_nullifyInCs p hp _ _ _ _) (fun nul => ?_)
  refine Sound.bind (sound_merkleRootVars_z p hp _ _ _) (fun root => Sound.pure _ _ ?_)
  rintro w hr hn hu hc - - - ⟨hl, ns, hns⟩
  refine ⟨hl, ?_, ?_⟩
  · simp only
    rw [hn, hu]
    unfold nullify pkVal skVal
    congr 2
    ring
  · simp only
    have e : ns = v.path.map (nodeVal w) := forall₂_map_eq (fun _ _ h => IsNode.eq h) hns
    rw [hr ns hns, hc, e]
    rfl

/-! ### Inspection -/

namespace Spec

/-- an opening of the state commitment of a delegated Schnorr proof for two values: the values, their randomizer scalars
and the randomness -/
structure InspOpening (F : Type) where
  x : Nat
  y : Nat
  a : Nat
  b : Nat
  r : F
deriving DecidableEq

/-- what the public inputs of an inspection claim of the opening `o`: `comm` commits to the values and their randomizers,
the first value has 64 and the second 240 bits, and the responses, the second one weighted with `lambda`, answer the
challenge `beta`. -/
def Inspects (p : Rescue.Params F) (P : SimFr.Params) (comm : F) (beta lambda : ZMod P.r) (resps : List (ZMod P.r))
    (o : InspOpening F) : Prop :=
  ∃ z0 z1 : ZMod P.r, (o.x < 2 ^ 64 ∧ o.y < 2 ^ 240) ∧
    (o.a < 2 ^ (P.bits * (P.limbs - 1) + P.top) ∧ o.b < 2 ^ (P.bits * (P.limbs - 1) + P.top)) ∧
    stateComm p P [o.x, o.y] [o.a, o.b] o.r = some comm ∧
    (resps[0]? = some z0 ∧ resps[1]? = some z1) ∧
    z0 + lambda * z1 = (beta * o.x + o.a) + lambda * (beta * o.y + o.b)

end Spec

/-- the opening the assignment gives to the variables -/
def inspVal (P : SimFr.Params) (w : Nat → F) (v : InspVars F) : InspOpening F :=
  ⟨bigVal P.bits w v.x.var, bigVal P.bits w v.y.var, bigVal P.bits w v.a.var, bigVal P.bits w v.b.var, w v.r⟩

/-- the assumptions on the parameters that the instance of the code meets (`ristretto_insp`) -/
structure InspOk (P : SimFr.Params) (F : Type) [Field F] [ScalarRepr F] : Prop where
  ok : P.Ok
  six : P.limbs = 6
  total : 240 ≤ P.bits * (P.limbs - 1) + P.top
  le : P.r ≤ 2 ^ (P.bits * (P.limbs - 1) + P.top)
  pos : P.r ≠ 0
  field : 2 ^ (4 * P.bits + 8) ≤ ScalarRepr.order F
  words : perWord P = 5
  two : (2 : F) ≠ 0
  big : 2 ^ 254 ≤ ScalarRepr.order F
  first : 64 % P.bits ≠ 1
  second : 240 % P.bits ≠ 1

theorem InspOk.bits {P : SimFr.Params} (h : InspOk P F) : 2 ^ P.bits ≤ ScalarRepr.order F :=
  le_trans (Nat.pow_le_pow_right (by norm_num) (by omega)) h.field

theorem InspOk.is {P : SimFr.Params} (h : InspOk P F) {w : Nat → F} {a : SimVar F} (k : ZMod P.r)
    (e : a.var.map w = (simOf P k : Sim F).limbs) : a.Is P w k.val := by
  haveI : NeZero P.r := ⟨h.pos⟩
  exact is_of_limbs h.ok (lt_of_lt_of_le (ZMod.val_lt k) h.le) e

/-- what is known of the variables of step 2 -/
structure InspAlloc (P : SimFr.Params) (w : Nat → F) (v : InspVars F) : Prop where
  beta : v.beta.var.length = P.limbs
  lambda : v.lambda.var.length = P.limbs
  betaLambda : v.betaLambda.var.length = P.limbs
  s : v.s.var.length = P.limbs
  pads : v.x.val.adds.pads = 0 ∧ v.y.val.adds.pads = 0 ∧ v.a.val.adds.pads = 0 ∧ v.b.val.adds.pads = 0
  open_ : w 0 = 0 → ∃ x y a b : Nat, (x < 2 ^ 64 ∧ y < 2 ^ 240) ∧ (a < 2 ^ (P.bits * (P.limbs - 1) + P.top) ∧
    b < 2 ^ (P.bits * (P.limbs - 1) + P.top)) ∧ v.x.Is P w x ∧ v.y.Is P w y ∧ v.a.Is P w a ∧ v.b.Is P w b

theorem sound_inspAlloc (P : SimFr.Params) (h : InspOk P F) (wit : InspWitness P F) :
    Sound (inspAlloc P wit) (fun w v => InspAlloc P w v) := by
  have ht := h.total
  unfold inspAlloc
  refine Sound.bind (Sound.liftM _) (fun d0 => Sound.bind (Sound.liftM _) (fun d1 => Sound.bind (Sound.liftM _) (fun c => ?_)))
  refine Sound.bind (C61_alloc_bounded_sound P h.ok _ 64 (by omega)) (fun x => ?_)
  refine Sound.bind (C61_alloc_bounded_sound P h.ok _ 240 (by omega)) (fun y => ?_)
  refine Sound.bind (C61_alloc_witness_sound P h.ok _) (fun a => Sound.bind (C61_alloc_witness_sound P h.ok _) (fun b => ?_))
  refine Sound.bind (sound_newVar _) (fun cv => Sound.bind (sound_newVar _) (fun rv => ?_))
  refine Sound.bind (sound_allocInput _ _) (fun be => Sound.bind (sound_allocInput _ _) (fun la => ?_))
  refine Sound.bind (sound_allocInput _ _) (fun bl => Sound.bind (sound_allocInput _ _) (fun s => Sound.pure _ _ ?_))
  rintro w ⟨-, h4⟩ ⟨-, h3⟩ ⟨-, h2⟩ ⟨-, h1⟩ - - ⟨ob, b, ib, jb, -⟩ ⟨oa, a, ia, ja, -⟩ ⟨oy, hy⟩ ⟨ox, hx⟩ - - -
  refine ⟨h1, h2, h3, h4, ⟨by rw [ox]; rfl, by rw [oy]; rfl, by rw [oa]; rfl, by rw [ob]; rfl⟩, fun h0 => ?_⟩
  obtain ⟨x, ix, jx, -⟩ := hx h0
  obtain ⟨y, iy, jy, -⟩ := hy h0
  exact ⟨x, y, a, b, ⟨jx, jy⟩, ⟨ja, jb⟩, ix, iy, ia, ib⟩

omit [DecidableEq F] [ScalarRepr F] in
/-- five words: the two calls of the permutation in steps 3 and 4 are the sponge of the state commitment -/
theorem sponge_five (c0 c1 c2 c3 c4 r : F) : sponge p [c0, c1, c2, c3, c4] r =
    some (Rescue.rescue p ((Rescue.rescue p (c0, c1, c2, c3)).1, c4, r, 0)).1 := by
  simp [sponge, resize, chain]

omit [DecidableEq F] in
theorem sound_inspState (hp : GoodParams p) (P : SimFr.Params) (h5 : perWord P = 5) (v : InspVars F) :
    Sound (inspState p P v) (fun w _ => w 0 = 0 → (v.x.var ++ v.y.var ++ v.a.var ++ v.b.var).length = 24 →
      sponge p (packLimbs P ((v.x.var ++ v.y.var ++ v.a.var ++ v.b.var).map w)) (w v.r) = some (w v.comm)) := by
  unfold inspState
  generalize v.x.var ++ v.y.var ++ v.a.var ++ v.b.var = vars
  refine Sound.bind (Sound.mapM _ (fun w vs o => w 0 = 0 → w o = packWord P (vs.map w)) _ ?_) (fun words => ?_)
  · intro vs hvs
    exact sound_packWordC P vs (chunks_length _ _ _ hvs)
  refine Sound.bind (Sound.liftM _) (fun c0 => Sound.bind (Sound.liftM _) (fun c1 => Sound.bind (Sound.liftM _) (fun c2 =>
    Sound.bind (Sound.liftM _) (fun c3 => ?_))))
  refine Sound.bind (sound_rescueCircuit p hp _) (fun h1 => Sound.bind (Sound.liftM _) (fun c4 => ?_))
  refine Sound.bind (sound_rescueCircuit p hp _) (fun h2 => (sound_equalV h2.1 v.comm).cons ?_)
  intro w _ he e2 g4 e1 g3 g2 g1 g0 hw h0 hlen
  have hwl : words.length = 5 := by
    rw [← hw.length_eq]
    unfold chunks
    simp [hlen]
  have hwords : words = [c0, c1, c2, c3, c4] := by
    refine List.ext_getElem (by simpa using hwl) (fun i hi hi' => ?_)
    have hi5 : i < 5 := by omega
    have := List.getElem?_eq_getElem hi
    interval_cases i
    · rw [g0] at this; simpa using this.symm
    · rw [g1] at this; simpa using this.symm
    · rw [g2] at this; simpa using this.symm
    · rw [g3] at this; simpa using this.symm
    · rw [g4] at this; simpa using this.symm
  have hpk : packLimbs P (vars.map w) = words.map w := by
    unfold packLimbs
    rw [chunks_map, List.map_map, h5]
    clear hwords hwl g0 g1 g2 g3 g4
    generalize chunks 5 vars = cks at hw ⊢
    induction hw with
    | nil => rfl
    | cons h _ ih => rw [List.map_cons, List.map_cons, ih, h h0]; rfl
  rw [hpk, hwords]
  simp only [List.map_cons, List.map_nil]
  rw [sponge_five]
  have r1 : (Rescue.rescue p (w c0, w c1, w c2, w c3)).1 = w h1.1 := (congrArg Prod.fst e1).symm
  have r2 : (Rescue.rescue p (w h1.1, w c4, w v.r, w zeroVar)).1 = w h2.1 := (congrArg Prod.fst e2).symm
  unfold zeroVar at r2
  rw [h0] at r2
  rw [r1, r2, he h0]

theorem sound_inspEquation (dbg : Bool) (P : SimFr.Params) (hP : P.Ok) (hF : 2 ^ (4 * P.bits + 8) ≤ ScalarRepr.order F)
    (v : InspVars F) :
    Sound (inspEquation dbg P v) (fun w _ => w 0 = 0 → ∀ x y a b B L BL S : Nat, v.x.Is P w x → v.y.Is P w y →
      v.a.Is P w a → v.b.Is P w b → v.beta.Is P w B → v.lambda.Is P w L → v.betaLambda.Is P w BL → v.s.Is P w S →
      (B * x + BL * y + L * b : ZMod P.r) = (S : ZMod P.r) - (a : ZMod P.r)) := by
  unfold inspEquation
  refine Sound.bind (C61_mul_sound P hP _ _) (fun m1 => Sound.bind (C61_mul_sound P hP _ _) (fun m2 => ?_))
  refine Sound.bind (C61_mul_sound P hP _ _) (fun m3 => Sound.bind (C61_add_sound P _ _) (fun s1 => ?_))
  refine Sound.bind (C61_add_sound P _ _) (fun s2 => Sound.bind (C61_sub_sound P hP _ _) (fun t => ?_))
  refine Sound.bind (C61_mul_sub_sound P hP _ _) (fun res => ?_)
  refine (C61_enforce_zero_sound dbg P hP hF res).cons ?_
  rintro w _ hz ⟨-, hres⟩ ⟨-, ht⟩ ⟨-, h2⟩ ⟨-, h1⟩ ⟨-, g3⟩ ⟨-, g2⟩ ⟨-, g1⟩ h0
  intro x y a b B L BL S hx hy ha hb hB hL hBL hS
  have k1 := h1 _ _ (g1 h0 _ _ hB hx) (g2 h0 _ _ hBL hy)
  have k2 := h2 _ _ k1 (g3 h0 _ _ hL hb)
  obtain ⟨C, c1, c2⟩ := ht _ _ hS ha
  obtain ⟨D, d1, d2⟩ := hres _ _ k2 c1
  have := hz h0 D d1
  rw [← ZMod.natCast_eq_zero_iff, d2, sub_eq_zero, c2] at this
  rw [← this]
  push_cast
  ring

omit [DecidableEq F] [ScalarRepr F] in
theorem sound_recombine (P : SimFr.Params) (h6 : P.limbs = 6) (a : SimVar F) :
    Sound (recombine P a.var : Build F Nat) (fun w o => w 0 = 0 → ∀ N, a.Is P w N → w o = (N : F)) := by
  unfold recombine
  refine Sound.bind (Sound.liftM _) (fun v0 => Sound.bind (Sound.liftM _) (fun v1 => Sound.bind (Sound.liftM _) (fun v2 =>
    Sound.bind (Sound.liftM _) (fun v3 => ?_))))
  refine Sound.bind (sound_linearCombine _ _ _ _ _ _ _ _) (fun sum => ?_)
  refine Sound.bind (Sound.liftM _) (fun v4 => Sound.bind (Sound.liftM _) (fun v5 => ?_))
  refine (sound_linearCombine _ _ _ _ _ _ _ _).cons ?_
  rintro w o ho g5 g4 hs g3 g2 g1 g0 h0 N ⟨L, ⟨h1, hL⟩, rfl, -⟩
  rw [ho, hs, hL 0 _ g0, hL 1 _ g1, hL 2 _ g2, hL 3 _ g3, hL 4 _ g4, hL 5 _ g5]
  unfold value
  rw [h6]
  simp only [Finset.sum_range_succ, Finset.sum_range_zero]
  push_cast
  ring

theorem sound_inspValues (P : SimFr.Params) (h6 : P.limbs = 6) (v : InspVars F) (amount ty : Nat) :
    Sound (inspValues P v amount ty) (fun w _ => w 0 = 0 → ∀ x y, v.x.Is P w x → v.y.Is P w y →
      w amount = (x : F) ∧ w ty = (y : F)) := by
  unfold inspValues
  refine Sound.bind (sound_recombine P h6 v.x) (fun x => Sound.bind (sound_recombine P h6 v.y) (fun y => ?_))
  refine Sound.bind (sound_equalV _ _) (fun _ => (sound_equalV _ _).cons ?_)
  intro w _ e2 e1 hy hx h0 X Y iX iY
  exact ⟨by rw [← e1 h0, hx h0 X iX], by rw [← e2 h0, hy h0 Y iY]⟩

/-- what a satisfied inspection says about its variables -/
structure Inspected (P : SimFr.Params) (w : Nat → F) (amount ty : Nat) (v : InspVars F) : Prop where
  alloc : InspAlloc P w v
  range : w 0 = 0 → (inspVal P w v).x < 2 ^ 64 ∧ (inspVal P w v).y < 2 ^ 240
  rands : w 0 = 0 → (inspVal P w v).a < 2 ^ (P.bits * (P.limbs - 1) + P.top) ∧
    (inspVal P w v).b < 2 ^ (P.bits * (P.limbs - 1) + P.top)
  comm : w 0 = 0 → stateComm p P [(inspVal P w v).x, (inspVal P w v).y] [(inspVal P w v).a, (inspVal P w v).b]
    (inspVal P w v).r = some (w v.comm)
  eqn : w 0 = 0 → ∀ B L BL S : Nat, v.beta.Is P w B → v.lambda.Is P w L → v.betaLambda.Is P w BL → v.s.Is P w S →
      (B * (inspVal P w v).x + BL * (inspVal P w v).y + L * (inspVal P w v).b : ZMod P.r) =
        (S : ZMod P.r) - ((inspVal P w v).a : ZMod P.r)
  values : w 0 = 0 → w amount = ((inspVal P w v).x : F) ∧ w ty = ((inspVal P w v).y : F)

theorem sound_inspection (hp : GoodParams p) (dbg : Bool) (P : SimFr.Params) (h : InspOk P F) (wit : InspWitness P F)
    (amount ty : Nat) :
    Sound (inspection p dbg P wit amount ty) (fun w v => Inspected p P w amount ty v) := by
  unfold inspection
  refine Sound.bind (sound_inspAlloc P h wit) (fun v => ?_)
  refine Sound.bind (sound_inspState p hp P h.words v) (fun _ => ?_)
  refine Sound.bind (sound_inspEquation dbg P h.ok h.field v) (fun _ => ?_)
  refine Sound.bind (sound_inspValues P h.six v amount ty) (fun _ => Sound.pure _ _ ?_)
  intro w hv he hs ha
  have key : w 0 = 0 → ∃ x y a b : Nat, inspVal P w v = ⟨x, y, a, b, w v.r⟩ ∧ (x < 2 ^ 64 ∧ y < 2 ^ 240) ∧
      (a < 2 ^ (P.bits * (P.limbs - 1) + P.top) ∧ b < 2 ^ (P.bits * (P.limbs - 1) + P.top)) ∧
      v.x.Is P w x ∧ v.y.Is P w y ∧ v.a.Is P w a ∧ v.b.Is P w b := by
    intro h0
    obtain ⟨x, y, a, b, h1, h2, ix, iy, ia, ib⟩ := ha.open_ h0
    refine ⟨x, y, a, b, ?_, h1, h2, ix, iy, ia, ib⟩
    unfold inspVal
    rw [bigVal_is h.ok h.bits ha.pads.1 ix, bigVal_is h.ok h.bits ha.pads.2.1 iy, bigVal_is h.ok h.bits ha.pads.2.2.1 ia,
      bigVal_is h.ok h.bits ha.pads.2.2.2 ib]
  refine ⟨ha, ?_, ?_, ?_, ?_, ?_⟩
  · intro h0
    obtain ⟨x, y, a, b, e, h1, h2, ix, iy, ia, ib⟩ := key h0
    rw [e]
    exact h1
  · intro h0
    obtain ⟨x, y, a, b, e, h1, h2, ix, iy, ia, ib⟩ := key h0
    rw [e]
    exact h2
  · intro h0
    obtain ⟨x, y, a, b, e, h1, h2, ix, iy, ia, ib⟩ := key h0
    rw [e]
    have hlen : (v.x.var ++ v.y.var ++ v.a.var ++ v.b.var).length = 24 := by
      obtain ⟨_, ⟨lx, -⟩, -⟩ := ix
      obtain ⟨_, ⟨ly, -⟩, -⟩ := iy
      obtain ⟨_, ⟨la, -⟩, -⟩ := ia
      obtain ⟨_, ⟨lb, -⟩, -⟩ := ib
      simp [lx, ly, la, lb, h.six]
    rw [← hs h0 hlen]
    unfold stateComm stateLimbs
    simp only [List.map_append, limbs_of_is h.ok ha.pads.1 ix, limbs_of_is h.ok ha.pads.2.1 iy,
      limbs_of_is h.ok ha.pads.2.2.1 ia, limbs_of_is h.ok ha.pads.2.2.2 ib, List.flatMap_cons, List.flatMap_nil,
      List.append_nil, List.append_assoc]
  · intro h0 B L BL S hB hL hBL hS
    obtain ⟨x, y, a, b, e, h1, h2, ix, iy, ia, ib⟩ := key h0
    rw [e]
    exact he h0 x y a b B L BL S ix iy ia ib hB hL hBL hS
  · intro h0
    obtain ⟨x, y, a, b, e, h1, h2, ix, iy, ia, ib⟩ := key h0
    rw [e]
    exact hv h0 x y ix iy

omit [DecidableEq F] [ScalarRepr F] in
theorem soundP_inspPublic (P : SimFr.Params) (v : InspVars F) : SoundP (inspPublic P v) (fun _ _ pv =>
    v.beta.var.length = P.limbs → v.lambda.var.length = P.limbs → v.betaLambda.var.length = P.limbs →
    v.s.var.length = P.limbs → pv = [v.comm] ++ (v.beta.var ++ (v.lambda.var ++ (v.betaLambda.var ++ v.s.var)))) := by
  unfold inspPublic
  refine SoundP.bind (soundP_preparePi _) (fun _ => SoundP.bind (soundP_publicLimbs P _) (fun _ => ?_))
  refine SoundP.bind (soundP_publicLimbs P _) (fun _ => SoundP.bind (soundP_publicLimbs P _) (fun _ => ?_))
  refine (soundP_publicLimbs P _).cons ?_
  rintro w _ pv5 h5 pv4 h4 pv3 h3 pv2 h2 pv1 rfl n1 n2 n3 n4
  rw [h5 n4, h4 n3, h3 n2, h2 n1]

/-- the variables of an inspection, when its public variables hold the public inputs -/
theorem Inspected.opens {P : SimFr.Params} (h : InspOk P F) {w : Nat → F} {amount ty : Nat} {v : InspVars F}
    (hi : Inspected p P w amount ty v) (h0 : w 0 = 0) {comm : F} {beta lambda : ZMod P.r} {resps : List (ZMod P.r)}
    (hv : inspectInput P comm beta lambda resps =
      some (([v.comm] ++ (v.beta.var ++ (v.lambda.var ++ (v.betaLambda.var ++ v.s.var)))).map w)) :
    Spec.Inspects p P comm beta lambda resps (inspVal P w v) := by
  haveI : NeZero P.r := ⟨h.pos⟩
  unfold inspectInput combined2 at hv
  obtain ⟨z, hz, hv⟩ := Option.bind_eq_some_iff.mp hv
  obtain ⟨z0, hz0, hz⟩ := Option.bind_eq_some_iff.mp hz
  obtain ⟨z1, hz1, hz⟩ := Option.bind_eq_some_iff.mp hz
  obtain rfl := Option.some.inj hz
  have hv := Option.some.inj hv
  have hlen : ∀ k : ZMod P.r, (simOf P k : Sim F).limbs.length = P.limbs := fun k => ofBig_limbs_length P _
  simp only [List.map_append, List.append_assoc] at hv
  obtain ⟨v0, hv⟩ := List.append_inj hv (by simp)
  obtain ⟨v1, hv⟩ := List.append_inj hv (by rw [hlen, List.length_map, hi.alloc.beta])
  obtain ⟨v2, hv⟩ := List.append_inj hv (by rw [hlen, List.length_map, hi.alloc.lambda])
  obtain ⟨v3, v4⟩ := List.append_inj hv (by rw [hlen, List.length_map, hi.alloc.betaLambda])
  have heq := hi.eqn h0 _ _ _ _ (h.is _ v1.symm) (h.is _ v2.symm) (h.is _ v3.symm) (h.is _ v4.symm)
  simp only [ZMod.natCast_val, ZMod.cast_id', id] at heq
  have hcomm : w v.comm = comm := by simpa using v0.symm
  refine ⟨z0, z1, hi.range h0, hi.rands h0, ?_, ⟨hz0, hz1⟩, ?_⟩
  · rw [hi.comm h0, hcomm]
  · linear_combination -heq

/-! ### From a confidential record -/

theorem soundP_buildBarToAbar (hp : GoodParams p) (dbg : Bool) (P : SimFr.Params) (h : InspOk P F) (t : Payee F)
    (wit : InspWitness P F) : SoundP (buildBarToAbar p dbg P t wit) (fun w v pv =>
    ∃ com input, pv.map w = com :: input ∧
      com = commitZ p (w 0) (pkVal w v.out.pk) (w v.out.blind) (w v.out.amount) (w v.out.ty) ∧
      (w 0 = 0 → w v.out.amount = ((inspVal P w v.insp).x : F) ∧ w v.out.ty = ((inspVal P w v.insp).y : F) ∧
        ∀ comm beta lambda resps, inspectInput P comm beta lambda resps = some input →
          Spec.Inspects p P comm beta lambda resps (inspVal P w v.insp))) := by
  unfold buildBarToAbar
  refine SoundP.bindS (sound_newVar _) (fun amount => SoundP.bindS (sound_newVar _) (fun ty => ?_))
  refine SoundP.bindS (sound_newVar _) (fun blind => SoundP.bindS (sound_pkVars _) (fun pk => ?_))
  refine SoundP.bindS (sound_inspection p hp dbg P h wit amount ty) (fun v => ?_)
  refine SoundP.bindS (sound_commitInCs_z p hp _ _ _ _) (fun com => SoundP.bind (soundP_preparePi _) (fun _ => ?_))
  refine SoundP.bind (soundP_inspPublic P v) (fun _ => SoundP.bindS sound_pad (fun _ => SoundP.pure _ _ ?_))
  rintro w - pv2 h2 pv1 rfl hc hi - - - -
  obtain rfl := h2 hi.alloc.beta hi.alloc.lambda hi.alloc.betaLambda hi.alloc.s
  refine ⟨w com, _, by rw [List.append_nil]; rfl, hc, fun h0 => ⟨(hi.values h0).1, (hi.values h0).2, ?_⟩⟩
  intro comm beta lambda resps hv
  exact hi.opens p h h0 hv

/-! ### To a non-confidential or confidential record -/

namespace Spec

/-- the record `s`, owned by `pk`, is spent: the nullifier is that of the record, and it has a Merkle proof for the root -/
structure Redeems (pk : PK F) (sk : SK F) (s : Spent F) (nul root : F) : Prop where
  nul : nul = nullify p pk sk s.uid s.amount s.ty
  proof : ∀ v u, Merkle.verify (treeHash p) (s.leaf p pk) ⟨s.nodes, root, v, u⟩ = true

end Spec

omit [DecidableEq F] [ScalarRepr F] in
/-- the first output word of the permutation -/
def hashSt (st : Rescue.State F) : F := hash4 p st.1 st.2.1 st.2.2.1 st.2.2.2

omit [DecidableEq F] [ScalarRepr F] in
/-- the input of the permutation at a proof node, with padding word `z` -/
def nodeSt (z x : F) (n : Merkle.ProofNode F) : Rescue.State F :=
  match n.path with
  | .left => (x, n.siblings1, n.siblings2, z)
  | .middle => (n.siblings1, x, n.siblings2, z)
  | .right => (n.siblings1, n.siblings2, x, z)

omit [DecidableEq F] [ScalarRepr F] in
/-- the last call of the permutation when a path is followed that starts with the call `st` -/
def lastCall (z : F) : Rescue.State F → List (Merkle.ProofNode F) → Rescue.State F
  | st, [] => st
  | st, n :: ns => lastCall z (nodeSt z (hashSt p st) n) ns

omit [DecidableEq F] [ScalarRepr F] in
theorem lastCall_spec (z : F) (st : Rescue.State F) (ns : List (Merkle.ProofNode F)) (hz : st.2.2.2 = z) :
    ns.foldl (Merkle.verifyStep (treeHashZ p z)) (hashSt p st) = hashSt p (lastCall p z st ns) ∧
      (lastCall p z st ns).2.2.2 = z := by
  induction ns generalizing st with
  | nil => exact ⟨rfl, hz⟩
  | cons n ns ih =>
    have e : Merkle.verifyStep (treeHashZ p z) (hashSt p st) n = hashSt p (nodeSt z (hashSt p st) n) := by
      unfold Merkle.verifyStep nodeSt
      cases n.path <;> rfl
    rw [List.foldl_cons, e, lastCall]
    refine ih _ ?_
    unfold nodeSt
    cases n.path <;> rfl

omit [DecidableEq F] [ScalarRepr F] in
/-- the call of the permutation that gives the root when the path of `s` is followed with padding words one -/
def forgedCall (pk : PK F) (s : Spent F) : Rescue.State F :=
  lastCall p 1 (s.uid, commitZ p 1 pk s.blind s.amount s.ty, 1, 1) s.nodes

/-- what `sound_spendOne` says, when the variable zero is zero or one -/
theorem spendOne_cases {w : Nat → F} {v : SpendVars}
    (hn : w v.nul = nullify p (pkVal w v.pk) (skVal w v.sk) (w v.payer.uid) (w v.payer.amount) (w v.payer.ty))
    (hr : w v.root = (v.payer.path.map (nodeVal w)).foldl (Merkle.verifyStep (treeHashZ p (w 0)))
        (hash4 p (w v.payer.uid) (commitZ p (w 0) (pkVal w v.pk) (w v.payer.blind) (w v.payer.amount) (w v.payer.ty))
          (w 0) (w 0))) :
    (w 0 = 0 → Redeems p (pkVal w v.pk) (skVal w v.sk) (spentVal w v.payer) (w v.nul) (w v.root)) ∧
    (w 0 = 1 → (forgedCall p (pkVal w v.pk) (spentVal w v.payer)).2.2.2 = 1 ∧
      hashSt p (forgedCall p (pkVal w v.pk) (spentVal w v.payer)) = w v.root) := by
  refine ⟨fun h0 => ⟨hn, fun _ _ => ?_⟩, fun h0 => ?_⟩
  · rw [h0] at hr
    unfold Merkle.verify
    simp only [decide_eq_true_eq]
    rw [hr]
    rfl
  · rw [h0] at hr
    obtain ⟨h1, h2⟩ := lastCall_spec p 1 (w v.payer.uid, commitZ p 1 (pkVal w v.pk) (w v.payer.blind) (w v.payer.amount)
      (w v.payer.ty), 1, 1) (v.payer.path.map (nodeVal w)) rfl
    exact ⟨h2, by rw [hr]; exact h1.symm⟩

theorem soundP_buildAbarToAr (hp : GoodParams p) (h2 : (2 : F) ≠ 0) {α : Type} (folding : PK Nat → SK Nat → Build F α)
    (R : PK Nat → SK Nat → (Nat → F) → α → List Nat → Prop) (hf : ∀ pk sk, SoundP (folding pk sk) (R pk sk)) (s : Payer F)
    (pk : PK F) (sk : SK F) : SoundP (buildAbarToAr p folding s pk sk) (fun w v pv =>
      ∃ fpv, pv.map w = [w v.spend.nul, w v.spend.root, w v.spend.payer.amount, w v.spend.payer.ty] ++ fpv.map w ∧
        R v.spend.pk v.spend.sk w v.fold fpv ∧ v.spend.payer.path.length = s.path.length ∧
      (w 0 = 0 → Redeems p (pkVal w v.spend.pk) (skVal w v.spend.sk) (spentVal w v.spend.payer) (w v.spend.nul)
        (w v.spend.root)) ∧
      (w 0 = 1 → (forgedCall p (pkVal w v.spend.pk) (spentVal w v.spend.payer)).2.2.2 = 1 ∧
        hashSt p (forgedCall p (pkVal w v.spend.pk) (spentVal w v.spend.payer)) = w v.spend.root)) := by
  unfold buildAbarToAr
  refine SoundP.bindS (sound_spendOne p hp h2 s pk sk) (fun v => ?_)
  refine SoundP.bind (soundP_preparePi _) (fun _ => SoundP.bind (soundP_preparePi _) (fun _ => ?_))
  refine SoundP.bind (soundP_preparePi _) (fun _ => SoundP.bind (soundP_preparePi _) (fun _ => ?_))
  refine SoundP.bind (hf v.pk v.sk) (fun f => SoundP.bindS sound_pad (fun _ => SoundP.pure _ _ ?_))
  rintro w - fpv hfp pv4 rfl pv3 rfl pv2 rfl pv1 rfl ⟨hl, hn, hr⟩
  obtain ⟨c1, c2⟩ := spendOne_cases p hn hr
  exact ⟨fpv, by simp, hfp, hl, c1, c2⟩

theorem soundP_buildAbarToBar (hp : GoodParams p) {α : Type} (folding : PK Nat → SK Nat → Build F α)
    (R : PK Nat → SK Nat → (Nat → F) → α → List Nat → Prop) (hf : ∀ pk sk, SoundP (folding pk sk) (R pk sk)) (dbg : Bool)
    (P : SimFr.Params) (h : InspOk P F) (s : Payer F) (pk : PK F) (sk : SK F) (wit : InspWitness P F) :
    SoundP (buildAbarToBar p folding dbg P s pk sk wit) (fun w v pv =>
      ∃ input fpv, pv.map w = [w v.spend.nul, w v.spend.root] ++ (input ++ fpv.map w) ∧ input.length = 1 + 4 * P.limbs ∧
        R v.spend.pk v.spend.sk w v.fold fpv ∧ v.spend.payer.path.length = s.path.length ∧
      (w 0 = 0 → Redeems p (pkVal w v.spend.pk) (skVal w v.spend.sk) (spentVal w v.spend.payer) (w v.spend.nul)
          (w v.spend.root) ∧
        w v.spend.payer.amount = ((inspVal P w v.insp).x : F) ∧ w v.spend.payer.ty = ((inspVal P w v.insp).y : F) ∧
        ∀ comm beta lambda resps, inspectInput P comm beta lambda resps = some input →
          Spec.Inspects p P comm beta lambda resps (inspVal P w v.insp)) ∧
      (w 0 = 1 → (forgedCall p (pkVal w v.spend.pk) (spentVal w v.spend.payer)).2.2.2 = 1 ∧
        hashSt p (forgedCall p (pkVal w v.spend.pk) (spentVal w v.spend.payer)) = w v.spend.root)) := by
  unfold buildAbarToBar
  refine SoundP.bindS (sound_spendOne p hp h.two s pk sk) (fun v => ?_)
  refine SoundP.bindS (sound_inspection p hp dbg P h wit _ _) (fun i => ?_)
  refine SoundP.bind (soundP_preparePi _) (fun _ => SoundP.bind (soundP_preparePi _) (fun _ => ?_))
  refine SoundP.bind (soundP_inspPublic P i) (fun _ => ?_)
  refine SoundP.bind (hf v.pk v.sk) (fun f => SoundP.bindS sound_pad (fun _ => SoundP.pure _ _ ?_))
  rintro w - fpv hfp pv3 h3 pv2 rfl pv1 rfl hi ⟨hl, hn, hr⟩
  obtain ⟨c1, c2⟩ := spendOne_cases p hn hr
  obtain rfl := h3 hi.alloc.beta hi.alloc.lambda hi.alloc.betaLambda hi.alloc.s
  refine ⟨([i.comm] ++ (i.beta.var ++ (i.lambda.var ++ (i.betaLambda.var ++ i.s.var)))).map w, fpv, by simp, ?_,
    hfp, hl, fun h0 => ⟨c1 h0, (hi.values h0).1, (hi.values h0).2, fun comm beta lambda resps hv => ?_⟩, c2⟩
  · simp [hi.alloc.beta, hi.alloc.lambda, hi.alloc.betaLambda, hi.alloc.s]
    omega
  · exact hi.opens p h h0 hv

end Verif.Anon
