import Verif.Anon.ConvertRun

/-!
C73 to C76 (uniformity): the conversion circuits do not depend on the witness, so that the keys made from the default
witness (api/src/setup.rs:172-378) serve for every conversion.
-/

namespace Verif.Anon

open Verif.Plonk Verif.Plonk.Spec Verif.SimFr Verif.SimFr.Spec Verif.StateComm Verif.Anon.Spec

variable {F : Type} [Field F] [DecidableEq F] [ScalarRepr F] (p : Rescue.Params F)

/-- a witness that meets the equation of the circuit: honest ones, and the default one of setup.rs:176-201 -/
structure InspWitness.Consistent {P : SimFr.Params} (wit : InspWitness P F) : Prop where
  proof : ∃ x y a b z0 z1 : ZMod P.r, wit.data[0]? = some (x, a) ∧ wit.data[1]? = some (y, b) ∧
    combined2 wit.lambda wit.resps = some (z0 + z1 * wit.lambda) ∧
    z0 + z1 * wit.lambda = (wit.beta * x + a) + wit.lambda * (wit.beta * y + b)

omit [DecidableEq F] in
theorem InspWitness.Honest.consistent {P : SimFr.Params} {p : Rescue.Params F} {x y : Nat} {wit : InspWitness P F}
    (h : wit.Honest p x y) : wit.Consistent := by
  obtain ⟨-, -, a, b, h1, h2, -⟩ := h
  exact ⟨x, y, a, b, _, _, by rw [h1]; rfl, by rw [h1]; rfl, by rw [h2]; rfl, by ring⟩

/-- the witness of setup.rs:176-201 -/
def InspWitness.default (P : SimFr.Params) (F : Type) [Field F] : InspWitness P F :=
  ⟨List.replicate 3 (0, 0), List.replicate 3 0, 0, 0, 0, 0⟩

omit [DecidableEq F] [ScalarRepr F] in
theorem InspWitness.default_consistent (P : SimFr.Params) : (InspWitness.default P F).Consistent :=
  ⟨0, 0, 0, 0, 0, 0, rfl, rfl, rfl, by simp [InspWitness.default]⟩

/-- the two sets of variables of step 2 -/
structure InspTwin (P : SimFr.Params) (wit wit' : InspWitness P F) (x y a b z x' y' a' b' z' : ZMod P.r)
    (v v' : InspVars F) : Prop where
  x : Twin P (simOf P x) (simOf P x') v.x v'.x
  y : Twin P (simOf P y) (simOf P y') v.y v'.y
  a : Twin P { (simOf P a : Sim F) with adds := .one } { (simOf P a' : Sim F) with adds := .one } v.a v'.a
  b : Twin P { (simOf P b : Sim F) with adds := .one } { (simOf P b' : Sim F) with adds := .one } v.b v'.b
  comm : v.comm = v'.comm
  r : v.r = v'.r
  beta : Twin P (simOf P wit.beta) (simOf P wit'.beta) v.beta v'.beta
  lambda : Twin P (simOf P wit.lambda) (simOf P wit'.lambda) v.lambda v'.lambda
  betaLambda : Twin P (simOf P (wit.beta * wit.lambda)) (simOf P (wit'.beta * wit'.lambda)) v.betaLambda v'.betaLambda
  s : Twin P (simOf P z) (simOf P z') v.s v'.s

theorem uniform_inspAlloc (P : SimFr.Params) (hP : InspOk P F) (wit wit' : InspWitness P F)
    (x y a b z x' y' a' b' z' : ZMod P.r)
    (h0 : wit.data[0]? = some (x, a)) (h1 : wit.data[1]? = some (y, b)) (hz : combined2 wit.lambda wit.resps = some z)
    (h0' : wit'.data[0]? = some (x', a')) (h1' : wit'.data[1]? = some (y', b'))
    (hz' : combined2 wit'.lambda wit'.resps = some z') :
    Uniform (InspTwin P wit wit' x y a b z x' y' a' b' z') (inspAlloc P wit) (inspAlloc P wit') := by
  have hi := fun k k' : ZMod P.r =>
    twin_allocInput P (simOf P k : Sim F) (simOf P k') (insp_simOf hP k).1 (insp_simOf hP k').1 rfl
  have hw := fun k k' : ZMod P.r =>
    twin_allocWitness P (simOf P k : Sim F) (simOf P k') (insp_simOf hP k).1 (insp_simOf hP k').1 rfl rfl
  have hb := fun (k k' : ZMod P.r) (total : Nat) (ht : total ≠ 253) =>
    Uniform.post (uniform_allocBounded P (simOf P k : Sim F) (simOf P k') (insp_simOf hP k).1 (insp_simOf hP k').1 rfl rfl
      total) (post_allocBounded P _ total ht) (post_allocBounded P _ total ht)
  unfold inspAlloc
  refine Uniform.bind (uniform_lift2 (ρ := fun d d' => d = (x, a) ∧ d' = (x', a')) h0 h0' ⟨rfl, rfl⟩) (fun _ _ e => ?_)
  rw [e.1, e.2]
  refine Uniform.bind (uniform_lift2 (ρ := fun d d' => d = (y, b) ∧ d' = (y', b')) h1 h1' ⟨rfl, rfl⟩) (fun _ _ e => ?_)
  rw [e.1, e.2]
  refine Uniform.bind (uniform_lift2 (ρ := fun d d' => d = z ∧ d' = z') hz hz' ⟨rfl, rfl⟩) (fun _ _ e => ?_)
  rw [e.1, e.2]
  refine Uniform.bind (hb _ _ 64 (by norm_num)) (fun xv xv' ex => ?_)
  refine Uniform.bind (hb _ _ 240 (by norm_num)) (fun yv yv' ey => ?_)
  refine Uniform.bind (hw _ _) (fun av av' ea => Uniform.bind (hw _ _) (fun bv bv' eb => ?_))
  refine Uniform.bind (uniform_newVar _ _) (fun c _ e => ?_); subst e
  refine Uniform.bind (uniform_newVar _ _) (fun r _ e => ?_); subst e
  refine Uniform.bind (hi _ _) (fun be be' e1 => Uniform.bind (hi _ _) (fun la la' e2 => ?_))
  refine Uniform.bind (hi _ _) (fun bl bl' e3 => Uniform.bind (hi _ _) (fun s s' e4 => ?_))
  exact Uniform.pure _ _ ⟨⟨ex.1.1, ex.2⟩, ⟨ey.1.1, ey.2⟩, ea.1, eb.1, rfl, rfl, e1, e2, e3, e4⟩

omit [DecidableEq F] [ScalarRepr F] in
theorem uniform_inspState (P : SimFr.Params) (v v' : InspVars F) (hx : v.x.var = v'.x.var) (hy : v.y.var = v'.y.var)
    (ha : v.a.var = v'.a.var) (hb : v.b.var = v'.b.var) (hc : v.comm = v'.comm) (hr : v.r = v'.r) :
    Uniform (· = ·) (inspState p P v) (inspState p P v') := by
  unfold inspState
  rw [hx, hy, ha, hb, hc, hr]
  refine Uniform.bind (Uniform.mapM _ _ _ (fun vs _ => uniform_packWordC P vs)) (fun words _ e => ?_); subst e
  refine Uniform.bind (Uniform.liftM _) (fun c0 _ e => ?_); subst e
  refine Uniform.bind (Uniform.liftM _) (fun c1 _ e => ?_); subst e
  refine Uniform.bind (Uniform.liftM _) (fun c2 _ e => ?_); subst e
  refine Uniform.bind (Uniform.liftM _) (fun c3 _ e => ?_); subst e
  refine Uniform.bind (uniform_rescueCircuit p _) (fun h1 _ e => ?_); subst e
  refine Uniform.bind (Uniform.liftM _) (fun c4 _ e => ?_); subst e
  refine Uniform.bind (uniform_rescueCircuit p _) (fun h2 _ e => ?_); subst e
  exact uniform_equalV _ _

theorem inspEquation_dvd (P : SimFr.Params) (hP : InspOk P F) (wit : InspWitness P F) (x y a b z : ZMod P.r)
    (X Y A B be la bl Z t : Sim F) (m1 m2 m3 s1 s2 res : SimMul F)
    (hok : X.Ok P ∧ Y.Ok P ∧ A.Ok P ∧ B.Ok P)
    (hX : X = simOf P x) (hY : Y = simOf P y) (hA : A = { (simOf P a : Sim F) with adds := .one })
    (hB : B = { (simOf P b : Sim F) with adds := .one }) (hbe : be = simOf P wit.beta) (hla : la = simOf P wit.lambda)
    (hbl : bl = simOf P (wit.beta * wit.lambda)) (hZ : Z = simOf P z)
    (e1 : be.mul P X = some m1) (e2 : bl.mul P Y = some m2) (e3 : la.mul P B = some m3) (e4 : m1.add P m2 = some s1)
    (e5 : s1.add P m3 = some s2) (e6 : Z.sub P A = some t) (e7 : s2.sub P t = some res)
    (heq : z = (wit.beta * x + a) + wit.lambda * (wit.beta * y + b)) : P.r ∣ res.val := by
  haveI : NeZero P.r := ⟨hP.pos⟩
  have hk := fun k : ZMod P.r => insp_simOf (F := F) hP k
  have mulP : ∀ {a b : Sim F} {c : SimMul F}, a.Ok P → b.Ok P → a.mul P b = some c → c.Ok P ∧ c.val = a.val * b.val := by
    intro a b c ha hb e
    obtain ⟨c', e', e1, -, e3⟩ := C61_mul P hP.ok a b ha hb
    rw [e] at e'
    obtain rfl := Option.some.inj e'
    exact ⟨e1, e3⟩
  have addP : ∀ {a b c : SimMul F}, a.Ok P → b.Ok P → a.add P b = some c → c.Ok P ∧ c.val = a.val + b.val := by
    intro a b c ha hb e
    obtain ⟨c', e', e1, -, e3⟩ := C61_add P a b ha hb
    rw [e] at e'
    obtain rfl := Option.some.inj e'
    exact ⟨e1, e3⟩
  obtain ⟨o1, o2, o3, o4⟩ := hok
  obtain ⟨k1, v1⟩ := mulP (hbe ▸ (hk _).1) o1 e1
  obtain ⟨k2, v2⟩ := mulP (hbl ▸ (hk _).1) o2 e2
  obtain ⟨k3, v3⟩ := mulP (hla ▸ (hk _).1) o4 e3
  obtain ⟨k4, v4⟩ := addP k1 k2 e4
  obtain ⟨k5, v5⟩ := addP k4 k3 e5
  obtain ⟨c, c1, ck, c2, c3⟩ := C61_sub P hP.ok Z A (hZ ▸ (hk _).1) o3 (.inr (by rw [hA]))
  rw [e6] at c1
  obtain rfl := Option.some.inj c1
  obtain ⟨c, c1, -, -, c5⟩ := C61_mul_sub P hP.ok s2 t k5 ck (by rw [c2, hZ, (hk _).2.2]; decide)
  rw [e7] at c1
  obtain rfl := Option.some.inj c1
  rw [← ZMod.natCast_eq_zero_iff, c5, c3, v5, v4, v3, v2, v1, hX, hY, hA, hB, hbe, hla, hbl, hZ]
  simp only [(hk _).2.1, Nat.cast_add, Nat.cast_mul, ZMod.natCast_val, ZMod.cast_id', id]
  rw [heq]
  ring

theorem uniform_inspEquation (dbg : Bool) (P : SimFr.Params) (hP : InspOk P F) (wit wit' : InspWitness P F)
    (x y a b z x' y' a' b' z' : ZMod P.r) (v v' : InspVars F) (h : InspTwin P wit wit' x y a b z x' y' a' b' z' v v')
    (heq : z = (wit.beta * x + a) + wit.lambda * (wit.beta * y + b))
    (heq' : z' = (wit'.beta * x' + a') + wit'.lambda * (wit'.beta * y' + b')) :
    Uniform (· = ·) (inspEquation dbg P v) (inspEquation dbg P v') := by
  have mulU := fun (a a' b b' : SimVar F) (h : a.Same P a') (h' : b.Same P b') =>
    Uniform.post (C61_mul_uniform P hP.ok a a' b b' h h') (post_mul P a b) (post_mul P a' b')
  have addU := fun (a a' b b' : SimMulVar F) (h : a.Same P a') (h' : b.Same P b') =>
    Uniform.post (C61_add_uniform P a a' b b' h h') (post_add P a b) (post_add P a' b')
  unfold inspEquation
  refine Uniform.bind (mulU _ _ _ _ h.beta.1 h.x.1) (fun m1 m1' q1 => ?_)
  refine Uniform.bind (mulU _ _ _ _ h.betaLambda.1 h.y.1) (fun m2 m2' q2 => ?_)
  refine Uniform.bind (mulU _ _ _ _ h.lambda.1 h.b.1) (fun m3 m3' q3 => ?_)
  refine Uniform.bind (addU _ _ _ _ q1.1 q2.1) (fun s1 s1' q4 => ?_)
  refine Uniform.bind (addU _ _ _ _ q4.1 q3.1) (fun s2 s2' q5 => ?_)
  have ho : v.a.val.adds = .one := by rw [h.a.2.1]
  refine Uniform.bind (Uniform.post (C61_sub_uniform P hP.ok _ _ _ _ h.s.1 h.a.1 (.inr ho)) (post_sub P _ _)
    (post_sub P _ _)) (fun t t' q6 => ?_)
  have h4 : t.val.adds.num ≤ 4 := by
    obtain ⟨c, c1, -, c2, -⟩ := C61_sub P hP.ok v.s.val v.a.val h.s.1.2.2.1 h.a.1.2.2.1 (.inr ho)
    rw [q6.2.1] at c1
    rw [Option.some.inj c1, c2, h.s.2.1, (insp_simOf hP _).2.2]
    decide
  refine Uniform.bind (Uniform.post (C61_mul_sub_uniform P hP.ok _ _ _ _ q5.1 q6.1 h4) (post_mul_sub P _ _)
    (post_mul_sub P _ _)) (fun res res' q7 => ?_)
  refine C61_enforce_zero_uniform dbg P hP.ok hP.field _ _ q7.1 ?_ ?_
  · exact inspEquation_dvd P hP wit x y a b z _ _ _ _ _ _ _ _ _ _ _ _ _ _ _
      ⟨h.x.1.2.2.1, h.y.1.2.2.1, h.a.1.2.2.1, h.b.1.2.2.1⟩ h.x.2.1 h.y.2.1 h.a.2.1 h.b.2.1 h.beta.2.1 h.lambda.2.1
      h.betaLambda.2.1 h.s.2.1 q1.2.1 q2.2.1 q3.2.1 q4.2.1 q5.2.1 q6.2.1 q7.2.1 heq
  · exact inspEquation_dvd P hP wit' x' y' a' b' z' _ _ _ _ _ _ _ _ _ _ _ _ _ _ _
      ⟨h.x.1.2.2.2, h.y.1.2.2.2, h.a.1.2.2.2, h.b.1.2.2.2⟩ h.x.2.2 h.y.2.2 h.a.2.2 h.b.2.2 h.beta.2.2 h.lambda.2.2
      h.betaLambda.2.2 h.s.2.2 q1.2.2 q2.2.2 q3.2.2 q4.2.2 q5.2.2 q6.2.2 q7.2.2 heq'

omit [DecidableEq F] [ScalarRepr F] in
theorem uniform_recombine (P : SimFr.Params) (vs : List Nat) : Uniform (F := F) (· = ·) (recombine P vs) (recombine P vs) := by
  unfold recombine
  refine Uniform.bind (Uniform.liftM _) (fun c0 _ e => ?_); subst e
  refine Uniform.bind (Uniform.liftM _) (fun c1 _ e => ?_); subst e
  refine Uniform.bind (Uniform.liftM _) (fun c2 _ e => ?_); subst e
  refine Uniform.bind (Uniform.liftM _) (fun c3 _ e => ?_); subst e
  refine Uniform.bind (uniform_linearCombine _ _ _ _ _ _ _ _) (fun s _ e => ?_); subst e
  refine Uniform.bind (Uniform.liftM _) (fun c4 _ e => ?_); subst e
  refine Uniform.bind (Uniform.liftM _) (fun c5 _ e => ?_); subst e
  exact uniform_linearCombine _ _ _ _ _ _ _ _

/-- the two inspections have the same public part -/
def InspSame (P : SimFr.Params) (v v' : InspVars F) : Prop := Uniform (· = ·) (inspPublic P v) (inspPublic P v')

theorem uniform_inspection (dbg : Bool) (P : SimFr.Params) (hP : InspOk P F) (wit wit' : InspWitness P F)
    (h : wit.Consistent) (h' : wit'.Consistent) (amount ty : Nat) :
    Uniform (InspSame P) (inspection p dbg P wit amount ty) (inspection p dbg P wit' amount ty) := by
  obtain ⟨x, y, a, b, z0, z1, h0, h1, hz, heq⟩ := h.proof
  obtain ⟨x', y', a', b', z0', z1', h0', h1', hz', heq'⟩ := h'.proof
  unfold inspection
  refine Uniform.bind (uniform_inspAlloc P hP wit wit' _ _ _ _ _ _ _ _ _ _ h0 h1 hz h0' h1' hz') (fun v v' e => ?_)
  refine Uniform.bind (uniform_inspState p P v v' e.x.1.1 e.y.1.1 e.a.1.1 e.b.1.1 e.comm e.r) (fun _ _ _ => ?_)
  refine Uniform.bind (uniform_inspEquation dbg P hP wit wit' _ _ _ _ _ _ _ _ _ _ v v' e heq heq') (fun _ _ _ => ?_)
  refine Uniform.bind (ρ := (· = ·)) ?_ (fun _ _ _ => ?_)
  · unfold inspValues
    rw [e.x.1.1, e.y.1.1]
    refine Uniform.bind (uniform_recombine P _) (fun c _ e => ?_); subst e
    refine Uniform.bind (uniform_recombine P _) (fun d _ e => ?_); subst e
    exact Uniform.bind (uniform_equalV _ _) (fun _ _ _ => uniform_equalV _ _)
  refine Uniform.pure _ _ ?_
  unfold InspSame inspPublic
  rw [e.comm]
  refine Uniform.bind (uniform_preparePi _) (fun _ _ _ => ?_)
  refine Uniform.bind (uniform_publicLimbs P e.beta) (fun _ _ _ => ?_)
  refine Uniform.bind (uniform_publicLimbs P e.lambda) (fun _ _ _ => ?_)
  exact Uniform.bind (uniform_publicLimbs P e.betaLambda) (fun _ _ _ => uniform_publicLimbs P e.s)

omit [DecidableEq F] [ScalarRepr F] in
/-- C73: the gates do not depend on the record. -/
theorem C73_ar_to_abar_uniform (t t' : Payee F) : Uniform (· = ·) (buildArToAbar p t) (buildArToAbar p t') := by
  unfold buildArToAbar
  refine Uniform.bind (uniform_newVar _ _) (fun a _ e => ?_); subst e
  refine Uniform.bind (uniform_preparePi _) (fun _ _ _ => ?_)
  refine Uniform.bind (uniform_newVar _ _) (fun a _ e => ?_); subst e
  refine Uniform.bind (uniform_preparePi _) (fun _ _ _ => ?_)
  refine Uniform.bind (uniform_newVar _ _) (fun a _ e => ?_); subst e
  refine Uniform.bind (uniform_pkVars _ _) (fun a _ e => ?_); subst e
  refine Uniform.bind (uniform_commitInCs p _ _ _ _) (fun c _ e => ?_); subst e
  refine Uniform.bind (uniform_preparePi _) (fun _ _ _ => ?_)
  exact Uniform.bind uniform_pad (fun _ _ _ => Uniform.pure _ _ rfl)

omit [ScalarRepr F] in
theorem uniform_spendOne (s s' : Payer F) (pk pk' : PK F) (sk sk' : SK F) (h : s.path.length = s'.path.length) :
    Uniform (· = ·) (spendOne p s pk sk) (spendOne p s' pk' sk') := by
  unfold spendOne
  refine Uniform.bind (m := payerVars s) (ρ := (· = ·)) ?_ (fun v _ e => ?_)
  · unfold payerVars
    refine Uniform.bind (uniform_newVar _ _) (fun a _ e => ?_); subst e
    refine Uniform.bind (uniform_newVar _ _) (fun a _ e => ?_); subst e
    refine Uniform.bind (uniform_newVar _ _) (fun a _ e => ?_); subst e
    refine Uniform.bind (uniform_addMerklePath _ _ h) (fun a _ e => ?_); subst e
    refine Uniform.bind (uniform_newVar _ _) (fun a _ e => ?_); subst e
    exact Uniform.pure _ _ rfl
  subst e
  refine Uniform.bind (uniform_pkVars _ _) (fun pkv _ e => ?_); subst e
  refine Uniform.bind (uniform_newVar _ _) (fun s0 _ e => ?_); subst e
  refine Uniform.bind (uniform_newVar _ _) (fun s1 _ e => ?_); subst e
  refine Uniform.bind (uniform_commitInCs p _ _ _ _) (fun c _ e => ?_); subst e
  refine Uniform.bind (uniform_linearCombine _ _ _ _ _ _ _ _) (fun c _ e => ?_); subst e
  refine Uniform.bind (m := nullifyInCs p _ _ _ _) (ρ := (· = ·)) ?_ (fun c _ e => ?_)
  · unfold nullifyInCs
    refine Uniform.bind (uniform_rescueCircuit p _) (fun a _ e => ?_); subst e
    refine Uniform.bind (uniform_rescueCircuit p _) (fun a _ e => ?_); subst e
    exact Uniform.pure _ _ rfl
  subst e
  refine Uniform.bind (uniform_merkleRootVars p _ _ _) (fun c _ e => ?_); subst e
  exact Uniform.pure _ _ rfl

omit [ScalarRepr F] in
/-- C74: the gates depend only on the length of the Merkle path. -/
theorem C74_abar_to_ar_uniform {α : Type} (folding folding' : PK Nat → SK Nat → Build F α)
    (hf : ∀ pk sk, Uniform (· = ·) (folding pk sk) (folding' pk sk)) (s s' : Payer F) (pk pk' : PK F) (sk sk' : SK F)
    (h : s.path.length = s'.path.length) :
    Uniform (· = ·) (buildAbarToAr p folding s pk sk) (buildAbarToAr p folding' s' pk' sk') := by
  unfold buildAbarToAr
  refine Uniform.bind (uniform_spendOne p s s' pk pk' sk sk' h) (fun v _ e => ?_); subst e
  refine Uniform.bind (uniform_preparePi _) (fun _ _ _ => Uniform.bind (uniform_preparePi _) (fun _ _ _ => ?_))
  refine Uniform.bind (uniform_preparePi _) (fun _ _ _ => Uniform.bind (uniform_preparePi _) (fun _ _ _ => ?_))
  refine Uniform.bind (hf _ _) (fun fo _ e => ?_); subst e
  exact Uniform.bind uniform_pad (fun _ _ _ => Uniform.pure _ _ rfl)

/-- C75: the gates do not depend on the record and the proof, as long as the proof meets the equation. -/
theorem C75_bar_to_abar_uniform (dbg : Bool) (P : SimFr.Params) (hP : InspOk P F) (t t' : Payee F)
    (wit wit' : InspWitness P F) (h : wit.Consistent) (h' : wit'.Consistent) :
    Uniform (fun v v' => v.out = v'.out) (buildBarToAbar p dbg P t wit) (buildBarToAbar p dbg P t' wit') := by
  unfold buildBarToAbar
  refine Uniform.bind (uniform_newVar _ _) (fun a _ e => ?_); subst e
  refine Uniform.bind (uniform_newVar _ _) (fun a _ e => ?_); subst e
  refine Uniform.bind (uniform_newVar _ _) (fun a _ e => ?_); subst e
  refine Uniform.bind (uniform_pkVars _ _) (fun a _ e => ?_); subst e
  refine Uniform.bind (uniform_inspection p dbg P hP wit wit' h h' _ _) (fun v v' ev => ?_)
  refine Uniform.bind (uniform_commitInCs p _ _ _ _) (fun c _ e => ?_); subst e
  refine Uniform.bind (uniform_preparePi _) (fun _ _ _ => Uniform.bind ev (fun _ _ _ => ?_))
  exact Uniform.bind uniform_pad (fun _ _ _ => Uniform.pure _ _ rfl)

/-- C76: the gates depend only on the length of the Merkle path, as long as the proof meets the equation. -/
theorem C76_abar_to_bar_uniform {α : Type} (folding folding' : PK Nat → SK Nat → Build F α)
    (hf : ∀ pk sk, Uniform (· = ·) (folding pk sk) (folding' pk sk)) (dbg : Bool) (P : SimFr.Params) (hP : InspOk P F)
    (s s' : Payer F) (pk pk' : PK F) (sk sk' : SK F) (hl : s.path.length = s'.path.length)
    (wit wit' : InspWitness P F) (h : wit.Consistent) (h' : wit'.Consistent) :
    Uniform (fun v v' => v.spend = v'.spend ∧ v.fold = v'.fold) (buildAbarToBar p folding dbg P s pk sk wit)
      (buildAbarToBar p folding' dbg P s' pk' sk' wit') := by
  unfold buildAbarToBar
  refine Uniform.bind (uniform_spendOne p s s' pk pk' sk sk' hl) (fun v _ e => ?_); subst e
  refine Uniform.bind (uniform_inspection p dbg P hP wit wit' h h' _ _) (fun i i' ev => ?_)
  refine Uniform.bind (uniform_preparePi _) (fun _ _ _ => Uniform.bind (uniform_preparePi _) (fun _ _ _ => ?_))
  refine Uniform.bind ev (fun _ _ _ => ?_)
  refine Uniform.bind (hf _ _) (fun fo _ e => ?_); subst e
  exact Uniform.bind uniform_pad (fun _ _ _ => Uniform.pure _ _ ⟨rfl, rfl⟩)

end Verif.Anon
