import Verif.Anon.FoldingRun

/-!
C72 (uniformity): the folding circuit does not depend on the witness.
-/

namespace Verif.Anon

open Verif.Plonk Verif.Plonk.Spec Verif.SimFr Verif.SimFr.Spec Verif.StateComm Verif.Anon.Spec Verif.Xfr

variable {F : Type} [Field F]

/-- every result of the builder has the property -/
def Post {α : Type} (m : Build F α) (φ : α → Prop) : Prop := ∀ cs a cs', m cs = some (a, cs') → φ a

theorem Post.bind {α β : Type} {m : Build F α} {f : α → Build F β} {φ : α → Prop} {ψ : β → Prop} (h : Post m φ)
    (hf : ∀ a, φ a → Post (f a) ψ) : Post (m >>= f) ψ := by
  intro cs b cs' hm
  simp only [Bind.bind, StateT.bind] at hm
  obtain ⟨⟨a, cs1⟩, h1, h2⟩ := Option.bind_eq_some_iff.mp hm
  exact hf a (h _ _ _ h1) _ _ _ h2

theorem Post.pure {α : Type} {φ : α → Prop} (a : α) (h : φ a) : Post (Pure.pure a : Build F α) φ := by
  intro cs b cs' hm
  simp only [Pure.pure, StateT.pure, Option.some.injEq, Prod.mk.injEq] at hm
  rwa [← hm.1]

theorem Post.any {α : Type} (m : Build F α) : Post m (fun _ => True) := fun _ _ _ _ => trivial

theorem Post.liftM {α : Type} (x : Option α) : Post (liftM x : Build F α) (fun a => x = some a) := by
  intro cs a cs' hm
  cases x with
  | none => cases hm
  | some b =>
    have : some (b, cs) = some (a, cs') := hm
    simp only [Option.some.injEq, Prod.mk.injEq] at this
    rw [this.1]

theorem Uniform.post {α : Type} {ρ : α → α → Prop} {m n : Build F α} {φ ψ : α → Prop} (h : Uniform ρ m n) (hm : Post m φ)
    (hn : Post n ψ) : Uniform (fun a b => ρ a b ∧ φ a ∧ ψ b) m n := by
  intro cs cs2 he
  have := h cs cs2 he
  have p1 := hm cs
  have p2 := hn cs2
  generalize m cs = x at this p1
  generalize n cs2 = y at this p2
  cases this with
  | none => exact .none
  | @some a b hab => exact .some ⟨⟨hab.1, p1 _ _ rfl, p2 _ _ rfl⟩, hab.2⟩

theorem post_allocInput (P : SimFr.Params) (val : Sim F) : Post (allocInput P val) (fun a => a.val = val) :=
  Post.bind (Post.any _) (fun _ _ => Post.pure _ rfl)

theorem post_add (P : SimFr.Params) (a b : SimMulVar F) : Post (a.add P b) (fun c => a.val.add P b.val = some c.val) :=
  Post.bind (Post.liftM _) (fun _ h => Post.bind (Post.any _) (fun _ _ => Post.pure _ h))

theorem post_sub (P : SimFr.Params) (a b : SimVar F) : Post (a.sub P b) (fun c => a.val.sub P b.val = some c.val) :=
  Post.bind (Post.liftM _) (fun _ h => Post.bind (Post.any _) (fun _ _ => Post.pure _ h))

theorem post_mul_sub (P : SimFr.Params) (a : SimMulVar F) (b : SimVar F) :
    Post (a.sub P b) (fun c => a.val.sub P b.val = some c.val) :=
  Post.bind (Post.liftM _) (fun _ h => Post.bind (Post.any _) (fun _ _ => Post.pure _ h))

theorem post_mul (P : SimFr.Params) (a b : SimVar F) : Post (a.mul P b) (fun c => a.val.mul P b.val = some c.val) :=
  Post.bind (Post.liftM _) (fun _ h => Post.bind (Post.any _) (fun _ _ => Post.pure _ h))

variable [DecidableEq F] [ScalarRepr F]

omit [DecidableEq F] in
theorem post_allocWitness (P : SimFr.Params) (val : Sim F) :
    Post (allocWitness P val) (fun r => r.1.val = { val with adds := .one }) := by
  unfold allocWitness
  split
  · exact Post.bind (Post.any _) (fun _ _ => Post.pure _ rfl)
  · intro cs a cs' h
    cases h

/-- same variables and counters, the values are those given -/
def Twin (P : SimFr.Params) (v v' : Sim F) (a a' : SimVar F) : Prop := a.Same P a' ∧ a.val = v ∧ a'.val = v'

omit [DecidableEq F] [ScalarRepr F] in
theorem twin_allocInput (P : SimFr.Params) (val val' : Sim F) (h : val.Ok P) (h' : val'.Ok P) (ha : val.adds = val'.adds) :
    Uniform (Twin P val val') (allocInput P val) (allocInput P val') :=
  Uniform.post (uniform_allocInput P val val' h h' ha) (post_allocInput P val) (post_allocInput P val')

omit [DecidableEq F] in
theorem twin_allocWitness (P : SimFr.Params) (val val' : Sim F) (h : val.Ok P) (h' : val'.Ok P)
    (hs : val.adds = .strict) (hs' : val'.adds = .strict) :
    Uniform (fun r r' => Twin P { val with adds := .one } { val' with adds := .one } r.1 r'.1 ∧ r.2 = r'.2)
      (allocWitness P val) (allocWitness P val') :=
  Uniform.weak (Uniform.post (uniform_allocWitness P val val' h h' hs hs') (post_allocWitness P val)
    (post_allocWitness P val')) (fun _ _ h => ⟨⟨h.1.1, h.2⟩, h.1.2⟩)

omit [DecidableEq F] [ScalarRepr F] in
theorem uniform_equalAll (l l' : List Nat) : Uniform (F := F) (· = ·) (equalAll l l') (equalAll l l') := by
  unfold equalAll
  refine Uniform.foldlM (ρ := (· = ·)) _ _ _ (fun _ _ x _ _ => ?_) _ _ rfl
  exact uniform_equalV _ _

/-- a witness that meets the equation of the circuit: honest ones, and the default one -/
structure FoldWitness.Consistent {P : SimFr.Params} (wit : FoldWitness P F) : Prop where
  x : wit.x < P.r
  y : wit.y < P.r
  s : wit.s < P.r
  resps : ∃ r0 r1 r2 z0 z1 z2 : ZMod P.r, wit.rands = [r0, r1, r2] ∧ wit.resps = [z0, z1, z2] ∧
    z0 + z1 * wit.lambda + z2 * wit.lambda * wit.lambda =
      (wit.beta * wit.x + r0) + wit.lambda * (wit.beta * wit.y + r1) + wit.lambda ^ 2 * (wit.beta * wit.s + r2)

omit [DecidableEq F] in
theorem FoldWitness.Honest.consistent {P : SimFr.Params} {p : Rescue.Params F} {order : Nat} {wit : FoldWitness P F}
    (h : wit.Honest p order) : wit.Consistent := by
  obtain ⟨r0, r1, r2, h1, h2⟩ := h.resps
  exact ⟨h.x, h.y, h.s.1, r0, r1, r2, _, _, _, h1, h2, by ring⟩

theorem uniform_foldKeys (P : SimFr.Params) (hP : FoldOk P F) (modulus : Bytes) (wit wit' : FoldWitness P F)
    (h : wit.Consistent) (h' : wit'.Consistent) (pk : PK Nat) (sk : SK Nat) :
    Uniform (fun r r' =>
        Twin P { (ofBig P wit.x : Sim F) with adds := .one } { (ofBig P wit'.x : Sim F) with adds := .one } r.1 r'.1 ∧
        Twin P { (ofBig P wit.y : Sim F) with adds := .one } { (ofBig P wit'.y : Sim F) with adds := .one } r.2.1 r'.2.1 ∧
        Twin P { (ofBig P wit.s : Sim F) with adds := .one } { (ofBig P wit'.s : Sim F) with adds := .one } r.2.2 r'.2.2)
      (foldKeys P modulus wit pk sk) (foldKeys P modulus wit' pk sk) := by
  have hw := fun (v v' : Nat) (hv : v < P.r) (hv' : v' < P.r) =>
    twin_allocWitness P (ofBig P v : Sim F) (ofBig P v') (C61_from P hP.ok v hv).1 (C61_from P hP.ok v' hv').1 rfl rfl
  unfold foldKeys
  refine Uniform.bind (uniform_rangeCheck _ _) (fun a0 _ e => ?_); subst e
  refine Uniform.bind (uniform_rangeCheck _ _) (fun a1 _ e => ?_); subst e
  refine Uniform.bind (uniform_rangeCheck _ _) (fun a2 _ e => ?_); subst e
  refine Uniform.bind (uniform_rangeCheck _ _) (fun c0 _ e => ?_); subst e
  refine Uniform.bind (uniform_rangeCheck _ _) (fun c1 _ e => ?_); subst e
  refine Uniform.bind (C62_comparison_uniform _ _ _ _ (by rw [bytes_bits_length, bytes_bits_length, leBytes_length, leBytes_length])) (fun _ _ _ => ?_)
  refine Uniform.bind (hw _ _ h.x h'.x) (fun x x' ex => Uniform.bind (hw _ _ h.y h'.y) (fun y y' ey => ?_))
  refine Uniform.bind (hw _ _ h.s h'.s) (fun s s' es => ?_)
  rw [← ex.2, ← ey.2, ← es.2]
  refine Uniform.ite (fun _ => Uniform.failure _) (fun _ => ?_)
  refine Uniform.bind (uniform_equalAll _ _) (fun _ _ _ => Uniform.bind (uniform_equalAll _ _) (fun _ _ _ => ?_))
  exact Uniform.pure _ _ ⟨ex.1, ey.1, es.1⟩

/-- the two sets of variables of step 5 -/
structure AllocTwin (P : SimFr.Params) (wit wit' : FoldWitness P F) (r0 r1 r2 z r0' r1' r2' z' : ZMod P.r)
    (e e' : EqVars F) : Prop where
  l1 : Twin P (simOf P wit.lambda) (simOf P wit'.lambda) e.l1 e'.l1
  l2 : Twin P (simOf P (wit.lambda * wit.lambda)) (simOf P (wit'.lambda * wit'.lambda)) e.l2 e'.l2
  b0 : Twin P (simOf P (1 * wit.beta)) (simOf P (1 * wit'.beta)) e.b0 e'.b0
  b1 : Twin P (simOf P (wit.lambda * wit.beta)) (simOf P (wit'.lambda * wit'.beta)) e.b1 e'.b1
  b2 : Twin P (simOf P (wit.lambda * wit.lambda * wit.beta)) (simOf P (wit'.lambda * wit'.lambda * wit'.beta)) e.b2 e'.b2
  r0 : Twin P { (simOf P r0 : Sim F) with adds := .one } { (simOf P r0' : Sim F) with adds := .one } e.r0 e'.r0
  r1 : Twin P { (simOf P r1 : Sim F) with adds := .one } { (simOf P r1' : Sim F) with adds := .one } e.r1 e'.r1
  r2 : Twin P { (simOf P r2 : Sim F) with adds := .one } { (simOf P r2' : Sim F) with adds := .one } e.r2 e'.r2
  resp : Twin P (simOf P z) (simOf P z') e.resp e'.resp

theorem uniform_foldAlloc (P : SimFr.Params) (hP : FoldOk P F) (wit wit' : FoldWitness P F)
    (r0 r1 r2 z0 z1 z2 r0' r1' r2' z0' z1' z2' : ZMod P.r)
    (hr : wit.rands = [r0, r1, r2]) (hz : wit.resps = [z0, z1, z2])
    (hr' : wit'.rands = [r0', r1', r2']) (hz' : wit'.resps = [z0', z1', z2']) :
    Uniform (AllocTwin P wit wit' r0 r1 r2 (z0 + z1 * wit.lambda + z2 * wit.lambda * wit.lambda) r0' r1' r2'
      (z0' + z1' * wit'.lambda + z2' * wit'.lambda * wit'.lambda)) (foldAlloc P wit) (foldAlloc P wit') := by
  have hi := fun k k' : ZMod P.r => twin_allocInput P (simOf P k : Sim F) (simOf P k') (simOf_ok hP k).1 (simOf_ok hP k').1 rfl
  have hw := fun k k' : ZMod P.r =>
    twin_allocWitness P (simOf P k : Sim F) (simOf P k') (simOf_ok hP k).1 (simOf_ok hP k').1 rfl rfl
  unfold foldAlloc
  refine Uniform.bind (hi _ _) (fun l1 l1' e1 => Uniform.bind (hi _ _) (fun l2 l2' e2 => ?_))
  refine Uniform.bind (hi _ _) (fun b0 b0' e3 => Uniform.bind (hi _ _) (fun b1 b1' e4 => ?_))
  refine Uniform.bind (hi _ _) (fun b2 b2' e5 => ?_)
  refine Uniform.bind (uniform_lift2 (ρ := fun a b => a = r0 ∧ b = r0') (by rw [hr]; rfl) (by rw [hr']; rfl) ⟨rfl, rfl⟩)
    (fun _ _ e => ?_)
  rw [e.1, e.2]
  refine Uniform.bind (hw _ _) (fun R0 R0' e6 => ?_)
  refine Uniform.bind (uniform_lift2 (ρ := fun a b => a = r1 ∧ b = r1') (by rw [hr]; rfl) (by rw [hr']; rfl) ⟨rfl, rfl⟩)
    (fun _ _ e => ?_)
  rw [e.1, e.2]
  refine Uniform.bind (hw _ _) (fun R1 R1' e7 => ?_)
  refine Uniform.bind (uniform_lift2 (ρ := fun a b => a = r2 ∧ b = r2') (by rw [hr]; rfl) (by rw [hr']; rfl) ⟨rfl, rfl⟩)
    (fun _ _ e => ?_)
  rw [e.1, e.2]
  refine Uniform.bind (hw _ _) (fun R2 R2' e8 => ?_)
  refine Uniform.bind (uniform_lift2 (ρ := fun a b => a = z0 + z1 * wit.lambda + z2 * wit.lambda * wit.lambda ∧
    b = z0' + z1' * wit'.lambda + z2' * wit'.lambda * wit'.lambda) (by rw [hz]; rfl) (by rw [hz']; rfl) ⟨rfl, rfl⟩)
    (fun _ _ e => ?_)
  rw [e.1, e.2]
  refine Uniform.bind (hi _ _) (fun z z' e9 => ?_)
  exact Uniform.pure _ _ ⟨e1, e2, e3, e4, e5, e6.1, e7.1, e8.1, e9⟩

theorem foldEquation_dvd (P : SimFr.Params) (hP : FoldOk P F) (wit : FoldWitness P F) (r0 r1 r2 z : ZMod P.r)
    (x y s b0 b1 b2 l1 l2 R0 R1 R2 Z rhs : Sim F) (m1 m2 m3 m4 m5 s2 s3 s4 s5 res : SimMul F)
    (hok : x.Ok P ∧ y.Ok P ∧ s.Ok P ∧ R0.Ok P ∧ R1.Ok P ∧ R2.Ok P)
    (hx : x = { (ofBig P wit.x : Sim F) with adds := .one }) (hy : y = { (ofBig P wit.y : Sim F) with adds := .one })
    (hs : s = { (ofBig P wit.s : Sim F) with adds := .one }) (hl1 : l1 = simOf P wit.lambda)
    (hl2 : l2 = simOf P (wit.lambda * wit.lambda)) (hb0 : b0 = simOf P (1 * wit.beta))
    (hb1 : b1 = simOf P (wit.lambda * wit.beta)) (hb2 : b2 = simOf P (wit.lambda * wit.lambda * wit.beta))
    (hR0 : R0 = { (simOf P r0 : Sim F) with adds := .one }) (hR1 : R1 = { (simOf P r1 : Sim F) with adds := .one })
    (hR2 : R2 = { (simOf P r2 : Sim F) with adds := .one }) (hZ : Z = simOf P z)
    (e1 : x.mul P b0 = some m1) (e2 : y.mul P b1 = some m2) (e3 : m2.add P m1 = some s2) (e4 : R1.mul P l1 = some m3)
    (e5 : m3.add P s2 = some s3) (e6 : s.mul P b2 = some m4) (e7 : m4.add P s3 = some s4) (e8 : R2.mul P l2 = some m5)
    (e9 : m5.add P s4 = some s5) (e10 : Z.sub P R0 = some rhs) (e11 : s5.sub P rhs = some res)
    (heq : z = (wit.beta * wit.x + r0) + wit.lambda * (wit.beta * wit.y + r1) + wit.lambda ^ 2 * (wit.beta * wit.s + r2)) :
    P.r ∣ res.val := by
  haveI : NeZero P.r := ⟨hP.pos⟩
  have hk := fun k : ZMod P.r => simOf_ok (F := F) hP k
  have mulP : ∀ {a b : Sim F} {c : SimMul F}, a.Ok P → b.Ok P → a.mul P b = some c → c.Ok P ∧ c.val = a.val * b.val := by
    intro a b c ha hb e
    obtain ⟨c', e', e1, -, e3⟩ := C61_mul P hP.ok a b ha hb
    rw [e] at e'
    obtain rfl := Option.some.inj e'
    exact ⟨e1, e3⟩
  have addP : ∀ {a b c : SimMul F}, a.Ok P → b.Ok P → a.add P b = some c → c.Ok P ∧ c.val = a.val + b.val := by
    intro a b c ha hb e
    obtain ⟨c', e', e1, -, e3⟩ := C61_add P a b ha hb
    rw [e] at e'
    obtain rfl := Option.some.inj e'
    exact ⟨e1, e3⟩
  obtain ⟨o1, o2, o3, o4, o5, o6⟩ := hok
  obtain ⟨k1, v1⟩ := mulP o1 (hb0 ▸ (hk _).1) e1
  obtain ⟨k2, v2⟩ := mulP o2 (hb1 ▸ (hk _).1) e2
  obtain ⟨k3, v3⟩ := addP k2 k1 e3
  obtain ⟨k4, v4⟩ := mulP o5 (hl1 ▸ (hk _).1) e4
  obtain ⟨k5, v5⟩ := addP k4 k3 e5
  obtain ⟨k6, v6⟩ := mulP o3 (hb2 ▸ (hk _).1) e6
  obtain ⟨k7, v7⟩ := addP k6 k5 e7
  obtain ⟨k8, v8⟩ := mulP o6 (hl2 ▸ (hk _).1) e8
  obtain ⟨k9, v9⟩ := addP k8 k7 e9
  obtain ⟨c, c1, ck, c2, c3⟩ := C61_sub P hP.ok Z R0 (hZ ▸ (hk _).1) o4 (.inr (by rw [hR0]))
  rw [e10] at c1
  obtain rfl := Option.some.inj c1
  obtain ⟨c, c1, -, -, c5⟩ := C61_mul_sub P hP.ok s5 rhs k9 ck (by rw [c2, hZ, (hk _).2.2]; decide)
  rw [e11] at c1
  obtain rfl := Option.some.inj c1
  rw [← ZMod.natCast_eq_zero_iff, c5, c3, v9, v8, v7, v6, v5, v4, v3, v2, v1, hx, hy, hs, hR0, hR1, hR2, hZ, hl1, hl2, hb0,
    hb1, hb2]
  simp only [(hk _).2.1, Nat.cast_add, Nat.cast_mul, ZMod.natCast_val, ZMod.cast_id', id]
  rw [heq]
  simp only [ofBig]
  ring

theorem uniform_foldEquation (dbg : Bool) (P : SimFr.Params) (hP : FoldOk P F) (wit wit' : FoldWitness P F)
    (r0 r1 r2 z r0' r1' r2' z' : ZMod P.r) (x y s x' y' s' : SimVar F) (e e' : EqVars F)
    (hx : Twin P { (ofBig P wit.x : Sim F) with adds := .one } { (ofBig P wit'.x : Sim F) with adds := .one } x x')
    (hy : Twin P { (ofBig P wit.y : Sim F) with adds := .one } { (ofBig P wit'.y : Sim F) with adds := .one } y y')
    (hs : Twin P { (ofBig P wit.s : Sim F) with adds := .one } { (ofBig P wit'.s : Sim F) with adds := .one } s s')
    (he : AllocTwin P wit wit' r0 r1 r2 z r0' r1' r2' z' e e')
    (heq : z = (wit.beta * wit.x + r0) + wit.lambda * (wit.beta * wit.y + r1) + wit.lambda ^ 2 * (wit.beta * wit.s + r2))
    (heq' : z' = (wit'.beta * wit'.x + r0') + wit'.lambda * (wit'.beta * wit'.y + r1') +
      wit'.lambda ^ 2 * (wit'.beta * wit'.s + r2')) :
    Uniform (· = ·) (foldEquation dbg P x y s e) (foldEquation dbg P x' y' s' e') := by
  have mulU := fun (a a' b b' : SimVar F) (h : a.Same P a') (h' : b.Same P b') =>
    Uniform.post (C61_mul_uniform P hP.ok a a' b b' h h') (post_mul P a b) (post_mul P a' b')
  have addU := fun (a a' b b' : SimMulVar F) (h : a.Same P a') (h' : b.Same P b') =>
    Uniform.post (C61_add_uniform P a a' b b' h h') (post_add P a b) (post_add P a' b')
  unfold foldEquation
  refine Uniform.bind (mulU _ _ _ _ hx.1 he.b0.1) (fun m1 m1' q1 => ?_)
  refine Uniform.bind (mulU _ _ _ _ hy.1 he.b1.1) (fun m2 m2' q2 => ?_)
  refine Uniform.bind (addU _ _ _ _ q2.1 q1.1) (fun s2 s2' q3 => ?_)
  refine Uniform.bind (mulU _ _ _ _ he.r1.1 he.l1.1) (fun m3 m3' q4 => ?_)
  refine Uniform.bind (addU _ _ _ _ q4.1 q3.1) (fun s3 s3' q5 => ?_)
  refine Uniform.bind (mulU _ _ _ _ hs.1 he.b2.1) (fun m4 m4' q6 => ?_)
  refine Uniform.bind (addU _ _ _ _ q6.1 q5.1) (fun s4 s4' q7 => ?_)
  refine Uniform.bind (mulU _ _ _ _ he.r2.1 he.l2.1) (fun m5 m5' q8 => ?_)
  refine Uniform.bind (addU _ _ _ _ q8.1 q7.1) (fun s5 s5' q9 => ?_)
  have ho : e.r0.val.adds = .one := by rw [he.r0.2.1]
  refine Uniform.bind (Uniform.post (C61_sub_uniform P hP.ok _ _ _ _ he.resp.1 he.r0.1 (.inr ho)) (post_sub P _ _)
    (post_sub P _ _)) (fun rhs rhs' q10 => ?_)
  have h4 : rhs.val.adds.num ≤ 4 := by
    obtain ⟨c, c1, -, c2, -⟩ := C61_sub P hP.ok e.resp.val e.r0.val he.resp.1.2.2.1 he.r0.1.2.2.1 (.inr ho)
    rw [q10.2.1] at c1
    rw [Option.some.inj c1, c2, he.resp.2.1, (simOf_ok hP _).2.2]
    decide
  refine Uniform.bind (Uniform.post (C61_mul_sub_uniform P hP.ok _ _ _ _ q9.1 q10.1 h4) (post_mul_sub P _ _)
    (post_mul_sub P _ _)) (fun res res' q11 => ?_)
  refine C61_enforce_zero_uniform dbg P hP.ok hP.field _ _ q11.1 ?_ ?_
  · exact foldEquation_dvd P hP wit r0 r1 r2 z _ _ _ _ _ _ _ _ _ _ _ _ _ _ _ _ _ _ _ _ _ _ _
      ⟨hx.1.2.2.1, hy.1.2.2.1, hs.1.2.2.1, he.r0.1.2.2.1, he.r1.1.2.2.1, he.r2.1.2.2.1⟩
      hx.2.1 hy.2.1 hs.2.1 he.l1.2.1 he.l2.2.1 he.b0.2.1 he.b1.2.1 he.b2.2.1 he.r0.2.1 he.r1.2.1 he.r2.2.1 he.resp.2.1
      q1.2.1 q2.2.1 q3.2.1 q4.2.1 q5.2.1 q6.2.1 q7.2.1 q8.2.1 q9.2.1 q10.2.1 q11.2.1 heq
  · exact foldEquation_dvd P hP wit' r0' r1' r2' z' _ _ _ _ _ _ _ _ _ _ _ _ _ _ _ _ _ _ _ _ _ _ _
      ⟨hx.1.2.2.2, hy.1.2.2.2, hs.1.2.2.2, he.r0.1.2.2.2, he.r1.1.2.2.2, he.r2.1.2.2.2⟩
      hx.2.2 hy.2.2 hs.2.2 he.l1.2.2 he.l2.2.2 he.b0.2.2 he.b1.2.2 he.b2.2.2 he.r0.2.2 he.r1.2.2 he.r2.2.2 he.resp.2.2
      q1.2.2 q2.2.2 q3.2.2 q4.2.2 q5.2.2 q6.2.2 q7.2.2 q8.2.2 q9.2.2 q10.2.2 q11.2.2 heq'

omit [DecidableEq F] [ScalarRepr F] in
theorem uniform_packWordC (P : SimFr.Params) (vs : List Nat) :
    Uniform (F := F) (· = ·) (packWordC P vs) (packWordC P vs) := by
  unfold packWordC
  refine Uniform.bind (uniform_linearCombine _ _ _ _ _ _ _ _) (fun a _ e => ?_); subst e
  exact Uniform.ite (fun _ => uniform_linearCombine _ _ _ _ _ _ _ _) (fun _ => Uniform.pure _ _ rfl)

omit [DecidableEq F] [ScalarRepr F] in
theorem uniform_chainC (p : Rescue.Params F) (n h : Nat) (l : List Nat) (hn : l.length ≤ n) :
    Uniform (· = ·) (chainC p h l) (chainC p h l) := by
  induction n generalizing h l with
  | zero =>
    obtain rfl := List.length_eq_zero_iff.mp (Nat.le_zero.mp hn)
    exact Uniform.pure _ _ rfl
  | succ n ih =>
    match l, hn with
    | [], _ => exact Uniform.pure _ _ rfl
    | [a], _ => exact Uniform.failure _
    | [a, b], _ => exact Uniform.failure _
    | a :: b :: c :: rest, hn =>
      rw [chainC]
      refine Uniform.bind (uniform_rescueCircuit p _) (fun o _ e => ?_); subst e
      exact ih o.1 rest (by simp only [List.length_cons] at hn; omega)

omit [DecidableEq F] [ScalarRepr F] in
theorem uniform_stateCommC (p : Rescue.Params F) (P : SimFr.Params) (r comm r' comm' : F) (vars : List Nat) :
    Uniform (· = ·) (stateCommC p P r comm vars) (stateCommC p P r' comm' vars) := by
  unfold stateCommC
  refine Uniform.bind (Uniform.mapM _ _ _ (fun vs _ => uniform_packWordC P vs)) (fun words _ e => ?_); subst e
  refine Uniform.bind (uniform_newVar _ _) (fun rv _ e => ?_); subst e
  refine Uniform.bind (uniform_newVar _ _) (fun cv _ e => ?_); subst e
  refine Uniform.bind (m := spongeC p words rv) (ρ := (· = ·)) ?_ (fun h _ e => ?_)
  · unfold spongeC
    generalize StateComm.resize zeroVar (words ++ [rv]) = m
    match m with
    | [] => exact Uniform.failure _
    | [a] => exact Uniform.failure _
    | [a, b] => exact Uniform.failure _
    | [a, b, c] => exact Uniform.failure _
    | a :: b :: c :: d :: rest =>
      refine Uniform.bind (uniform_rescueCircuit p _) (fun o _ e => ?_); subst e
      exact uniform_chainC p _ _ _ (le_refl _)
  subst e
  exact Uniform.bind (uniform_equalV _ _) (fun _ _ _ => Uniform.pure _ _ rfl)

omit [DecidableEq F] [ScalarRepr F] in
theorem uniform_publicLimbs (P : SimFr.Params) {a a' : SimVar F} {v v' : Sim F} (h : Twin P v v' a a') :
    Uniform (· = ·) (publicLimbs P a) (publicLimbs P a') := by
  unfold publicLimbs
  rw [h.1.1]
  refine Uniform.foldlM (ρ := (· = ·)) _ _ _ (fun _ _ i _ _ => ?_) _ _ rfl
  refine Uniform.bind (Uniform.liftM _) (fun _ _ e => ?_); subst e
  exact uniform_preparePi _

/-- C72: the gates of the folding circuit do not depend on the witness, as long as it meets the equation of the circuit
(honest witnesses do, and the default witness from which the keys are made). -/
theorem C72_folding_uniform (p : Rescue.Params F) (dbg : Bool) (P : SimFr.Params) (hP : FoldOk P F) (modulus : Bytes)
    (wit wit' : FoldWitness P F) (h : wit.Consistent) (h' : wit'.Consistent) (pk : PK Nat) (sk : SK Nat) :
    Uniform (· = ·) (foldingCircuit p dbg P modulus wit pk sk) (foldingCircuit p dbg P modulus wit' pk sk) := by
  unfold foldingCircuit
  refine Uniform.bind (uniform_foldKeys P hP modulus wit wit' h h' pk sk) (fun k k' ek => ?_)
  obtain ⟨r0, r1, r2, z0, z1, z2, hr, hz, heq⟩ := h.resps
  obtain ⟨r0', r1', r2', z0', z1', z2', hr', hz', heq'⟩ := h'.resps
  refine Uniform.bind (uniform_foldAlloc P hP wit wit' _ _ _ _ _ _ _ _ _ _ _ _ hr hz hr' hz') (fun e e' ee => ?_)
  refine Uniform.bind (uniform_foldEquation dbg P hP wit wit' _ _ _ _ _ _ _ _ _ _ _ _ _ _ e e' ek.1 ek.2.1 ek.2.2 ee heq
    heq') (fun _ _ _ => ?_)
  rw [← ek.1.1.1, ← ek.2.1.1.1, ← ek.2.2.1.1, ← ee.r0.1.1, ← ee.r1.1.1, ← ee.r2.1.1]
  refine Uniform.bind (uniform_stateCommC p P _ _ _ _ _) (fun cv _ e => ?_); subst e
  refine Uniform.bind (uniform_preparePi _) (fun _ _ _ => ?_)
  refine Uniform.bind (uniform_publicLimbs P ee.l1) (fun _ _ _ => Uniform.bind (uniform_publicLimbs P ee.l2) (fun _ _ _ => ?_))
  refine Uniform.bind (uniform_publicLimbs P ee.b0) (fun _ _ _ => Uniform.bind (uniform_publicLimbs P ee.b1) (fun _ _ _ => ?_))
  refine Uniform.bind (uniform_publicLimbs P ee.b2) (fun _ _ _ => Uniform.bind (uniform_publicLimbs P ee.resp) (fun _ _ _ => ?_))
  exact Uniform.pure _ _ rfl

end Verif.Anon
