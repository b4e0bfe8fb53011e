import Verif.Anon.ConvertProps

/-!
C73 to C76 (completeness): honest conversions satisfy the circuits.
-/

namespace Verif.Anon

open Verif.Plonk Verif.Plonk.Spec Verif.SimFr Verif.SimFr.Spec Verif.StateComm Verif.Anon.Spec

variable {F : Type} [Field F]

theorem Runs.post {α : Type} {m : Build F α} {cs : CS F} {Q : α → CS F → Prop} {φ : α → Prop} (h : Runs m cs Q)
    (hp : Post m φ) : Runs m cs (fun a cs' => Q a cs' ∧ φ a) := by
  intro hw hs
  obtain ⟨a, cs', pv, e, h1, h2, h3, h4, h5⟩ := h hw hs
  exact ⟨a, cs', pv, e, h1, h2, h3, h4, h5, hp _ _ _ e⟩

theorem held_is {P : SimFr.Params} {cs : CS F} {a : SimVar F} (h : a.Held P cs) : a.Is P cs.value a.val.val := by
  have hl := (Held.list h).map
  obtain ⟨⟨L, h1, h2, h3, h4⟩, h5, -⟩ := h
  refine ⟨L, ⟨h5, fun i v hv => ?_⟩, h2, h3⟩
  have := congrArg (fun l => l[i]?) hl
  simp only [List.getElem?_map, hv, Option.map_some, h1] at this
  have hi : i < P.limbs := by
    rw [← h5]
    exact (List.getElem?_eq_some_iff.mp hv).1
  rw [List.getElem?_range hi] at this
  simpa using this

variable [DecidableEq F] [ScalarRepr F] (p : Rescue.Params F)

theorem post_allocBounded (P : SimFr.Params) (val : Sim F) (total : Nat) (ht : total ≠ 253) :
    Post (allocBounded P val total) (fun a => a.1.val = val) := by
  unfold allocBounded
  split
  · refine Post.bind (Post.any _) (fun _ _ => Post.pure _ ?_)
    simp [ht]
  · intro cs a cs' e
    cases e

theorem insp_simOf {P : SimFr.Params} (h : InspOk P F) (k : ZMod P.r) :
    (simOf P k : Sim F).Ok P ∧ (simOf P k : Sim F).val = k.val ∧ (simOf P k : Sim F).adds = .strict := by
  haveI : NeZero P.r := ⟨h.pos⟩
  exact C61_from P h.ok _ (ZMod.val_lt k)

/-- an honest witness of an inspection for the amount `x` and the asset type `y`: the responses and the state commitment
computed as the prover does -/
structure InspWitness.Honest {P : SimFr.Params} (p : Rescue.Params F) (x y : Nat) (wit : InspWitness P F) : Prop where
  amount : x < 2 ^ 64 ∧ x < P.r
  ty : y < 2 ^ 240 ∧ y < P.r
  proof : ∃ a b : ZMod P.r, wit.data = [((x : ZMod P.r), a), ((y : ZMod P.r), b)] ∧
    wit.resps = [wit.beta * x + a, wit.beta * y + b] ∧ stateComm p P [x, y] [a.val, b.val] wit.r = some wit.comm

/-- the variables of step 2 of an honest run -/
structure InspHeld (P : SimFr.Params) (cs : CS F) (wit : InspWitness P F) (x y : Nat) (a b z : ZMod P.r) (v : InspVars F) :
    Prop where
  x : v.x.Held P cs ∧ v.x.val = simOf P (x : ZMod P.r)
  y : v.y.Held P cs ∧ v.y.val = simOf P (y : ZMod P.r)
  a : v.a.Held P cs ∧ v.a.val = { (simOf P a : Sim F) with adds := .one }
  b : v.b.Held P cs ∧ v.b.val = { (simOf P b : Sim F) with adds := .one }
  comm : Has cs v.comm wit.comm
  r : Has cs v.r wit.r
  beta : v.beta.Held P cs ∧ v.beta.val = simOf P wit.beta
  lambda : v.lambda.Held P cs ∧ v.lambda.val = simOf P wit.lambda
  betaLambda : v.betaLambda.Held P cs ∧ v.betaLambda.val = simOf P (wit.beta * wit.lambda)
  s : v.s.Held P cs ∧ v.s.val = simOf P z

omit [DecidableEq F] [ScalarRepr F] in
theorem InspHeld.mono {P : SimFr.Params} {cs cs' : CS F} {pv : List Nat} (hw : WF cs) (h : Mono cs cs' pv)
    {wit : InspWitness P F} {x y : Nat} {a b z : ZMod P.r} {v : InspVars F} (ha : InspHeld P cs wit x y a b z v) :
    InspHeld P cs' wit x y a b z v :=
  ⟨⟨ha.x.1.mono hw h, ha.x.2⟩, ⟨ha.y.1.mono hw h, ha.y.2⟩, ⟨ha.a.1.mono hw h, ha.a.2⟩, ⟨ha.b.1.mono hw h, ha.b.2⟩,
    ha.comm.mono hw h, ha.r.mono hw h, ⟨ha.beta.1.mono hw h, ha.beta.2⟩, ⟨ha.lambda.1.mono hw h, ha.lambda.2⟩,
    ⟨ha.betaLambda.1.mono hw h, ha.betaLambda.2⟩, ⟨ha.s.1.mono hw h, ha.s.2⟩⟩

theorem runs_inspAlloc (P : SimFr.Params) (h : InspOk P F) (wit : InspWitness P F) (x y : Nat) (hx : x < 2 ^ 64 ∧ x < P.r)
    (hy : y < 2 ^ 240 ∧ y < P.r) (a b z0 z1 : ZMod P.r) (hd : wit.data = [((x : ZMod P.r), a), ((y : ZMod P.r), b)])
    (hz : wit.resps = [z0, z1]) (cs : CS F) (h0 : Has cs 0 0) :
    Runs (inspAlloc P wit) cs (fun v cs' => InspHeld P cs' wit x y a b (z0 + z1 * wit.lambda) v) := by
  have ht := h.total
  have hi := fun (k : ZMod P.r) (cs : CS F) => C61_alloc_input_complete P (simOf P k : Sim F) (insp_simOf h k).1 cs
  have hw := fun (k : ZMod P.r) (cs : CS F) (h0 : Has cs 0 0) =>
    C61_alloc_witness_complete P h.ok h.bits (simOf P k : Sim F) (insp_simOf h k).1 (insp_simOf h k).2.2 cs h0
  have hbd := fun (n total : Nat) (hn : n < 2 ^ total ∧ n < P.r) (ht : total ≤ P.bits * (P.limbs - 1) + P.top)
      (hm : total % P.bits ≠ 1) (h253 : total ≠ 253) (cs : CS F) (h0 : Has cs 0 0) =>
    Runs.post (C61_alloc_bounded_complete P h.ok h.bits (simOf P (n : ZMod P.r) : Sim F) (insp_simOf h _).1
      (insp_simOf h _).2.2 total ht hm (by rw [(insp_simOf h _).2.1, ZMod.val_natCast_of_lt hn.2]; exact hn.1) cs h0)
      (post_allocBounded P _ total h253)
  unfold inspAlloc
  refine Runs.bind (Runs.liftM _ ((x : ZMod P.r), a) (by rw [hd]; rfl) cs) ?_
  rintro _ _ - - - ⟨rfl, rfl⟩
  refine Runs.bind (Runs.liftM _ ((y : ZMod P.r), b) (by rw [hd]; rfl) _) ?_
  rintro _ _ - - - ⟨rfl, rfl⟩
  refine Runs.bind (Runs.liftM _ (z0 + z1 * wit.lambda) (by rw [hz]; rfl) _) ?_
  rintro _ _ - - - ⟨rfl, rfl⟩
  refine Runs.bind (hbd x 64 hx (by omega) h.first (by norm_num) _ h0) ?_
  rintro xv cs1 w0 w1 m1 ⟨⟨xh, -⟩, xe⟩
  adv w0 m1
  refine Runs.bind (hbd y 240 hy (by omega) h.second (by norm_num) _ h0) ?_
  rintro yv cs2 - w2 m2 ⟨⟨yh, -⟩, ye⟩
  adv w1 m2
  refine Runs.bind (hw a cs2 h0) ?_
  rintro av cs3 - w3 m3 ⟨ah, ae, -⟩
  adv w2 m3
  refine Runs.bind (hw b cs3 h0) ?_
  rintro bv cs4 - w4 m4 ⟨bh, be, -⟩
  adv w3 m4
  refine Runs.bind (runs_newVar _ cs4) ?_
  rintro cv cs5 - w5 m5 hcv
  adv w4 m5
  refine Runs.bind (runs_newVar _ cs5) ?_
  rintro rv cs6 - w6 m6 hrv
  adv w5 m6
  refine Runs.bind (hi _ cs6) ?_
  rintro be' cs7 - w7 m7 ⟨beh, bee⟩
  adv w6 m7
  refine Runs.bind (hi _ cs7) ?_
  rintro la cs8 - w8 m8 ⟨lah, lae⟩
  adv w7 m8
  refine Runs.bind (hi _ cs8) ?_
  rintro bl cs9 - w9 m9 ⟨blh, ble⟩
  adv w8 m9
  refine Runs.bind (hi _ cs9) ?_
  rintro s cs10 - w10 m10 ⟨sh, se⟩
  adv w9 m10
  exact Runs.pure _ _ _ ⟨⟨xh, xe⟩, ⟨yh, ye⟩, ⟨ah, ae⟩, ⟨bh, be⟩, hcv, hrv, ⟨beh, bee⟩, ⟨lah, lae⟩, ⟨blh, ble⟩, sh, se⟩

omit [DecidableEq F] in
theorem runs_inspState (hp : GoodParams p) (P : SimFr.Params) (h5 : perWord P = 5) (v : InspVars F) (xs : List F) (r comm : F)
    (cs : CS F) (h0 : Has cs 0 0) (hl : HasList cs (v.x.var ++ v.y.var ++ v.a.var ++ v.b.var) xs) (hxs : xs.length = 24)
    (hr : Has cs v.r r) (hc : Has cs v.comm comm) (hs : sponge p (packLimbs P xs) r = some comm) :
    Runs (inspState p P v) cs (fun _ _ => True) := by
  refine Runs.withWF (fun hw0 => ?_)
  unfold inspState
  generalize v.x.var ++ v.y.var ++ v.a.var ++ v.b.var = vars at hl
  have hlt := hl.lt
  have hm := hl.map
  refine Runs.bind (Runs.mapM _ (fun (cs' : CS F) (vs : List Nat) o => Has cs' o (packWord P (vs.map cs.value)))
    (fun _ _ _ _ hw mo h => h.mono hw mo) _ cs ?_) ?_
  · intro cs1 vs hvs mo hw
    exact runs_packWordC P vs _ (chunks_length _ _ _ hvs) cs1 (h0.mono hw0 mo)
      ((HasList.self (fun v hv => hlt v (mem_chunks hvs v hv))).mono hw0 mo)
  rintro words cs1 - w1 m1 hwords
  have hws : HasList cs1 words (packLimbs P xs) := by
    unfold HasList packLimbs
    rw [← hm, chunks_map, List.map_map, List.forall₂_map_right_iff, h5]
    exact hwords.flip
  have hlen : words.length = 5 := by
    rw [hws.length_eq]
    unfold packLimbs chunks
    simp [h5, hxs]
  obtain ⟨c0, c1, c2, c3, c4, rfl⟩ : ∃ c0 c1 c2 c3 c4, words = [c0, c1, c2, c3, c4] := by
    match words, hlen with
    | [c0, c1, c2, c3, c4], _ => exact ⟨c0, c1, c2, c3, c4, rfl⟩
  generalize packLimbs P xs = ys at hws hs
  obtain ⟨y0, y1, y2, y3, y4, rfl, g0, g1, g2, g3, g4⟩ : ∃ y0 y1 y2 y3 y4, ys = [y0, y1, y2, y3, y4] ∧ Has cs1 c0 y0 ∧
      Has cs1 c1 y1 ∧ Has cs1 c2 y2 ∧ Has cs1 c3 y3 ∧ Has cs1 c4 y4 := by
    unfold HasList at hws
    simp only [List.forall₂_cons_left_iff, List.forall₂_nil_left_iff] at hws
    obtain ⟨y0, _, h0, ⟨y1, _, h1, ⟨y2, _, h2, ⟨y3, _, h3, ⟨y4, _, h4, rfl, rfl⟩, rfl⟩, rfl⟩, rfl⟩, rfl⟩ := hws
    exact ⟨y0, y1, y2, y3, y4, rfl, h0, h1, h2, h3, h4⟩
  rw [sponge_five] at hs
  have hs := Option.some.inj hs
  adv hw0 m1
  refine Runs.bind (Runs.liftM _ c0 rfl cs1) ?_
  rintro _ _ - - - ⟨rfl, rfl⟩
  refine Runs.bind (Runs.liftM _ c1 rfl _) ?_
  rintro _ _ - - - ⟨rfl, rfl⟩
  refine Runs.bind (Runs.liftM _ c2 rfl _) ?_
  rintro _ _ - - - ⟨rfl, rfl⟩
  refine Runs.bind (Runs.liftM _ c3 rfl _) ?_
  rintro _ _ - - - ⟨rfl, rfl⟩
  refine Runs.bind (runs_hash4 p hp _ _ _ _ _ _ _ _ _ g0 g1 g2 g3) ?_
  intro h1 cs2 _ w2 m2 hh1
  adv w1 m2
  refine Runs.bind (Runs.liftM _ c4 rfl _) ?_
  rintro _ _ - - - ⟨rfl, rfl⟩
  refine Runs.bind (runs_hash4 p hp _ _ _ _ _ _ _ _ _ hh1 g4 hr h0) ?_
  intro h2 cs3 _ w3 m3 hh2
  adv w2 m3
  refine runs_equalV _ _ comm cs3 h0 ?_ hc
  rw [← hs]
  exact hh2

theorem runs_inspEquation (dbg : Bool) (P : SimFr.Params) (h : InspOk P F) (wit : InspWitness P F) (x y : Nat)
    (a b z : ZMod P.r) (v : InspVars F) (cs : CS F) (h0 : Has cs 0 0) (hv : InspHeld P cs wit x y a b z v)
    (heq : z = (wit.beta * x + a) + wit.lambda * (wit.beta * y + b)) :
    Runs (inspEquation dbg P v) cs (fun _ _ => True) := by
  haveI : NeZero P.r := ⟨h.pos⟩
  have hk := fun k : ZMod P.r => (insp_simOf (F := F) h k).2
  obtain ⟨⟨xh, xv⟩, ⟨yh, yv⟩, ⟨ah, av⟩, ⟨bh, bv⟩, -, -, ⟨beh, bev⟩, ⟨lah, lav⟩, ⟨blh, blv⟩, sh, sv⟩ := hv
  have mulP : ∀ {a b : SimVar F} {c : SimMul F}, a.val.Ok P → b.val.Ok P →
      a.val.mul P b.val = some c → c.prod = (a.val.adds.num + 1) * (b.val.adds.num + 1) ∧ c.val = a.val.val * b.val.val := by
    intro a b c ha hb e
    obtain ⟨c', e', -, e2, e3⟩ := C61_mul P h.ok a.val b.val ha hb
    rw [e] at e'
    obtain rfl := Option.some.inj e'
    exact ⟨e2, e3⟩
  have addP : ∀ {a b : SimMulVar F} {c : SimMul F}, a.val.Ok P → b.val.Ok P →
      a.val.add P b.val = some c → c.prod = a.val.prod + b.val.prod ∧ c.val = a.val.val + b.val.val := by
    intro a b c ha hb e
    obtain ⟨c', e', -, e2, e3⟩ := C61_add P a.val b.val ha hb
    rw [e] at e'
    obtain rfl := Option.some.inj e'
    exact ⟨e2, e3⟩
  unfold inspEquation
  refine Runs.bind (C61_mul_complete P h.ok _ _ cs h0 beh xh) ?_
  rintro m1 cs1 w0 w1 mo1 ⟨m1h, m1e⟩
  obtain ⟨m1p, m1v⟩ := mulP beh.1 xh.1 m1e
  adv w0 mo1
  refine Runs.bind (C61_mul_complete P h.ok _ _ cs1 h0 blh yh) ?_
  rintro m2 cs2 - w2 mo2 ⟨m2h, m2e⟩
  obtain ⟨m2p, m2v⟩ := mulP blh.1 yh.1 m2e
  adv w1 mo2
  refine Runs.bind (C61_mul_complete P h.ok _ _ cs2 h0 lah bh) ?_
  rintro m3 cs3 - w3 mo3 ⟨m3h, m3e⟩
  obtain ⟨m3p, m3v⟩ := mulP lah.1 bh.1 m3e
  adv w2 mo3
  refine Runs.bind (C61_add_complete P _ _ cs3 m1h m2h) ?_
  rintro s1 cs4 - w4 mo4 ⟨s1h, s1e⟩
  obtain ⟨s1p, s1v⟩ := addP m1h.1 m2h.1 s1e
  adv w3 mo4
  refine Runs.bind (C61_add_complete P _ _ cs4 s1h m3h) ?_
  rintro s2 cs5 - w5 mo5 ⟨s2h, s2e⟩
  obtain ⟨s2p, s2v⟩ := addP s1h.1 m3h.1 s2e
  adv w4 mo5
  have ho : v.a.val.adds = .one := by rw [av]
  refine Runs.bind (C61_sub_complete P h.ok _ _ cs5 sh ah (.inr ho)) ?_
  rintro t cs6 - w6 mo6 ⟨rh, re⟩
  obtain ⟨c, c1, -, c2, c3⟩ := C61_sub P h.ok v.s.val v.a.val sh.1 ah.1 (.inr ho)
  rw [re] at c1
  obtain rfl := Option.some.inj c1
  adv w5 mo6
  have h4 : t.val.adds.num ≤ 4 := by rw [c2, sv, (hk _).2]; decide
  refine Runs.bind (C61_mul_sub_complete P h.ok _ _ cs6 s2h rh h4) ?_
  rintro res cs7 - w7 mo7 ⟨fh, fe⟩
  obtain ⟨c, c1, -, c4, c5⟩ := C61_mul_sub P h.ok s2.val t.val s2h.1 rh.1 h4
  rw [fe] at c1
  obtain rfl := Option.some.inj c1
  adv w6 mo7
  have p1 : m1.val.prod = 1 := by rw [m1p, bev, xv, (hk _).2, (hk _).2]; rfl
  have p2 : m2.val.prod = 1 := by rw [m2p, blv, yv, (hk _).2, (hk _).2]; rfl
  have p3 : m3.val.prod = 2 := by rw [m3p, lav, bv, (hk _).2]; rfl
  refine C61_enforce_zero_complete dbg P h.ok h.field res cs7 h0 fh (by omega) ?_
  rw [← ZMod.natCast_eq_zero_iff, c5, c3, s2v, s1v, m3v, m2v, m1v, xv, yv, av, bv, sv, bev, lav, blv]
  simp only [(hk _).1, Nat.cast_add, Nat.cast_mul, ZMod.natCast_val, ZMod.cast_id', id]
  rw [heq]
  ring

omit [DecidableEq F] [ScalarRepr F] in
theorem runs_recombine (P : SimFr.Params) (h6 : P.limbs = 6) (a : SimVar F) (cs : CS F) (h0 : Has cs 0 0) (ha : a.Held P cs) :
    Runs (recombine P a.var) cs (fun o cs' => Has cs' o (a.val.val : F)) := by
  refine Runs.withWF (fun hw0 => ?_)
  refine (Runs.andSound (Q := fun o cs' => o < cs'.numVars) ?_ (sound_recombine P h6 a)).cons ?_
  · have hlt := (Held.list ha).lt
    have hlen : a.var.length = 6 := by rw [← h6]; exact ha.2.1
    clear ha
    obtain ⟨v0, v1, v2, v3, v4, v5, hv⟩ : ∃ v0 v1 v2 v3 v4 v5, a.var = [v0, v1, v2, v3, v4, v5] := by
      match hv : a.var, hlen with
      | [v0, v1, v2, v3, v4, v5], _ => exact ⟨v0, v1, v2, v3, v4, v5, rfl⟩
    rw [hv] at hlt ⊢
    have hh : ∀ v ∈ [v0, v1, v2, v3, v4, v5], Has cs v (cs.value v) := fun v hv => ⟨hlt v hv, rfl⟩
    simp only [List.forall_mem_cons, List.not_mem_nil, false_implies, implies_true, and_true] at hh
    obtain ⟨g0, g1, g2, g3, g4, g5⟩ := hh
    unfold recombine
    refine Runs.bind (Runs.liftM _ v0 rfl cs) ?_
    rintro _ _ - - - ⟨rfl, rfl⟩
    refine Runs.bind (Runs.liftM _ v1 rfl _) ?_
    rintro _ _ - - - ⟨rfl, rfl⟩
    refine Runs.bind (Runs.liftM _ v2 rfl _) ?_
    rintro _ _ - - - ⟨rfl, rfl⟩
    refine Runs.bind (Runs.liftM _ v3 rfl _) ?_
    rintro _ _ - - - ⟨rfl, rfl⟩
    refine Runs.bind (runs_linearCombine _ _ _ _ _ _ _ _ _ _ _ _ _ g0 g1 g2 g3) ?_
    intro sum cs1 w0 w1 m1 hsum
    adv w0 m1
    refine Runs.bind (Runs.liftM _ v4 rfl _) ?_
    rintro _ _ - - - ⟨rfl, rfl⟩
    refine Runs.bind (Runs.liftM _ v5 rfl _) ?_
    rintro _ _ - - - ⟨rfl, rfl⟩
    refine (runs_linearCombine _ _ _ _ _ _ _ _ _ _ _ _ _ hsum g4 g5 h0).cons ?_
    intro o cs' _ _ _ ho
    exact ho.1
  · rintro o cs' w0 w1 m1 ⟨ho, hs⟩
    exact ⟨ho, hs (h0.mono w0 m1).2 _ (held_is (ha.mono w0 m1))⟩

omit [ScalarRepr F] in
theorem runs_inspValues (P : SimFr.Params) (h6 : P.limbs = 6) (v : InspVars F) (amount ty : Nat) (cs : CS F) (h0 : Has cs 0 0)
    (hx : v.x.Held P cs) (hy : v.y.Held P cs) (ha : Has cs amount (v.x.val.val : F)) (ht : Has cs ty (v.y.val.val : F)) :
    Runs (inspValues P v amount ty) cs (fun _ _ => True) := by
  unfold inspValues
  refine Runs.bind (runs_recombine P h6 v.x cs h0 hx) ?_
  intro x cs1 w0 w1 m1 ex
  adv w0 m1
  refine Runs.bind (runs_recombine P h6 v.y cs1 h0 hy) ?_
  intro y cs2 _ w2 m2 ey
  adv w1 m2
  refine Runs.bind (runs_equalV x amount _ cs2 h0 ex ha) ?_
  intro _ cs3 _ w3 m3 _
  adv w2 m3
  exact runs_equalV y ty _ cs3 h0 ey ht

/-- Honest inspections run, and what they make public afterwards is the verifier's input. -/
theorem runs_inspection (hp : GoodParams p) (dbg : Bool) (P : SimFr.Params) (h : InspOk P F) (wit : InspWitness P F) (x y : Nat)
    (hh : wit.Honest p x y) : ∃ (pub : List F) (a b z : ZMod P.r), inspectInput P wit.comm wit.beta wit.lambda wit.resps = some pub ∧
      (∀ (cs : CS F) (amount ty : Nat), Has cs 0 0 → Has cs amount (x : F) → Has cs ty (y : F) →
        Runs (inspection p dbg P wit amount ty) cs (fun v cs' => InspHeld P cs' wit x y a b z v)) ∧
      ∀ (cs : CS F) (v : InspVars F), InspHeld P cs wit x y a b z v →
        RunsP (inspPublic P v) cs (fun _ cs' pv => HasList cs' pv pub) := by
  haveI : NeZero P.r := ⟨h.pos⟩
  obtain ⟨hx, hy, a, b, hd, hz, hc⟩ := hh
  refine ⟨_, a, b, (wit.beta * x + a) + (wit.beta * y + b) * wit.lambda, by unfold inspectInput combined2; rw [hz]; rfl, fun cs amount ty h0 ha ht => ?_, fun cs v hv => ?_⟩
  · unfold inspection
    refine Runs.bind (runs_inspAlloc P h wit x y hx hy a b _ _ hd hz cs h0) ?_
    intro v cs1 w0 w1 m1 hv
    adv w0 m1
    have hl := (((Held.list hv.x.1).append (Held.list hv.y.1)).append (Held.list hv.a.1)).append (Held.list hv.b.1)
    have hxv : v.x.val.val = x := by rw [hv.x.2, (insp_simOf h _).2.1, ZMod.val_natCast_of_lt hx.2]
    have hyv : v.y.val.val = y := by rw [hv.y.2, (insp_simOf h _).2.1, ZMod.val_natCast_of_lt hy.2]
    refine Runs.bind (runs_inspState p hp P h.words v _ wit.r wit.comm cs1 h0 hl ?_ hv.r hv.comm ?_) ?_
    · rw [hv.x.2, hv.y.2, hv.a.2, hv.b.2]
      simp only [List.length_append, simOf, ofBig_limbs_length, h.six]
    · rw [← hc]
      unfold stateComm stateLimbs
      rw [hv.x.2, hv.y.2, hv.a.2, hv.b.2]
      simp only [simOf, ZMod.val_natCast_of_lt hx.2, ZMod.val_natCast_of_lt hy.2, List.flatMap_cons, List.flatMap_nil,
        List.append_nil, List.append_assoc]
    intro _ cs2 _ w2 m2 _
    adv w1 m2
    refine Runs.bind (runs_inspEquation dbg P h wit x y a b _ v cs2 h0 hv (by ring)) ?_
    intro _ cs3 _ w3 m3 _
    adv w2 m3
    refine Runs.bind (runs_inspValues P h.six v amount ty cs3 h0 hv.x.1 hv.y.1 (by rw [hxv]; exact ha) (by rw [hyv]; exact ht)) ?_
    intro _ cs4 _ w4 m4 _
    exact Runs.pure _ _ _ (hv.mono w3 m4)
  · unfold inspPublic
    refine RunsP.bind (runsP_preparePi v.comm cs hv.comm.1) ?_
    rintro _ cs5 pv w4 w5 m5 rfl
    adv w4 m5
    refine RunsP.bind (runsP_publicLimbs P v.beta cs5 hv.beta.1) ?_
    rintro _ cs6 pv - w6 m6 rfl
    adv w5 m6
    refine RunsP.bind (runsP_publicLimbs P v.lambda cs6 hv.lambda.1) ?_
    rintro _ cs7 pv - w7 m7 rfl
    adv w6 m7
    refine RunsP.bind (runsP_publicLimbs P v.betaLambda cs7 hv.betaLambda.1) ?_
    rintro _ cs8 pv - w8 m8 rfl
    adv w7 m8
    refine (runsP_publicLimbs P v.s cs8 hv.s.1).cons ?_
    rintro _ cs9 pv _ w9 m9 rfl
    adv w8 m9
    have a1 := Held.list hv.beta.1
    have a2 := Held.list hv.lambda.1
    have a3 := Held.list hv.betaLambda.1
    have a4 := Held.list hv.s.1
    rw [hv.beta.2] at a1
    rw [hv.lambda.2] at a2
    rw [hv.betaLambda.2] at a3
    rw [hv.s.2] at a4
    have := (HasList.single hv.comm).append (a1.append (a2.append (a3.append a4)))
    simpa only [List.append_assoc, List.append_nil] using this

/-! ### The circuits -/

/-- a run from the empty system is satisfied by its own witness, for the values it makes public -/
theorem complete_of_runs {α : Type} {m : Build F α} {pubs : List F}
    (h : RunsP m CS.new (fun _ cs' pv => HasList cs' pv pubs)) :
    ∃ vars cs, m CS.new = some (vars, cs) ∧ cs.online = pubs ∧ Sat cs cs.value pubs ∧ pubs.length = cs.pubVars.length ∧
      cs.value 0 = 0 := by
  obtain ⟨u, cs, pv, e, hw, hs, mo, h⟩ := h WF.new new_hsat
  have hon : cs.online = pubs := by
    rw [online_mono mo, ← h.map]
    rfl
  refine ⟨u, cs, e, hon, by rw [← hon]; exact hs, ?_, (new_has.1.mono WF.new mo).2⟩
  rw [← hon]
  simp [CS.online]

/-- C73 (completeness): for every record the builder does not panic, and the witness satisfies the circuit for the amount,
asset type and commitment of the record. -/
theorem C73_ar_to_abar_complete (hp : GoodParams p) (t : Payee F) :
    ∃ vars cs, buildArToAbar p t CS.new = some (vars, cs) ∧
      cs.online = [t.amount, t.ty, commit p t.pk t.blind t.amount t.ty] ∧
      Sat cs cs.value [t.amount, t.ty, commit p t.pk t.blind t.amount t.ty] := by
  obtain ⟨vars, cs, e, h1, h2, -, -⟩ := complete_of_runs (m := buildArToAbar p t)
    (pubs := [t.amount, t.ty, commit p t.pk t.blind t.amount t.ty]) (by
      have h0 := (new_has (F := F)).1
      unfold buildArToAbar
      refine RunsP.bindR (runs_newVar _ _) ?_
      intro amount cs1 w0 w1 m1 ha
      adv w0 m1
      refine RunsP.bind (runsP_preparePi _ cs1 ha.1) ?_
      rintro _ cs2 pv - w2 m2 rfl
      adv w1 m2
      refine RunsP.bindR (runs_newVar _ _) ?_
      intro ty cs3 _ w3 m3 ht
      adv w2 m3
      refine RunsP.bind (runsP_preparePi _ cs3 ht.1) ?_
      rintro _ cs4 pv - w4 m4 rfl
      adv w3 m4
      refine RunsP.bindR (runs_newVar _ _) ?_
      intro blind cs5 _ w5 m5 hb
      adv w4 m5
      refine RunsP.bindR (runs_pkVars _ _) ?_
      intro pk cs6 _ w6 m6 hk
      adv w5 m6
      refine RunsP.bindR (runs_commitInCs p hp _ _ _ _ _ _ _ _ _ h0 hb ha ht hk) ?_
      intro com cs7 _ w7 m7 hc
      adv w6 m7
      refine RunsP.bind (runsP_preparePi _ cs7 hc.1) ?_
      rintro _ cs8 pv - w8 m8 rfl
      adv w7 m8
      refine RunsP.bindR (runs_pad _) ?_
      intro _ cs9 _ w9 m9 _
      adv w8 m9
      exact RunsP.pure _ _ _ (.cons ha (.cons ht (.cons hc .nil))))
  exact ⟨vars, cs, e, h1, h2⟩

/-- what an honest run of the first part holds -/
structure HasSpend (cs : CS F) (pk : PK F) (sk : SK F) (s : Payer F) (root : F) (v : SpendVars) : Prop where
  keyVars : HasPk cs v.pk pk
  secretVars : HasSk cs v.sk sk
  amount : Has cs v.payer.amount s.amount
  ty : Has cs v.payer.ty s.ty
  nul : Has cs v.nul (nullify p pk sk s.uid s.amount s.ty)
  rootVar : Has cs v.root root

omit [DecidableEq F] [ScalarRepr F] in
theorem HasSpend.mono {p : Rescue.Params F} {cs cs' : CS F} {pv : List Nat} (hw : WF cs) (h : Mono cs cs' pv) {pk : PK F} {sk : SK F} {s : Payer F}
    {root : F} {v : SpendVars} (hv : HasSpend p cs pk sk s root v) : HasSpend p cs' pk sk s root v :=
  ⟨hv.keyVars.mono hw h, hv.secretVars.mono hw h, hv.amount.mono hw h, hv.ty.mono hw h, hv.nul.mono hw h,
    hv.rootVar.mono hw h⟩

theorem runs_spendOne (hp : GoodParams p) (s : Payer F) (pk : PK F) (sk : SK F) (root : F) (hg : ∀ n ∈ s.path, GoodNode n)
    (hr : payerRoot p pk s = root) (cs : CS F) (h0 : Has cs 0 0) :
    Runs (spendOne p s pk sk) cs (fun v cs' => HasSpend p cs' pk sk s root v) := by
  unfold spendOne
  refine Runs.bind (runs_payerVars s hg cs) ?_
  intro v cs1 w0 w1 m1 hv
  adv w0 m1
  refine Runs.bind (runs_pkVars _ _) ?_
  intro pkv cs2 _ w2 m2 hk
  adv w1 m2
  refine Runs.bind (runs_newVar _ _) ?_
  intro s0 cs3 _ w3 m3 hs0
  adv w2 m3
  refine Runs.bind (runs_newVar _ _) ?_
  intro s1 cs4 _ w4 m4 hs1
  adv w3 m4
  have hsk : HasSk cs4 (s0, s1) sk := ⟨hs0, hs1⟩
  obtain ⟨v1, v2, v3, v4, v5⟩ := hv
  refine Runs.bind (runs_commitInCs p hp _ _ _ _ _ _ _ _ _ h0 v4 v2 v3 hk) ?_
  intro com cs5 _ w5 m5 hcom
  adv w4 m5
  refine Runs.bind (runs_linearCombine _ _ _ _ _ _ _ _ _ _ _ _ _ v1 v2 h0 h0) ?_
  intro ua cs6 _ w6 m6 hua
  adv w5 m6
  rw [show (2 ^ 64 * s.uid + 1 * s.amount + 0 * 0 + 0 * 0 : F) = s.uid * 2 ^ 64 + s.amount by ring] at hua
  refine Runs.bind (runs_nullifyInCs p hp _ _ _ _ _ _ _ _ _ _ hua v3 hk hsk) ?_
  intro nul cs7 _ w7 m7 hnul
  adv w6 m7
  refine Runs.bind (runs_merkleRootVars p hp _ _ _ _ _ _ _ h0 v1 hcom v5 hg) ?_
  intro r cs8 _ w8 m8 hroot
  adv w7 m8
  refine Runs.pure _ _ _ ⟨hk, hsk, v2, v3, hnul, ?_⟩
  rw [← hr]
  exact hroot

/-- C74 (completeness): for an honestly folded key and a record of this key with a path to `root`, the builder does not
panic, and the witness satisfies the circuit for the nullifier, the root, the amount and asset type and the verifier's
input for the folding. -/
theorem C74_abar_to_ar_complete (hp : GoodParams p) (dbg : Bool) (P : SimFr.Params) (h : FoldOk P F) (modulus : Bytes)
    (hm : modulus.length = 32) (wit : FoldWitness P F) (hh : wit.Honest p (ofLE modulus)) (s : Payer F) (root : F)
    (hg : ∀ n ∈ s.path, GoodNode n) (hr : payerRoot p (pkWords wit.x wit.y) s = root) :
    ∃ vars cs foldPub, buildAbarToAr p (foldingCircuit p dbg P modulus wit) s (pkWords wit.x wit.y) (skWords wit.s) CS.new =
        some (vars, cs) ∧
      verifierInput P wit.comm wit.beta wit.lambda wit.resps = some foldPub ∧
      cs.online = [nullify p (pkWords wit.x wit.y) (skWords wit.s) s.uid s.amount s.ty, root, s.amount, s.ty] ++ foldPub ∧
      Sat cs cs.value ([nullify p (pkWords wit.x wit.y) (skWords wit.s) s.uid s.amount s.ty, root, s.amount, s.ty] ++ foldPub) := by
  obtain ⟨foldPub, hv, hf⟩ := C72_folding_complete p hp dbg P h modulus hm wit hh
  obtain ⟨vars, cs, e, h1, h2, -, -⟩ := complete_of_runs
    (m := buildAbarToAr p (foldingCircuit p dbg P modulus wit) s (pkWords wit.x wit.y) (skWords wit.s))
    (pubs := [nullify p (pkWords wit.x wit.y) (skWords wit.s) s.uid s.amount s.ty, root, s.amount, s.ty] ++ foldPub) (by
      have h0 := (new_has (F := F)).1
      unfold buildAbarToAr
      refine RunsP.bindR (runs_spendOne p hp s _ _ root hg hr _ h0) ?_
      intro v cs1 w0 w1 m1 hv
      adv w0 m1
      refine RunsP.bind (runsP_preparePi _ cs1 hv.nul.1) ?_
      rintro _ cs2 pv - w2 m2 rfl
      adv w1 m2
      refine RunsP.bind (runsP_preparePi _ cs2 hv.rootVar.1) ?_
      rintro _ cs3 pv - w3 m3 rfl
      adv w2 m3
      refine RunsP.bind (runsP_preparePi _ cs3 hv.amount.1) ?_
      rintro _ cs4 pv - w4 m4 rfl
      adv w3 m4
      refine RunsP.bind (runsP_preparePi _ cs4 hv.ty.1) ?_
      rintro _ cs5 pv - w5 m5 rfl
      adv w4 m5
      refine RunsP.bind (hf cs5 _ _ h0 hv.keyVars hv.secretVars) ?_
      intro f cs6 pv _ w6 m6 hpv
      adv w5 m6
      refine RunsP.bindR (runs_pad _) ?_
      intro _ cs7 _ w7 m7 _
      adv w6 m7
      refine RunsP.pure _ _ _ ?_
      simpa using HasList.append (.cons hv.nul (.cons hv.rootVar (.cons hv.amount (.cons hv.ty .nil)))) hpv)
  exact ⟨vars, cs, foldPub, e, hv, h1, h2⟩

/-- C75 (completeness): for a record of amount `x` and asset type `y` and an honest inspection of these, the builder does not
panic, and the witness satisfies the circuit for the commitment of the record and the verifier's input. -/
theorem C75_bar_to_abar_complete (hp : GoodParams p) (dbg : Bool) (P : SimFr.Params) (h : InspOk P F) (wit : InspWitness P F)
    (x y : Nat) (hh : wit.Honest p x y) (blind : F) (pk : PK F) :
    ∃ vars cs input, buildBarToAbar p dbg P ⟨(x : F), blind, (y : F), pk⟩ wit CS.new = some (vars, cs) ∧
      inspectInput P wit.comm wit.beta wit.lambda wit.resps = some input ∧
      cs.online = commit p pk blind (x : F) (y : F) :: input ∧
      Sat cs cs.value (commit p pk blind (x : F) (y : F) :: input) := by
  obtain ⟨input, a, b, z, hi, hrun, hpub⟩ := runs_inspection p hp dbg P h wit x y hh
  obtain ⟨vars, cs, e, h1, h2, -, -⟩ := complete_of_runs (m := buildBarToAbar p dbg P ⟨(x : F), blind, (y : F), pk⟩ wit)
    (pubs := commit p pk blind (x : F) (y : F) :: input) (by
      have h0 := (new_has (F := F)).1
      unfold buildBarToAbar
      refine RunsP.bindR (runs_newVar _ _) ?_
      intro amount cs1 w0 w1 m1 ha
      adv w0 m1
      refine RunsP.bindR (runs_newVar _ _) ?_
      intro ty cs2 _ w2 m2 ht
      adv w1 m2
      refine RunsP.bindR (runs_newVar _ _) ?_
      intro bl cs3 _ w3 m3 hb
      adv w2 m3
      refine RunsP.bindR (runs_pkVars _ _) ?_
      intro pkv cs4 _ w4 m4 hk
      adv w3 m4
      refine RunsP.bindR (hrun cs4 amount ty h0 ha ht) ?_
      intro v cs5 _ w5 m5 hv
      adv w4 m5
      refine RunsP.bindR (runs_commitInCs p hp _ _ _ _ _ _ _ _ _ h0 hb ha ht hk) ?_
      intro com cs6 _ w6 m6 hc
      adv w5 m6
      refine RunsP.bind (runsP_preparePi _ cs6 hc.1) ?_
      rintro _ cs7 pv - w7 m7 rfl
      adv w6 m7
      refine RunsP.bind (hpub cs7 v hv) ?_
      intro _ cs8 pv _ w8 m8 hpv
      adv w7 m8
      refine RunsP.bindR (runs_pad _) ?_
      intro _ cs9 _ w9 m9 _
      adv w8 m9
      refine RunsP.pure _ _ _ ?_
      rw [List.append_nil]
      exact .cons hc hpv)
  exact ⟨vars, cs, input, e, hi, h1, h2⟩

/-- C76 (completeness): for an honestly folded key, a record of this key with amount `x`, asset type `y` and a path to
`root`, and an honest inspection of these, the builder does not panic, and the witness satisfies the circuit for the
nullifier, the root and the verifier's inputs. -/
theorem C76_abar_to_bar_complete (hp : GoodParams p) (dbg : Bool) (P Q : SimFr.Params) (h : FoldOk P F) (hq : InspOk Q F)
    (modulus : Bytes) (hm : modulus.length = 32) (wit : FoldWitness P F) (hh : wit.Honest p (ofLE modulus))
    (insp : InspWitness Q F) (x y : Nat) (hi : insp.Honest p x y) (s : Payer F) (root : F)
    (ha : s.amount = (x : F)) (ht : s.ty = (y : F))
    (hg : ∀ n ∈ s.path, GoodNode n) (hr : payerRoot p (pkWords wit.x wit.y) s = root) :
    ∃ vars cs input foldPub, buildAbarToBar p (foldingCircuit p dbg P modulus wit) dbg Q s (pkWords wit.x wit.y)
        (skWords wit.s) insp CS.new = some (vars, cs) ∧
      inspectInput Q insp.comm insp.beta insp.lambda insp.resps = some input ∧
      verifierInput P wit.comm wit.beta wit.lambda wit.resps = some foldPub ∧
      cs.online = [nullify p (pkWords wit.x wit.y) (skWords wit.s) s.uid s.amount s.ty, root] ++ (input ++ foldPub) ∧
      Sat cs cs.value ([nullify p (pkWords wit.x wit.y) (skWords wit.s) s.uid s.amount s.ty, root] ++ (input ++ foldPub)) := by
  obtain ⟨foldPub, hv, hf⟩ := C72_folding_complete p hp dbg P h modulus hm wit hh
  obtain ⟨input, a, b, z, hin, hrun, hpub⟩ := runs_inspection p hp dbg Q hq insp x y hi
  obtain ⟨vars, cs, e, h1, h2, -, -⟩ := complete_of_runs
    (m := buildAbarToBar p (foldingCircuit p dbg P modulus wit) dbg Q s (pkWords wit.x wit.y) (skWords wit.s) insp)
    (pubs := [nullify p (pkWords wit.x wit.y) (skWords wit.s) s.uid s.amount s.ty, root] ++ (input ++ foldPub)) (by
      have h0 := (new_has (F := F)).1
      unfold buildAbarToBar
      refine RunsP.bindR (runs_spendOne p hp s _ _ root hg hr _ h0) ?_
      intro v cs1 w0 w1 m1 hv
      adv w0 m1
      refine RunsP.bindR (hrun cs1 _ _ h0 (by rw [← ha]; exact hv.amount) (by rw [← ht]; exact hv.ty)) ?_
      intro i cs2 _ w2 m2 hi
      adv w1 m2
      refine RunsP.bind (runsP_preparePi _ cs2 hv.nul.1) ?_
      rintro _ cs3 pv - w3 m3 rfl
      adv w2 m3
      refine RunsP.bind (runsP_preparePi _ cs3 hv.rootVar.1) ?_
      rintro _ cs4 pv - w4 m4 rfl
      adv w3 m4
      refine RunsP.bind (hpub cs4 i hi) ?_
      intro _ cs5 pv _ w5 m5 hpv
      adv w4 m5
      refine RunsP.bind (hf cs5 _ _ h0 hv.keyVars hv.secretVars) ?_
      intro f cs6 pv' _ w6 m6 hpv'
      adv w5 m6
      refine RunsP.bindR (runs_pad _) ?_
      intro _ cs7 _ w7 m7 _
      adv w6 m7
      refine RunsP.pure _ _ _ ?_
      simpa using HasList.append (.cons hv.nul (.cons hv.rootVar .nil)) (HasList.append hpv hpv'))
  exact ⟨vars, cs, input, foldPub, e, hin, hv, h1, h2⟩

end Verif.Anon
