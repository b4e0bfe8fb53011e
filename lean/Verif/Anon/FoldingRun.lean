import Verif.Anon.FoldingSound

/-!
C72 (completeness and uniformity): the honest prover's witness satisfies the address folding circuit and gives the public
inputs the verifier computes; the circuit does not depend on the witness.
-/

namespace Verif.Anon

open Verif.Plonk Verif.Plonk.Spec Verif.SimFr Verif.SimFr.Spec Verif.StateComm Verif.Anon.Spec Verif.Xfr

variable {F : Type} [Field F]

/-- what a satisfied builder says holds of the honest witness -/
theorem Runs.andSound {α : Type} {m : Build F α} {cs : CS F} {Q : α → CS F → Prop} {R : (Nat → F) → α → Prop}
    (h : Runs m cs Q) (hs : Sound m R) : Runs m cs (fun a cs' => Q a cs' ∧ R cs'.value a) := by
  intro hw h0
  obtain ⟨a, cs', pv, e, w', s', mo, rfl, q⟩ := h hw h0
  obtain ⟨-, pv', -, r⟩ := hs cs a cs' hw e
  exact ⟨a, cs', _, e, w', s', mo, rfl, q, (r _ _ s').2⟩

/-! ### Bits -/

/-- variables of the system holding the bits of `N` -/
def HasBits (cs : CS F) (l : List Nat) (n N : Nat) : Prop := IsBits cs.value l n N ∧ ∀ v ∈ l, v < cs.numVars

theorem HasBits.mk' {cs : CS F} {l : List Nat} {n N : Nat} (hN : N < 2 ^ n) (h1 : l.length = n)
    (h2 : ∀ i, i < n → ∃ v, l[i]? = some v ∧ Has cs v (bit N i)) : HasBits cs l n N := by
  have : ∀ i v, l[i]? = some v → Has cs v (bit N i) := by
    intro i v hv
    obtain ⟨u, hu, h⟩ := h2 i (by rw [← h1]; exact (List.getElem?_eq_some_iff.mp hv).1)
    rw [hu] at hv
    rwa [← Option.some.inj hv]
  refine ⟨⟨h1, hN, fun i v hv => (this i v hv).2⟩, fun v hv => ?_⟩
  obtain ⟨i, hi, rfl⟩ := List.getElem_of_mem hv
  exact (this i _ (List.getElem?_eq_getElem hi)).1

theorem HasBits.mono {cs cs' : CS F} {pv : List Nat} (hw : WF cs) (h : Mono cs cs' pv) {l : List Nat} {n N : Nat}
    (hb : HasBits cs l n N) : HasBits cs' l n N := by
  refine ⟨⟨hb.1.1, hb.1.2.1, fun i v hv => ?_⟩, fun v hv => lt_of_lt_of_le (hb.2 v hv) h.vars⟩
  rw [value_mono hw h v (hb.2 v (List.mem_of_getElem? hv))]
  exact hb.1.2.2 i v hv

theorem HasBits.append {cs : CS F} {l l' : List Nat} {n m N M : Nat} (h : HasBits cs l n N) (h' : HasBits cs l' m M) :
    HasBits cs (l ++ l') (n + m) (2 ^ n * M + N) :=
  ⟨h.1.append h'.1, fun v hv => (List.mem_append.mp hv).elim (h.2 v) (h'.2 v)⟩

theorem HasBits.forall₂ {cs : CS F} {l : List Nat} {n N : Nat} (h : HasBits cs l n N) :
    List.Forall₂ (fun v (b : Bool) => Has cs v (if b then 1 else 0)) l ((List.range n).map N.testBit) := by
  have := h.1.forall₂
  rw [List.forall₂_iff_get] at this ⊢
  exact ⟨this.1, fun i hi hi' => ⟨h.2 _ (List.getElem_mem _), this.2 i hi hi'⟩⟩

theorem leNat_inj : {l l' : List Bool} → l.length = l'.length → leNat l = leNat l' → l = l'
  | [], [], _, _ => rfl
  | a :: l, b :: l', h, e => by
    simp only [leNat] at e
    have hab : a = b := by
      cases a <;> cases b <;> simp at e ⊢ <;> omega
    subst hab
    rw [leNat_inj (by simpa using h) (by omega : leNat l = leNat l')]

theorem bytes_eq_bits (s : Nat) (hs : s < 2 ^ 256) : (leBytes 32 s).flatMap byteBits = (List.range 256).map s.testBit := by
  refine leNat_inj ?_ ?_
  · rw [bytes_bits_length]
    simp [leBytes_length]
  · rw [leNat_bytes, leNat_testBit, Nat.mod_eq_of_lt hs, ofLE_leBytes_of_lt (by norm_num at hs ⊢; exact hs)]

theorem HasBits.pair {cs : CS F} {l l' : List Nat} {n N : Nat} (h : HasBits cs l n N) (h' : HasBits cs l' n N)
    (e : Nat × Nat) (he : e ∈ l.zip l') : ∃ x, Has cs e.1 x ∧ Has cs e.2 x := by
  obtain ⟨i, hi, rfl⟩ := List.getElem_of_mem he
  have hi' := hi
  rw [List.length_zip] at hi'
  rw [List.getElem_zip]
  refine ⟨bit N i, ⟨h.2 _ (List.getElem_mem _), ?_⟩, h'.2 _ (List.getElem_mem _), ?_⟩
  · exact h.1.2.2 i _ (List.getElem?_eq_getElem (by omega))
  · exact h'.1.2.2 i _ (List.getElem?_eq_getElem (by omega))

theorem runs_equalAll (l l' : List Nat) (n N : Nat) (cs : CS F) (h0 : Has cs 0 0) (h : HasBits cs l n N)
    (h' : HasBits cs l' n N) : Runs (equalAll l l') cs (fun _ _ => True) := by
  refine Runs.withWF (fun hw0 => ?_)
  unfold equalAll
  refine (Runs.foldlM (fun (_ : Unit) (e : Nat × Nat) => equalV e.1 e.2) (fun _ _ _ => True) (fun _ _ _ _ _ _ h => h)
    (l.zip l') () cs trivial ?_)
  rintro cs1 pre _ e post mo he hw -
  obtain ⟨x, h1, h2⟩ := h.pair h' e (by rw [he]; simp)
  exact runs_equalV _ _ x _ (h0.mono hw0 mo) (h1.mono hw0 mo) (h2.mono hw0 mo)

/-! ### Steps 1 to 4 -/

variable [DecidableEq F] [ScalarRepr F]

theorem runs_foldKeys (P : SimFr.Params) (hP : FoldOk P F) (modulus : Bytes) (hm : modulus.length = 32) (wit : FoldWitness P F)
    (hx : wit.x < P.r) (hy : wit.y < P.r) (hs : wit.s < P.r) (hs' : wit.s < ofLE modulus) (pk : PK Nat) (sk : SK Nat)
    (cs : CS F) (h0 : Has cs 0 0) (hpk : HasPk cs pk (pkWords wit.x wit.y)) (hsk : HasSk cs sk (skWords wit.s)) :
    Runs (foldKeys P modulus wit pk sk) cs (fun r cs' =>
      (r.1.Held P cs' ∧ r.1.val = { (ofBig P wit.x : Sim F) with adds := .one }) ∧
      (r.2.1.Held P cs' ∧ r.2.1.val = { (ofBig P wit.y : Sim F) with adds := .one }) ∧
      (r.2.2.Held P cs' ∧ r.2.2.val = { (ofBig P wit.s : Sim F) with adds := .one })) := by
  have hbig := hP.big
  have h256 := hP.total
  have hle := hP.le
  have hbits : 2 ^ P.bits ≤ ScalarRepr.order F :=
    le_trans (Nat.pow_le_pow_right (by norm_num) (by omega)) hP.field
  have hval : ∀ (n k : Nat), k ≤ 248 → n < 2 ^ k → ScalarRepr.val (n : F) = n := fun n k hk hn =>
    ScalarRepr.val_cast n (lt_of_lt_of_le hn (le_trans (Nat.pow_le_pow_right (by norm_num) (by omega)) hbig))
  obtain ⟨x, y, s, beta, lambda, rands, resps, r, comm⟩ := wit
  simp only at hx hy hs hs' hpk hsk ⊢
  have hx2 : x < 2 ^ 256 := by omega
  have hy2 : y < 2 ^ 256 := by omega
  have hs2 : s < 2 ^ 256 := by omega
  obtain ⟨hp0, hp1, hp2⟩ := hpk
  obtain ⟨hs0, hs1⟩ := hsk
  simp only [pkWords, skWords] at hp0 hp1 hp2 hs0 hs1
  set N := x + 2 ^ 256 * y with hN
  have hNlt : N < 2 ^ 496 * 2 ^ 16 := by rw [hN, ← pow_add]; norm_num at hx2 hy2 ⊢; omega
  have b0 : N % 2 ^ 248 < 2 ^ 248 := Nat.mod_lt _ (by positivity)
  have b1 : N / 2 ^ 248 % 2 ^ 248 < 2 ^ 248 := Nat.mod_lt _ (by positivity)
  have b2 : N / 2 ^ 496 < 2 ^ 16 := Nat.div_lt_of_lt_mul hNlt
  have d0 : s % 2 ^ 248 < 2 ^ 248 := Nat.mod_lt _ (by positivity)
  have d1 : s / 2 ^ 248 < 2 ^ 8 := Nat.div_lt_of_lt_mul (by rw [← pow_add]; exact hs2)
  unfold foldKeys
  refine Runs.bind (runs_rangeCheck _ 248 _ cs (by norm_num) h0 hp0 (by rw [hval _ 248 (by norm_num) b0]; exact b0)) ?_
  rintro a0 cs1 w0 w1 m1 ⟨l0, q0⟩
  rw [hval _ 248 (by norm_num) b0] at q0
  have ha0 := HasBits.mk' b0 l0 q0
  clear l0 q0
  adv w0 m1
  refine Runs.bind (runs_rangeCheck _ 248 _ cs1 (by norm_num) h0 hp1 (by rw [hval _ 248 (by norm_num) b1]; exact b1)) ?_
  rintro a1 cs2 - w2 m2 ⟨l0, q0⟩
  rw [hval _ 248 (by norm_num) b1] at q0
  have ha1 := HasBits.mk' b1 l0 q0
  clear l0 q0
  adv w1 m2
  refine Runs.bind (runs_rangeCheck _ 16 _ cs2 (by norm_num) h0 hp2 (by rw [hval _ 16 (by norm_num) b2]; exact b2)) ?_
  rintro a2 cs3 - w3 m3 ⟨l0, q0⟩
  rw [hval _ 16 (by norm_num) b2] at q0
  have ha2 := HasBits.mk' b2 l0 q0
  clear l0 q0
  adv w2 m3
  refine Runs.bind (runs_rangeCheck _ 248 _ cs3 (by norm_num) h0 hs0 (by rw [hval _ 248 (by norm_num) d0]; exact d0)) ?_
  rintro c0 cs4 - w4 m4 ⟨l0, q0⟩
  rw [hval _ 248 (by norm_num) d0] at q0
  have hc0 := HasBits.mk' d0 l0 q0
  clear l0 q0
  adv w3 m4
  refine Runs.bind (runs_rangeCheck _ 8 _ cs4 (by norm_num) h0 hs1 (by rw [hval _ 8 (by norm_num) d1]; exact d1)) ?_
  rintro c1 cs5 - w5 m5 ⟨l0, q0⟩
  rw [hval _ 8 (by norm_num) d1] at q0
  have hc1 := HasBits.mk' d1 l0 q0
  clear l0 q0
  adv w4 m5
  have hpkb := (ha0.append ha1).append ha2
  have hskb := hc0.append hc1
  have eN : 2 ^ (248 + 248) * (N / 2 ^ 496) + (2 ^ 248 * (N / 2 ^ 248 % 2 ^ 248) + N % 2 ^ 248) = 2 ^ 256 * y + x := by
    rw [show (2 : Nat) ^ 496 = 2 ^ 248 * 2 ^ 248 by rw [← pow_add], ← Nat.div_div_eq_div_mul, Nat.add_comm _ x, ← hN]
    have e1 := Nat.div_add_mod N (2 ^ 248)
    have e2 := Nat.div_add_mod (N / 2 ^ 248) (2 ^ 248)
    generalize N % 2 ^ 248 = u at *
    generalize N / 2 ^ 248 = v at *
    generalize v % 2 ^ 248 = a at *
    generalize v / 2 ^ 248 = b at *
    rw [← e1, ← e2]
    ring
  have eS : 2 ^ 248 * (s / 2 ^ 248) + s % 2 ^ 248 = s := Nat.div_add_mod _ _
  rw [eN] at hpkb
  rw [eS] at hskb
  clear ha0 ha1 ha2 hc0 hc1
  have hfa := hskb.forall₂
  rw [show 248 + 8 = 256 from rfl, ← bytes_eq_bits s hs2] at hfa
  refine Runs.bind (C62_comparison_complete _ _ _ cs5 hfa (by rw [bytes_bits_length, bytes_bits_length, hm, leBytes_length]) (by
    rw [leNat_bytes, leNat_bytes, ofLE_leBytes_of_lt (by norm_num at hs2 ⊢; exact hs2)]; exact hs') h0) ?_
  rintro - cs6 - w6 m6 -
  clear hfa
  adv w5 m6
  have hw := fun (val : Sim F) (hv : val.Ok P) (hs : val.adds = .strict) (cs : CS F) (h0 : Has cs 0 0) =>
    Runs.andSound (C61_alloc_witness_complete P hP.ok hbits val hv hs cs h0) (C61_alloc_witness_sound P hP.ok val)
  rw [h256] at hw
  obtain ⟨xo, xv, xs⟩ := C61_from (F := F) P hP.ok x hx
  obtain ⟨yo, yv, ys⟩ := C61_from (F := F) P hP.ok y hy
  obtain ⟨so, sv, ss⟩ := C61_from (F := F) P hP.ok s hs
  refine Runs.bind (hw _ xo xs cs6 h0) ?_
  rintro X cs7 - w7 m7 ⟨⟨Xh, Xv, Xb⟩, -, -, -, -, Xl, -⟩
  rw [xv] at Xb
  have hXb := HasBits.mk' hx2 Xl Xb
  adv w6 m7
  refine Runs.bind (hw _ yo ys cs7 h0) ?_
  rintro Y cs8 - w8 m8 ⟨⟨Yh, Yv, Yb⟩, -, -, -, -, Yl, -⟩
  rw [yv] at Yb
  have hYb := HasBits.mk' hy2 Yl Yb
  clear Xb Yb
  adv w7 m8
  refine Runs.bind (hw _ so ss cs8 h0) ?_
  rintro S cs9 - w9 m9 ⟨⟨Sh, Sv, Sb⟩, -, -, -, -, Sl, -⟩
  rw [sv] at Sb
  have hSb := HasBits.mk' hs2 Sl Sb
  clear Sb
  adv w8 m9
  have hXY := hXb.append hYb
  rw [if_neg (by rw [hXY.1.1, hpkb.1.1, Sl, hskb.1.1]; norm_num)]
  refine Runs.bind (runs_equalAll _ _ _ _ cs9 h0 hXY hpkb) ?_
  rintro - cs10 - w10 m10 -
  adv w9 m10
  refine Runs.bind (runs_equalAll _ _ _ _ cs10 h0 hSb hskb) ?_
  rintro - cs11 - w11 m11 -
  adv w10 m11
  exact Runs.pure _ _ _ ⟨⟨Xh, Xv⟩, ⟨Yh, Yv⟩, Sh, Sv⟩

/-! ### Step 5 -/

theorem simOf_ok {P : SimFr.Params} (h : FoldOk P F) (k : ZMod P.r) :
    (simOf P k : Sim F).Ok P ∧ (simOf P k : Sim F).val = k.val ∧ (simOf P k : Sim F).adds = .strict := by
  haveI : NeZero P.r := ⟨h.pos⟩
  exact C61_from P h.ok _ (ZMod.val_lt k)

/-- the variables of step 5 of an honest run -/
structure AllocHeld (P : SimFr.Params) (cs : CS F) (wit : FoldWitness P F) (r0 r1 r2 z : ZMod P.r) (e : EqVars F) : Prop where
  l1 : e.l1.Held P cs ∧ e.l1.val = simOf P wit.lambda
  l2 : e.l2.Held P cs ∧ e.l2.val = simOf P (wit.lambda * wit.lambda)
  b0 : e.b0.Held P cs ∧ e.b0.val = simOf P (1 * wit.beta)
  b1 : e.b1.Held P cs ∧ e.b1.val = simOf P (wit.lambda * wit.beta)
  b2 : e.b2.Held P cs ∧ e.b2.val = simOf P (wit.lambda * wit.lambda * wit.beta)
  r0 : e.r0.Held P cs ∧ e.r0.val = { (simOf P r0 : Sim F) with adds := .one }
  r1 : e.r1.Held P cs ∧ e.r1.val = { (simOf P r1 : Sim F) with adds := .one }
  r2 : e.r2.Held P cs ∧ e.r2.val = { (simOf P r2 : Sim F) with adds := .one }
  resp : e.resp.Held P cs ∧ e.resp.val = simOf P z

omit [DecidableEq F] [ScalarRepr F] in
theorem AllocHeld.mono {P : SimFr.Params} {cs cs' : CS F} {pv : List Nat} (hw : WF cs) (h : Mono cs cs' pv)
    {wit : FoldWitness P F} {r0 r1 r2 z : ZMod P.r} {e : EqVars F} (ha : AllocHeld P cs wit r0 r1 r2 z e) :
    AllocHeld P cs' wit r0 r1 r2 z e :=
  ⟨⟨ha.l1.1.mono hw h, ha.l1.2⟩, ⟨ha.l2.1.mono hw h, ha.l2.2⟩, ⟨ha.b0.1.mono hw h, ha.b0.2⟩, ⟨ha.b1.1.mono hw h, ha.b1.2⟩,
    ⟨ha.b2.1.mono hw h, ha.b2.2⟩, ⟨ha.r0.1.mono hw h, ha.r0.2⟩, ⟨ha.r1.1.mono hw h, ha.r1.2⟩, ⟨ha.r2.1.mono hw h, ha.r2.2⟩,
    ⟨ha.resp.1.mono hw h, ha.resp.2⟩⟩

theorem runs_foldAlloc (P : SimFr.Params) (hP : FoldOk P F) (wit : FoldWitness P F) (r0 r1 r2 z0 z1 z2 : ZMod P.r)
    (hr : wit.rands = [r0, r1, r2]) (hz : wit.resps = [z0, z1, z2]) (cs : CS F) (h0 : Has cs 0 0) :
    Runs (foldAlloc P wit) cs (fun e cs' =>
      AllocHeld P cs' wit r0 r1 r2 (z0 + z1 * wit.lambda + z2 * wit.lambda * wit.lambda) e) := by
  have hbits : 2 ^ P.bits ≤ ScalarRepr.order F :=
    le_trans (Nat.pow_le_pow_right (by norm_num) (by omega)) hP.field
  have hi := fun (k : ZMod P.r) (cs : CS F) => C61_alloc_input_complete P (simOf P k : Sim F) (simOf_ok hP k).1 cs
  have hw := fun (k : ZMod P.r) (cs : CS F) (h0 : Has cs 0 0) =>
    C61_alloc_witness_complete P hP.ok hbits (simOf P k : Sim F) (simOf_ok hP k).1 (simOf_ok hP k).2.2 cs h0
  unfold foldAlloc
  refine Runs.bind (hi _ cs) ?_
  rintro l1 cs1 w0 w1 m1 ⟨l1h, l1v⟩
  adv w0 m1
  refine Runs.bind (hi _ cs1) ?_
  rintro l2 cs2 - w2 m2 ⟨l2h, l2v⟩
  adv w1 m2
  refine Runs.bind (hi _ cs2) ?_
  rintro b0 cs3 - w3 m3 ⟨b0h, b0v⟩
  adv w2 m3
  refine Runs.bind (hi _ cs3) ?_
  rintro b1 cs4 - w4 m4 ⟨b1h, b1v⟩
  adv w3 m4
  refine Runs.bind (hi _ cs4) ?_
  rintro b2 cs5 - w5 m5 ⟨b2h, b2v⟩
  adv w4 m5
  refine Runs.bind (Runs.liftM _ r0 (by rw [hr]; rfl) _) ?_
  rintro _ _ - - - ⟨rfl, rfl⟩
  refine Runs.bind (hw _ _ h0) ?_
  rintro R0 cs6 - w6 m6 ⟨r0h, r0v, -⟩
  adv w5 m6
  refine Runs.bind (Runs.liftM _ r1 (by rw [hr]; rfl) _) ?_
  rintro _ _ - - - ⟨rfl, rfl⟩
  refine Runs.bind (hw _ _ h0) ?_
  rintro R1 cs7 - w7 m7 ⟨r1h, r1v, -⟩
  adv w6 m7
  refine Runs.bind (Runs.liftM _ r2 (by rw [hr]; rfl) _) ?_
  rintro _ _ - - - ⟨rfl, rfl⟩
  refine Runs.bind (hw _ _ h0) ?_
  rintro R2 cs8 - w8 m8 ⟨r2h, r2v, -⟩
  adv w7 m8
  refine Runs.bind (Runs.liftM _ (z0 + z1 * wit.lambda + z2 * wit.lambda * wit.lambda) (by rw [hz]; rfl) _) ?_
  rintro _ _ - - - ⟨rfl, rfl⟩
  refine Runs.bind (hi _ _) ?_
  rintro resp cs9 - w9 m9 ⟨zh, zv⟩
  adv w8 m9
  exact Runs.pure _ _ _ ⟨⟨l1h, l1v⟩, ⟨l2h, l2v⟩, ⟨b0h, b0v⟩, ⟨b1h, b1v⟩, ⟨b2h, b2v⟩, ⟨r0h, r0v⟩, ⟨r1h, r1v⟩, ⟨r2h, r2v⟩, zh, zv⟩

theorem runs_foldEquation (dbg : Bool) (P : SimFr.Params) (hP : FoldOk P F) (wit : FoldWitness P F)
    (r0 r1 r2 z : ZMod P.r) (x y s : SimVar F) (e : EqVars F) (cs : CS F) (h0 : Has cs 0 0)
    (hx : x.Held P cs ∧ x.val = { (ofBig P wit.x : Sim F) with adds := .one })
    (hy : y.Held P cs ∧ y.val = { (ofBig P wit.y : Sim F) with adds := .one })
    (hs : s.Held P cs ∧ s.val = { (ofBig P wit.s : Sim F) with adds := .one })
    (he : AllocHeld P cs wit r0 r1 r2 z e)
    (heq : z = (wit.beta * wit.x + r0) + wit.lambda * (wit.beta * wit.y + r1) + wit.lambda ^ 2 * (wit.beta * wit.s + r2)) :
    Runs (foldEquation dbg P x y s e) cs (fun _ _ => True) := by
  haveI : NeZero P.r := ⟨hP.pos⟩
  have hk := fun k : ZMod P.r => (simOf_ok (F := F) hP k).2
  obtain ⟨⟨l1h, l1v⟩, ⟨l2h, l2v⟩, ⟨b0h, b0v⟩, ⟨b1h, b1v⟩, ⟨b2h, b2v⟩, ⟨r0h, r0v⟩, ⟨r1h, r1v⟩, ⟨r2h, r2v⟩, zh, zv⟩ := he
  obtain ⟨hxh, hxv⟩ := hx
  obtain ⟨hyh, hyv⟩ := hy
  obtain ⟨hsh, hsv⟩ := hs
  have mulP : ∀ {a b : SimVar F} {c : SimMul F}, a.val.Ok P → b.val.Ok P → a.val.adds = .one → b.val.adds = .strict →
      a.val.mul P b.val = some c → c.prod = 2 ∧ c.val = a.val.val * b.val.val := by
    intro a b c ha hb h1 h2 e
    obtain ⟨c', e', -, e2, e3⟩ := C61_mul P hP.ok a.val b.val ha hb
    rw [e] at e'
    obtain rfl := Option.some.inj e'
    exact ⟨by rw [e2, h1, h2]; rfl, e3⟩
  have addP : ∀ {a b : SimMulVar F} {c : SimMul F}, a.val.Ok P → b.val.Ok P →
      a.val.add P b.val = some c → c.prod = a.val.prod + b.val.prod ∧ c.val = a.val.val + b.val.val := by
    intro a b c ha hb e
    obtain ⟨c', e', -, e2, e3⟩ := C61_add P a.val b.val ha hb
    rw [e] at e'
    obtain rfl := Option.some.inj e'
    exact ⟨e2, e3⟩
  unfold foldEquation
  refine Runs.bind (C61_mul_complete P hP.ok _ _ cs h0 hxh b0h) ?_
  rintro m1 cs1 w0 w1 mo1 ⟨m1h, m1e⟩
  obtain ⟨m1p, m1v⟩ := mulP hxh.1 b0h.1 (by rw [hxv]) (by rw [b0v, (hk _).2]) m1e
  adv w0 mo1
  refine Runs.bind (C61_mul_complete P hP.ok _ _ cs1 h0 hyh b1h) ?_
  rintro m2 cs2 - w2 mo2 ⟨m2h, m2e⟩
  obtain ⟨m2p, m2v⟩ := mulP hyh.1 b1h.1 (by rw [hyv]) (by rw [b1v, (hk _).2]) m2e
  adv w1 mo2
  refine Runs.bind (C61_add_complete P _ _ cs2 m2h m1h) ?_
  rintro s2 cs3 - w3 mo3 ⟨s2h, s2e⟩
  obtain ⟨s2p, s2v⟩ := addP m2h.1 m1h.1 s2e
  adv w2 mo3
  refine Runs.bind (C61_mul_complete P hP.ok _ _ cs3 h0 r1h l1h) ?_
  rintro m3 cs4 - w4 mo4 ⟨m3h, m3e⟩
  obtain ⟨m3p, m3v⟩ := mulP r1h.1 l1h.1 (by rw [r1v]) (by rw [l1v, (hk _).2]) m3e
  adv w3 mo4
  refine Runs.bind (C61_add_complete P _ _ cs4 m3h s2h) ?_
  rintro s3 cs5 - w5 mo5 ⟨s3h, s3e⟩
  obtain ⟨s3p, s3v⟩ := addP m3h.1 s2h.1 s3e
  adv w4 mo5
  refine Runs.bind (C61_mul_complete P hP.ok _ _ cs5 h0 hsh b2h) ?_
  rintro m4 cs6 - w6 mo6 ⟨m4h, m4e⟩
  obtain ⟨m4p, m4v⟩ := mulP hsh.1 b2h.1 (by rw [hsv]) (by rw [b2v, (hk _).2]) m4e
  adv w5 mo6
  refine Runs.bind (C61_add_complete P _ _ cs6 m4h s3h) ?_
  rintro s4 cs7 - w7 mo7 ⟨s4h, s4e⟩
  obtain ⟨s4p, s4v⟩ := addP m4h.1 s3h.1 s4e
  adv w6 mo7
  refine Runs.bind (C61_mul_complete P hP.ok _ _ cs7 h0 r2h l2h) ?_
  rintro m5 cs8 - w8 mo8 ⟨m5h, m5e⟩
  obtain ⟨m5p, m5v⟩ := mulP r2h.1 l2h.1 (by rw [r2v]) (by rw [l2v, (hk _).2]) m5e
  adv w7 mo8
  refine Runs.bind (C61_add_complete P _ _ cs8 m5h s4h) ?_
  rintro s5 cs9 - w9 mo9 ⟨s5h, s5e⟩
  obtain ⟨s5p, s5v⟩ := addP m5h.1 s4h.1 s5e
  adv w8 mo9
  have ho : e.r0.val.adds = .one := by rw [r0v]
  refine Runs.bind (C61_sub_complete P hP.ok _ _ cs9 zh r0h (.inr ho)) ?_
  rintro rhs cs10 - w10 mo10 ⟨rh, re⟩
  obtain ⟨c, c1, -, c2, c3⟩ := C61_sub P hP.ok e.resp.val e.r0.val zh.1 r0h.1 (.inr ho)
  rw [re] at c1
  obtain rfl := Option.some.inj c1
  adv w9 mo10
  have h4 : rhs.val.adds.num ≤ 4 := by rw [c2, zv, (hk _).2]; decide
  refine Runs.bind (C61_mul_sub_complete P hP.ok _ _ cs10 s5h rh h4) ?_
  rintro res cs11 - w11 mo11 ⟨fh, fe⟩
  obtain ⟨c, c1, -, c4, c5⟩ := C61_mul_sub P hP.ok s5.val rhs.val s5h.1 rh.1 h4
  rw [fe] at c1
  obtain rfl := Option.some.inj c1
  adv w10 mo11
  refine C61_enforce_zero_complete dbg P hP.ok hP.field res cs11 h0 fh (by omega) ?_
  rw [← ZMod.natCast_eq_zero_iff, c5, c3, s5v, s4v, s3v, s2v, m5v, m4v, m3v, m2v, m1v, hxv, hyv, hsv, r0v, r1v, r2v, zv,
    l1v, l2v, b0v, b1v, b2v]
  simp only [(hk _).1, Nat.cast_add, Nat.cast_mul, ZMod.natCast_val, ZMod.cast_id', id]
  rw [heq]
  simp only [ofBig]
  ring

/-! ### Steps 6 and 7 -/

omit [DecidableEq F] [ScalarRepr F] in
theorem HasList.lt {cs : CS F} {vs : List Nat} {xs : List F} (h : HasList cs vs xs) : ∀ v ∈ vs, v < cs.numVars := by
  unfold HasList at h
  induction h with
  | nil => simp
  | cons a _ ih =>
    intro v hv
    rcases List.mem_cons.mp hv with rfl | hv
    · exact a.1
    · exact ih v hv

omit [DecidableEq F] [ScalarRepr F] in
theorem HasList.self {cs : CS F} {vs : List Nat} (h : ∀ v ∈ vs, v < cs.numVars) : HasList cs vs (vs.map cs.value) := by
  unfold HasList
  rw [List.forall₂_map_right_iff, List.forall₂_same]
  exact fun v hv => ⟨h v hv, rfl⟩

omit [DecidableEq F] in
theorem runs_packWordC (P : SimFr.Params) (vs : List Nat) (xs : List F) (hl : vs.length ≤ 5) (cs : CS F) (h0 : Has cs 0 0)
    (h : HasList cs vs xs) : Runs (packWordC P vs) cs (fun o cs' => Has cs' o (packWord P xs)) := by
  have hget : ∀ (cs : CS F), Has cs 0 0 → HasList cs vs xs → ∀ i : Nat, Has cs (vs[i]?.getD zeroVar) (cs.value (vs[i]?.getD zeroVar)) := by
    intro cs h0 h i
    refine ⟨?_, rfl⟩
    cases hv : vs[i]? with
    | none => exact h0.1
    | some v =>
      exact h.lt v (List.mem_of_getElem? hv)
  refine Runs.withWF (fun hw0 => ?_)
  refine (Runs.andSound (Q := fun o cs' => o < cs'.numVars) ?_ (sound_packWordC P vs hl)).cons ?_
  · unfold packWordC
    refine Runs.bind (runs_linearCombine _ _ _ _ _ _ _ _ _ _ _ _ cs (hget cs h0 h 0) (hget cs h0 h 1) (hget cs h0 h 2)
      (hget cs h0 h 3)) ?_
    intro sum cs1 w0 w1 m1 hsum
    adv w0 m1
    split
    · refine (runs_linearCombine _ _ _ _ _ _ _ _ _ _ _ _ cs1 hsum (hget cs1 h0 h 4) h0 h0).cons ?_
      intro o cs' _ _ _ ho
      exact ho.1
    · exact Runs.pure _ _ _ hsum.1
  · rintro o cs' w0 w1 m1 ⟨ho, hs⟩
    refine ⟨ho, ?_⟩
    rw [hs (h0.mono w0 m1).2, (h.mono w0 m1).map]

omit [DecidableEq F] [ScalarRepr F] in
theorem runs_chainC (p : Rescue.Params F) (hp : GoodParams p) (n h : Nat) (l : List Nat) (hn : l.length ≤ n) (x y : F)
    (xs : List F) (cs : CS F) (hh : Has cs h x) (hl : HasList cs l xs) (hc : chain p x xs = some y) :
    Runs (chainC p h l) cs (fun o cs' => Has cs' o y) := by
  induction n generalizing h l x xs cs with
  | zero =>
    obtain rfl := List.length_eq_zero_iff.mp (Nat.le_zero.mp hn)
    cases hl
    obtain rfl := Option.some.inj hc
    exact Runs.pure _ _ _ hh
  | succ n ih =>
    match l, xs, hl with
    | [], [], _ =>
      obtain rfl := Option.some.inj hc
      exact Runs.pure _ _ _ hh
    | [a], _, .cons _ .nil => simp [chain] at hc
    | [a, b], _, .cons _ (.cons _ .nil) => simp [chain] at hc
    | a :: b :: c :: rest, _, .cons (b := xa) ha (.cons (b := xb) hb (.cons (b := xc) hcc hrest)) =>
      rw [chainC]
      refine Runs.bind (runs_rescueCircuit p hp _ (x, xa, xb, xc) cs ⟨hh, ha, hb, hcc⟩) ?_
      intro o cs1 w0 w1 m1 ho
      exact ih o.1 rest (by simp only [List.length_cons] at hn; omega) _ _ cs1 ho.1 (HasList.mono w0 m1 hrest) hc

omit [DecidableEq F] [ScalarRepr F] in
theorem HasList.resize {cs : CS F} {vs : List Nat} {xs : List F} (h0 : Has cs 0 0) (h : HasList cs vs xs) :
    HasList cs (resize zeroVar vs) (resize 0 xs) := by
  have hl : vs.length = xs.length := List.Forall₂.length_eq h
  unfold StateComm.resize
  simp only
  rw [hl]
  refine List.forall₂_take _ (List.rel_append h ?_)
  generalize (xs.length - 1 + 2) / 3 * 3 + 1 - xs.length = n
  induction n with
  | zero => exact .nil
  | succ n ih => exact .cons h0 ih

omit [DecidableEq F] [ScalarRepr F] in
theorem runs_spongeC (p : Rescue.Params F) (hp : GoodParams p) (words : List Nat) (r : Nat) (xs : List F) (x y : F)
    (cs : CS F) (h0 : Has cs 0 0) (hl : HasList cs words xs) (hr : Has cs r x) (hs : sponge p xs x = some y) :
    Runs (spongeC p words r) cs (fun o cs' => Has cs' o y) := by
  have h := (hl.append (.single hr)).resize h0
  unfold sponge at hs
  unfold spongeC
  generalize StateComm.resize zeroVar (words ++ [r]) = m at *
  generalize StateComm.resize 0 (xs ++ [x]) = m' at *
  match m, m', h with
  | [], _, .nil => simp at hs
  | [a], _, .cons _ .nil => simp at hs
  | [a, b], _, .cons _ (.cons _ .nil) => simp at hs
  | [a, b, c], _, .cons _ (.cons _ (.cons _ .nil)) => simp at hs
  | a :: b :: c :: d :: rest, _,
      .cons (b := xa) ha (.cons (b := xb) hb (.cons (b := xc) hcc (.cons (b := xd) hd hrest))) =>
    refine Runs.bind (runs_rescueCircuit p hp _ (xa, xb, xc, xd) cs ⟨ha, hb, hcc, hd⟩) ?_
    intro o cs1 w0 w1 m1 ho
    exact runs_chainC p hp _ o.1 rest (le_refl _) _ _ _ cs1 ho.1 (HasList.mono w0 m1 hrest) hs

theorem mem_chunks {α : Type} {k : Nat} {l c : List α} (h : c ∈ chunks k l) : ∀ a ∈ c, a ∈ l := by
  unfold chunks at h
  obtain ⟨i, -, rfl⟩ := List.mem_map.mp h
  intro a ha
  exact List.mem_of_mem_drop (List.mem_of_mem_take ha)

omit [DecidableEq F] in
theorem runs_stateCommC (p : Rescue.Params F) (hp : GoodParams p) (P : SimFr.Params) (h5 : perWord P ≤ 5) (r comm : F)
    (vars : List Nat) (xs : List F) (cs : CS F) (h0 : Has cs 0 0) (hl : HasList cs vars xs)
    (hs : sponge p (packLimbs P xs) r = some comm) :
    Runs (stateCommC p P r comm vars) cs (fun c cs' => Has cs' c.1 comm) := by
  refine Runs.withWF (fun hw0 => ?_)
  have hlt := hl.lt
  have hxs := hl.map
  unfold stateCommC
  refine Runs.bind (Runs.mapM _ (fun (cs' : CS F) (vs : List Nat) o => Has cs' o (packWord P (vs.map cs.value)))
    (fun _ _ _ _ hw mo h => h.mono hw mo) _ cs ?_) ?_
  · intro cs1 vs hvs mo hw
    exact runs_packWordC P vs _ (le_trans (chunks_length _ _ _ hvs) h5) cs1 (h0.mono hw0 mo)
      ((HasList.self (fun v hv => hlt v (mem_chunks hvs v hv))).mono hw0 mo)
  rintro words cs1 - w1 m1 hwords
  have hws : HasList cs1 words (packLimbs P xs) := by
    unfold HasList packLimbs
    rw [← hxs, chunks_map, List.map_map, List.forall₂_map_right_iff]
    exact hwords.flip
  adv hw0 m1
  refine Runs.bind (runs_newVar _ cs1) ?_
  rintro rv cs2 - w2 m2 hrv
  adv w1 m2
  refine Runs.bind (runs_newVar _ cs2) ?_
  rintro cv cs3 - w3 m3 hcv
  adv w2 m3
  refine Runs.bind (runs_spongeC p hp words rv _ _ comm cs3 h0 hws hrv hs) ?_
  rintro h cs4 - w4 m4 hh
  adv w3 m4
  refine Runs.bind (runs_equalV cv h comm cs4 h0 hcv hh) ?_
  rintro _ cs5 - w5 m5 _
  exact Runs.pure _ _ _ (hcv.mono w4 m5)

/-! ### The circuit -/

omit [DecidableEq F] [ScalarRepr F] in
theorem Held.list {P : SimFr.Params} {cs : CS F} {a : SimVar F} (h : a.Held P cs) : HasList cs a.var a.val.limbs := by
  obtain ⟨⟨L, h1, -⟩, h2, h3⟩ := h
  refine List.forall₂_iff_get.mpr ⟨by rw [h1, h2]; simp, fun i hi hi' => ?_⟩
  exact h3 i _ _ (List.getElem?_eq_getElem hi) (List.getElem?_eq_getElem hi')

omit [DecidableEq F] [ScalarRepr F] in
theorem runsP_publicLimbs (P : SimFr.Params) (a : SimVar F) (cs : CS F) (h : a.Held P cs) :
    RunsP (publicLimbs P a) cs (fun _ _ pv => pv = a.var) := by
  have hlt := (Held.list h).lt
  unfold publicLimbs
  refine RunsP.cons (RunsP.foldlM _ (fun _ pre _ pv => List.Forall₂ (fun i v => a.var[i]? = some v) pre pv) _ () cs .nil ?_) ?_
  · intro cs1 pre _ i post pv0 mo he _ hf
    have hi : i < a.var.length := by
      rw [h.2.1]
      have : i ∈ List.range P.limbs := by rw [he]; simp
      exact List.mem_range.mp this
    have hi' := List.getElem?_eq_getElem hi
    refine RunsP.bindR (Runs.liftM _ _ hi' cs1) ?_
    rintro _ _ _ _ _ ⟨rfl, rfl⟩
    refine RunsP.cons (runsP_preparePi _ _ (lt_of_lt_of_le (hlt _ (List.getElem_mem hi)) mo.vars)) ?_
    rintro _ _ pv _ _ _ rfl
    exact List.rel_append hf (.cons hi' .nil)
  · intro _ cs' pv _ _ _ hf
    obtain ⟨h1, h2⟩ := forall₂_range hf
    refine List.ext_getElem (by rw [h1, h.2.1]) (fun i hi hi' => ?_)
    have := h2 i _ (List.getElem?_eq_getElem hi)
    rw [List.getElem?_eq_getElem hi'] at this
    exact (Option.some.inj this).symm

/-- an honest witness: coordinates of the base field, a secret key below the order, the state commitment and the
responses computed as the prover does -/
structure FoldWitness.Honest {P : SimFr.Params} (p : Rescue.Params F) (order : Nat) (wit : FoldWitness P F) : Prop where
  x : wit.x < P.r
  y : wit.y < P.r
  s : wit.s < P.r ∧ wit.s < order
  resps : ∃ r0 r1 r2 : ZMod P.r, wit.rands = [r0, r1, r2] ∧
    wit.resps = [wit.beta * wit.x + r0, wit.beta * wit.y + r1, wit.beta * wit.s + r2]
  comm : stateComm p P [wit.x, wit.y, wit.s] (wit.rands.map ZMod.val) wit.r = some wit.comm

/-- C72 (completeness): on any system that holds the honest key scalars and whose variable zero holds zero, the builder of
the folding circuit does not panic, the witness satisfies the circuit, and the values made public are those the verifier
computes from the state commitment, the challenges and the responses. -/
theorem C72_folding_complete (p : Rescue.Params F) (hp : GoodParams p) (dbg : Bool) (P : SimFr.Params) (hP : FoldOk P F)
    (modulus : Bytes) (hm : modulus.length = 32) (wit : FoldWitness P F) (hh : wit.Honest p (ofLE modulus)) :
    ∃ pub, verifierInput P wit.comm wit.beta wit.lambda wit.resps = some pub ∧
      ∀ (cs : CS F) (pk : PK Nat) (sk : SK Nat), Has cs 0 0 → HasPk cs pk (pkWords wit.x wit.y) →
        HasSk cs sk (skWords wit.s) →
        RunsP (foldingCircuit p dbg P modulus wit pk sk) cs (fun _ cs' pv => HasList cs' pv pub) := by
  obtain ⟨hx, hy, ⟨hs, hs'⟩, ⟨r0, r1, r2, hr, hz⟩, hc⟩ := hh
  refine ⟨_, by unfold verifierInput combinedResponse; rw [hz]; rfl, fun cs pk sk h0 hpk hsk => ?_⟩
  unfold foldingCircuit
  refine RunsP.bindR (runs_foldKeys P hP modulus hm wit hx hy hs hs' pk sk cs h0 hpk hsk) ?_
  rintro k cs1 w0 w1 m1 ⟨⟨kxh, kxv⟩, ⟨kyh, kyv⟩, ksh, ksv⟩
  adv w0 m1
  refine RunsP.bindR (runs_foldAlloc P hP wit _ _ _ _ _ _ hr hz cs1 h0) ?_
  rintro e cs2 - w2 m2 he
  adv w1 m2
  refine RunsP.bindR (runs_foldEquation dbg P hP wit _ _ _ _ _ _ _ e cs2 h0 ⟨kxh, kxv⟩ ⟨kyh, kyv⟩ ⟨ksh, ksv⟩ he (by ring)) ?_
  rintro _ cs3 - w3 m3 -
  adv w2 m3
  have hl := ((((Held.list kxh).append (Held.list kyh)).append (Held.list ksh)).append (Held.list he.r0.1)).append
    (Held.list he.r1.1) |>.append (Held.list he.r2.1)
  refine RunsP.bindR (runs_stateCommC p hp P hP.words _ _ _ _ cs3 h0 hl (by
    rw [← hc, hr]
    unfold stateComm stateLimbs
    rw [kxv, kyv, ksv, he.r0.2, he.r1.2, he.r2.2]
    simp only [List.map_cons, List.map_nil, List.flatMap_cons, List.flatMap_nil, List.append_nil, List.append_assoc]
    rfl)) ?_
  rintro cv cs4 - w4 m4 hcv
  adv w3 m4
  refine RunsP.bind (runsP_preparePi cv.1 cs4 hcv.1) ?_
  rintro _ cs5 pv - w5 m5 rfl
  adv w4 m5
  refine RunsP.bind (runsP_publicLimbs P e.l1 cs5 he.l1.1) ?_
  rintro _ cs6 pv - w6 m6 rfl
  adv w5 m6
  refine RunsP.bind (runsP_publicLimbs P e.l2 cs6 he.l2.1) ?_
  rintro _ cs7 pv - w7 m7 rfl
  adv w6 m7
  refine RunsP.bind (runsP_publicLimbs P e.b0 cs7 he.b0.1) ?_
  rintro _ cs8 pv - w8 m8 rfl
  adv w7 m8
  refine RunsP.bind (runsP_publicLimbs P e.b1 cs8 he.b1.1) ?_
  rintro _ cs9 pv - w9 m9 rfl
  adv w8 m9
  refine RunsP.bind (runsP_publicLimbs P e.b2 cs9 he.b2.1) ?_
  rintro _ cs10 pv - w10 m10 rfl
  adv w9 m10
  refine RunsP.bind (runsP_publicLimbs P e.resp cs10 he.resp.1) ?_
  rintro _ cs11 pv - w11 m11 rfl
  adv w10 m11
  refine RunsP.pure _ _ _ ?_
  have a1 := Held.list he.l1.1
  have a2 := Held.list he.l2.1
  have a3 := Held.list he.b0.1
  have a4 := Held.list he.b1.1
  have a5 := Held.list he.b2.1
  have a6 := Held.list he.resp.1
  rw [he.l1.2] at a1
  rw [he.l2.2] at a2
  rw [he.b0.2] at a3
  rw [he.b1.2] at a4
  rw [he.b2.2] at a5
  rw [he.resp.2] at a6
  have := (HasList.single hcv).append (a1.append (a2.append (a3.append (a4.append (a5.append a6)))))
  simpa only [List.append_assoc, List.append_nil] using this

end Verif.Anon
