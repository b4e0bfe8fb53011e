import Verif.Anon.FoldingRun
import Verif.Anon.Spend
import Verif.Anon.FoldingUniform
import Verif.Crypto.DelegatedSchnorr
import Verif.SimFr.Examples
import Verif.Algebra.Secq

/-!
C72: the address folding circuit, api/src/anon_xfr/address_folding.rs:177-620: what it proves, and how it is tied to the
delegated Schnorr proof that the verifier checks outside the circuit.
-/

namespace Verif.Anon

open Verif.Plonk Verif.Plonk.Spec Verif.SimFr Verif.SimFr.Spec Verif.StateComm Verif.Anon.Spec Verif.Xfr

/-! ### The circuit -/

section
variable {F : Type} [Field F] [DecidableEq F] [ScalarRepr F]

/-- what `pub` claims of key scalars: whatever the verifier's input was, the key scalars fold to it -/
def FoldClaim (p : Rescue.Params F) (P : SimFr.Params) (order : Nat) (w : Nat → F) (vars : FoldVars) (pk : PK F) (sk : SK F)
    (pub : List F) : Prop :=
  ∀ comm beta lambda resps, verifierInput P comm beta lambda resps = some pub →
    Spec.Folds p P order comm beta lambda resps pk sk (foldVal P w vars)

/-- C72 (soundness).  The folding circuit is added to a well-formed system for the variables `pk`, `sk`.  Any assignment
with `w 0 = 0` that satisfies the result, with the verifier's input as the last public values, gives the witness variables
an opening of the state commitment: coordinates and a secret key whose scalars the key variables hold, and randomizers,
to which the combined response answers. -/
theorem C72_folding_sound (p : Rescue.Params F) (hp : GoodParams p) (dbg : Bool) (P : SimFr.Params) (h : FoldOk P F)
    (modulus : Bytes) (hm : modulus.length = 32) (hf : false ∈ modulus.flatMap byteBits) (wit : FoldWitness P F)
    (pk : PK Nat) (sk : SK Nat) (cs cs' : CS F) (hwf : WF cs) (vars : FoldVars)
    (hb : foldingCircuit p dbg P modulus wit pk sk cs = some (vars, cs')) (before pub : List F)
    (hl : before.length = cs.pubVars.length) (hl' : (before ++ pub).length = cs'.pubVars.length) (w : Nat → F)
    (hs : Sat cs' w (before ++ pub)) (h0 : w 0 = 0) (comm : F) (beta lambda : ZMod P.r) (resps : List (ZMod P.r))
    (hv : verifierInput P comm beta lambda resps = some pub) :
    Spec.Folds p P (ofLE modulus) comm beta lambda resps (pkVal w pk) (skVal w sk) (foldVal P w vars) := by
  obtain ⟨hwf', pv, mo, hr⟩ := soundP_foldingCircuit p hp dbg P h modulus hm hf wit pk sk cs vars cs' hwf hb
  refine (hr w _ hs).1 h0 comm beta lambda resps ?_
  rw [hv]
  congr 1
  have hpub : cs'.pubVars = cs.pubVars ++ pv := mo.pub
  have hall : cs'.pubVars.map w = before ++ pub := by
    refine List.ext_getElem? fun k => ?_
    rw [List.getElem?_map]
    cases hk : cs'.pubVars[k]? with
    | none =>
      have := List.getElem?_eq_none_iff.mp hk
      rw [List.getElem?_eq_none (by omega)]
      rfl
    | some v =>
      have hlt : k < cs'.pubVars.length := (List.getElem?_eq_some_iff.mp hk).1
      have hx := List.getElem?_eq_getElem (l := before ++ pub) (i := k) (by omega)
      rw [Option.map_some, hx]
      exact congrArg some (Sat.public hwf' hs k v _ hk hx)
  rw [hpub, List.map_append] at hall
  exact (List.append_inj_right hall (by rw [List.length_map, hl])).symm

/-- C72: the circuit forces the variable zero to be zero or one, and to be zero unless all key scalars are zero. -/
theorem C72_folding_zero_var (p : Rescue.Params F) (hp : GoodParams p) (dbg : Bool) (P : SimFr.Params) (h : FoldOk P F)
    (modulus : Bytes) (hm : modulus.length = 32) (hf : false ∈ modulus.flatMap byteBits) (wit : FoldWitness P F)
    (pk : PK Nat) (sk : SK Nat) (cs cs' : CS F) (hwf : WF cs) (vars : FoldVars)
    (hb : foldingCircuit p dbg P modulus wit pk sk cs = some (vars, cs')) (w : Nat → F) (online : List F)
    (hs : Sat cs' w online) : w 0 = 0 ∨ (w 0 = 1 ∧ pkVal w pk = (0, 0, 0) ∧ skVal w sk = (0, 0)) := by
  obtain ⟨-, pv, mo, hr⟩ := soundP_foldingCircuit p hp dbg P h modulus hm hf wit pk sk cs vars cs' hwf hb
  exact (hr w _ hs).2

end

/-! ### The link to the delegated Schnorr proof -/

section
variable {F : Type} [Field F] [ScalarRepr F]

/-- the inputs of the permutation when the commitment of the opening is computed -/
def Spec.Opening.calls (p : Rescue.Params F) (P : SimFr.Params) (o : Opening F) : List (St F) :=
  spongeCalls p (packLimbs P (stateLimbs P [o.x, o.y, o.s] [o.r0, o.r1, o.r2])) o.r

/-- a polynomial of degree two with three roots is zero -/
theorem quadratic_zero {K : Type} [Field K] (a b c : K) (l : Fin 3 → K) (hl : Function.Injective l)
    (h : ∀ i, a + l i * b + l i ^ 2 * c = 0) : a = 0 ∧ b = 0 ∧ c = 0 := by
  have n01 : l 0 - l 1 ≠ 0 := sub_ne_zero.mpr (fun e => by simpa using hl e)
  have n02 : l 0 - l 2 ≠ 0 := sub_ne_zero.mpr (fun e => by simpa using hl e)
  have n12 : l 1 - l 2 ≠ 0 := sub_ne_zero.mpr (fun e => by simpa using hl e)
  have h0 := h 0
  have h1 := h 1
  have h2 := h 2
  have e1 : b + (l 0 + l 1) * c = 0 := by
    have : (l 0 - l 1) * (b + (l 0 + l 1) * c) = 0 := by linear_combination h0 - h1
    exact (mul_eq_zero.mp this).resolve_left n01
  have e2 : b + (l 0 + l 2) * c = 0 := by
    have : (l 0 - l 2) * (b + (l 0 + l 2) * c) = 0 := by linear_combination h0 - h2
    exact (mul_eq_zero.mp this).resolve_left n02
  have hc : c = 0 := by
    have : (l 1 - l 2) * c = 0 := by linear_combination e1 - e2
    exact (mul_eq_zero.mp this).resolve_left n12
  subst hc
  have hb : b = 0 := by linear_combination e1
  subst hb
  exact ⟨by linear_combination h0, rfl, rfl⟩

/-- the commitment `c` opens to `v`; the blinding factor is the one that the responses `s`, `s'` to two challenges give
(`DelegatedSchnorr.extract`).  That some blinding factor exists would be no claim at all. -/
def OpensTo {K G : Type} [Field K] [AddCommGroup G] [Module K G] (g : ChaumPedersen.Gens G) (c : G) (v : K)
    (s s' : Option (K × K)) (beta beta' : K) : Prop :=
  ∃ a b, s = some a ∧ s' = some b ∧ c = v • g.B + (DelegatedSchnorr.extract a b beta beta').2 • g.Bb

/-- C72 (link, special soundness).  A prover answers two challenges `beta` for the same state commitment, commitments and
randomizers, each time with responses that the delegated Schnorr verifier accepts and for three values of `lambda` each;
every one of the six runs satisfies the folding circuit with some key scalars and an opening.  Then two of the openings
give an explicit collision of the permutation, or all six are the same opening, all six runs are about the same key
scalars, and the three commitments checked outside the circuit open to that `x`, that `y` and that secret key, with
blinding factors that are computed from the responses. -/
theorem C72_folding_links {G : Type} [AddCommGroup G] [DecidableEq G] (p : Rescue.Params F) (P : SimFr.Params)
    [Fact P.r.Prime] [Module (ZMod P.r) G] (h : FoldOk P F) (order : Nat) (horder : order ≤ 2 ^ 256)
    (g : ChaumPedersen.Gens G)
    (tr : DelegatedSchnorr.Tr (ZMod P.r) G F) (c0 c1 c2 : G) (comm : F) (randomizers : List G)
    (H : Fin 2 → DelegatedSchnorr.Tr (ZMod P.r) G F → ZMod P.r) (responses : Fin 2 → List (ZMod P.r × ZMod P.r))
    (out : Fin 2 → ZMod P.r × ZMod P.r × DelegatedSchnorr.Tr (ZMod P.r) G F)
    (hver : ∀ b, DelegatedSchnorr.verify g (H b) tr [c0, c1, c2] ⟨comm, randomizers, responses b⟩ = .ok (out b))
    (hbeta : (out 0).1 ≠ (out 1).1) (lambda : Fin 2 → Fin 3 → ZMod P.r) (hlam : ∀ b, Function.Injective (lambda b))
    (pk : Fin 2 → Fin 3 → PK F) (sk : Fin 2 → Fin 3 → SK F) (o : Fin 2 → Fin 3 → Opening F)
    (hf : ∀ b l, Spec.Folds p P order comm (out b).1 (lambda b l) ((responses b).map (·.1)) (pk b l) (sk b l) (o b l)) :
    (∃ b l, Collide p ((o 0 0).calls p P) ((o b l).calls p P)) ∨
    ∃ v : Opening F, (∀ b l, o b l = v ∧ pk b l = pkWords v.x v.y ∧ sk b l = skWords v.s) ∧
      v.x < 2 ^ 256 ∧ v.y < 2 ^ 256 ∧ v.s < order ∧
        OpensTo g c0 (v.x : ZMod P.r) (responses 0)[0]? (responses 1)[0]? (out 0).1 (out 1).1 ∧
        OpensTo g c1 (v.y : ZMod P.r) (responses 0)[1]? (responses 1)[1]? (out 0).1 (out 1).1 ∧
        OpensTo g c2 (v.s : ZMod P.r) (responses 0)[2]? (responses 1)[2]? (out 0).1 (out 1).1 := by
  by_cases hcol : ∃ b l, Collide p ((o 0 0).calls p P) ((o b l).calls p P)
  · exact .inl hcol
  right
  have hall : ∀ b l, o b l = o 0 0 := by
    intro b l
    obtain ⟨_, _, _, ⟨bx, by', bs⟩, ⟨b0, b1, b2⟩, _, _, hc, _⟩ := hf 0 0
    obtain ⟨_, _, _, ⟨dx, dy, ds⟩, ⟨d0, d1, d2⟩, _, _, hc', _⟩ := hf b l
    have htop : 2 ^ 256 ≤ 2 ^ (P.bits * P.limbs) := by
      refine Nat.pow_le_pow_right (by norm_num) ?_
      rw [← h.total]
      have := h.ok.top
      have := h.ok.pos
      obtain ⟨k, hk⟩ : ∃ k, P.limbs = k + 1 := ⟨P.limbs - 1, by omega⟩
      rw [hk, Nat.add_sub_cancel, Nat.mul_succ]
      omega
    have := C65_state_commitment_binding p P ⟨by have := h.ok.top; have := h.ok.top2; omega, by
        by_contra hcon
        have hw := h.words
        have hq := h.field
        have h1 : 2 ^ 256 < 2 ^ (4 * P.bits + 8) := Nat.pow_lt_pow_right (by norm_num) (by omega)
        have h2 := ScalarRepr.order_le (F := F)
        have h3 : (256 : Nat) ^ 32 = 2 ^ 256 := by norm_num
        omega⟩ h.big
      [(o 0 0).x, (o 0 0).y, (o 0 0).s] [(o 0 0).r0, (o 0 0).r1, (o 0 0).r2]
      [(o b l).x, (o b l).y, (o b l).s] [(o b l).r0, (o b l).r1, (o b l).r2] (o 0 0).r (o b l).r comm rfl rfl
      (by
        intro v hv
        refine lt_of_lt_of_le ?_ htop
        simp only [List.cons_append, List.nil_append, List.mem_cons, List.not_mem_nil, or_false] at hv
        rcases hv with rfl | rfl | rfl | rfl | rfl | rfl | rfl | rfl | rfl | rfl | rfl | rfl <;> omega) hc hc'
    rcases this with ⟨e1, e2, e3⟩ | hc
    · simp only [List.cons.injEq, and_true] at e1 e2
      obtain ⟨e11, e12, e13⟩ := e1
      obtain ⟨e21, e22, e23⟩ := e2
      cases h1 : o b l
      cases h2 : o 0 0
      simp only [h1, h2] at e11 e12 e13 e21 e22 e23 e3
      subst e11 e12 e13 e21 e22 e23 e3
      rfl
    · exact absurd ⟨b, l, hc⟩ hcol
  -- each response answers its challenge
  have hresp : ∀ b, ∃ z0 z1 z2, (responses b).map (·.1) = [z0, z1, z2] ∧
      z0 = (out b).1 * (o 0 0).x + (o 0 0).r0 ∧ z1 = (out b).1 * (o 0 0).y + (o 0 0).r1 ∧
      z2 = (out b).1 * (o 0 0).s + (o 0 0).r2 := by
    intro b
    have hlen : (responses b).length = 3 := by
      have hv := hver b
      by_contra hcon
      rw [DelegatedSchnorr.C65_lengths_panic g (H b) tr _ _ (.inr (by simpa using Ne.symm hcon))] at hv
      cases hv
    obtain ⟨z0, z1, z2, hz⟩ : ∃ z0 z1 z2, (responses b).map (·.1) = [z0, z1, z2] := by
      match hr : responses b, hlen with
      | [a, b, c], _ => exact ⟨a.1, b.1, c.1, rfl⟩
    refine ⟨z0, z1, z2, hz, ?_⟩
    have hq := quadratic_zero (z0 - ((out b).1 * (o 0 0).x + (o 0 0).r0)) (z1 - ((out b).1 * (o 0 0).y + (o 0 0).r1))
      (z2 - ((out b).1 * (o 0 0).s + (o 0 0).r2)) (lambda b) (hlam b) (by
        intro l
        obtain ⟨y0, y1, y2, _, _, _, _, _, ⟨g0, g1, g2⟩, he⟩ := hf b l
        rw [hz] at g0 g1 g2
        simp only [List.getElem?_cons_zero, List.getElem?_cons_succ, Option.some.injEq] at g0 g1 g2
        subst g0 g1 g2
        rw [hall b l] at he
        linear_combination he)
    exact ⟨sub_eq_zero.mp hq.1, sub_eq_zero.mp hq.2.1, sub_eq_zero.mp hq.2.2⟩
  have hlims := hf 0 0
  obtain ⟨_, _, _, ⟨bx, by', bs⟩, _⟩ := hlims
  refine ⟨o 0 0, fun b l => ?_, bx, by', bs, ?_⟩
  · obtain ⟨_, _, _, _, _, hpk, hsk, _⟩ := hf b l
    rw [hall b l] at hpk hsk
    exact ⟨hall b l, hpk, hsk⟩
  · have hsp := DelegatedSchnorr.C65_special_sound g (H 0) (H 1) tr [c0, c1, c2] comm randomizers (responses 0) (responses 1)
      (out 0) (out 1) (hver 0) (hver 1) hbeta
    have hd : (out 0).1 - (out 1).1 ≠ 0 := sub_ne_zero.mpr hbeta
    obtain ⟨z0, z1, z2, hz, e0, e1, e2⟩ := hresp 0
    obtain ⟨y0, y1, y2, hy, f0, f1, f2⟩ := hresp 1
    have key : ∀ (j : Nat) (c : G) (v r z y : ZMod P.r), [c0, c1, c2][j]? = some c →
        [z0, z1, z2][j]? = some z → [y0, y1, y2][j]? = some y → z = (out 0).1 * v + r → y = (out 1).1 * v + r →
        OpensTo g c v (responses 0)[j]? (responses 1)[j]? (out 0).1 (out 1).1 := by
      intro j c v r z y hc hjz hjy ez ey
      obtain ⟨s, s', h1, h2, h3⟩ := hsp j c hc
      have g1 : s.1 = z := by
        have : ((responses 0).map (·.1))[j]? = some s.1 := by rw [List.getElem?_map, h1]; rfl
        rw [hz, hjz] at this
        exact (Option.some.inj this).symm
      have g2 : s'.1 = y := by
        have : ((responses 1).map (·.1))[j]? = some s'.1 := by rw [List.getElem?_map, h2]; rfl
        rw [hy, hjy] at this
        exact (Option.some.inj this).symm
      have ev : (DelegatedSchnorr.extract s s' (out 0).1 (out 1).1).1 = v := by
        unfold DelegatedSchnorr.extract
        rw [g1, g2, ez, ey]
        field_simp
        ring
      exact ⟨s, s', h1, h2, by rw [← ev]; exact h3⟩
    exact ⟨key 0 c0 _ _ _ _ rfl rfl rfl e0 f0, key 1 c1 _ _ _ _ rfl rfl rfl e1 f1, key 2 c2 _ _ _ _ rfl rfl rfl e2 f2⟩

end

/-! ### The anonymous transfer with the folding circuit -/

section
variable {F : Type} [Field F] [DecidableEq F] [ScalarRepr F]

/-- C67 with the address folding circuit in place: public inputs that the verifier computes and a witness with
`w 1 = 1` give the witness variables one key pair whose scalars fold to the verifier's challenges and responses, and a
valid transfer made with this pair. -/
theorem C67_transfer_folding_sound_partial (p : Rescue.Params F) (hp : GoodParams p) (dbg : Bool) (P : SimFr.Params)
    (h : FoldOk P F) (modulus : Bytes) (hm : modulus.length = 32) (hf : false ∈ modulus.flatMap byteBits)
    (wit : FoldWitness P F) (payers : List (Payer F)) (payees : List (Payee F)) (pk0 : PK F) (sk0 : SK F)
    (fee0 feeType : F) (hi : payers.length * 2 ^ 64 < ScalarRepr.order F)
    (ho : (payees.length + 1) * 2 ^ 64 < ScalarRepr.order F) (vars : XfrVars FoldVars) (cs : CS F)
    (hb : buildMultiXfr p (foldingCircuit p dbg P modulus wit) payers payees pk0 sk0 fee0 feeType CS.new =
      some (vars, cs))
    (nuls coms foldPub : List F) (root fee : F) (hn : nuls.length = payers.length) (hc : coms.length = payees.length)
    (hl : (nuls ++ [root] ++ coms ++ [fee] ++ foldPub).length = cs.pubVars.length)
    (hfee : ScalarRepr.val fee < 2 ^ 64) (comm : F) (beta lambda : ZMod P.r) (resps : List (ZMod P.r))
    (hv : verifierInput P comm beta lambda resps = some foldPub) (w : Nat → F)
    (hs : Sat cs w (nuls ++ [root] ++ coms ++ [fee] ++ foldPub)) (h1 : w 1 = 1) :
    Spec.Folds p P (ofLE modulus) comm beta lambda resps (pkVal w vars.pk) (skVal w vars.sk) (foldVal P w vars.fold) ∧
      Valid p (pkVal w vars.pk) (skVal w vars.sk) (vars.payers.map (spentVal w)) (vars.payees.map (payeeVal w)) feeType fee
        nuls root coms ∧
      vars.payers.map (fun v => v.path.length) = payers.map (fun s => s.path.length) ∧
      vars.payees.length = payees.length := by
  obtain ⟨hfo, hva, e1, e2⟩ := C67_transfer_sound_partial p hp h.two
    (foldingCircuit p dbg P modulus wit) (FoldClaim p P (ofLE modulus))
    (fun pk sk => (soundP_foldingCircuit p hp dbg P h modulus hm hf wit pk sk).cons (fun _ _ _ h => h.1))
    payers payees pk0 sk0 fee0 feeType hi ho vars cs hb nuls coms foldPub root fee hn hc hl hfee w hs h1
  exact ⟨hfo comm beta lambda resps hv, hva, e1, e2⟩

/-- C67 (completeness) with the address folding circuit in place. -/
theorem C67_transfer_folding_complete (p : Rescue.Params F) (hp : GoodParams p) (dbg : Bool) (P : SimFr.Params)
    (h : FoldOk P F) (modulus : Bytes) (hm : modulus.length = 32) (wit : FoldWitness P F)
    (hh : wit.Honest p (ofLE modulus)) (payers : List (Payer F)) (payees : List (Payee F)) (fee feeType root : F)
    (hne : payers ≠ []) (hne' : payees ≠ []) (hg : ∀ s ∈ payers, GoodPayer p (pkWords wit.x wit.y) root s)
    (hg' : ∀ t ∈ payees, ScalarRepr.val t.amount < 2 ^ 64) (hb : Balanced payers payees feeType fee) :
    ∃ vars cs pubs foldPub, buildMultiXfr p (foldingCircuit p dbg P modulus wit) payers payees (pkWords wit.x wit.y)
        (skWords wit.s) fee feeType CS.new = some (vars, cs) ∧
      pubInputs p (pkWords wit.x wit.y) (skWords wit.s) payers payees fee = some pubs ∧
      verifierInput P wit.comm wit.beta wit.lambda wit.resps = some foldPub ∧ cs.online = pubs ++ foldPub ∧
      Sat cs cs.value (pubs ++ foldPub) ∧ cs.value 1 = 1 := by
  obtain ⟨foldPub, hv, hr⟩ := C72_folding_complete p hp dbg P h modulus hm wit hh
  obtain ⟨vars, cs, pubs, h1, h2, h3, h4, h5⟩ := C67_transfer_complete p hp (foldingCircuit p dbg P modulus wit) payers payees
    (pkWords wit.x wit.y) (skWords wit.s) fee feeType root foldPub (fun cs pk sk h0 _ hpk hsk => hr cs pk sk h0 hpk hsk)
    hne hne' hg hg' hb
  exact ⟨vars, cs, pubs, foldPub, h1, h2, hv, h3, h4, h5⟩

/-- C67: with the address folding circuit in place the transfer circuit still accepts transfers that create value out of
nothing: the circuit the verifier compiles from any consistent witness is satisfied by an honestly folded transfer whose
records do not balance, with one asset type. -/
theorem C67_transfer_folding_unsound (p : Rescue.Params F) (hp : GoodParams p) (dbg : Bool) (P : SimFr.Params)
    (h : FoldOk P F) (modulus : Bytes) (hm : modulus.length = 32) (wit wit' : FoldWitness P F)
    (hh : wit.Honest p (ofLE modulus)) (hh' : wit'.Consistent) (payers payers' : List (Payer F))
    (payees payees' : List (Payee F)) (pk' : PK F) (sk' : SK F) (fee fee' feeType root : F)
    (hne : payers ≠ []) (hne' : payees ≠ []) (hg : ∀ s ∈ payers, GoodPayer p (pkWords wit.x wit.y) root s)
    (hg' : ∀ t ∈ payees, ScalarRepr.val t.amount < 2 ^ 64)
    (hty : ∀ s ∈ payers, s.ty = feeType) (hty' : ∀ t ∈ payees, t.ty = feeType)
    (hl : payers'.map (fun s => s.path.length) = payers.map (fun s => s.path.length))
    (hl' : payees'.length = payees.length) :
    ∃ vars cs pubs foldPub w, buildMultiXfr p (foldingCircuit p dbg P modulus wit') payers' payees' pk' sk' fee' feeType CS.new =
        some (vars, cs) ∧
      pubInputs p (pkWords wit.x wit.y) (skWords wit.s) payers payees fee = some pubs ∧
      verifierInput P wit.comm wit.beta wit.lambda wit.resps = some foldPub ∧
      (pubs ++ foldPub).length = cs.pubVars.length ∧ Sat cs w (pubs ++ foldPub) := by
  obtain ⟨foldPub, hv, hr⟩ := C72_folding_complete p hp dbg P h modulus hm wit hh
  obtain ⟨vars, cs, pubs, w, h1, h2, h3, h4⟩ := C67_transfer_unsound p hp (foldingCircuit p dbg P modulus wit)
    (foldingCircuit p dbg P modulus wit')
    (fun pk sk => C72_folding_uniform p dbg P h modulus wit' wit hh' hh.consistent pk sk) payers payers' payees payees'
    (pkWords wit.x wit.y) pk' (skWords wit.s) sk' fee fee' feeType root foldPub hr hne hne' hg hg' hty hty' hl hl'
  exact ⟨vars, cs, pubs, foldPub, w, h1, h2, hv, h3, h4⟩

end

/-! ### The scalars of the circuit are those of the keys -/

section
variable {F AT E K : Type} [Field F] [ScalarRepr F] [AddCommGroup E] [AddCommGroup K]

theorem ofLE_take (b : Bytes) (n : Nat) (hn : n ≤ b.length) : ofLE (b.take n) = ofLE b % 256 ^ n ∧
    ofLE (b.drop n) = ofLE b / 256 ^ n := by
  have e : ofLE b = ofLE (b.take n) + 256 ^ n * ofLE (b.drop n) := by
    conv_lhs => rw [← List.take_append_drop n b]
    rw [ofLE_append, List.length_take, Nat.min_eq_left hn]
  have hlt : ofLE (b.take n) < 256 ^ n := by
    have := ofLE_lt (b.take n)
    rwa [List.length_take, Nat.min_eq_left hn] at this
  rw [e]
  exact ⟨by rw [Nat.add_mul_mod_self_left, Nat.mod_eq_of_lt hlt],
    by rw [Nat.add_mul_div_left _ _ (by positivity), Nat.div_eq_of_lt hlt, Nat.zero_add]⟩

/-- C72: `get_secret_key_scalars` gives the scalars the folding circuit speaks of. -/
theorem C72_secret_scalars (s : Nat) (hs : s < 2 ^ 256) : (skScalars s : Option (SK F)) = some (skWords s) := by
  have hl : (leBytes 32 s).length = 32 := leBytes_length _ _
  have hv : ofLE (leBytes 32 s) = s := ofLE_leBytes_of_lt (lt_of_lt_of_le hs (by norm_num))
  obtain ⟨h1, h2⟩ := ofLE_take (leBytes 32 s) 31 (by omega)
  rw [skScalars_eq, h1, h2, hv]
  unfold skWords
  norm_num

/-- C72: `get_public_key_scalars` gives the scalars the folding circuit speaks of. -/
theorem C72_public_scalars (X : AnonExt F AT E K) (k : K) (hx : (X.coord k).1 < 2 ^ 256) (hy : (X.coord k).2 < 2 ^ 256) :
    X.pkScalars k = some (pkWords (X.coord k).1 (X.coord k).2) := by
  have hl : (leBytes 32 (X.coord k).1 ++ leBytes 32 (X.coord k).2).length = 64 := by simp
  have hv : ofLE (leBytes 32 (X.coord k).1 ++ leBytes 32 (X.coord k).2) = (X.coord k).1 + 2 ^ 256 * (X.coord k).2 := by
    rw [ofLE_append, ofLE_leBytes_of_lt (lt_of_lt_of_le hx (by norm_num)),
      ofLE_leBytes_of_lt (lt_of_lt_of_le hy (by norm_num)), leBytes_length]
    norm_num
  rw [pkScalars_eq]
  generalize leBytes 32 (X.coord k).1 ++ leBytes 32 (X.coord k).2 = b at hl hv
  obtain ⟨h1, h2⟩ := ofLE_take b 31 (by omega)
  obtain ⟨h3, -⟩ := ofLE_take (b.drop 31) 31 (by rw [List.length_drop]; omega)
  obtain ⟨-, h4⟩ := ofLE_take b 62 (by omega)
  have e31 : (256 : Nat) ^ 31 = 2 ^ 248 := by norm_num
  have e62 : (256 : Nat) ^ 62 = 2 ^ 496 := by rw [show (256 : Nat) = 2 ^ 8 by norm_num, ← pow_mul]
  rw [h1, h3, h2, h4, hv, e31, e62]
  rfl

end

/-! ### The parameters of the code -/

/-- the parameters of the code meet the assumptions -/
theorem secq_fold : FoldOk secq256k1 (ZMod Bls.r) where
  ok := secq256k1_ok
  total := by decide
  le := by decide +kernel
  pos := by decide +kernel
  field := bls_big _ (by decide)
  words := by decide
  two := by
    intro h
    have : ((2 : Nat) : ZMod Bls.r) = ((0 : Nat) : ZMod Bls.r) := by exact_mod_cast h
    have ho : 2 < ScalarRepr.order (ZMod Bls.r) := by
      show 2 < Bls.r
      unfold Bls.r
      norm_num
    exact absurd (cast_inj_of_lt (F := ZMod Bls.r) ho (by omega) this) (by norm_num)
  big := by
    show 2 ^ 254 ≤ Bls.r
    unfold Bls.r
    norm_num

theorem secpOrder_ok : secpOrderBytes.length = 32 ∧ false ∈ secpOrderBytes.flatMap byteBits ∧
    ofLE secpOrderBytes = 115792089237316195423570985008687907852837564279074904382605163141518161494337 := by
  refine ⟨rfl, ?_, ?_⟩ <;> decide +kernel

/-- the witness of a key with coordinates 5, 7 and secret key 3, challenges 2 and 11 -/
def sampleFold (comm : ZMod Bls.r) : FoldWitness secq256k1 (ZMod Bls.r) :=
  ⟨5, 7, 3, 2, 11, [100, 200, 300], [2 * 5 + 100, 2 * 7 + 200, 2 * 3 + 300], 99, comm⟩

theorem sampleFold_honest : ∃ comm, (sampleFold comm).Honest Rescue.blsParams (ofLE secpOrderBytes) := by
  obtain ⟨k, hk⟩ := (C65_state_commitment_total Rescue.blsParams secq256k1 ⟨by decide, by decide⟩ (by decide) [5, 7, 3]
    ([100, 200, 300].map (ZMod.val (n := secq256k1.r))) 99).mpr (by simp)
  refine ⟨k, (by decide +kernel : 5 < secq256k1.r), (by decide +kernel : 7 < secq256k1.r),
    ⟨(by decide +kernel : 3 < secq256k1.r), (by decide +kernel : 3 < ofLE secpOrderBytes)⟩, ⟨100, 200, 300, rfl, ?_⟩, hk⟩
  simp [sampleFold]

/-- the hypotheses of `C67_transfer_folding_complete` and `C67_transfer_folding_sound_partial`, and so those of
`C72_folding_complete` and `C72_folding_sound`, are met over the field, the hash and the parameters of the code: a record
of amount 7 held by the sample key becomes one of amount 5 with a fee of 2 -/
example : ∃ (comm root : ZMod Bls.r) (cs : CS (ZMod Bls.r)) (pubs foldPub : List (ZMod Bls.r)),
    verifierInput secq256k1 comm 2 11 [2 * 5 + 100, 2 * 7 + 200, 2 * 3 + 300] = some foldPub ∧
    pubInputs Rescue.blsParams (pkWords 5 7) (skWords 3) [samplePayer []] [samplePayee] ((2 : Nat) : ZMod Bls.r) = some pubs ∧
    Sat cs cs.value (pubs ++ foldPub) ∧
    ∃ pk sk o, Spec.Folds Rescue.blsParams secq256k1 (ofLE secpOrderBytes) comm 2 11
      [2 * 5 + 100, 2 * 7 + 200, 2 * 3 + 300] pk sk o := by
  obtain ⟨comm, hh⟩ := sampleFold_honest
  have hp := goodBls
  generalize Rescue.blsParams = p at hp hh
  obtain ⟨vars, cs, pubs, foldPub, h1, h2, h3, h4, h5, h6⟩ := C67_transfer_folding_complete p hp true secq256k1 secq_fold
    secpOrderBytes secpOrder_ok.1 (sampleFold comm) hh [samplePayer []] [samplePayee] ((2 : Nat) : ZMod Bls.r) 9
    (payerRoot p (pkWords 5 7) (samplePayer [])) (by simp) (by simp) (by
      intro s hs
      simp only [List.mem_singleton] at hs
      subst hs
      refine ⟨by simp [samplePayer], ?_, rfl⟩
      unfold samplePayer
      rw [sample_val 7 (by norm_num)]
      norm_num) (by
      intro s hs
      simp only [List.mem_singleton] at hs
      subst hs
      unfold samplePayee
      rw [sample_val 5 (by norm_num)]
      norm_num) (sample_balanced [])
  refine ⟨comm, payerRoot p (pkWords 5 7) (samplePayer []), cs, pubs, foldPub, h3, h2, h5, ?_⟩
  have hord : 2 ^ 66 < ScalarRepr.order (ZMod Bls.r) := by
    show 2 ^ 66 < Bls.r
    unfold Bls.r
    norm_num
  simp only [pubInputs, Option.some.injEq] at h2
  subst h2
  obtain ⟨hf, _⟩ := C67_transfer_folding_sound_partial p hp true secq256k1 secq_fold secpOrderBytes
    secpOrder_ok.1 secpOrder_ok.2.1 (sampleFold comm) [samplePayer []] [samplePayee] _ _ _ 9
    (by simp only [List.length_singleton]; omega) (by simp only [List.length_singleton]; omega) vars cs h1
    _ _ foldPub _ _ (by simp) (by simp) (by
      have := congrArg List.length h4
      unfold CS.online at this
      rw [List.length_map] at this
      rw [this]) (by rw [sample_val 2 (by norm_num)]; norm_num) comm 2 11 _ h3 cs.value h5 h6
  exact ⟨_, _, _, hf⟩

/-- the scalars of a key are those of its bytes: 248 bits first -/
example : (skScalars (2 ^ 248 + 5) : Option (SK (ZMod Bls.r))) = some (5, 1) := by
  rw [C72_secret_scalars _ (by norm_num)]
  unfold skWords
  norm_num

instance : Fact secq256k1.r.Prime := ⟨Secq.prime_p⟩

/-- generators of the example -/
def linkGens : ChaumPedersen.Gens (ZMod secq256k1.r) := ⟨1, 7⟩

/-- the responses of the example for the challenge `b` -/
def linkResponses (b : ZMod secq256k1.r) : List (ZMod secq256k1.r × ZMod secq256k1.r) :=
  [(b * 5 + 100, b + 1), (b * 7 + 200, b + 1), (b * 3 + 300, b + 1)]

/-- the hypotheses of `C72_folding_links` are met over the parameters of the code (with the scalar field itself as the
group): the coordinates 5, 7 and the secret key 3, challenges 2 and 3, each with three values of `lambda` -/
example : ∃ (comm : ZMod Bls.r) (pk : Fin 2 → Fin 3 → PK (ZMod Bls.r)) (sk : Fin 2 → Fin 3 → SK (ZMod Bls.r))
    (o : Fin 2 → Fin 3 → Opening (ZMod Bls.r))
    (out : Fin 2 → ZMod secq256k1.r × ZMod secq256k1.r × DelegatedSchnorr.Tr (ZMod secq256k1.r) (ZMod secq256k1.r) (ZMod Bls.r)),
    (∀ b, DelegatedSchnorr.verify linkGens (fun _ => ((b.val + 2 : Nat) : ZMod secq256k1.r)) [] [12, 14, 10]
      ⟨comm, [107, 207, 307], linkResponses ((b.val + 2 : Nat) : ZMod secq256k1.r)⟩ = .ok (out b)) ∧
    (out 0).1 ≠ (out 1).1 ∧
    (Function.Injective (fun l : Fin 3 => ((l.val + 1 : Nat) : ZMod secq256k1.r))) ∧
    (∀ b l, Spec.Folds Rescue.blsParams secq256k1 (ofLE secpOrderBytes) comm (out b).1
      ((l.val + 1 : Nat) : ZMod secq256k1.r) ((linkResponses ((b.val + 2 : Nat) : ZMod secq256k1.r)).map (·.1))
      (pk b l) (sk b l) (o b l)) := by
  obtain ⟨comm, hk⟩ := (C65_state_commitment_total Rescue.blsParams secq256k1 ⟨by decide, by decide⟩ (by decide) [5, 7, 3]
    [100, 200, 300] 99).mpr (by simp)
  have hinj : ∀ a b : Nat, a < secq256k1.r → b < secq256k1.r →
      ((a : Nat) : ZMod secq256k1.r) = ((b : Nat) : ZMod secq256k1.r) → a = b := by
    intro a b ha hb h
    rw [ZMod.natCast_eq_natCast_iff', Nat.mod_eq_of_lt ha, Nat.mod_eq_of_lt hb] at h
    exact h
  have hr : 10 < secq256k1.r := by decide +kernel
  refine ⟨comm, fun _ _ => pkWords 5 7, fun _ _ => skWords 3, fun _ _ => ⟨5, 7, 3, 100, 200, 300, 99⟩,
    fun b => (((b.val + 2 : Nat) : ZMod secq256k1.r), ((b.val + 2 : Nat) : ZMod secq256k1.r),
      DelegatedSchnorr.point2 (DelegatedSchnorr.point1 linkGens [] [12, 14, 10] comm [107, 207, 307])
        (linkResponses ((b.val + 2 : Nat) : ZMod secq256k1.r)) ++ [.challenge]), ?_, ?_, ?_, ?_⟩
  · intro b
    refine (DelegatedSchnorr.C65_accepts_iff linkGens _ [] [12, 14, 10] ⟨comm, [107, 207, 307], linkResponses _⟩
      ⟨rfl, rfl⟩).1 ?_
    intro j c r s hc hr hs
    generalize ((b.val + 2 : Nat) : ZMod secq256k1.r) = β at hs ⊢
    unfold linkResponses at hs
    match j with
    | 0 | 1 | 2 =>
      simp only [List.getElem?_cons_zero, List.getElem?_cons_succ, Option.some.injEq] at hc hr hs
      subst hc hr hs
      simp only [linkGens, smul_eq_mul]
      ring
    | j + 3 => simp at hc
  · intro h
    have := hinj _ _ (by simp; omega) (by simp; omega) h
    simp at this
  · intro a b h
    have := hinj _ _ (by omega) (by omega) h
    exact Fin.ext (by omega)
  · intro b l
    refine ⟨_, _, _, ⟨?_, ?_, ?_⟩, ⟨?_, ?_, ?_⟩, rfl, rfl, hk, ⟨rfl, rfl, rfl⟩, ?_⟩
    · norm_num
    · norm_num
    · rw [secpOrder_ok.2.2]
      norm_num
    · norm_num
    · norm_num
    · norm_num
    · simp only [linkResponses, List.map_cons, List.map_nil]
      push_cast
      ring

end Verif.Anon
