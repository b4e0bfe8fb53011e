import Verif.Anon.ConvertNotes

/-!
C77: an accepted conversion note preserves amount and asset type, from the verifier's answer to the records.

The theorems put together the verifiers (`ConvertVerify.lean`), the circuits (C73 to C76), the delegated Schnorr proof (C65,
`C75_inspection_links`) and the accumulator (C02, C03).  The PLONK proof system enters through `Knows`: an extractor that reads
a satisfying assignment off every accepted proof.  The verifier of the code does not have one (C70); the theorems say what
the conversions guarantee once that is repaired.
-/

namespace Verif.Anon

open Verif.Plonk Verif.Plonk.Spec Verif.SimFr Verif.SimFr.Spec Verif.StateComm Verif.Anon.Spec
open Verif.DelegatedSchnorr (Tr Msg)
open Verif.Xfr (BlindAssetRecord splitU64)

/-- the proof system with the given parameters and label is an argument of knowledge for the circuit `cs`, with
extractor `X`; the assignment is read off the proof alone, so a proof is accepted for one list of inputs only -/
def Knows {S : Xfr.Types} {Q : SimFr.Params} {F Par Pf : Type} [Field F] (E : ConvExt S Q F Par Pf) (par : Par) (label : String)
    (cs : CS F) (X : Pf → Nat → F) : Prop :=
  ∀ pubs pf, E.plonk par label pubs pf = true → pubs.length = cs.pubVars.length ∧ Sat cs (X pf) pubs

namespace Spec

/-- an opening of an ordinary record: the two halves of the amount, the number of the asset type, and blinding factors -/
structure RecOpening (Q : SimFr.Params) where
  lo : Nat
  hi : Nat
  blinds : ZMod Q.r × ZMod Q.r
  ty : Nat
  tyBlind : ZMod Q.r

/-- the amount it stands for -/
def RecOpening.amount {Q : SimFr.Params} (o : RecOpening Q) : Nat := o.lo + 2 ^ 32 * o.hi

/-- `o` opens the record: the halves have 32 bits, a confidential part commits to them, a plain part shows them -/
def RecOpening.Opens {S : Xfr.Types} {Q : SimFr.Params} {F Par Pf : Type} [Fact Q.r.Prime] [AddCommGroup S.G] [Module (ZMod Q.r) S.G]
    (E : ConvExt S Q F Par Pf) (r : BlindAssetRecord S) (o : RecOpening Q) : Prop :=
  (o.lo < 2 ^ 32 ∧ o.hi < 2 ^ 32 ∧ o.ty < 2 ^ 240) ∧
  (match r.amount with
    | .conf c d => E.decompress c = some ((o.lo : ZMod Q.r) • E.gens.B + o.blinds.1 • E.gens.Bb) ∧
        E.decompress d = some ((o.hi : ZMod Q.r) • E.gens.B + o.blinds.2 • E.gens.Bb)
    | .plain a => a.toNat = o.amount ∧ o.blinds = (0, 0)) ∧
  (match r.assetType with
    | .conf c => E.decompress c = some ((o.ty : ZMod Q.r) • E.gens.B + o.tyBlind • E.gens.Bb)
    | .plain t => E.asNat t = o.ty ∧ o.tyBlind = 0)

/-- the commitments to the whole amount and to the asset type -/
def RecOpening.coms {Q : SimFr.Params} {G : Type} [Fact Q.r.Prime] [AddCommGroup G] [Module (ZMod Q.r) G] (g : ChaumPedersen.Gens G)
    (o : RecOpening Q) : G × G :=
  ((o.amount : ZMod Q.r) • g.B + (o.blinds.1 + 2 ^ 32 * o.blinds.2) • g.Bb, (o.ty : ZMod Q.r) • g.B + o.tyBlind • g.Bb)

/-- an opening of the two commitments that the verifiers compute from an ordinary record: the whole amount, the number of the asset
type, and blinding factors -/
structure Whole (Q : SimFr.Params) where
  amount : Nat
  blind : ZMod Q.r
  ty : Nat
  tyBlind : ZMod Q.r

/-- the commitments it opens -/
def Whole.coms {Q : SimFr.Params} {G : Type} [Fact Q.r.Prime] [AddCommGroup G] [Module (ZMod Q.r) G] (g : ChaumPedersen.Gens G)
    (o : Whole Q) : G × G :=
  ((o.amount : ZMod Q.r) • g.B + o.blind • g.Bb, (o.ty : ZMod Q.r) • g.B + o.tyBlind • g.Bb)

/-- `o` opens what the verifiers take for the commitments of the record; nothing is asked of the halves of the amount -/
def Whole.Opens {S : Xfr.Types} {Q : SimFr.Params} {F Par Pf : Type} [Fact Q.r.Prime] [AddCommGroup S.G] [Module (ZMod Q.r) S.G]
    (E : ConvExt S Q F Par Pf) (r : BlindAssetRecord S) (o : Whole Q) : Prop :=
  (o.amount < 2 ^ 240 ∧ o.ty < 2 ^ 240) ∧ E.recordComs r = .ok (o.coms E.gens)

/-- an opening of the record opens the whole amount -/
def RecOpening.whole {Q : SimFr.Params} (o : RecOpening Q) : Whole Q :=
  ⟨o.amount, o.blinds.1 + 2 ^ 32 * o.blinds.2, o.ty, o.tyBlind⟩

/-- a relation between the two generators, computed from an opening `(v', t)` of a commitment and the responses `s`, `s'` to
two challenges, which answer for `v` -/
def Relation {K G : Type} [Field K] [AddCommGroup G] [Module K G] (g : ChaumPedersen.Gens G) (v v' t : K)
    (s s' : Option (K × K)) (beta beta' : K) : Prop :=
  ∃ a b, s = some a ∧ s' = some b ∧ v - v' ≠ 0 ∧
    (v - v') • g.B = (t - (DelegatedSchnorr.extract a b beta beta').2) • g.Bb

end Spec

/-! ### The commitments of a record -/

section
variable {S : Xfr.Types} {Q : SimFr.Params} {F Par Pf : Type} [Field F]
variable [Fact Q.r.Prime] [AddCommGroup S.G] [DecidableEq S.G] [Module (ZMod Q.r) S.G]

omit [Field F] [DecidableEq S.G] in
/-- C77: what the verifiers take for the commitments of a record are commitments to its amount, recombined, and to its
asset type. -/
theorem C77_record_commitments (E : ConvExt S Q F Par Pf) (r : BlindAssetRecord S) (o : RecOpening Q) (ho : o.Opens E r) :
    E.recordComs r = .ok (o.coms E.gens) := by
  obtain ⟨-, ha, ht⟩ := ho
  have h1 : E.amountComs r >>= (fun c => (.ok (c.1 + ((2 ^ 32 : Nat) : ZMod Q.r) • c.2) : Res S.G)) = .ok (o.coms E.gens).1 := by
    unfold ConvExt.amountComs
    cases hr : r.amount with
    | conf c d =>
      rw [hr] at ha
      simp only [ha.1, ha.2, Res.ofOption_some, Res.bind_ok, Res.pure_eq, RecOpening.coms, RecOpening.amount, Res.ok.injEq]
      push_cast
      module
    | plain a =>
      rw [hr] at ha
      obtain ⟨ha, hb⟩ := ha
      simp only [Res.bind_ok, Res.ok.injEq, RecOpening.coms, ← ha, hb, DelegatedSchnorr.commit, ← Xfr.C22_split_recombines a]
      push_cast
      module
  have h2 : E.typeCom r = .ok (o.coms E.gens).2 := by
    unfold ConvExt.typeCom
    cases hr : r.assetType with
    | conf c =>
      rw [hr] at ht
      simp only [ht, Res.ofOption_some]
      rfl
    | plain t =>
      rw [hr] at ht
      simp only [DelegatedSchnorr.commit, RecOpening.coms, ht.1, ht.2]
  unfold ConvExt.recordComs
  obtain ⟨c, hc, h3⟩ := Res.bind_eq_ok.mp h1
  rw [hc, Res.bind_ok, h2, Res.bind_ok, Res.ok.inj h3]
  rfl

omit [Field F] [DecidableEq S.G] in
/-- an opening of the record is one of the whole amount -/
theorem opens_whole {E : ConvExt S Q F Par Pf} {r : BlindAssetRecord S} {o : RecOpening Q} (ho : o.Opens E r) :
    o.whole.Opens E r := by
  refine ⟨⟨?_, ho.1.2.2⟩, C77_record_commitments E r o ho⟩
  have h64 : (2 : Nat) ^ 64 < 2 ^ 240 := Nat.pow_lt_pow_right (by norm_num) (by norm_num)
  have := ho.1
  show o.lo + 2 ^ 32 * o.hi < 2 ^ 240
  omega

omit [Field F] [DecidableEq S.G] in
theorem coms_opens (g : ChaumPedersen.Gens S.G) (o : Whole Q) (hr : 2 ^ 240 ≤ Q.r)
    (hb : o.amount < 2 ^ 240 ∧ o.ty < 2 ^ 240) (x y : Nat) (hx : x < 2 ^ 64) (hy : y < 2 ^ 240)
    (s0 s1 t0 t1 : Option (ZMod Q.r × ZMod Q.r)) (beta beta' : ZMod Q.r)
    (h0 : OpensTo g (o.coms g).1 (x : ZMod Q.r) s0 s1 beta beta') (h1 : OpensTo g (o.coms g).2 (y : ZMod Q.r) t0 t1 beta beta') :
    (x = o.amount ∧ y = o.ty) ∨
      Relation g (x : ZMod Q.r) (o.amount : ZMod Q.r) o.blind s0 s1 beta beta' ∨
      Relation g (y : ZMod Q.r) (o.ty : ZMod Q.r) o.tyBlind t0 t1 beta beta' := by
  have hinj : ∀ a b : Nat, a < 2 ^ 240 → b < 2 ^ 240 → (a : ZMod Q.r) = (b : ZMod Q.r) → a = b := by
    intro a b ha hb h
    rw [ZMod.natCast_eq_natCast_iff', Nat.mod_eq_of_lt (by omega), Nat.mod_eq_of_lt (by omega)] at h
    exact h
  rcases C75_opening_binding g _ _ _ _ _ _ _ _ h0 rfl with e0 | e0
  · rcases C75_opening_binding g _ _ _ _ _ _ _ _ h1 rfl with e1 | e1
    · refine .inl ⟨hinj _ _ (by omega) hb.1 e0, hinj _ _ hy hb.2 e1⟩
    · exact .inr (.inr e1)
  · exact .inr (.inl e0)

end

/-! ### Transparent to anonymous -/

section
variable {S : Xfr.Types} {P Q : SimFr.Params} {F Par Pf G Hs Mp : Type} [Field F] [DecidableEq F] [ScalarRepr F]
variable (p : Rescue.Params F)

/-- C77, transparent to anonymous: the input of an accepted note shows an amount and an asset type, and whoever opens the new
commitment opens it to these, or has a collision of the permutation. -/
theorem C77_ar_to_abar_conserves (hp : GoodParams p) (E : ConvExt S Q F Par Pf) (ser : ArToAbarBody S F Pf → Option Bytes)
    (par : Par) (t : Payee F) (vars : PayeeVars) (cs : CS F) (hb : buildArToAbar p t CS.new = some (vars, cs))
    (X : Pf → Nat → F) (hX : Knows E par arToAbarLabel cs X) (note : ArToAbarNote S F Pf)
    (h : E.verifyArToAbar ser par note = .ok ()) :
    ∃ a ty, note.body.input.amount = .plain a ∧ note.body.input.assetType = .plain ty ∧
      ∀ y : CommitIn F, y.eval p = note.body.output → (y.amount = (a.toNat : F) ∧ y.ty = (E.asNat ty : F)) ∨
        Collides p (openCollision p (X note.body.proof 0) (payeeVal (X note.body.proof) vars).opening y).1
          (openCollision p (X note.body.proof 0) (payeeVal (X note.body.proof) vars).opening y).2 := by
  unfold ConvExt.verifyArToAbar at h
  obtain ⟨m, -, h⟩ := Res.bind_eq_ok.mp h
  split at h
  · unfold ConvExt.verifyArToAbarBody at h
    split at h
    · rename_i a ty ha ht
      split at h
      · rename_i hpl
        refine ⟨a, ty, ha, ht, fun y hy => ?_⟩
        obtain ⟨-, hs⟩ := hX _ _ hpl
        rcases C73_ar_to_abar_sound p hp t vars cs hb _ _ _ _ hs y hy with ⟨h1, h2, -⟩ | hc
        · exact .inl ⟨h1, h2⟩
        · exact .inr hc
      · cases h
    · cases h
  · cases h

/-! ### Anonymous to transparent -/

section
variable [Fact P.r.Prime] [AddCommGroup G] [DecidableEq G] [Module (ZMod P.r) G]

/-- C77, anonymous to transparent: the output of an accepted note shows an amount and an asset type; when the root is that of
a tree of the accumulator, after any history, a stored commitment is one to these, the nullifier is the one that this
record has at its place, and its key is the one folded into the delegated Schnorr proof; otherwise the assignment read off
the proof contains evidence against the permutation. -/
theorem C77_abar_to_ar_conserves (hp : GoodParams p) (E : ConvExt S Q F Par Pf) (Y : FoldExt P F G Hs Mp) (par : Par)
    (dbg : Bool) (h : FoldOk P F) (modulus : Bytes) (hm : modulus.length = 32) (hf : false ∈ modulus.flatMap byteBits)
    (wit : FoldWitness P F) (s : Payer F) (hd : s.path.length = 20) (pk0 : PK F) (sk0 : SK F) (vars : AbarVars FoldVars) (cs : CS F)
    (hb : buildAbarToAr p (foldingCircuit p dbg P modulus wit) s pk0 sk0 CS.new = some (vars, cs))
    (X : Pf → Nat → F) (hX : Knows E par abarToArLabel cs X) (note : AbarToArNote S P F Pf G Mp) (root : F) (hs : Hs)
    (hacc : E.verifyAbarToAr Y par note root hs = .ok ())
    (c : Merkle.Codec F) (ops : List (Merkle.Op F)) (hcap : Merkle.adds ops ≤ 3 ^ 20) (stored : List F)
    (hst : (Merkle.Spec.run ops).cur = leavesOf p stored) (t : Merkle.Tree)
    (ht : Merkle.runTree c (treeHash p) ops = some t) (hroot : t.getRoot c = some root) :
    ∃ a ty ch, note.output.amount = .plain a ∧ note.output.assetType = .plain ty ∧
      Y.verify abarToArFoldLabel hs note.folding = .ok ch ∧
      ((∃ j : Nat, stored[j]? = some (commit p (pkVal (X note.proof) vars.spend.pk)
            (spentVal (X note.proof) vars.spend.payer).blind (a.toNat : F) (E.asNat ty : F)) ∧
          note.input = nullify p (pkVal (X note.proof) vars.spend.pk) (skVal (X note.proof) vars.spend.sk) (j : F) (a.toNat : F)
            (E.asNat ty : F) ∧
          Folds p P (ofLE modulus) note.folding.schnorr.comm ch.1 ch.2 (note.folding.schnorr.responses.map (·.1))
            (pkVal (X note.proof) vars.spend.pk) (skVal (X note.proof) vars.spend.sk) (foldVal P (X note.proof) vars.fold)) ∨
        SpendBreak p stored (pkVal (X note.proof) vars.spend.pk) (spentVal (X note.proof) vars.spend.payer)) := by
  obtain ⟨-, -, hc⟩ := (verifyAbarToAr_iff E Y par note root hs).mp hacc
  unfold ConvExt.checkAbarToAr at hc
  obtain ⟨ch, hch, hc⟩ := Res.bind_eq_ok.mp hc
  obtain ⟨fold, hfold, hc⟩ := Res.bind_eq_ok.mp hc
  split at hc
  · rename_i a ty ha hty
    split at hc
    · rename_i hpl
      refine ⟨a, ty, ch, ha, hty, hch, ?_⟩
      obtain ⟨hl, hsat⟩ := hX _ _ hpl
      obtain ⟨h3, _, _, _, _, _, hsh⟩ := fold_ok hch
      obtain ⟨l, hi, hv⟩ := fold_input_ok note.folding (by rw [hsh.2]; exact h3) ch
      rw [hfold] at hi
      obtain rfl := Res.ok.inj hi
      obtain ⟨t', ht', hin⟩ := C74_redeems_stored p hp dbg P h modulus hm hf wit s hd pk0 sk0 vars cs hb note.input root
        _ _ fold hl _ ch.1 ch.2 _ hv (X note.proof) hsat c ops hcap stored hst
      rw [ht] at ht'
      obtain rfl := Option.some.inj ht'
      exact hin hroot
    · cases hc
  · cases hc

end

/-! ### Confidential to anonymous -/

section
variable [Fact Q.r.Prime] [AddCommGroup S.G] [DecidableEq S.G] [Module (ZMod Q.r) S.G]

/-- what acceptance says, with the commitments of the record at hand -/
theorem barToAbar_ok {E : ConvExt S Q F Par Pf} {par : Par} {r : BlindAssetRecord S} {com : F}
    {schnorr : DelegatedSchnorr.Proof (ZMod Q.r) S.G F} {pf : Pf} {c : S.G × S.G} (hc : E.recordComs r = .ok c)
    (h : E.verifyBarToAbarBody par r com schnorr pf = .ok ()) :
    ∃ out input, DelegatedSchnorr.verify E.gens E.oracle [.label barToAbarLabel, .bound com] [c.1, c.2] schnorr = .ok out ∧
      inspectInput Q schnorr.comm out.1 out.2.1 (schnorr.responses.map (·.1)) = some input ∧
      E.plonk par barToAbarLabel (com :: input) pf = true := by
  unfold ConvExt.verifyBarToAbarBody at h
  split at h
  · cases h
  · rw [hc, Res.bind_ok] at h
    obtain ⟨out, ho, h⟩ := Res.bind_eq_ok.mp h
    obtain ⟨input, hi, h⟩ := Res.bind_eq_ok.mp h
    refine ⟨out, input, ho, ?_, ?_⟩
    · cases hu : inspectInput Q schnorr.comm out.1 out.2.1 (schnorr.responses.map (·.1)) with
      | none => rw [hu] at hi; cases hi
      | some l => rw [hu, Res.unwrap_some] at hi; rw [Res.ok.inj hi]
    · split at h
      · assumption
      · cases h

omit [DecidableEq F] [ScalarRepr F] in
/-- the challenges of an accepted delegated Schnorr proof -/
theorem schnorr_out {g : ChaumPedersen.Gens S.G} {H : Tr (ZMod Q.r) S.G F → ZMod Q.r} {tr : Tr (ZMod Q.r) S.G F} {coms : List S.G}
    {pf : DelegatedSchnorr.Proof (ZMod Q.r) S.G F} {out : ZMod Q.r × ZMod Q.r × Tr (ZMod Q.r) S.G F}
    (h : DelegatedSchnorr.verify g H tr coms pf = .ok out) :
    out.1 = H (DelegatedSchnorr.point1 g tr coms pf.comm pf.randomizers) ∧
      out.2.1 = H (DelegatedSchnorr.point2 (DelegatedSchnorr.point1 g tr coms pf.comm pf.randomizers) pf.responses) := by
  unfold DelegatedSchnorr.verify at h
  split at h
  · obtain ⟨_, -, h⟩ := Res.bind_eq_ok.mp h
    obtain rfl := Res.ok.inj h
    exact ⟨rfl, rfl⟩
  · cases h

/-- C77, confidential to anonymous, for the whole amount: as `C77_bar_to_abar_conserves`, for any opening of the two commitments that
the verifier computes from the record. -/
theorem C77_bar_to_abar_whole (hp : GoodParams p) (dbg : Bool) (h : InspOk Q F) (hr : 2 ^ 240 ≤ Q.r)
    (E : ConvExt S Q F Par Pf) (par : Par) (t : Payee F) (wit : InspWitness Q F) (vars : BarVars F) (cs : CS F)
    (hb : buildBarToAbar p dbg Q t wit CS.new = some (vars, cs)) (X : Pf → Nat → F) (hX : Knows E par barToAbarLabel cs X)
    (r : BlindAssetRecord S) (com comm : F) (randomizers : List S.G) (responses : Fin 2 → List (ZMod Q.r × ZMod Q.r))
    (proof : Fin 2 → Fin 2 → Pf) (H : Fin 2 → Fin 2 → Tr (ZMod Q.r) S.G F → ZMod Q.r)
    (hacc : ∀ b l, ({ E with oracle := H b l } : ConvExt S Q F Par Pf).verifyBarToAbarBody par r com
      ⟨comm, randomizers, responses b⟩ (proof b l) = .ok ())
    (o : Whole Q) (ho : o.Opens E r) (beta : Fin 2 → ZMod Q.r) (lambda : Fin 2 → Fin 2 → ZMod Q.r)
    (hbeta : ∀ b l, H b l (DelegatedSchnorr.point1 E.gens [.label barToAbarLabel, .bound com]
      [(o.coms E.gens).1, (o.coms E.gens).2] comm randomizers) = beta b) (hne : beta 0 ≠ beta 1)
    (hlambda : ∀ b l, H b l (DelegatedSchnorr.point2 (DelegatedSchnorr.point1 E.gens [.label barToAbarLabel, .bound com]
      [(o.coms E.gens).1, (o.coms E.gens).2] comm randomizers) (responses b)) = lambda b l)
    (hlne : ∀ b, lambda b 0 ≠ lambda b 1) (y : CommitIn F) (hy : y.eval p = com) :
    (y.amount = (o.amount : F) ∧ y.ty = (o.ty : F)) ∨
      (∃ b l, Collides p (openCollision p (X (proof b l) 0) (payeeVal (X (proof b l)) vars.out).opening y).1
          (openCollision p (X (proof b l) 0) (payeeVal (X (proof b l)) vars.out).opening y).2) ∨
      (∃ b l, Collide p ((inspVal Q (X (proof 0 0)) vars.insp).calls p Q) ((inspVal Q (X (proof b l)) vars.insp).calls p Q)) ∨
      Relation E.gens ((inspVal Q (X (proof 0 0)) vars.insp).x : ZMod Q.r) (o.amount : ZMod Q.r)
        o.blind (responses 0)[0]? (responses 1)[0]? (beta 0) (beta 1) ∨
      Relation E.gens ((inspVal Q (X (proof 0 0)) vars.insp).y : ZMod Q.r) (o.ty : ZMod Q.r) o.tyBlind
        (responses 0)[1]? (responses 1)[1]? (beta 0) (beta 1) := by
  by_cases hcol : ∃ b l, Collides p (openCollision p (X (proof b l) 0) (payeeVal (X (proof b l)) vars.out).opening y).1
      (openCollision p (X (proof b l) 0) (payeeVal (X (proof b l)) vars.out).opening y).2
  · exact .inr (.inl hcol)
  have run : ∀ b l, ∃ out, DelegatedSchnorr.verify E.gens (H b l) [.label barToAbarLabel, .bound com]
      [(o.coms E.gens).1, (o.coms E.gens).2] ⟨comm, randomizers, responses b⟩ = .ok out ∧ out.1 = beta b ∧ out.2.1 = lambda b l ∧
      y.amount = ((inspVal Q (X (proof b l)) vars.insp).x : F) ∧ y.ty = ((inspVal Q (X (proof b l)) vars.insp).y : F) ∧
      Inspects p Q comm (beta b) (lambda b l) ((responses b).map (·.1)) (inspVal Q (X (proof b l)) vars.insp) := by
    intro b l
    obtain ⟨out, input, hv, hi, hpl⟩ := barToAbar_ok (c := o.coms E.gens)
      (show ({ E with oracle := H b l } : ConvExt S Q F Par Pf).recordComs r = _ from ho.2) (hacc b l)
    obtain ⟨e1, e2⟩ := schnorr_out hv
    have e1 : out.1 = beta b := e1.trans (hbeta b l)
    have e2 : out.2.1 = lambda b l := e2.trans (hlambda b l)
    obtain ⟨hl, hs⟩ := hX _ _ hpl
    rcases C75_bar_to_abar_sound p hp dbg Q h t wit vars cs hb com input hl comm out.1 out.2.1 _ hi _ hs y hy with
      ⟨-, h1, h2, h3⟩ | hc
    · rw [e1, e2] at h3
      exact ⟨out, hv, e1, e2, h1, h2, h3⟩
    · exact absurd ⟨b, l, hc⟩ hcol
  choose out hv e1 e2 ha hty hin using run
  rcases C75_inspection_links p Q h E.gens [.label barToAbarLabel, .bound com] (o.coms E.gens).1 (o.coms E.gens).2 comm
    randomizers (fun b => H b 0) responses (fun b => out b 0) (fun b => hv b 0) (by rw [e1, e1]; exact hne) lambda hlne
    (fun b l => inspVal Q (X (proof b l)) vars.insp) (fun b l => by rw [e1]; exact hin b l) with hcc | ⟨-, o0, o1⟩
  · exact .inr (.inr (.inl hcc))
  · rw [e1, e1] at o0 o1
    obtain ⟨_, _, ⟨bx, by'⟩, -⟩ := hin 0 0
    rcases coms_opens E.gens o hr ho.1 _ _ bx by' _ _ _ _ _ _ o0 o1 with ⟨g1, g2⟩ | g
    · refine .inl ⟨?_, ?_⟩
      · rw [ha 0 0, g1]
      · rw [hty 0 0, g2]
    · exact .inr (.inr (.inr g))

/-- C77, confidential to anonymous (special soundness).  A prover gives, for one record, one new commitment, one state
commitment and one list of randomizers, responses that the verifier accepts under two values `beta` of the first challenge and,
for each of them, two values of the second challenge.  Whoever opens the ordinary record to an amount and an asset type,
and the new commitment, opens the latter to the same amount and the same asset type; or the openings and the four proofs
contain a collision of the permutation or a relation between the generators of the Pedersen commitments. -/
theorem C77_bar_to_abar_conserves (hp : GoodParams p) (dbg : Bool) (h : InspOk Q F) (hr : 2 ^ 240 ≤ Q.r)
    (E : ConvExt S Q F Par Pf) (par : Par) (t : Payee F) (wit : InspWitness Q F) (vars : BarVars F) (cs : CS F)
    (hb : buildBarToAbar p dbg Q t wit CS.new = some (vars, cs)) (X : Pf → Nat → F) (hX : Knows E par barToAbarLabel cs X)
    (r : BlindAssetRecord S) (com comm : F) (randomizers : List S.G) (responses : Fin 2 → List (ZMod Q.r × ZMod Q.r))
    (proof : Fin 2 → Fin 2 → Pf) (H : Fin 2 → Fin 2 → Tr (ZMod Q.r) S.G F → ZMod Q.r)
    (hacc : ∀ b l, ({ E with oracle := H b l } : ConvExt S Q F Par Pf).verifyBarToAbarBody par r com
      ⟨comm, randomizers, responses b⟩ (proof b l) = .ok ())
    (o : RecOpening Q) (ho : o.Opens E r) (beta : Fin 2 → ZMod Q.r) (lambda : Fin 2 → Fin 2 → ZMod Q.r)
    (hbeta : ∀ b l, H b l (DelegatedSchnorr.point1 E.gens [.label barToAbarLabel, .bound com]
      [(o.coms E.gens).1, (o.coms E.gens).2] comm randomizers) = beta b) (hne : beta 0 ≠ beta 1)
    (hlambda : ∀ b l, H b l (DelegatedSchnorr.point2 (DelegatedSchnorr.point1 E.gens [.label barToAbarLabel, .bound com]
      [(o.coms E.gens).1, (o.coms E.gens).2] comm randomizers) (responses b)) = lambda b l)
    (hlne : ∀ b, lambda b 0 ≠ lambda b 1) (y : CommitIn F) (hy : y.eval p = com) :
    (y.amount = (o.amount : F) ∧ y.ty = (o.ty : F)) ∨
      (∃ b l, Collides p (openCollision p (X (proof b l) 0) (payeeVal (X (proof b l)) vars.out).opening y).1
          (openCollision p (X (proof b l) 0) (payeeVal (X (proof b l)) vars.out).opening y).2) ∨
      (∃ b l, Collide p ((inspVal Q (X (proof 0 0)) vars.insp).calls p Q) ((inspVal Q (X (proof b l)) vars.insp).calls p Q)) ∨
      Relation E.gens ((inspVal Q (X (proof 0 0)) vars.insp).x : ZMod Q.r) (o.amount : ZMod Q.r)
        (o.blinds.1 + 2 ^ 32 * o.blinds.2) (responses 0)[0]? (responses 1)[0]? (beta 0) (beta 1) ∨
      Relation E.gens ((inspVal Q (X (proof 0 0)) vars.insp).y : ZMod Q.r) (o.ty : ZMod Q.r) o.tyBlind
        (responses 0)[1]? (responses 1)[1]? (beta 0) (beta 1) :=
  C77_bar_to_abar_whole p hp dbg h hr E par t wit vars cs hb X hX r com comm randomizers responses proof H hacc o.whole (opens_whole ho) beta
    lambda hbeta hne hlambda hlne y hy

/-! ### Anonymous to confidential -/

variable [Fact P.r.Prime] [AddCommGroup G] [DecidableEq G] [Module (ZMod P.r) G]

theorem abarToBar_ok {E : ConvExt S Q F Par Pf} {Y : FoldExt P F G Hs Mp} {par : Par} {note : AbarToBarNote S P Q F Pf G Mp}
    {root : F} {hs : Hs} {c : S.G × S.G} (hc : E.recordComs note.output = .ok c)
    (h : E.verifyAbarToBar Y par note root hs = .ok ()) :
    ∃ out input ch fold,
      DelegatedSchnorr.verify E.gens E.oracle [.label abarToBarLabel, .bound note.input] [c.1, c.2] note.schnorr = .ok out ∧
      inspectInput Q note.schnorr.comm out.1 out.2.1 (note.schnorr.responses.map (·.1)) = some input ∧
      Y.verify abarToBarFoldLabel hs note.folding = .ok ch ∧
      verifierInput P note.folding.schnorr.comm ch.1 ch.2 (note.folding.schnorr.responses.map (·.1)) = some fold ∧
      E.plonk par abarToBarLabel ([note.input, root] ++ (input ++ fold)) note.proof = true := by
  obtain ⟨-, -, h⟩ := (verifyAbarToBar_iff E Y par note root hs).mp h
  unfold ConvExt.checkAbarToBar at h
  rw [hc, Res.bind_ok] at h
  obtain ⟨out, ho, h⟩ := Res.bind_eq_ok.mp h
  obtain ⟨ch, hch, h⟩ := Res.bind_eq_ok.mp h
  obtain ⟨fold, hfold, h⟩ := Res.bind_eq_ok.mp h
  obtain ⟨input, hi, h⟩ := Res.bind_eq_ok.mp h
  obtain ⟨h3, _, _, _, _, _, hsh⟩ := fold_ok hch
  obtain ⟨l, hl, hv⟩ := fold_input_ok note.folding (by rw [hsh.2]; exact h3) ch
  rw [hfold] at hl
  obtain rfl := Res.ok.inj hl
  refine ⟨out, input, ch, fold, ho, ?_, hch, hv, ?_⟩
  · cases hu : inspectInput Q note.schnorr.comm out.1 out.2.1 (note.schnorr.responses.map (·.1)) with
    | none => rw [hu] at hi; cases hi
    | some l => rw [hu, Res.unwrap_some] at hi; rw [Res.ok.inj hi]
  · split at h
    · assumption
    · cases h

/-- C77, anonymous to confidential, for the whole amount: as `C77_abar_to_bar_conserves_partial`, for any opening of the two commitments
that the verifier computes from the new record, whatever its halves are. -/
theorem C77_abar_to_bar_whole (hp : GoodParams p) (dbg : Bool) (hP : FoldOk P F) (h : InspOk Q F) (hr : 2 ^ 240 ≤ Q.r)
    (modulus : Bytes) (hm : modulus.length = 32) (hf : false ∈ modulus.flatMap byteBits)
    (E : ConvExt S Q F Par Pf) (Y : FoldExt P F G Hs Mp) (par : Par) (wit : FoldWitness P F) (insp : InspWitness Q F) (s : Payer F)
    (hd : s.path.length = 20) (pk0 : PK F) (sk0 : SK F) (vars : AbarBarVars F FoldVars) (cs : CS F)
    (hb : buildAbarToBar p (foldingCircuit p dbg P modulus wit) dbg Q s pk0 sk0 insp CS.new = some (vars, cs))
    (X : Pf → Nat → F) (hX : Knows E par abarToBarLabel cs X)
    (r : BlindAssetRecord S) (nul root comm : F) (randomizers : List S.G) (responses : Fin 2 → List (ZMod Q.r × ZMod Q.r))
    (note : Fin 2 → Fin 2 → AbarToBarNote S P Q F Pf G Mp) (hs : Fin 2 → Fin 2 → Hs)
    (hnote : ∀ b l, (note b l).input = nul ∧ (note b l).output = r ∧ (note b l).schnorr = ⟨comm, randomizers, responses b⟩)
    (H : Fin 2 → Fin 2 → Tr (ZMod Q.r) S.G F → ZMod Q.r)
    (hacc : ∀ b l, ({ E with oracle := H b l } : ConvExt S Q F Par Pf).verifyAbarToBar Y par (note b l) root (hs b l) = .ok ())
    (o : Whole Q) (ho : o.Opens E r) (beta : Fin 2 → ZMod Q.r) (lambda : Fin 2 → Fin 2 → ZMod Q.r)
    (hbeta : ∀ b l, H b l (DelegatedSchnorr.point1 E.gens [.label abarToBarLabel, .bound nul]
      [(o.coms E.gens).1, (o.coms E.gens).2] comm randomizers) = beta b) (hne : beta 0 ≠ beta 1)
    (hlambda : ∀ b l, H b l (DelegatedSchnorr.point2 (DelegatedSchnorr.point1 E.gens [.label abarToBarLabel, .bound nul]
      [(o.coms E.gens).1, (o.coms E.gens).2] comm randomizers) (responses b)) = lambda b l)
    (hlne : ∀ b, lambda b 0 ≠ lambda b 1)
    (c : Merkle.Codec F) (ops : List (Merkle.Op F)) (hcap : Merkle.adds ops ≤ 3 ^ 20) (stored : List F)
    (hst : (Merkle.Spec.run ops).cur = leavesOf p stored) (t : Merkle.Tree)
    (ht : Merkle.runTree c (treeHash p) ops = some t) (hroot : t.getRoot c = some root) :
    let w := fun b l => X (note b l).proof
    (∃ (j : Nat) (ch : ZMod P.r × ZMod P.r), stored[j]? = some (commit p (pkVal (w 0 0) vars.spend.pk)
          (spentVal (w 0 0) vars.spend.payer).blind (o.amount : F) (o.ty : F)) ∧
        nul = nullify p (pkVal (w 0 0) vars.spend.pk) (skVal (w 0 0) vars.spend.sk) (j : F) (o.amount : F) (o.ty : F) ∧
        Y.verify abarToBarFoldLabel (hs 0 0) (note 0 0).folding = .ok ch ∧
        Folds p P (ofLE modulus) (note 0 0).folding.schnorr.comm ch.1 ch.2 ((note 0 0).folding.schnorr.responses.map (·.1))
          (pkVal (w 0 0) vars.spend.pk) (skVal (w 0 0) vars.spend.sk) (foldVal P (w 0 0) vars.fold)) ∨
      (∃ b l, SpendBreak p stored (pkVal (w b l) vars.spend.pk) (spentVal (w b l) vars.spend.payer)) ∨
      (∃ b l, Collide p ((inspVal Q (w 0 0) vars.insp).calls p Q) ((inspVal Q (w b l) vars.insp).calls p Q)) ∨
      Relation E.gens ((inspVal Q (w 0 0) vars.insp).x : ZMod Q.r) (o.amount : ZMod Q.r)
        o.blind (responses 0)[0]? (responses 1)[0]? (beta 0) (beta 1) ∨
      Relation E.gens ((inspVal Q (w 0 0) vars.insp).y : ZMod Q.r) (o.ty : ZMod Q.r) o.tyBlind
        (responses 0)[1]? (responses 1)[1]? (beta 0) (beta 1) := by
  intro w
  by_cases hbr : ∃ b l, SpendBreak p stored (pkVal (w b l) vars.spend.pk) (spentVal (w b l) vars.spend.payer)
  · exact .inr (.inl hbr)
  have run : ∀ b l, ∃ out, ∃ ch : ZMod P.r × ZMod P.r, ∃ j : Nat,
      DelegatedSchnorr.verify E.gens (H b l) [.label abarToBarLabel, .bound nul]
        [(o.coms E.gens).1, (o.coms E.gens).2] ⟨comm, randomizers, responses b⟩ = .ok out ∧ out.1 = beta b ∧
      stored[j]? = some (commit p (pkVal (w b l) vars.spend.pk) (spentVal (w b l) vars.spend.payer).blind
          ((inspVal Q (w b l) vars.insp).x : F) ((inspVal Q (w b l) vars.insp).y : F)) ∧
      nul = nullify p (pkVal (w b l) vars.spend.pk) (skVal (w b l) vars.spend.sk) (j : F) ((inspVal Q (w b l) vars.insp).x : F)
          ((inspVal Q (w b l) vars.insp).y : F) ∧
      Inspects p Q comm (beta b) (lambda b l) ((responses b).map (·.1)) (inspVal Q (w b l) vars.insp) ∧
      Y.verify abarToBarFoldLabel (hs b l) (note b l).folding = .ok ch ∧
      Folds p P (ofLE modulus) (note b l).folding.schnorr.comm ch.1 ch.2 ((note b l).folding.schnorr.responses.map (·.1))
          (pkVal (w b l) vars.spend.pk) (skVal (w b l) vars.spend.sk) (foldVal P (w b l) vars.fold) := by
    intro b l
    obtain ⟨n1, n2, n3⟩ := hnote b l
    obtain ⟨out, input, ch, fold, hv, hi, hch, hfo, hpl⟩ := abarToBar_ok (c := o.coms E.gens)
      (by rw [n2]; exact (show ({ E with oracle := H b l } : ConvExt S Q F Par Pf).recordComs r = _ from ho.2)) (hacc b l)
    rw [n1, n3] at hv
    rw [n3] at hi
    rw [n1] at hpl
    obtain ⟨e1, e2⟩ := schnorr_out hv
    have e1 : out.1 = beta b := e1.trans (hbeta b l)
    have e2 : out.2.1 = lambda b l := e2.trans (hlambda b l)
    obtain ⟨hl, hsat⟩ := hX _ _ hpl
    obtain ⟨t', ht', hin⟩ := C76_redeems_stored p hp dbg P Q hP h modulus hm hf wit insp s hd pk0 sk0 vars cs hb nul root input
      fold hl comm out.1 out.2.1 _ hi _ ch.1 ch.2 _ hfo (w b l) hsat c ops hcap stored hst
    rw [ht] at ht'
    obtain rfl := Option.some.inj ht'
    rcases hin hroot with ⟨j, h1, h2, h3, h4⟩ | hbad
    · rw [e1, e2] at h3
      exact ⟨out, ch, j, hv, e1, h1, h2, h3, hch, h4⟩
    · exact absurd ⟨b, l, hbad⟩ hbr
  choose out ch j hv e1 hj hn hin hch hfo using run
  rcases C75_inspection_links p Q h E.gens [.label abarToBarLabel, .bound nul] (o.coms E.gens).1 (o.coms E.gens).2 comm
    randomizers (fun b => H b 0) responses (fun b => out b 0) (fun b => hv b 0) (by rw [e1, e1]; exact hne) lambda hlne
    (fun b l => inspVal Q (w b l) vars.insp) (fun b l => by rw [e1]; exact hin b l) with hcc | ⟨-, o0, o1⟩
  · exact .inr (.inr (.inl hcc))
  · rw [e1, e1] at o0 o1
    obtain ⟨_, _, ⟨bx, by'⟩, -⟩ := hin 0 0
    rcases coms_opens E.gens o hr ho.1 _ _ bx by' _ _ _ _ _ _ o0 o1 with ⟨g1, g2⟩ | g
    · refine .inl ⟨j 0 0, ch 0 0, ?_, ?_, hch 0 0, hfo 0 0⟩
      · rw [hj 0 0, g1, g2]
      · rw [← g1, ← g2]
        exact hn 0 0
    · exact .inr (.inr (.inr g))

/-- C77, anonymous to confidential (special soundness).  As `C77_bar_to_abar_conserves`, for notes with one nullifier and one
new ordinary record, and a root of a tree of the accumulator after any history.  Whoever opens the new record opens it to
the amount and asset type of a stored commitment, the nullifier is the one of that record at its place, and its key is the
one folded into the first note's proof; or the proofs contain evidence against the permutation or the generators. -/
theorem C77_abar_to_bar_conserves_partial (hp : GoodParams p) (dbg : Bool) (hP : FoldOk P F) (h : InspOk Q F) (hr : 2 ^ 240 ≤ Q.r)
    (modulus : Bytes) (hm : modulus.length = 32) (hf : false ∈ modulus.flatMap byteBits)
    (E : ConvExt S Q F Par Pf) (Y : FoldExt P F G Hs Mp) (par : Par) (wit : FoldWitness P F) (insp : InspWitness Q F) (s : Payer F)
    (hd : s.path.length = 20) (pk0 : PK F) (sk0 : SK F) (vars : AbarBarVars F FoldVars) (cs : CS F)
    (hb : buildAbarToBar p (foldingCircuit p dbg P modulus wit) dbg Q s pk0 sk0 insp CS.new = some (vars, cs))
    (X : Pf → Nat → F) (hX : Knows E par abarToBarLabel cs X)
    (r : BlindAssetRecord S) (nul root comm : F) (randomizers : List S.G) (responses : Fin 2 → List (ZMod Q.r × ZMod Q.r))
    (note : Fin 2 → Fin 2 → AbarToBarNote S P Q F Pf G Mp) (hs : Fin 2 → Fin 2 → Hs)
    (hnote : ∀ b l, (note b l).input = nul ∧ (note b l).output = r ∧ (note b l).schnorr = ⟨comm, randomizers, responses b⟩)
    (H : Fin 2 → Fin 2 → Tr (ZMod Q.r) S.G F → ZMod Q.r)
    (hacc : ∀ b l, ({ E with oracle := H b l } : ConvExt S Q F Par Pf).verifyAbarToBar Y par (note b l) root (hs b l) = .ok ())
    (o : RecOpening Q) (ho : o.Opens E r) (beta : Fin 2 → ZMod Q.r) (lambda : Fin 2 → Fin 2 → ZMod Q.r)
    (hbeta : ∀ b l, H b l (DelegatedSchnorr.point1 E.gens [.label abarToBarLabel, .bound nul]
      [(o.coms E.gens).1, (o.coms E.gens).2] comm randomizers) = beta b) (hne : beta 0 ≠ beta 1)
    (hlambda : ∀ b l, H b l (DelegatedSchnorr.point2 (DelegatedSchnorr.point1 E.gens [.label abarToBarLabel, .bound nul]
      [(o.coms E.gens).1, (o.coms E.gens).2] comm randomizers) (responses b)) = lambda b l)
    (hlne : ∀ b, lambda b 0 ≠ lambda b 1)
    (c : Merkle.Codec F) (ops : List (Merkle.Op F)) (hcap : Merkle.adds ops ≤ 3 ^ 20) (stored : List F)
    (hst : (Merkle.Spec.run ops).cur = leavesOf p stored) (t : Merkle.Tree)
    (ht : Merkle.runTree c (treeHash p) ops = some t) (hroot : t.getRoot c = some root) :
    let w := fun b l => X (note b l).proof
    (∃ (j : Nat) (ch : ZMod P.r × ZMod P.r), stored[j]? = some (commit p (pkVal (w 0 0) vars.spend.pk)
          (spentVal (w 0 0) vars.spend.payer).blind (o.amount : F) (o.ty : F)) ∧
        nul = nullify p (pkVal (w 0 0) vars.spend.pk) (skVal (w 0 0) vars.spend.sk) (j : F) (o.amount : F) (o.ty : F) ∧
        Y.verify abarToBarFoldLabel (hs 0 0) (note 0 0).folding = .ok ch ∧
        Folds p P (ofLE modulus) (note 0 0).folding.schnorr.comm ch.1 ch.2 ((note 0 0).folding.schnorr.responses.map (·.1))
          (pkVal (w 0 0) vars.spend.pk) (skVal (w 0 0) vars.spend.sk) (foldVal P (w 0 0) vars.fold)) ∨
      (∃ b l, SpendBreak p stored (pkVal (w b l) vars.spend.pk) (spentVal (w b l) vars.spend.payer)) ∨
      (∃ b l, Collide p ((inspVal Q (w 0 0) vars.insp).calls p Q) ((inspVal Q (w b l) vars.insp).calls p Q)) ∨
      Relation E.gens ((inspVal Q (w 0 0) vars.insp).x : ZMod Q.r) (o.amount : ZMod Q.r)
        (o.blinds.1 + 2 ^ 32 * o.blinds.2) (responses 0)[0]? (responses 1)[0]? (beta 0) (beta 1) ∨
      Relation E.gens ((inspVal Q (w 0 0) vars.insp).y : ZMod Q.r) (o.ty : ZMod Q.r) o.tyBlind
        (responses 0)[1]? (responses 1)[1]? (beta 0) (beta 1) :=
  C77_abar_to_bar_whole p hp dbg hP h hr modulus hm hf E Y par wit insp s hd pk0 sk0 vars cs hb X hX r nul root comm randomizers
    responses note hs hnote H hacc o.whole (opens_whole ho) beta lambda hbeta hne hlambda hlne c ops hcap stored hst t ht hroot

/-! ### What is not checked -/

omit [DecidableEq F] [ScalarRepr F] [Fact P.r.Prime] [AddCommGroup G] [DecidableEq G] [Module (ZMod P.r) G] [DecidableEq S.G] in
/-- the commitments the verifiers use do not determine the halves of the amount -/
theorem recordComs_shift (E : ConvExt S Q F Par Pf) (key : S.PK) (ty : Xfr.XfrAssetType S) (c d c' d' : S.CG) (gc gd k : S.G)
    (hc : E.decompress c = some gc) (hd : E.decompress d = some gd)
    (hc' : E.decompress c' = some (gc + ((2 ^ 32 : Nat) : ZMod Q.r) • k)) (hd' : E.decompress d' = some (gd - k)) :
    E.recordComs ⟨.conf c' d', ty, key⟩ = E.recordComs ⟨.conf c d, ty, key⟩ := by
  unfold ConvExt.recordComs ConvExt.amountComs ConvExt.typeCom
  simp only [hc, hd, hc', hd', Res.ofOption_some, Res.bind_ok, Res.pure_eq]
  have : gc + ((2 ^ 32 : Nat) : ZMod Q.r) • k + ((2 ^ 32 : Nat) : ZMod Q.r) • (gd - k) = gc + ((2 ^ 32 : Nat) : ZMod Q.r) • gd := by
    rw [smul_sub]
    abel
  rw [this]

omit [ScalarRepr F] in
/-- C77 is violated for the two halves of the new record: nothing checks that they have 32 bits.  With every accepted note, the
notes are accepted whose first commitment is raised by `2^32` times any point `k`, and whose second is lowered by `k`. -/
theorem C77_halves_unchecked (E : ConvExt S Q F Par Pf) (Y : FoldExt P F G Hs Mp) (par : Par)
    (note : AbarToBarNote S P Q F Pf G Mp) (root : F) (hs : Hs) (c d c' d' : S.CG) (gc gd k : S.G)
    (ha : note.output.amount = .conf c d) (hc : E.decompress c = some gc) (hd : E.decompress d = some gd)
    (hc' : E.decompress c' = some (gc + ((2 ^ 32 : Nat) : ZMod Q.r) • k)) (hd' : E.decompress d' = some (gd - k))
    (hacc : E.verifyAbarToBar Y par note root hs = .ok ()) :
    E.verifyAbarToBar Y par { note with output := { note.output with amount := .conf c' d' } } root hs = .ok () := by
  obtain ⟨input, ⟨amount, ty, key⟩, sch, rt, pf, fo⟩ := note
  simp only at ha
  subst ha
  obtain ⟨h1, h2, h3⟩ := (verifyAbarToBar_iff ..).mp hacc
  refine (verifyAbarToBar_iff ..).mpr ⟨by simp [bothPlain, Xfr.XfrAmount.isConfidential], h2, ?_⟩
  unfold ConvExt.checkAbarToBar at h3 ⊢
  simp only [recordComs_shift E key ty c d c' d' gc gd k hc hd hc' hd'] at h3 ⊢
  exact h3

end

end

end Verif.Anon
