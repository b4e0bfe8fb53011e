import Verif.Setup.Live
import Verif.Anon.Labels

/-!
C82 for the PLONK proofs of notes with the verifier of Snark/Model.lean: a verdict on a note depends on the hash only at transcripts that
begin as those of its own kind of note, and no transcript begins as those of two kinds.
-/

namespace Verif.Setup

open Verif.Poly Verif.Plonk Verif.Snark Verif.Anon
open Verif.AnonCreds (Pairing)

/-- the PLONK proofs of anonymous notes -/
inductive PlonkKind
  | transfer (n m : Nat)
  | arToAbar
  | abarToAr
  | barToAbar
  | abarToBar

/-- the same proofs among all proofs of notes -/
def PlonkKind.proof : PlonkKind → NoteProof
  | .transfer n m => .transfer n m
  | .arToAbar => .arToAbar
  | .abarToAr => .abarToAr
  | .barToAbar => .barToAbar
  | .abarToBar => .abarToBar

section
variable {F C : Type} [Field F] [DecidableEq F] {n : Nat}

omit [DecidableEq F] in
theorem find_congr {f g : Nat → F} (hf : ∃ i, f i ^ n ≠ 1) (hg : ∃ i, g i ^ n ≠ 1) (h : f = g) [DecidablePred fun i => f i ^ n ≠ 1]
    [DecidablePred fun i => g i ^ n ≠ 1] : f (Nat.find hf) = g (Nat.find hg) := by
  subst h
  congr 2

theorem challenge_own {O O' : Oracle F C n} {tr0 tr : Tr F C} (h : ∀ t, tr0 <+: t → O.draw t = O'.draw t) (hp : tr0 <+: tr) (label : String) :
    challenge O tr label = challenge O' tr label ∧ tr0 <+: (challenge O' tr label).2 := by
  have hp' : tr0 <+: tr ++ [.challenge label] := hp.trans (List.prefix_append _ _)
  refine ⟨?_, hp'⟩
  simp only [challenge]
  rw [find_congr (O.live _) (O'.live _) (h _ hp')]

variable {G1 G2 Gt : Type} [AddCommGroup G1] [AddCommGroup G2] [Module F G1] [Module F G2] [AddCommGroup Gt] [Module F Gt] [DecidableEq Gt]

/-- the verifier asks the oracle only for transcripts that begin with the one it was given, its key and the public inputs -/
theorem verifier_own {O O' : Oracle F G1 n} (P : Pairing F G1 G2 Gt) (pp : Params G1 G2) (tr : Tr F G1) (vk : VK G1 F) (pi : List F)
    (proof : Snark.Proof G1 F) (h : ∀ t, initPlonk tr vk pi <+: t → O.draw t = O'.draw t) :
    verifier O P pp tr vk pi proof = verifier O' P pp tr vk pi proof := by
  have app : ∀ {a b : Tr F G1} (c), a <+: b → a <+: b ++ c := fun c h => h.trans (List.prefix_append _ c)
  have key : computeChallenges O (initPlonk tr vk pi) proof = computeChallenges O' (initPlonk tr vk pi) proof ∧
      initPlonk tr vk pi <+: (computeChallenges O' (initPlonk tr vk pi) proof).2 := by
    simp only [computeChallenges, appendCommitment]
    obtain ⟨e1, p1⟩ := challenge_own h (app (proof.cmW.map .commitment) (List.prefix_rfl)) "beta"
    rw [e1]
    obtain ⟨e2, p2⟩ := challenge_own h p1 "gamma"
    rw [e2]
    obtain ⟨e3, p3⟩ := challenge_own h (app [.commitment proof.cmZ] p2) "alpha"
    rw [e3]
    obtain ⟨e4, p4⟩ := challenge_own h (app (proof.cmT.map .commitment) p3) "zeta"
    rw [e4]
    obtain ⟨e5, p5⟩ := challenge_own h (app [.field proof.zEv] (app ((proof.wEv ++ proof.sEv).map .field) p4)) "u"
    rw [e5]
    exact ⟨rfl, p5⟩
  obtain ⟨e, p⟩ := key
  have hb : ∀ cms bound point evals, batch O.draw (computeChallenges O' (initPlonk tr vk pi) proof).2 cms bound point evals =
      batch O'.draw (computeChallenges O' (initPlonk tr vk pi) proof).2 cms bound point evals := by
    intro cms bound point evals
    simp only [batch, challengeField, initBatchEval]
    rw [h _ (app _ (app _ p))]
  simp only [verifier, e, verifierWith, hb]

end

section
variable {G1 G2 Gt : Type} [AddCommGroup G1] [AddCommGroup G2] [Module Fr G1] [Module Fr G2] [AddCommGroup Gt] [Module Fr Gt]
  [DecidableEq Gt]

/-- with what the verifiers of notes (`liveExt`, `liveXfrExt`) begin -/
def PlonkKind.start : PlonkKind → Tr Fr G1
  | .transfer n m => startXfr (xfrTranscript n m)
  | .arToAbar => Setup.start arToAbarLabel
  | .abarToAr => Setup.start abarToArLabel
  | .barToAbar => Setup.start barToAbarLabel
  | .abarToBar => Setup.start abarToBarLabel

omit [AddCommGroup G1] [Module Fr G1] in
/-- C82: no transcript begins as those of two kinds of notes, with two numbers of inputs or with two numbers of outputs. -/
theorem C82_live_kinds (a b : PlonkKind) (ha : a.proof.Fits) (hb : b.proof.Fits) (t : Tr Fr G1) (h1 : a.start <+: t) (h2 : b.start <+: t) :
    a = b := by
  obtain ⟨s, rfl⟩ := h1
  obtain ⟨s', h⟩ := h2
  cases a with
  | transfer n m =>
    cases b with
    | transfer n' m' =>
      simp only [PlonkKind.start, startXfr, xfrTranscript, List.map_cons, List.map_nil, List.cons_append, List.cons.injEq, Msg.u64.injEq,
        true_and] at h
      have e : ∀ x y : Nat, x < 2 ^ 64 → y < 2 ^ 64 → (UInt64.ofNat x).toNat = (UInt64.ofNat y).toNat → x = y := by
        intro x y hx hy hxy
        simp only [UInt64.toNat_ofNat'] at hxy
        omega
      rw [e _ _ hb.1 ha.1 h.1, e _ _ hb.2 ha.2 h.2.1]
    | _ => simp [PlonkKind.start, startXfr, Setup.start, xfrTranscript, arToAbarLabel, abarToArLabel, barToAbarLabel, abarToBarLabel] at h
  | _ =>
    cases b <;> simp [PlonkKind.start, startXfr, Setup.start, xfrTranscript, arToAbarLabel, abarToArLabel, barToAbarLabel, abarToBarLabel] at h ⊢

/-- C82: The verdict of the PLONK verifier on a note of one kind depends on the hash only where transcripts begin as those of this kind:
with another hash that agrees there, whatever it returns for all the other kinds of notes, every proof gets the same verdict. -/
theorem C82_live_verdict (P : Pairing Fr G1 G2 Gt) (O O' : Source G1) (k : PlonkKind)
    (h : ∀ t, (k.start : Tr Fr G1) <+: t → O.draw t = O'.draw t) (w : VerifierParams Fr G1 G2) (pi : List Fr) (pf : Snark.Proof G1 Fr) :
    verifyPlonk P O w k.start pi pf = verifyPlonk P O' w k.start pi pf := by
  unfold verifyPlonk
  split_ifs with hs
  · rw [VerifierParams.verify, VerifierParams.verify]
    rw [verifier_own (O := O.sized w.cs.size hs) (O' := O'.sized w.cs.size hs)]
    intro t ht
    refine h t (List.IsPrefix.trans ?_ ht)
    simp only [initPlonk, List.append_assoc]
    exact List.prefix_append _ _
  · rfl

/-- C82: and so with the verifiers of conversions and of transfers as a whole. -/
theorem C82_live_notes {S : Xfr.Types} {Q : SimFr.Params} (P : Pairing Fr G1 G2 Gt) (O O' : Source G1)
    (X : ConvExt S Q Fr (Pars G1 G2) (Snark.Proof G1 Fr)) (par : Pars G1 G2) (pi : List Fr) (pf : Snark.Proof G1 Fr) :
    (∀ k l, (k, l) ∈ [(PlonkKind.arToAbar, arToAbarLabel), (.abarToAr, abarToArLabel), (.barToAbar, barToAbarLabel), (.abarToBar, abarToBarLabel)] →
      (∀ t, (k.start : Tr Fr G1) <+: t → O.draw t = O'.draw t) →
      (liveExt P O X).plonk par l pi pf = (liveExt P O' X).plonk par l pi pf) ∧
    ∀ n m, (∀ t, ((PlonkKind.transfer n m).start : Tr Fr G1) <+: t → O.draw t = O'.draw t) →
      (liveXfrExt P O).plonk par (xfrTranscript n m) pi pf = (liveXfrExt P O').plonk par (xfrTranscript n m) pi pf := by
  refine ⟨fun k l hk h => ?_, fun n m h => C82_live_verdict P O O' (.transfer n m) h par.2 pi pf⟩
  have hv := C82_live_verdict P O O' k h par.2 pi pf
  simp only [List.mem_cons, Prod.mk.injEq, List.not_mem_nil, or_false] at hk
  rcases hk with ⟨rfl, rfl⟩ | ⟨rfl, rfl⟩ | ⟨rfl, rfl⟩ | ⟨rfl, rfl⟩ <;> exact hv

end

/-- C82: two hashes that differ for the conversion in the other direction, and give the same verdicts on this one -/
example (P : Pairing Fr Fr Fr Fr) : ∃ O O' : Source Fr, (∀ t, (PlonkKind.arToAbar.start : Tr Fr Fr) <+: t → O.draw t = O'.draw t) ∧
    O.draw PlonkKind.abarToAr.start ≠ O'.draw PlonkKind.abarToAr.start ∧
    ∀ w pi pf, verifyPlonk P O w PlonkKind.arToAbar.start pi pf = verifyPlonk P O' w PlonkKind.arToAbar.start pi pf := by
  classical
  have h0 : ∀ n : Nat, 0 < n → (0 : Fr) ^ n ≠ 1 := fun n hn => by rw [zero_pow (by omega)]; exact zero_ne_one
  let O : Source Fr := ⟨fun _ _ => 0, fun _ n hn _ => ⟨0, h0 n hn⟩⟩
  let O' : Source Fr := ⟨fun t i => if (PlonkKind.arToAbar.start : Tr Fr Fr) <+: t then 0 else if i = 0 then 1 else 0, fun t n hn _ =>
    ⟨1, by simp only [one_ne_zero, if_false, ite_self]; exact h0 n hn⟩⟩
  have h : ∀ t, (PlonkKind.arToAbar.start : Tr Fr Fr) <+: t → O.draw t = O'.draw t := fun t ht => by
    funext i
    exact (if_pos ht).symm
  refine ⟨O, O', h, fun e => ?_, C82_live_verdict P O O' _ h⟩
  have e := congrFun e 0
  have hne : ¬ (PlonkKind.arToAbar.start : Tr Fr Fr) <+: PlonkKind.abarToAr.start := fun hp => by
    have := C82_live_kinds (G1 := Fr) .arToAbar .abarToAr trivial trivial _ hp List.prefix_rfl
    cases this
  simp only [O, O', if_neg hne, if_true] at e
  exact zero_ne_one e

end Verif.Setup
