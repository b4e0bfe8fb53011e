import Verif.Setup.FileCodec
import Verif.Setup.LiveExamples

/-!
C101, end to end: setup with an honest reference string, the files that `gen-params` writes with `bincode`, and the loaders.
-/

namespace Verif.Setup

open Verif.Poly Verif.Plonk Verif.Snark Verif.Anon
open Verif.AnonCreds (Pairing)

variable {G1 G2 Gt : Type} [AddCommGroup G1] [AddCommGroup G2] [AddCommGroup Gt] [Module Fr G1] [Module Fr G2] [Module Fr Gt] [DecidableEq Gt]

/-- C101: with an honest reference string of the shipped degree `gen-params` writes the two files of transfers, and for one to six inputs
and outputs the loader, which may lack the reference string, gets from them exactly the parameters that setup makes, cut down for verifiers.
Nothing else can be read from a file that was cut off: the common part gives an error. -/
theorem C101_transfer_files {P : Pairing Fr G1 G2 Gt} {E : Env Fr G1 G2} {d : Nat} {s : Fr} (H : HonestEnv P E d s) (hd : 32770 ≤ d)
    (O : Obj Fr) (O1 : Obj G1) (O2 : Obj G2) (L : O.Laws) (L1 : O1.Laws) (L2 : O2.Laws) (dbg : Bool) (feeType : Fr)
    (E' : Env Fr G1 G2) (circuit' : Nat → Nat → Nat → Option (CS Fr)) :
    ∃ common specific, E.genTransfer (transferBins O O1 O2) (transferCs Rescue.blsParams dbg SimFr.secq256k1 secpOrderBytes feeType) =
        .ok (common, specific) ∧ ∀ n m, 1 ≤ n → n ≤ 6 → 1 ≤ m → m ≤ 6 →
      (∃ v w, E.create (transferCs Rescue.blsParams dbg SimFr.secq256k1 secpOrderBytes feeType) n m (some 20) = .ok v ∧
        v.shrink = .ok w ∧ ∀ t u, E'.load (transferBins O O1 O2) circuit' (some (common ++ t)) (some (specific ++ u)) n m = .ok w) ∧
      (∀ p t u, common = p ++ t → t ≠ [] → E'.load (transferBins O O1 O2) circuit' (some p) u n m =
        if u.isSome then .err else E'.create circuit' n m (some 20)) := by
  obtain ⟨hC, hCw, h1, h2, h3, hw⟩ := C101_lawful O O1 O2 L L1 L2
  obtain ⟨⟨⟨common, specific⟩, hgen⟩, -⟩ := C94_files H hd (transferBins O O1 O2) hw (paramsBin O O1 O2) hCw dbg feeType (defaultPk Fr)
  have hg := hgen
  rw [Env.genTransfer] at hg
  obtain ⟨v0, -, hg⟩ := Res.bind_eq_ok.mp hg
  obtain ⟨⟨pcs, sp0⟩, -, hg⟩ := Res.bind_eq_ok.mp hg
  obtain ⟨table, -, hg⟩ := Res.bind_eq_ok.mp hg
  obtain ⟨file1, hf1, hg⟩ := Res.bind_eq_ok.mp hg
  obtain ⟨file2, hf2, hg⟩ := Res.bind_eq_ok.mp hg
  simp only [Res.pure_eq, Res.ok.injEq, Prod.mk.injEq] at hg
  obtain ⟨rfl, rfl⟩ := hg
  have hf1 := unwrap_ok hf1
  have hf2 := unwrap_ok hf2
  refine ⟨file1, file2, hgen, fun n m a b c e => ⟨?_, ?_⟩⟩
  · obtain ⟨v, w, e1, e2, e3⟩ := C88_load E E' _ h1 h2 h3 _ circuit' _ _ hgen n m a b c e
    refine ⟨v, w, e1, e2, fun t u => ?_⟩
    have r1 : ∀ t, (transferBins O O1 O2).common.de (file1 ++ t) = some pcs := fun t => (back_key L1 L2).run pcs file1 t hf1
    have r2 : ∀ t, (transferBins O O1 O2).table.de (file2 ++ t) = some table := fun t => back_table.run table file2 t hf2
    have r1' := r1 []
    have r2' := r2 []
    rw [List.append_nil] at r1' r2'
    rw [← e3, Env.load, Env.load, if_neg (by simp only [maxRecords]; omega), if_neg (by simp only [maxRecords]; omega)]
    simp only [r1 t, r2 u, r1', r2']
  · intro p t u hp ht
    have r : (transferBins O O1 O2).common.de p = none := (back_key L1 L2).cut (ext_key O1 O2) pcs p t (hp ▸ hf1) ht
    unfold Env.load
    rw [if_neg (by simp only [maxRecords]; omega)]
    cases u with
    | none => rfl
    | some u =>
      show (Res.ofOption ((transferBins O O1 O2).common.de p) >>= _) = _
      rw [r]
      rfl

/-- C101, violated: the table of a file that was cut off is unwrapped, so that the loader panics where the common part gives an error. -/
theorem C101_cut_table_violated {P : Pairing Fr G1 G2 Gt} {E : Env Fr G1 G2} {d : Nat} {s : Fr} (H : HonestEnv P E d s) (hd : 32770 ≤ d)
    (O : Obj Fr) (O1 : Obj G1) (O2 : Obj G2) (L : O.Laws) (L1 : O1.Laws) (L2 : O2.Laws) (dbg : Bool) (feeType : Fr)
    (E' : Env Fr G1 G2) (circuit' : Nat → Nat → Nat → Option (CS Fr)) :
    ∃ common specific, E.genTransfer (transferBins O O1 O2) (transferCs Rescue.blsParams dbg SimFr.secq256k1 secpOrderBytes feeType) =
        .ok (common, specific) ∧ specific ≠ [] ∧ ∀ p t, specific = p ++ t → t ≠ [] → ∀ n m, n ≤ 6 → m ≤ 6 →
      E'.load (transferBins O O1 O2) circuit' (some common) (some p) n m = .panic := by
  obtain ⟨hC, hCw, h1, h2, h3, hw⟩ := C101_lawful O O1 O2 L L1 L2
  obtain ⟨⟨⟨common, specific⟩, hgen⟩, -⟩ := C94_files H hd (transferBins O O1 O2) hw (paramsBin O O1 O2) hCw dbg feeType (defaultPk Fr)
  have hg := hgen
  rw [Env.genTransfer] at hg
  obtain ⟨v0, -, hg⟩ := Res.bind_eq_ok.mp hg
  obtain ⟨⟨pcs, sp0⟩, -, hg⟩ := Res.bind_eq_ok.mp hg
  obtain ⟨table, -, hg⟩ := Res.bind_eq_ok.mp hg
  obtain ⟨file1, hf1, hg⟩ := Res.bind_eq_ok.mp hg
  obtain ⟨file2, hf2, hg⟩ := Res.bind_eq_ok.mp hg
  simp only [Res.pure_eq, Res.ok.injEq, Prod.mk.injEq] at hg
  obtain ⟨rfl, rfl⟩ := hg
  have hf1 := unwrap_ok hf1
  have hf2 := unwrap_ok hf2
  refine ⟨file1, file2, hgen, ?_, fun p t hp ht n m a b => ?_⟩
  · rintro rfl
    have : runReader (rSeq (rSeq (rSeq Serde.bincodeIn.u8))) [] = some table := h3 table [] hf2
    cases this
  · have r : (transferBins O O1 O2).table.de p = none := back_table.cut ext_table table p t (hp ▸ hf2) ht
    rw [Env.load, if_neg (by simp only [maxRecords]; omega)]
    simp only [h1 pcs file1 hf1, r]
    rfl

/-- C101: the same for the files of the four conversions. -/
theorem C101_conversion_files {P : Pairing Fr G1 G2 Gt} {E : Env Fr G1 G2} {d : Nat} {s : Fr} (H : HonestEnv P E d s) (hd : 32770 ≤ d)
    (O : Obj Fr) (O1 : Obj G1) (O2 : Obj G2) (L : O.Laws) (L1 : O1.Laws) (L2 : O2.Laws) (dbg : Bool) (pk : Anon.PK Fr)
    (q' : Res (ProverParams Fr G1 G2)) :
    ∀ q ∈ [E.proverLast (arToAbarCs Rescue.blsParams pk), E.proverFirst (barToAbarCs Rescue.blsParams dbg SimFr.ristretto pk),
        E.proverLast (abarToArCs Rescue.blsParams dbg SimFr.secq256k1 secpOrderBytes 20),
        E.proverLast (abarToBarCs Rescue.blsParams dbg SimFr.secq256k1 SimFr.ristretto secpOrderBytes 20)],
      ∃ file par w, q = .ok par ∧ genConversion (paramsBin O O1 O2) q = .ok file ∧ (VerifierParams.ofProver par).shrink = .ok w ∧
        (∀ t, loadConversion (paramsBin O O1 O2) (some (file ++ t)) q' = .ok w) ∧
        ∀ p t, file = p ++ t → t ≠ [] → loadConversion (paramsBin O O1 O2) (some p) q' = .err := by
  obtain ⟨hC, hCw, h1, h2, h3, hw⟩ := C101_lawful O O1 O2 L L1 L2
  obtain ⟨-, f1, f2, f3, f4⟩ := C94_files H hd (transferBins O O1 O2) hw (paramsBin O O1 O2) hCw dbg 0 pk
  have key : ∀ q : Res (ProverParams Fr G1 G2), (∃ file, genConversion (paramsBin O O1 O2) q = .ok file) →
      ∃ file par w, q = .ok par ∧ genConversion (paramsBin O O1 O2) q = .ok file ∧ (VerifierParams.ofProver par).shrink = .ok w ∧
        (∀ t, loadConversion (paramsBin O O1 O2) (some (file ++ t)) q' = .ok w) ∧
        ∀ p t, file = p ++ t → t ≠ [] → loadConversion (paramsBin O O1 O2) (some p) q' = .err := by
    rintro q ⟨file, hf⟩
    have hg := hf
    rw [genConversion] at hg
    obtain ⟨par, e1, hg⟩ := Res.bind_eq_ok.mp hg
    obtain ⟨w, e2, hg⟩ := Res.bind_eq_ok.mp hg
    obtain ⟨c1, c2⟩ := C101_params_file O O1 O2 L L1 L2 w file (unwrap_ok hg)
    refine ⟨file, par, w, unwrapRes_ok e1, hf, unwrapRes_ok e2, fun t => ?_, fun p t hp ht => ?_⟩
    · rw [loadConversion, c1 t]
      rfl
    · rw [loadConversion, c2 p t hp ht]
      rfl
  exact List.forall_mem_cons.mpr ⟨key _ f1, List.forall_mem_cons.mpr ⟨key _ f2, List.forall_mem_cons.mpr ⟨key _ f3,
    List.forall_mem_cons.mpr ⟨key _ f4, fun _ h => absurd h List.not_mem_nil⟩⟩⟩⟩

/-- the hypotheses are met by the reference string of C94 and the scalars of the code -/
example : ∃ common specific, envFr.genTransfer (transferBins (F := Fr) scalarObj scalarObj scalarObj)
      (transferCs Rescue.blsParams true SimFr.secq256k1 secpOrderBytes 0) = .ok (common, specific) ∧
    ∃ w, envFr.load (transferBins (F := Fr) scalarObj scalarObj scalarObj) (fun _ _ _ => none) (some (common ++ [7])) (some specific) 3 2 = .ok w := by
  obtain ⟨c, sp, h, h'⟩ := C101_transfer_files envFr_honest le_rfl scalarObj scalarObj scalarObj scalarObj_laws scalarObj_laws scalarObj_laws true 0
    envFr (fun _ _ _ => none)
  obtain ⟨⟨v, w, -, -, hw⟩, -⟩ := h' 3 2 (by omega) (by omega) (by omega) (by omega)
  have := hw [7] []
  rw [List.append_nil] at this
  exact ⟨c, sp, h, w, this⟩

/-- the system of a verifier as bytes, with scalars of one byte -/
example : (ParCs.shrunk 300 512 : ParCs (ZMod 97)).write obj97 = some
    (List.replicate 48 0 ++ (List.replicate 50 [1, 0, 0, 0, 0, 0, 0, 0, 0]).flatten ++ List.replicate 8 0 ++
      [44, 1, 0, 0, 0, 0, 0, 0, 0, 2, 0, 0, 0, 0, 0, 0] ++ List.replicate 24 0 ++ [1] ++ List.replicate 8 0) := by decide +kernel

end Verif.Setup
