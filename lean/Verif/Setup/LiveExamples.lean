import Verif.Setup.Live
import Verif.Setup.End
import Verif.Anon.XfrNoteExamples
import Mathlib.RingTheory.Polynomial.Cyclotomic.Roots

/-!
The hypotheses of the theorems of Live.lean are met: a reference string of the shipped degree with the Lagrange bases of the shipped
sizes, over a pairing on the scalar field itself; and for every fixed set of bad challenges there is an oracle that avoids it.
-/

namespace Verif.Setup

open Verif.Poly Verif.Plonk Verif.Snark Verif.Anon
open Verif.Plonk.Spec (Sat)
open Verif.Anon.Spec (Fit info)
open Verif.AnonCreds (Pairing)

def pairFr : Pairing Fr Fr Fr Fr where
  base1 := 1
  base2 := 1
  e a b := a * b
  add_left := by intros; ring
  add_right := by intros; ring
  smul_left := by intros; simp [mul_assoc]
  smul_right := by intros; simp; ring

theorem pairFr_nonDegenerate : NonDegenerate pairFr where
  separates := by intro a h; simpa [pairFr] using h
  base := by simp [pairFr]

/-- elements of the field in 32 bytes -/
def rawFr : Raw Fr := ⟨32, fun x => leBytes 32 x.val, fun b => some (ofLE b : Fr)⟩

theorem rawFr_laws : rawFr.Laws := by
  refine ⟨fun _ => leBytes_length _ _, fun g => ?_⟩
  have hlt : g.val < 256 ^ 32 := lt_trans (ZMod.val_lt g) (by decide +kernel)
  show some ((ofLE (leBytes 32 g.val) : Nat) : Fr) = some g
  rw [ofLE_leBytes_of_lt hlt, ZMod.natCast_zmod_val]

/-- the files of the code over the scalars -/
theorem binsFr : ∃ (B : Bin (VerifierParams Fr Fr Fr)) (T : FileBins Fr Fr Fr), B.Lawful ∧ B.Writes ∧ T.common.Lawful ∧ T.specific.Lawful ∧
    T.table.Lawful ∧ T.Writes :=
  ⟨_, _, C101_lawful (F := Fr) scalarObj scalarObj scalarObj scalarObj_laws scalarObj_laws scalarObj_laws⟩

/-- the reference string of the shipped degree for the secret 5, with the Lagrange bases of the four shipped sizes -/
noncomputable def envFr : Env Fr Fr Fr where
  srs := some (toUnchecked rawFr rawFr (setup pairFr 32770 5) ++ [])
  bases n := if n = 4096 ∨ n = 8192 ∨ n = 16384 ∨ n = 32768 then
    some (leBytes 4 n ++ (basisPoints pairFr 5 n).flatMap rawFr.ser ++ []) else none
  raw1 := rawFr
  raw2 := rawFr
  msm s g := .ok (List.zipWith (fun a b => a • b) s g).sum
  rootOf := primitiveRoot Bls.r 7 (blsPow fun x l => x ^ Nat.ofDigits (2 ^ 64) l)
  k := (List.range 5).map kappa

theorem envFr_honest : HonestEnv pairFr envFr 32770 5 where
  msm := fun _ _ _ => rfl
  raw1 := rawFr_laws
  raw2 := rawFr_laws
  small := by norm_num
  srs := ⟨[], rfl⟩
  root := ⟨_, fun _ _ => rfl, rfl⟩
  reps := rfl
  bases := by
    intro n b h
    simp only [envFr] at h
    split at h
    next hn =>
      refine ⟨by omega, by omega, [], (Option.some.inj h).symm⟩
    · cases h

/-- draws `g` for the challenge `gamma` and zero otherwise -/
noncomputable def luckySource (g : Fr) : Source Fr where
  draw tr i := by
    classical
    exact if i = 0 ∧ tr.getLast? = some (.challenge "gamma") then g else 0
  live tr n hn _ := ⟨1, by simp [zero_pow (Nat.pos_iff_ne_zero.mp hn)]⟩

theorem lucky (q : ProverParams Fr Fr Fr) (h1 : 0 < q.cs.gates.length) (h2 : q.cs.gates.length ≤ 2 ^ 15) (tr : Tr Fr Fr)
    (online : List Fr) (cmW : List Fr) (bad : Fr → Finset Fr) (hb : ∀ beta, (bad beta).card ≤ 5 * 2 ^ 15) :
    ∃ O : Source Fr, (drawn O q tr online cmW).2 ∉ bad (drawn O q tr online cmW).1 := by
  classical
  set n := q.cs.gates.length with hn
  have hroots : (Polynomial.nthRoots n (1 : Fr)).toFinset.card ≤ 2 ^ 15 :=
    le_trans (Multiset.toFinset_card_le _) (le_trans (Polynomial.card_nthRoots n 1) h2)
  obtain ⟨g, hg⟩ : ∃ g : Fr, g ∉ bad 0 ∪ (Polynomial.nthRoots n (1 : Fr)).toFinset := by
    by_contra hcon
    push Not at hcon
    have hu : bad 0 ∪ (Polynomial.nthRoots n (1 : Fr)).toFinset = Finset.univ := Finset.eq_univ_iff_forall.mpr hcon
    have hcard := Finset.card_union_le (bad 0) (Polynomial.nthRoots n (1 : Fr)).toFinset
    rw [hu, Finset.card_univ, ZMod.card] at hcard
    have hbig : 6 * 2 ^ 15 < Bls.r := by decide +kernel
    have := hb 0
    omega
  rw [Finset.mem_union, not_or, Multiset.mem_toFinset, Polynomial.mem_nthRoots h1] at hg
  refine ⟨luckySource g, ?_⟩
  have hsz : 0 < q.cs.gates.length ∧ q.cs.gates.length ≤ 2 ^ 32 := ⟨h1, le_trans h2 (by norm_num)⟩
  have c1 : ∀ tr', (challenge ((luckySource g).sized q.cs.gates.length hsz) tr' "beta").1 = 0 := by
    intro tr'
    unfold challenge luckySource Source.sized
    simp
  have c2 : ∀ tr', (challenge ((luckySource g).sized q.cs.gates.length hsz) tr' "gamma").1 = g := by
    intro tr'
    unfold challenge
    simp only
    have hf : Nat.find (((luckySource g).sized q.cs.gates.length hsz).live (tr' ++ [.challenge "gamma"])) = 0 := by
      rw [Nat.find_eq_zero]
      simp only [luckySource, Source.sized, List.getLast?_append, List.getLast?_singleton, Option.some_or, true_and, if_true]
      exact hg.2
    rw [hf]
    simp only [luckySource, Source.sized, List.getLast?_append, List.getLast?_singleton, Option.some_or, true_and, if_true]
  unfold drawn
  rw [dif_pos hsz]
  simp only [c1, c2]
  exact hg.1

theorem finish_cs {E : Env Fr Fr Fr} {srs : Bytes} {cs : CS Fr} {q : ProverParams Fr Fr Fr} (h : E.finish srs cs = .ok q) : q.cs = cs := by
  rw [Env.finish] at h
  obtain ⟨_, -, h⟩ := Res.bind_eq_ok.mp h
  obtain ⟨_, -, h⟩ := Res.bind_eq_ok.mp h
  obtain ⟨_, -, h⟩ := Res.bind_eq_ok.mp h
  obtain rfl := Res.ok.inj h
  rfl

theorem proverLast_cs {E : Env Fr Fr Fr} {cs : CS Fr} {q : ProverParams Fr Fr Fr} (h : E.proverLast (some cs) = .ok q) : q.cs = cs := by
  rw [Env.proverLast] at h
  obtain ⟨_, h1, h⟩ := Res.bind_eq_ok.mp h
  obtain ⟨_, -, h⟩ := Res.bind_eq_ok.mp h
  rw [finish_cs h]
  exact (Res.ok.inj h1).symm

theorem proverFirst_cs {E : Env Fr Fr Fr} {cs : CS Fr} {q : ProverParams Fr Fr Fr} (h : E.proverFirst (some cs) = .ok q) : q.cs = cs := by
  rw [Env.proverFirst] at h
  obtain ⟨_, -, h⟩ := Res.bind_eq_ok.mp h
  obtain ⟨_, h1, h⟩ := Res.bind_eq_ok.mp h
  rw [finish_cs h]
  exact (Res.ok.inj h1).symm

def someCoins : Coins Fr := ⟨List.replicate 5 [3, 4], [5, 6, 7], [8, 9, 10, 11, 12]⟩

theorem someCoins_good : GoodCoins someCoins := ⟨rfl, by decide, rfl, rfl⟩

/-- commitments, types and signatures as in the examples of the conversions; `plonk` is replaced by the verifier -/
def extFr : ConvExt convT SimFr.ristretto Fr (Pars Fr Fr) (Snark.Proof Fr Fr) where
  gens := barGens
  decompress := some
  asNat := id
  oracle tr := (tr.length : ZMod SimFr.ristretto.r)
  plonk _ _ _ _ := false
  sigVerify k m s := decide (s = (k, m))

def signFr : Nat → Bytes → Res (Nat × Bytes) := fun k m => .ok (k, m)

theorem confRec_opens_fr (a : UInt64) : (Anon.Spec.RecOpening.ofRec extFr (confRec a)).Opens extFr (confRec a).bar := by
  refine ⟨⟨(Xfr.splitU64 a).1.toNat_lt, (Xfr.splitU64 a).2.toNat_lt, (by norm_num : 9 < 2 ^ 240)⟩, ⟨?_, ?_⟩, ?_⟩
  all_goals
    show some _ = some _
    simp [extFr, barGens, Anon.Spec.RecOpening.ofRec, confRec, smul_eq_mul]

/-- C88: without the file the parameters of the conversion are made anew, and cut down they are those of the file -/
example : ∃ (B : Bin (VerifierParams Fr Fr Fr)) (file : Bytes) (v w : VerifierParams Fr Fr Fr),
    genConversion B (envFr.proverLast (arToAbarCs Rescue.blsParams samplePk)) = .ok file ∧
    loadConversion B none (envFr.proverLast (arToAbarCs Rescue.blsParams samplePk)) = .ok v ∧ v.shrink = .ok w ∧
    loadConversion B (some file) .err = .ok w := by
  obtain ⟨B, T, hB, hC, -, -, -, hT⟩ := binsFr
  obtain ⟨-, ⟨file, hf⟩, -⟩ := C94_files envFr_honest le_rfl T hT B hC true 0 samplePk
  obtain ⟨v, w, h⟩ := (C88_conversion_rebuilt B hB _).1 file hf
  exact ⟨B, file, v, w, hf, h⟩

/-- the files of the conversions exist, and with an oracle that avoids the bad challenges a note of each kind is made with the key of
setup and accepted with the loaded key: transparent to anonymous -/
example : ∃ (B : Bin (VerifierParams Fr Fr Fr)) (file : Bytes) (q : ProverParams Fr Fr Fr) (w : VerifierParams Fr Fr Fr) (O : Source Fr)
    (note : _), B.Lawful ∧ genConversion B (envFr.proverLast (arToAbarCs Rescue.blsParams samplePk)) = .ok file ∧
    envFr.proverLast (arToAbarCs Rescue.blsParams samplePk) = .ok q ∧ loadConversion B (some file) .err = .ok w ∧
    (liveProver envFr O someCoins signFr).genArToAbar Rescue.blsParams (liveExt pairFr O extFr) (fun b => some (b.memo.1 ++ b.memo.2)) (q, w) plainRec 1
      samplePk 8 ([1], [2]) = .ok note ∧
    (liveExt pairFr O extFr).verifyArToAbar (fun b => some (b.memo.1 ++ b.memo.2)) (q, w) note = .ok () := by
  obtain ⟨B, T, hB, hC, -, -, -, hT⟩ := binsFr
  obtain ⟨-, ⟨file, hf⟩, -⟩ := C94_files envFr_honest le_rfl T hT B hC true 0 samplePk
  obtain ⟨q, w, hq, hw, online, cmW, bad, hc, h⟩ := C94_ar_to_abar pairFr_nonDegenerate envFr_honest le_rfl B hB samplePk file hf .err
    signFr extFr (fun b => some (b.memo.1 ++ b.memo.2)) (fun b => ⟨_, rfl⟩) plainRec ⟨rfl, rfl⟩ 1 (fun m => ⟨(1, m), rfl, by simp [extFr, plainRec]⟩)
    samplePk 8 ([1], [2]) someCoins someCoins_good
  obtain ⟨⟨c1, e1, z1⟩, -⟩ := C93_setup_conversions true samplePk
  have hs : q.cs.gates.length = 512 := by rw [proverLast_cs (by rw [← e1]; exact hq)]; exact z1
  obtain ⟨O, hO⟩ := lucky q (by omega) (by omega) (start arToAbarLabel) online cmW bad (fun b => le_trans (hc b) (by norm_num))
  obtain ⟨note, n1, n2, -⟩ := (h O).2 hO
  exact ⟨B, file, q, w, O, note, hB, hf, hq, hw, n1, n2⟩

/-- confidential to anonymous -/
example : ∃ (B : Bin (VerifierParams Fr Fr Fr)) (file : Bytes) (q : ProverParams Fr Fr Fr) (w : VerifierParams Fr Fr Fr) (O : Source Fr)
    (note : _), B.Lawful ∧ genConversion B (envFr.proverFirst (barToAbarCs Rescue.blsParams true SimFr.ristretto samplePk)) = .ok file ∧
    envFr.proverFirst (barToAbarCs Rescue.blsParams true SimFr.ristretto samplePk) = .ok q ∧ loadConversion B (some file) .err = .ok w ∧
    (liveProver envFr O someCoins signFr).genBarToAbar Rescue.blsParams (liveExt pairFr O extFr) true (fun b => some (b.memo.1 ++ b.memo.2)) (q, w)
      (confRec 17179869187) 1 samplePk 8 ([1], []) confRand 99 = .ok note ∧
    (liveExt pairFr O extFr).verifyBarToAbar (fun b => some (b.memo.1 ++ b.memo.2)) (q, w) note 1 = .ok () := by
  obtain ⟨B, T, hB, hC, -, -, -, hT⟩ := binsFr
  obtain ⟨-, -, ⟨file, hf⟩, -⟩ := C94_files envFr_honest le_rfl T hT B hC true 0 samplePk
  obtain ⟨q, w, hq, hw, online, cmW, bad, hc, h⟩ := C94_bar_to_abar pairFr_nonDegenerate envFr_honest le_rfl B hB true samplePk file hf .err
    signFr extFr (fun b => some (b.memo.1 ++ b.memo.2)) (fun b => ⟨_, rfl⟩) (confRec 17179869187) rfl (confRec_opens_fr _) 1 1
    (fun m => ⟨(1, m), rfl, by simp [extFr]⟩) samplePk 8 ([1], []) confRand rfl 99 someCoins someCoins_good
  obtain ⟨-, ⟨c1, e1, z1⟩, -⟩ := C93_setup_conversions true samplePk
  have hs : q.cs.gates.length = 2048 := by rw [proverFirst_cs (by rw [← e1]; exact hq)]; exact z1
  obtain ⟨O, hO⟩ := lucky q (by omega) (by omega) (start barToAbarLabel) online cmW bad (fun b => le_trans (hc b) (by norm_num))
  obtain ⟨note, n1, n2, -⟩ := (h O).2 hO
  exact ⟨B, file, q, w, O, note, hB, hf, hq, hw, n1, n2⟩

/-- a path of twenty nodes -/
def path20 : List (MTNode Fr) := List.replicate 20 ⟨0, 0, 1, 0⟩

theorem path20_good : ∀ n ∈ path20, GoodNode n := by
  intro n hn
  obtain rfl := List.eq_of_mem_replicate hn
  exact ⟨.inl ⟨rfl, rfl⟩⟩

theorem key573 : (⟨5, 7, 3⟩ : FoldKey).x < SimFr.secq256k1.r ∧ (⟨5, 7, 3⟩ : FoldKey).y < SimFr.secq256k1.r ∧
    (⟨5, 7, 3⟩ : FoldKey).s < SimFr.secq256k1.r ∧ (⟨5, 7, 3⟩ : FoldKey).s < ofLE secpOrderBytes :=
  ⟨(by decide +kernel : 5 < SimFr.secq256k1.r), (by decide +kernel : 7 < SimFr.secq256k1.r),
    (by decide +kernel : 3 < SimFr.secq256k1.r), (by decide +kernel : 3 < ofLE secpOrderBytes)⟩

/-- anonymous to transparent -/
example : ∃ (B : Bin (VerifierParams Fr Fr Fr)) (file : Bytes) (root : Fr) (q : ProverParams Fr Fr Fr) (w : VerifierParams Fr Fr Fr)
    (O : Source Fr) (note : _), B.Lawful ∧
    genConversion B (envFr.proverLast (abarToArCs Rescue.blsParams true SimFr.secq256k1 secpOrderBytes 20)) = .ok file ∧
    loadConversion B (some file) .err = .ok w ∧
    (liveProver envFr O someCoins signFr).genAbarToAr Rescue.blsParams (liveExt pairFr O extFr) foldX foldM true secpOrderBytes (q, w) 0 8
      path20 root 7 9 1 ⟨5, 7, 3⟩ () [(100, 1), (200, 2), (300, 3)] 99 = .ok note ∧
    (liveExt pairFr O extFr).verifyAbarToAr foldX (q, w) note root () = .ok () := by
  obtain ⟨B, T, hB, hC, -, -, -, hT⟩ := binsFr
  obtain ⟨-, -, -, ⟨file, hf⟩, -⟩ := C94_files envFr_honest le_rfl T hT B hC true 0 samplePk
  obtain ⟨q, w, hq, hw, online, cmW, bad, hc, h⟩ := C94_abar_to_ar pairFr_nonDegenerate envFr_honest le_rfl B hB true file hf .err
    signFr extFr foldX foldM 0 8 path20 rfl path20_good _ 7 9 1 ⟨5, 7, 3⟩ key573 rfl () (foldM_complete _ _)
    [(100, 1), (200, 2), (300, 3)] rfl 99 someCoins someCoins_good
  obtain ⟨-, -, ⟨c1, e1, z1⟩, -⟩ := C93_setup_conversions true samplePk
  have hs : q.cs.gates.length = 8192 := by rw [proverLast_cs (by rw [← e1]; exact hq)]; exact z1
  obtain ⟨O, hO⟩ := lucky q (by omega) (by omega) (start abarToArLabel) online cmW bad (fun b => le_trans (hc b) (by norm_num))
  obtain ⟨note, n1, n2, -⟩ := (h O).2 hO
  exact ⟨B, file, _, q, w, O, note, hB, hf, hw, n1, n2⟩

/-- anonymous to confidential -/
example : ∃ (B : Bin (VerifierParams Fr Fr Fr)) (file : Bytes) (root : Fr) (q : ProverParams Fr Fr Fr) (w : VerifierParams Fr Fr Fr)
    (O : Source Fr) (note : _), B.Lawful ∧
    genConversion B (envFr.proverLast (abarToBarCs Rescue.blsParams true SimFr.secq256k1 SimFr.ristretto secpOrderBytes 20)) = .ok file ∧
    loadConversion B (some file) .err = .ok w ∧
    (liveProver envFr O someCoins signFr).genAbarToBar Rescue.blsParams (liveExt pairFr O extFr) foldX foldM true secpOrderBytes (q, w) 0 8
      path20 root (confRec 7) ⟨5, 7, 3⟩ () [(100, 1), (200, 2), (300, 3)] 98 confRand 99 = .ok note ∧
    (liveExt pairFr O extFr).verifyAbarToBar foldX (q, w) note root () = .ok () := by
  obtain ⟨B, T, hB, hC, -, -, -, hT⟩ := binsFr
  obtain ⟨-, -, -, -, file, hf⟩ := C94_files envFr_honest le_rfl T hT B hC true 0 samplePk
  obtain ⟨q, w, hq, hw, online, cmW, bad, hc, h⟩ := C94_abar_to_bar pairFr_nonDegenerate envFr_honest le_rfl B hB true file hf .err
    signFr extFr foldX foldM 0 8 path20 rfl path20_good _ (confRec 7) rfl (confRec_opens_fr _) ⟨5, 7, 3⟩ key573 rfl () (foldM_complete _ _)
    [(100, 1), (200, 2), (300, 3)] rfl 98 confRand rfl 99 someCoins someCoins_good
  obtain ⟨-, -, -, ⟨c1, e1, z1⟩⟩ := C93_setup_conversions true samplePk
  have hs : q.cs.gates.length = 8192 := by rw [proverLast_cs (by rw [← e1]; exact hq)]; exact z1
  obtain ⟨O, hO⟩ := lucky q (by omega) (by omega) (start abarToBarLabel) online cmW bad (fun b => le_trans (hc b) (by norm_num))
  obtain ⟨note, n1, n2, -⟩ := (h O).2 hO
  exact ⟨B, file, _, q, w, O, note, hB, hf, hw, n1, n2⟩

/-- a tree with one record of amount 7 and the transfer that turns it into a record of amount 5 with a fee of 2 -/
example : ∃ (B : FileBins Fr Fr Fr) (common specific : Bytes) (path : List (MTNode Fr)) (root : Fr) (pre : _) (q : ProverParams Fr Fr Fr)
    (w : VerifierParams Fr Fr Fr) (O : Source Fr) (note : _),
    envFr.genTransfer B (transferCs Rescue.blsParams true SimFr.secq256k1 secpOrderBytes (anonX.asScalar (tyOf 9))) = .ok (common, specific) ∧
    anonX.initXfr Rescue.blsParams (tyOf 9) [xfrIn path root] [xfrOut 5] 2 xfrKp = .ok pre ∧
    envFr.load B (fun _ _ _ => none) (some common) (some specific) 1 1 = .ok w ∧
    anonX.finishXfr Rescue.blsParams (liveXfrProver envFr O someCoins) foldX foldM true secpOrderBytes (tyOf 9) (q, w) pre ()
      [(100, 1), (200, 2), (300, 3)] 99 = .ok note ∧
    (liveXfrExt pairFr O).verifyNote foldX (q, w) note root () = .ok () := by
  obtain ⟨B, T, hB, hC, h1, h2, h3, hT⟩ := binsFr
  obtain ⟨⟨⟨common, specific⟩, hf⟩, -⟩ := C94_files envFr_honest le_rfl T hT B hC true (anonX.asScalar (tyOf 9)) samplePk
  obtain ⟨t, pr, ht, hroot, hlen, hpath, hcur, hcap⟩ := oneTree Rescue.blsParams (xfrCom Rescue.blsParams)
  obtain ⟨pre, q, w, hpre, hq, hw, online, cmW, bad, hc, hsz, h⟩ := C94_transfer (E' := envFr) pairFr_nonDegenerate envFr_honest le_rfl T
    h1 h2 h3 true anonX (tyOf 9) (fun _ _ _ => none) common specific hf foldX foldM [xfrIn (pr.nodes.map mtNode) pr.root] [xfrOut 5] 2 xfrKp
    (by simp) (by simp) xfr_co (by decide) xfr_key
    ⟨by simp, by simp, by simp [xfrIn, xfrKp], by
      intro t ht
      have : t = tyOf 9 := by
        obtain ⟨r, hr, rfl⟩ := ht
        simp only [List.cons_append, List.nil_append, List.mem_cons, List.not_mem_nil, or_false] at hr
        rcases hr with rfl | rfl <;> rfl
      subst this
      rfl, by simp, by simp [xfrOut]⟩ pr.root
    (by
      intro i hi
      obtain rfl := List.mem_singleton.mp hi
      refine ⟨rfl, by simpa [xfrIn, info] using hlen, ?_, xfrIn_root _ _ _ hpath⟩
      intro n hn
      obtain ⟨m, -, rfl⟩ := List.mem_map.mp hn
      exact goodNode_mtNode m) ⟨_, List.mem_singleton.mpr rfl, rfl⟩ (by
      intro i hi hne
      obtain rfl := List.mem_singleton.mp hi
      exact absurd rfl hne) (by
      intro o ho
      obtain rfl := List.mem_singleton.mp ho
      exact ⟨_, List.mem_singleton.mpr rfl, rfl⟩) (by
      intro a ha b hb _
      obtain rfl := List.mem_singleton.mp ha
      obtain rfl := List.mem_singleton.mp hb
      rfl) () (foldM_complete _ _) [(100, 1), (200, 2), (300, 3)] rfl 99 someCoins someCoins_good
  obtain ⟨cs, vars, e1, -, -, e, he, z1⟩ := transfer_circuit true (anonX.asScalar (tyOf 9)) 1 1 le_rfl (by norm_num) le_rfl (by norm_num)
  have hs : q.cs.gates.length = 2 ^ e := by rw [proverFirst_cs (by rw [← e1]; exact hq)]; exact z1
  have h15 : 2 ^ e ≤ 2 ^ 15 := Nat.pow_le_pow_right (by norm_num) he
  have h0 : 0 < 2 ^ e := by positivity
  obtain ⟨O, hO⟩ := lucky q (by omega) (by omega) (startXfr (xfrTranscript 1 1)) online cmW bad (fun b => le_trans (hc b) (by omega))
  obtain ⟨note, n1, n2, -⟩ := (h O).2 hO
  exact ⟨T, common, specific, _, _, pre, q, w, O, note, hf, hpre, hw, n1, n2⟩

end Verif.Setup
