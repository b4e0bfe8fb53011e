import Verif.Setup.ShippedXfr1
import Verif.Setup.ShippedXfr2
import Verif.Setup.ShippedXfr3
import Verif.Setup.ShippedXfr4
import Verif.Setup.ShippedXfr5
import Verif.Setup.ShippedXfr6
import Verif.Setup.ShippedConv

/-!
C102: the keys of anonymous transfers that are shipped with the library.
-/

namespace Verif.Setup

open Verif.Poly Verif.Plonk Verif.Snark Verif.Anon Verif.Serde
open Verif.AnonCreds (Pairing)

/-- api/parameters/transfer-vk-common.bin: words of 56 bytes, little-endian, the last one shorter -/
def xfrCommonFileWords : List Nat := [
  0x2695638c4fa9ac0fc3688c4f9774b905a14e3a3f171bac586c55e83ff97a1aeffb3af00adb22c6bb00000000000000300000000000000001,
  0xc6e47ad4fa403b02b4510b647ae3d1770bac0326a805bbefd48056c8c121bdb80000000000000060000000000000000217f1d3a73197d794,
  0x7dacd3a088274f65596bd0d09920b61ab5da61bbdc7f5049334cf11213945d57e5ac7d055d042b7e024aa2b2f08f0a91260805272dc51051,
  0xe75d320da8b83a87e12406956b9c74491ee5ecf06dc297ba1186016209d78fd832c16ef62fc49eff000000000000006013e02b6052719f60,
  0x116b2250fc4b3098ccadf9ec58526aecf307d21e233f65110554ee04460f72a616f4d070941b0796de5defda29196e40013645b8518e5568]

/-- the 280 bytes -/
def xfrCommonFile : Bytes := (xfrCommonFileWords.flatMap (leBytes 56)).take 280

/-- the entries of api/parameters/transfer-vk-specific.bin -/
def xfrTable : List (List Bytes) := [
  [xfrFile11, xfrFile12, xfrFile13, xfrFile14, xfrFile15, xfrFile16],
  [xfrFile21, xfrFile22, xfrFile23, xfrFile24, xfrFile25, xfrFile26],
  [xfrFile31, xfrFile32, xfrFile33, xfrFile34, xfrFile35, xfrFile36],
  [xfrFile41, xfrFile42, xfrFile43, xfrFile44, xfrFile45, xfrFile46],
  [xfrFile51, xfrFile52, xfrFile53, xfrFile54, xfrFile55, xfrFile56],
  [xfrFile61, xfrFile62, xfrFile63, xfrFile64, xfrFile65, xfrFile66]]

/-- a table as bytes: lengths of eight bytes before the rows, the entries of a row and the bytes of an entry -/
def tableBytes (t : List (List Bytes)) : Bytes :=
  leBytes 8 t.length ++ t.flatMap fun row => leBytes 8 row.length ++ row.flatMap fun b => leBytes 8 b.length ++ b

/-- api/parameters/transfer-vk-specific.bin, 204284 bytes -/
def xfrSpecificFile : Bytes := tableBytes xfrTable

theorem wAll_flatMap {α : Type} {w : α → Option Bytes} (f : α → Bytes) (l : List α) (h : ∀ a ∈ l, w a = some (f a)) :
    wAll w l = some (l.flatMap f) := by
  induction l with
  | nil => rfl
  | cons a l ih =>
    rw [wAll, h a List.mem_cons_self, ih fun b hb => h b (List.mem_cons_of_mem _ hb)]
    rfl

theorem wSeq_flatMap {α : Type} {w : α → Option Bytes} (f : α → Bytes) (l : List α) (h : ∀ a ∈ l, w a = some (f a))
    (hl : l.length < 2 ^ 64) : wSeq w l = some (leBytes 8 l.length ++ l.flatMap f) := by
  rw [wSeq, if_pos hl, wAll_flatMap f l h]
  rfl

theorem ser_table (t : List (List Bytes)) (ht : t.length < 2 ^ 64) (hr : ∀ row ∈ t, row.length < 2 ^ 64)
    (hc : ∀ row ∈ t, ∀ b ∈ row, b.length < 2 ^ 64) : rawBins.table.ser t = some (tableBytes t) := by
  refine wSeq_flatMap _ t (fun row hrow => wSeq_flatMap _ row (fun b hb => ?_) (hr row hrow)) ht
  rw [wSeq_flatMap (w := wByte) (fun x => [x]) b (fun _ _ => rfl) (hc row hrow b hb), List.flatMap_singleton']

theorem de_xfrTable : rawBins.table.de xfrSpecificFile = some xfrTable := by
  refine back_table.lawful _ _ (ser_table xfrTable (by decide) ?_ ?_)
  · simp [xfrTable]
  · simp only [xfrTable, List.forall_mem_cons]
    simp only [xfrFile11_len, xfrFile12_len, xfrFile13_len, xfrFile14_len, xfrFile15_len, xfrFile16_len,
      xfrFile21_len, xfrFile22_len, xfrFile23_len, xfrFile24_len, xfrFile25_len, xfrFile26_len,
      xfrFile31_len, xfrFile32_len, xfrFile33_len, xfrFile34_len, xfrFile35_len, xfrFile36_len,
      xfrFile41_len, xfrFile42_len, xfrFile43_len, xfrFile44_len, xfrFile45_len, xfrFile46_len,
      xfrFile51_len, xfrFile52_len, xfrFile53_len, xfrFile54_len, xfrFile55_len, xfrFile56_len,
      xfrFile61_len, xfrFile62_len, xfrFile63_len, xfrFile64_len, xfrFile65_len, xfrFile66_len]
    simp

/-- an entry, with its test -/
def Entry (n m : Nat) : Prop := ∃ row b z, xfrTable[n - 1]? = some row ∧ row[m - 1]? = some b ∧
  Spec.IsSize (Spec.transferGates 20 n m) z ∧ checkTransfer b (Spec.transferVars 20 n m) z (Spec.transferPublic 20 n m) = true

theorem entries1 (m : Nat) (hm : 1 ≤ m ∧ m ≤ 6) : Entry 1 m := by
  obtain ⟨h1, h2⟩ := hm
  interval_cases m
  · exact ⟨_, xfrFile11, _, rfl, rfl, xfrFile11_size, xfrFile11_check⟩
  · exact ⟨_, xfrFile12, _, rfl, rfl, xfrFile12_size, xfrFile12_check⟩
  · exact ⟨_, xfrFile13, _, rfl, rfl, xfrFile13_size, xfrFile13_check⟩
  · exact ⟨_, xfrFile14, _, rfl, rfl, xfrFile14_size, xfrFile14_check⟩
  · exact ⟨_, xfrFile15, _, rfl, rfl, xfrFile15_size, xfrFile15_check⟩
  · exact ⟨_, xfrFile16, _, rfl, rfl, xfrFile16_size, xfrFile16_check⟩

theorem entries2 (m : Nat) (hm : 1 ≤ m ∧ m ≤ 6) : Entry 2 m := by
  obtain ⟨h1, h2⟩ := hm
  interval_cases m
  · exact ⟨_, xfrFile21, _, rfl, rfl, xfrFile21_size, xfrFile21_check⟩
  · exact ⟨_, xfrFile22, _, rfl, rfl, xfrFile22_size, xfrFile22_check⟩
  · exact ⟨_, xfrFile23, _, rfl, rfl, xfrFile23_size, xfrFile23_check⟩
  · exact ⟨_, xfrFile24, _, rfl, rfl, xfrFile24_size, xfrFile24_check⟩
  · exact ⟨_, xfrFile25, _, rfl, rfl, xfrFile25_size, xfrFile25_check⟩
  · exact ⟨_, xfrFile26, _, rfl, rfl, xfrFile26_size, xfrFile26_check⟩

theorem entries3 (m : Nat) (hm : 1 ≤ m ∧ m ≤ 6) : Entry 3 m := by
  obtain ⟨h1, h2⟩ := hm
  interval_cases m
  · exact ⟨_, xfrFile31, _, rfl, rfl, xfrFile31_size, xfrFile31_check⟩
  · exact ⟨_, xfrFile32, _, rfl, rfl, xfrFile32_size, xfrFile32_check⟩
  · exact ⟨_, xfrFile33, _, rfl, rfl, xfrFile33_size, xfrFile33_check⟩
  · exact ⟨_, xfrFile34, _, rfl, rfl, xfrFile34_size, xfrFile34_check⟩
  · exact ⟨_, xfrFile35, _, rfl, rfl, xfrFile35_size, xfrFile35_check⟩
  · exact ⟨_, xfrFile36, _, rfl, rfl, xfrFile36_size, xfrFile36_check⟩

theorem entries4 (m : Nat) (hm : 1 ≤ m ∧ m ≤ 6) : Entry 4 m := by
  obtain ⟨h1, h2⟩ := hm
  interval_cases m
  · exact ⟨_, xfrFile41, _, rfl, rfl, xfrFile41_size, xfrFile41_check⟩
  · exact ⟨_, xfrFile42, _, rfl, rfl, xfrFile42_size, xfrFile42_check⟩
  · exact ⟨_, xfrFile43, _, rfl, rfl, xfrFile43_size, xfrFile43_check⟩
  · exact ⟨_, xfrFile44, _, rfl, rfl, xfrFile44_size, xfrFile44_check⟩
  · exact ⟨_, xfrFile45, _, rfl, rfl, xfrFile45_size, xfrFile45_check⟩
  · exact ⟨_, xfrFile46, _, rfl, rfl, xfrFile46_size, xfrFile46_check⟩

theorem entries5 (m : Nat) (hm : 1 ≤ m ∧ m ≤ 6) : Entry 5 m := by
  obtain ⟨h1, h2⟩ := hm
  interval_cases m
  · exact ⟨_, xfrFile51, _, rfl, rfl, xfrFile51_size, xfrFile51_check⟩
  · exact ⟨_, xfrFile52, _, rfl, rfl, xfrFile52_size, xfrFile52_check⟩
  · exact ⟨_, xfrFile53, _, rfl, rfl, xfrFile53_size, xfrFile53_check⟩
  · exact ⟨_, xfrFile54, _, rfl, rfl, xfrFile54_size, xfrFile54_check⟩
  · exact ⟨_, xfrFile55, _, rfl, rfl, xfrFile55_size, xfrFile55_check⟩
  · exact ⟨_, xfrFile56, _, rfl, rfl, xfrFile56_size, xfrFile56_check⟩

theorem entries6 (m : Nat) (hm : 1 ≤ m ∧ m ≤ 6) : Entry 6 m := by
  obtain ⟨h1, h2⟩ := hm
  interval_cases m
  · exact ⟨_, xfrFile61, _, rfl, rfl, xfrFile61_size, xfrFile61_check⟩
  · exact ⟨_, xfrFile62, _, rfl, rfl, xfrFile62_size, xfrFile62_check⟩
  · exact ⟨_, xfrFile63, _, rfl, rfl, xfrFile63_size, xfrFile63_check⟩
  · exact ⟨_, xfrFile64, _, rfl, rfl, xfrFile64_size, xfrFile64_check⟩
  · exact ⟨_, xfrFile65, _, rfl, rfl, xfrFile65_size, xfrFile65_check⟩
  · exact ⟨_, xfrFile66, _, rfl, rfl, xfrFile66_size, xfrFile66_check⟩

theorem entries (n m : Nat) (hn : 1 ≤ n ∧ n ≤ 6) (hm : 1 ≤ m ∧ m ≤ 6) : Entry n m := by
  obtain ⟨h1, h2⟩ := hn
  interval_cases n
  · exact entries1 m hm
  · exact entries2 m hm
  · exact entries3 m hm
  · exact entries4 m hm
  · exact entries5 m hm
  · exact entries6 m hm

theorem checkTransfer_some {b : Bytes} {vars size : Nat} {pub : List Nat} (h : checkTransfer b vars size pub = true) :
    ∃ v, rawBins.specific.de b = some v ∧ describes vars size pub v.cs v.vk = true := by
  unfold checkTransfer at h
  cases hb : rawBins.specific.de b with
  | none => rw [hb] at h; simp at h
  | some v =>
    rw [hb] at h
    exact ⟨v, rfl, h⟩

theorem xfrCommon : ∃ pcs, rawBins.common.de xfrCommonFile = some pcs ∧ pcs.group1.length = 1 ∧ pcs.group2.length = 2 := by
  have h : (match rawBins.common.de xfrCommonFile with
    | some pcs => pcs.group1.length == 1 && pcs.group2.length == 2
    | none => false) = true := by decide +kernel
  cases hb : rawBins.common.de xfrCommonFile with
  | none => rw [hb] at h; simp at h
  | some v =>
    rw [hb] at h
    simp only [Bool.and_eq_true, beq_iff_eq] at h
    exact ⟨v, rfl, h.1, h.2⟩

theorem load_entry (E' : Env Fr Bytes Bytes) (circuit' : Nat → Nat → Nat → Option (CS Fr)) {pcs : Params Bytes Bytes} {row : List Bytes}
    {b : Bytes} {x : Specific Fr Bytes} {n m : Nat} (hp : rawBins.common.de xfrCommonFile = some pcs) (r1 : xfrTable[n]? = some row)
    (r2 : row[m]? = some b) (hn : n + 1 ≤ 6) (hm : m + 1 ≤ 6) (hx : rawBins.specific.de b = some x) :
    E'.load rawBins circuit' (some xfrCommonFile) (some xfrSpecificFile) (n + 1) (m + 1) = .ok ⟨pcs, x.cs, x.vk⟩ := by
  unfold Env.load
  rw [if_neg (by simp only [maxRecords]; omega)]
  have i1 : indexBefore xfrTable (n + 1) = .ok row := by rw [indexBefore, r1]; rfl
  have i2 : indexBefore row (m + 1) = .ok b := by rw [indexBefore, r2]; rfl
  simp only [hp, de_xfrTable]
  show (indexBefore xfrTable (n + 1)).bind _ = _
  rw [i1]
  show (indexBefore row (m + 1)).bind _ = _
  rw [i2]
  show (Res.ofOption (rawBins.specific.de b)).bind _ = _
  rw [hx]
  rfl

variable {G1 G2 Gt : Type} [AddCommGroup G1] [AddCommGroup G2] [Module Fr G1] [Module Fr G2] [AddCommGroup Gt] [Module Fr Gt]
  [DecidableEq Gt]

/-- C102: for one to six inputs and outputs the loader reads from the two shipped files a key that agrees with the one setup makes from
the circuit of the code, whatever the honest reference string, in everything but the points.  Missing for the full claim: the commitments,
as for `C102_conversions_partial`. -/
theorem C102_transfers_partial {P : Pairing Fr G1 G2 Gt} {E : Env Fr G1 G2} {d : Nat} {s : Fr} (H : HonestEnv P E d s)
    (hd : 32770 ≤ d) (dbg : Bool) (feeType : Fr) (E' : Env Fr Bytes Bytes) (circuit' : Nat → Nat → Nat → Option (CS Fr)) (n m : Nat)
    (h1 : 1 ≤ n) (h2 : n ≤ 6) (h3 : 1 ≤ m) (h4 : m ≤ 6) :
    ∃ v q w, E'.load rawBins circuit' (some xfrCommonFile) (some xfrSpecificFile) n m = .ok v ∧
      E.create (transferCs Rescue.blsParams dbg SimFr.secq256k1 secpOrderBytes feeType) n m (some 20) = .ok q ∧ q.shrink = .ok w ∧
      Spec.Agrees v w := by
  obtain ⟨row, b, z, r1, r2, hz, hc⟩ := entries n m ⟨h1, h2⟩ ⟨h3, h4⟩
  obtain ⟨x, hx, hd'⟩ := checkTransfer_some hc
  obtain ⟨pcs, hp, l1, l2⟩ := xfrCommon
  obtain ⟨cs, vars, hcs, hb, hwf, e, he, hsz⟩ := transfer_circuit dbg feeType n m h1 h2 h3 h4
  obtain ⟨cs', hcs', i1, i2, i3⟩ := C93_setup_transfer dbg feeType n m 20 h1 h3
  obtain rfl : cs = cs' := Option.some.inj (hcs.symm.trans hcs')
  have h15 : 2 ^ e ≤ 2 ^ 15 := Nat.pow_le_pow_right (by norm_num) he
  obtain ⟨q, w, p1, -, p3, p4⟩ := H.agrees cs hwf e he hsz (by rw [hsz]; omega)
  refine ⟨⟨pcs, x.cs, x.vk⟩, .ofProver q, w, ?_, ?_, p3, p4 _ l1 l2 ?_⟩
  · obtain ⟨n', rfl⟩ : ∃ k, n = k + 1 := ⟨n - 1, by omega⟩
    obtain ⟨m', rfl⟩ : ∃ k, m = k + 1 := ⟨m - 1, by omega⟩
    rw [Nat.add_sub_cancel] at r1 r2
    exact load_entry E' circuit' hp r1 r2 (by omega) (by omega) hx
  · rw [Env.create, Option.getD_some, hcs, p1]
    rfl
  · rw [i2, i3, isSize_unique i1 hz]
    exact hd'

/-- C102: all shipped keys hold the same points of the reference string. -/
theorem C102_same_reference : ∃ pcs, rawBins.common.de xfrCommonFile = some pcs ∧
    ∀ file ∈ [arToAbarFile, barToAbarFile, abarToArFile, abarToBarFile], ∃ v, rawBin.de file = some v ∧ v.pcs = pcs := by
  obtain ⟨pcs, hp, -, -⟩ := xfrCommon
  refine ⟨pcs, hp, ?_⟩
  have key : ∀ file : Bytes, (match rawBin.de file, rawBins.common.de xfrCommonFile with
      | some v, some p => v.pcs.group1 == p.group1 && v.pcs.group2 == p.group2
      | _, _ => false) = true → ∃ v, rawBin.de file = some v ∧ v.pcs = pcs := by
    intro file h
    cases hb : rawBin.de file with
    | none => rw [hb] at h; simp at h
    | some v =>
      rw [hb, hp] at h
      simp only [Bool.and_eq_true, beq_iff_eq] at h
      refine ⟨v, rfl, ?_⟩
      obtain ⟨⟨a, b⟩, _, _⟩ := v
      cases pcs
      simp only [Params.mk.injEq]
      exact h
  refine List.forall_mem_cons.mpr ⟨key _ ?_, List.forall_mem_cons.mpr ⟨key _ ?_, List.forall_mem_cons.mpr ⟨key _ ?_,
    List.forall_mem_singleton.mpr (key _ ?_)⟩⟩⟩ <;> decide +kernel

/-- the hypotheses are met by the reference string of C94: the key for three inputs and two outputs -/
example : ∃ v, Env.load ⟨none, fun _ => none, ⟨0, id, fun _ => none⟩, ⟨0, id, fun _ => none⟩, fun _ _ => .err, fun _ => .err, []⟩ rawBins
      (fun _ _ _ => none) (some xfrCommonFile) (some xfrSpecificFile) 3 2 = .ok v ∧ v.vk.csSize = 16384 := by
  obtain ⟨v, q, w, h, hc, hw, a⟩ := C102_transfers_partial envFr_honest le_rfl true 0
    ⟨none, fun _ => none, ⟨0, id, fun _ => none⟩, ⟨0, id, fun _ => none⟩, fun _ _ => .err, fun _ => .err, []⟩ (fun _ _ _ => none) 3 2
    (by norm_num) (by norm_num) (by norm_num) (by norm_num)
  refine ⟨v, h, ?_⟩
  obtain ⟨x, hx, hd⟩ := checkTransfer_some xfrFile32_check
  obtain ⟨pcs, hp, -, -⟩ := xfrCommon
  have h3 := Res.ok.inj ((load_entry (n := 2) (m := 1) ⟨none, fun _ => none, ⟨0, id, fun _ => none⟩, ⟨0, id, fun _ => none⟩, fun _ _ => .err,
    fun _ => .err, []⟩ (fun _ _ _ => none) hp rfl rfl (by norm_num) (by norm_num) hx).symm.trans h)
  subst h3
  simp only [describes, Bool.and_eq_true, beq_iff_eq] at hd
  exact hd.1.1.1.2

end Verif.Setup
