import Verif.Serde.Read
import Verif.Serde.Bodies
import Verif.Xfr.MemoCompat
import Verif.Anon.XfrNote

/-!
The readers that `serde_derive` makes for the notes, generic in the format, and the hand-written reader of owner memos.
-/

namespace Verif.Serde

open Verif.Xfr (Types XfrAmount XfrAssetType BlindAssetRecord TracerMemo RangeProof AmountProof XfrBody XfrNote KeyType Wire)
open Verif.Anon (ArToAbarBody BarToAbarBody ArToAbarNote BarToAbarNote AbarToArNote AbarToBarNote FoldInst)

/-! ### Numbers in text -/

/-- one more digit -/
def digitStep (acc : Option Nat) (b : UInt8) : Option Nat :=
  acc.bind fun n => if 48 ≤ b.toNat ∧ b.toNat < 58 then some (n * 10 + (b.toNat - 48)) else none

/-- models `u64::from_str` (standard library), which `serde_str` calls: an optional sign, at least one digit, no overflow -/
def parseU64 (s : Bytes) : Option UInt64 :=
  let t := if s.head? = some 43 then s.tail else s
  if t = [] then none
  else (t.foldl digitStep (some 0)).bind fun n => if n < 2 ^ 64 then some (UInt64.ofNat n) else none

theorem foldl_digits (l : List Nat) (hl : ∀ d ∈ l, d < 10) :
    (l.reverse.map (fun d => UInt8.ofNat (48 + d))).foldl digitStep (some 0) = some (Nat.ofDigits 10 l) := by
  induction l with
  | nil => rfl
  | cons d l ih =>
    have hd := hl d List.mem_cons_self
    rw [List.reverse_cons, List.map_append, List.foldl_append, ih (fun e he => hl e (List.mem_cons_of_mem _ he))]
    have e : (UInt8.ofNat (48 + d)).toNat = 48 + d := toNat_ofNat (by omega)
    simp only [List.map_cons, List.map_nil, List.foldl_cons, List.foldl_nil, digitStep, Option.bind_some, e]
    rw [if_pos (by omega), Nat.ofDigits_cons]
    congr 1
    omega

theorem parseU64_decimal (x : UInt64) : parseU64 (decimal x.toNat) = some x := by
  have hx := x.toNat_lt
  unfold decimal
  split_ifs with h
  · have : x = 0 := UInt64.toNat_inj.mp (by rw [h]; rfl)
    subst this
    decide
  · have hdig : ∀ d ∈ Nat.digits 10 x.toNat, d < 10 := fun d hd => Nat.digits_lt_base (by norm_num) hd
    have hf := foldl_digits _ hdig
    rw [Nat.ofDigits_digits] at hf
    have hne : (Nat.digits 10 x.toNat).reverse.map (fun d => UInt8.ofNat (48 + d)) ≠ [] := by
      simp [Nat.digits_ne_nil_iff_ne_zero, h]
    have hhead : ((Nat.digits 10 x.toNat).reverse.map (fun d => UInt8.ofNat (48 + d))).head? ≠ some 43 := by
      rw [List.head?_map]
      intro e
      obtain ⟨d, hd, e⟩ := Option.map_eq_some_iff.mp e
      have := hdig d (List.mem_reverse.mp (List.mem_of_mem_head? hd))
      exact ofNat_ne (m := 48 + d) (n := 43) (by omega) (by omega) (by omega) e
    unfold parseU64
    simp only [if_neg hhead, if_neg hne, hf, Option.bind_some, if_pos hx, UInt64.ofNat_toNat]

/-! ### Parts -/

section
variable (I : Input)

/-- an object that is read with `deserialize_bytes` and `zei_from_bytes`, algebra/src/lib.rs:92-105 and serialization.rs:231-245 -/
def readLeaf {α : Type} (p : Bytes → Res α) : Reader α := do
  let b ← I.bytes
  lift (p b)

/-- a value made from what was read -/
def readMap {α β : Type} (rd : Reader α) (p : α → Res β) : Reader β := do
  let w ← rd
  lift (p w)

def readCp : Reader WCp := do
  I.tuple 5
  let c3 ← I.bytes
  let c4 ← I.bytes
  let z1 ← I.bytes
  let z2 ← I.bytes
  let z3 ← I.bytes
  pure ⟨c3, c4, z1, z2, z3⟩

def readCpx : Reader WCpx := do
  I.tuple 2
  let a ← readCp I
  let b ← readOption I (readCp I)
  pure ⟨a, b⟩

def readPeg : Reader WPeg := do
  I.tuple 4
  let z1 ← I.bytes
  let z2 ← I.bytes
  let e1 ← I.bytes
  let c1 ← I.bytes
  pure ⟨z1, z2, e1, c1⟩

def readPok : Reader WPok := do
  I.tuple 4
  let a ← I.bytes
  let b ← I.bytes
  let c ← I.bytes
  let d ← readVec I I.bytes
  pure ⟨a, b, c, d⟩

def readCt : Reader WCt := do
  I.tuple 2
  let a ← I.bytes
  let b ← I.bytes
  pure ⟨a, b⟩

def readCac : Reader WCac := do
  I.tuple 3
  let a ← readPok I
  let b ← readVec I (readCt I)
  let c ← readVec I I.bytes
  pure ⟨a, b, c⟩

def readPlonk : Reader WPlonk := do
  I.tuple 8
  let a ← readVec I I.bytes
  let b ← readVec I I.bytes
  let c ← I.bytes
  let d ← readVec I I.bytes
  let e ← I.bytes
  let f ← readVec I I.bytes
  let g ← I.bytes
  let h ← I.bytes
  pure ⟨a, b, c, d, e, f, g, h⟩

/-- number of the variant -/
def keyTypeNo : KeyType → Fin 3
  | .ed25519 => 0
  | .secp256k1 => 1
  | .address => 2

/-- variant of a name -/
def keyTypeOf (s : Bytes) : Option KeyType :=
  if s = keyTypeName 0 then some .ed25519
  else if s = keyTypeName 1 then some .secp256k1
  else if s = keyTypeName 2 then some .address
  else none

/-- How the buffered values are read by the alternatives of the untagged enums, api/src/xfr/structs.rs:702-721.  A buffered value counts
as human readable, so that a `CompressedEdwardsY` is read from text in base64 (`b64`), and also from bytes; a hybrid ciphertext is an
array of two parts, which are not numbers; `Vec<u8>` is read from an array only. -/
def contentWire (b64 : Bytes → Option Bytes) : Wire Content where
  keyType v := match v with
    | .str s => keyTypeOf s
    | _ => none
  str v := match v with
    | .str s => b64 s
    | .bytes b => some b
    | _ => none
  hybrid _ := none
  bytes v := match v with
    | .ints l => some l
    | _ => none
  isUnit v := match v with
    | .unit => true
    | _ => false

/-- models `OwnerMemoVisitor::visit_seq`, structs.rs:783-813, with `Wire.visitSeq` taken apart: each element is read when it is needed -/
def readMemo (b64 : Bytes → Option Bytes) : Reader WMemo := do
  I.tuple 3
  let v0 ← I.any
  let kt ← lift ((contentWire b64).seqKeyType v0)
  let v1 ← I.any
  let share ← lift ((contentWire b64).seqShare v1)
  let v2 ← I.any
  let lock ← lift ((contentWire b64).seqLock v2)
  pure ⟨keyTypeNo kt, share, lock⟩

end

/-! ### Notes -/

/-- `zei_from_bytes` of the objects in notes.  The type of an asset is read as an array of 32 bytes.  Simplified: the encryption keys and
the ciphertext of a tracer memo and the point of an anonymous memo are bytes in the model and are not parsed. -/
structure Parse (S : Types) where
  cg : Bytes → Res S.CG
  at' : { b : Bytes // b.length = 32 } → S.AT
  pk : Bytes → Res S.PK
  ek : Bytes → Res S.EK
  ct : WCt → Res S.Ct
  act : WCt → Res S.ACt
  ipf : WCac → Res S.IPf
  rp : Bytes → Res S.RP
  ap : WCpx → Res S.AP
  mp : Bytes → Res S.MP
  tpf : WPeg → Res S.TPf
  om : WMemo → Res S.OM
  sg : Bytes → Res S.Sg
  b64 : Bytes → Option Bytes

/-- what the codecs of these objects guarantee: what is written is read back -/
structure Parse.Of {S : Types} (R : Parse S) (L : Leaves S) (sg : S.Sg → Bytes) : Prop where
  cg : ∀ x, R.cg (L.cg x) = .ok x
  at' : ∀ x, R.at' (L.at' x) = x
  pk : ∀ x, R.pk (L.pk x) = .ok x
  ek : ∀ x, R.ek (L.ek x) = .ok x
  ct : ∀ x, R.ct (L.ct x) = .ok x
  act : ∀ x, R.act (L.act x) = .ok x
  ipf : ∀ x, R.ipf (L.ipf x) = .ok x
  rp : ∀ x, R.rp (L.rp x) = .ok x
  ap : ∀ x, R.ap (L.ap x) = .ok x
  mp : ∀ x, R.mp (L.mp x) = .ok x
  tpf : ∀ x, R.tpf (L.tpf x) = .ok x
  om : ∀ x, R.om (L.om x) = .ok x
  sg : ∀ x, R.sg (sg x) = .ok x

/-- variants of `XfrAmount` and of `XfrAssetType` -/
def confTable : List (Bytes × Bool) := [(confName, true), (nonConfName, true)]

/-- variants of `AssetTypeAndAmountProof` -/
def proofTable : List (Bytes × Bool) :=
  [(proofName 0, true), (proofName 1, true), (proofName 2, true), (proofName 3, true), (proofName 4, false)]

section
variable (I : Input) {S : Types} (R : Parse S)

/-- `XfrAmount` -/
def readAmount : Reader (XfrAmount S) := do
  let i ← I.variant confTable
  if i = 0 then do
    I.tuple 2
    let lo ← readLeaf I R.cg
    let hi ← readLeaf I R.cg
    pure (.conf lo hi)
  else do
    let s ← I.str
    let a ← lift (Res.ofOption (parseU64 s))
    pure (.plain a)

/-- `[u8; 32]` -/
def readArray32 : Reader { b : Bytes // b.length = 32 } := do
  I.tuple 32
  let b ← readN I.u8 32
  if h : b.length = 32 then pure ⟨b, h⟩ else refuse

/-- `XfrAssetType` -/
def readAssetType : Reader (XfrAssetType S) := do
  let i ← I.variant confTable
  if i = 0 then do
    let c ← readLeaf I R.cg
    pure (.conf c)
  else do
    let t ← readArray32 I
    pure (.plain (R.at' t))

/-- `BlindAssetRecord` -/
def readBar : Reader (BlindAssetRecord S) := do
  I.tuple 3
  let a ← readAmount I R
  let t ← readAssetType I R
  let k ← readLeaf I R.pk
  pure ⟨a, t, k⟩

/-- the pair of ciphertexts of an amount -/
def readCtPair : Reader (S.Ct × S.Ct) := do
  I.tuple 2
  let a ← readMap (readCt I) R.ct
  let b ← readMap (readCt I) R.ct
  pure (a, b)

/-- `TracerMemo` -/
def readTracerMemo : Reader (TracerMemo S) := do
  I.tuple 5
  I.tuple 3
  let ek ← readLeaf I R.ek
  let ak ← I.bytes
  let lk ← I.bytes
  let am ← readOption I (readCtPair I R)
  let ty ← readOption I (readMap (readCt I) R.ct)
  let ats ← readVec I (readMap (readCt I) R.act)
  I.tuple 2
  let x ← I.bytes
  let y ← I.bytes
  pure ⟨ek, am, ty, ats, ak, lk, (x, y)⟩

/-- `XfrRangeProof` -/
def readRangeProof : Reader (RangeProof S) := do
  I.tuple 3
  let p ← readLeaf I R.rp
  let a ← readLeaf I R.cg
  let b ← readLeaf I R.cg
  pure ⟨p, a, b⟩

/-- `AssetTypeAndAmountProof` -/
def readAmountProof : Reader (AmountProof S) := do
  let i ← I.variant proofTable
  match i with
  | 0 => do
    let p ← readLeaf I R.mp
    pure (.assetMix p)
  | 1 => do
    let p ← readRangeProof I R
    pure (.confAmount p)
  | 2 => do
    let p ← readMap (readCpx I) R.ap
    pure (.confAsset p)
  | 3 => do
    I.tuple 2
    let p ← readRangeProof I R
    let q ← readMap (readCpx I) R.ap
    pure (.confAll p q)
  | _ => pure .noProof

/-- `Vec<Vec<Option<ACConfidentialRevealProof>>>` -/
def readIdentity : Reader (List (List (Option S.IPf))) := readVec I (readVec I (readOption I (readMap (readCac I) R.ipf)))

/-- `Option<OwnerMemo>` -/
def readOwnerMemo : Reader (Option S.OM) := readOption I (readMap (readMemo I R.b64) R.om)

/-- `XfrBody` -/
def readXfrBody : Reader (XfrBody S) := do
  I.tuple 5
  let ins ← readVec I (readBar I R)
  let outs ← readVec I (readBar I R)
  I.tuple 2
  let p ← readAmountProof I R
  I.tuple 3
  let tp ← readVec I (readMap (readPeg I) R.tpf)
  let ip ← readIdentity I R
  let op ← readIdentity I R
  let tm ← readVec I (readVec I (readTracerMemo I R))
  let om ← readVec I (readOwnerMemo I R)
  pure ⟨ins, outs, p, tp, ip, op, tm, om⟩

/-- `XfrNote`, structs.rs:69-76, with `XfrMultiSig`, sig.rs:656-661 -/
def readXfrNote : Reader (XfrNote S) := do
  I.tuple 2
  let b ← readXfrBody I R
  I.tuple 1
  let s ← readVec I (readLeaf I R.sg)
  pure ⟨b, s⟩

/-- `AxfrOwnerMemo` -/
def readAxfrMemo : Reader (Bytes × Bytes) := do
  I.tuple 2
  let a ← I.bytes
  let b ← readVec I I.u8
  pure (a, b)

variable {K Pf : Type} (bls : Bytes → Res K) (pf : WPlonk → Res Pf)

/-- `AnonAssetRecord` -/
def readAbar : Reader K := do
  I.tuple 1
  readLeaf I bls

/-- `ArToAbarBody` -/
def readArToAbarBody : Reader (ArToAbarBody S K Pf) := do
  I.tuple 4
  let i ← readBar I R
  let o ← readAbar I bls
  let p ← readMap (readPlonk I) pf
  let m ← readAxfrMemo I
  pure ⟨i, o, p, m⟩

/-- `ArToAbarNote`, ar_to_abar.rs:27-33 -/
def readArToAbarNote : Reader (ArToAbarNote S K Pf) := do
  I.tuple 2
  let b ← readArToAbarBody I R bls pf
  let s ← readLeaf I R.sg
  pure ⟨b, s⟩

/-- `DelegatedSchnorrProof` -/
def readSchnorr {G F : Type} (pt : Bytes → Res G) (sc : Bytes → Res F) : Reader (DelegatedSchnorr.Proof F G K) := do
  I.tuple 4
  let c ← readLeaf I bls
  let r ← readVec I (readLeaf I pt)
  let e ← readVec I (do
    I.tuple 2
    let a ← readLeaf I sc
    let b ← readLeaf I sc
    pure (a, b))
  I.unitStruct
  pure ⟨c, r, e⟩

variable {Q : SimFr.Params} (pt : Bytes → Res S.G) (sc : Bytes → Res (ZMod Q.r))

/-- `BarToAbarBody` -/
def readBarToAbarBody : Reader (BarToAbarBody S Q K Pf) := do
  I.tuple 4
  let i ← readBar I R
  let o ← readAbar I bls
  I.tuple 2
  let s ← readSchnorr I bls pt sc
  let p ← readMap (readPlonk I) pf
  let m ← readAxfrMemo I
  pure ⟨i, o, s, p, m⟩

/-- `BarToAbarNote`, bar_to_abar.rs:38-44 -/
def readBarToAbarNote : Reader (BarToAbarNote S Q K Pf) := do
  I.tuple 2
  let b ← readBarToAbarBody I R bls pf pt sc
  let s ← readLeaf I R.sg
  pure ⟨b, s⟩

variable {P : SimFr.Params} {G Mp : Type} (fpt : Bytes → Res G) (fsc : Bytes → Res (ZMod P.r)) (mul : Bytes → Res Mp)

/-- `AXfrAddressFoldingInstance`, address_folding.rs:22-32 -/
def readFold : Reader (FoldInst P K G Mp) := do
  I.tuple 3
  let s ← readSchnorr I bls fpt fsc
  let c ← readVec I (readLeaf I fpt)
  let m ← readLeaf I mul
  pure ⟨s, c, m⟩

/-- `AbarToArNote` with the two fields that its model leaves out, abar_to_ar.rs:41-75 -/
def readAbarToArNote : Reader (AbarToArNote S P K Pf G Mp × UInt64 × Option S.OM) := do
  I.tuple 3
  I.tuple 5
  let i ← readLeaf I bls
  let o ← readBar I R
  let r ← readLeaf I bls
  let v ← I.u64
  let m ← readOwnerMemo I R
  let p ← readMap (readPlonk I) pf
  let f ← readFold I bls fpt fsc mul
  pure (⟨i, o, r, p, f⟩, v, m)

/-- `AbarToBarNote` with the two fields that its model leaves out, abar_to_bar.rs:50-94 -/
def readAbarToBarNote : Reader (AbarToBarNote S P Q K Pf G Mp × UInt64 × Option S.OM) := do
  I.tuple 3
  I.tuple 6
  let i ← readLeaf I bls
  let o ← readBar I R
  let s ← readSchnorr I bls pt sc
  let r ← readLeaf I bls
  let v ← I.u64
  let m ← readOwnerMemo I R
  let p ← readMap (readPlonk I) pf
  let f ← readFold I bls fpt fsc mul
  pure (⟨i, o, s, r, p, f⟩, v, m)

/-- the memo of an anonymous transfer; the point is `A` -/
def readAMemo {A : Type} (apk : Bytes → Res A) : Reader (Anon.AMemo A) := do
  I.tuple 2
  let a ← readLeaf I apk
  let b ← readVec I I.u8
  pure ⟨a, b⟩

/-- `AXfrNote` and `AXfrBody`, abar_to_abar.rs:40-48, 61-76 -/
def readAXfrNote {A : Type} (apk : Bytes → Res A) : Reader (Anon.XfrNote P K A Pf G Mp) := do
  I.tuple 3
  I.tuple 6
  let i ← readVec I (readLeaf I bls)
  let o ← readVec I (readAbar I bls)
  let r ← readLeaf I bls
  let v ← I.u64
  let f ← I.u32
  let m ← readVec I (readAMemo I apk)
  let p ← readMap (readPlonk I) pf
  let fo ← readFold I bls fpt fsc mul
  pure ⟨⟨i, o, r, v, f, m⟩, p, fo⟩

end

/-! ### Writers of the notes -/

section
variable (F : Format) {S : Types} (L : Leaves S) (sg : S.Sg → Bytes)

/-- `XfrNote` -/
def serXfrNote (n : XfrNote S) : Bytes :=
  F.tuple 2 ++ (serXfrBody F L n.body ++ (F.tuple 1 ++ serVec F (fun s => F.bytes (sg s)) n.signatures))

variable {K Pf : Type} (bls : K → Bytes) (pf : Pf → WPlonk)

/-- `ArToAbarNote` -/
def serArToAbarNote (n : ArToAbarNote S K Pf) : Bytes := F.tuple 2 ++ (serArToAbar F L bls pf n.body ++ F.bytes (sg n.signature))

variable {Q : SimFr.Params} (pt : S.G → Bytes) (sc : ZMod Q.r → Bytes)

/-- `BarToAbarNote` -/
def serBarToAbarNote (n : BarToAbarNote S Q K Pf) : Bytes :=
  F.tuple 2 ++ (serBarToAbar F L bls pf pt sc n.body ++ F.bytes (sg n.signature))

/-- `DelegatedSchnorrProof` over any curve -/
def serSchnorrOf {G E : Type} (pt : G → Bytes) (sc : E → Bytes) (p : DelegatedSchnorr.Proof E G K) : Bytes :=
  F.tuple 4 ++ (F.bytes (bls p.comm) ++ (serVec F (fun g => F.bytes (pt g)) p.randomizers ++
    (serVec F (fun e : E × E => F.tuple 2 ++ (F.bytes (sc e.1) ++ F.bytes (sc e.2))) p.responses ++ F.unitStruct)))

variable {P : SimFr.Params} {G Mp : Type} (fpt : G → Bytes) (fsc : ZMod P.r → Bytes) (mul : Mp → Bytes)

/-- `AXfrAddressFoldingInstance` -/
def serFold (f : FoldInst P K G Mp) : Bytes :=
  F.tuple 3 ++ (serSchnorrOf F bls fpt fsc f.schnorr ++ (serVec F (fun g => F.bytes (fpt g)) f.coms ++ F.bytes (mul f.mul)))

/-- `Option<OwnerMemo>` -/
def serOwnerMemo (m : Option S.OM) : Bytes := serOption F (fun m => serMemo F (L.om m)) m

/-- `AbarToArNote` -/
def serAbarToArNote (n : AbarToArNote S P K Pf G Mp × UInt64 × Option S.OM) : Bytes :=
  F.tuple 3 ++ ((F.tuple 5 ++ (F.bytes (bls n.1.input) ++ (serBar F L n.1.output ++ (F.bytes (bls n.1.root) ++
    (F.u64 n.2.1 ++ serOwnerMemo F L n.2.2))))) ++ (serPlonk F (pf n.1.proof) ++ serFold F bls fpt fsc mul n.1.folding))

/-- `AbarToBarNote` -/
def serAbarToBarNote (n : AbarToBarNote S P Q K Pf G Mp × UInt64 × Option S.OM) : Bytes :=
  F.tuple 3 ++ ((F.tuple 6 ++ (F.bytes (bls n.1.input) ++ (serBar F L n.1.output ++ (serSchnorrOf F bls pt sc n.1.schnorr ++
    (F.bytes (bls n.1.root) ++ (F.u64 n.2.1 ++ serOwnerMemo F L n.2.2)))))) ++
    (serPlonk F (pf n.1.proof) ++ serFold F bls fpt fsc mul n.1.folding))

/-- memo of an anonymous transfer -/
def serAMemo {A : Type} (apk : A → Bytes) (m : Anon.AMemo A) : Bytes := F.tuple 2 ++ (F.bytes (apk m.point) ++ serVec F F.u8 m.ctext)

/-- `AXfrNote` -/
def serAXfrNote {A : Type} (apk : A → Bytes) (n : Anon.XfrNote P K A Pf G Mp) : Bytes :=
  F.tuple 3 ++ ((F.tuple 6 ++ (serVec F (fun x => F.bytes (bls x)) n.body.inputs ++
    (serVec F (fun x => F.tuple 1 ++ F.bytes (bls x)) n.body.outputs ++ (F.bytes (bls n.body.root) ++ (F.u64 n.body.version ++
    (F.u32 n.body.fee ++ serVec F (serAMemo F apk) n.body.memos)))))) ++
    (serPlonk F (pf n.proof) ++ serFold F bls fpt fsc mul n.folding))

end

end Verif.Serde
