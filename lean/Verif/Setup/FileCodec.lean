import Verif.Setup.Model
import Verif.Serde.Read

/-!
The parameter files as bytes: `bincode` of `VerifierParamsSplitCommon`, `VerifierParamsSplitSpecific`, `VerifierParams`
(api/src/setup.rs:62-87, derived `Serialize` and `Deserialize`) and of the table of api/src/gen-params.rs:86-113, with everything they
contain: `KZGCommitmentScheme` (plonk/src/poly_commit/kzg_poly_com.rs:114-120), `TurboCS` (plonk/src/plonk/constraint_system/turbo.rs:
20-54) and `PlonkVerifierParams` (plonk/src/plonk/indexer.rs:91-109).  The formats are those of Verif/Serde/Format.lean and
Verif/Serde/Read.lean; structs and arrays have no heads there, and a newtype struct is its content.
-/

namespace Verif.Setup

open Verif.Poly Verif.Plonk Verif.Snark Verif.Serde

/-! ### Pieces -/

/-- One piece after another.  A writer gives `none` for a value that the code cannot have: a number or a length that is not a `usize`,
an array of another length. -/
def joinW (a b : Option Bytes) : Option Bytes :=
  match a, b with
  | some x, some y => some (x ++ y)
  | _, _ => none

@[inherit_doc] infixr:65 " +++ " => joinW

theorem joinW_some {a b : Option Bytes} {c : Bytes} : a +++ b = some c ↔ ∃ x y, a = some x ∧ b = some y ∧ c = x ++ y := by
  cases a <;> cases b <;> simp [joinW, eq_comm]

/-- `serialize_u64` for a `usize` -/
def wUsize (n : Nat) : Option Bytes := if n < 2 ^ 64 then some (bincode.u64 (UInt64.ofNat n)) else none

/-- `deserialize_u64` for a `usize` -/
def rUsize : Reader Nat := do
  let x ← bincodeIn.u64
  pure x.toNat

/-- `serialize_bool` of bincode: one byte -/
def wBool (b : Bool) : Option Bytes := some [if b then 1 else 0]

/-- `deserialize_bool` of bincode: other bytes are an error (`InvalidBoolEncoding`) -/
def rBool : Reader Bool := do
  let b ← nextByte
  if b = 0 then pure false else if b = 1 then pure true else refuse

/-- `serialize_u8`, for the entries of the table, which are written as sequences -/
def wByte (b : UInt8) : Option Bytes := some (bincode.u8 b)

/-- values one after the other -/
def wAll {α : Type} (w : α → Option Bytes) : List α → Option Bytes
  | [] => some []
  | a :: l => w a +++ wAll w l

/-- `Vec<T>` -/
def wSeq {α : Type} (w : α → Option Bytes) (l : List α) : Option Bytes :=
  if l.length < 2 ^ 64 then some (bincode.seq l.length) +++ wAll w l else none

/-- `Vec<T>` -/
def rSeq {α : Type} (r : Reader α) : Reader (List α) := do
  let n ← bincodeIn.seq
  readN r n

/-- `[T; n]` -/
def wArr {α : Type} (n : Nat) (w : α → Option Bytes) (l : List α) : Option Bytes := if l.length = n then wAll w l else none

/-- `[T; n]` -/
def rArr {α : Type} (n : Nat) (r : Reader α) : Reader (List α) := readN r n

/-- `zei_to_bytes` and `zei_from_bytes` of a scalar or a point, algebra/src/serialization.rs:15-33, 71-84 -/
structure Obj (T : Type) where
  toBytes : T → Bytes
  fromBytes : Bytes → Res T

/-- what is assumed of them -/
structure Obj.Laws {T : Type} (O : Obj T) : Prop where
  from_to : ∀ x, O.fromBytes (O.toBytes x) = .ok x
  len : ∀ x, (O.toBytes x).length ≤ 1000

/-- `serialize` of the macro `serialize_deserialize!`, algebra/src/lib.rs:78-88, for a format that is not human readable -/
def Obj.write {T : Type} (O : Obj T) (x : T) : Option Bytes :=
  if (O.toBytes x).length < 2 ^ 64 then some (bincode.bytes (O.toBytes x)) else none

/-- `deserialize` of the macro, lib.rs:91-103 -/
def Obj.read {T : Type} (O : Obj T) : Reader T := do
  let b ← bincodeIn.bytes
  lift (O.fromBytes b)

/-- the scalars: `zei_to_bytes` and `zei_from_bytes` of `BLSScalar`, serialization.rs:15-33 -/
def scalarObj : Obj (ZMod Codec.bls.q) := ⟨Codec.bls.toBytes, Codec.bls.fromBytes⟩

theorem scalarObj_laws : scalarObj.Laws := by
  haveI : NeZero Codec.bls.q := ⟨by decide +kernel⟩
  have e : ∀ x : ZMod Codec.bls.q, scalarObj.toBytes x = leBytes 32 x.val := by
    intro x
    show (leBytes 32 x.val).take 32 = _
    rw [List.take_of_length_le (by rw [leBytes_length])]
  refine ⟨fun x => ?_, fun x => by rw [e, leBytes_length]; omega⟩
  rw [e]
  show (if (leBytes 32 x.val).length > 32 then Res.err else Res.ok ((ofLE (leBytes 32 x.val) : Nat) : ZMod Codec.bls.q)) = _
  rw [leBytes_length, if_neg (by omega), ofLE_leBytes_of_lt (lt_trans (ZMod.val_lt x) (by decide +kernel)), ZMod.natCast_zmod_val]

/-- the points: `zei_to_bytes` and `zei_from_bytes` of `BLSG1` and `BLSG2`, serialization.rs:71-84 -/
def pointObj (C : Codec.ArkPoint) : Obj C.P := ⟨C.toBytes, C.fromBytes⟩

theorem pointObj_laws {C : Codec.ArkPoint} (L : C.Laws) (h : C.len ≤ 1000) : (pointObj C).Laws := by
  refine ⟨fun x => ?_, fun x => by show (C.ser x).length ≤ 1000; rw [L.len_ser]; exact h⟩
  have e : (C.ser x).take C.len = C.ser x := List.take_of_length_le (by rw [L.len_ser])
  show C.fromBytes (C.ser x) = _
  unfold Codec.ArkPoint.fromBytes
  rw [dif_pos (by rw [e, L.len_ser])]
  have : (⟨(C.ser x).take C.len, by rw [e, L.len_ser]⟩ : Codec.Arr C.len) = ⟨C.ser x, L.len_ser x⟩ := Subtype.ext e
  rw [this, L.de_ser]
  rfl

/-! ### Structs -/

section
variable {F G1 G2 : Type}

/-- the fields of `TurboCS`, turbo.rs:22-49, in their order -/
structure WireCs (F : Type) where
  selectors : List (List F)
  wiring : List (List Nat)
  keysX : List (List F)
  keysY : List (List F)
  gen : F
  genInv : F
  anemoi : List Nat
  numVars : Nat
  size : Nat
  pubCons : List Nat
  pubVars : List Nat
  boolIdx : List Nat
  verifierOnly : Bool
  witness : List F

/-- derived `Serialize` of `TurboCS`, turbo.rs:20 -/
def WireCs.write (O : Obj F) (c : WireCs F) : Option Bytes :=
  wSeq (wSeq O.write) c.selectors +++ wArr 5 (wSeq wUsize) c.wiring +++ wArr 12 (wArr 2 O.write) c.keysX +++
  wArr 12 (wArr 2 O.write) c.keysY +++ O.write c.gen +++ O.write c.genInv +++ wSeq wUsize c.anemoi +++ wUsize c.numVars +++
  wUsize c.size +++ wSeq wUsize c.pubCons +++ wSeq wUsize c.pubVars +++ wSeq wUsize c.boolIdx +++ wBool c.verifierOnly +++
  wSeq O.write c.witness

/-- derived `Deserialize` of `TurboCS`, turbo.rs:20 -/
def WireCs.read (O : Obj F) : Reader (WireCs F) := do
  let selectors ← rSeq (rSeq O.read)
  let wiring ← rArr 5 (rSeq rUsize)
  let keysX ← rArr 12 (rArr 2 O.read)
  let keysY ← rArr 12 (rArr 2 O.read)
  let gen ← O.read
  let genInv ← O.read
  let anemoi ← rSeq rUsize
  let numVars ← rUsize
  let size ← rUsize
  let pubCons ← rSeq rUsize
  let pubVars ← rSeq rUsize
  let boolIdx ← rSeq rUsize
  let verifierOnly ← rBool
  let witness ← rSeq O.read
  pure ⟨selectors, wiring, keysX, keysY, gen, genInv, anemoi, numVars, size, pubCons, pubVars, boolIdx, verifierOnly, witness⟩

/-- the fields that `shrink_to_verifier_only` leaves, turbo.rs:191-208.  Full systems are not written: `gen-params` cuts down all
systems first. -/
def ParCs.wire [Zero F] : ParCs F → Option (WireCs F)
  | .full _ => none
  | .shrunk numVars size =>
    some ⟨[], List.replicate 5 [], List.replicate 12 (List.replicate 2 0), List.replicate 12 (List.replicate 2 0), 0, 0, [],
      numVars.toNat, size, [], [], [], true, []⟩

/-- what the model keeps of a system that was read.  Simplified: one that is not cut down is refused. -/
def ParCs.ofWire (c : WireCs F) : Res (ParCs F) :=
  if c.verifierOnly then .ok (.shrunk (UInt64.ofNat c.numVars) c.size) else .err

/-- `TurboCS` in a file -/
def ParCs.write [Zero F] (O : Obj F) (c : ParCs F) : Option Bytes := c.wire.bind (WireCs.write O)

/-- `TurboCS` from a file -/
def ParCs.read (O : Obj F) : Reader (ParCs F) := do
  let c ← WireCs.read O
  lift (ParCs.ofWire c)

/-- derived `Serialize` of `KZGCommitmentScheme`, kzg_poly_com.rs:114-120 -/
def writeKey (O1 : Obj G1) (O2 : Obj G2) (pp : Params G1 G2) : Option Bytes := wSeq O1.write pp.group1 +++ wSeq O2.write pp.group2

/-- derived `Deserialize` of `KZGCommitmentScheme`, kzg_poly_com.rs:114-120 -/
def readKey (O1 : Obj G1) (O2 : Obj G2) : Reader (Params G1 G2) := do
  let g1 ← rSeq O1.read
  let g2 ← rSeq O2.read
  pure ⟨g1, g2⟩

/-- derived `Serialize` of `PlonkVerifierParams`, indexer.rs:91-109 -/
def writeVK (O : Obj F) (O1 : Obj G1) (vk : VK G1 F) : Option Bytes :=
  wSeq O1.write vk.cmQ +++ wSeq O1.write vk.cmS +++ O1.write vk.cmQb +++ wSeq O.write vk.k +++ O.write vk.root +++ wUsize vk.csSize +++
  wSeq wUsize vk.pubCons +++ wSeq O.write vk.lagrange

/-- derived `Deserialize` of `PlonkVerifierParams`, indexer.rs:91-109 -/
def readVK (O : Obj F) (O1 : Obj G1) : Reader (VK G1 F) := do
  let cmQ ← rSeq O1.read
  let cmS ← rSeq O1.read
  let cmQb ← O1.read
  let k ← rSeq O.read
  let root ← O.read
  let csSize ← rUsize
  let pubCons ← rSeq rUsize
  let lagrange ← rSeq O.read
  pure { cmQ := cmQ, cmS := cmS, cmQb := cmQb, k := k, root := root, csSize := csSize, pubCons := pubCons, lagrange := lagrange }

/-- derived `Serialize` of `VerifierParamsSplitSpecific`, setup.rs:80-87 -/
def writeSpecific [Zero F] (O : Obj F) (O1 : Obj G1) (x : Specific F G1) : Option Bytes := x.cs.write O +++ writeVK O O1 x.vk

/-- derived `Deserialize` of `VerifierParamsSplitSpecific`, setup.rs:80-87 -/
def readSpecific (O : Obj F) (O1 : Obj G1) : Reader (Specific F G1) := do
  let cs ← ParCs.read O
  let vk ← readVK O O1
  pure ⟨cs, vk⟩

/-- derived `Serialize` of `VerifierParams`, setup.rs:62-71 -/
def writeParams [Zero F] (O : Obj F) (O1 : Obj G1) (O2 : Obj G2) (v : VerifierParams F G1 G2) : Option Bytes :=
  writeKey O1 O2 v.pcs +++ v.cs.write O +++ writeVK O O1 v.vk

/-- derived `Deserialize` of `VerifierParams`, setup.rs:62-71 -/
def readParams (O : Obj F) (O1 : Obj G1) (O2 : Obj G2) : Reader (VerifierParams F G1 G2) := do
  let pcs ← readKey O1 O2
  let cs ← ParCs.read O
  let vk ← readVK O O1
  pure ⟨pcs, cs, vk⟩

/-- `bincode::deserialize`: bytes after the value are ignored -/
def runReader {α : Type} (r : Reader α) (b : Bytes) : Option α :=
  match r b with
  | .ok (a, _) => some a
  | _ => none

/-- `bincode::serialize` and `bincode::deserialize` for `VerifierParams` -/
def paramsBin [Zero F] (O : Obj F) (O1 : Obj G1) (O2 : Obj G2) : Bin (VerifierParams F G1 G2) :=
  ⟨writeParams O O1 O2, runReader (readParams O O1 O2)⟩

/-- `bincode::serialize` and `bincode::deserialize` for the files of anonymous transfers -/
def transferBins [Zero F] (O : Obj F) (O1 : Obj G1) (O2 : Obj G2) : FileBins F G1 G2 where
  common := ⟨writeKey O1 O2, runReader (readKey O1 O2)⟩
  specific := ⟨writeSpecific O O1, runReader (readSpecific O O1)⟩
  table := ⟨wSeq (wSeq (wSeq wByte)), runReader (rSeq (rSeq (rSeq bincodeIn.u8)))⟩

end

/-! ### What was written is read back -/

/-- what was written is read back, and the input is left at what follows -/
def Back {α : Type} (w : α → Option Bytes) (r : Reader α) : Prop := ∀ a b t, w a = some b → r (b ++ t) = .ok (a, t)

theorem back_usize : Back wUsize rUsize := by
  intro n b t h
  unfold wUsize at h
  split_ifs at h with hn
  obtain rfl := Option.some.inj h
  rw [rUsize, bind_of (bincode_paired.u64 _ t), pure_of, UInt64.toNat_ofNat', Nat.mod_eq_of_lt hn]

theorem back_bool : Back wBool rBool := by
  intro x b t h
  obtain rfl := Option.some.inj h
  cases x <;> rfl

theorem back_byte : Back wByte bincodeIn.u8 := by
  intro x b t h
  obtain rfl := Option.some.inj h
  rfl

theorem back_all {α : Type} {w : α → Option Bytes} {r : Reader α} (hb : Back w r) (l : List α) (b t : Bytes) (h : wAll w l = some b) :
    readN r l.length (b ++ t) = .ok (l, t) := by
  induction l generalizing b with
  | nil => obtain rfl := Option.some.inj h; rfl
  | cons a l ih =>
    obtain ⟨x, y, hx, hy, rfl⟩ := joinW_some.mp h
    rw [List.length_cons, readN, List.append_assoc, bind_of (hb a x _ hx), bind_of (ih y hy), pure_of]

theorem back_seq {α : Type} {w : α → Option Bytes} {r : Reader α} (hb : Back w r) : Back (wSeq w) (rSeq r) := by
  intro l b t h
  unfold wSeq at h
  split_ifs at h with hl
  obtain ⟨x, y, hx, hy, rfl⟩ := joinW_some.mp h
  obtain rfl := Option.some.inj hx
  have hs : ∀ u, bincodeIn.seq (bincode.seq l.length ++ u) = .ok (l.length, u) := fun u => readLE_leBytes (by omega) u
  rw [rSeq, List.append_assoc, bind_of (hs _), back_all hb l y t hy]

theorem back_arr {α : Type} {w : α → Option Bytes} {r : Reader α} (hb : Back w r) (n : Nat) : Back (wArr n w) (rArr n r) := by
  intro l b t h
  unfold wArr at h
  split_ifs at h with hl
  subst hl
  exact back_all hb l b t h

theorem back_obj {T : Type} {O : Obj T} (L : O.Laws) : Back O.write O.read := by
  intro x b t h
  unfold Obj.write at h
  split_ifs at h with hl
  obtain rfl := Option.some.inj h
  have hs : bincodeIn.bytes (bincode.bytes (O.toBytes x) ++ t) = .ok (O.toBytes x, t) := by
    simp only [bincode, bincodeIn, List.append_assoc]
    rw [bind_of (readLE_leBytes (by omega) _), takeBytes_append]
  rw [Obj.read, bind_of hs, lift_ok (L.from_to x)]

section
variable {F G1 G2 : Type} {O : Obj F} {O1 : Obj G1} {O2 : Obj G2}

theorem back_wire (L : O.Laws) : Back (WireCs.write O) (WireCs.read O) := by
  intro c b t h
  rw [WireCs.write] at h
  obtain ⟨x1, y1, h1, k1, rfl⟩ := joinW_some.mp h
  obtain ⟨x2, y2, h2, k2, rfl⟩ := joinW_some.mp k1
  obtain ⟨x3, y3, h3, k3, rfl⟩ := joinW_some.mp k2
  obtain ⟨x4, y4, h4, k4, rfl⟩ := joinW_some.mp k3
  obtain ⟨x5, y5, h5, k5, rfl⟩ := joinW_some.mp k4
  obtain ⟨x6, y6, h6, k6, rfl⟩ := joinW_some.mp k5
  obtain ⟨x7, y7, h7, k7, rfl⟩ := joinW_some.mp k6
  obtain ⟨x8, y8, h8, k8, rfl⟩ := joinW_some.mp k7
  obtain ⟨x9, y9, h9, k9, rfl⟩ := joinW_some.mp k8
  obtain ⟨x10, y10, h10, k10, rfl⟩ := joinW_some.mp k9
  obtain ⟨x11, y11, h11, k11, rfl⟩ := joinW_some.mp k10
  obtain ⟨x12, y12, h12, k12, rfl⟩ := joinW_some.mp k11
  obtain ⟨x13, x14, h13, h14, rfl⟩ := joinW_some.mp k12
  have o := back_obj L
  have u := back_seq back_usize
  simp only [List.append_assoc]
  rw [WireCs.read, bind_of (back_seq (back_seq o) _ _ _ h1), bind_of (back_arr u 5 _ _ _ h2), bind_of (back_arr (back_arr o 2) 12 _ _ _ h3),
    bind_of (back_arr (back_arr o 2) 12 _ _ _ h4), bind_of (o _ _ _ h5), bind_of (o _ _ _ h6), bind_of (u _ _ _ h7),
    bind_of (back_usize _ _ _ h8), bind_of (back_usize _ _ _ h9), bind_of (u _ _ _ h10), bind_of (u _ _ _ h11), bind_of (u _ _ _ h12),
    bind_of (back_bool _ _ _ h13), bind_of (back_seq o _ _ _ h14)]
  rfl

theorem back_cs [Zero F] (L : O.Laws) : Back (ParCs.write O) (ParCs.read O) := by
  intro c b t h
  cases c with
  | full cs => cases h
  | shrunk v n =>
    rw [ParCs.read, bind_of (back_wire L _ b t h), lift_ok]
    simp [ParCs.ofWire]

theorem back_key (L1 : O1.Laws) (L2 : O2.Laws) : Back (writeKey O1 O2) (readKey O1 O2) := by
  intro pp b t h
  obtain ⟨x, y, hx, hy, rfl⟩ := joinW_some.mp h
  rw [readKey, List.append_assoc, bind_of (back_seq (back_obj L1) _ _ _ hx), bind_of (back_seq (back_obj L2) _ _ _ hy)]
  rfl

theorem back_vk (L : O.Laws) (L1 : O1.Laws) : Back (writeVK O O1) (readVK O O1) := by
  intro vk b t h
  rw [writeVK] at h
  obtain ⟨x1, y1, h1, k1, rfl⟩ := joinW_some.mp h
  obtain ⟨x2, y2, h2, k2, rfl⟩ := joinW_some.mp k1
  obtain ⟨x3, y3, h3, k3, rfl⟩ := joinW_some.mp k2
  obtain ⟨x4, y4, h4, k4, rfl⟩ := joinW_some.mp k3
  obtain ⟨x5, y5, h5, k5, rfl⟩ := joinW_some.mp k4
  obtain ⟨x6, y6, h6, k6, rfl⟩ := joinW_some.mp k5
  obtain ⟨x7, x8, h7, h8, rfl⟩ := joinW_some.mp k6
  have o := back_obj L
  have o1 := back_obj L1
  simp only [List.append_assoc]
  rw [readVK, bind_of (back_seq o1 _ _ _ h1), bind_of (back_seq o1 _ _ _ h2), bind_of (o1 _ _ _ h3), bind_of (back_seq o _ _ _ h4),
    bind_of (o _ _ _ h5), bind_of (back_usize _ _ _ h6), bind_of (back_seq back_usize _ _ _ h7), bind_of (back_seq o _ _ _ h8)]
  rfl

theorem back_specific [Zero F] (L : O.Laws) (L1 : O1.Laws) : Back (writeSpecific O O1) (readSpecific O O1) := by
  intro x b t h
  obtain ⟨y, z, hy, hz, rfl⟩ := joinW_some.mp h
  rw [readSpecific, List.append_assoc, bind_of (back_cs L _ _ _ hy), bind_of (back_vk L L1 _ _ _ hz)]
  rfl

theorem back_params [Zero F] (L : O.Laws) (L1 : O1.Laws) (L2 : O2.Laws) : Back (writeParams O O1 O2) (readParams O O1 O2) := by
  intro v b t h
  rw [writeParams] at h
  obtain ⟨x, y, hx, k, rfl⟩ := joinW_some.mp h
  obtain ⟨z, w, hz, hw, rfl⟩ := joinW_some.mp k
  rw [readParams, List.append_assoc, List.append_assoc, bind_of (back_key L1 L2 _ _ _ hx), bind_of (back_cs L _ _ _ hz),
    bind_of (back_vk L L1 _ _ _ hw)]
  rfl

theorem back_table : Back (wSeq (wSeq (wSeq wByte))) (rSeq (rSeq (rSeq bincodeIn.u8))) := back_seq (back_seq (back_seq back_byte))

end

theorem Back.run {α : Type} {w : α → Option Bytes} {r : Reader α} (hb : Back w r) (a : α) (b t : Bytes) (h : w a = some b) :
    runReader r (b ++ t) = some a := by
  rw [runReader, hb a b t h]

theorem Back.lawful {α : Type} {w : α → Option Bytes} {r : Reader α} (hb : Back w r) : (⟨w, runReader r⟩ : Bin α).Lawful := by
  intro a b h
  have := hb.run a b [] h
  rwa [List.append_nil] at this

/-! ### A file that was cut off is refused -/

/-- a reader does not look at what follows -/
def Ext {α : Type} (r : Reader α) : Prop := ∀ s a q t, r s = .ok (a, q) → r (s ++ t) = .ok (a, q ++ t)

theorem ext_pure {α : Type} (a : α) : Ext (pure a) := by
  intro s x q t h
  rw [pure_of] at h ⊢
  simp only [Res.ok.injEq, Prod.mk.injEq] at h
  rw [h.1, h.2]

theorem ext_refuse {α : Type} : Ext (refuse : Reader α) := by
  intro s x q t h
  cases h

theorem ext_bind {α β : Type} {x : Reader α} {f : α → Reader β} (hx : Ext x) (hf : ∀ a, Ext (f a)) : Ext (x >>= f) := by
  intro s b q t h
  change (x s >>= fun p => f p.1 p.2) = _ at h
  obtain ⟨⟨a, u⟩, h1, h2⟩ := Res.bind_eq_ok.mp h
  rw [bind_of (hx s a u t h1)]
  exact hf a u b q t h2

theorem ext_lift {α : Type} (x : Res α) : Ext (lift x) := by
  intro s a q t h
  obtain ⟨b, h1, h2⟩ := Res.bind_eq_ok.mp h
  simp only [Res.ok.injEq, Prod.mk.injEq] at h2
  rw [lift_ok h1, ← h2.1, ← h2.2]

theorem ext_take (n : Nat) : Ext (takeBytes n) := by
  intro s a q t h
  unfold takeBytes at h ⊢
  split_ifs at h with hn
  simp only [Res.ok.injEq, Prod.mk.injEq] at h
  rw [if_neg (by rw [List.length_append]; omega), List.take_append_of_le_length (by omega), List.drop_append_of_le_length (by omega),
    h.1, h.2]

theorem ext_next : Ext nextByte := by
  intro s a q t h
  cases s with
  | nil => cases h
  | cons b s =>
    rw [nextByte_cons] at h
    simp only [Res.ok.injEq, Prod.mk.injEq] at h
    rw [List.cons_append, nextByte_cons, h.1, h.2]

theorem ext_readN {α : Type} {r : Reader α} (hr : Ext r) (n : Nat) : Ext (readN r n) := by
  induction n with
  | zero => exact ext_pure _
  | succ n ih => exact ext_bind hr fun a => ext_bind ih fun l => ext_pure _

theorem ext_readLE (w : Nat) : Ext (readLE w) := ext_bind (ext_take w) fun _ => ext_pure _

theorem ext_usize : Ext rUsize := ext_bind (ext_bind (ext_readLE 8) fun _ => ext_pure _) fun _ => ext_pure _

theorem ext_bool : Ext rBool := ext_bind ext_next fun b => by
  show Ext (if b = 0 then pure false else if b = 1 then pure true else refuse)
  split_ifs
  · exact ext_pure _
  · exact ext_pure _
  · exact ext_refuse

theorem ext_seq {α : Type} {r : Reader α} (hr : Ext r) : Ext (rSeq r) := ext_bind (ext_readLE 8) fun n => ext_readN hr n

theorem ext_obj {T : Type} (O : Obj T) : Ext O.read :=
  ext_bind (ext_bind (ext_readLE 8) fun n => ext_take n) fun b => ext_lift _

section
variable {F G1 G2 : Type} (O : Obj F) (O1 : Obj G1) (O2 : Obj G2)

theorem ext_wire : Ext (WireCs.read O) :=
  ext_bind (ext_seq (ext_seq (ext_obj O))) fun _ => ext_bind (ext_readN (ext_seq ext_usize) 5) fun _ =>
  ext_bind (ext_readN (ext_readN (ext_obj O) 2) 12) fun _ => ext_bind (ext_readN (ext_readN (ext_obj O) 2) 12) fun _ =>
  ext_bind (ext_obj O) fun _ => ext_bind (ext_obj O) fun _ => ext_bind (ext_seq ext_usize) fun _ => ext_bind ext_usize fun _ =>
  ext_bind ext_usize fun _ => ext_bind (ext_seq ext_usize) fun _ => ext_bind (ext_seq ext_usize) fun _ =>
  ext_bind (ext_seq ext_usize) fun _ => ext_bind ext_bool fun _ => ext_bind (ext_seq (ext_obj O)) fun _ => ext_pure _

theorem ext_cs : Ext (ParCs.read O) := ext_bind (ext_wire O) fun _ => ext_lift _

theorem ext_key : Ext (readKey O1 O2) :=
  ext_bind (ext_seq (ext_obj O1)) fun _ => ext_bind (ext_seq (ext_obj O2)) fun _ => ext_pure _

theorem ext_vk : Ext (readVK O O1) :=
  ext_bind (ext_seq (ext_obj O1)) fun _ => ext_bind (ext_seq (ext_obj O1)) fun _ => ext_bind (ext_obj O1) fun _ =>
  ext_bind (ext_seq (ext_obj O)) fun _ => ext_bind (ext_obj O) fun _ => ext_bind ext_usize fun _ =>
  ext_bind (ext_seq ext_usize) fun _ => ext_bind (ext_seq (ext_obj O)) fun _ => ext_pure _

theorem ext_specific : Ext (readSpecific O O1) := ext_bind (ext_cs O) fun _ => ext_bind (ext_vk O O1) fun _ => ext_pure _

theorem ext_params : Ext (readParams O O1 O2) :=
  ext_bind (ext_key O1 O2) fun _ => ext_bind (ext_cs O) fun _ => ext_bind (ext_vk O O1) fun _ => ext_pure _

theorem ext_table : Ext (rSeq (rSeq (rSeq bincodeIn.u8))) := ext_seq (ext_seq (ext_seq ext_next))

end

theorem Back.cut {α : Type} {w : α → Option Bytes} {r : Reader α} (hb : Back w r) (he : Ext r) (a : α) (p t : Bytes)
    (h : w a = some (p ++ t)) (ht : t ≠ []) : runReader r p = none := by
  unfold runReader
  cases hr : r p with
  | err => rfl
  | panic => rfl
  | ok x =>
    obtain ⟨y, q⟩ := x
    have h1 := he p y q t hr
    have h2 := hb a (p ++ t) [] h
    rw [List.append_nil, h1] at h2
    simp only [Res.ok.injEq, Prod.mk.injEq] at h2
    exact absurd (List.append_eq_nil_iff.mp h2.2).2 ht

/-! ### Parameters of the sizes that occur are written -/

theorem write_usize {n : Nat} (h : n < 2 ^ 64) : ∃ b, wUsize n = some b ∧ b.length ≤ 1008 := by
  refine ⟨_, if_pos h, ?_⟩
  simp [bincode]

theorem write_obj {T : Type} {O : Obj T} (L : O.Laws) (x : T) : ∃ b, O.write x = some b ∧ b.length ≤ 1008 := by
  have := L.len x
  refine ⟨_, if_pos (by omega), ?_⟩
  simp only [bincode, List.length_append, leBytes_length]
  omega

theorem write_all {α : Type} {w : α → Option Bytes} {N : Nat} (l : List α) (h : ∀ a ∈ l, ∃ b, w a = some b ∧ b.length ≤ N) :
    ∃ b, wAll w l = some b ∧ b.length ≤ N * l.length := by
  induction l with
  | nil => exact ⟨[], rfl, by simp⟩
  | cons a l ih =>
    obtain ⟨x, hx, hx'⟩ := h a List.mem_cons_self
    obtain ⟨y, hy, hy'⟩ := ih fun a ha => h a (List.mem_cons_of_mem _ ha)
    refine ⟨x ++ y, joinW_some.mpr ⟨x, y, hx, hy, rfl⟩, ?_⟩
    rw [List.length_append, List.length_cons, Nat.mul_succ]
    omega

theorem write_seq {α : Type} {w : α → Option Bytes} {N M : Nat} (l : List α) (h : ∀ a ∈ l, ∃ b, w a = some b ∧ b.length ≤ N)
    (hl : l.length < 2 ^ 64) (hM : 8 + N * l.length ≤ M) : ∃ b, wSeq w l = some b ∧ b.length ≤ M := by
  obtain ⟨b, h1, h2⟩ := write_all l h
  refine ⟨bincode.seq l.length ++ b, ?_, ?_⟩
  · rw [wSeq, if_pos hl]
    exact joinW_some.mpr ⟨_, b, rfl, h1, rfl⟩
  · simp only [bincode, List.length_append, leBytes_length]
    omega

theorem write_join {a b : Option Bytes} {N M : Nat} (ha : ∃ x, a = some x ∧ x.length ≤ N) (hb : ∃ x, b = some x ∧ x.length ≤ M) :
    ∃ x, a +++ b = some x ∧ x.length ≤ N + M := by
  obtain ⟨x, rfl, hx⟩ := ha
  obtain ⟨y, rfl, hy⟩ := hb
  refine ⟨x ++ y, rfl, ?_⟩
  rw [List.length_append]
  omega

section
variable {F G1 G2 : Type} {O : Obj F} {O1 : Obj G1} {O2 : Obj G2}

theorem write_key (L1 : O1.Laws) (L2 : O2.Laws) (pp : Params G1 G2) (h : keyFits pp) : ∃ b, writeKey O1 O2 pp = some b := by
  obtain ⟨h1, h2⟩ := h
  obtain ⟨b, hb, -⟩ := write_join (write_seq (w := O1.write) pp.group1 (fun a _ => write_obj L1 a) (by omega) le_rfl)
    (write_seq (w := O2.write) pp.group2 (fun a _ => write_obj L2 a) (by omega) le_rfl)
  exact ⟨b, hb⟩

theorem write_arr_zero {T : Type} {O : Obj T} (L : O.Laws) (z : T) :
    ∃ b, wArr 12 (wArr 2 O.write) (List.replicate 12 (List.replicate 2 z)) = some b ∧ b.length ≤ 24192 := by
  have h1 : ∃ b, wArr 2 O.write (List.replicate 2 z) = some b ∧ b.length ≤ 2016 := by
    rw [wArr, if_pos (by simp)]
    exact write_all (N := 1008) _ fun a _ => write_obj L a
  have h2 := write_all (w := wArr 2 O.write) (N := 2016) (List.replicate 12 (List.replicate 2 z)) fun a ha => by
    rw [List.mem_replicate] at ha
    rw [ha.2]
    exact h1
  rw [wArr, if_pos (by simp)]
  exact h2

theorem write_cs [Zero F] (L : O.Laws) (v : UInt64) (n : Nat) (h : n < 2 ^ 64) :
    ∃ b, ParCs.write O (.shrunk v n) = some b ∧ b.length ≤ 100000 := by
  have e : ∀ {α : Type} (w : α → Option Bytes), ∃ b, wSeq w [] = some b ∧ b.length ≤ 8 := fun w => ⟨_, rfl, by simp [bincode]⟩
  have hv : ∃ b, wUsize v.toNat = some b ∧ b.length ≤ 1008 := write_usize v.toNat_lt
  have hw : ∃ b, wArr 5 (wSeq wUsize) (List.replicate 5 []) = some b ∧ b.length ≤ 40 := by
    rw [wArr, if_pos (by simp)]
    exact write_all (N := 8) (w := wSeq wUsize) _ fun a ha => by
      rw [List.mem_replicate] at ha
      rw [ha.2]
      exact e wUsize
  have hb : ∃ b, wBool true = some b ∧ b.length ≤ 1 := ⟨_, rfl, by simp⟩
  obtain ⟨b, h1, h2⟩ := write_join (e (wSeq O.write)) (write_join hw (write_join (write_arr_zero L 0) (write_join (write_arr_zero L 0)
    (write_join (write_obj L 0) (write_join (write_obj L 0) (write_join (e wUsize) (write_join hv (write_join (write_usize h)
    (write_join (e wUsize) (write_join (e wUsize) (write_join (e wUsize) (write_join hb (e O.write)))))))))))))
  exact ⟨b, h1, by omega⟩

theorem write_vk (L : O.Laws) (L1 : O1.Laws) (x : Specific F G1) (h : x.Fits) :
    ∃ b, writeVK O O1 x.vk = some b ∧ b.length ≤ 6000 * 2 ^ 32 := by
  obtain ⟨-, h1, h2, h3, h4, h5, h6, h7⟩ := h
  have s : ∀ {T : Type} {O : Obj T}, O.Laws → ∀ l : List T, l.length < 2 ^ 32 → ∃ b, wSeq O.write l = some b ∧ b.length ≤ 1008 * 2 ^ 32 :=
    fun L l hl => write_seq l (fun a _ => write_obj L a) (by omega) (by omega)
  have hp : ∃ b, wSeq wUsize x.vk.pubCons = some b ∧ b.length ≤ 1008 * 2 ^ 32 :=
    write_seq _ (fun a ha => write_usize (h6 a ha)) (by omega) (by omega)
  obtain ⟨b, k1, k2⟩ := write_join (s L1 _ h1) (write_join (s L1 _ h2) (write_join (write_obj L1 x.vk.cmQb) (write_join (s L _ h3)
    (write_join (write_obj L x.vk.root) (write_join (write_usize h4) (write_join hp (s L _ h7)))))))
  exact ⟨b, k1, by omega⟩

theorem write_specific [Zero F] (L : O.Laws) (L1 : O1.Laws) (x : Specific F G1) (h : x.Fits) :
    ∃ b, writeSpecific O O1 x = some b ∧ b.length < 2 ^ 64 := by
  obtain ⟨v, n, hc, hn⟩ := h.cs
  obtain ⟨b, h1, h2⟩ := write_join (write_cs (F := F) L v n hn) (write_vk L L1 x h)
  refine ⟨b, ?_, by omega⟩
  rw [writeSpecific, hc]
  exact h1

end

/-- C101: the parameters of the verifier are read back from a file as they were written, whatever follows in it.  Nothing is read from
a file that was cut off. -/
theorem C101_params_file {F G1 G2 : Type} [Zero F] (O : Obj F) (O1 : Obj G1) (O2 : Obj G2) (L : O.Laws) (L1 : O1.Laws) (L2 : O2.Laws)
    (v : VerifierParams F G1 G2) (b : Bytes) (h : (paramsBin O O1 O2).ser v = some b) :
    (∀ t, (paramsBin O O1 O2).de (b ++ t) = some v) ∧ ∀ p t, b = p ++ t → t ≠ [] → (paramsBin O O1 O2).de p = none :=
  ⟨fun t => (back_params L L1 L2).run v b t h, fun p t e ht => (back_params L L1 L2).cut (ext_params O O1 O2) v p t (e ▸ h) ht⟩

/-- C101: what is assumed of `bincode` in C88, C94 and C95 holds of it. -/
theorem C101_lawful {F G1 G2 : Type} [Zero F] (O : Obj F) (O1 : Obj G1) (O2 : Obj G2) (L : O.Laws) (L1 : O1.Laws) (L2 : O2.Laws) :
    (paramsBin O O1 O2).Lawful ∧ (paramsBin O O1 O2).Writes ∧ (transferBins O O1 O2).common.Lawful ∧
    (transferBins O O1 O2).specific.Lawful ∧ (transferBins O O1 O2).table.Lawful ∧ (transferBins O O1 O2).Writes := by
  refine ⟨(back_params L L1 L2).lawful, fun v h1 h2 => ?_, (back_key L1 L2).lawful, (back_specific L L1).lawful, back_table.lawful,
    write_key L1 L2, write_specific L L1, fun t h1 h2 => ?_⟩
  · obtain ⟨a, ha⟩ := write_key L1 L2 v.pcs h1
    obtain ⟨b, hb, -⟩ := write_specific L L1 _ h2
    obtain ⟨x, y, hx, hy, rfl⟩ := joinW_some.mp hb
    exact ⟨a ++ (x ++ y), joinW_some.mpr ⟨a, x ++ y, ha, joinW_some.mpr ⟨x, y, hx, hy, rfl⟩, rfl⟩⟩
  · have row : ∀ r : List Bytes, (∀ b ∈ r, b.length < 2 ^ 64) → r.length < 2 ^ 32 → ∃ b, wSeq (wSeq wByte) r = some b := by
      intro r hr hl
      obtain ⟨b, hb, -⟩ := write_seq (w := wSeq wByte) (N := 8 + 2 ^ 64) r (fun a ha => by
        have := hr a ha
        exact write_seq (w := wByte) (N := 1) a (fun x _ => ⟨[x], rfl, le_rfl⟩) this (by omega)) (by omega) le_rfl
      exact ⟨b, hb⟩
    have bound : ∃ N, ∀ r ∈ t, ∃ b, wSeq (wSeq wByte) r = some b ∧ b.length ≤ N := by
      clear h1
      induction t with
      | nil => exact ⟨0, by simp⟩
      | cons r t ih =>
        obtain ⟨N, hN⟩ := ih fun r hr => h2 r (List.mem_cons_of_mem _ hr)
        obtain ⟨b, hb⟩ := row r (h2 r List.mem_cons_self).2 (h2 r List.mem_cons_self).1
        refine ⟨N + b.length, fun x hx => ?_⟩
        rcases List.mem_cons.mp hx with rfl | hx
        · exact ⟨b, hb, by omega⟩
        · obtain ⟨c, hc, hc'⟩ := hN x hx
          exact ⟨c, hc, by omega⟩
    obtain ⟨N, hN⟩ := bound
    obtain ⟨b, hb, -⟩ := write_seq (w := wSeq (wSeq wByte)) t hN (by omega) le_rfl
    exact ⟨b, hb⟩

end Verif.Setup
