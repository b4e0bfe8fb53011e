import Verif.Anon.PoolConf
import Verif.Xfr.Supply

/-!
C105: the supply of the whole system.

Ordinary records (public or hidden) and the anonymous pool form one ledger: transfers of ordinary records as in C104, and the
transactions of the pool as in C103, where a conversion into the pool consumes an ordinary record and a conversion out of the pool
makes one.  In any order, they make no units of any asset type.
-/

set_option linter.unusedSectionVars false

namespace Verif.Anon

open Verif.Plonk Verif.Plonk.Spec Verif.Xfr Verif.Xfr.Spec Verif.SimFr Verif.SimFr.Spec Verif.StateComm Verif.Anon.Spec

section
variable {S : Xfr.Types} {Q P : SimFr.Params} {F K Par Pf G Hs Mp : Type} [Field F] [DecidableEq F]
variable [Fact P.r.Prime] [AddCommGroup G] [DecidableEq G] [Module (ZMod P.r) G]
variable [Fact Q.r.Prime] [AddCommGroup S.G] [DecidableEq S.G] [Module (ZMod Q.r) S.G]
variable [Field S.F] [Module S.F S.G] [DecidableEq S.CG] [DecidableEq S.AT] [DecidableEq S.EK] [DecidableEq S.F] [ScalarRepr S.F]
variable (p : Rescue.Params F) (E : Ext S) (X : Extractors S) (V : ConfEnv S Q P F Par Pf G Hs Mp) (W : ConfKnows S Q P F Pf G Hs Mp)

/-- The two halves of the system are about the same group: scalars, generators, encoding of points, and numbers of asset types, which
have 30 bytes (api/src/xfr/structs.rs:44-66). -/
structure Joined (φ : S.F ≃+* ZMod Q.r) : Prop where
  smul : ∀ (a : S.F) (g : S.G), φ a • g = a • g
  B : V.conv.gens.B = E.B
  Bb : V.conv.gens.Bb = E.Bb
  decompress : V.conv.decompress = E.decompress
  asScalar : ∀ t, E.asScalar t = (V.conv.asNat t : S.F)
  asNat : ∀ t, V.conv.asNat t < 2 ^ 240

/-- the ordinary records that a transaction of the pool consumes -/
def taken : ConfTx S Q P F K Pf G Hs Mp → List (BlindAssetRecord S)
  | .plain (.deposit note) => [note.body.input]
  | .deposit note _ => [note.body.input]
  | _ => []

/-- what a record that comes out of the pool holds: public fields hold what they say, hidden ones that to which it is opened -/
def crossing (φ : S.F ≃+* ZMod Q.r) (r : BlindAssetRecord S) (o : Whole Q) : Holding S :=
  holdingOf E r (o.amount, φ.symm o.blind) (o.ty, φ.symm o.tyBlind)

/-- the ordinary records that a transaction of the pool makes, and what they hold; a hidden one that is never opened is not spent
again, and left out -/
def given (φ : S.F ≃+* ZMod Q.r) : ConfTx S Q P F K Pf G Hs Mp → List (BlindAssetRecord S × Holding S)
  | .plain (.withdraw _ note _ _) => [(note.output, holdingOf E note.output (0, 0) (0, 0))]
  | .withdraw _ note _ _ => match W.book note.output with
    | some o => [(note.output, crossing E φ note.output o)]
    | none => []
  | _ => []

/-- A history of the system: the ordinary records with what they hold, the transfers (what their inputs held, and their bodies), the
transactions of the pool, the records that crossed its border, and the state of the pool.  An accepted transfer consumes its inputs
and adds its outputs; a transaction of the pool is a step of `ConfPool`, consumes the records it takes and adds those it gives. -/
inductive System (φ : S.F ≃+* ZMod Q.r) (start : List (BlindAssetRecord S × Holding S)) :
    List (BlindAssetRecord S × Holding S) → List (List (Holding S) × Xfr.XfrBody S) → List (ConfTx S Q P F K Pf G Hs Mp) →
    List (BlindAssetRecord S × Holding S) → Pool F → Prop where
  | nil : System φ start start [] [] [] ⟨[], []⟩
  | transfer {l ins rest ss txs cross s} {n : Xfr.XfrNote S} {notes : List (Xfr.XfrNote S)} {pols : List (Policies S)}
      (h : System φ start l ss txs cross s) (hacc : E.batchVerifyNotes notes pols = some ()) (hn : n ∈ notes)
      (hli : n.body.inputs.length ≤ 2 ^ 64) (hlo : n.body.outputs.length ≤ 2 ^ 64)
      (hins : ins.map Prod.fst = n.body.inputs) (hin : (ins ++ rest).Perm l) :
      System φ start (n.body.outputs.zip (outHoldings E X n.body) ++ rest) (ss ++ [(ins.map Prod.snd, n.body)]) txs cross s
  | pool {l ins rest ss txs cross s s'} {tx : ConfTx S Q P F K Pf G Hs Mp} (h : System φ start l ss txs cross s)
      (hstep : ConfPool.Step p V s tx s') (hins : ins.map Prod.fst = taken tx) (hin : (ins ++ rest).Perm l) :
      System φ start (given E W φ tx ++ rest) ss (txs ++ [tx]) (cross ++ (ins ++ given E W φ tx)) s'

/-- a record that crosses the border of the pool holds something else than that to which it is opened there: a relation between the
generators, with its numbers -/
def Clash (φ : S.F ≃+* ZMod Q.r) (e : BlindAssetRecord S × Holding S) : Prop :=
  ∃ o, W.book e.1 = some o ∧
    (((e.2.amount : S.F) ≠ (o.amount : S.F) ∧
      (e.2.amount : S.F) • E.B + e.2.blind • E.Bb = (o.amount : S.F) • E.B + φ.symm o.blind • E.Bb) ∨
    (e.2.ty ≠ (o.ty : S.F) ∧ e.2.ty • E.B + e.2.tyBlind • E.Bb = (o.ty : S.F) • E.B + φ.symm o.tyBlind • E.Bb))

/-- Evidence, in any part of the system. -/
def SystemBroken [ScalarRepr F] [Fintype S.F] (φ : S.F ≃+* ZMod Q.r) (ss : List (List (Holding S) × Xfr.XfrBody S))
    (txs : List (ConfTx S Q P F K Pf G Hs Mp)) (cross : List (BlindAssetRecord S × Holding S)) (stored : List F) : Prop :=
  (∃ s ∈ ss, Broken E X s.1 s.2) ∨ ConfBroken p V W txs stored ∨ ∃ e ∈ cross, Clash E W φ e

variable {p E X V W} {φ : S.F ≃+* ZMod Q.r}

/-! ### Numbers -/

omit [DecidableEq F] [Field S.F] [DecidableEq S.F] in
theorem cast_inj_of_order {L : Type} [Field L] [ScalarRepr L] {N : Nat} (h : N ≤ ScalarRepr.order L) (m n : Nat) (hm : m < N)
    (hn : n < N) : (m : L) = (n : L) ↔ m = n := by
  refine ⟨fun e => ?_, fun e => by rw [e]⟩
  have := congrArg ScalarRepr.val e
  rwa [ScalarRepr.val_cast _ (lt_of_lt_of_le hm h), ScalarRepr.val_cast _ (lt_of_lt_of_le hn h)] at this

theorem cast_inj_scalars (φ : S.F ≃+* ZMod Q.r) (hQ : 2 ^ 240 ≤ Q.r) (m n : Nat) (hm : m < 2 ^ 240) (hn : n < 2 ^ 240) :
    (m : S.F) = (n : S.F) ↔ m = n := by
  refine ⟨fun e => ?_, fun e => by rw [e]⟩
  have := congrArg φ e
  rw [map_natCast, map_natCast, ZMod.natCast_eq_natCast_iff', Nat.mod_eq_of_lt (by omega), Nat.mod_eq_of_lt (by omega)] at this
  exact this

/-! ### Records at the border -/

theorem amountComs_eq (hJ : Joined E V φ) (r : BlindAssetRecord S) :
    V.conv.amountComs r = Res.ofOption (E.amountComs r.amount) := by
  unfold ConvExt.amountComs Ext.amountComs
  cases r.amount with
  | plain a =>
    simp only [Res.ofOption, DelegatedSchnorr.commit, Ext.commit, limbs, hJ.B, hJ.Bb, zero_smul, add_zero, Res.ok.injEq, Prod.mk.injEq]
    rw [← hJ.smul, ← hJ.smul, map_natCast, map_natCast]
    exact ⟨rfl, rfl⟩
  | conf lo hi =>
    simp only [hJ.decompress]
    cases E.decompress lo with
    | none => rfl
    | some l => cases E.decompress hi <;> rfl

theorem typeCom_eq (hJ : Joined E V φ) (r : BlindAssetRecord S) :
    V.conv.typeCom r = Res.ofOption (E.typeCom r.assetType) := by
  unfold ConvExt.typeCom Ext.typeCom
  cases r.assetType with
  | plain t =>
    simp only [Res.ofOption, DelegatedSchnorr.commit, Ext.commit, hJ.B, hJ.Bb, hJ.asScalar, zero_smul, add_zero, Res.ok.injEq]
    rw [← hJ.smul, map_natCast]
  | conf c => simp only [hJ.decompress]

theorem ofOption_eq_ok {α : Type} (o : Option α) (a : α) (h : Res.ofOption o = .ok a) : o = some a := by
  cases o with
  | none => cases h
  | some b => cases h; rfl

/-- an opening of what the pool takes for the commitments of a record is an opening of what the transfers take for them -/
theorem opens_coms (hJ : Joined E V φ) (r : BlindAssetRecord S) (o : Whole Q) (ho : o.Opens V.conv r) :
    (∃ c, E.amountComs r.amount = some c ∧
      c.1 + (2 ^ 32 : S.F) • c.2 = (o.amount : S.F) • E.B + φ.symm o.blind • E.Bb) ∧
    E.typeCom r.assetType = some ((o.ty : S.F) • E.B + φ.symm o.tyBlind • E.Bb) := by
  obtain ⟨-, h⟩ := ho
  unfold ConvExt.recordComs at h
  rw [amountComs_eq hJ, typeCom_eq hJ] at h
  obtain ⟨c, hc, h⟩ := Res.bind_eq_ok.mp h
  obtain ⟨t, ht, h⟩ := Res.bind_eq_ok.mp h
  have hc := ofOption_eq_ok _ _ hc
  have ht := ofOption_eq_ok _ _ ht
  have h := Res.ok.inj h
  unfold Whole.coms at h
  rw [Prod.mk.injEq, hJ.B, hJ.Bb] at h
  have cast : ∀ n : Nat, ((n : Nat) : ZMod Q.r) = φ (n : S.F) := fun n => (map_natCast φ n).symm
  have back : ∀ b : ZMod Q.r, b • E.Bb = φ.symm b • E.Bb := fun b => by
    rw [← hJ.smul, RingEquiv.apply_symm_apply]
  refine ⟨⟨c, hc, ?_⟩, ?_⟩
  · have := h.1
    rw [cast, cast, hJ.smul, hJ.smul, back] at this
    rw [← this]
    norm_num
  · rw [ht, h.2, cast, hJ.smul, back]

/-- a record that goes into the pool -/
theorem border_in (hJ : Joined E V φ) (hQ : 2 ^ 240 ≤ Q.r) (r : BlindAssetRecord S) (h : Holding S) (o : Whole Q)
    (hbook : W.book r = some o) (ho : o.Opens V.conv r) (hh : Holds E r h) (hc : ¬ Clash E W φ (r, h)) :
    h.amount = o.amount ∧ h.ty = (o.ty : S.F) := by
  obtain ⟨⟨c, hc1, ec⟩, et⟩ := opens_coms hJ r o ho
  obtain ⟨c', hc', ec'⟩ := amountComs_of_holds E _ _ hh.2.1
  rw [hc1, Option.some.injEq] at hc'
  subst hc'
  have et' := typeCom_of_holds E _ _ hh.2.2
  rw [et, Option.some.injEq] at et'
  constructor
  · by_contra hne
    refine hc ⟨o, hbook, .inl ⟨fun e => hne ?_, ec'.symm.trans ec⟩⟩
    exact (cast_inj_scalars φ hQ _ _ (lt_trans hh.1 (by norm_num)) ho.1.1).mp e
  · by_contra hne
    exact hc ⟨o, hbook, .inr ⟨hne, et'.symm⟩⟩

/-- a record that comes out of the pool -/
theorem border_out (hJ : Joined E V φ) (hQ : 2 ^ 240 ≤ Q.r) (r : BlindAssetRecord S) (o : Whole Q)
    (hbook : W.book r = some o) (ho : o.Opens V.conv r) (hlt : o.amount < 2 ^ 64) (hc : ¬ Clash E W φ (r, crossing E φ r o)) :
    Holds E r (crossing E φ r o) ∧ (crossing E φ r o).amount = o.amount ∧ (crossing E φ r o).ty = (o.ty : S.F) := by
  obtain ⟨⟨c, hc1, ec⟩, et⟩ := opens_coms hJ r o ho
  have hA : HoldsAmount E r.amount (crossing E φ r o) := by
    cases ha : r.amount with
    | plain v => simp [HoldsAmount, crossing, holdingOf, ha]
    | conf lo hi =>
      rw [ha] at hc1
      obtain ⟨l, hl, hc1⟩ := Option.bind_eq_some_iff.mp hc1
      obtain ⟨u, hu, hc1⟩ := Option.bind_eq_some_iff.mp hc1
      simp only [pure, Option.some.injEq] at hc1
      subst hc1
      exact ⟨l, u, hl, hu, by simpa [crossing, holdingOf, ha] using ec⟩
  have hT : HoldsType E r.assetType (crossing E φ r o) := by
    cases ht : r.assetType with
    | plain t => simp [HoldsType, crossing, holdingOf, ht]
    | conf c =>
      rw [ht] at et
      show E.decompress c = _
      rw [show E.decompress c = _ from et]
      simp [crossing, holdingOf, ht]
  have hlt' : (crossing E φ r o).amount < 2 ^ 64 := by
    unfold crossing holdingOf
    simp only
    split
    · exact UInt64.toNat_lt _
    · exact hlt
  have hH : Holds E r (crossing E φ r o) := ⟨hlt', hA, hT⟩
  exact ⟨hH, border_in hJ hQ r _ o hbook ho hH hc⟩

/-! ### Histories -/

/-- the pool in a history of the system -/
theorem System.poolRun {start l : List (BlindAssetRecord S × Holding S)} {ss : List (List (Holding S) × Xfr.XfrBody S)}
    {txs : List (ConfTx S Q P F K Pf G Hs Mp)} {cross : List (BlindAssetRecord S × Holding S)} {s : Pool F}
    (h : System p E X V W φ start l ss txs cross s) : ConfPool.Run p V txs s := by
  induction h with
  | nil => exact .nil
  | transfer _ _ _ _ _ _ _ ih => exact ih
  | pool _ hstep _ _ ih => exact .snoc ih hstep

/-- the commitments that the pool takes in are to 64-bit amounts, if they can be spent -/
theorem makes_small [ScalarRepr F] (hO : ConfOk p V W) (all : List (ConfTx S Q P F K Pf G Hs Mp)) (hall : ConfRun p V W all)
    (stored : List F) (hnb : ∀ e ∈ all.flatMap W.spends, ∀ n, ¬ SpendBreak p (stored.take n) e.1 e.2)
    {s s' : Pool F} {tx : ConfTx S Q P F K Pf G Hs Mp} (hch : ¬ W.Cheats V p tx)
    (hstep : ConfPool.Step p V s tx s') (htx : tx ∈ all) (hpre : s.stored <+: stored)
    (hsmall : ∀ note key, tx = .deposit note key → ∀ o, W.book note.body.input = some o → o.amount < 2 ^ 64) :
    ∀ g ∈ W.makes tx, g.1 = 0 → ScalarRepr.val g.2.amount < 2 ^ 64 := by
  intro g hg h0
  have hd : ∀ e ∈ W.spends tx, e ∈ all.flatMap W.spends := fun e he => List.mem_flatMap.mpr ⟨_, htx, he⟩
  cases hstep with
  | plain _ tx hstep =>
    cases hstep with
    | deposit note hv =>
      obtain ⟨a, ty, -, -, e3, -, -⟩ := deposit_makes hO.toPoolOk note hv
      simp only [ConfKnows.makes, PoolKnows.makes, List.mem_singleton] at hg
      rw [hg]
      show ScalarRepr.val (payeeVal (W.xIn note.body.proof) W.varsIn).amount < 2 ^ 64
      rw [e3, ScalarRepr.val_cast _ (lt_trans a.toNat_lt hO.order)]
      exact a.toNat_lt
    | transfer age note root hs hroot hsup hv hnd hnew =>
      have hh := transfer_honours hO.toPoolOk (all.flatMap W.spends) stored hnb s hpre age note root hs hd hroot hsup hv
        (hall.one age note root hs htx)
      simp only [ConfKnows.makes, PoolKnows.makes, List.mem_map] at hg
      obtain ⟨t, ht, rfl⟩ := hg
      exact hh.outRange t (List.mem_map.mpr ht)
    | withdraw => simp [ConfKnows.makes, PoolKnows.makes] at hg
  | deposit note key hv =>
    obtain ⟨o, hbook, hR⟩ := hall.deposit note key htx
    simp only [ConfKnows.makes, List.mem_singleton] at hg
    have hl := confDeposit_live hO note key hv o hbook hR hch g.2.ty
    rw [← hg] at hl
    unfold live worth ConfKnows.units at hl
    rw [if_pos h0, if_pos rfl, hbook] at hl
    have := hsmall note key rfl o hbook
    simp only at hl
    split at hl <;> omega
  | withdraw => simp [ConfKnows.makes] at hg

theorem held_perm (t : S.F) {l m : List (BlindAssetRecord S × Holding S)} (h : l.Perm m) :
    held t (l.map Prod.snd) = held t (m.map Prod.snd) := by
  unfold held
  exact (((h.map Prod.snd).map _).sum_eq)

/-- The ordinary side of a history without evidence: the records hold something, and what goes into the pool and comes out of it is
counted there as here. -/
theorem system_sides [ScalarRepr F] [Fintype S.F] (hO : ConfOk p V W) (hJ : Joined E V φ) (hF : 2 ^ 192 ≤ ScalarRepr.order S.F)
    (hEnc : ∀ g, E.decompress (E.compress g) = some g) (hB : Batching E) (hX : X.Sound E)
    (all : List (ConfTx S Q P F K Pf G Hs Mp)) (hall : ConfRun p V W all) (stored : List F)
    (hnb : ∀ e ∈ all.flatMap W.spends, ∀ n, ¬ SpendBreak p (stored.take n) e.1 e.2)
    (hnc : ∀ y ∈ all.flatMap (W.opens V), ∀ g ∈ all.flatMap W.makes,
      ¬ Collides p (openCollision p g.1 g.2 y.2).1 (openCollision p g.1 g.2 y.2).2)
    (hch : ∀ tx ∈ all, ¬ W.Cheats V p tx)
    {start l cross : List (BlindAssetRecord S × Holding S)} {ss : List (List (Holding S) × Xfr.XfrBody S)}
    {txs : List (ConfTx S Q P F K Pf G Hs Mp)} {s : Pool F}
    (h : System p E X V W φ start l ss txs cross s) (hL : ∀ e ∈ start, Holds E e.1 e.2) :
    (∀ tx ∈ txs, tx ∈ all) → s.stored <+: stored → (∀ s ∈ ss, MixShape s.2) → (∀ s ∈ ss, ¬ Broken E X s.1 s.2) →
    (∀ e ∈ cross, ¬ Clash E W φ e) →
    (∀ e ∈ l, Holds E e.1 e.2) ∧ (∀ g ∈ txs.flatMap W.makes, g.1 = 0 → ScalarRepr.val g.2.amount < 2 ^ 64) ∧
      ∀ n : Nat, n < 2 ^ 240 → held (n : S.F) (l.map Prod.snd) + W.deposited V (n : F) txs ≤
        held (n : S.F) (start.map Prod.snd) + W.withdrawn V (n : F) txs := by
  induction h with
  | nil => exact fun _ _ _ _ _ => ⟨hL, by simp, fun n _ => by simp [ConfKnows.deposited]⟩
  | @transfer l ins rest ss txs cross s n notes pols h hacc hn hli hlo hins hin ih =>
    intro h1 h2 h3 h4 h5
    obtain ⟨i1, i2, i3⟩ := ih h1 h2 (fun s hs => h3 s (by simp [hs])) (fun s hs => h4 s (by simp [hs])) h5
    have hI : List.Forall₂ (Holds E) n.body.inputs (ins.map Prod.snd) := by
      rw [← hins, List.forall₂_map_left_iff, List.forall₂_map_right_iff, List.forall₂_same]
      exact fun e he => i1 e (hin.subset (by simp [he]))
    obtain ⟨k1, k2⟩ := (body_step E hF hEnc X hX n.body (bodyOk_of_accepted E hB notes pols hacc n hn) _ hI
      (h3 (ins.map Prod.snd, n.body) (by simp)) hli hlo).resolve_left (h4 (ins.map Prod.snd, n.body) (by simp))
    refine ⟨?_, i2, fun m hm => ?_⟩
    · intro e he
      rcases List.mem_append.mp he with he | he
      · exact List.forall₂_iff_zip.mp k1 |>.2 he
      · exact i1 e (hin.subset (by simp [he]))
    · have e1 := held_perm (m : S.F) hin
      have e2 : (n.body.outputs.zip (outHoldings E X n.body)).map Prod.snd = outHoldings E X n.body := by
        refine List.map_snd_zip ?_
        unfold outHoldings
        rw [holdings_length]
      rw [List.map_append, held_append] at e1
      rw [List.map_append, held_append, e2]
      have e3 := i3 m hm
      have e4 := (k2 (m : S.F)).1
      omega
  | @pool l ins rest ss txs cross s s' tx h hstep hins hin ih =>
    intro h1 h2 h3 h4 h5
    have htx := h1 tx (by simp)
    have hpre := (confStep_prefix hstep).trans h2
    obtain ⟨i1, i2, i3⟩ := ih (fun tx h => h1 tx (by simp [h])) hpre h3 h4 (fun e he => h5 e (by simp [he]))
    have hinH : ∀ e ∈ ins, Holds E e.1 e.2 := fun e he => i1 e (hin.subset (by simp [he]))
    have hinC : ∀ e ∈ ins, ¬ Clash E W φ e := fun e he => h5 e (by simp [he])
    have houtC : ∀ e ∈ given E W φ tx, ¬ Clash E W φ e := fun e he => h5 e (by simp [he])
    -- what crosses the border
    have key : (∀ e ∈ given E W φ tx, Holds E e.1 e.2) ∧
        (∀ note key, tx = .deposit note key → ∀ o, W.book note.body.input = some o → o.amount < 2 ^ 64) ∧
        ∀ n : Nat, n < 2 ^ 240 → held (n : S.F) (ins.map Prod.snd) = W.deposited V (n : F) [tx] ∧
          held (n : S.F) ((given E W φ tx).map Prod.snd) = W.withdrawn V (n : F) [tx] := by
      have pubHeld : ∀ (r : BlindAssetRecord S) (a : UInt64) (ty : S.AT) (h : Holding S), r.amount = .plain a →
          r.assetType = .plain ty → Holds E r h → ∀ n : Nat, n < 2 ^ 240 →
          held (n : S.F) [h] = unitsOf V.conv.asNat (n : F) r := by
        intro r a ty h ha ht hh n hn
        obtain ⟨-, hA, hT⟩ := hh
        rw [ha] at hA
        rw [ht] at hT
        have e1 := cast_inj_scalars φ hO.size (V.conv.asNat ty) n (hJ.asNat ty) hn
        have e2 := cast_inj_of_order (L := F) hO.fieldSize (V.conv.asNat ty) n (hJ.asNat ty) hn
        simp only [held, List.map_cons, List.map_nil, List.sum_cons, List.sum_nil, unitsOf, ha, ht, hT.1, hJ.asScalar, hA.1, e1, e2,
          Nat.add_zero]
      have wholeHeld : ∀ (r : BlindAssetRecord S) (o : Whole Q) (h : Holding S), W.book r = some o → o.Opens V.conv r →
          h.amount = o.amount → h.ty = (o.ty : S.F) → ∀ n : Nat, n < 2 ^ 240 → held (n : S.F) [h] = W.units (n : F) r := by
        intro r o h hbook ho ha ht n hn
        have e1 := cast_inj_scalars φ hO.size o.ty n ho.1.2 hn
        have e2 := cast_inj_of_order (L := F) hO.fieldSize o.ty n ho.1.2 hn
        simp only [held, List.map_cons, List.map_nil, List.sum_cons, List.sum_nil, ConfKnows.units, hbook, ht, ha, e1, e2,
          Nat.add_zero]
      cases hstep with
      | plain _ tx hstep =>
        cases hstep with
        | deposit note hv =>
          obtain ⟨a, ty, ha, ht, -⟩ := deposit_makes hO.toPoolOk note hv
          obtain ⟨⟨r, h⟩, rfl, hr⟩ := List.map_eq_singleton_iff.mp hins
          subst hr
          refine ⟨by simp [given], by simp, fun n hn => ⟨?_, by simp [given, held, ConfKnows.withdrawn, Anon.withdrawn]⟩⟩
          have := pubHeld _ a ty h ha ht (hinH _ (List.mem_singleton_self _)) n hn
          simpa [ConfKnows.deposited, Anon.deposited] using this
        | transfer =>
          have hi : ins = [] := List.map_eq_nil_iff.mp hins
          subst hi
          exact ⟨by simp [given], by simp, fun n hn => by simp [given, held, ConfKnows.withdrawn, Anon.withdrawn, ConfKnows.deposited,
            Anon.deposited]⟩
        | withdraw age note root hs hroot hv hnew =>
          have hi : ins = [] := List.map_eq_nil_iff.mp hins
          subst hi
          obtain ⟨a, ty, ha, ht⟩ : ∃ a ty, note.output.amount = .plain a ∧ note.output.assetType = .plain ty := by
            unfold ConvExt.verifyAbarToAr at hv
            split at hv
            · rename_i a ty ha ht
              exact ⟨a, ty, ha, ht⟩
            · cases hv
          have hH : Holds E note.output (holdingOf E note.output (0, 0) (0, 0)) := by
            unfold Holds HoldsAmount HoldsType holdingOf
            rw [ha, ht]
            exact ⟨a.toNat_lt, ⟨rfl, rfl⟩, rfl, rfl⟩
          refine ⟨by simpa [given] using hH, by simp, fun n hn => ⟨by simp [held, ConfKnows.deposited, Anon.deposited], ?_⟩⟩
          have := pubHeld _ a ty _ ha ht hH n hn
          simpa [given, ConfKnows.withdrawn, Anon.withdrawn] using this
      | deposit note key hv =>
        obtain ⟨o, hbook, hR⟩ := hall.deposit note key htx
        obtain ⟨⟨r, h⟩, rfl, hr⟩ := List.map_eq_singleton_iff.mp hins
        subst hr
        have hH := hinH _ (List.mem_singleton_self _)
        obtain ⟨b1, b2⟩ := border_in hJ hO.size _ h o hbook hR.opens hH (hinC _ (by simp))
        refine ⟨by simp [given], ?_, fun n hn => ⟨?_, by simp [given, held, ConfKnows.withdrawn]⟩⟩
        · intro note' key' e o' ho'
          cases e
          rw [hbook] at ho'
          obtain rfl := Option.some.inj ho'
          rw [← b1]
          exact hH.1
        · have := wholeHeld _ o h hbook hR.opens b1 b2 n hn
          simpa [ConfKnows.deposited] using this
      | withdraw age note root hs hroot hv hnew =>
        have hi : ins = [] := List.map_eq_nil_iff.mp hins
        subst hi
        cases hbk : W.book note.output with
        | none =>
          exact ⟨by simp [given, hbk], by simp, fun n hn => by
            simp [given, hbk, held, ConfKnows.withdrawn, ConfKnows.deposited, ConfKnows.units]⟩
        | some o =>
          have hR := hall.withdraw age note root hs htx o hbk
          have hsp := confWithdraw_spends hO (s.stored.take age) age note root hs hroot hv (hall.withdraw age note root hs htx) (by
            intro e he hxb
            obtain ⟨m, hm⟩ := take_of_prefix hpre age
            rw [hm] at hxb
            exact hnb _ (List.mem_flatMap.mpr ⟨_, htx, he⟩) m hxb) (hch _ htx)
          have hlt : o.amount < 2 ^ 64 := by
            have hst := conf_stored hO all hall stored hnb (h.poolRun) (fun tx h => h1 tx (by simp [h])) hpre
            obtain ⟨x, hop, hx⟩ : ∃ x, W.opens V (.withdraw age note root hs : ConfTx S Q P F K Pf G Hs Mp) = [x] ∧
                x.2.amount = (o.amount : F) := by
              refine ⟨_, rfl, ?_⟩
              rw [hbk]
            obtain ⟨j, g1, -⟩ := hsp x (by rw [hop]; simp)
            have g1 := take_prefix (List.prefix_refl _) _ _ _ g1
            rw [hst, List.getElem?_map] at g1
            obtain ⟨g, hg, hge⟩ := Option.map_eq_some_iff.mp g1
            have hmem := List.mem_of_getElem? hg
            have hmem' : g ∈ all.flatMap W.makes := by
              obtain ⟨tx, a, b⟩ := List.mem_flatMap.mp hmem
              exact List.mem_flatMap.mpr ⟨tx, h1 tx (by simp [a]), b⟩
            obtain ⟨hz, he⟩ := (commitZ_opens p g.1 g.2 x.2 hge.symm).resolve_right
              (hnc x (List.mem_flatMap.mpr ⟨_, htx, by rw [hop]; simp⟩) g hmem')
            have := i2 g hmem hz
            rw [← he, hx, ScalarRepr.val_cast _ (lt_of_lt_of_le hR.opens.1.1 hO.fieldSize)] at this
            exact this
          obtain ⟨b1, b2, b3⟩ := border_out hJ hO.size note.output o hbk hR.opens hlt (houtC _ (by simp [given, hbk]))
          refine ⟨by simpa [given, hbk] using b1, by simp, fun n hn => ⟨by simp [held, ConfKnows.deposited], ?_⟩⟩
          have := wholeHeld _ o _ hbk hR.opens b2 b3 n hn
          simpa [given, hbk, ConfKnows.withdrawn] using this
    obtain ⟨c1, c2, c3⟩ := key
    refine ⟨?_, ?_, fun n hn => ?_⟩
    · intro e he
      rcases List.mem_append.mp he with he | he
      · exact c1 e he
      · exact i1 e (hin.subset (by simp [he]))
    · intro g hg h0
      rw [List.flatMap_append, List.mem_append] at hg
      rcases hg with hg | hg
      · exact i2 g hg h0
      · exact makes_small hO all hall stored hnb (hch _ htx) hstep htx hpre c2 g (by simpa using hg) h0
    · have e1 := held_perm (n : S.F) hin
      rw [List.map_append, held_append] at e1 ⊢
      have e2 := i3 n hn
      obtain ⟨e3, e4⟩ := c3 n hn
      simp only [ConfKnows.deposited, ConfKnows.withdrawn, List.map_append, List.sum_append] at e2 e3 e4 ⊢
      omega

/-- C105, the supply of the whole system.  Take any history of accepted transfers of ordinary records, public or hidden, of
conversions into the pool and out of it, public or hidden, and of anonymous transfers, in any order, from ordinary records that hold
something and the empty pool.  Then something in it gives evidence against the hash or the generators, or of luck with the challenges
of a mixing proof; or every ordinary record at the end holds a 64-bit amount of a type, the nullifiers belong to pairwise different
positions, every record of the pool that can be spent holds a 64-bit amount, and for every number of an asset type the units in
ordinary records, the units in the records of the pool at the other positions that can be spent, and the fees are at most the units
in the ordinary records at the beginning.  Missing, because the code does not have it: see `C104_supply_partial` (the shapes of mixing
transfers) and `C100_pool_accounts_partial` (the constant of the circuit of transfers, one secret key per public key). -/
theorem C105_system_supply_partial [ScalarRepr F] [Fintype S.F] (hO : ConfOk p V W) (hJ : Joined E V φ)
    (hF : 2 ^ 192 ≤ ScalarRepr.order S.F) (hEnc : ∀ g, E.decompress (E.compress g) = some g) (hB : Batching E) (hX : X.Sound E)
    (start l cross : List (BlindAssetRecord S × Holding S)) (ss : List (List (Holding S) × Xfr.XfrBody S))
    (txs : List (ConfTx S Q P F K Pf G Hs Mp)) (s : Pool F)
    (h : System p E X V W φ start l ss txs cross s) (hL : ∀ e ∈ start, Holds E e.1 e.2) (hshape : ∀ s ∈ ss, MixShape s.2)
    (hall : ConfRun p V W txs) :
    SystemBroken p E X V W φ ss txs cross s.stored ∨
    ((∀ e ∈ l, Holds E e.1 e.2) ∧
      s.stored = (txs.flatMap W.makes).map (fun g => commitZ p g.1 g.2.pk g.2.blind g.2.amount g.2.ty) ∧
      (∀ g ∈ txs.flatMap W.makes, g.1 = 0 → ScalarRepr.val g.2.amount < 2 ^ 64) ∧
      ∃ js : List Nat, js.Nodup ∧ js.length = s.nuls.length ∧ (∀ j ∈ js, j < s.stored.length) ∧
        ∀ n : Nat, n < 2 ^ 240 → held (n : S.F) (l.map Prod.snd) +
          (((List.range s.stored.length).filter (fun j => j ∉ js)).map (liveAt (txs.flatMap W.makes) (n : F))).sum +
          confFees V (n : F) txs ≤ held (n : S.F) (start.map Prod.snd)) := by
  by_cases hb : SystemBroken p E X V W φ ss txs cross s.stored
  · exact .inl hb
  right
  unfold SystemBroken at hb
  push Not at hb
  obtain ⟨b1, b2, b3⟩ := hb
  obtain ⟨hst, js, k1, k2, k3, k4⟩ := (C103_pool_accounts_partial hO txs s h.poolRun hall).resolve_left b2
  unfold ConfBroken at b2
  push Not at b2
  obtain ⟨i1, i2, i3⟩ := system_sides hO hJ hF hEnc hB hX txs hall s.stored b2.1 b2.2.1 b2.2.2 h hL (fun _ h => h) List.prefix_rfl
    hshape b1 b3
  refine ⟨i1, hst, i2, js, k1, k2, k3, fun n hn => ?_⟩
  have := i3 n hn
  have := k4 (n : F)
  omega

end

end Verif.Anon
