import Verif.Anon.MerkleCircuit

/-!
Property C67: the whole circuit of anonymous transfers, abar_to_abar.rs:529-655.
-/

namespace Verif.Anon

open Verif.Plonk Verif.Plonk.Spec

variable {F : Type} [Field F]

/-! ### Specification -/

namespace Spec

/-- an opened input: what the prover claims to know about a record in the tree -/
structure Spent (F : Type) where
  uid : F
  amount : F
  ty : F
  blind : F
  nodes : List (Merkle.ProofNode F)

variable (p : Rescue.Params F)

/-- the leaf of the record, owned by `pk` -/
def Spent.leaf (pk : PK F) (s : Spent F) : F := leafHash p s.uid (commit p pk s.blind s.amount s.ty)

/-- The meaning of a transfer with the public data `nuls`, `root`, `coms`, `fee`. -/
structure Valid [DecidableEq F] [ScalarRepr F] (pk : PK F) (sk : SK F) (spent : List (Spent F))
    (created : List (Payee F)) (feeType fee : F) (nuls : List F) (root : F) (coms : List F) : Prop where
  /-- every nullifier is that of an opened input, under the one key -/
  nuls : nuls = spent.map (fun s => nullify p pk sk s.uid s.amount s.ty)
  /-- every input opens to a leaf with a Merkle proof for the public root -/
  roots : ∀ s ∈ spent, ∀ v u, Merkle.verify (treeHash p) (s.leaf p pk) ⟨s.nodes, root, v, u⟩ = true
  /-- every output commitment opens -/
  coms : coms = created.map (fun t => commit p t.pk t.blind t.amount t.ty)
  inRange : ∀ s ∈ spent, ScalarRepr.val s.amount < 2 ^ 64
  outRange : ∀ t ∈ created, ScalarRepr.val t.amount < 2 ^ 64
  feeIn : ∃ s ∈ spent, s.ty = feeType
  /-- for every asset type the integers balance -/
  balance : ∀ t, ((spent.filter (fun s => s.ty = t)).map (fun s => ScalarRepr.val s.amount)).sum =
    ((created.filter (fun s => s.ty = t)).map (fun s => ScalarRepr.val s.amount)).sum +
      if t = feeType then ScalarRepr.val fee else 0

end Spec

open Spec

/-! ### Soundness -/

omit [Field F] in
theorem forall₂_map_eq {α β : Type} {R : α → β → Prop} {f : α → β} (hf : ∀ a b, R a b → b = f a) {l : List α}
    {m : List β} (h : List.Forall₂ R l m) : m = l.map f := by
  induction h with
  | nil => rfl
  | cons h _ ih => rw [List.map_cons, ← ih, hf _ _ h]

theorem sound_pkVars (k : PK F) : Sound (pkVars k) (fun _ _ => True) := by
  unfold pkVars
  refine Sound.bind (sound_newVar _) (fun _ => Sound.bind (sound_newVar _) (fun _ => Sound.bind (sound_newVar _) (fun _ =>
    Sound.pure _ _ ?_)))
  intros; trivial

theorem sound_payerVars (h2 : (2 : F) ≠ 0) (s : Payer F) : Sound (payerVars s) (fun w v =>
    v.path.length = s.path.length ∧ ∃ ns, List.Forall₂ (IsNode w) v.path ns) := by
  unfold payerVars
  refine Sound.bind (sound_newVar _) (fun _ => Sound.bind (sound_newVar _) (fun _ => Sound.bind (sound_newVar _) (fun _ =>
    Sound.bind (sound_addMerklePath h2 _) (fun _ => Sound.bind (sound_newVar _) (fun _ => Sound.pure _ _ ?_)))))
  intro w _ h _ _ _
  exact h

theorem sound_payeeVars (s : Payee F) : Sound (payeeVars s) (fun _ _ => True) := by
  unfold payeeVars
  refine Sound.bind (sound_newVar _) (fun _ => Sound.bind (sound_newVar _) (fun _ => Sound.bind (sound_newVar _) (fun _ =>
    Sound.bind (sound_pkVars _) (fun _ => Sound.pure _ _ ?_))))
  intros; trivial

/-- the values of three variables -/
def pkVal (w : Nat → F) (pk : PK Nat) : PK F := (w pk.1, w pk.2.1, w pk.2.2)

/-- the values of two variables -/
def skVal (w : Nat → F) (sk : SK Nat) : SK F := (w sk.1, w sk.2)

/-- `s` is the input the assignment gives to `v` -/
structure IsSpent (w : Nat → F) (v : PayerVars) (s : Spent F) : Prop where
  uid : s.uid = w v.uid
  amount : s.amount = w v.amount
  ty : s.ty = w v.ty
  blind : s.blind = w v.blind
  nodes : List.Forall₂ (IsNode w) v.path s.nodes

/-- the node the assignment gives to `v`: the siblings, and the position the two bits stand for -/
def nodeVal [DecidableEq F] (w : Nat → F) (v : NodeVars) : Merkle.ProofNode F :=
  ⟨w v.s1, w v.s2, if w v.isLeft = 1 then .left else if w v.isRight = 1 then .right else .middle⟩

/-- the input the assignment gives to `v` -/
def spentVal [DecidableEq F] (w : Nat → F) (v : PayerVars) : Spent F :=
  ⟨w v.uid, w v.amount, w v.ty, w v.blind, v.path.map (nodeVal w)⟩

theorem IsNode.eq [DecidableEq F] {w : Nat → F} {v : NodeVars} {n : Merkle.ProofNode F} (h : IsNode w v n) :
    n = nodeVal w v := by
  obtain ⟨s1, s2, t⟩ := n
  obtain ⟨h1, h2, h3⟩ := h
  unfold nodeVal
  simp only at h1 h2 h3
  rw [h1, h2]
  simp only [Merkle.ProofNode.mk.injEq, true_and]
  cases t <;> simp only [bitsOf, Prod.mk.injEq] at h3 <;> simp [h3.1, h3.2]

/-- `IsSpent` determines the input -/
theorem IsSpent.eq [DecidableEq F] {w : Nat → F} {v : PayerVars} {s : Spent F} (h : IsSpent w v s) : s = spentVal w v := by
  obtain ⟨a, b, c, d, ns⟩ := s
  obtain ⟨rfl, rfl, rfl, rfl, h⟩ := h
  unfold spentVal
  simp only [Spent.mk.injEq, true_and]
  exact forall₂_map_eq (fun _ _ h => IsNode.eq h) h

/-- the output the assignment gives to `v` -/
def payeeVal (w : Nat → F) (v : PayeeVars) : Payee F := ⟨w v.amount, w v.blind, w v.ty, pkVal w v.pk⟩

variable (p : Rescue.Params F) [DecidableEq F] [ScalarRepr F]

theorem sound_checkRoot (root : Option Nat) (r : Nat) : Sound (checkRoot root r : Build F (Option Nat)) (fun w o =>
    w 0 = 0 → ∃ x, o = some x ∧ w x = w r ∧ ∀ y, root = some y → x = y) := by
  unfold checkRoot
  cases root with
  | none => exact Sound.pure _ _ (fun w _ => ⟨r, rfl, rfl, by simp⟩)
  | some x =>
    refine Sound.bind (sound_equalV _ _) (fun _ => Sound.pure _ _ ?_)
    intro w h h0
    exact ⟨x, rfl, h h0, by simp⟩

theorem soundP_payerStep (hp : GoodParams p) (ho : 2 ^ 64 ≤ ScalarRepr.order F) (pk : PK Nat) (sk : SK Nat)
    (root : Option Nat) (v : PayerVars) : SoundP (payerStep p pk sk root v) (fun w o pv => w 0 = 0 → ∀ s, IsSpent w v s →
      pv.map w = [nullify p (pkVal w pk) (skVal w sk) s.uid s.amount s.ty] ∧ ScalarRepr.val s.amount < 2 ^ 64 ∧
      ∃ x, o = some x ∧ (∀ y, root = some y → x = y) ∧
        s.nodes.foldl (Merkle.verifyStep (treeHash p)) (s.leaf p (pkVal w pk)) = w x) := by
  unfold payerStep
  refine SoundP.bindS (sound_commitInCs p hp _ _ _ _) (fun com => ?_)
  refine SoundP.bindS (sound_linearCombine _ _ _ _ _ _ _ _) (fun ua => ?_)
  refine SoundP.bindS (sound_nullifyInCs p hp _ _ _ _) (fun nul => ?_)
  refine SoundP.bindS (sound_merkleRootVars p hp _ _ _) (fun r => ?_)
  refine SoundP.bindS (C46_range_check_exact _ _ ho) (fun _ => ?_)
  refine SoundP.bindS (sound_checkRoot _ _) (fun o => ?_)
  refine SoundP.bind (soundP_preparePi _) (fun _ => SoundP.pure _ _ ?_)
  rintro w pv0 rfl hroot hrange hr hnul hua hcom h0 ⟨uid, amount, ty, blind, nodes⟩ ⟨e1, e2, e3, e4, hn⟩
  simp only at e1 e2 e3 e4 hn
  subst e1 e2 e3 e4
  obtain ⟨x, e, hx, hy⟩ := hroot h0
  refine ⟨?_, hrange.2.1, x, e, hy, ?_⟩
  · simp only [List.append_nil, List.map_cons, List.map_nil, List.cons.injEq, and_true]
    rw [hnul, hua]
    unfold nullify pkVal skVal
    simp only [zeroVar, h0]
    congr 2
    ring
  · rw [hx, hr h0 nodes hn, hcom h0]
    rfl

theorem soundP_payeeStep (hp : GoodParams p) (ho : 2 ^ 64 ≤ ScalarRepr.order F) (v : PayeeVars) :
    SoundP (payeeStep p v) (fun w _ pv => w 0 = 0 →
      pv.map w = [commit p (pkVal w v.pk) (w v.blind) (w v.amount) (w v.ty)] ∧ ScalarRepr.val (w v.amount) < 2 ^ 64) := by
  unfold payeeStep
  refine SoundP.bindS (sound_commitInCs p hp _ _ _ _) (fun com => ?_)
  refine SoundP.bindS (C46_range_check_exact _ _ ho) (fun _ => ?_)
  refine (soundP_preparePi _).cons ?_
  rintro w _ pv rfl hr hc h0
  exact ⟨by simp [hc h0, pkVal], hr.2.1⟩

omit p [DecidableEq F] in
theorem sum_filter_totalNat {α : Type} [DecidableEq F] (l : List α) (ty amount : α → F) (t : F) :
    ((l.filter (fun s => ty s = t)).map (fun s => ScalarRepr.val (amount s))).sum =
      totalNat (l.map (fun s => (ty s, amount s))) t := by
  unfold totalNat
  induction l with
  | nil => rfl
  | cons a l ih =>
    simp only [List.filter_cons, List.map_cons, List.sum_cons]
    by_cases h : ty a = t
    · simp [h, ih]
    · simp [h, ih]

/-- the statement about the whole circuit, in terms of the variables it makes public -/
theorem soundP_buildMultiXfr (hp : GoodParams p) (h2 : (2 : F) ≠ 0)
    {α : Type} (folding : PK Nat → SK Nat → Build F α) (Fold : (Nat → F) → α → PK F → SK F → List F → Prop)
    (hfold : ∀ pk sk, SoundP (folding pk sk) (fun w a pv => w 0 = 0 → Fold w a (pkVal w pk) (skVal w sk) (pv.map w)))
    (payers : List (Payer F)) (payees : List (Payee F)) (pk0 : PK F) (sk0 : SK F) (fee0 feeType : F)
    (hi : payers.length * 2 ^ 64 < ScalarRepr.order F) (ho : (payees.length + 1) * 2 ^ 64 < ScalarRepr.order F) :
    SoundP (buildMultiXfr p folding payers payees pk0 sk0 fee0 feeType) (fun w vars pv => w 1 = 1 →
      ∃ (nuls coms foldPub : List F) (root fee : F), pv.map w = nuls ++ [root] ++ coms ++ [fee] ++ foldPub ∧
        nuls.length = payers.length ∧ coms.length = payees.length ∧
        vars.payers.map (fun v => v.path.length) = payers.map (fun s => s.path.length) ∧
        vars.payees.length = payees.length ∧
        Fold w vars.fold (pkVal w vars.pk) (skVal w vars.sk) foldPub ∧
        (ScalarRepr.val fee < 2 ^ 64 → Valid p (pkVal w vars.pk) (skVal w vars.sk) (vars.payers.map (spentVal w))
          (vars.payees.map (payeeVal w)) feeType fee nuls root coms)) := by
  have ho' : 2 ^ 64 ≤ ScalarRepr.order F := by
    have : 2 ^ 64 ≤ (payees.length + 1) * 2 ^ 64 := Nat.le_mul_of_pos_left _ (by omega)
    omega
  unfold buildMultiXfr
  split
  · intro cs a cs' _ hm
    exact absurd hm (by simp [failure, StateT.failure])
  rename_i hne
  push Not at hne
  refine SoundP.bindS (Sound.mapM payerVars (fun w s v => v.path.length = s.path.length ∧
    ∃ ns, List.Forall₂ (IsNode w) v.path ns) payers (fun s _ => sound_payerVars h2 s)) (fun pvs => ?_)
  refine SoundP.bindS (Sound.mapM payeeVars (fun _ _ _ => True) payees (fun s _ => sound_payeeVars s)) (fun qvs => ?_)
  refine SoundP.bindS (sound_pkVars _) (fun pkv => ?_)
  refine SoundP.bindS (sound_newVar _) (fun s0 => SoundP.bindS (sound_newVar _) (fun s1 => ?_))
  refine SoundP.bind (SoundP.foldlM (payerStep p pkv (s0, s1)) (fun w pre root pv => w 0 = 0 →
    ∀ spent, List.Forall₂ (IsSpent w) pre spent →
      pv.map w = spent.map (fun s => nullify p (pkVal w pkv) (skVal w (s0, s1)) s.uid s.amount s.ty) ∧
      (∀ s ∈ spent, ScalarRepr.val s.amount < 2 ^ 64) ∧
      (pre ≠ [] → ∃ x, root = some x) ∧
      ∀ s ∈ spent, ∀ x, root = some x →
        s.nodes.foldl (Merkle.verifyStep (treeHash p)) (s.leaf p (pkVal w pkv)) = w x) pvs none
      (fun pre a v _ => (soundP_payerStep p hp ho' pkv (s0, s1) a v).cons ?_)) (fun root => ?_)
  · intro w o pv h pv0 hI h0 spent hsp
    obtain ⟨sp1, sp2, f1, f2, rfl⟩ := forall₂_split hsp
    cases f2 with
    | @cons _ s _ _ hs hnil =>
    cases hnil
    obtain ⟨i1, i2, i3, i4⟩ := hI h0 sp1 f1
    obtain ⟨j1, j2, x, rfl, jx, j3⟩ := h h0 s hs
    refine ⟨by simp [i1, j1], ?_, fun _ => ⟨x, rfl⟩, ?_⟩
    · intro t ht
      rcases List.mem_append.mp ht with ht | ht
      · exact i2 t ht
      · simp only [List.mem_singleton] at ht; subst ht; exact j2
    · intro t ht y hy
      simp only [Option.some.injEq] at hy
      subst hy
      rcases List.mem_append.mp ht with ht | ht
      · have hne : pre ≠ [] := by
          rintro rfl
          cases f1
          simp at ht
        obtain ⟨y, rfl⟩ := i3 hne
        rw [jx y rfl]
        exact i4 t ht y rfl
      · simp only [List.mem_singleton] at ht; subst ht; exact j3
  refine SoundP.bindS (Sound.liftM root) (fun rv => ?_)
  refine SoundP.bind (soundP_preparePi rv) (fun _ => ?_)
  refine SoundP.bind (SoundP.foldlM (fun _ v => payeeStep p v) (fun w pre _ pv => w 0 = 0 →
      pv.map w = (pre.map (payeeVal w)).map (fun t => commit p t.pk t.blind t.amount t.ty) ∧
      ∀ v ∈ pre, ScalarRepr.val (w v.amount) < 2 ^ 64) qvs ()
      (fun pre a v _ => (soundP_payeeStep p hp ho' v).cons ?_)) (fun _ => ?_)
  · intro w _ pv h pv0 hI h0
    obtain ⟨i1, i2⟩ := hI h0
    obtain ⟨j1, j2⟩ := h h0
    refine ⟨by simp [i1, j1, payeeVal], ?_⟩
    intro t ht
    rcases List.mem_append.mp ht with ht | ht
    · exact i2 t ht
    · simp only [List.mem_singleton] at ht; subst ht; exact j2
  refine SoundP.bindS (sound_newVar _) (fun fv => ?_)
  refine SoundP.bind (soundP_preparePi fv) (fun _ => ?_)
  refine SoundP.bind (hfold pkv (s0, s1)) (fun fold => ?_)
  by_cases hlen : pvs.length = payers.length ∧ qvs.length = payees.length
  swap
  · refine SoundP.bindS (sound_assetMixing _ _ _ _) (fun _ => SoundP.bindS sound_pad (fun _ => SoundP.pure _ _ ?_))
    intro w _ _ _ _ _ _ _ _ _ _ _ _ _ _ _ _ _ hq hpv _
    exact absurd ⟨hpv.length_eq.symm, hq.length_eq.symm⟩ hlen
  refine SoundP.bindS (Sound.and (sound_assetMixing _ _ _ _) (C51_mixing_sound_partial _ _ _ _
    (by simpa [hlen.1] using hi) (by simpa [hlen.2] using ho))) (fun _ => SoundP.bindS sound_pad (fun _ =>
    SoundP.pure _ _ ?_))
  rintro w - ⟨⟨hz, -⟩, hmix⟩ fp hf pv1 rfl - comPv hcom pv2 rfl hrv nulPv hnul - - - hqs hps h1
  have h0 : w 0 = 0 := hz (by
    have : pvs ≠ [] := by
      rintro rfl
      exact hne.1 (by cases hps; rfl)
    simpa using this)
  -- the openings
  obtain ⟨spent, hsp, hnl⟩ : ∃ spent, List.Forall₂ (IsSpent w) pvs spent ∧
      spent.map (fun s => s.nodes.length) = payers.map (fun s => s.path.length) := by
    clear hnul hmix hz hne hi hlen
    induction hps with
    | nil => exact ⟨[], .nil, rfl⟩
    | @cons s v _ _ h _ ih =>
      obtain ⟨spent, i1, i2⟩ := ih
      obtain ⟨hl, ns, hns⟩ := h
      exact ⟨⟨w v.uid, w v.amount, w v.ty, w v.blind, ns⟩ :: spent, .cons ⟨rfl, rfl, rfl, rfl, hns⟩ i1, by
        simp [i2, ← hl, hns.length_eq]⟩
  obtain ⟨n1, n2, n3, n4⟩ := hnul (fun _ spent hs => by cases hs; simp) h0 spent hsp
  obtain ⟨c1, c2⟩ := hcom (fun _ => by simp) h0
  have hspe : spent = pvs.map (spentVal w) := forall₂_map_eq (fun _ _ h => IsSpent.eq h) hsp
  refine ⟨nulPv.map w, comPv.map w, fp.map w, w rv, w fv,
    by simp, by rw [n1]; simpa using congrArg List.length hnl, by rw [c1]; simp [hlen.2], ?_, hlen.2, hf h0,
    fun hfee => ?_⟩
  · rw [← hnl, hspe, List.map_map]
    simp [Function.comp_def, spentVal]
  rw [← hspe]
  have hm := hmix h1 (by
    intro q hq
    obtain ⟨v, hv, rfl⟩ := List.mem_map.mp hq
    obtain ⟨s, hs, is⟩ := forall₂_mem_right (R := fun s v => IsSpent w v s) hsp.flip hv
    simp only
    rw [← is.amount]
    exact n2 s hs) (by
    intro q hq
    obtain ⟨v, hv, rfl⟩ := List.mem_map.mp hq
    exact c2 v hv) hfee
  have ein : records w (pvs.map (fun v => (v.ty, v.amount))) = spent.map (fun s => (s.ty, s.amount)) := by
    clear hnul hmix hz hne hi hlen hps n1 n2 n3 n4 hm hnl hspe
    unfold records
    induction hsp with
    | nil => rfl
    | cons h _ ih =>
      simp only [List.map_cons, ih]
      rw [h.ty, h.amount]
  have eout : records w (qvs.map (fun v => (v.ty, v.amount))) =
      (qvs.map (payeeVal w)).map (fun s => (s.ty, s.amount)) := by
    unfold records
    simp [payeeVal, Function.comp_def]
  refine { nuls := n1, roots := ?_, coms := c1, inRange := n2, outRange := ?_, feeIn := ?_, balance := ?_ }
  · intro s hs _ _
    unfold Merkle.verify
    simp only [decide_eq_true_eq]
    exact n4 s hs rv hrv
  · intro t ht
    obtain ⟨v, hv, rfl⟩ := List.mem_map.mp ht
    exact c2 v hv
  · obtain ⟨i, hi, he⟩ := hm.1
    obtain ⟨v, hv, rfl⟩ := List.mem_map.mp hi
    obtain ⟨s, hs, is⟩ := forall₂_mem_right (R := fun s v => IsSpent w v s) hsp.flip hv
    exact ⟨s, hs, by rw [is.ty]; exact he⟩
  · intro t
    rw [sum_filter_totalNat spent Spent.ty Spent.amount t, sum_filter_totalNat _ Payee.ty Payee.amount t, ← ein, ← eout]
    exact hm.2 t

/-- C67 (soundness), under the hypothesis that `one_var` holds one.  Missing: nothing enforces it, and without it the
statement is false, see `C67_transfer_unsound`.

Build the transfer circuit for any number of inputs and outputs and any path lengths (the builder's own witness is
irrelevant).  Take any assignment that satisfies it for the public inputs `nuls ++ [root] ++ coms ++ [fee] ++ foldPub`,
and read from it the values of the witness variables: one key pair, which the folding circuit accepts, and openings of all
inputs and outputs.  These values make the transfer valid: real nullifiers, Merkle proofs of the given lengths for the
public root, commitments to amounts below `2^64`, and for every asset type integers that balance, with the public fee. -/
theorem C67_transfer_sound_partial (hp : GoodParams p) (h2 : (2 : F) ≠ 0)
    {α : Type} (folding : PK Nat → SK Nat → Build F α) (Fold : (Nat → F) → α → PK F → SK F → List F → Prop)
    (hfold : ∀ pk sk, SoundP (folding pk sk) (fun w a pv => w 0 = 0 → Fold w a (pkVal w pk) (skVal w sk) (pv.map w)))
    (payers : List (Payer F)) (payees : List (Payee F)) (pk0 : PK F) (sk0 : SK F) (fee0 feeType : F)
    (hi : payers.length * 2 ^ 64 < ScalarRepr.order F) (ho : (payees.length + 1) * 2 ^ 64 < ScalarRepr.order F)
    (vars : XfrVars α) (cs : CS F)
    (hb : buildMultiXfr p folding payers payees pk0 sk0 fee0 feeType CS.new = some (vars, cs))
    (nuls coms foldPub : List F) (root fee : F) (hn : nuls.length = payers.length) (hc : coms.length = payees.length)
    (hl : (nuls ++ [root] ++ coms ++ [fee] ++ foldPub).length = cs.pubVars.length)
    (hfee : ScalarRepr.val fee < 2 ^ 64) (w : Nat → F)
    (hs : Sat cs w (nuls ++ [root] ++ coms ++ [fee] ++ foldPub)) (h1 : w 1 = 1) :
    Fold w vars.fold (pkVal w vars.pk) (skVal w vars.sk) foldPub ∧
      Valid p (pkVal w vars.pk) (skVal w vars.sk) (vars.payers.map (spentVal w)) (vars.payees.map (payeeVal w)) feeType fee
        nuls root coms ∧
      vars.payers.map (fun v => v.path.length) = payers.map (fun s => s.path.length) ∧
      vars.payees.length = payees.length := by
  obtain ⟨hw, pv, mo, h⟩ := soundP_buildMultiXfr p hp h2 folding Fold hfold payers payees pk0 sk0 fee0 feeType hi ho
    CS.new vars cs WF.new hb
  obtain ⟨nuls', coms', foldPub', root', fee', e, hn', hc', e1, e2, hf, hv⟩ := h w _ hs h1
  have hpub : cs.pubVars = pv := by rw [mo.pub]; rfl
  have hon : pv.map w = nuls ++ [root] ++ coms ++ [fee] ++ foldPub := by
    rw [← hpub]
    refine List.ext_getElem? fun k => ?_
    rw [List.getElem?_map]
    cases hk : cs.pubVars[k]? with
    | none =>
      have : cs.pubVars.length ≤ k := by simpa using hk
      simp only [Option.map_none]
      exact (List.getElem?_eq_none (by omega)).symm
    | some v =>
      have hlt : k < cs.pubVars.length := (List.getElem?_eq_some_iff.mp hk).1
      have hx := List.getElem?_eq_getElem (l := nuls ++ [root] ++ coms ++ [fee] ++ foldPub) (i := k) (by omega)
      rw [Option.map_some, hx]
      exact congrArg some (Sat.public hw hs k v _ hk hx)
  rw [e] at hon
  simp only [List.append_assoc] at hon
  obtain ⟨i1, hon⟩ := List.append_inj hon (hn'.trans hn.symm)
  obtain ⟨i2, hon⟩ := List.append_inj hon rfl
  obtain ⟨i3, hon⟩ := List.append_inj hon (hc'.trans hc.symm)
  obtain ⟨i4, i5⟩ := List.append_inj hon rfl
  simp only [List.cons.injEq, and_true] at i2 i4
  subst i1 i2 i3 i4 i5
  exact ⟨hf, hv hfee, e1, e2⟩

end Verif.Anon
