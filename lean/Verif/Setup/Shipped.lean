import Verif.Setup.Files

/-!
C102: comparing a key of the verifier from a file with the one that setup makes.  The files are in `ShippedConv.lean` and
`ShippedXfr.lean`.
-/

namespace Verif.Setup

open Verif.Poly Verif.Plonk Verif.Snark Verif.Anon
open Verif.AnonCreds (Pairing)

/-- points left as the bytes of their compressed form -/
def rawObj (n : Nat) : Obj Bytes := ⟨id, fun b => if b.length = n then .ok b else .err⟩

/-- the readers of the files with points left as bytes: 48 for the first group, 96 for the second -/
def rawBin : Bin (VerifierParams Fr Bytes Bytes) := paramsBin (F := Fr) scalarObj (rawObj 48) (rawObj 96)

@[inherit_doc rawBin] def rawBins : FileBins Fr Bytes Bytes := transferBins (F := Fr) scalarObj (rawObj 48) (rawObj 96)

/-- the two sets of parameters have the same number of points in each place and agree in everything that is not a point -/
structure Spec.Agrees {A B A' B' : Type} (v : VerifierParams Fr A B) (w : VerifierParams Fr A' B') : Prop where
  group1 : v.pcs.group1.length = w.pcs.group1.length
  group2 : v.pcs.group2.length = w.pcs.group2.length
  cs : v.cs = w.cs
  cmQ : v.vk.cmQ.length = w.vk.cmQ.length
  cmS : v.vk.cmS.length = w.vk.cmS.length
  k : v.vk.k = w.vk.k
  root : v.vk.root = w.vk.root
  csSize : v.vk.csSize = w.vk.csSize
  pubCons : v.vk.pubCons = w.vk.pubCons
  lagrange : v.vk.lagrange = w.vk.lagrange

/-- a test that the kernel can run: `vars` variables, size `size`, public inputs at `pub` -/
def describes (vars size : Nat) (pub : List Nat) (cs : ParCs Fr) (vk : VK Bytes Fr) : Bool :=
  (match cs with
    | .shrunk v n => v.toNat == vars && n == size
    | .full _ => false) &&
  vk.cmQ.length == 13 && vk.cmS.length == 5 && vk.k.map ZMod.val == (List.range 5).map kappaNat &&
  vk.root.val == Secq.powMod Bls.r 256 ((Bls.r - 1) / size) 7 1 % Bls.r && vk.csSize == size && vk.pubCons == pub &&
  vk.lagrange.length == pub.length &&
  (pub.zip vk.lagrange).all fun x => x.2.val * (size * Secq.powMod Bls.r 16 (size - x.1) vk.root.val 1) % Bls.r == 1

theorem prod_roots {F : Type} [Field F] {root : F} {n b : Nat} (hr : IsPrimitiveRoot root n) (hb : b < n) :
    (∏ i ∈ (Finset.range n).erase b, (root ^ b - root ^ i)) = n * root ^ (n - b) := by
  have h := Lagrange.eval_nodal_derivative_eval_node_eq (s := Finset.range n) (v := fun i => root ^ i) (Finset.mem_range.mpr hb)
  rw [nodal_roots (by omega) hr] at h
  simp only [Polynomial.derivative_sub, Polynomial.derivative_X_pow, Polynomial.derivative_one, sub_zero, Polynomial.eval_mul,
    Polynomial.eval_natCast, Polynomial.eval_pow, Polynomial.eval_X, map_natCast] at h
  rw [Lagrange.eval_nodal] at h
  rw [← h]
  congr 1
  rw [← pow_mul]
  have e : b * (n - 1) + b = n * b := by
    obtain ⟨k, rfl⟩ : ∃ k, n = k + 1 := ⟨n - 1, by omega⟩
    rw [Nat.add_sub_cancel]
    ring
  have h0 : root ^ b ≠ 0 := pow_ne_zero _ (hr.ne_zero (by omega))
  apply mul_right_cancel₀ h0
  rw [← pow_add, e, pow_mul, hr.pow_eq_one, one_pow, ← pow_add, Nat.sub_add_cancel hb.le, hr.pow_eq_one]

theorem val_eq (x : Fr) (n : Nat) (h : x.val = n) : x = (n : Fr) := by
  rw [← h, ZMod.natCast_zmod_val]

theorem powMod_cast (k e b : Nat) (h : e < 2 ^ k) : (Secq.powMod Bls.r k e b 1 : Fr) = (b : Fr) ^ e := by
  have := Secq.powMod_eq Bls.r k e b 1 h
  rw [one_mul] at this
  rw [← Nat.cast_pow]
  exact (ZMod.natCast_eq_natCast_iff' _ _ _).mpr this

/-- keys that pass the test are, but for the points, the ones that setup makes -/
theorem describes_vk {G1 : Type} [AddCommGroup G1] [Module Fr G1] (s : Fr) (g : G1) (rootM : Fr) (c : CS Fr) (e : Nat) (he : e ≤ 15)
    (hsz : c.gates.length = 2 ^ e) (hp : IsPrimitiveRoot (blsRoot c.gates.length) c.gates.length)
    (hpub : ∀ b ∈ c.pubCons, b < c.gates.length)
    (cs : ParCs Fr) (vk : VK Bytes Fr) (h : describes c.numVars c.gates.length c.pubCons cs vk = true) :
    cs = ParCs.shrink (.full c) ∧ vk.cmQ.length = (pkOf s g rootM (blsRoot c.gates.length) kappa c).vk.cmQ.length ∧
      vk.cmS.length = (pkOf s g rootM (blsRoot c.gates.length) kappa c).vk.cmS.length ∧ vk.k = (List.range 5).map kappa ∧
      vk.root = blsRoot c.gates.length ∧ vk.csSize = c.gates.length ∧ vk.pubCons = c.pubCons ∧
      vk.lagrange = (pkOf s g rootM (blsRoot c.gates.length) kappa c).vk.lagrange := by
  unfold describes at h
  simp only [Bool.and_eq_true, beq_iff_eq, List.all_eq_true] at h
  obtain ⟨⟨⟨⟨⟨⟨⟨⟨h1, h2⟩, h3⟩, h4⟩, h5⟩, h6⟩, h7⟩, h8⟩, h9⟩ := h
  have hroot : vk.root = blsRoot c.gates.length := by
    rw [val_eq _ _ h5, ZMod.natCast_mod, powMod_cast, blsRoot, Nat.cast_ofNat]
    exact lt_of_le_of_lt (Nat.div_le_self _ _) (by decide +kernel)
  refine ⟨?_, ?_, ?_, ?_, hroot, h6, h7, ?_⟩
  · cases cs with
    | full _ => simp at h1
    | shrunk v n =>
      simp only [Bool.and_eq_true, beq_iff_eq] at h1
      obtain ⟨h1, rfl⟩ := h1
      rw [ParCs.shrink, ← h1, UInt64.ofNat_toNat]
  · rw [h2]
    simp [pkOf, selectors]
  · rw [h3]
    simp [pkOf]
  · apply List.map_injective_iff.mpr (ZMod.val_injective Bls.r)
    rw [h4, List.map_map]
    decide +kernel
  · show vk.lagrange = c.pubCons.map fun b => _
    apply List.ext_getElem (by rw [List.length_map, h8])
    intro i hi hi'
    rw [List.length_map] at hi'
    rw [List.getElem_map]
    have := h9 (c.pubCons[i], vk.lagrange[i]) (by
      rw [List.mem_iff_getElem]
      exact ⟨i, by rw [List.length_zip]; omega, by rw [List.getElem_zip]⟩)
    have hb := hpub c.pubCons[i] (List.getElem_mem hi')
    rw [prod_roots hp hb]
    apply eq_inv_of_mul_eq_one_left
    have h1 : ((vk.lagrange[i].val * (c.gates.length * Secq.powMod Bls.r 16 (c.gates.length - c.pubCons[i]) vk.root.val 1) : Nat) : Fr) =
        ((1 : Nat) : Fr) := by
      rw [ZMod.natCast_eq_natCast_iff', this]
      decide +kernel
    rw [Nat.cast_mul, Nat.cast_mul, ZMod.natCast_zmod_val, powMod_cast, ZMod.natCast_zmod_val, hroot, Nat.cast_one] at h1
    · exact h1
    · have : 2 ^ e ≤ 2 ^ 15 := Nat.pow_le_pow_right (by norm_num) he
      rw [hsz]
      omega

section
variable {G1 G2 Gt : Type} [AddCommGroup G1] [AddCommGroup G2] [Module Fr G1] [Module Fr G2] [AddCommGroup Gt] [Module Fr Gt]
  [DecidableEq Gt]

/-- the parameters that setup makes for a circuit, and those of a file that pass the test -/
theorem HonestEnv.agrees {P : Pairing Fr G1 G2 Gt} {E : Env Fr G1 G2} {d : Nat} {s : Fr} (H : HonestEnv P E d s) (c : CS Fr)
    (hwf : WF c) (e : Nat) (he : e ≤ 15) (hsz : c.gates.length = 2 ^ e) (hd : c.gates.length + 2 ≤ d) :
    ∃ q w, E.proverFirst (some c) = .ok q ∧ E.proverLast (some c) = .ok q ∧ (VerifierParams.ofProver q).shrink = .ok w ∧
      ∀ v : VerifierParams Fr Bytes Bytes, v.pcs.group1.length = 1 → v.pcs.group2.length = 2 →
        describes c.numVars c.gates.length c.pubCons v.cs v.vk = true → Spec.Agrees v w := by
  obtain ⟨lag, -, rootM, D, -, h1, h2⟩ := H.params c hwf e (by omega) hsz hd
  refine ⟨_, ⟨⟨[P.base1], [P.base2, s • P.base2]⟩, ParCs.shrink (.full c), (pkOf s P.base1 rootM (blsRoot c.gates.length) kappa c).vk⟩, h1, h2,
    ?_, fun v l1 l2 hv => ?_⟩
  · rw [VerifierParams.shrink, show (VerifierParams.ofProver (⟨setup P d s, lag, c, _⟩ : ProverParams Fr G1 G2)).pcs = setup P d s
      from rfl, shrink_setup]
    rfl
  · obtain ⟨a1, a2, a3, a4, a5, a6, a7, a8⟩ := describes_vk s P.base1 rootM c e he hsz D.primN hwf.pubCons_lt v.cs v.vk hv
    exact ⟨l1, l2, a1, a2, a3, a4, a5, a6, a7, a8⟩

end

/-- the test on a file of a conversion -/
def checkConversion (b : Bytes) (vars size : Nat) (pub : List Nat) : Bool :=
  match rawBin.de b with
  | some v => v.pcs.group1.length == 1 && v.pcs.group2.length == 2 && describes vars size pub v.cs v.vk
  | none => false

/-- the test on an entry of the table of transfers -/
def checkTransfer (b : Bytes) (vars size : Nat) (pub : List Nat) : Bool :=
  match rawBins.specific.de b with
  | some v => describes vars size pub v.cs v.vk
  | none => false

end Verif.Setup
