import Verif.Crypto.ChaumPedersen

/-!
C65: the delegated Schnorr protocol (`crypto/src/delegated_schnorr.rs`).

The transcript is the list of the messages appended so far; the 16-byte challenges, expanded by ChaCha and read as a
scalar, are a function `H` of it.  The commitment to the inspector's state (the Rescue sponge over the compressed limbs) is
a parameter `comm` here.
-/

namespace Verif.DelegatedSchnorr

open Verif.ChaumPedersen (Gens Opens)

variable {F G K : Type} [Field F] [AddCommGroup G] [Module F G]

/-! ### Model -/

/-- transcript messages; `label` is the name the transcript is created with, `bound` a field element the caller appends
before the protocol -/
inductive Msg (F G K : Type) where
  | label (s : String)
  | bound (k : K)
  | base (g : G)
  | baseBlinding (g : G)
  | number (n : Nat)
  | commitment (g : G)
  | stateComm (k : K)
  | randomizer (g : G)
  | response (x : F)
  | challenge
deriving DecidableEq

/-- the transcript -/
abbrev Tr (F G K : Type) := List (Msg F G K)

/-- models `DelegatedSchnorrProof`, crypto/src/delegated_schnorr.rs:11-22 -/
structure Proof (F G K : Type) where
  comm : K
  randomizers : List G
  responses : List (F × F)
deriving DecidableEq

/-- models `DelegatedSchnorrInspection`, crypto/src/delegated_schnorr.rs:24-35 -/
structure Inspection (F K : Type) where
  data : List (F × F)
  r : K
deriving DecidableEq

/-- models `PedersenCommitment::commit`, crypto/src/basic/pedersen_comm.rs:45-53 and 93-95 -/
def commit (g : Gens G) (v r : F) : G := v • g.B + r • g.Bb

/-- the messages before the first challenge, crypto/src/delegated_schnorr.rs:182-195 and 264-281 -/
def point1 (g : Gens G) (tr : Tr F G K) (coms : List G) (comm : K) (randomizers : List G) : Tr F G K :=
  tr ++ [.base g.B, .baseBlinding g.Bb, .number coms.length] ++ coms.map .commitment ++ [.stateComm comm] ++
    randomizers.map .randomizer

/-- the messages before the second challenge, crypto/src/delegated_schnorr.rs:218-221 and 291-294 -/
def point2 (tr : Tr F G K) (responses : List (F × F)) : Tr F G K :=
  tr ++ [.challenge] ++ responses.flatMap (fun p => [.response p.1, .response p.2])

/-- models `prove_delegated_schnorr`, crypto/src/delegated_schnorr.rs:86-246; `rand` and `r` are the generator's samples
(one pair per committed value); `comm` commits to the values, the first randomizer scalars and `r` -/
def prove (comm : List F → List F → K → K) (g : Gens G) (H : Tr F G K → F) (tr : Tr F G K) (rand : List (F × F)) (r : K)
    (data : List (F × F)) (coms : List G) : Res (Proof F G K × Inspection F K × F × F × Tr F G K) :=
  if data.length = coms.length then
    let k := comm (data.map (·.1)) (rand.map (·.1)) r
    let randomizers := rand.map (fun p => commit g p.1 p.2)
    let tr1 := point1 g tr coms k randomizers
    let beta := H tr1
    let responses := List.zipWith (fun d p => (beta * d.1 + p.1, beta * d.2 + p.2)) data rand
    let tr2 := point2 tr1 responses
    .ok (⟨k, randomizers, responses⟩, ⟨List.zipWith (fun d p => (d.1, p.1)) data rand, r⟩, beta, H tr2, tr2 ++ [.challenge])
  else .panic

/-- the loop of `verify_delegated_schnorr`, crypto/src/delegated_schnorr.rs:305-318 -/
def checkAll [DecidableEq G] (g : Gens G) (beta : F) : List (F × F) → List G → List G → Res Unit
  | s :: ss, c :: cs, r :: rs => if commit g s.1 s.2 ≠ beta • c + r then .err else checkAll g beta ss cs rs
  | _, _, _ => .ok ()

/-- models `verify_delegated_schnorr`, crypto/src/delegated_schnorr.rs:249-321 -/
def verify [DecidableEq G] (g : Gens G) (H : Tr F G K → F) (tr : Tr F G K) (coms : List G) (p : Proof F G K) :
    Res (F × F × Tr F G K) :=
  if coms.length = p.randomizers.length ∧ coms.length = p.responses.length then
    let tr1 := point1 g tr coms p.comm p.randomizers
    let beta := H tr1
    let tr2 := point2 tr1 p.responses
    do
      checkAll g beta p.responses coms p.randomizers
      return (beta, H tr2, tr2 ++ [.challenge])
  else .panic

/-! ### Specification -/

/-- the verification equations: `response = beta * commitment + randomizer`, one per commitment -/
def Equations (g : Gens G) (beta : F) (coms randomizers : List G) (responses : List (F × F)) : Prop :=
  ∀ (j : Nat) c r s, coms[j]? = some c → randomizers[j]? = some r → responses[j]? = some s →
    s.1 • g.B + s.2 • g.Bb = beta • c + r

/-- the opening extracted for a commitment from its two responses -/
def extract (s s' : F × F) (beta beta' : F) : F × F := ((s.1 - s'.1) / (beta - beta'), (s.2 - s'.2) / (beta - beta'))

/-! ### Lemmas -/

theorem checkAll_iff [DecidableEq G] (g : Gens G) (beta : F) (ss : List (F × F)) (cs rs : List G) :
    (checkAll g beta ss cs rs = .ok () ↔ Equations g beta cs rs ss) ∧
      (checkAll g beta ss cs rs = .ok () ∨ checkAll g beta ss cs rs = .err) := by
  induction ss generalizing cs rs with
  | nil => exact ⟨⟨fun _ j c r s _ _ h => by simp at h, fun _ => by simp [checkAll]⟩, Or.inl (by simp [checkAll])⟩
  | cons s ss ih => cases cs with
    | nil => exact ⟨⟨fun _ j c r s h _ _ => by simp at h, fun _ => by simp [checkAll]⟩, Or.inl (by simp [checkAll])⟩
    | cons c cs => cases rs with
      | nil => exact ⟨⟨fun _ j c r s _ h _ => by simp at h, fun _ => by simp [checkAll]⟩, Or.inl (by simp [checkAll])⟩
      | cons r rs =>
        rw [checkAll]
        by_cases he : commit g s.1 s.2 = beta • c + r
        · rw [if_neg (by simpa using he)]
          refine ⟨?_, (ih cs rs).2⟩
          rw [(ih cs rs).1]
          constructor
          · intro h j c' r' s' h1 h2 h3
            cases j with
            | zero =>
              simp only [List.getElem?_cons_zero, Option.some.injEq] at h1 h2 h3
              subst h1 h2 h3
              exact he
            | succ j => exact h j c' r' s' (by simpa using h1) (by simpa using h2) (by simpa using h3)
          · intro h j c' r' s' h1 h2 h3
            exact h (j + 1) c' r' s' (by simpa using h1) (by simpa using h2) (by simpa using h3)
        · rw [if_pos he]
          refine ⟨⟨fun h => (by cases h), fun h => ?_⟩, Or.inr rfl⟩
          exact absurd (h 0 c r s rfl rfl rfl) he

/-! ### C65 -/

/-- **C65.**  The verifier accepts exactly when every equation holds for the challenge drawn from the transcript of the
statement, the state commitment and the randomizers; otherwise it returns an error (lengths that do not match panic). -/
theorem C65_accepts_iff [DecidableEq G] (g : Gens G) (H : Tr F G K → F) (tr : Tr F G K) (coms : List G) (p : Proof F G K)
    (hl : coms.length = p.randomizers.length ∧ coms.length = p.responses.length) :
    let tr1 := point1 g tr coms p.comm p.randomizers
    (Equations g (H tr1) coms p.randomizers p.responses →
      verify g H tr coms p = .ok (H tr1, H (point2 tr1 p.responses), point2 tr1 p.responses ++ [.challenge])) ∧
    (¬ Equations g (H tr1) coms p.randomizers p.responses → verify g H tr coms p = .err) := by
  obtain ⟨h1, h2⟩ := checkAll_iff g (H (point1 g tr coms p.comm p.randomizers)) p.responses coms p.randomizers
  constructor
  · intro h
    unfold verify
    rw [if_pos hl]
    simp only [h1.mpr h, Res.bind_ok, Res.pure_eq]
  · intro h
    unfold verify
    rw [if_pos hl]
    rcases h2 with h2 | h2
    · exact absurd (h1.mp h2) h
    · simp only [h2, Res.bind_err]

/-- **C65 (completeness).**  Honest proofs for commitments with their openings verify, and the verifier ends with the
prover's challenges and transcript. -/
theorem C65_complete [DecidableEq G] (comm : List F → List F → K → K) (g : Gens G) (H : Tr F G K → F) (tr : Tr F G K)
    (rand : List (F × F)) (r : K) (data : List (F × F)) (coms : List G) (hr : rand.length = data.length)
    (h : List.Forall₂ (fun c (d : F × F) => Opens g c d.1 d.2) coms data) :
    ∃ p i beta lambda tr', prove comm g H tr rand r data coms = .ok (p, i, beta, lambda, tr') ∧
      verify g H tr coms p = .ok (beta, lambda, tr') ∧
      p.comm = comm (i.data.map (·.1)) (i.data.map (·.2)) i.r ∧
      p.responses.map (·.1) = i.data.map (fun d => beta * d.1 + d.2) := by
  have hl : data.length = coms.length := h.length_eq.symm
  refine ⟨_, _, _, _, _, by unfold prove; rw [if_pos hl], ?_, ?_, ?_⟩
  · refine (C65_accepts_iff g H tr coms _ ⟨by simp; omega, by simp; omega⟩).1 ?_
    intro j c rd s hc hrd hs
    simp only [List.getElem?_map, Option.map_eq_some_iff] at hrd
    obtain ⟨q, hq, rfl⟩ := hrd
    simp only [List.getElem?_zipWith] at hs
    have hj : j < coms.length := (List.getElem?_eq_some_iff.mp hc).1
    have hd : data[j]? = some data[j] := List.getElem?_eq_getElem (by omega)
    rw [hd, hq] at hs
    simp only [Option.some.injEq] at hs
    subst hs
    have ho : Opens g c data[j].1 data[j].2 := by
      have := List.Forall₂.get h (i := j) hj (by omega)
      have hcj : coms.get ⟨j, hj⟩ = c := (List.getElem?_eq_some_iff.mp hc).2
      rw [hcj] at this
      exact this
    unfold Opens at ho
    simp only [ho, commit]
    module
  · have z1 : ∀ (data rand : List (F × F)), rand.length = data.length →
        (List.zipWith (fun d p => (d.1, p.1)) data rand).map (·.1) = data.map (·.1) ∧
        (List.zipWith (fun d p => (d.1, p.1)) data rand).map (·.2) = rand.map (·.1) := by
      intro data
      induction data with
      | nil => intro rand hr; cases rand with
        | nil => simp
        | cons => simp at hr
      | cons d data ih => intro rand hr; cases rand with
        | nil => simp at hr
        | cons q rand =>
          obtain ⟨i1, i2⟩ := ih rand (by simpa using hr)
          rw [List.zipWith_cons_cons, List.map_cons, List.map_cons, List.map_cons, List.map_cons, i1, i2]
          exact ⟨rfl, rfl⟩
    obtain ⟨i1, i2⟩ := z1 data rand hr
    simp only
    rw [i1, i2]
  · generalize H _ = beta
    clear h hl
    induction data generalizing rand with
    | nil => simp
    | cons d data ih => cases rand with
      | nil => simp
      | cons q rand => simp [ih rand (by simpa using hr)]

/-- **C65 (special soundness).**  Two proofs with the same commitment to the state and the same randomizers, accepted
under oracles that differ at the first challenge, open every commitment. -/
theorem C65_special_sound [DecidableEq G] (g : Gens G) (H H' : Tr F G K → F) (tr : Tr F G K) (coms : List G) (k : K)
    (randomizers : List G) (responses responses' : List (F × F)) (out out' : F × F × Tr F G K)
    (h : verify g H tr coms ⟨k, randomizers, responses⟩ = .ok out)
    (h' : verify g H' tr coms ⟨k, randomizers, responses'⟩ = .ok out') (hne : out.1 ≠ out'.1) :
    ∀ (j : Nat) c, coms[j]? = some c → ∃ s s', responses[j]? = some s ∧ responses'[j]? = some s' ∧
      Opens g c (extract s s' out.1 out'.1).1 (extract s s' out.1 out'.1).2 := by
  have key : ∀ (H : Tr F G K → F) rs out, verify g H tr coms ⟨k, randomizers, rs⟩ = .ok out →
      coms.length = randomizers.length ∧ coms.length = rs.length ∧ Equations g out.1 coms randomizers rs := by
    intro H rs out h
    have hl : coms.length = randomizers.length ∧ coms.length = rs.length := by
      by_contra hcon
      unfold verify at h
      rw [if_neg hcon] at h
      cases h
    obtain ⟨h1, h2⟩ := C65_accepts_iff g H tr coms ⟨k, randomizers, rs⟩ hl
    by_cases he : Equations g (H (point1 g tr coms k randomizers)) coms randomizers rs
    · have := h1 he
      rw [h] at this
      obtain rfl := Res.ok.inj this
      exact ⟨hl.1, hl.2, he⟩
    · rw [h2 he] at h; cases h
  obtain ⟨l1, l2, e⟩ := key H responses out h
  obtain ⟨-, l3, e'⟩ := key H' responses' out' h'
  intro j c hc
  have hj : j < coms.length := (List.getElem?_eq_some_iff.mp hc).1
  have a := e j c _ _ hc (List.getElem?_eq_getElem (by omega)) (List.getElem?_eq_getElem (by omega))
  have b := e' j c _ _ hc (List.getElem?_eq_getElem (by omega)) (List.getElem?_eq_getElem (by omega))
  refine ⟨_, _, List.getElem?_eq_getElem (by omega), List.getElem?_eq_getElem (by omega), ?_⟩
  have hd : out.1 - out'.1 ≠ 0 := sub_ne_zero.mpr hne
  unfold Opens extract
  simp only [div_eq_inv_mul, mul_smul]
  rw [← smul_add]
  have : (out.1 - out'.1) • c = (responses[j].1 - responses'[j].1) • g.B + (responses[j].2 - responses'[j].2) • g.Bb := by
    have e3 : (out.1 - out'.1) • c = (out.1 • c + randomizers[j]) - (out'.1 • c + randomizers[j]) := by module
    rw [e3, ← a, ← b]; module
  rw [← this, smul_smul, inv_mul_cancel₀ hd, one_smul]

/-- Lists of different lengths panic instead of returning an error. -/
theorem C65_lengths_panic [DecidableEq G] (g : Gens G) (H : Tr F G K → F) (tr : Tr F G K) (coms : List G) (p : Proof F G K)
    (h : coms.length ≠ p.randomizers.length ∨ coms.length ≠ p.responses.length) : verify g H tr coms p = .panic := by
  unfold verify
  rw [if_neg (by tauto)]

/-! ### Concrete cases -/

section Examples

open Verif.Sigma Verif.ChaumPedersen

/-- commitments 31 = 3·1 + 4·7 and 19 = 5·1 + 2·7 -/
example : ∃ p i beta lambda tr', prove (F := ZMod 101) (fun a b (_ : ZMod 101) => a.sum + b.sum) exGens
      (fun tr => tr.length) [] [(8, 9), (10, 11)] 0 [(3, 4), (5, 2)] [31, 19] = .ok (p, i, beta, lambda, tr') ∧
    verify exGens (fun tr => (tr.length : ZMod 101)) [] [31, 19] p = .ok (beta, lambda, tr') := by
  obtain ⟨p, i, beta, lambda, tr', h1, h2, -⟩ := C65_complete (fun a b (_ : ZMod 101) => a.sum + b.sum) exGens
    (fun tr => (tr.length : ZMod 101)) [] [(8, 9), (10, 11)] 0 [(3, 4), (5, 2)] [31, 19] rfl
    (.cons (by unfold Opens; decide +kernel) (.cons (by unfold Opens; decide +kernel) .nil))
  exact ⟨p, i, beta, lambda, tr', h1, h2⟩

/-- two accepted proofs for the commitment 31 with randomizer 8·1 + 9·7 = 71, challenges 2 and 3; a wrong response is
rejected -/
example : verify (F := ZMod 101) (K := ZMod 101) exGens (fun _ => 2) [] [31] ⟨0, [71], [(14, 17)]⟩ =
      .ok (2, 2, point2 (point1 (F := ZMod 101) (K := ZMod 101) exGens [] [31] 0 [71]) [(14, 17)] ++ [.challenge]) ∧
    verify (F := ZMod 101) (K := ZMod 101) exGens (fun _ => 3) [] [31] ⟨0, [71], [(17, 21)]⟩ =
      .ok (3, 3, point2 (point1 (F := ZMod 101) (K := ZMod 101) exGens [] [31] 0 [71]) [(17, 21)] ++ [.challenge]) ∧
    extract (F := ZMod 101) (14, 17) (17, 21) 2 3 = (3, 4) ∧
    verify (F := ZMod 101) (K := ZMod 101) exGens (fun _ => 3) [] [31] ⟨0, [71], [(17, 22)]⟩ = .err := by
  refine ⟨?_, ?_, ?_, ?_⟩ <;> decide +kernel

end Examples

end Verif.DelegatedSchnorr
