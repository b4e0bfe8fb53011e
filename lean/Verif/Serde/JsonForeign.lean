import Verif.Serde.JsonGrammar
import Verif.Serde.JsonParts

/-!
C114, notes in texts that somebody else wrote: every text of the grammar counts, with any spelling of the strings, and no other.
-/

namespace Verif.Serde

open Verif.Xfr Verif.Anon Verif.SimFr

/-- **C114**: a value is read from a text exactly if the text is a document and the value is what its tree says. -/
theorem C114_read_iff {α : Type} (c : Codec α) (t : Bytes) (a : α) : fromJson c t = .ok a ↔ ∃ j, Document j t ∧ c.de j = .ok a := by
  unfold fromJson
  constructor
  · intro h
    obtain ⟨j, hj, ha⟩ := Res.bind_eq_ok.mp h
    cases hp : parseJson t with
    | none => rw [hp] at hj; cases hj
    | some i =>
      rw [hp] at hj
      cases hj
      exact ⟨j, (C114_accepted_iff_document t j).mp hp, ha⟩
  · rintro ⟨j, hj, ha⟩
    rw [(C114_accepted_iff_document t j).mpr hj]
    exact ha

/-- **C114**: a text that is no document is refused with an error, whatever is expected in it. -/
theorem C114_other_texts_refused {α : Type} (c : Codec α) (t : Bytes) (h : ∀ j, ¬ Document j t) : fromJson c t = .err := by
  unfold fromJson
  cases hp : parseJson t with
  | none => rfl
  | some i => exact absurd ((C114_accepted_iff_document t i).mp hp) (h i)

/-- **C114**: how a document is spelled makes no difference, neither for what is read nor for whether reading fails or panics. -/
theorem C114_spelling {α : Type} (c : Codec α) {j : Json} {t u : Bytes} (ht : Document j t) (hu : Document j u) : fromJson c t = fromJson c u := by
  unfold fromJson
  rw [(C114_accepted_iff_document t j).mpr ht, (C114_accepted_iff_document u j).mpr hu]

/-- what the library writes is a document of the tree -/
theorem document_written {α : Type} {c : Codec α} {k : Nat} (h : c.Good k) (hk : k < 128) (a : α) : Document (c.ser a) (toJson c a) :=
  (C114_accepted_iff_document _ _).mp (parseJson_text _ (by have := h.depth a; omega))

/-- any document of what was written, with the members in any order, is read back -/
theorem foreign_read {α : Type} {c : Codec α} {k : Nat} (h : c.Good k) (a : α) {j : Json} (hj : Reord (c.ser a) j)
    {t : Bytes} (ht : Document j t) : fromJson c t = .ok a :=
  (C114_read_iff c t a).mpr ⟨j, ht, h.perm _ _ _ hj (h.back a)⟩

section
variable {S : Types} {L : Leaves S} {R : Parse S} {sg : S.Sg → Bytes} {lay : WMemo → Layout} {K Pf : Type} {bls : K → Bytes} {pf : Pf → WPlonk}
  {blsR : Bytes → Res K} {pfR : WPlonk → Res Pf} {Q : SimFr.Params} {pt : S.G → Bytes} {sc : ZMod Q.r → Bytes} {ptR : Bytes → Res S.G}
  {scR : Bytes → Res (ZMod Q.r)} {P : SimFr.Params} {G Mp : Type} {fpt : G → Bytes} {fsc : ZMod P.r → Bytes} {mul : Mp → Bytes}
  {fptR : Bytes → Res G} {fscR : Bytes → Res (ZMod P.r)} {mulR : Bytes → Res Mp}

/-- **C114**: a transfer that another program wrote, with its own spelling of names and strings, its own spaces, its own order of members
and memos in any layout, is the same transfer; what the library itself writes is a document of it. -/
theorem C114_transfer_foreign (hR : R.Of L sg) (hl : ∀ m, (lay m).Fits m) (n : XfrNote S) :
    Document ((jXfrNote L R sg lay).ser n) (toJson (jXfrNote L R sg lay) n) ∧
    ∀ j t, Reord ((jXfrNote L R sg lay).ser n) j → Document j t → fromJson (jXfrNote L R sg (fun _ => newLayout)) t = .ok n :=
  ⟨document_written (good_xfrNote hR hl) (by decide) n, fun _ _ hj ht =>
    xfrNote_reader (lay := lay) (fun _ => newLayout) ▸ foreign_read (good_xfrNote hR hl) n hj ht⟩

/-- **C114**: and so are the notes of the pool. -/
theorem C114_pool_foreign (hR : R.Of L sg) (hl : ∀ m, (lay m).Fits m) (hb : ∀ x, blsR (bls x) = .ok x) (hp : ∀ x, pfR (pf x) = .ok x)
    (ht : ∀ x, ptR (pt x) = .ok x) (hs : ∀ x, scR (sc x) = .ok x) (hft : ∀ x, fptR (fpt x) = .ok x) (hfs : ∀ x, fscR (fsc x) = .ok x)
    (hmul : ∀ x, mulR (mul x) = .ok x) {A : Type} {apk : A → Bytes} {apkR : Bytes → Res A} (ha : ∀ x, apkR (apk x) = .ok x) :
    (∀ n : Anon.XfrNote P K A Pf G Mp,
      Document ((jAXfrNote bls pf blsR pfR fpt fsc mul fptR fscR mulR apk apkR).ser n)
        (toJson (jAXfrNote bls pf blsR pfR fpt fsc mul fptR fscR mulR apk apkR) n) ∧
      ∀ j t, Reord ((jAXfrNote bls pf blsR pfR fpt fsc mul fptR fscR mulR apk apkR).ser n) j → Document j t →
        fromJson (jAXfrNote bls pf blsR pfR fpt fsc mul fptR fscR mulR apk apkR) t = .ok n) ∧
    (∀ n : ArToAbarNote S K Pf,
      Document ((jArToAbarNote L R sg bls pf blsR pfR).ser n) (toJson (jArToAbarNote L R sg bls pf blsR pfR) n) ∧
      ∀ j t, Reord ((jArToAbarNote L R sg bls pf blsR pfR).ser n) j → Document j t →
        fromJson (jArToAbarNote L R sg bls pf blsR pfR) t = .ok n) ∧
    (∀ n : BarToAbarNote S Q K Pf,
      Document ((jBarToAbarNote L R sg bls pf blsR pfR pt sc ptR scR).ser n) (toJson (jBarToAbarNote L R sg bls pf blsR pfR pt sc ptR scR) n) ∧
      ∀ j t, Reord ((jBarToAbarNote L R sg bls pf blsR pfR pt sc ptR scR).ser n) j → Document j t →
        fromJson (jBarToAbarNote L R sg bls pf blsR pfR pt sc ptR scR) t = .ok n) ∧
    (∀ n : AbarToArNote S P K Pf G Mp × UInt64 × Option S.OM,
      Document ((jAbarToArNote L R lay bls pf blsR pfR fpt fsc mul fptR fscR mulR).ser n)
        (toJson (jAbarToArNote L R lay bls pf blsR pfR fpt fsc mul fptR fscR mulR) n) ∧
      ∀ j t, Reord ((jAbarToArNote L R lay bls pf blsR pfR fpt fsc mul fptR fscR mulR).ser n) j → Document j t →
        fromJson (jAbarToArNote L R (fun _ => newLayout) bls pf blsR pfR fpt fsc mul fptR fscR mulR) t = .ok n) ∧
    (∀ n : AbarToBarNote S P Q K Pf G Mp × UInt64 × Option S.OM,
      Document ((jAbarToBarNote L R lay bls pf blsR pfR pt sc ptR scR fpt fsc mul fptR fscR mulR).ser n)
        (toJson (jAbarToBarNote L R lay bls pf blsR pfR pt sc ptR scR fpt fsc mul fptR fscR mulR) n) ∧
      ∀ j t, Reord ((jAbarToBarNote L R lay bls pf blsR pfR pt sc ptR scR fpt fsc mul fptR fscR mulR).ser n) j → Document j t →
        fromJson (jAbarToBarNote L R (fun _ => newLayout) bls pf blsR pfR pt sc ptR scR fpt fsc mul fptR fscR mulR) t = .ok n) :=
  ⟨fun n => ⟨document_written (good_axfrNote hb hp hft hfs hmul ha) (by decide) n,
      fun _ _ hj h => foreign_read (good_axfrNote hb hp hft hfs hmul ha) n hj h⟩,
    fun n => ⟨document_written (good_arToAbarNote hR hb hp) (by decide) n, fun _ _ hj h => foreign_read (good_arToAbarNote hR hb hp) n hj h⟩,
    fun n => ⟨document_written (good_barToAbarNote hR hb hp ht hs) (by decide) n,
      fun _ _ hj h => foreign_read (good_barToAbarNote hR hb hp ht hs) n hj h⟩,
    fun n => ⟨document_written (good_abarToArNote hR hl hb hp hft hfs hmul) (by decide) n, fun _ _ hj h =>
      abarToAr_reader (lay := lay) (fun _ => newLayout) ▸ foreign_read (good_abarToArNote hR hl hb hp hft hfs hmul) n hj h⟩,
    fun n => ⟨document_written (good_abarToBarNote hR hl hb hp ht hs hft hfs hmul) (by decide) n, fun _ _ hj h =>
      abarToBar_reader (lay := lay) (fun _ => newLayout) ▸ foreign_read (good_abarToBarNote hR hl hb hp ht hs hft hfs hmul) n hj h⟩⟩

/-- **C114**: no spelling smuggles a field in twice: if two names of a note or of its body mean the same field, the note is refused. -/
theorem C114_twice_refused (hR : R.Of L sg) (l : List (Bytes × Json)) (t : Bytes) (h : Document (.obj l) t) (name : Bytes) (hn :
      (name ∈ [ascii! "body", ascii! "multisig"] ∧ 2 ≤ (l.map Prod.fst).count name) ∨
      (name ∈ [ascii! "inputs", ascii! "outputs", ascii! "proofs", ascii! "asset_tracing_memos", ascii! "owners_memos"] ∧
        ∃ b, (ascii! "body", Json.obj b) ∈ l ∧ 2 ≤ (b.map Prod.fst).count name)) (n : XfrNote S) :
    fromJson (jXfrNote L R sg (fun _ => newLayout)) t ≠ .ok n := by
  intro hok
  unfold fromJson at hok
  rw [(C114_accepted_iff_document _ _).mpr h, Res.ofOption_some, Res.bind_ok] at hok
  obtain ⟨x, hx, -⟩ := Res.bind_eq_ok.mp hok
  rcases hn with ⟨h1, h2⟩ | ⟨h1, b, hb, h2⟩
  · exact rec_twice (rc (good_xfrBody hR newLayout_fits) <| rc (good_rec (rc (good_vec (good_leaf hR.sg)) rec_good_nil)) rec_good_nil)
      name h1 l h2 x hx
  · obtain ⟨a, ha⟩ := rec_first hx hb
    obtain ⟨y, hy, -⟩ := Res.bind_eq_ok.mp ha
    exact rec_twice (rc (good_vec (good_bar hR)) <| rc (good_vec (good_bar hR)) <| rc (good_proofs hR) <|
      rc (good_vec (good_vec (good_tracerMemo hR))) <| rc (good_vec (good_ownerMemo hR newLayout_fits)) rec_good_nil) name h1 b h2 y hy

end

end Verif.Serde
