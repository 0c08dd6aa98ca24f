import Verif.Asn1.Compat
import Verif.Gen.Successors
import Verif.Props.Codec

/-!
# C28: newer modules read what the modules they replace write

`Successors.compatible` and `Successors.broken` list the classes that the two modules share, for each
pair of a superseded and a superseding module.  The former read everything their predecessors
read; for each of the latter there are octets only the predecessor reads.
-/

namespace Verif
namespace Props
namespace Compat

open Asn1 Successors

/-- The type an application decodes with. -/
def _root_.Verif.Successors.Row.oldTy (r : Row) : Ty := r.old.call.ty
/-- The type an application decodes with after moving to the newer module. -/
def _root_.Verif.Successors.Row.newTy (r : Row) : Ty := r.new.call.ty

/-! ## What holds for any two types -/

/-- A newer type reads every input that the older one reads as a value the newer type covers. -/
theorem covered_reads (u t : Ty) (b r : Bytes) (v : Val) (h : decode t b = some (v, r)) (hc : u.covers t v = true) :
    ∃ w, decode u b = some (w, r) ∧ u.rel t v w := covers_decode u t b r v h hc

/-- A well-formed older type's encodings are read by any newer type that has a counterpart for each part. -/
theorem sub_reads_encoding (u t : Ty) (hs : u.sub t = true) (hw : t.wf = true) (v : Val) (hv : t.valid v = true)
    (hb : t.weight v < Codec.maxOctets) :
    ∃ b v' w, encode t v = some b ∧ t.same false v v' ∧ decode u b = some (w, []) ∧ u.rel t v' w := by
  obtain ⟨b, v', h1, h2, h3, _⟩ := Codec.roundtrip_ty t hw v hv hb
  have h := h3 []
  rw [List.append_nil] at h
  obtain ⟨w, h4, h5⟩ := sub_decode u t b [] v' h hs
  exact ⟨b, v', w, h1, h2, h4, h5⟩

/-! ## The package -/

set_option maxRecDepth 100000 in
theorem compatible_table : compatible.all (fun r => r.newTy.sub r.oldTy) = true := by decide +kernel

set_option maxRecDepth 100000 in
theorem broken_table : broken.all (fun p => (decode p.1.oldTy p.2).isSome && (decode p.1.newTy p.2).isNone) = true := by
  decide +kernel

set_option maxRecDepth 100000 in
theorem old_known : (compatible.all (fun r => r.oldTy.wf || r.oldName ∈ Package.defective)) = true := by decide +kernel

/-- C28: whatever octets a class of `compatible` reads, the class that replaces it reads, leaving the same rest,
as a value that says the same. -/
theorem successor_reads (r : Row) (hr : r ∈ compatible) (b rest : Bytes) (v : Val)
    (h : decode r.oldTy b = some (v, rest)) : ∃ w, decode r.newTy b = some (w, rest) ∧ r.newTy.rel r.oldTy v w :=
  sub_decode _ _ b rest v h (List.all_eq_true.1 compatible_table r hr)

/-- C28: every legal value of the older class encodes to octets the newer one reads. -/
theorem successor_reads_encoding (r : Row) (hr : r ∈ compatible) (hd : r.oldName ∉ Package.defective) (v : Val)
    (hv : r.oldTy.valid v = true) (hb : r.oldTy.weight v < Codec.maxOctets) :
    ∃ b v' w, encode r.oldTy v = some b ∧ r.oldTy.same false v v' ∧ decode r.newTy b = some (w, []) ∧
      r.newTy.rel r.oldTy v' w := by
  have hw := List.all_eq_true.1 old_known r hr
  simp only [Bool.or_eq_true, decide_eq_true_eq] at hw
  exact sub_reads_encoding _ _ (List.all_eq_true.1 compatible_table r hr) (hw.resolve_right hd) v hv hb

/-- C28: the classes of `broken` really are incompatible. -/
theorem successor_refuses (p : Row × List UInt8) (hp : p ∈ broken) :
    ∃ b v rest, decode p.1.oldTy b = some (v, rest) ∧ decode p.1.newTy b = none := by
  have h := List.all_eq_true.1 broken_table p hp
  simp only [Bool.and_eq_true, Option.isSome_iff_exists, Option.isNone_iff_eq_none] at h
  obtain ⟨⟨⟨v, r⟩, h1⟩, h2⟩ := h
  exact ⟨p.2, v, r, h1, h2⟩

/-! ### An alternative moved up: the addresses of SNMP

In rfc1155 an IpAddress is an alternative of `NetworkAddress`, itself an alternative of
`ApplicationSyntax`; in rfc1902 it is an alternative of `ApplicationSyntax`. -/

/-- Reading a CHOICE whose first alternative is a CHOICE of one alternative. -/
theorem flatten_decode (a a' : Attrs) (f g : Field) (u : Ty) (cs : Comps) (ha : a.tags = []) (ha' : a'.tags = [])
    (b r : Bytes) (v : Val) (h : decode (.choice a (.cons f (.choice a' (.cons g u .nil)) cs)) b = some (v, r)) :
    ∃ w, decode (.choice a (.cons f u cs)) b = some (w, r) ∧ (v = w ∨ ∃ w', v = .alt 0 (.alt 0 w') ∧ w = .alt 0 w') := by
  simp only [decode] at h ⊢
  split at h
  · simp at h
  · rename_i x r' hx
    split at h
    · simp at h
    · rename_i v' hv
      simp only [Option.some.injEq, Prod.mk.injEq] at h
      obtain ⟨rfl, rfl⟩ := h
      have hm : (Ty.choice a' (.cons g u .nil)).matches x = u.matches x := by
        simp [Ty.matches, ha', Comps.matches]
      simp only [decT, ha, decAlt, hm] at hv ⊢
      split at hv
      · rename_i hu
        simp only [ha', hu, if_true] at hv ⊢
        cases hd : decT u x with
        | none => simp [hd] at hv
        | some w =>
          simp only [hd, Option.some.injEq] at hv
          exact ⟨_, rfl, .inr ⟨w, hv.symm, rfl⟩⟩
      · rename_i hu
        simp only [hu] at hv ⊢
        exact ⟨v', by simp [hv], .inl rfl⟩

theorem applicationSyntax_shape : ∃ a a' f g u cs, Rfc1155.ApplicationSyntax.call.ty =
      .choice a (.cons f (.choice a' (.cons g u .nil)) cs) ∧ a.tags = [] ∧ a'.tags = [] ∧
      Rfc1902.ApplicationSyntax.call.ty.sub (.choice a (.cons f u cs)) = true :=
  ⟨_, _, _, _, _, _, rfl, rfl, rfl, by decide +kernel⟩

/-- C28 for the rows of `nested`. -/
theorem nested_reads (r : Row) (hr : r ∈ nested) (b rest : Bytes) (v : Val)
    (h : decode r.oldTy b = some (v, rest)) : ∃ w, decode r.newTy b = some (w, rest) := by
  simp only [nested, List.mem_singleton] at hr
  subst hr
  obtain ⟨a, a', f, g, u, cs, h1, h2, h3, h4⟩ := applicationSyntax_shape
  simp only [Row.oldTy, Row.newTy, h1] at h ⊢
  obtain ⟨v', h5, _⟩ := flatten_decode a a' f g u cs h2 h3 b rest v h
  obtain ⟨w, h6, _⟩ := sub_decode _ _ b rest v' h5 h4
  exact ⟨w, h6⟩

/-! ### What of the broken classes is still read -/

theorem covers_alt (a b : Attrs) (cs ds : Comps) (i : Nat) (v : Val) (p : Field × Ty) (hp : ds.pairOk = true)
    (ht : a.tags.bare = b.tags.bare) (hg : cs.get? i = some p) (hs : ds.subAlt p.2 = true) (hv : p.2.admits v = true) :
    (Ty.choice b ds).covers (.choice a cs) (.alt i v) = true := by
  simp only [Ty.covers, hp, ht, beq_self_eq_true, hg, Bool.true_and]
  exact covers_of_subA ds p.2 v hs hv

/-- The alternatives of a CHOICE that have a counterpart. -/
def kept (t u : Ty) : List Nat :=
  match t, u with
  | .choice a cs, .choice b ds =>
    if ds.pairOk && a.tags.bare == b.tags.bare then
      (List.range cs.length).filter (fun i => match cs.get? i with
        | some p => ds.subAlt p.2
        | none => false)
    else []
  | _, _ => []

/-- The alternatives of a CHOICE that have a counterpart are read. -/
theorem kept_reads (t u : Ty) (i : Nat) (hi : i ∈ kept t u) (b rest : Bytes) (v : Val)
    (h : decode t b = some (.alt i v, rest)) : ∃ w, decode u b = some (w, rest) ∧ u.rel t (.alt i v) w := by
  refine covers_decode u t b rest _ h ?_
  have ha := Codec.decoded_admitted t b rest _ h
  cases t with
  | choice a cs =>
    cases u with
    | choice b ds =>
      simp only [kept] at hi
      split at hi
      · rename_i hp
        simp only [Bool.and_eq_true, beq_iff_eq] at hp
        simp only [List.mem_filter] at hi
        cases hg : cs.get? i with
        | none => simp [hg] at hi
        | some p =>
          rw [hg] at hi
          simp only [Ty.admits] at ha
          obtain ⟨q, h1, _, h3⟩ := admitsAlt_get cs i v ha
          rw [hg, Option.some.injEq] at h1
          subst h1
          exact covers_alt a b cs ds i v p hp.1 hp.2 hg hi.2 h3
      · simp at hi
    | _ => simp [kept] at hi
  | _ => cases u <;> simp [kept] at hi

/-- Of the nine alternatives of a GeneralName only x400Address (3) and ediPartyName (5) are in danger. -/
theorem generalName_kept : kept Rfc2459.GeneralName.call.ty Rfc3280.GeneralName.call.ty = [0, 1, 2, 4, 6, 7, 8] ∧
    kept Rfc2459.GeneralName.call.ty Rfc5280.GeneralName.call.ty = [0, 1, 2, 4, 6, 7, 8] ∧
    kept Rfc3280.GeneralName.call.ty Rfc5280.GeneralName.call.ty = [0, 1, 2, 3, 4, 5, 6, 7, 8] := by decide +kernel

/-! ### Instances -/

/-- Some certificate is read by all three X.509 modules, with the same issuer. -/
theorem certificate_rows :
    ⟨"rfc2459.Certificate", Rfc2459.Certificate, "rfc3280.Certificate", Rfc3280.Certificate⟩ ∈ compatible ∧
    ⟨"rfc3280.Certificate", Rfc3280.Certificate, "rfc5280.Certificate", Rfc5280.Certificate⟩ ∈ compatible ∧
    ⟨"rfc2459.Certificate", Rfc2459.Certificate, "rfc5280.Certificate", Rfc5280.Certificate⟩ ∈ compatible ∧
    ⟨"rfc3852.SignedData", Rfc3852.SignedData, "rfc5652.SignedData", Rfc5652.SignedData⟩ ∈ compatible ∧
    ⟨"rfc2560.OCSPResponse", Rfc2560.OCSPResponse, "rfc6960.OCSPResponse", Rfc6960.OCSPResponse⟩ ∈ compatible :=
  ⟨List.mem_of_getElem? (i := 91) rfl,
    List.mem_of_getElem? (i := 116) rfl,
    List.mem_of_getElem? (i := 309) rfl,
    List.mem_of_getElem? (i := 393) rfl,
    List.mem_of_getElem? (i := 441) rfl⟩

/-- A `Name` with one attribute, read by the oldest and by the newest X.509 module. -/
theorem name_instance :
    let b : Bytes := [48, 14, 49, 12, 48, 10, 6, 3, 85, 4, 3, 12, 3, 65, 66, 67]
    (decode Rfc2459.Name.call.ty b).isSome = true ∧ (decode Rfc5280.Name.call.ty b).isSome = true ∧
    ⟨"rfc2459.Name", Rfc2459.Name, "rfc5280.Name", Rfc5280.Name⟩ ∈ compatible :=
  ⟨by decide +kernel, by decide +kernel, List.mem_of_getElem? (i := 298) rfl⟩

/-- A host name, alternative 2 of the old and of the new GeneralName. -/
theorem generalName_instance :
    decode Rfc2459.GeneralName.call.ty [0x82, 1, 65] = some (.alt 2 (.str ['A']), []) ∧
    decode Rfc5280.GeneralName.call.ty [0x82, 1, 65] = some (.alt 2 (.str ['A']), []) := by decide +kernel

/-- An X.400 address only the old module reads. -/
theorem generalName_lost :
    (decode Rfc2459.GeneralName.call.ty [163, 7, 48, 5, 160, 3, 18, 1, 65]).isSome = true ∧
    decode Rfc5280.GeneralName.call.ty [163, 7, 48, 5, 160, 3, 18, 1, 65] = none := by decide +kernel

end Compat
end Props
end Verif
