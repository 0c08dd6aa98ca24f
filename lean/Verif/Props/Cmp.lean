import Verif.Gen.CmpDocs
import Verif.Package.Types
import Verif.Asn1.Canon

/-!
# C29: the CMP types and the ASN.1 in their docstrings

rfc4210.py quotes, in the docstring of 28 of its classes, the definition from RFC 4210.
`CmpDocs.all` holds the quoted notation, `Notation.fits` compares a type object with it.
-/

namespace Verif.Props.Cmp

open Asn1 Spec Gen

/-- The names the CMP module of RFC 4210 imports, bound to the modules rfc4210.py takes them
from (rfc4210.py:15-21). -/
def imported : List (String × Ty) := [
  ("AlgorithmIdentifier", Rfc2459.AlgorithmIdentifier.call.ty),
  ("Extensions", Rfc2459.Extensions.call.ty),
  ("CertificateList", Rfc2459.CertificateList.call.ty),
  ("GeneralName", Rfc2459.GeneralName.call.ty),
  ("KeyIdentifier", Rfc2459.KeyIdentifier.call.ty),
  ("CertTemplate", Rfc2511.CertTemplate.call.ty),
  ("EncryptedValue", Rfc2511.EncryptedValue.call.ty),
  ("PKIPublicationInfo", Rfc2511.PKIPublicationInfo.call.ty),
  ("CertId", Rfc2511.CertId.call.ty),
  ("CertReqMessages", Rfc2511.CertReqMessages.call.ty),
  ("CertificationRequest", Rfc2314.CertificationRequest.call.ty)]

/-- The class of rfc4210.py with this name. -/
def own (n : String) : Option Ty :=
  (Rfc4210.classes.find? (fun c => c.1 == "rfc4210." ++ n)).map (fun c => c.2.call.ty)

/-- What a name in a docstring stands for. -/
def env (n : String) : Option Ty := (imported.lookup n).or (own n)

/-- The classes that are not what their docstring says. -/
def deviants : List String :=
  ["NestedMessageContent", "PBMParameter", "PKIBody", "PKIHeader", "ProtectedPart"]

/-! ## A type that fits the notation has the values the notation describes -/

theorem atLeast_ok (lo : Nat) : ∀ (c : Constraint) (n : Nat) (ns : List String), atLeast lo c = true →
    c.ok (.mapping n ns) = decide (lo ≤ n)
  | .size l h, n, ns, hc => by
    simp only [atLeast, Bool.and_eq_true, beq_iff_eq] at hc
    obtain ⟨rfl, rfl⟩ := hc
    simp [Constraint.ok, Subject.len, Bound.le]
  | .inter (.cons c .nil), n, ns, hc => by
    simp only [atLeast] at hc
    simp [Constraint.ok, Constraints.all, atLeast_ok lo c n ns hc]
  | .inter .nil, _, _, hc => by simp [atLeast] at hc
  | .inter (.cons _ (.cons _ _)), _, _, hc => by simp [atLeast] at hc
  | .union _, _, _, hc => by simp [atLeast] at hc
  | .range _ _, _, _, hc => by simp [atLeast] at hc
  | .single _, _, _, hc => by simp [atLeast] at hc
  | .alphabet _, _, _, hc => by simp [atLeast] at hc
  | .withComps _, _, _, hc => by simp [atLeast] at hc
  | .invalid, _, _, hc => by simp [atLeast] at hc

theorem free_ok (c : Constraint) (s : Subject) (hc : free c = true) : c.ok s = true := by
  simp only [free, beq_iff_eq] at hc
  subst hc
  rfl

theorem sized_ok (lo : Option Nat) (c : Constraint) (n : Nat) (hc : sized lo c = true) :
    c.ok (.mapping n []) = lo.all (fun k => decide (k ≤ n)) := by
  cases lo with
  | none => simpa [sized] using free_ok c _ hc
  | some k => simpa using atLeast_ok k c n [] hc

theorem every_congr {p q : Val → Bool} (h : ∀ v, p v = q v) : ∀ vs : Vals, vs.every p = vs.every q
  | .nil => rfl
  | .cons v vs => by simp [Vals.every, h v, every_congr h vs]

theorem peel_ok : ∀ (c : Constraint) (s : Subject), (peel c).ok s = c.ok s
  | .inter (.cons c .nil), s => by simp [peel, Constraint.ok, Constraints.all, peel_ok c s]
  | .inter .nil, _ => rfl
  | .inter (.cons _ (.cons _ _)), _ => rfl
  | .union _, _ => rfl
  | .size _ _, _ => rfl
  | .range _ _, _ => rfl
  | .single _, _ => rfl
  | .alphabet _, _ => rfl
  | .withComps _, _ => rfl
  | .invalid, _ => rfl

theorem peel_valid (t : Ty) (v : Val) :
    (t.mapAttrs (fun a => { a with spec := peel a.spec })).valid v = t.valid v := by
  cases t <;> simp only [Ty.mapAttrs]
  · simp [Ty.valid, peel_ok]
  · cases v <;> simp [Ty.valid, peel_ok]
  · cases v <;> simp [Ty.valid, peel_ok]
  · cases v <;> simp [Ty.valid]

theorem alike_valid (t u : Ty) (v : Val) (h : alike t u = true) : t.valid v = u.valid v := by
  simp only [alike, beq_iff_eq] at h
  rw [← peel_valid t, h, peel_valid]

mutual
/-- If the type object is what the notation says, its legal values are the values of the notation. -/
theorem fits_valid (e : String → Option Ty) (ts : TagSet) : ∀ (n : Notation) (t : Ty) (v : Val),
    n.fits e ts t = true → t.valid v = n.has e ts v
  | .ref n, t, v, h => by
    cases he : e n with
    | none => simp [Notation.fits, he] at h
    | some u =>
      simp only [Notation.fits, he] at h
      simp [Notation.has, he, alike_valid _ _ v h]
  | .integer _, t, v, h => by
    cases t <;> try (simp [Notation.fits] at h; done)
    rename_i k a; cases k <;> try (simp [Notation.fits] at h; done)
    simp only [Notation.fits, plain, Bool.and_eq_true] at h
    cases v <;> simp [Ty.valid, primLegal, Notation.has, free_ok _ _ h.1.2]
  | .bitString _, t, v, h => by
    cases t <;> try (simp [Notation.fits] at h; done)
    rename_i k a; cases k <;> try (simp [Notation.fits] at h; done)
    simp only [Notation.fits, plain, Bool.and_eq_true] at h
    cases v <;> simp [Ty.valid, primLegal, Notation.has, free_ok _ _ h.1.2]
  | .octetString, t, v, h => by
    cases t <;> try (simp [Notation.fits] at h; done)
    rename_i k a; cases k <;> try (simp [Notation.fits] at h; done)
    simp only [Notation.fits, plain, Bool.and_eq_true] at h
    cases v <;> simp [Ty.valid, primLegal, Notation.has, free_ok _ _ h.1.2]
  | .oid, t, v, h => by
    cases t <;> try (simp [Notation.fits] at h; done)
    rename_i k a; cases k <;> try (simp [Notation.fits] at h; done)
    simp only [Notation.fits, plain, Bool.and_eq_true] at h
    cases v <;> try (simp [Ty.valid, primLegal, Notation.has]; done)
    rename_i arcs
    match arcs with
    | [] => simp [Ty.valid, primLegal, Notation.has]
    | [_] => simp [Ty.valid, primLegal, Notation.has]
    | _ :: _ :: _ => simp [Ty.valid, primLegal, Notation.has, free_ok _ _ h.1.2]
  | .utf8String, t, v, h => by
    cases t <;> try (simp [Notation.fits] at h; done)
    rename_i k a
    cases k <;> try (simp [Notation.fits] at h; done)
    rename_i k; cases k <;> try (simp [Notation.fits] at h; done)
    simp only [Notation.fits, plain, Bool.and_eq_true] at h
    cases v <;> simp [Ty.valid, primLegal, Notation.has, free_ok _ _ h.1.2, inRepertoire]
  | .generalizedTime, t, v, h => by
    cases t <;> try (simp [Notation.fits] at h; done)
    rename_i k a; cases k <;> try (simp [Notation.fits] at h; done)
    simp only [Notation.fits, plain, Bool.and_eq_true] at h
    cases v <;> simp [Ty.valid, primLegal, Notation.has, free_ok _ _ h.1.2]
  | .any, t, v, h => by
    cases t <;> try (simp [Notation.fits] at h; done)
    rename_i k a; cases k <;> try (simp [Notation.fits] at h; done)
    simp only [Notation.fits, Bool.and_eq_true, beq_iff_eq] at h
    have ht := h.1
    subst ht
    cases v <;> try (simp [Ty.valid, primLegal, Notation.has]; done)
    cases hts : a.tags <;> simp [Ty.valid, primLegal, Notation.has, free_ok _ _ h.2, hts]
  | .seqOf lo n, t, v, h => by
    cases t <;> try (simp [Notation.fits] at h; done)
    rename_i s a u; cases s <;> try (simp [Notation.fits] at h; done)
    simp only [Notation.fits, Bool.and_eq_true] at h
    cases v <;> try (simp [Ty.valid, Notation.has]; done)
    rename_i vs
    simp only [Ty.valid, Notation.has, sized_ok lo _ _ h.1.2]
    rw [every_congr (fun v => fits_valid e [] n u v h.2)]
  | .seq ms, t, v, h => by
    cases t <;> try (simp [Notation.fits] at h; done)
    rename_i s a u; cases s <;> try (simp [Notation.fits] at h; done)
    simp only [Notation.fits, plain, Bool.and_eq_true] at h
    cases v <;> try (simp [Ty.valid, Notation.has]; done)
    rename_i vs
    simp only [Ty.valid, Notation.has, free_ok _ _ h.1.1.2, Bool.and_true]
    exact fits_validC e ms u vs h.2
  | .choice ms, t, v, h => by
    cases t <;> try (simp [Notation.fits] at h; done)
    rename_i a cs
    simp only [Notation.fits, Bool.and_eq_true] at h
    cases v <;> try (simp [Ty.valid, Notation.has]; done)
    rename_i i v
    simp only [Ty.valid, Notation.has]
    exact fits_validA e ms cs i v h.2
theorem fits_validC (e : String → Option Ty) : ∀ (ms : Members) (cs : Comps) (vs : Vals),
    ms.fits e true cs = true → cs.valid vs = ms.has e vs
  | .nil, .nil, vs, _ => by cases vs <;> simp [Comps.valid, Members.has]
  | .nil, .cons .., _, h => by simp [Members.fits] at h
  | .cons .., .nil, _, h => by simp [Members.fits] at h
  | .cons name tag opt n ms, .cons f t cs, .nil, h => by simp [Comps.valid, Members.has]
  | .cons name tag opt n ms, .cons f t cs, .cons v vs, h => by
    simp only [Members.fits, Bool.and_eq_true, beq_iff_eq] at h
    simp only [Comps.valid, Members.has, h.1.1.1.2, fits_validC e ms cs vs h.2, fits_valid e _ n t v h.1.2]
    cases opt <;> simp
theorem fits_validA (e : String → Option Ty) : ∀ (ms : Members) (cs : Comps) (i : Nat) (v : Val),
    ms.fits e false cs = true → cs.validAlt i v = ms.hasAlt e i v
  | .nil, .nil, i, v, _ => by simp [Comps.validAlt, Members.hasAlt]
  | .nil, .cons .., _, _, h => by simp [Members.fits] at h
  | .cons .., .nil, _, _, h => by simp [Members.fits] at h
  | .cons name tag opt n ms, .cons f t cs, 0, v, h => by
    simp only [Members.fits, Bool.and_eq_true] at h
    simp [Comps.validAlt, Members.hasAlt, fits_valid e _ n t v h.1.2]
  | .cons name tag opt n ms, .cons f t cs, i + 1, v, h => by
    simp only [Members.fits, Bool.and_eq_true] at h
    simp [Comps.validAlt, Members.hasAlt, fits_validA e ms cs i v h.2]
end

/-! ## The classes -/

/-- Every class with a docstring, except the deviants, is what the docstring says. -/
theorem docs_table :
    (CmpDocs.all.filter (fun d => !((own d.1).map (d.2.fits env [])).getD false)).map Prod.fst = deviants := by
  decide +kernel

theorem docs_fit (d : String × Notation) (hd : d ∈ CmpDocs.all) (hn : d.1 ∉ deviants) :
    ∃ t, own d.1 = some t ∧ d.2.fits env [] t = true := by
  cases ho : own d.1 with
  | none =>
    refine absurd (docs_table ▸ List.mem_map.2 ⟨d, List.mem_filter.2 ⟨hd, ?_⟩, rfl⟩) hn
    simp [ho]
  | some t =>
    refine ⟨t, rfl, ?_⟩
    cases hf : d.2.fits env [] t with
    | true => rfl
    | false =>
      refine absurd (docs_table ▸ List.mem_map.2 ⟨d, List.mem_filter.2 ⟨hd, ?_⟩, rfl⟩) hn
      simp [ho, hf]

/-- **C29.**  The legal values of each of these classes are those its docstring describes. -/
theorem docs_values (d : String × Notation) (hd : d ∈ CmpDocs.all) (hn : d.1 ∉ deviants) :
    ∃ t, own d.1 = some t ∧ ∀ v, t.valid v = d.2.has env [] v := by
  obtain ⟨t, ho, hf⟩ := docs_fit d hd hn
  exact ⟨t, ho, fun v => fits_valid env [] d.2 t v hf⟩

/-- The classes belong to the package (so C12–C22 apply to them). -/
theorem own_mem (n : String) (t : Ty) (h : own n = some t) : ("rfc4210." ++ n, t) ∈ Package.types := by
  simp only [own, Option.map_eq_some_iff] at h
  obtain ⟨c, hc, rfl⟩ := h
  have hn := List.find?_some hc
  simp only [beq_iff_eq] at hn
  have := Package.mem_types (m := Rfc4210.asModule) (c := c) (by simp [Package.modules]) (List.mem_of_find?_eq_some hc)
  rwa [hn] at this

/-! ## The deviants -/

/-- Rename a component. -/
def rename (old new : String) : Members → Members
  | .nil => .nil
  | .cons n tag o t ms => .cons (if n = old then new else n) tag o t (rename old new ms)

/-- The members of a SEQUENCE or CHOICE. -/
def members : Notation → Members
  | .seq ms => ms
  | .choice ms => ms
  | _ => .nil

/-- `ProtectedPart` (rfc4210.py:750-762) is what its docstring says, except that the second
component is called `infoValue`, not `body`. -/
theorem protectedPart_name :
    (Notation.seq (rename "body" "infoValue" (members CmpDocs.ProtectedPart))).fits env []
      Rfc4210.ProtectedPart.call.ty = true := by decide +kernel

/-- `PKIBody` (rfc4210.py:526-694) is what its docstring says, except that the alternative
for a general response is called `gen`, not `genp`. -/
theorem pkiBody_name :
    (Notation.choice (rename "genp" "gen" (members CmpDocs.PKIBody))).fits env []
      Rfc4210.PKIBody.call.ty = true := by decide +kernel

theorem rename_has (e : String → Option Ty) (old new : String) : ∀ (ms : Members) (vs : Vals),
    (rename old new ms).has e vs = ms.has e vs
  | .nil, _ => rfl
  | .cons .., .nil => rfl
  | .cons _ _ _ _ ms, .cons v vs => by simp [rename, Members.has, rename_has e old new ms vs]

theorem rename_hasAlt (e : String → Option Ty) (old new : String) : ∀ (ms : Members) (i : Nat) (v : Val),
    (rename old new ms).hasAlt e i v = ms.hasAlt e i v
  | .nil, _, _ => rfl
  | .cons .., 0, _ => rfl
  | .cons _ _ _ _ ms, i + 1, v => by simp [rename, Members.hasAlt, rename_hasAlt e old new ms i v]

/-- Names apart, `ProtectedPart` has the values its docstring describes. -/
theorem protectedPart_values (v : Val) :
    Rfc4210.ProtectedPart.call.ty.valid v = CmpDocs.ProtectedPart.has env [] v := by
  rw [fits_valid env [] _ _ v protectedPart_name]
  cases v <;> try rfl
  exact rename_has _ _ _ _ _

/-- Names apart, `PKIBody` has the values its docstring describes. -/
theorem pkiBody_values (v : Val) :
    Rfc4210.PKIBody.call.ty.valid v = CmpDocs.PKIBody.has env [] v := by
  rw [fits_valid env [] _ _ v pkiBody_name]
  cases v <;> try rfl
  exact rename_hasAlt _ _ _ _ _ _

/-- The members after the first. -/
def rest : Members → Members
  | .nil => .nil
  | .cons _ _ _ _ ms => ms

theorem pbmParameter_shape : ∃ a f b cs, Rfc4210.PBMParameter.call.ty = .seq false a (.cons f (.prim .octetString b) cs) ∧
    free a.spec = true ∧ f.mode = .req ∧ b.spec = .inter (.cons (.size (.fin 0) (.fin 128)) .nil) ∧
    (rest (members CmpDocs.PBMParameter)).fits env true cs = true :=
  ⟨_, _, _, _, rfl, rfl, rfl, rfl, by decide +kernel⟩

/-- `PBMParameter` (rfc4210.py:500-516): the docstring, and a salt of at most 128 octets. -/
theorem pbmParameter_values (v : Val) :
    Rfc4210.PBMParameter.call.ty.valid v = true ↔
      CmpDocs.PBMParameter.has env [] v = true ∧
        ∃ salt vs, v = .record (.cons (.octets salt) vs) ∧ salt.length ≤ 128 := by
  obtain ⟨a, f, b, cs, ht, ha, hf, hb, hr⟩ := pbmParameter_shape
  rw [ht]
  cases v <;> try (simp [Ty.valid]; done)
  rename_i vs
  cases vs with
  | nil => simp [Ty.valid, Comps.valid]
  | cons v vs =>
    simp only [Ty.valid, Comps.valid, hf, hb, free_ok _ _ ha, fits_validC env _ cs vs hr, Bool.and_true]
    simp only [CmpDocs.PBMParameter, Notation.has, Members.has, members, rest]
    cases v <;> simp [primLegal, Notation.has, Constraint.ok, Constraints.all, Subject.len, Bound.le]
    exact ⟨fun h => ⟨h.2, by omega⟩, fun h => ⟨by omega, h.1⟩⟩

/-- The docstring of `PKIHeader` without `SIZE (1..MAX)` on `generalInfo`. -/
def dropSize : Members → Members
  | .nil => .nil
  | .cons n tag o (.seqOf _ t) ms => .cons n tag o (.seqOf none t) (dropSize ms)
  | .cons n tag o t ms => .cons n tag o t (dropSize ms)

/-- A list of SEQUENCEs that each have a mandatory component and must have at least one component. -/
def idle : Ty → Bool
  | .of _ _ (.seq _ b (.cons f _ _)) => atLeast 1 b.spec && f.mode == .req
  | _ => false

/-- Forget the constraint on the elements. -/
def loosen : Ty → Ty
  | .of s a (.seq q b cs) => .of s a (.seq q { b with spec := .inter .nil } cs)
  | t => t

def loosenAll : Comps → Comps
  | .nil => .nil
  | .cons f t cs => .cons f (if idle t then loosen t else t) (loosenAll cs)

theorem valid_absent (t : Ty) : t.valid .absent = false := by
  cases t <;> simp [Ty.valid]
  rename_i k a; cases k <;> simp [primLegal]

theorem idle_valid (t : Ty) (v : Val) (h : idle t = true) : (loosen t).valid v = t.valid v := by
  match t, h with
  | .of s a (.seq q b (.cons f u cs)), h =>
    simp only [idle, Bool.and_eq_true, beq_iff_eq] at h
    cases v <;> try rfl
    rename_i vs
    simp only [loosen, Ty.valid]
    congr 1
    apply every_congr
    intro v
    cases v <;> try rfl
    rename_i ws
    simp only [Ty.valid]
    cases ws with
    | nil => simp [Comps.valid]
    | cons w ws =>
      rw [atLeast_ok 1 _ _ _ h.1]
      cases hw : u.valid w with
      | false => simp [Comps.valid, h.2, hw]
      | true =>
        have : w ≠ .absent := by rintro rfl; simp [valid_absent] at hw
        have hp : 1 ≤ (presentNames (.cons f u cs) (.cons w ws)).length := by
          simp [presentNames, this]
        simp [hp, Constraint.ok, Constraints.all]

theorem loosenAll_valid : ∀ (cs : Comps) (vs : Vals), (loosenAll cs).valid vs = cs.valid vs
  | .nil, _ => rfl
  | .cons .., .nil => rfl
  | .cons f t cs, .cons v vs => by
    have : (if idle t then loosen t else t).valid v = t.valid v := by
      split
      · rename_i h; exact idle_valid t v h
      · rfl
    simp only [loosenAll, Comps.valid, this, loosenAll_valid cs vs]

theorem pkiHeader_shape : ∃ a cs, Rfc4210.PKIHeader.call.ty = .seq false a cs ∧
    (Notation.seq (dropSize (members CmpDocs.PKIHeader))).fits env [] (.seq false a (loosenAll cs)) = true :=
  ⟨_, _, rfl, by decide +kernel⟩

/-- `PKIHeader` (rfc4210.py:697-747): the docstring, but `generalInfo` may be an empty list
(its `sizeSpec` is given to the element type instead, where it always holds). -/
theorem pkiHeader_values (v : Val) :
    Rfc4210.PKIHeader.call.ty.valid v = (Notation.seq (dropSize (members CmpDocs.PKIHeader))).has env [] v := by
  obtain ⟨a, cs, ht, hf⟩ := pkiHeader_shape
  rw [← fits_valid env [] _ _ v hf, ht]
  have ha : free a.spec = true := by
    simp only [Notation.fits, plain, Bool.and_eq_true] at hf
    exact hf.1.1.2
  cases v <;> try rfl
  simp only [Ty.valid, free_ok _ _ ha, loosenAll_valid]

/-! ### Nested messages

`NestedMessageContent ::= PKIMessages`; the class is a `SequenceOf` with element type `Any`
and no size constraint (rfc4210.py:471-475).  The assignments at the end of the module
(rfc4210.py:802-803) set `_componentType`, an attribute pyasn1 does not use. -/

theorem nested_shape : ∃ a b, Rfc4210.NestedMessageContent.call.ty = .of false a (.prim .any b) ∧
    a.tags = [⟨.universal, true, 16⟩] ∧ a.spec = .inter .nil ∧ b.tags = [] ∧ b.spec = .inter .nil := 
  ⟨_, _, rfl, rfl, rfl, rfl, rfl⟩

theorem messages_shape : ∃ a, Rfc4210.PKIMessages.call.ty = .of false a Rfc4210.PKIMessage.call.ty ∧
    a.tags = [⟨.universal, true, 16⟩] ∧ atLeast 1 a.spec = true :=
  ⟨_, rfl, rfl, rfl⟩

theorem every_any (b : Attrs) (hb : b.tags = []) : ∀ vs : Vals, vs.every (Ty.prim .any b).valid = true →
    ∃ bs : List Bytes, vs = .ofList (bs.map .octets) ∧ ∀ b ∈ bs, oneElement b = true
  | .nil, _ => ⟨[], rfl, by simp⟩
  | .cons v vs, h => by
    simp only [Vals.every, Bool.and_eq_true] at h
    obtain ⟨bs, rfl, hbs⟩ := every_any b hb vs h.2
    have hv := h.1
    obtain ⟨tags, spec, named⟩ := b
    simp only at hb
    subst hb
    cases v <;> try (simp [Ty.valid, primLegal] at hv; done)
    rename_i c
    simp only [Ty.valid, Bool.and_eq_true] at hv
    exact ⟨c :: bs, rfl, by simpa using ⟨hv.2, hbs⟩⟩

/-- Its values are lists of arbitrary elements. -/
theorem nested_values (v : Val) : Rfc4210.NestedMessageContent.call.ty.valid v = true ↔
    ∃ bs : List Bytes, v = .list (.ofList (bs.map .octets)) ∧ ∀ b ∈ bs, oneElement b = true := by
  obtain ⟨a, b, ht, -, ha, hb, hs⟩ := nested_shape
  rw [ht]
  constructor
  · intro h
    cases v <;> try (simp [Ty.valid] at h; done)
    rename_i vs
    simp only [Ty.valid, ha, Bool.and_eq_true] at h
    obtain ⟨bs, rfl, hbs⟩ := every_any b hb vs h.1
    exact ⟨bs, rfl, hbs⟩
  · rintro ⟨bs, rfl, hbs⟩
    simp only [Ty.valid, ha, Bool.and_eq_true]
    refine ⟨?_, rfl⟩
    induction bs with
    | nil => rfl
    | cons c bs ih =>
      simp only [List.map_cons, Vals.ofList, Vals.every, Bool.and_eq_true]
      refine ⟨?_, ih (fun b hb => hbs b (by simp [hb]))⟩
      simp [primLegal, hb, hs, Constraint.ok, Constraints.all, hbs c (by simp)]

/-- On the wire it is right: the encodings of some messages, as a nested message, are the
encoding of the `PKIMessages`. -/
theorem nested_encode (ms : List Val) (bs : List Bytes) (hm : ms ≠ [])
    (he : mapOpt (encode Rfc4210.PKIMessage.call.ty) ms = some bs) :
    encode Rfc4210.NestedMessageContent.call.ty (.list (.ofList (bs.map .octets))) =
      encode Rfc4210.PKIMessages.call.ty (.list (.ofList ms)) := by
  obtain ⟨a, b, ht, ha, hs, hb, -⟩ := nested_shape
  obtain ⟨c, hu, hc, hcs⟩ := messages_shape
  have hany : ∀ x : Bytes, enc false (.prim .any b) (.octets x) = some x := by
    intro x
    simp [enc, encPrim, hb, wrap]
  have h1 : ∀ bs : List Bytes, mapOpt (enc false (.prim .any b)) (bs.map .octets) = some bs := by
    intro bs
    induction bs with
    | nil => rfl
    | cons x bs ih => simp [mapOpt, hany, ih]
  have hl : 1 ≤ ms.length := by cases ms <;> simp_all
  have hlen : ∀ l : List Val, (Vals.ofList l).length = l.length := by
    intro l
    induction l with
    | nil => rfl
    | cons x l ih => simp [Vals.ofList, Vals.length, ih]
  have htl : ∀ l : List Val, (Vals.ofList l).toList = l := by
    intro l
    induction l with
    | nil => rfl
    | cons x l ih => simp [Vals.ofList, Vals.toList, ih]
  rw [ht, hu]
  rw [encode, encode, enc_of_eq, enc_of_eq, htl, htl, h1]
  change mapOpt (enc false Rfc4210.PKIMessage.call.ty) ms = some bs at he
  rw [he, hs, atLeast_ok 1 _ _ _ hcs, ha, hc, hlen, hlen]
  simp [hl, Constraint.ok, Constraints.all]

/-! ## Instances -/

/-- A polling response, legal for the docstring of `PollRepContent`, hence for the class. -/
example : ∃ t, own "PollRepContent" = some t ∧
    t.valid (.list (.ofList [.record (.ofList [.int 0, .int 60, .list (.ofList [.str "later".toList])])])) = true := by
  obtain ⟨t, ho, hv⟩ := docs_values ("PollRepContent", CmpDocs.PollRepContent) (by simp [CmpDocs.all]) (by decide)
  exact ⟨t, ho, by rw [hv]; decide +kernel⟩

/-- `reason` must have at least one line. -/
example : ∃ t, own "PollRepContent" = some t ∧
    t.valid (.list (.ofList [.record (.ofList [.int 0, .int 60, .list .nil])])) = false := by
  obtain ⟨t, ho, hv⟩ := docs_values ("PollRepContent", CmpDocs.PollRepContent) (by simp [CmpDocs.all]) (by decide)
  exact ⟨t, ho, by rw [hv]; decide +kernel⟩

/-- A message with the body `[25] PollReqContent`. -/
def message : Val := .record (.ofList [
  .record (.ofList [.int 2, .alt 1 (.str "a@b".toList), .alt 1 (.str "c@d".toList), .absent, .absent, .absent,
    .absent, .absent, .absent, .absent, .absent, .absent]),
  .alt 25 (.list (.ofList [.record (.ofList [.int 7])])), .absent, .absent])

example : Rfc4210.PKIMessage.call.ty.valid message = true := by decide +kernel

/-- A value for `nested_encode`. -/
example : mapOpt (encode Rfc4210.PKIMessage.call.ty) [message] =
    some [[48, 24, 48, 13, 2, 1, 2, 129, 3, 97, 64, 98, 129, 3, 99, 64, 100, 185, 7, 48, 5, 48, 3, 2, 1, 7]] := by
  decide +kernel

end Verif.Props.Cmp
