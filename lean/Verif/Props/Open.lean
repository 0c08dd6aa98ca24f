import Verif.Asn1.OpenTypes
import Verif.Asn1.OpenPlain
import Verif.Asn1.OpenEnc
import Verif.Package.Types
import Verif.Props.Registry
import Verif.Props.Codec

/-!
# Open types

C25 and C26: `decode(b, asn1Spec=X(), decodeOpenTypes=True)` in a program that has imported any
modules of the package.
-/

namespace Verif
namespace Props
namespace Open

open Asn1 Py

/-- The states of a program that has only imported modules of the package. -/
def Reached (s : State) : Prop := ∃ fuel ns, importAll Package.modules fuel ns .start = some s

/-- `decode(b, asn1Spec=t, decodeOpenTypes=True)` in such a program. -/
def decodeOpen (s : State) (t : Ty) (b : Bytes) : Option (OVal × Bytes) := odecode s.get (b.length + 1) t b

/-! ## C25: open type fields can be resolved -/

/-- The classes with an open type field whose governing component does not exist. -/
def ungoverned : List String := ["rfc2315.AttributeValueAssertion", "rfc7292.BAG_TYPE"]

theorem governed_table : (Package.types.filter (fun c => !c.2.each Ty.governed)).map Prod.fst = ungoverned := by
  decide +kernel

theorem governed_of_mem {c : String × Ty} (hc : c ∈ Package.types) (hu : c.1 ∉ ungoverned) :
    c.2.each Ty.governed = true := by
  cases hw : c.2.each Ty.governed with
  | true => rfl
  | false =>
    refine absurd ?_ hu
    rw [← governed_table]
    exact List.mem_map.2 ⟨c, List.mem_filter.2 ⟨hc, by simp [hw]⟩, rfl⟩

theorem registered_governed : Registry.written.all (fun w => w.2.2.each Ty.governed) = true := by decide +kernel

/-- A SET without open type fields, or no SET. -/
def setClosed : Ty → Bool
  | .seq true _ cs => cs.toList.all (fun p => p.1.openType.isNone)
  | _ => true

theorem set_closed_table : Package.types.all (fun c => c.2.each setClosed) = true ∧
    Registry.written.all (fun w => w.2.2.each setClosed) = true := by decide +kernel

/-- C25: open type fields are never in a SET: not in a class of the package, and not in a registered type. -/
theorem set_closed (t : Ty) (ht : (∃ n, (n, t) ∈ Package.types) ∨ ∃ m k, (m, k, t) ∈ Registry.written) (a : Attrs) (cs : Comps)
    (hn : Ty.seq true a cs ∈ t.nodes) (p : Field × Ty) (hp : p ∈ cs.toList) : p.1.openType = none := by
  have h : t.each setClosed = true := by
    rcases ht with ⟨n, h⟩ | ⟨m, k, h⟩
    · exact List.all_eq_true.1 set_closed_table.1 _ h
    · exact List.all_eq_true.1 set_closed_table.2 _ h
  rw [Ty.each_nodes] at h
  have := List.all_eq_true.1 (List.all_eq_true.1 h _ hn) p hp
  simpa using this

theorem registered_openOk : Registry.written.all (fun w => w.2.2.each Ty.openOk) = true := by decide +kernel

theorem openOk_table : Package.types.all (fun c => c.2.each Ty.openOk) = true := by decide +kernel

theorem selects_spec {p : Option (Field × Ty)} (h : selects p = true) :
    ∃ f a, f.mode = .req ∧ (p = some (f, .prim .oid a) ∨ p = some (f, .prim .integer a)) := by
  match p, h with
  | none, h => simp [selects] at h
  | some (f, .seq _ _ _), h => simp [selects] at h
  | some (f, .of _ _ _), h => simp [selects] at h
  | some (f, .choice _ _), h => simp [selects] at h
  | some (f, .bad _), h => simp [selects] at h
  | some (f, .prim k a), h =>
    have req : f.mode.isReq = true → f.mode = .req := by cases f.mode <;> simp [Mode.isReq]
    cases k <;> simp [selects] at h
    · exact ⟨f, a, req h, Or.inr rfl⟩
    · exact ⟨f, a, req h, Or.inl rfl⟩

theorem governedBy_mem (ds : Comps) : ∀ (cs : Comps), Comps.governedBy ds cs = true → ∀ f t o, (f, t) ∈ cs.toList →
    f.openType = some o → selects (ds.find o.governor) = true ∧ carriesAll t = true ∧ (f.mode.isReq || f.mode.isOpt) = true
  | .nil, _, _, _, _, h, _ => by simp [Comps.toList] at h
  | .cons g u cs, hg, f, t, o, h, ho => by
    simp only [Comps.governedBy, Bool.and_eq_true] at hg
    simp only [Comps.toList, List.mem_cons, Prod.mk.injEq] at h
    rcases h with ⟨rfl, rfl⟩ | h
    · have := hg.1
      simp only [ho, Bool.and_eq_true] at this
      exact ⟨this.1.1, this.1.2, this.2⟩
    · exact governedBy_mem ds cs hg.2 f t o h ho

theorem noOpen_mem : ∀ (cs : Comps), cs.noOpen = true → ∀ f t, (f, t) ∈ cs.toList → f.openType = none
  | .nil, _, _, _, h => by simp [Comps.toList] at h
  | .cons g u cs, hn, f, t, h => by
    simp only [Comps.noOpen, Bool.and_eq_true, Option.isNone_iff_eq_none] at hn
    simp only [Comps.toList, List.mem_cons, Prod.mk.injEq] at h
    rcases h with ⟨rfl, rfl⟩ | h
    · exact hn.1
    · exact noOpen_mem cs hn.2 f t h

/-- C25: in every class other than the two above, at any depth, the component that governs an open
type field exists, is mandatory, and is an OBJECT IDENTIFIER or an INTEGER. -/
theorem governor_exists (c : String × Ty) (hc : c ∈ Package.types) (hu : c.1 ∉ ungoverned) (s : Bool) (a : Attrs) (cs : Comps)
    (hn : Ty.seq s a cs ∈ c.2.nodes) (f : Field) (t : Ty) (o : OpenTy) (hf : (f, t) ∈ cs.toList)
    (ho : f.openType = some o) : ∃ g a', g.mode = .req ∧
      (cs.find o.governor = some (g, .prim .oid a') ∨ cs.find o.governor = some (g, .prim .integer a')) := by
  have h := governed_of_mem hc hu
  rw [Ty.each_nodes] at h
  have h := List.all_eq_true.1 h _ hn
  cases s with
  | false => exact selects_spec (governedBy_mem cs cs h f t o hf ho).1
  | true =>
    simp only [Ty.governed, Bool.and_eq_true] at h
    rw [noOpen_mem cs h.1 f t hf] at ho
    simp at ho

/-- C25: and the field holds octets, or a SET OF or SEQUENCE OF octets: it is ANY, an OCTET STRING, or a collection of
these; it is mandatory or OPTIONAL. -/
theorem open_field_kind (c : String × Ty) (hc : c ∈ Package.types) (hu : c.1 ∉ ungoverned) (s : Bool) (a : Attrs) (cs : Comps)
    (hn : Ty.seq s a cs ∈ c.2.nodes) (f : Field) (t : Ty) (o : OpenTy) (hf : (f, t) ∈ cs.toList)
    (ho : f.openType = some o) : (f.mode = .req ∨ f.mode = .opt) ∧
      ∃ u, (t = u ∨ ∃ set a, t = .of set a u) ∧ ∃ a, u = .prim .any a ∨ u = .prim .octetString a := by
  have h := governed_of_mem hc hu
  rw [Ty.each_nodes] at h
  have h := List.all_eq_true.1 h _ hn
  cases s with
  | true =>
    simp only [Ty.governed, Bool.and_eq_true] at h
    rw [noOpen_mem cs h.1 f t hf] at ho
    simp at ho
  | false =>
    obtain ⟨_, h2, h3⟩ := governedBy_mem cs cs h f t o hf ho
    have leaf : ∀ u, carries u = true → ∃ a, u = .prim .any a ∨ u = .prim .octetString a := by
      intro u hu
      cases u with
      | prim k a => cases k <;> simp [carries] at hu <;> simp
      | _ => simp [carries] at hu
    refine ⟨?_, ?_⟩
    · revert h3
      cases f.mode <;> simp [Mode.isReq, Mode.isOpt]
    · cases t with
      | of set a u => exact ⟨u, .inr ⟨set, a, rfl⟩, leaf u h2⟩
      | _ => exact ⟨_, .inl rfl, leaf _ h2⟩

/-- C25, the two exceptions: decoding them with open types fails on every input, in every program.
rfc2315.py:25-30 has governor `type` (the component is `attributeType`), rfc7292.py:142-147 has
governor `attrType` (the component is `id`). -/
theorem ungoverned_fails (c : String × Ty) (hc : c ∈ Package.types.filter (fun c => !c.2.each Ty.governed))
    (s : State) (b : Bytes) : decodeOpen s c.2 b = none := by
  have h : (Package.types.filter (fun c => !c.2.each Ty.governed)).all (fun c => match c.2 with
      | .seq false _ cs => Comps.lost cs cs
      | _ => false) = true := by decide +kernel
  have h := List.all_eq_true.1 h c hc
  cases ht : c.2 with
  | seq s a cs =>
    rw [ht] at h
    cases s with
    | false => exact odecode_lost h _ b
    | true => simp at h
  | _ => simp [ht] at h

/-! ## C26: what decoding with open types does -/

theorem reached_written {s : State} (hs : Reached s) {m : Py.Ident} {k : Val} {u : Ty} (h : s.get m k = some u) :
    (m, k, u) ∈ Registry.written := by
  obtain ⟨fuel, ns, hi⟩ := hs
  obtain ⟨x, hx, _, hw⟩ := Registry.registered_by fuel ns s hi m k u h
  exact List.mem_flatMap.2 ⟨x, hx, hw⟩

/-- The kind of key a dictionary has, by its number: integers for `oraddressExtensionAttributeMap` and what it is
filled with (rfc5280.py), object identifiers for all others. -/
def keyedBy (m : Py.Ident) : Prim := if Nat.beq m.idx 5 || Nat.beq m.idx 79 then .integer else .oid

/-- A key of that kind. -/
def isKey : Prim → Val → Bool
  | .integer, .int _ => true
  | .oid, .oid _ => true
  | _, _ => false

def primIs (p : Prim) : Option (Field × Ty) → Bool
  | some (_, .prim q _) => decide (q = p)
  | _ => false

/-- The governor of every open type field among `cs` is of the kind of the keys. -/
def keyedComps (ds : Comps) : Comps → Bool
  | .nil => true
  | .cons f _ cs =>
    (match f.openType with
     | none => true
     | some o => primIs (keyedBy o.map) (ds.find o.governor)) && keyedComps ds cs

def keyed : Ty → Bool
  | .seq _ _ cs => keyedComps cs cs
  | _ => true

theorem keys_table : Registry.written.all (fun w => isKey (keyedBy w.1) w.2.1) = true := by decide +kernel

theorem keyed_table : Package.types.all (fun c => ungoverned.contains c.1 || c.2.each keyed) = true := by decide +kernel

theorem keyedComps_mem (ds : Comps) : ∀ (cs : Comps), keyedComps ds cs = true → ∀ f t o, (f, t) ∈ cs.toList →
    f.openType = some o → primIs (keyedBy o.map) (ds.find o.governor) = true
  | .nil, _, _, _, _, h, _ => by simp [Comps.toList] at h
  | .cons g u cs, hg, f, t, o, h, ho => by
    simp only [keyedComps, Bool.and_eq_true] at hg
    simp only [Comps.toList, List.mem_cons, Prod.mk.injEq] at h
    rcases h with ⟨rfl, rfl⟩ | h
    · have := hg.1
      simpa only [ho] using this
    · exact keyedComps_mem ds cs hg.2 f t o h ho

/-- C25: whatever is imported, the keys of the dictionary are values of the governor's kind: object identifiers if the
governor is one, integers if it is an INTEGER. -/
theorem governor_keys (s : State) (hs : Reached s) (c : String × Ty) (hc : c ∈ Package.types) (hu : c.1 ∉ ungoverned)
    (st : Bool) (a : Attrs) (cs : Comps) (hn : Ty.seq st a cs ∈ c.2.nodes) (f : Field) (t : Ty) (o : OpenTy)
    (hf : (f, t) ∈ cs.toList) (ho : f.openType = some o) (k : Val) (u : Ty) (hk : s.get o.map k = some u) :
    ∃ g a', (cs.find o.governor = some (g, .prim .oid a') ∧ ∃ l, k = .oid l) ∨
      (cs.find o.governor = some (g, .prim .integer a') ∧ ∃ n, k = .int n) := by
  have hw := List.all_eq_true.1 keys_table _ (reached_written hs hk)
  have ht := List.all_eq_true.1 keyed_table c hc
  have hun : ungoverned.contains c.1 = false := by simpa using hu
  rw [hun, Bool.false_or, Ty.each_nodes] at ht
  have ht := keyedComps_mem cs cs (List.all_eq_true.1 ht _ hn) f t o hf ho
  simp only at hw
  revert hw ht
  generalize keyedBy o.map = p
  intro hw ht
  match hfd : cs.find o.governor with
  | none => simp [hfd, primIs] at ht
  | some (g, .prim q a') =>
    simp only [hfd, primIs, decide_eq_true_eq] at ht
    subst ht
    cases q <;> cases k <;> simp_all [isKey]
  | some (g, .seq ..) => simp [hfd, primIs] at ht
  | some (g, .of ..) => simp [hfd, primIs] at ht
  | some (g, .choice ..) => simp [hfd, primIs] at ht
  | some (g, .bad ..) => simp [hfd, primIs] at ht

theorem reached_openOk {s : State} (hs : Reached s) : Asn1.Registry.openOk s.get := fun _ _ _ h =>
  List.all_eq_true.1 registered_openOk _ (reached_written hs h)

theorem openOk_of_mem {c : String × Ty} (hc : c ∈ Package.types) : c.2.each Ty.openOk = true :=
  List.all_eq_true.1 openOk_table c hc

/-- C26: it returns what the plain decoder returns, with the same unused octets, except that every
open type field whose governor is registered holds the decoding of its octets under the registered
type. -/
theorem open_sound (s : State) (t : Ty) (b r : Bytes) (w : OVal) (h : decodeOpen s t b = some (w, r)) :
    ∃ v, decode t b = some (v, r) ∧ Opens { registry := s.get } false t v w := by
  obtain ⟨v, hv, ho⟩ := odecode_sound s.get _ t b w r h
  exact ⟨v, hv, ho false⟩

/-- C26: it always ends: open types nest at most as deep as the input is long, so that a larger
bound on the nesting gives the same result. -/
theorem open_depth (s : State) (hs : Reached s) (c : String × Ty) (hc : c ∈ Package.types) (b : Bytes) (n : Nat)
    (hn : b.length < n) : odecode s.get n c.2 b = decodeOpen s c.2 b :=
  odecode_fuel (reached_openOk hs) b.length c.2 b n (b.length + 1) (openOk_of_mem hc) (Nat.le_refl _) hn (Nat.lt_succ_self _)

/-- C26: it succeeds whenever the plain decoder does and the contents of the open type fields with a
registered governor can be decoded. -/
theorem open_complete (s : State) (hs : Reached s) (c : String × Ty) (hc : c ∈ Package.types) (hu : c.1 ∉ ungoverned)
    (b r : Bytes) (v : Val) (h : decode c.2 b = some (v, r))
    (hf : ∀ p ∈ c.2.contents s.get v, decodeOpen s p.1 p.2 ≠ none) : ∃ w, decodeOpen s c.2 b = some (w, r) :=
  odecode_complete (reached_openOk hs) (openOk_of_mem hc) (governed_of_mem hc hu) b r v h hf

/-- C26: if no governor in the value is registered, the result is that of the plain decoder. -/
theorem open_unregistered (s : State) (hs : Reached s) (c : String × Ty) (hc : c ∈ Package.types) (hu : c.1 ∉ ungoverned)
    (b r : Bytes) (v : Val) (h : decode c.2 b = some (v, r)) (hf : c.2.contents s.get v = []) :
    ∃ w, decodeOpen s c.2 b = some (w, r) ∧ w.plain? = some v := by
  obtain ⟨w, hw⟩ := open_complete s hs c hc hu b r v h (by rw [hf]; simp)
  obtain ⟨v', hv', ho⟩ := open_sound s c.2 b r w hw
  rw [h] at hv'
  simp only [Option.some.injEq, Prod.mk.injEq] at hv'
  rw [← hv'.1] at ho
  exact ⟨w, hw, ho.plain_of hf⟩

/-- C26: encoding a value in which open type fields hold decoded contents gives the same octets as
encoding the value with the octets in these fields, provided that the contents re-encode to these
octets, that field and contents are not of the "same type", and that no such field is in a SET or
in a component that equals its default. -/
theorem open_encode (s : State) (t : Ty) (v : Val) (w : OVal) (h : Opens (encSide s.get) false t v w) :
    oencode t w = encode t v := h.encEq

/-! ## Concrete cases -/

/-- Imports, then decode with open types. -/
def decodeAfter (ns : List Py.Ident) (t : Ty) (b : Bytes) : Option (OVal × Bytes) :=
  (importAll Package.modules 130 ns .start).bind (fun s => decodeOpen s t b)

/-- Imports, then decode with open types, then encode. -/
def recodeAfter (ns : List Py.Ident) (t : Ty) (b : Bytes) : Option Bytes :=
  (decodeAfter ns t b).bind (fun p => oencode t p.1)

def algorithmIdentifier : Ty := Rfc5280.AlgorithmIdentifier.call.ty

/-- SHA-256 with NULL parameters. -/
def sha256Null : Bytes := [0x30, 13, 6, 9, 0x60, 0x86, 0x48, 1, 0x65, 3, 4, 2, 1, 5, 0]

/-- With rfc4055 imported the parameters are decoded, and encoded to the same octets. -/
example : decodeAfter [Rfc4055.asModule.id] algorithmIdentifier sha256Null =
      some (.record (.ofList [.leaf (.oid [2, 16, 840, 1, 101, 3, 4, 2, 1]), .opened Py.univ.Null.call.ty (.leaf .null)]), []) ∧
    recodeAfter [Rfc4055.asModule.id] algorithmIdentifier sha256Null = some sha256Null := by decide +kernel

/-- With only rfc5280 imported they stay octets. -/
example : decodeAfter [Rfc5280.asModule.id] algorithmIdentifier sha256Null =
      some (.record (.ofList [.leaf (.oid [2, 16, 840, 1, 101, 3, 4, 2, 1]), .leaf (.octets [5, 0])]), []) := by
  decide +kernel

/-- mgf1 with SHA-256: an open type within an open type. -/
def mgf1Sha256 : Bytes := [0x30, 26, 6, 9, 0x2a, 0x86, 0x48, 0x86, 0xf7, 13, 1, 1, 8] ++ sha256Null

example : decodeAfter [Rfc4055.asModule.id] algorithmIdentifier mgf1Sha256 =
      some (.record (.ofList [.leaf (.oid [1, 2, 840, 113549, 1, 1, 8]), .opened algorithmIdentifier (.record (.ofList
        [.leaf (.oid [2, 16, 840, 1, 101, 3, 4, 2, 1]), .opened Py.univ.Null.call.ty (.leaf .null)]))]), []) ∧
    recodeAfter [Rfc4055.asModule.id] algorithmIdentifier mgf1Sha256 = some mgf1Sha256 := by decide +kernel

/-! ## Where it goes wrong -/

/-- Importing a module can make decoding fail: rfc4357.py:471 registers NULL for the parameters of
GOST R 34.10-2001 keys, which are a SEQUENCE. -/
def gost2001 : Bytes := [0x30, 28, 6, 6, 0x2a, 0x85, 3, 2, 2, 19, 0x30, 18, 6, 7, 0x2a, 0x85, 3, 2, 2, 35, 1, 6, 7,
  0x2a, 0x85, 3, 2, 2, 30, 1]

theorem gost2001_refused :
    (decode algorithmIdentifier gost2001).isSome = true ∧
    (decodeAfter [Rfc5280.asModule.id] algorithmIdentifier gost2001).isSome = true ∧
    (decode Rfc4357.GostR3410_2001_PublicKeyParameters.call.ty (gost2001.drop 10)).isSome = true ∧
    decodeAfter [Rfc4357.asModule.id] algorithmIdentifier gost2001 = none := by decide +kernel

/-- RSASSA-PSS with default parameters: the empty SEQUENCE disappears when the decoded value is
encoded again. -/
def pssDefault : Bytes := [0x30, 13, 6, 9, 0x2a, 0x86, 0x48, 0x86, 0xf7, 13, 1, 1, 10, 0x30, 0]

theorem pssDefault_lost :
    encode algorithmIdentifier (.record (.ofList [.oid [1, 2, 840, 113549, 1, 1, 10], .octets [0x30, 0]])) = some pssDefault ∧
    recodeAfter [Rfc5280.asModule.id] algorithmIdentifier pssDefault = some pssDefault ∧
    recodeAfter [Rfc4055.asModule.id] algorithmIdentifier pssDefault =
      some [0x30, 11, 6, 9, 0x2a, 0x86, 0x48, 0x86, 0xf7, 13, 1, 1, 10] := by decide +kernel

/-- A subject key identifier extension, as rfc2459.Extension. -/
def skiExtension : Bytes := [0x30, 10, 6, 3, 0x55, 0x1d, 14, 4, 3, 4, 1, 7]

/-- The OCTET STRING around the identifier is lost when the decoded value is encoded again, because
field and contents are of the same type. -/
theorem skiExtension_lost :
    (decode Rfc2459.Extension.call.ty skiExtension).bind (fun p => encode Rfc2459.Extension.call.ty p.1) =
      some skiExtension ∧
    recodeAfter [Rfc2459.asModule.id] Rfc2459.Extension.call.ty skiExtension =
      some [0x30, 8, 6, 3, 0x55, 0x1d, 14, 4, 1, 7] := by decide +kernel

/-- The two classes with an unresolvable open type do decode without `decodeOpenTypes`. -/
theorem ungoverned_plain :
    decode Rfc2315.AttributeValueAssertion.call.ty [0x30, 6, 6, 1, 0x2a, 2, 1, 0] =
      some (.record (.ofList [.oid [1, 2], .octets [2, 1, 0]]), []) ∧
    decode Rfc7292.BAG_TYPE.call.ty [0x30, 6, 6, 1, 0x2a, 2, 1, 0] =
      some (.record (.ofList [.oid [1, 2], .octets [2, 1, 0]]), []) := by decide +kernel

/-- C26's hypotheses are met by the cases above. -/
theorem example_reached : ∃ s, importAll Package.modules 130 [Rfc4055.asModule.id] .start = some s ∧ Reached s := by
  obtain ⟨s, hs⟩ : ∃ s, importAll Package.modules 130 [Rfc4055.asModule.id] .start = some s := by
    refine Option.isSome_iff_exists.1 ?_
    decide +kernel
  exact ⟨s, hs, 130, _, hs⟩

end Open
end Props
end Verif
