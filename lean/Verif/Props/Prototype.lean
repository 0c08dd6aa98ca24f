import Verif.Props.Registry
import Verif.Props.Open

/-!
# Predefined objects

C27: the modules predefine AlgorithmIdentifier, Attribute, Extension, ... objects, whose open type
field is assigned an object of the type that belongs to their object identifier.
-/

namespace Verif
namespace Props
namespace Prototype

open Asn1 Py

/-- The type of the assigned object. -/
def typeOf : Rhs → Option Ty
  | .obj o => some o.ty
  | .elem0 o => some o.ty
  | .encoded o => some o.ty
  | .int _ => none

/-- The value of the assigned object. -/
def valueOf : Rhs → Option Val
  | .obj o => o.val
  | .int n => some (.int n)
  | _ => none

/-- Assignment `x[field] = ...` to an open type field: dictionary, value of the governor, and type
of what is assigned. -/
structure Use where
  map : Py.Ident
  key : Val
  type : Ty
  deriving DecidableEq

def useOf (p : Proto) (f : Field) : Option Use :=
  match f.openType with
  | none => none
  | some o =>
    match (lastSet o.governor p.sets).bind valueOf, (lastSet f.name p.sets).bind typeOf with
    | some k, some t => some ⟨o.map, k, t⟩
    | _, _ => none

/-- The assignments to open type fields of one predefined object. -/
def uses (p : Proto) : List Use :=
  match p.obj.ty with
  | .seq _ _ cs => cs.toList.filterMap (fun q => useOf p q.1)
  | _ => []

/-- The predefined objects that are at odds with the dictionaries. -/
def exceptions : List String :=
  ["rfc2985.friendlyName", "rfc2985.localKeyId", "rfc2985.smimeCapabilities", "rfc5035.sha256AlgId",
   "rfc5934.contingency_public_key_decrypt_key"]

/-- Some module out of `ms` registers the type of the use. -/
def registersUse (x : Module) (u : Use) : Bool :=
  x.writes.any (fun w => Nat.beq w.1.idx u.map.idx && decide (w.1 = u.map) && decide (w.2.1 = u.key) && decide (w.2.2 = u.type))

/-- Every use is registered by the module that defines the object, or one that it imports. -/
def usesOk (m : Module) (p : Proto) : Bool :=
  (uses p).all (fun u => registersUse m u || Package.modules.any (fun x =>
    m.imports.any (fun i => Nat.beq i.idx x.id.idx && decide (i = x.id)) && registersUse x u))

/-- Exactly the exceptions fail. -/
theorem uses_table : (Package.modules.flatMap (fun m => (m.protos.filter (fun p => !usesOk m p.2)).map Prod.fst)) =
    exceptions := by decide +kernel

/-- How many predefined objects have such an assignment: the claim below is not about nothing. -/
theorem uses_count : ((Package.modules.flatMap (fun m => m.protos.flatMap (fun p => uses p.2))).length,
    (Package.modules.flatMap (fun m => m.protos)).length) = (133, 175) := by decide +kernel

/-- C27: in every program that has imported the module of a predefined object (and any others, in
any order), the dictionary that governs the open type field has, for the object identifier in the
object, exactly the type of what is in the field — if the identifier is not contested between
modules. -/
theorem prototype_agrees (s : State) (hs : Open.Reached s) (m : Module) (hm : m ∈ Package.modules) (hl : m.id ∈ s.loaded)
    (p : String × Proto) (hp : p ∈ m.protos) (hx : p.1 ∉ exceptions) (u : Use) (hu : u ∈ uses p.2)
    (hc : (u.map, u.key) ∉ Registry.contested) : s.get u.map u.key = some u.type := by
  have hok : usesOk m p.2 = true := by
    cases h : usesOk m p.2 with
    | true => rfl
    | false =>
      refine absurd ?_ hx
      rw [← uses_table]
      exact List.mem_flatMap.2 ⟨m, hm, List.mem_map.2 ⟨p, List.mem_filter.2 ⟨hp, by simp [h]⟩, rfl⟩⟩
  obtain ⟨fuel, ns, hi⟩ := hs
  have reg : ∀ x ∈ Package.modules, x.id ∈ s.loaded → registersUse x u = true → s.get u.map u.key = some u.type := by
    intro x hxm hxl hr
    obtain ⟨w, hw, h⟩ := List.any_eq_true.1 hr
    simp only [Bool.and_eq_true, decide_eq_true_eq] at h
    obtain ⟨⟨⟨_, h1⟩, h2⟩, h3⟩ := h
    obtain ⟨w1, w2, w3⟩ := w
    simp only at h1 h2 h3
    subst h1 h2 h3
    exact (Registry.registered fuel ns s hi x hxm hxl _ _ _ hw).2 hc
  have h := List.all_eq_true.1 hok u hu
  rw [Bool.or_eq_true] at h
  rcases h with h | h
  · exact reg m hm hl h
  · obtain ⟨x, hxm, hx⟩ := List.any_eq_true.1 h
    simp only [Bool.and_eq_true, List.any_eq_true, decide_eq_true_eq] at hx
    obtain ⟨⟨i, hi1, hi2⟩, hr⟩ := hx
    refine reg x hxm ?_ hr
    obtain ⟨a, ta⟩ := importAll_trace _ fuel ns _ _ hi
    have hma : m ∈ a := by
      rcases (ta.loaded m.id).1 hl with h1 | h1
      · simp [State.start] at h1
      · obtain ⟨y, hy, hym⟩ := List.mem_map.1 h1
        have e := ta.found y hy
        rw [hym, Registry.ids_ok m hm] at e
        rw [Option.some.inj e]; exact hy
    rw [← hi2.2]
    exact ta.closed m hma i hi1

/-- The exceptions are at odds with the dictionaries in every program: the identifier is not
registered, or with another type. -/
theorem exception_disagrees (s : State) (hs : Open.Reached s) (m : Module) (hm : m ∈ Package.modules)
    (p : String × Proto) (hp : p ∈ m.protos) (hx : p.1 ∈ exceptions) :
    ∃ u ∈ uses p.2, s.get u.map u.key ≠ some u.type := by
  have table : Package.modules.all (fun m => m.protos.all (fun p => !(exceptions.any (fun e => decide (e = p.1))) ||
      (uses p.2).any (fun u => !(Registry.written.any (fun w => Nat.beq w.1.idx u.map.idx && decide (w.2.1 = u.key) &&
        decide (w.2.2 = u.type)))))) = true := by decide +kernel
  have h := List.all_eq_true.1 (List.all_eq_true.1 table m hm) p hp
  have he : exceptions.any (fun e => decide (e = p.1)) = true :=
    List.any_eq_true.2 ⟨p.1, hx, by simp⟩
  rw [he] at h
  simp only [Bool.not_true, Bool.false_or] at h
  obtain ⟨u, hu, h⟩ := List.any_eq_true.1 h
  refine ⟨u, hu, fun hg => ?_⟩
  have hw := Open.reached_written hs hg
  simp only [Bool.not_eq_true'] at h
  rw [List.any_eq_false] at h
  exact h _ hw (by simp)

/-- An instance: the object `mgf1SHA256Identifier` of rfc4055. -/
example : uses Rfc4055.mgf1SHA256Identifier =
    [⟨Py.map 3 "rfc5280.algorithmIdentifierMap", .oid [1, 2, 840, 113549, 1, 1, 8], Rfc5280.AlgorithmIdentifier.call.ty⟩] := by
  decide +kernel

end Prototype
end Props
end Verif
