import Verif.Gen.Steps
import Verif.Package.Types
import Verif.Spec.Compat
import Verif.Py.Import

/-!
# C31: evaluating the module bodies never raises

The expressions of the modules evaluate to objects of the model; where pyasn1 raises the model has a
`bad` type or an `invalid` constraint, and an assignment `x['f'] = y` that pyasn1 refuses is one
for which `Assign` does not hold.
-/

namespace Verif
namespace Props
namespace Import

open Asn1 Py

mutual
/-- No part of the constraint expression raised. -/
def okC : Constraint → Bool
  | .inter cs => okCs cs
  | .union cs => okCs cs
  | .invalid => false
  | _ => true
def okCs : Constraints → Bool
  | .nil => true
  | .cons c cs => okC c && okCs cs
end

mutual
/-- No part of the type expression raised.  (`SequenceOf` without an element type is legal to create.) -/
def okT : Ty → Bool
  | .prim _ a => okC a.spec
  | .seq _ a cs => okC a.spec && okTs cs
  | .of _ a t => okC a.spec && (t == .bad "no componentType" || okT t)
  | .choice a cs => okC a.spec && okTs cs
  | .bad _ => false
def okTs : Comps → Bool
  | .nil => true
  | .cons _ t cs => okT t && okTs cs
end

/-- The statement that defines the object does not raise. -/
def Evaluates (o : Obj) : Bool := okT o.ty && okC o.size

mutual
/-- `constraint.getValueMap()`: everything a constraint is derived from. -/
def parts : Constraint → List Constraint
  | .inter cs => partsL cs
  | .union cs => partsL cs
  | _ => []
def partsL : Constraints → List Constraint
  | .nil => []
  | .cons c cs => (if c.truthy then c :: parts c else []) ++ partsL cs
end

/-- `self.isSuperTypeOf(other)` for constraints. -/
def superC (c d : Constraint) : Bool := !c.truthy || c == d || (parts d).contains c

/-- `self.isSuperTypeOf(other)` for types. -/
def superT (t u : Ty) : Bool := t.tags.bare.isPrefixOf u.tags.bare && superC t.attrs.spec u.attrs.spec

/-- The named component. -/
def field (f : String) : Comps → Option (Field × Ty)
  | .nil => none
  | .cons g t cs => if g.name == f then some (g, t) else field f cs

def isSimple : Ty → Bool
  | .prim _ _ => true
  | _ => false

/-- `x['f'] = r` does not raise. -/
def assign (t : Ty) (f : String) (r : Rhs) : Bool :=
  match t with
  | .seq _ _ cs =>
    match field f cs with
    | none => false
    | some (g, u) =>
      match r with
      | .obj o => Evaluates o && (g.openType.isSome || superT u o.ty)
      | .elem0 o => Evaluates o && (match u with
        | .of _ _ e => superT e o.ty
        | _ => false)
      | .int n => isSimple u && u.attrs.spec.ok (.simple (.int n))
      | .encoded o => Evaluates o && isSimple u && o.encoding.isSome
  | _ => false

def fills (p : Proto) : Bool := Evaluates p.obj && p.sets.all (fun s => assign p.obj.ty s.1 s.2)

/-! ## The tables: every statement of every module -/

theorem steps_table : Package.steps.all (fun l => l.all (fun p => Evaluates p.2)) = true := by decide +kernel

theorem fills_table : Package.fills.all (fun l => l.all (fun p => fills p.2)) = true := by decide +kernel

theorem entries_table : Package.modules.all (fun m => m.writes.all (fun e => okT e.2.2)) = true := by decide +kernel

/-- C31: no statement that defines a type or a value raises, in any version of the object it defines. -/
theorem import_evaluates (l : List (String × Obj)) (hl : l ∈ Package.steps) (p : String × Obj) (hp : p ∈ l) :
    Evaluates p.2 = true := List.all_eq_true.1 (List.all_eq_true.1 steps_table l hl) p hp

/-- C31: no item assignment raises: the component exists and takes an object of that type. -/
theorem import_fills (l : List (String × Proto)) (hl : l ∈ Package.fills) (p : String × Proto) (hp : p ∈ l)
    (s : String × Rhs) (hs : s ∈ p.2.sets) : assign p.2.obj.ty s.1 s.2 = true := by
  have h := List.all_eq_true.1 (List.all_eq_true.1 fills_table l hl) p hp
  simp only [fills, Bool.and_eq_true] at h
  exact List.all_eq_true.1 h.2 s hs

/-- C31: the objects that dictionaries refer to exist. -/
theorem import_entries (m : Py.Module) (hm : m ∈ Package.modules) (e : Asn1.Ident × Val × Ty) (he : e ∈ m.writes) :
    okT e.2.2 = true := List.all_eq_true.1 (List.all_eq_true.1 entries_table m hm) e he

/-- What `Evaluates` excludes: an INTEGER class with a default outside its range cannot be instantiated. -/
theorem bad_default : Evaluates ((Py.univ.Integer.setSubtypeSpec (.inter (.cons (.range (.fin 0) (.fin 9)) .nil))).callInt 10) = false := by
  decide +kernel

/-- What `Evaluates` excludes: named values with the same name or the same number. -/
theorem bad_named (o : Obj) (l : List (String × Int)) (h : Evaluates (o.setNamedValues l) = true) :
    (l.map Prod.fst).Nodup ∧ (l.map Prod.snd).Nodup := by
  have key : ∀ {α : Type} [BEq α] [LawfulBEq α] (l : List α), Py.distinct l = true → l.Nodup := by
    intro α _ _ l
    induction l with
    | nil => simp
    | cons x l ih => simpa [Py.distinct] using fun h1 h2 => ⟨h1, ih h2⟩
  unfold Obj.setNamedValues at h
  split at h
  · rename_i hd
    rw [Bool.and_eq_true] at hd
    exact ⟨key _ hd.1, key _ hd.2⟩
  · cases h

example : Evaluates (Py.univ.Integer.setNamedValues [("v1", 0), ("v2", 1)]) = true ∧
    Evaluates (Py.univ.Integer.setNamedValues [("v1", 0), ("v2", 0)]) = false := by decide +kernel

/-- What `assign` excludes: a component name that does not exist, a value of another type. -/
theorem bad_assign : assign Rfc5280.AlgorithmIdentifier.call.ty "algoritm" (.obj Rfc5280.id_at) = false ∧
    assign Rfc5280.AlgorithmIdentifier.call.ty "algorithm" (.obj Py.univ.Null.call) = false ∧
    assign Rfc5280.AlgorithmIdentifier.call.ty "algorithm" (.obj Rfc5280.id_at) = true := by decide +kernel

end Import
end Props
end Verif
