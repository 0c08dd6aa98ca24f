import Verif.Spec.Grade
import Verif.Spec.Relax
import Verif.Asn1.DerOk

/-!
# Checking grades
-/

namespace Verif
namespace Std

open Asn1

deriving instance DecidableEq for Py.Obj

/-- The type an application decodes with. -/
def Entry.ty (e : Entry) : Ty := e.obj.call.ty

/-- The octets are read to the end. -/
def readsAll (t : Ty) (b : Bytes) : Bool :=
  match decode t b with
  | some (_, []) => true
  | _ => false

/-- The type relates to the type of the standard as the grade says. -/
def Grade.holds (t std : Ty) : Grade → Bool
  | .same => t.agrees std
  | .relaxed => t.relaxes std
  | .widened => t.sub std
  | .rewritten v => t.sub std && std.valid v && (encode std v).isSome && encode t v != encode std v
  | .refused b => readsAll std b && (decode t b).isNone
  | .changed b => readsAll std b && readsAll t b && decode t b != decode std b

def Entry.graded (e : Entry) : Bool := e.grade.holds e.ty e.std

/-- The standard's type is one that DER and pyasn1 can handle. -/
def Entry.sound (e : Entry) : Bool :=
  match e.grade with
  | .same | .relaxed => vanishing.contains e.name || e.std.wf && e.std.stable && e.std.derOk
  | _ => true

/-- Same names, unless said otherwise. -/
def Entry.named (e : Entry) : Bool := e.renamed || e.ty.sameNames e.std

/-- The constant has a value, written as the standard's is. -/
def Constant.written (c : Constant) : Bool :=
  match c.obj.val with
  | some v => c.obj.ty.valid v && encode c.obj.ty v == encode c.std c.val
  | none => false

/-- The standard's value is one of the standard's type; whether the constant is written alike is as recorded. -/
def Constant.ok (c : Constant) : Bool :=
  c.std.valid c.val && (encode c.std c.val).isSome && c.written == c.agrees

/-- The constants of a module, those that are assembled component by component after the others. -/
def constantsOf (m : Py.Module) : List (String × Py.Obj) := m.objects ++ m.protos.map (fun p => (p.1, p.2.toObj))

/-- Every class of the module is compared with the standard, or listed as not being part of it. -/
def Standard.accounted (s : Standard) : Bool :=
  decide (s.module.classes.filter (fun c => !s.beyond.contains c.1) = s.entries.map (fun e => (e.name, e.obj))) &&
  decide ((constantsOf s.module).filter (fun c => !s.others.contains c.1) = s.constants.map (fun c => (c.name, c.obj)))

def Standard.ok (s : Standard) : Bool :=
  s.entries.all (fun e => e.graded && e.named && e.sound) && s.constants.all Constant.ok && s.accounted

end Std
end Verif
