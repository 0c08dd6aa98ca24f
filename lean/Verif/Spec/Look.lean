import Verif.Spec.Path
import Verif.Spec.Empty

/-!
# Paths that differ in which elements they take
-/

namespace Verif
namespace Spec

open Asn1

/-- A path but for which elements it takes. -/
def anyElement : Step → Step
  | .element _ => .element 0
  | s => s

/-- The two paths differ only in which elements they take. -/
def Alike (p q : List Step) : Prop := p.map anyElement = q.map anyElement

mutual
/-- The path leads to primitive values, as far as it leads anywhere. -/
def ends : List Step → Ty → Bool
  | [], .prim _ _ => true
  | .field n :: p, .seq _ _ cs => endsAll n p cs
  | .alternative n :: p, .choice _ cs => endsAll n p cs
  | .element _ :: p, .of _ _ t => ends p t
  | _, _ => false
def endsAll (n : String) (p : List Step) : Comps → Bool
  | .nil => true
  | .cons f t cs => (f.name != n || ends p t) && endsAll n p cs
end

end Spec
end Verif
