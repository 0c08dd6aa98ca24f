import Verif.Asn1.Types

/-!
# Names of classes

The same name stands for a class in several modules: `rfc2459.Name`, `rfc3280.Name`, `rfc5280.Name`.
-/

namespace Verif
namespace Names

/-- `a` is the name `k` in some module. -/
def Named (k a : String) : Prop := ∃ m : String, a = m ++ "." ++ k ∧ '.' ∉ m.toList

/-- Two classes have the same name, in two modules or in one. -/
def Same (a b : String) : Prop := ∃ k, Named k a ∧ Named k b

end Names
end Verif
