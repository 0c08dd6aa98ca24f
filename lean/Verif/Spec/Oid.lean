import Verif.Py.Obj

/-!
# What an object identifier is

Independent of the code: X.660 arcs, and building one identifier from parts.
-/

namespace Verif
namespace Spec

/-- At least two arcs; the first is 0, 1 or 2; below 0 and 1 the second is at most 39. -/
def ValidOid (l : List Nat) : Prop :=
  ∃ a b r, l = a :: b :: r ∧ (a = 0 ∧ b ≤ 39 ∨ a = 1 ∧ b ≤ 39 ∨ a = 2)

def validOidB : List Nat → Bool
  | a :: b :: _ => (a == 0 && Nat.ble b 39) || (a == 1 && Nat.ble b 39) || a == 2
  | _ => false

theorem validOidB_iff (l : List Nat) : validOidB l = true ↔ ValidOid l := by
  unfold validOidB ValidOid
  constructor
  · intro h
    split at h
    · rename_i a b r
      simp only [Bool.or_eq_true, Bool.and_eq_true, beq_iff_eq, Nat.ble_eq] at h
      exact ⟨a, b, r, rfl, by omega⟩
    · simp at h
  · rintro ⟨a, b, r, rfl, h⟩
    simp only [Bool.or_eq_true, Bool.and_eq_true, beq_iff_eq, Nat.ble_eq]
    omega

/-- The arcs an argument of an OID builder stands for. -/
def argArcs : Py.OidArg → Option (List Nat)
  | .num n => some [n]
  | .oid o => match o.val with
    | some (.oid l) => some l
    | _ => none

/-- The arcs of all arguments, one after the other; `none` if an argument has none. -/
def allArcs : List Py.OidArg → Option (List Nat)
  | [] => some []
  | a :: as =>
    match argArcs a, allArcs as with
    | some l, some m => some (l ++ m)
    | _, _ => none

end Spec
end Verif
