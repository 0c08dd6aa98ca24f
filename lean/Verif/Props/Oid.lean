import Verif.Props.Codec
import Verif.Spec.Oid

/-!
# Object identifiers

C10 and C11: the OID builder functions, and the OID constants of the package.
-/

namespace Verif
namespace Props
namespace Oid

open Asn1 Spec

/-! ## C10 -/

theorem oidLoop_eq (l : List Py.OidArg) (acc : List Nat) : Py.oidLoop acc l = (allArcs l).map (acc ++ ·) := by
  induction l generalizing acc with
  | nil => simp [Py.oidLoop, allArcs]
  | cons a l ih =>
    cases a with
    | num n =>
      simp only [Py.oidLoop, ih, allArcs, argArcs]
      cases allArcs l <;> simp
    | oid o =>
      simp only [Py.oidLoop, allArcs, argArcs]
      cases o.val with
      | none => simp
      | some v =>
        cases v <;> try simp
        rw [ih]
        cases allArcs l <;> simp

/-- All the functions the modules of the package define. -/
def builders : List (String × (List Py.OidArg → Py.Obj)) := Package.modules.flatMap (·.builders)

theorem builders_same : ∀ b ∈ builders, b.2 = Rfc3279._OID := by
  have : builders.map Prod.snd = List.replicate 19 Rfc3279._OID := rfl
  intro b hb
  have h2 : b.2 ∈ builders.map Prod.snd := List.mem_map.2 ⟨b, hb, rfl⟩
  rw [this] at h2
  exact (List.mem_replicate.1 h2).2

/-- C10: every OID builder returns the identifier whose arcs are those of its arguments, in order. -/
theorem build_arcs (b : String × (List Py.OidArg → Py.Obj)) (hb : b ∈ builders) (args : List Py.OidArg) (l : List Nat)
    (h : allArcs args = some l) : (b.2 args).val = some (.oid l) ∧ (b.2 args).ty = Py.univ.ObjectIdentifier.call.ty := by
  rw [builders_same b hb]
  have : Py.oidLoop [] args = some l := by rw [oidLoop_eq, h]; simp
  simp only [Rfc3279._OID, this]
  exact ⟨rfl, rfl⟩

/-- C10: and raises exactly if an argument is an identifier without value. -/
theorem build_fails (b : String × (List Py.OidArg → Py.Obj)) (hb : b ∈ builders) (args : List Py.OidArg) :
    (b.2 args).isBad = true ↔ ∃ a ∈ args, argArcs a = none := by
  rw [builders_same b hb]
  have key : allArcs args = none ↔ ∃ a ∈ args, argArcs a = none := by
    induction args with
    | nil => simp [allArcs]
    | cons a as ih =>
      simp only [allArcs, List.mem_cons, exists_eq_or_imp]
      cases h1 : argArcs a with
      | none => simp
      | some x => cases h2 : allArcs as <;> simp_all
  rw [← key]
  simp only [Rfc3279._OID, oidLoop_eq]
  cases allArcs args with
  | none => simp [Py.Obj.fail, Py.Obj.isBad]
  | some l => simp; rfl

theorem allArcs_append (a b : List Py.OidArg) (l m : List Nat) (ha : allArcs a = some l) (hb : allArcs b = some m) :
    allArcs (a ++ b) = some (l ++ m) := by
  induction a generalizing l with
  | nil => simp only [allArcs, Option.some.injEq] at ha; subst ha; simpa using hb
  | cons x a ih =>
    simp only [allArcs] at ha
    cases h1 : argArcs x with
    | none => simp [h1] at ha
    | some y =>
      cases h2 : allArcs a with
      | none => simp [h1, h2] at ha
      | some z =>
        simp only [h1, h2, Option.some.injEq] at ha
        subst ha
        simp only [List.cons_append, allArcs, h1, ih z h2, List.append_assoc]

/-- C10: building in two stages, with any two of the builders, is the same as in one. -/
theorem build_nested (b b' : String × (List Py.OidArg → Py.Obj)) (hb : b ∈ builders) (hb' : b' ∈ builders)
    (pre xs post : List Py.OidArg) (p x q : List Nat) (hp : allArcs pre = some p) (hx : allArcs xs = some x)
    (hq : allArcs post = some q) :
    (b.2 (pre ++ [.oid (b'.2 xs)] ++ post)).val = (b.2 (pre ++ xs ++ post)).val := by
  have h1 : allArcs [.oid (b'.2 xs)] = some x := by
    simp [allArcs, argArcs, (build_arcs b' hb' xs x hx).1]
  rw [(build_arcs b hb _ _ (allArcs_append _ _ _ _ (allArcs_append _ _ _ _ hp h1) hq)).1,
    (build_arcs b hb _ _ (allArcs_append _ _ _ _ (allArcs_append _ _ _ _ hp hx) hq)).1]

/-- C10: an identifier built below a parent has the parent's arcs as a prefix. -/
theorem build_prefix (b : String × (List Py.OidArg → Py.Obj)) (hb : b ∈ builders) (o : Py.Obj) (p : List Nat)
    (ho : o.val = some (.oid p)) (xs : List Py.OidArg) (x : List Nat) (hx : allArcs xs = some x) :
    ∃ l, (b.2 (.oid o :: xs)).val = some (.oid l) ∧ p <+: l := by
  refine ⟨p ++ x, (build_arcs b hb _ _ ?_).1, List.prefix_append p x⟩
  simp [allArcs, argArcs, ho, hx]

example : builders.length = 19 := by decide +kernel
example : allArcs [.oid Rfc5280.id_pkix, .num 48] = some [1, 3, 6, 1, 5, 5, 7, 48] := by decide +kernel

/-! ## C11 -/

/-- `univ.ObjectIdentifier()`. -/
def oidTy : Ty := Py.univ.ObjectIdentifier.ty

theorem oidTy_eq : oidTy = .prim .oid ⟨[⟨.universal, false, 6⟩], .inter .nil, []⟩ := rfl

theorem oidTy_valid (l : List Nat) (h : ValidOid l) : oidTy.valid (.oid l) = true := by
  obtain ⟨a, b, r, rfl, h⟩ := h
  have : primLegal .oid (.oid (a :: b :: r)) = true := by
    simp only [primLegal, Bool.and_eq_true, Bool.or_eq_true, decide_eq_true_eq, beq_iff_eq]
    omega
  simp only [oidTy_eq, Ty.valid, this, Constraint.ok, Constraints.all]
  rfl

/-- C11: every valid identifier comes back from its encoding. -/
theorem oid_roundtrip (l : List Nat) (hv : ValidOid l) (hs : oidTy.weight (.oid l) < Codec.maxOctets) :
    ∃ b, encode oidTy (.oid l) = some b ∧ ∀ rest, decode oidTy (b ++ rest) = some (.oid l, rest) := by
  obtain ⟨b, w, h1, h2, h3, _⟩ := Codec.roundtrip_ty oidTy (by decide) _ (oidTy_valid l hv) hs
  rw [← Ty.rigid_same oidTy false _ w (by decide) (oidTy_valid l hv) h2] at h3
  exact ⟨b, h1, h3⟩

/-- C11: what is not a valid identifier does not encode. -/
theorem oid_refused (l : List Nat) (hv : ¬ ValidOid l) : encode oidTy (.oid l) = none := by
  have : mergeArcs l = none := by
    rw [← validOidB_iff] at hv
    unfold validOidB at hv
    unfold mergeArcs
    split <;> simp_all
  simp only [oidTy_eq, encode, enc, encPrim, encOid, this]
  rfl

/-- An instance that is an OBJECT IDENTIFIER has a valid value of its own type. -/
def constantOk (o : Py.Obj) : Bool :=
  match o.ty with
  | .prim .oid _ =>
    match o.val with
    | some (.oid l) => validOidB l && o.ty.wf && o.ty.valid (.oid l) && decide (o.ty.weight (.oid l) < Codec.maxOctets)
    | _ => false
  | _ => true

theorem constants_table : Package.modules.all (fun m => m.objects.all (fun o => constantOk o.2)) = true := by
  decide +kernel

/-- C11: every OBJECT IDENTIFIER the package binds at module level is a valid identifier and comes
back from its encoding. -/
theorem constant_roundtrip (m : Py.Module) (hm : m ∈ Package.modules) (o : String × Py.Obj) (ho : o ∈ m.objects)
    (a : Attrs) (ht : o.2.ty = .prim .oid a) : ∃ l b, o.2.val = some (.oid l) ∧ ValidOid l ∧
      encode o.2.ty (.oid l) = some b ∧ ∀ rest, decode o.2.ty (b ++ rest) = some (.oid l, rest) := by
  have h := List.all_eq_true.1 (List.all_eq_true.1 constants_table m hm) o ho
  simp only [constantOk, ht] at h
  split at h
  · rename_i l hl
    simp only [Bool.and_eq_true, decide_eq_true_eq] at h
    obtain ⟨⟨⟨h1, h2⟩, h3⟩, h4⟩ := h
    obtain ⟨b, w, e1, e2, e3, _⟩ := Codec.roundtrip_ty _ h2 _ h3 h4
    rw [← Ty.rigid_same _ false _ w rfl h3 e2] at e3
    rw [ht]
    exact ⟨l, b, hl, (validOidB_iff l).1 h1, e1, e3⟩
  · simp at h

-- there are 1232 of them
example : 1232 = (Package.modules.map (fun m => (m.objects.filter (fun o => match o.2.ty with
    | .prim .oid _ => true
    | _ => false)).length)).sum := by decide +kernel
-- and the hypotheses of `oid_roundtrip` hold of the usual ones
example : ValidOid [2, 999, 1234567] ∧ oidTy.weight (.oid [2, 999, 1234567]) < Codec.maxOctets :=
  ⟨⟨2, 999, [1234567], rfl, by simp⟩, by decide⟩
example : ¬ ValidOid [1, 40] := by rintro ⟨a, b, r, h, _⟩; simp at h; omega

end Oid
end Props
end Verif
