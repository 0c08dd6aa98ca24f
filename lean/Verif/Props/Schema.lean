import Verif.Props.Codec
import Verif.Asn1.Sample
import Verif.Gen.Final

/-!
# Properties of the schema itself

C20, C21, C22, C31 and C33: facts about every class of the package, at every
depth.  The tables are evaluated by the kernel over the complete list of classes.
-/

namespace Verif
namespace Props
namespace Schema

open Asn1

/-! ## C20 -/

/-- C20: wherever a module instantiates a class of the package, the class already has the
attributes it has when the import is complete. -/
theorem no_stale_snapshot (m : Py.Module) (hm : m ∈ Package.modules) (s : Py.Snapshot) (hs : s ∈ m.snapshots) :
    s.used = s.final := Package.final m hm s hs

/-- Neither an unfinished class (`SequenceOf` without `componentType`, SEQUENCE, SET or CHOICE
without components) nor the trace of an expression that raises. -/
def finished : Ty → Bool
  | .seq _ _ .nil => false
  | .choice _ .nil => false
  | .bad _ => false
  | _ => true

theorem finished_table : Package.types.all (fun c => c.2.each finished) = true := by decide +kernel

/-- C20, C31: no class contains, at any depth, a type that was unfinished when it was used or an
expression that raises. -/
theorem all_finished (c : String × Ty) (hc : c ∈ Package.types) (u : Ty) (hu : u ∈ c.2.nodes) : finished u = true := by
  have := List.all_eq_true.1 finished_table c hc
  rw [Ty.each_nodes] at this
  exact List.all_eq_true.1 this u hu

-- there is something to check: 2500 instantiations
example : 2500 < (Package.modules.map (fun m => m.snapshots.length)).sum := by decide +kernel

/-! ## C21 -/

/-- Classes without any legal value: INTEGER types with a *size* constraint, and what needs them. -/
def uninhabited : List String :=
  ["rfc2459.TerminalType", "rfc2459.ExtensionAttribute", "rfc2459.ExtensionAttributes", "rfc2459.CRLNumber",
   "rfc2459.BaseCRLNumber", "rfc2459.SkipCerts"]

theorem hopeless_table : (Package.types.filter (fun c => c.2.hopeless)).map Prod.fst = uninhabited := by decide +kernel

theorem sample_table : Package.types.all (fun c => c.2.hopeless || (match c.2.sample with
    | some v => c.2.valid v && decide (c.2.weight v < Codec.maxOctets)
    | none => false)) = true := by decide +kernel

/-- C21: every class outside the list has a legal value, and it encodes. -/
theorem inhabited (c : String × Ty) (hc : c ∈ Package.types) (hu : c.1 ∉ uninhabited) :
    ∃ v b, c.2.valid v = true ∧ encode c.2 v = some b := by
  have h := List.all_eq_true.1 sample_table c hc
  simp only [Bool.or_eq_true] at h
  rcases h with h | h
  · refine absurd ?_ hu
    rw [← hopeless_table]
    exact List.mem_map.2 ⟨c, List.mem_filter.2 ⟨hc, h⟩, rfl⟩
  · cases hs : c.2.sample with
    | none => simp [hs] at h
    | some v =>
      simp only [hs, Bool.and_eq_true, decide_eq_true_eq] at h
      obtain ⟨b, hb, _⟩ := enc_total c.2 false v h.1 h.2
      exact ⟨v, b, h.1, hb⟩

/-- C21: and decodes, for classes outside `defective`. -/
theorem inhabited_decodes (c : String × Ty) (hc : c ∈ Package.types) (hu : c.1 ∉ uninhabited)
    (hd : c.1 ∉ Package.defective) : ∃ v b, encode c.2 v = some b ∧ decode c.2 b = some (v, []) := by
  obtain ⟨v, b, hv, hb⟩ := inhabited c hc hu
  obtain ⟨w, h1, h2, h3⟩ := Codec.reencode c hc hd v b hv hb
  exact ⟨w, b, h3, h1⟩

/-- C21: the classes on the list have no legal value at all. -/
theorem uninhabited_empty (c : String × Ty) (hc : c ∈ Package.types.filter (fun c => c.2.hopeless)) (v : Val) :
    c.2.valid v = false :=
  Ty.hopeless_valid c.2 v (List.mem_filter.1 hc).2

/-! ## C22 -/

/-- Names of the components. -/
def names (cs : Comps) : List String := cs.toList.map (fun p => p.1.name)

/-- Names are distinct, as are the names and the numbers of named values; and a component
without a name occurs only in the two places listed in `unnamed`. -/
def namesOk : Ty → Bool
  | .seq _ a cs => Py.distinct (names cs) && Py.distinct (a.named.map Prod.fst) && Py.distinct (a.named.map Prod.snd)
  | .choice a cs => Py.distinct (names cs) && Py.distinct (a.named.map Prod.fst) && Py.distinct (a.named.map Prod.snd)
  | t => Py.distinct (t.attrs.named.map Prod.fst) && Py.distinct (t.attrs.named.map Prod.snd)

theorem names_table : Package.types.all (fun c => c.2.each namesOk) = true := by decide +kernel

theorem nodup_of_distinct {α : Type} [BEq α] [LawfulBEq α] : ∀ l : List α, Py.distinct l = true → l.Nodup
  | [], _ => List.nodup_nil
  | x :: xs, h => by
    simp only [Py.distinct, Bool.and_eq_true, Bool.not_eq_true'] at h
    exact List.nodup_cons.2 ⟨by simpa using h.1, nodup_of_distinct xs h.2⟩

theorem namesOk_mem (c : String × Ty) (hc : c ∈ Package.types) (u : Ty) (hu : u ∈ c.2.nodes) : namesOk u = true := by
  have := List.all_eq_true.1 names_table c hc
  rw [Ty.each_nodes] at this
  exact List.all_eq_true.1 this u hu

/-- C22: component names are distinct in every SEQUENCE, SET and CHOICE, at every depth. -/
theorem component_names_distinct (c : String × Ty) (hc : c ∈ Package.types) (cs : Comps) (a : Attrs) (s : Bool)
    (hu : Ty.seq s a cs ∈ c.2.nodes ∨ Ty.choice a cs ∈ c.2.nodes) : (names cs).Nodup := by
  rcases hu with hu | hu <;> have := namesOk_mem c hc _ hu <;>
    simp only [namesOk, Bool.and_eq_true] at this <;> exact nodup_of_distinct _ this.1.1

/-- C22: named numbers and named bits are distinct, by name and by number, at every depth. -/
theorem named_values_distinct (c : String × Ty) (hc : c ∈ Package.types) (u : Ty) (hu : u ∈ c.2.nodes) :
    (u.attrs.named.map Prod.fst).Nodup ∧ (u.attrs.named.map Prod.snd).Nodup := by
  have := namesOk_mem c hc u hu
  cases u <;> simp only [namesOk, Bool.and_eq_true, Ty.attrs] at this
  · exact ⟨nodup_of_distinct _ this.1, nodup_of_distinct _ this.2⟩
  · exact ⟨nodup_of_distinct _ this.1.2, nodup_of_distinct _ this.2⟩
  · exact ⟨nodup_of_distinct _ this.1, nodup_of_distinct _ this.2⟩
  · exact ⟨nodup_of_distinct _ this.1.2, nodup_of_distinct _ this.2⟩
  · simp [Ty.attrs]

def hasUnnamed : Ty → Bool
  | .seq _ _ cs => (names cs).contains ""
  | .choice _ cs => (names cs).contains ""
  | _ => false

/-- C22: the classes with a component whose name is empty (rfc1905.py:39, rfc2459.py:1043). -/
theorem unnamed_components : (Package.types.filter (fun c => hasUnnamed c.2)).map Prod.fst =
    ["rfc1905.VarBind", "rfc2459.Name"] := by decide +kernel

/-! ## C33 -/

/-- INTEGER or ENUMERATED type all of whose named numbers meet its constraint. -/
def namedAllowed : Ty → Bool
  | .prim k a => !(k == .integer || k == .enumerated) ||
      a.named.all (fun p => a.spec.ok (.simple (.int p.2)) && decide ((Ty.prim k a).weight (.int p.2) < Codec.maxOctets))
  | _ => true

theorem named_allowed_table : (Package.types.filter (fun c => !namedAllowed c.2)).map Prod.fst =
    ["rfc2459.TerminalType"] := by decide +kernel

/-- C33: every named number of every INTEGER and ENUMERATED class, bar one, is a legal value of the
class and survives encoding and decoding. -/
theorem named_number_usable (n : String) (k : Prim) (a : Attrs) (hc : (n, Ty.prim k a) ∈ Package.types)
    (hn : n ≠ "rfc2459.TerminalType") (hd : n ∉ Package.defective) (hk : k = .integer ∨ k = .enumerated)
    (p : String × Int) (hp : p ∈ a.named) : (Ty.prim k a).valid (.int p.2) = true ∧
      ∃ b, encode (.prim k a) (.int p.2) = some b ∧ ∀ rest, decode (.prim k a) (b ++ rest) = some (.int p.2, rest) := by
  have h : namedAllowed (.prim k a) = true := by
    cases h : namedAllowed (.prim k a) with
    | true => rfl
    | false =>
      have : n ∈ (Package.types.filter (fun c => !namedAllowed c.2)).map Prod.fst :=
        List.mem_map.2 ⟨_, List.mem_filter.2 ⟨hc, by simp [h]⟩, rfl⟩
      rw [named_allowed_table] at this
      exact absurd (by simpa using this) hn
  simp only [namedAllowed, Bool.or_eq_true, Bool.not_eq_true', List.all_eq_true] at h
  have hv : (Ty.prim k a).valid (.int p.2) = true ∧ (Ty.prim k a).weight (.int p.2) < Codec.maxOctets := by
    rcases hk with hk | hk <;> subst hk <;> rcases h with h | h
    · simp at h
    · have := h p hp
      simp only [Bool.and_eq_true, decide_eq_true_eq] at this
      exact ⟨by simp [Ty.valid, primLegal, this.1], this.2⟩
    · simp at h
    · have := h p hp
      simp only [Bool.and_eq_true, decide_eq_true_eq] at this
      exact ⟨by simp [Ty.valid, primLegal, this.1], this.2⟩
  exact ⟨hv.1, Codec.roundtrip_exact _ hc hd rfl _ hv.1 hv.2⟩

-- a class with named numbers
example : (Rfc5280.CRLReason.ty.attrs.named.lookup "keyCompromise") = some 1 := by decide +kernel

/-- No ENUMERATED class restricts its values to the named ones. -/
theorem enumerated_open : Package.types.all (fun c => match c.2 with
    | .prim .enumerated a => !a.spec.truthy && !a.named.isEmpty
    | _ => true) = true := by decide +kernel

/-- C33: hence a decoder accepts *every* integer for *every* ENUMERATED class, named or not. -/
theorem enumerated_accepts_all (n : String) (a : Attrs) (hc : (n, Ty.prim .enumerated a) ∈ Package.types) (i : Int) :
    (Ty.prim .enumerated a).valid (.int i) = true := by
  have := List.all_eq_true.1 enumerated_open _ hc
  simp only [Bool.and_eq_true, Bool.not_eq_true'] at this
  simp [Ty.valid, primLegal, Constraint.ok_of_not_truthy a.spec _ this.1]

end Schema
end Props
end Verif
