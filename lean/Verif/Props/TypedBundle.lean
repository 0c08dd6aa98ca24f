import Verif.Spec.TypedBundle
import Verif.Props.Bundle
import Verif.Props.TypedStream

/-!
# Files with objects that have typed contents

C82: objects with objects in their open type fields (C79), of several classes, written into one file between marker lines
(C75), come back with the same objects in their open type fields.
-/

namespace Verif
namespace Props
namespace TypedBundle

open Asn1 Py Spec Spec.OpenTypes Verif.Bundle
open Verif.Pem hiding Bytes State
open Open (Reached ungoverned)
open OpenTypes (IsDict)
open TypedWith (Fit)
open TypedStream (Object)
open Bundle (Distinct Note)

/-- An object that can be written: of a class of the package that is neither one of the defective ones nor one with an open
type field without a governor, with typed contents (C79), notes that start no block, and lines of at least four digits. -/
structure Writable (R : Asn1.Registry) (dict : List (Val × Ty)) (kinds : List Kind) (it : OItem) : Prop where
  kind : ∃ k, kinds[it.kind]? = some k ∧
    (∃ name, (name, k.ty) ∈ Package.types ∧ name ∉ Package.defective ∧ name ∉ ungoverned) ∧ Object R dict k.ty it.value
  notes : ∀ l ∈ it.notes, Note kinds l
  quads : it.quads ≠ 0

/-- What a decoder makes of the objects of a file, taken one by one. -/
def Read (dec : Ty → Bytes → Option (OVal × Bytes)) (P : Ty → OVal → OVal → Prop) (kinds : List Kind) (it : OItem) : Prop :=
  ∃ k b w, kinds[it.kind]? = some k ∧ oencode k.ty it.value = some b ∧ b ≠ [] ∧ dec k.ty b = some (w, []) ∧ P k.ty it.value w

/-- The objects come back, and then the reader does what it does on the rest of the file. -/
theorem bundle_then {dec : Ty → Bytes → Option (OVal × Bytes)} {P : Ty → OVal → OVal → Prop} (kinds : List Kind)
    (hd : Distinct kinds) : ∀ (its : List OItem) (post : Text) (n : Nat),
    (∀ it ∈ its, Read dec P kinds it ∧ (∀ l ∈ it.notes, Note kinds l) ∧ it.quads ≠ 0) →
    ∃ t rs, otext kinds its = some t ∧ oback P kinds its rs ∧
      readAllBy dec kinds (its.length + n) (t ++ post) = (readAllBy dec kinds n post).map (fun p => (rs ++ p.1, p.2))
  | [], post, n, _ => ⟨[], [], rfl, trivial, by simp⟩
  | it :: its, post, n, h => by
    obtain ⟨t, rs, h1, h2, h3⟩ := bundle_then kinds hd its post n (fun x hx => h x (by simp [hx]))
    obtain ⟨⟨k, b, w, hk, e1, hne, hdec, e2⟩, hn, hq⟩ := h it (by simp)
    refine ⟨unlines (olinesOf k it b) ++ t, (it.kind, w) :: rs, ?_, ⟨rfl, ⟨k, hk, e2⟩, h2⟩, ?_⟩
    · simp [otext, hk, e1, h1]
    · have hr : readPemBlocksFromFile (unlines (olinesOf k it b) ++ (t ++ post)) (markers kinds) =
          { idx := it.kind, substrate := .bytes b, rest := t ++ post } :=
        Bundle.read_one kinds hd ⟨it.kind, .octets [], it.notes, it.quads⟩ k b (t ++ post) hk hn hq
      have hl : (it :: its).length + n = (its.length + n) + 1 := by simp; omega
      obtain ⟨x, xs, rfl⟩ := List.exists_cons_of_ne_nil hne
      rw [hl, List.append_assoc]
      simp only [readAllBy, hr, Int.toNat_natCast, hk, hdec, h3, Option.map_map]
      rfl

theorem rest_done (dec : Ty → Bytes → Option (OVal × Bytes)) (kinds : List Kind) (n : Nat) (file : Text)
    (h : (readPemBlocksFromFile file (markers kinds)).substrate = .emptyStr) :
    readAllBy dec kinds (n + 1) file = some ([], .done) := by
  simp only [readAllBy, h]

/-- What is left of a file when no block is. -/
theorem bundle_all {dec : Ty → Bytes → Option (OVal × Bytes)} {P : Ty → OVal → OVal → Prop} (kinds : List Kind)
    (hd : Distinct kinds) (its : List OItem)
    (h : ∀ it ∈ its, Read dec P kinds it ∧ (∀ l ∈ it.notes, Note kinds l) ∧ it.quads ≠ 0) :
    ∃ t, otext kinds its = some t ∧ ∀ post, (readPemBlocksFromFile post (markers kinds)).substrate = .emptyStr →
      ∀ n, its.length < n → ∃ rs, oback P kinds its rs ∧ readAllBy dec kinds n (t ++ post) = some (rs, .done) := by
  obtain ⟨t, _, h1, _⟩ := bundle_then kinds hd its [] 0 h
  refine ⟨t, h1, fun post hp n hn => ?_⟩
  obtain ⟨m, rfl⟩ : ∃ m, n = its.length + (m + 1) := ⟨n - its.length - 1, by omega⟩
  obtain ⟨t', rs, h2, h3, h4⟩ := bundle_then kinds hd its post (m + 1) h
  rw [h1] at h2
  cases h2
  refine ⟨rs, h3, ?_⟩
  rw [h4, rest_done dec kinds m _ hp]
  simp

theorem oback_eq {kinds : List Kind} : ∀ {its : List OItem} {rs : List (Nat × OVal)},
    oback (fun _ w x => x = w) kinds its rs → rs = its.map (fun it => (it.kind, it.value))
  | [], [], _ => rfl
  | [], _ :: _, h => absurd h id
  | _ :: _, [], h => absurd h id
  | it :: its, (i, w) :: rs, ⟨h1, ⟨_, _, h2⟩, h3⟩ => by
    rw [h1, h2, oback_eq h3]
    rfl

section
variable (s : State) (hs : Reached s) (dict : List (Val × Ty)) (hi : IsDict dict) (hf : Fit dict) (R : Asn1.Registry)
  (hR : Resolution dict s.get R) (kinds : List Kind) (hd : Distinct kinds) (its : List OItem)
  (h : ∀ it ∈ its, Writable R dict kinds it)
include hs hi hf hR hd h

/-- C82: the file can be written.  Read with open types, it gives all its objects, in order, each with the class of its own
marker and the same objects in its open type fields up to the order in SET OFs and empty collections in OPTIONAL components;
nothing else; and the reader ends normally. -/
theorem bundle_back (notes : List Text) (hn : ∀ l ∈ notes, Note kinds l) :
    ∃ t, otext kinds its = some t ∧ ∀ n, its.length < n → ∃ rs, oback (Alike false) kinds its rs ∧
      readAllBy (Asn1.decodeWith ⟨dict, true⟩ s.get) kinds n (t ++ unlines notes) = some (rs, .done) := by
  obtain ⟨t, h1, h2⟩ := bundle_all (dec := Asn1.decodeWith ⟨dict, true⟩ s.get) (P := Alike false) kinds hd its (fun it hit => by
    obtain ⟨⟨k, hk, ⟨name, hc, hdf, hu⟩, v, g1, g2, g3⟩, h5, h6⟩ := h it hit
    obtain ⟨b, e1, e2⟩ := TypedWith.roundtrip s hs dict hi hf R hR (name, k.ty) hc hdf hu v it.value g1 g2 g3
    obtain ⟨w, e3, e4⟩ := e2 []
    rw [List.append_nil] at e3
    have := (DictBounds.steady s hs (name, k.ty) hc dict (fun e he => (hf e he).2.2.1)).shorter _ _ _ e3
    exact ⟨⟨k, b, w, hk, e1, by rintro rfl; simp at this, e3, e4⟩, h5, h6⟩)
  exact ⟨t, h1, h2 _ (Bundle.after_notes kinds notes hn)⟩

/-- C82: exactly the objects that were written, if nothing in them can be reordered or left out. -/
theorem bundle_exact (hx : ∀ it ∈ its, ∀ k, kinds[it.kind]? = some k → it.value.settled false k.ty = true)
    (notes : List Text) (hn : ∀ l ∈ notes, Note kinds l) :
    ∃ t, otext kinds its = some t ∧ ∀ n, its.length < n →
      readAllBy (Asn1.decodeWith ⟨dict, true⟩ s.get) kinds n (t ++ unlines notes) =
        some (its.map (fun it => (it.kind, it.value)), .done) := by
  obtain ⟨t, h1, h2⟩ := bundle_all (dec := Asn1.decodeWith ⟨dict, true⟩ s.get) (P := fun _ w x => x = w) kinds hd its
    (fun it hit => by
      obtain ⟨⟨k, hk, ⟨name, hc, hdf, hu⟩, v, g1, g2, g3⟩, h5, h6⟩ := h it hit
      obtain ⟨b, e1, e2⟩ := TypedWith.exact s hs dict hi hf R hR (name, k.ty) hc hdf hu v it.value g1 g2 g3 (hx it hit k hk)
      have e3 := e2 []
      rw [List.append_nil] at e3
      have := (DictBounds.steady s hs (name, k.ty) hc dict (fun e he => (hf e he).2.2.1)).shorter _ _ _ e3
      exact ⟨⟨k, b, it.value, hk, e1, by rintro rfl; simp at this, e3, rfl⟩, h5, h6⟩)
  refine ⟨t, h1, fun n hlen => ?_⟩
  obtain ⟨rs, h3, h4⟩ := h2 _ (Bundle.after_notes kinds notes hn) n hlen
  rw [h4, oback_eq h3]

/-- C82: the same file, read with the BER decoder. -/
theorem bundle_back_ber (notes : List Text) (hn : ∀ l ∈ notes, Note kinds l) :
    ∃ t, otext kinds its = some t ∧ ∀ n, its.length < n → ∃ rs, oback (Alike false) kinds its rs ∧
      readAllBy (Asn1.BerOpen.decodeWith ⟨dict, true⟩ s.get) kinds n (t ++ unlines notes) = some (rs, .done) := by
  obtain ⟨t, h1, h2⟩ := bundle_all (dec := Asn1.BerOpen.decodeWith ⟨dict, true⟩ s.get) (P := Alike false) kinds hd its
    (fun it hit => by
      obtain ⟨⟨k, hk, ⟨name, hc, hdf, hu⟩, v, g1, g2, g3⟩, h5, h6⟩ := h it hit
      obtain ⟨b, e1, e2⟩ := BerOpenWith.typed s hs dict hi hf R hR (name, k.ty) hc hdf hu v it.value g1 g2 g3
      obtain ⟨w, e3, e4⟩ := e2 []
      rw [List.append_nil] at e3
      have := (BerOpenWith.steady s hs (name, k.ty) hc dict (fun e he => (hf e he).2.2.1)).shorter _ _ _ e3
      exact ⟨⟨k, b, w, hk, e1, by rintro rfl; simp at this, e3, e4⟩, h5, h6⟩)
  exact ⟨t, h1, h2 _ (Bundle.after_notes kinds notes hn)⟩

/-- C82: exactly the objects that were written, with the BER decoder too. -/
theorem bundle_exact_ber (hx : ∀ it ∈ its, ∀ k, kinds[it.kind]? = some k → it.value.settled false k.ty = true)
    (notes : List Text) (hn : ∀ l ∈ notes, Note kinds l) :
    ∃ t, otext kinds its = some t ∧ ∀ n, its.length < n →
      readAllBy (Asn1.BerOpen.decodeWith ⟨dict, true⟩ s.get) kinds n (t ++ unlines notes) =
        some (its.map (fun it => (it.kind, it.value)), .done) := by
  obtain ⟨t, h1, h2⟩ := bundle_all (dec := Asn1.BerOpen.decodeWith ⟨dict, true⟩ s.get) (P := fun _ w x => x = w) kinds hd its
    (fun it hit => by
      obtain ⟨⟨k, hk, ⟨name, hc, hdf, hu⟩, v, g1, g2, g3⟩, h5, h6⟩ := h it hit
      obtain ⟨b, e1, e2⟩ := BerOpenWith.typed s hs dict hi hf R hR (name, k.ty) hc hdf hu v it.value g1 g2 g3
      obtain ⟨w, e3, e4⟩ := e2 []
      rw [List.append_nil] at e3
      have := (BerOpenWith.steady s hs (name, k.ty) hc dict (fun e he => (hf e he).2.2.1)).shorter _ _ _ e3
      exact ⟨⟨k, b, w, hk, e1, by rintro rfl; simp at this, e3, e4.eq (hx it hit k hk)⟩, h5, h6⟩)
  refine ⟨t, h1, fun n hlen => ?_⟩
  obtain ⟨rs, h3, h4⟩ := h2 _ (Bundle.after_notes kinds notes hn) n hlen
  rw [h4, oback_eq h3]

/-- C82: if the file is cut within a block, or a stop marker is damaged, the objects before come back and the reader ends
normally: the loss is not noticed. -/
theorem bundle_cut (notes : List Text) (hn : ∀ l ∈ notes, Note kinds l) (k : Kind) (hk : k ∈ kinds)
    (body : List Text) (tail : Text) (hb : ∀ l ∈ body ++ [tail], IsLine l ∧ strip l ≠ k.stop) :
    ∃ t, otext kinds its = some t ∧ ∀ n, its.length < n → ∃ rs, oback (Alike false) kinds its rs ∧
      readAllBy (Asn1.decodeWith ⟨dict, true⟩ s.get) kinds n (t ++ (unlines (notes ++ k.start :: body) ++ tail)) =
        some (rs, .done) := by
  obtain ⟨t, h1, h2⟩ := bundle_all (dec := Asn1.decodeWith ⟨dict, true⟩ s.get) (P := Alike false) kinds hd its (fun it hit => by
    obtain ⟨⟨k, hk, ⟨name, hc, hdf, hu⟩, v, g1, g2, g3⟩, h5, h6⟩ := h it hit
    obtain ⟨b, e1, e2⟩ := TypedWith.roundtrip s hs dict hi hf R hR (name, k.ty) hc hdf hu v it.value g1 g2 g3
    obtain ⟨w, e3, e4⟩ := e2 []
    rw [List.append_nil] at e3
    have := (DictBounds.steady s hs (name, k.ty) hc dict (fun e he => (hf e he).2.2.1)).shorter _ _ _ e3
    exact ⟨⟨k, b, w, hk, e1, by rintro rfl; simp at this, e3, e4⟩, h5, h6⟩)
  exact ⟨t, h1, h2 _ (Bundle.after_cut kinds hd notes hn k hk body tail hb)⟩
/-- C82: if after some objects there is a block with octets that cannot be decoded with the class of its marker, or whose
contents cannot be decoded with the types found for them, the objects before come back and the reader ends with the decoder's
error; what follows is not read. -/
theorem bundle_bad (bad : OItem) (k : Kind) (b : Bytes) (hk : kinds[bad.kind]? = some k) (hn : ∀ l ∈ bad.notes, Note kinds l)
    (hq : bad.quads ≠ 0) (hb : b ≠ []) (hdec : Asn1.decodeWith ⟨dict, true⟩ s.get k.ty b = none) (post : Text) :
    ∃ t, otext kinds its = some t ∧ ∀ n, its.length < n → ∃ rs, oback (Alike false) kinds its rs ∧
      readAllBy (Asn1.decodeWith ⟨dict, true⟩ s.get) kinds n (t ++ (unlines (olinesOf k bad b) ++ post)) =
        some (rs, .badDer) := by
  have hall : ∀ it ∈ its, Read (Asn1.decodeWith ⟨dict, true⟩ s.get) (Alike false) kinds it ∧
      (∀ l ∈ it.notes, Note kinds l) ∧ it.quads ≠ 0 := fun it hit => by
    obtain ⟨⟨k, hk, ⟨name, hc, hdf, hu⟩, v, g1, g2, g3⟩, h5, h6⟩ := h it hit
    obtain ⟨b, e1, e2⟩ := TypedWith.roundtrip s hs dict hi hf R hR (name, k.ty) hc hdf hu v it.value g1 g2 g3
    obtain ⟨w, e3, e4⟩ := e2 []
    rw [List.append_nil] at e3
    have := (DictBounds.steady s hs (name, k.ty) hc dict (fun e he => (hf e he).2.2.1)).shorter _ _ _ e3
    exact ⟨⟨k, b, w, hk, e1, by rintro rfl; simp at this, e3, e4⟩, h5, h6⟩
  obtain ⟨t, _, h1, _⟩ := bundle_then kinds hd its [] 0 hall
  refine ⟨t, h1, fun n hlen => ?_⟩
  obtain ⟨m, rfl⟩ : ∃ m, n = its.length + (m + 1) := ⟨n - its.length - 1, by omega⟩
  obtain ⟨t', rs, h2, h3, h4⟩ := bundle_then kinds hd its (unlines (olinesOf k bad b) ++ post) (m + 1) hall
  rw [h1] at h2
  cases h2
  refine ⟨rs, h3, ?_⟩
  have hr : readPemBlocksFromFile (unlines (olinesOf k bad b) ++ post) (markers kinds) =
      { idx := bad.kind, substrate := .bytes b, rest := post } :=
    Bundle.read_one kinds hd ⟨bad.kind, .octets [], bad.notes, bad.quads⟩ k b post hk hn hq
  obtain ⟨x, xs, rfl⟩ := List.exists_cons_of_ne_nil hb
  rw [h4]
  simp only [readAllBy, hr, Int.toNat_natCast, hk, hdec, Option.map_some, List.append_nil]

/-- C82: no two lists of objects in which nothing can be reordered or left out make the same file, whatever the notes and the
widths of the lines. -/
theorem bundle_injective (its' : List OItem) (h' : ∀ it ∈ its', Writable R dict kinds it)
    (hx : ∀ it ∈ its, ∀ k, kinds[it.kind]? = some k → it.value.settled false k.ty = true)
    (hx' : ∀ it ∈ its', ∀ k, kinds[it.kind]? = some k → it.value.settled false k.ty = true)
    (he : otext kinds its = otext kinds its') :
    its.map (fun it => (it.kind, it.value)) = its'.map (fun it => (it.kind, it.value)) := by
  obtain ⟨t, h1, h2⟩ := bundle_exact s hs dict hi hf R hR kinds hd its h hx [] (by simp)
  obtain ⟨t', h3, h4⟩ := bundle_exact s hs dict hi hf R hR kinds hd its' h' hx' [] (by simp)
  rw [h1, h3] at he
  cases he
  have h5 := h2 (its.length + its'.length + 1) (by omega)
  rw [h4 (its.length + its'.length + 1) (by omega)] at h5
  exact (Prod.mk.inj (Option.some.inj h5)).1.symm
end

/-- What is written for an object is the encoding of the object with the encodings of its contents as octets. -/
theorem encode_eq (s : State) (hs : Reached s) (dict : List (Val × Ty)) (hf : Fit dict) (R : Asn1.Registry)
    (hR : Resolution dict s.get R) (c : String × Ty) (hc : c ∈ Package.types) (hu : c.1 ∉ ungoverned) (v : Val) (w : OVal)
    (h : Asn1.Typed R (TypedWith.Sound dict) false c.2 v w) : oencode c.2 w = encode c.2 v := by
  have G := TypedWith.usual_with hs hf hR
  have ht := TypedWith.kind_of_mem hc hu
  exact h.encEq G (Open.governed_of_mem hc hu)
    (fun x hx => ⟨G.fits _ _ _ ht hx (h.oks x hx), (G.types _ _ _ ht hx (h.oks x hx)).1⟩)

/-- The object and the one with octets in its open type fields, of the same kind and with the same notes and lines. -/
structure Counterpart (R : Asn1.Registry) (dict : List (Val × Ty)) (kinds : List Kind) (it : OItem) (p : Item) : Prop where
  kind : it.kind = p.kind
  notes : it.notes = p.notes
  quads : it.quads = p.quads
  cls : ∀ k, kinds[it.kind]? = some k → (∃ name, (name, k.ty) ∈ Package.types ∧ name ∉ ungoverned) ∧
    Asn1.Typed R (TypedWith.Sound dict) false k.ty p.value it.value

/-- C82: the file is the one of C75 for the objects with octets in their open type fields: a reader that does not open types
gets these. -/
theorem plain_file (s : State) (hs : Reached s) (dict : List (Val × Ty)) (hf : Fit dict) (R : Asn1.Registry)
    (hR : Resolution dict s.get R) (kinds : List Kind) : ∀ (its : List (OItem × Item)),
    (∀ x ∈ its, Counterpart R dict kinds x.1 x.2) → otext kinds (its.map Prod.fst) = text kinds (its.map Prod.snd)
  | [], _ => rfl
  | (it, p) :: its, h => by
    have ih := plain_file s hs dict hf R hR kinds its (fun x hx => h x (by simp [hx]))
    obtain ⟨h1, h2, h3, h4⟩ := h (it, p) (by simp)
    dsimp only at h1 h2 h3 h4
    simp only [List.map_cons, otext, text, ← h1]
    cases hk : kinds[it.kind]? with
    | none => rfl
    | some k =>
      obtain ⟨⟨name, hc, hu⟩, ht⟩ := h4 k hk
      have he := encode_eq s hs dict hf R hR (name, k.ty) hc hu p.value it.value ht
      dsimp only at he
      simp only [he, ih, olinesOf, linesOf, h2, h3]
      cases encode k.ty p.value <;> cases text kinds (its.map Prod.snd) <;> rfl

/-! ## Concrete case -/

/-- Two objects of C79 with notes, in lines of 64 and of 4 digits, in a file with markers for names and for algorithms. -/
def items : List OItem := [
  ⟨1, TypedWith.ownObject, ["friendlyName: a".toList], 16⟩,
  ⟨1, TypedWith.ownObject, [], 1⟩]

example : ∃ s t, Reached s ∧ otext Bundle.Examples.kinds items = some t ∧
    readAllBy (Asn1.decodeWith ⟨TypedWith.own, true⟩ s.get) Bundle.Examples.kinds 3 (t ++ unlines ["the end".toList]) =
      some ([(1, TypedWith.ownObject), (1, TypedWith.ownObject)], .done) := by
  obtain ⟨s, h1, h2⟩ := Open.example_reached
  have hi : IsDict TypedWith.own := by simp [IsDict, TypedWith.own]
  have ho : Object (Options.registry ⟨TypedWith.own, true⟩ s.get) TypedWith.own Open.algorithmIdentifier TypedWith.ownObject :=
    ⟨_, TypedWith.own_typed s h1, by decide +kernel, by decide +kernel⟩
  obtain ⟨t, h3, h4⟩ := bundle_exact s h2 TypedWith.own hi (TypedWith.fit_of_package TypedWith.own_package) _
    (OpenTypes.registry_iff hi true s.get) Bundle.Examples.kinds Bundle.Examples.distinct items
    (by
      intro it hit
      simp only [items, List.mem_cons, List.not_mem_nil, or_false] at hit
      rcases hit with rfl | rfl
      · exact ⟨⟨_, rfl, ⟨_, Codec.Examples.alg_mem, by decide, by decide⟩, ho⟩, Bundle.Examples.note _ (by decide +kernel), by decide⟩
      · exact ⟨⟨_, rfl, ⟨_, Codec.Examples.alg_mem, by decide, by decide⟩, ho⟩, Bundle.Examples.note _ (by decide +kernel), by decide⟩)
    (by
      intro it hit k hk
      simp only [items, List.mem_cons, List.not_mem_nil, or_false] at hit
      rcases hit with rfl | rfl
      · cases hk; decide +kernel
      · cases hk; decide +kernel)
    ["the end".toList] (Bundle.Examples.note _ (by decide +kernel))
  exact ⟨s, t, h2, h3, h4 3 (by decide)⟩

/-- The first of them and its counterpart with octets. -/
example : ∃ s v, Reached s ∧ Counterpart (Options.registry ⟨TypedWith.own, true⟩ s.get) TypedWith.own Bundle.Examples.kinds
    ⟨1, TypedWith.ownObject, [], 16⟩ ⟨1, v, [], 16⟩ := by
  obtain ⟨s, h1, h2⟩ := Open.example_reached
  have ht := TypedWith.own_typed s h1
  exact ⟨s, _, h2, rfl, rfl, rfl, fun k hk => by cases hk; exact ⟨⟨_, Codec.Examples.alg_mem, by decide⟩, ht⟩⟩

end TypedBundle
end Props
end Verif
