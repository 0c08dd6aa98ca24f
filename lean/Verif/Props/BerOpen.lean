import Verif.Asn1.BerOpenTypes
import Verif.Asn1.BerOpenSize
import Verif.Props.Open
import Verif.Props.Size
import Verif.Props.Stream
import Verif.Props.KindsBer

/-!
# Open types with the BER decoder

C76: `ber.decoder.decode(b, asn1Spec=X(), decodeOpenTypes=True)` in a program that has imported any modules of the package.
-/

namespace Verif
namespace Props
namespace BerOpen

open Asn1 Py
open Open (Reached ungoverned)

/-- `ber.decoder.decode(b, asn1Spec=t, decodeOpenTypes=True)` in such a program. -/
def decodeOpen (s : State) (t : Ty) (b : Bytes) : Option (OVal × Bytes) := Asn1.BerOpen.odecode s.get (b.length + 1) t b

/-- C76: it returns what the plain BER decoder returns, with the same unused octets, except that every open type field whose
governor is registered holds the decoding of its octets under the registered type. -/
theorem open_sound (s : State) (t : Ty) (b r : Bytes) (w : OVal) (h : decodeOpen s t b = some (w, r)) :
    ∃ v, berDecode t b = some (v, r) ∧ Asn1.BerOpen.Opens s.get t v w :=
  Asn1.BerOpen.odecode_sound s.get _ t b w r h

/-- C76: it always ends: open types nest at most as deep as the input is long. -/
theorem open_depth (s : State) (hs : Reached s) (c : String × Ty) (hc : c ∈ Package.types) (b : Bytes) (n : Nat)
    (hn : b.length < n) : Asn1.BerOpen.odecode s.get n c.2 b = decodeOpen s c.2 b :=
  Asn1.BerOpen.odecode_fuel (Open.reached_openOk hs) b.length c.2 b n (b.length + 1) (Open.openOk_of_mem hc) (Nat.le_refl _) hn
    (Nat.lt_succ_self _)

/-- C76: it succeeds whenever the plain BER decoder does and the contents of the open type fields with a registered governor
can be decoded. -/
theorem open_complete (s : State) (hs : Reached s) (c : String × Ty) (hc : c ∈ Package.types) (hu : c.1 ∉ ungoverned)
    (b r : Bytes) (v : Val) (h : berDecode c.2 b = some (v, r))
    (hf : ∀ p ∈ c.2.contents s.get v, decodeOpen s p.1 p.2 ≠ none) : ∃ w, decodeOpen s c.2 b = some (w, r) :=
  Asn1.BerOpen.odecode_complete (Open.reached_openOk hs) (Open.openOk_of_mem hc) (Open.governed_of_mem hc hu) b r v h hf

/-- C76: if no governor in the value is registered, the result is that of the plain BER decoder. -/
theorem open_unregistered (s : State) (hs : Reached s) (c : String × Ty) (hc : c ∈ Package.types) (hu : c.1 ∉ ungoverned)
    (b r : Bytes) (v : Val) (h : berDecode c.2 b = some (v, r)) (hf : c.2.contents s.get v = []) :
    ∃ w, decodeOpen s c.2 b = some (w, r) ∧ w.plain? = some v := by
  obtain ⟨w, hw⟩ := open_complete s hs c hc hu b r v h (by rw [hf]; simp)
  obtain ⟨v', hv', ho⟩ := open_sound s c.2 b r w hw
  rw [h] at hv'
  simp only [Option.some.injEq, Prod.mk.injEq] at hv'
  rw [← hv'.1] at ho
  exact ⟨w, hw, ho.plain_of hf⟩

/-- C76: what the DER decoder accepts with open types the BER decoder accepts, with the same result. -/
theorem open_der (s : State) (t : Ty) (b : Bytes) (p : OVal × Bytes) (h : Open.decodeOpen s t b = some p) :
    decodeOpen s t b = some p :=
  Asn1.BerOpen.odecode_extends s.get _ t b p h

/-- C76: the two classes whose governor does not exist are refused by the BER decoder too, on every input. -/
theorem ungoverned_fails (c : String × Ty) (hc : c ∈ Package.types.filter (fun c => !c.2.each Ty.governed))
    (s : State) (b : Bytes) : decodeOpen s c.2 b = none := by
  have h : (Package.types.filter (fun c => !c.2.each Ty.governed)).all (fun c => match c.2 with
      | .seq false _ cs => Comps.lost cs cs
      | _ => false) = true := by decide +kernel
  have h := List.all_eq_true.1 h c hc
  cases ht : c.2 with
  | seq s a cs =>
    rw [ht] at h
    cases s with
    | false => exact Asn1.BerOpen.odecode_lost h _ b
    | true => simp at h
  | _ => simp [ht] at h

/-! ## Streams and kinds of objects -/

theorem steady (s : State) (hs : Reached s) (c : String × Ty) (hc : c ∈ Package.types) : Streams.Steady (decodeOpen s c.2) := by
  constructor
  · intro b w r h
    obtain ⟨v, hv, _⟩ := open_sound s c.2 b r w h
    exact Streams.ber_shorter c.2 b v r hv
  · intro b w r z h
    rw [← open_depth s hs c hc b ((b ++ z).length + 1) (by simp only [List.length_append]; omega)] at h
    rw [decodeOpen]
    simp only [Asn1.BerOpen.odecode] at h ⊢
    cases hr : readElt b with
    | none => simp [hr] at h
    | some p =>
      obtain ⟨x, r'⟩ := p
      simp only [hr] at h
      simp only [BasicRules.element_append b z x r' hr]
      split at h
      · simp at h
      · rename_i w' hw
        simp only [Option.some.injEq, Prod.mk.injEq] at h
        rw [h.1, h.2]

/-- C76: octets after a complete encoding are returned untouched. -/
theorem open_append (s : State) (hs : Reached s) (c : String × Ty) (hc : c ∈ Package.types) (b r z : Bytes) (w : OVal)
    (h : decodeOpen s c.2 b = some (w, r)) : decodeOpen s c.2 (b ++ z) = some (w, r ++ z) :=
  (steady s hs c hc).append b w r z h

/-- C76: in a reader of messages (C72) it makes no difference in what pieces the octets arrive. -/
theorem any_pieces (s : State) (hs : Reached s) (c : String × Ty) (hc : c ∈ Package.types) (ps qs : List Bytes)
    (he : ps.flatten = qs.flatten) : Stream.listen (decodeOpen s c.2) ps = Stream.listen (decodeOpen s c.2) qs :=
  Streams.any_pieces_of (steady s hs c hc) ps qs he

/-- C76: and no octets are accepted as two of the kinds of objects of C73. -/
theorem one_kind (s : State) (k l : String × Ty) (hk : k ∈ Kinds.kinds) (hl : l ∈ Kinds.kinds) (hn : k ≠ l)
    (ho : Kinds.overlap k.1 l.1 = false) (b : Bytes) : decodeOpen s k.2 b = none ∨ decodeOpen s l.2 b = none := by
  have refused : ∀ t, berDecode t b = none → decodeOpen s t b = none := by
    intro t ht
    cases h : decodeOpen s t b with
    | none => rfl
    | some p =>
      obtain ⟨v, hv, _⟩ := open_sound s t b p.2 p.1 h
      rw [ht] at hv
      cases hv
  rcases KindsBer.one_kind k l hk hl hn ho b with h | h
  · exact .inl (refused _ h)
  · exact .inr (refused _ h)

/-- C76: what is returned is at most ten times as large as the octets read (sizes as in C65), however deep open types are
nested. -/
theorem opened_size (s : State) (hs : Reached s) (c : String × Ty) (hc : c ∈ Package.types) (b r : Bytes) (v : OVal)
    (h : decodeOpen s c.2 b = some (v, r)) : v.size + 10 * r.length ≤ 10 * b.length := by
  refine Asn1.BerOpen.odecode_size (by decide) (fun m k u hu => ?_) _ c.2 b v r (List.all_eq_true.1 Size.fits_table c hc)
    (List.all_eq_true.1 Reading.sets_ok c hc) (Open.openOk_of_mem hc) h
  have hw := Open.reached_written hs hu
  have h1 := List.all_eq_true.1 Size.written_table _ hw
  rw [Bool.and_eq_true] at h1
  exact ⟨h1.1, h1.2, List.all_eq_true.1 Open.registered_openOk _ hw⟩

/-! ## Concrete cases -/

/-- Imports, then decode BER with open types. -/
def decodeAfter (ns : List Py.Ident) (t : Ty) (b : Bytes) : Option (OVal × Bytes) :=
  (importAll Package.modules 130 ns .start).bind (fun s => decodeOpen s t b)

/-- mgf1 with SHA-256, the outer structure with indefinite length. -/
def mgf1Indefinite : Bytes := [0x30, 0x80, 6, 9, 0x2a, 0x86, 0x48, 0x86, 0xf7, 13, 1, 1, 8] ++ Open.sha256Null ++ [0, 0]

/-- The open type within the open type is decoded, although the length is indefinite; the DER decoder refuses. -/
example : decodeAfter [Rfc4055.asModule.id] Open.algorithmIdentifier mgf1Indefinite =
      some (.record (.ofList [.leaf (.oid [1, 2, 840, 113549, 1, 1, 8]), .opened Open.algorithmIdentifier (.record (.ofList
        [.leaf (.oid [2, 16, 840, 1, 101, 3, 4, 2, 1]), .opened Py.univ.Null.call.ty (.leaf .null)]))]), []) ∧
    Open.decodeAfter [Rfc4055.asModule.id] Open.algorithmIdentifier mgf1Indefinite = none := by decide +kernel

/-- With only rfc5280 imported the parameters stay octets. -/
example : decodeAfter [Rfc5280.asModule.id] Open.algorithmIdentifier mgf1Indefinite =
      some (.record (.ofList [.leaf (.oid [1, 2, 840, 113549, 1, 1, 8]), .leaf (.octets Open.sha256Null)]), []) := by
  decide +kernel

/-- A key usage extension whose value is two zero octets, as rfc2459.Extension: with definite and with indefinite length. -/
def zeroExtension : Bytes := [0x30, 9, 6, 3, 0x55, 0x1d, 15, 4, 2, 0, 0]
def zeroIndefinite : Bytes := [0x30, 0x80, 6, 3, 0x55, 0x1d, 15, 4, 2, 0, 0, 0, 0]

/-- Octets that look like the end-of-octets marker are refused in one form, and left undecoded in the other. -/
theorem marker_left :
    decodeAfter [Rfc2459.asModule.id] Rfc2459.Extension.call.ty zeroExtension = none ∧
    decodeAfter [Rfc2459.asModule.id] Rfc2459.Extension.call.ty zeroIndefinite =
      some (.record (.ofList [.leaf (.oid [2, 5, 29, 15]), .leaf (.int 0), .leaf (.octets [0, 0])]), []) := by decide +kernel

end BerOpen
end Props
end Verif
