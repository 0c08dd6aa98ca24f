import Verif.Props.DictBounds

/-!
# Objects with typed contents on a stream

C81: a sender assembles objects with objects in their open type fields (C79), writes one after the other, and a reader of
messages (C72) gets the octets in pieces and decodes with open types.
-/

namespace Verif
namespace Props
namespace TypedStream

open Asn1 Py Stream Spec.OpenTypes
open Open (Reached ungoverned)
open OpenTypes (IsDict)
open Streams (Steady Begun)
open TypedWith (Fit Sound)

/-- `w` is an object of the class with typed contents, legal and not too long. -/
def Object (R : Asn1.Registry) (dict : List (Val × Ty)) (t : Ty) (w : OVal) : Prop :=
  ∃ v, Asn1.Typed R (Sound dict) false t v w ∧ t.valid v = true ∧ t.weight v < Codec.maxOctets

/-- What is read back one by one is delivered one by one. -/
theorem delivered {α : Type} {dec : Bytes → Option (α × Bytes)} (hs : Steady dec) {t : Ty} {P : OVal → α → Prop} : ∀ (ws : List OVal),
    (∀ w ∈ ws, ∃ b, oencode t w = some b ∧ ∀ rest, ∃ w', dec (b ++ rest) = some (w', rest) ∧ P w w') →
    ∃ bs : List Bytes, ws.map (oencode t) = bs.map some ∧ ∀ tail, dec tail = none → ∀ ps : List Bytes, ps.flatten = bs.flatten ++ tail →
      (listen dec ps).buffer = tail ∧ all2 P ws (listen dec ps).delivered := by
  intro ws h
  obtain ⟨ns, h1, h2, h3⟩ : ∃ ns : List (α × Bytes), ws.map (oencode t) = (ns.map Prod.snd).map some ∧
      all2 P ws (ns.map Prod.fst) ∧ ∀ m ∈ ns, ∀ s, dec (m.2 ++ s) = some (m.1, s) := by
    induction ws with
    | nil => exact ⟨[], rfl, trivial, by simp⟩
    | cons w ws ih =>
      obtain ⟨ns, h1, h2, h3⟩ := ih (fun x hx => h x (by simp [hx]))
      obtain ⟨b, e1, e2⟩ := h w (by simp)
      obtain ⟨w', e3, e4⟩ := e2 []
      refine ⟨(w', b) :: ns, by simp [h1, e1], ⟨e4, h2⟩, ?_⟩
      intro m hm
      rcases List.mem_cons.1 hm with rfl | hm
      · intro s
        have := hs.append _ _ _ s e3
        simpa using this
      · exact h3 m hm
  refine ⟨ns.map Prod.snd, h1, fun tail ht ps hp => ?_⟩
  rw [Streams.delivered_of hs ns h3 tail ht ps hp]
  exact ⟨rfl, h2⟩

theorem all2_eq {ws xs : List OVal} (h : all2 (fun w x => x = w) ws xs) : xs = ws := by
  induction ws generalizing xs with
  | nil => cases xs with
    | nil => rfl
    | cons => exact absurd h id
  | cons w ws ih => cases xs with
    | nil => exact absurd h id
    | cons x xs => rw [h.1, ih h.2]

/-- The beginning of a message is not taken for a message. -/
theorem unfinished (dict : List (Val × Ty)) (D : Asn1.Registry) (t : Ty) (tail : Bytes) (h : Begun decode tail) :
    Asn1.decodeWith ⟨dict, true⟩ D t tail = none := by
  have hn : decode t tail = none := by
    rcases h with rfl | ⟨u, s, v, h1, h2⟩
    · exact (Streams.der_steady t).nil
    · exact Codec.prefix_refused u t tail s v h2 h1
  cases hd : Asn1.decodeWith ⟨dict, true⟩ D t tail with
  | none => rfl
  | some p =>
    simp only [Asn1.decodeWith, Bool.or_true, if_true] at hd
    obtain ⟨v, hv, _⟩ := odecode_sound _ _ t tail p.1 p.2 hd
    rw [hn] at hv
    cases hv

/-- The same for BER. -/
theorem unfinished_ber (dict : List (Val × Ty)) (D : Asn1.Registry) (t : Ty) (tail : Bytes) (h : Begun berDecode tail) :
    Asn1.BerOpen.decodeWith ⟨dict, true⟩ D t tail = none := by
  have hn : berDecode t tail = none := by
    rcases h with rfl | ⟨u, s, v, h1, h2⟩
    · exact (Streams.ber_steady t).nil
    · exact BasicRules.prefix_refused u t tail s v h2 h1
  cases hd : Asn1.BerOpen.decodeWith ⟨dict, true⟩ D t tail with
  | none => rfl
  | some p =>
    simp only [Asn1.BerOpen.decodeWith, Bool.or_true, if_true] at hd
    obtain ⟨v, hv, _⟩ := Asn1.BerOpen.odecode_sound _ _ t tail p.1 p.2 hd
    rw [hn] at hv
    cases hv

section
variable (s : State) (hs : Reached s) (dict : List (Val × Ty)) (hi : IsDict dict) (hf : Fit dict) (R : Asn1.Registry)
  (hR : Resolution dict s.get R) (c : String × Ty) (hc : c ∈ Package.types) (hd : c.1 ∉ Package.defective)
  (hu : c.1 ∉ ungoverned)
include hs hi hf hR hc hd hu

/-- C81: the objects can all be written.  Whatever the pieces in which their octets arrive, followed by nothing or by the
beginning of a further message, all have been delivered, in order, each once, with the same objects in their open type fields
up to the order in SET OFs and empty collections in OPTIONAL components; the beginning is kept. -/
theorem objects_delivered (ws : List OVal) (hw : ∀ w ∈ ws, Object R dict c.2 w) :
    ∃ bs : List Bytes, ws.map (oencode c.2) = bs.map some ∧
      ∀ tail, Begun decode tail → ∀ ps : List Bytes, ps.flatten = bs.flatten ++ tail →
        (listen (Asn1.decodeWith ⟨dict, true⟩ s.get c.2) ps).buffer = tail ∧
        all2 (Alike false c.2) ws (listen (Asn1.decodeWith ⟨dict, true⟩ s.get c.2) ps).delivered := by
  obtain ⟨bs, h1, h2⟩ := delivered (DictBounds.steady s hs c hc dict (fun e he => (hf e he).2.2.1)) (t := c.2) (P := Alike false c.2) ws
    (fun w h => by
      obtain ⟨v, g1, g2, g3⟩ := hw w h
      exact TypedWith.roundtrip s hs dict hi hf R hR c hc hd hu v w g1 g2 g3)
  exact ⟨bs, h1, fun tail ht => h2 tail (unfinished dict s.get c.2 tail ht)⟩

/-- C81: exactly the objects that were sent, if nothing in them can be reordered or left out. -/
theorem objects_exact (ws : List OVal) (hw : ∀ w ∈ ws, Object R dict c.2 w) (hx : ∀ w ∈ ws, w.settled false c.2 = true) :
    ∃ bs : List Bytes, ws.map (oencode c.2) = bs.map some ∧
      ∀ tail, Begun decode tail → ∀ ps : List Bytes, ps.flatten = bs.flatten ++ tail →
        listen (Asn1.decodeWith ⟨dict, true⟩ s.get c.2) ps = ⟨ws, tail⟩ := by
  obtain ⟨bs, h1, h2⟩ := delivered (DictBounds.steady s hs c hc dict (fun e he => (hf e he).2.2.1)) (t := c.2)
    (P := fun w x => x = w) ws (fun w h => by
      obtain ⟨v, g1, g2, g3⟩ := hw w h
      obtain ⟨b, e1, e2⟩ := TypedWith.exact s hs dict hi hf R hR c hc hd hu v w g1 g2 g3 (hx w h)
      exact ⟨b, e1, fun rest => ⟨w, e2 rest, rfl⟩⟩)
  refine ⟨bs, h1, fun tail ht ps hp => ?_⟩
  obtain ⟨h3, h4⟩ := h2 tail (unfinished dict s.get c.2 tail ht) ps hp
  generalize listen (Asn1.decodeWith ⟨dict, true⟩ s.get c.2) ps = r at h3 h4
  obtain ⟨d, b⟩ := r
  have h5 := all2_eq h4
  simp only at h3 h5
  rw [h3, h5]

/-- C81: the same with a reader that uses the BER decoder. -/
theorem objects_delivered_ber (ws : List OVal) (hw : ∀ w ∈ ws, Object R dict c.2 w) :
    ∃ bs : List Bytes, ws.map (oencode c.2) = bs.map some ∧
      ∀ tail, Begun berDecode tail → ∀ ps : List Bytes, ps.flatten = bs.flatten ++ tail →
        (listen (Asn1.BerOpen.decodeWith ⟨dict, true⟩ s.get c.2) ps).buffer = tail ∧
        all2 (Alike false c.2) ws (listen (Asn1.BerOpen.decodeWith ⟨dict, true⟩ s.get c.2) ps).delivered := by
  obtain ⟨bs, h1, h2⟩ := delivered (BerOpenWith.steady s hs c hc dict (fun e he => (hf e he).2.2.1)) (t := c.2) (P := Alike false c.2) ws
    (fun w h => by
      obtain ⟨v, g1, g2, g3⟩ := hw w h
      exact BerOpenWith.typed s hs dict hi hf R hR c hc hd hu v w g1 g2 g3)
  exact ⟨bs, h1, fun tail ht => h2 tail (unfinished_ber dict s.get c.2 tail ht)⟩

/-- C81: exactly the objects that were sent, with the BER decoder too. -/
theorem objects_exact_ber (ws : List OVal) (hw : ∀ w ∈ ws, Object R dict c.2 w) (hx : ∀ w ∈ ws, w.settled false c.2 = true) :
    ∃ bs : List Bytes, ws.map (oencode c.2) = bs.map some ∧
      ∀ tail, Begun berDecode tail → ∀ ps : List Bytes, ps.flatten = bs.flatten ++ tail →
        listen (Asn1.BerOpen.decodeWith ⟨dict, true⟩ s.get c.2) ps = ⟨ws, tail⟩ := by
  obtain ⟨bs, h1, h2⟩ := delivered (BerOpenWith.steady s hs c hc dict (fun e he => (hf e he).2.2.1)) (t := c.2)
    (P := fun w x => x = w) ws (fun w h => by
      obtain ⟨v, g1, g2, g3⟩ := hw w h
      obtain ⟨b, e1, e2⟩ := BerOpenWith.typed s hs dict hi hf R hR c hc hd hu v w g1 g2 g3
      refine ⟨b, e1, fun rest => ?_⟩
      obtain ⟨w', e3, e4⟩ := e2 rest
      exact ⟨w', e3, e4.eq (hx w h)⟩)
  refine ⟨bs, h1, fun tail ht ps hp => ?_⟩
  obtain ⟨h3, h4⟩ := h2 tail (unfinished_ber dict s.get c.2 tail ht) ps hp
  generalize listen (Asn1.BerOpen.decodeWith ⟨dict, true⟩ s.get c.2) ps = r at h3 h4
  obtain ⟨d, b⟩ := r
  have h5 := all2_eq h4
  simp only at h3 h5
  rw [h3, h5]

/-- C81: a reader that does not open types gets the objects with the encodings of the contents as octets. -/
theorem objects_plain (ws : List OVal) (hw : ∀ w ∈ ws, Object R dict c.2 w) :
    ∃ bs : List Bytes, ws.map (oencode c.2) = bs.map some ∧
      ∀ tail, Begun decode tail → ∀ ps : List Bytes, ps.flatten = bs.flatten ++ tail →
        (listen (decode c.2) ps).buffer = tail ∧
        all2 (fun w v' => ∃ v, Asn1.Typed R (Sound dict) false c.2 v w ∧ c.2.same false v v') ws (listen (decode c.2) ps).delivered := by
  obtain ⟨bs, h1, h2⟩ := delivered (Streams.der_steady c.2) (t := c.2)
    (P := fun w v' => ∃ v, Asn1.Typed R (Sound dict) false c.2 v w ∧ c.2.same false v v') ws (fun w h => by
      obtain ⟨v, g1, g2, g3⟩ := hw w h
      obtain ⟨b, v', e1, e2, e3⟩ := TypedWith.plain_reader s hs dict hf R hR c hc hd hu v w g1 g2 g3
      exact ⟨b, e1, fun rest => ⟨v', e2 rest, v, g1, e3⟩⟩)
  refine ⟨bs, h1, fun tail ht => h2 tail ?_⟩
  rcases ht with rfl | ⟨u, s, v, h3, h4⟩
  · exact (Streams.der_steady c.2).nil
  · exact Codec.prefix_refused u c.2 tail s v h4 h3

/-- C81: no two lists of objects in which nothing can be reordered or left out make the same stream. -/
theorem objects_injective (ws ws' : List OVal) (hw : ∀ w ∈ ws, Object R dict c.2 w) (hw' : ∀ w ∈ ws', Object R dict c.2 w)
    (hx : ∀ w ∈ ws, w.settled false c.2 = true) (hx' : ∀ w ∈ ws', w.settled false c.2 = true) (bs bs' : List Bytes)
    (hb : ws.map (oencode c.2) = bs.map some) (hb' : ws'.map (oencode c.2) = bs'.map some) (he : bs.flatten = bs'.flatten) :
    ws = ws' := by
  have inj : ∀ a b : List Bytes, a.map some = b.map some → a = b := fun a b => by
    induction a generalizing b with
    | nil => cases b <;> simp
    | cons x a ih => cases b with
      | nil => simp
      | cons y b =>
        simp only [List.map_cons, List.cons.injEq, Option.some.injEq, and_imp]
        exact fun h1 h2 => ⟨h1, ih b h2⟩
  obtain ⟨cs, h1, h2⟩ := objects_exact s hs dict hi hf R hR c hc hd hu ws hw hx
  obtain ⟨cs', h3, h4⟩ := objects_exact s hs dict hi hf R hR c hc hd hu ws' hw' hx'
  have e1 := inj _ _ (h1.symm.trans hb)
  have e2 := inj _ _ (h3.symm.trans hb')
  subst e1 e2
  have h5 := h2 [] (.inl rfl) [cs.flatten] (by simp)
  have h6 := h4 [] (.inl rfl) [cs.flatten] (by simp [he])
  rw [h5] at h6
  exact (Reader.mk.inj h6).1
end

/-! ## Concrete case -/

/-- Two messages of C79 and the beginning of a third, in pieces of any size. -/
example : ∃ s b, Reached s ∧ oencode Open.algorithmIdentifier TypedWith.ownObject = some b ∧
    ∀ ps : List Bytes, ps.flatten = b ++ b ++ [0x30, 13, 6] →
      listen (Asn1.decodeWith ⟨TypedWith.own, true⟩ s.get Open.algorithmIdentifier) ps =
        ⟨[TypedWith.ownObject, TypedWith.ownObject], [0x30, 13, 6]⟩ := by
  obtain ⟨s, h1, h2⟩ := Open.example_reached
  have hi : IsDict TypedWith.own := by simp [IsDict, TypedWith.own]
  have ho : Object (Options.registry ⟨TypedWith.own, true⟩ s.get) TypedWith.own Open.algorithmIdentifier TypedWith.ownObject :=
    ⟨_, TypedWith.own_typed s h1, by decide +kernel, by decide +kernel⟩
  obtain ⟨bs, h3, h4⟩ := objects_exact s h2 TypedWith.own hi (TypedWith.fit_of_package TypedWith.own_package) _
    (OpenTypes.registry_iff hi true s.get) _ Codec.Examples.alg_mem (by decide) (by decide) [TypedWith.ownObject, TypedWith.ownObject]
    (by simp only [List.mem_cons, List.not_mem_nil, or_false, or_self, forall_eq]; exact ho)
    (by simp only [List.mem_cons, List.not_mem_nil, or_false, or_self, forall_eq]; decide +kernel)
  match bs, h3 with
  | [b, b'], h3 =>
    simp only [List.map_cons, List.map_nil, List.cons.injEq, and_true] at h3
    obtain ⟨e1, e2⟩ := h3
    have hb : b' = b := by
      rw [e1] at e2
      exact (Option.some.inj e2).symm
    subst hb
    refine ⟨s, b', h2, e1, fun ps hp => ?_⟩
    refine h4 [0x30, 13, 6] (.inr ⟨Open.algorithmIdentifier, [9, 0x60, 0x86, 0x48, 1, 0x65, 3, 4, 2, 1, 5, 0],
      .record (.ofList [.oid [2, 16, 840, 1, 101, 3, 4, 2, 1], .octets [5, 0]]), by simp, by decide +kernel⟩) ps ?_
    simp only [hp, List.flatten_cons, List.flatten_nil, List.append_nil]

end TypedStream
end Props
end Verif
