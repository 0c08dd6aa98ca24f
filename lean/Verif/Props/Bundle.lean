import Verif.Spec.Bundle
import Verif.Props.Pem
import Verif.Props.Codec

/-!
# C75: files with many objects

Objects of several classes written into one file come back, in order, each with the class of its own marker; a file cut
within a block gives the objects before, and no error.
-/

namespace Verif
namespace Props
namespace Bundle

open Asn1 Spec Verif.Bundle
open Verif.Pem hiding Bytes

/-- Markers that can be told apart: lines without white space around them that hold a dash, no two start markers and no
two stop markers the same. -/
structure Distinct (kinds : List Kind) : Prop where
  good : ∀ k ∈ kinds, Pem.GoodMarker k.start ∧ Pem.GoodMarker k.stop
  starts : (kinds.map (·.start)).Nodup
  stops : (kinds.map (·.stop)).Nodup

/-- A line that does not start a block. -/
def Note (kinds : List Kind) (l : Text) : Prop := IsLine l ∧ ∀ k ∈ kinds, strip l ≠ k.start

/-- An object that can be written: of a class of the package that is not one of the defective ones, with a legal value
short enough, notes that start no block, and lines of at least four digits. -/
structure Writable (kinds : List Kind) (it : Item) : Prop where
  kind : ∃ k, kinds[it.kind]? = some k ∧
    (∃ name, (name, k.ty) ∈ Package.types ∧ name ∉ Package.defective) ∧
    k.ty.valid it.value = true ∧ k.ty.weight it.value < Codec.maxOctets
  notes : ∀ l ∈ it.notes, Note kinds l
  quads : it.quads ≠ 0

theorem starts_eq (kinds : List Kind) : (markers kinds).map (·.1) = kinds.map (·.start) := by
  simp [markers]

theorem stops_eq (kinds : List Kind) : (markers kinds).map (·.2) = kinds.map (·.stop) := by
  simp [markers]

/-- One block, whatever follows it. -/
theorem read_one (kinds : List Kind) (hd : Distinct kinds) (it : Item) (k : Kind) (b : Bytes) (post : Text)
    (hk : kinds[it.kind]? = some k) (hn : ∀ l ∈ it.notes, Note kinds l) (hq : it.quads ≠ 0) :
    readPemBlocksFromFile (unlines (linesOf k it b) ++ post) (markers kinds) =
      { idx := it.kind, substrate := .bytes b, rest := post } := by
  have hm := List.mem_of_getElem? hk
  obtain ⟨gs, ge⟩ := hd.good k hm
  have hw := Pem.wrap_body (4 * it.quads) b k.stop ge
  have := Pem.first_block_distinct (markers kinds) it.notes (wrap (4 * it.quads) (base64 b)) k.start k.stop post it.kind
    (by rw [starts_eq]; exact hd.starts) (by rw [stops_eq]; exact hd.stops)
    (by
      intro l hl
      simp only [List.mem_append, List.mem_cons, List.not_mem_nil, or_false] at hl
      rcases hl with (hl | rfl | hl) | rfl
      · exact (hn l hl).1
      · exact gs.line
      · exact (hw l hl).1
      · exact ge.line)
    (by
      intro l hl m hmem
      simp only [markers, List.mem_map] at hmem
      obtain ⟨k', hk', rfl⟩ := hmem
      exact (hn l hl).2 k' hk')
    (by rw [gs.stripped, ge.stripped]; simp [markers, hk])
    (by intro l hl; rw [ge.stripped]; exact (hw l hl).2.2)
  rw [linesOf, this, Pem.bodyResult_wrap _ _ _ ge, dumped, dump_wrap it.quads hq b]

/-- The objects come back, and then the reader does what it does on the rest of the file. -/
theorem bundle_then (kinds : List Kind) (hd : Distinct kinds) : ∀ (its : List Item) (post : Text) (n : Nat),
    (∀ it ∈ its, Writable kinds it) →
    ∃ t rs, text kinds its = some t ∧ back kinds its rs ∧
      readAll kinds (its.length + n) (t ++ post) = (readAll kinds n post).map (fun p => (rs ++ p.1, p.2))
  | [], post, n, _ => ⟨[], [], rfl, trivial, by simp⟩
  | it :: its, post, n, h => by
    obtain ⟨t, rs, h1, h2, h3⟩ := bundle_then kinds hd its post n (fun x hx => h x (by simp [hx]))
    obtain ⟨⟨k, hk, ⟨name, hc, hdef⟩, hv, hs⟩, hn, hq⟩ := h it (by simp)
    obtain ⟨b, w, e1, e2, e3⟩ := Codec.roundtrip (name, k.ty) hc hdef it.value hv hs
    have hne : b ≠ [] := Codec.encode_nonempty (name, k.ty) hc hdef it.value b hv e1
    have hdec : decode k.ty b = some (w, []) := by simpa using e3 []
    refine ⟨unlines (linesOf k it b) ++ t, (it.kind, w) :: rs, ?_, ⟨rfl, ⟨k, hk, e2⟩, h2⟩, ?_⟩
    · have e1' : encode k.ty it.value = some b := e1
      simp [text, hk, e1', h1]
    · have hr := read_one kinds hd it k b (t ++ post) hk hn hq
      have hl : (it :: its).length + n = (its.length + n) + 1 := by simp; omega
      obtain ⟨x, xs, rfl⟩ := List.exists_cons_of_ne_nil hne
      rw [hl, List.append_assoc]
      simp only [readAll, hr, Int.toNat_natCast, hk, hdec, h3, Option.map_map]
      rfl

theorem rest_done (kinds : List Kind) (n : Nat) (file : Text)
    (h : (readPemBlocksFromFile file (markers kinds)).substrate = .emptyStr) :
    readAll kinds (n + 1) file = some ([], .done) := by
  simp only [readAll, h]

/-- Nothing but notes is left: there is no block. -/
theorem after_notes (kinds : List Kind) (notes : List Text) (hn : ∀ l ∈ notes, Note kinds l) :
    (readPemBlocksFromFile (unlines notes) (markers kinds)).substrate = .emptyStr := by
  have hno := Pem.no_block (markers kinds) notes [] (fun l hl => (hn l hl).1) (by simp [IsLine])
    (by
      intro l hl hm
      unfold Pem.IsMarker at hm
      rw [starts_eq] at hm
      obtain ⟨k, hk, e⟩ := List.mem_map.1 hm
      exact (hn l hl).2 k hk e.symm)
    (by simp)
  rw [List.append_nil] at hno
  rw [hno]

/-- A block without its stop marker is no block. -/
theorem after_cut (kinds : List Kind) (hd : Distinct kinds)
    (notes : List Text) (hn : ∀ l ∈ notes, Note kinds l) (k : Kind) (hk : k ∈ kinds)
    (body : List Text) (tail : Text) (hb : ∀ l ∈ body ++ [tail], IsLine l ∧ strip l ≠ k.stop) :
    (readPemBlocksFromFile (unlines (notes ++ k.start :: body) ++ tail) (markers kinds)).substrate = .emptyStr := by
  obtain ⟨i, hi⟩ := List.mem_iff_getElem?.1 hk
  obtain ⟨gs, ge⟩ := hd.good k hk
  have hstop : (kinds.map (·.stop))[i]? = some k.stop := by simp [hi]
  have hstart : (kinds.map (·.start))[i]? = some k.start := by simp [hi]
  have hlast : ∀ l : Text, IsLastAt ((markers kinds).map (·.2)) (strip l) i → strip l = k.stop := by
    intro l hl
    rw [stops_eq, Pem.isLastAt_of_nodup _ hd.stops, hstop] at hl
    exact (Option.some.inj hl).symm
  have hun := Pem.unterminated (markers kinds) notes body k.start tail i
    (by
      intro l hl
      simp only [List.mem_append, List.mem_cons] at hl
      rcases hl with hl | rfl | hl
      · exact (hn l hl).1
      · exact gs.line
      · exact (hb l (by simp [hl])).1)
    (hb tail (by simp)).1
    (by
      intro l hl hm
      unfold Pem.IsMarker at hm
      rw [starts_eq] at hm
      obtain ⟨k', hk', e⟩ := List.mem_map.1 hm
      exact (hn l hl).2 k' hk' e.symm)
    (by rw [starts_eq, Pem.isLastAt_of_nodup _ hd.starts, gs.stripped]; exact hstart)
    (fun l hl hm => (hb l (by simp [hl])).2 (hlast l hm))
    (fun _ hm => (hb tail (by simp)).2 (hlast tail hm))
  rw [hun]

/-- C75: every object written into the file comes back, in order, with the class of its own marker and an equal value;
nothing else does; and the reader ends normally. -/
theorem bundle_back (kinds : List Kind) (hd : Distinct kinds) (its : List Item) (h : ∀ it ∈ its, Writable kinds it)
    (notes : List Text) (hn : ∀ l ∈ notes, Note kinds l) (n : Nat) (hlen : its.length < n) :
    ∃ t rs, text kinds its = some t ∧ back kinds its rs ∧
      readAll kinds n (t ++ unlines notes) = some (rs, .done) := by
  obtain ⟨m, rfl⟩ : ∃ m, n = its.length + (m + 1) := ⟨n - its.length - 1, by omega⟩
  obtain ⟨t, rs, h1, h2, h3⟩ := bundle_then kinds hd its (unlines notes) (m + 1) h
  refine ⟨t, rs, h1, h2, ?_⟩
  rw [h3, rest_done kinds m _ (after_notes kinds notes hn)]
  simp

/-- C75: if the file is cut within a block, or a stop marker is damaged, the objects before come back and the reader ends
normally: the loss is not noticed. -/
theorem bundle_cut (kinds : List Kind) (hd : Distinct kinds) (its : List Item) (h : ∀ it ∈ its, Writable kinds it)
    (notes : List Text) (hn : ∀ l ∈ notes, Note kinds l) (k : Kind) (hk : k ∈ kinds)
    (body : List Text) (tail : Text) (hb : ∀ l ∈ body ++ [tail], IsLine l ∧ strip l ≠ k.stop)
    (n : Nat) (hlen : its.length < n) :
    ∃ t rs, text kinds its = some t ∧ back kinds its rs ∧
      readAll kinds n (t ++ (unlines (notes ++ k.start :: body) ++ tail)) = some (rs, .done) := by
  obtain ⟨m, rfl⟩ : ∃ m, n = its.length + (m + 1) := ⟨n - its.length - 1, by omega⟩
  obtain ⟨t, rs, h1, h2, h3⟩ := bundle_then kinds hd its (unlines (notes ++ k.start :: body) ++ tail) (m + 1) h
  refine ⟨t, rs, h1, h2, ?_⟩
  rw [h3, rest_done kinds m _ (after_cut kinds hd notes hn k hk body tail hb)]
  simp

/-- C75: if after some objects there is a block with octets that the class of its marker does not read, whatever they are, the
objects before come back and the reader ends with the decoder's error; what follows is not read. -/
theorem bundle_bad (kinds : List Kind) (hd : Distinct kinds) (its : List Item) (h : ∀ it ∈ its, Writable kinds it)
    (bad : Item) (k : Kind) (b : Bytes) (hk : kinds[bad.kind]? = some k) (hn : ∀ l ∈ bad.notes, Note kinds l)
    (hq : bad.quads ≠ 0) (hb : b ≠ []) (hdec : decode k.ty b = none) (post : Text) (n : Nat) (hlen : its.length < n) :
    ∃ t rs, text kinds its = some t ∧ back kinds its rs ∧
      readAll kinds n (t ++ (unlines (linesOf k bad b) ++ post)) = some (rs, .badDer) := by
  obtain ⟨m, rfl⟩ : ∃ m, n = its.length + (m + 1) := ⟨n - its.length - 1, by omega⟩
  obtain ⟨t, rs, h1, h2, h3⟩ := bundle_then kinds hd its (unlines (linesOf k bad b) ++ post) (m + 1) h
  refine ⟨t, rs, h1, h2, ?_⟩
  have hr := read_one kinds hd bad k b post hk hn hq
  obtain ⟨x, xs, rfl⟩ := List.exists_cons_of_ne_nil hb
  rw [h3]
  simp only [readAll, hr, Int.toNat_natCast, hk, hdec, Option.map_some, List.append_nil]

/-- C75: a block without contents ends the reading normally: the objects after it are lost, and this is not noticed. -/
theorem bundle_empty (kinds : List Kind) (hd : Distinct kinds) (its : List Item) (h : ∀ it ∈ its, Writable kinds it)
    (notes : List Text) (hn : ∀ l ∈ notes, Note kinds l) (k : Kind) (hk : k ∈ kinds) (post : Text) (n : Nat)
    (hlen : its.length < n) :
    ∃ t rs, text kinds its = some t ∧ back kinds its rs ∧
      readAll kinds n (t ++ (unlines (notes ++ [k.start, k.stop]) ++ post)) = some (rs, .done) := by
  obtain ⟨m, rfl⟩ : ∃ m, n = its.length + (m + 1) := ⟨n - its.length - 1, by omega⟩
  obtain ⟨t, rs, h1, h2, h3⟩ := bundle_then kinds hd its (unlines (notes ++ [k.start, k.stop]) ++ post) (m + 1) h
  refine ⟨t, rs, h1, h2, ?_⟩
  obtain ⟨i, hi⟩ := List.mem_iff_getElem?.1 hk
  have hr := read_one kinds hd ⟨i, .octets [], notes, 1⟩ k [] post hi hn (by simp)
  have hw : wrap (4 * 1) (base64 []) = [] := by decide +kernel
  simp only [linesOf, hw, List.append_assoc, List.cons_append, List.nil_append] at hr
  rw [h3]
  simp only [readAll, hr, Option.map_some, List.append_nil]

theorem bodyResult_raised : ∀ (body : List Text), (∃ l ∈ body, readBase64fromText (strip l) = none) →
    Pem.bodyResult body = .raised := by
  intro body h
  have hm : body.mapM (fun l => b64decode (encodeUtf8 (strip l))) = none := by
    induction body with
    | nil => obtain ⟨l, hl, _⟩ := h; cases hl
    | cons x body ih =>
      rw [List.mapM_cons]
      obtain ⟨l, hl, e⟩ := h
      rcases List.mem_cons.1 hl with rfl | hl
      · have e' : b64decode (encodeUtf8 (strip l)) = none := e
        rw [e']
        rfl
      · rw [ih ⟨l, hl, e⟩]
        cases b64decode (encodeUtf8 (strip x)) <;> rfl
  simp only [Pem.bodyResult, hm]

/-- C75: if after some objects there is a block with a line that is not base64 by itself, the objects before come back and the
reader ends with the exception of the base64 decoder, whatever the other lines are. -/
theorem bundle_garbled (kinds : List Kind) (hd : Distinct kinds) (its : List Item) (h : ∀ it ∈ its, Writable kinds it)
    (notes : List Text) (hn : ∀ l ∈ notes, Note kinds l) (k : Kind) (hk : k ∈ kinds) (body : List Text)
    (hb : ∀ l ∈ body, IsLine l ∧ strip l ≠ k.stop) (hg : ∃ l ∈ body, readBase64fromText (strip l) = none)
    (post : Text) (n : Nat) (hlen : its.length < n) :
    ∃ t rs, text kinds its = some t ∧ back kinds its rs ∧
      readAll kinds n (t ++ (unlines (notes ++ k.start :: body ++ [k.stop]) ++ post)) = some (rs, .badBase64) := by
  obtain ⟨m, rfl⟩ : ∃ m, n = its.length + (m + 1) := ⟨n - its.length - 1, by omega⟩
  obtain ⟨t, rs, h1, h2, h3⟩ := bundle_then kinds hd its (unlines (notes ++ k.start :: body ++ [k.stop]) ++ post) (m + 1) h
  refine ⟨t, rs, h1, h2, ?_⟩
  obtain ⟨i, hi⟩ := List.mem_iff_getElem?.1 hk
  obtain ⟨gs, ge⟩ := hd.good k hk
  have hr := Pem.first_block_distinct (markers kinds) notes body k.start k.stop post i
    (by rw [starts_eq]; exact hd.starts) (by rw [stops_eq]; exact hd.stops)
    (by
      intro l hl
      simp only [List.mem_append, List.mem_cons, List.not_mem_nil, or_false] at hl
      rcases hl with (hl | rfl | hl) | rfl
      · exact (hn l hl).1
      · exact gs.line
      · exact (hb l hl).1
      · exact ge.line)
    (by
      intro l hl m hmem
      simp only [markers, List.mem_map] at hmem
      obtain ⟨k', hk', rfl⟩ := hmem
      exact (hn l hl).2 k' hk')
    (by rw [gs.stripped, ge.stripped]; simp [markers, hi])
    (by intro l hl; rw [ge.stripped]; exact (hb l hl).2)
  rw [bodyResult_raised body hg] at hr
  rw [h3]
  simp only [readAll, hr, Option.map_some, List.append_nil]

/-! ## The hypotheses are met -/

namespace Examples

/-- Names and algorithms, as of rfc5280, in one file. -/
def kinds : List Kind := [
  ⟨"-----BEGIN NAME-----".toList, "-----END NAME-----".toList, Rfc5280.Name.call.ty⟩,
  ⟨"-----BEGIN ALGORITHM-----".toList, "-----END ALGORITHM-----".toList, Rfc5280.AlgorithmIdentifier.call.ty⟩]

theorem distinct : Distinct kinds where
  good := by
    intro k hk
    simp only [kinds, List.mem_cons, List.not_mem_nil, or_false] at hk
    rcases hk with rfl | rfl <;>
      exact ⟨⟨by decide, by decide +kernel, by decide⟩, ⟨by decide, by decide +kernel, by decide⟩⟩
  starts := by decide +kernel
  stops := by decide +kernel

/-- An algorithm, a name and the algorithm again, with notes, one of them a stop marker. -/
def items : List Item := [
  ⟨1, Codec.Examples.alg, ["friendlyName: a".toList, "-----END ALGORITHM-----".toList], 16⟩,
  ⟨0, Codec.Examples.name, [], 1⟩,
  ⟨1, Codec.Examples.alg, [[]], 3⟩]

theorem note (ls : List Text)
    (h : (ls.all (fun l => decide (IsLine l) && kinds.all (fun k => strip l != k.start))) = true) :
    ∀ l ∈ ls, Note kinds l := by
  intro l hl
  have := List.all_eq_true.1 h l hl
  simp only [Bool.and_eq_true, decide_eq_true_eq, List.all_eq_true, bne_iff_ne] at this
  exact this

theorem writable : ∀ it ∈ items, Writable kinds it := by
  intro it hit
  simp only [items, List.mem_cons, List.not_mem_nil, or_false] at hit
  rcases hit with rfl | rfl | rfl
  · exact ⟨⟨_, rfl, ⟨_, Codec.Examples.alg_mem, by decide⟩, by decide +kernel, by decide +kernel⟩,
      note _ (by decide +kernel), by decide⟩
  · exact ⟨⟨_, rfl, ⟨_, Codec.Examples.name_mem, by decide⟩, by decide +kernel, by decide +kernel⟩,
      note _ (by decide +kernel), by decide⟩
  · exact ⟨⟨_, rfl, ⟨_, Codec.Examples.alg_mem, by decide⟩, by decide +kernel, by decide +kernel⟩,
      note _ (by decide +kernel), by decide⟩

example := bundle_back kinds distinct items writable ["the end".toList] (note _ (by decide +kernel)) 4 (by decide)

/-- The third object is cut short. -/
example := bundle_cut kinds distinct (items.take 2) (fun it h => writable it (List.mem_of_mem_take h)) [] (by simp)
  ⟨"-----BEGIN ALGORITHM-----".toList, "-----END ALGORITHM-----".toList, Rfc5280.AlgorithmIdentifier.call.ty⟩
  (by simp [kinds]) ["MA0GCSqG".toList] "SIb3".toList
  (by intro l hl; simp only [List.cons_append, List.nil_append, List.mem_cons, List.not_mem_nil, or_false] at hl
      rcases hl with rfl | rfl <;> exact ⟨by decide, by decide +kernel⟩) 3 (by decide)

/-- The third object is an algorithm between the markers of names. -/
example := bundle_bad kinds distinct (items.take 2) (fun it h => writable it (List.mem_of_mem_take h))
  ⟨0, Codec.Examples.alg, [], 16⟩ ⟨"-----BEGIN NAME-----".toList, "-----END NAME-----".toList, Rfc5280.Name.call.ty⟩
  [0x30, 13, 6, 9, 0x60, 0x86, 0x48, 1, 0x65, 3, 4, 2, 1, 5, 0] rfl (by simp) (by decide) (by simp) (by decide +kernel)
  "anything".toList 3 (by decide)

/-- A block without contents, and then all objects again. -/
example (t : Text) := bundle_empty kinds distinct items writable [] (by simp)
  ⟨"-----BEGIN NAME-----".toList, "-----END NAME-----".toList, Rfc5280.Name.call.ty⟩ (by simp [kinds]) t 4 (by decide)

/-- Lines of six digits. -/
example := bundle_garbled kinds distinct items writable [] (by simp)
  ⟨"-----BEGIN NAME-----".toList, "-----END NAME-----".toList, Rfc5280.Name.call.ty⟩ (by simp [kinds])
  ["MA0GCS".toList, "qGSIb3".toList]
  (by intro l hl; simp only [List.mem_cons, List.not_mem_nil, or_false] at hl
      rcases hl with rfl | rfl <;> exact ⟨by decide, by decide +kernel⟩)
  ⟨_, by simp, (by decide +kernel : readBase64fromText (strip "MA0GCS".toList) = none)⟩ [] 4 (by decide)

end Examples

end Bundle
end Props
end Verif
