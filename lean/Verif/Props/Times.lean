import Verif.Asn1.Times
import Verif.Props.Codec

/-!
# C68: times with fractions of a second

pyasn1 writes a time without the zeros among the first four characters of its fraction, wherever they stand.  So a time
read from valid DER need not be written as it was read: this says for every type of the package which values can be
written, what is read back, when that is what was written, and which instants are changed and how.
-/

namespace Verif
namespace Props
namespace Times

open Asn1 Py

/-! ## The text of a time -/

/-- C68: what is written for a time with a fraction: the digits before the `.` as they are, the fraction without the zeros
among its first four digits, without `.` if nothing is left. -/
theorem fraction_written (d f : List Char) (hd : ∀ c ∈ d, c ≠ '.') :
    rewrittenTime (d ++ '.' :: (f ++ ['Z'])) =
      d ++ (if (keptFraction f ++ ['Z']).head? = some 'Z' then keptFraction f ++ ['Z'] else '.' :: (keptFraction f ++ ['Z'])) := by
  have h1 : (d ++ '.' :: (f ++ ['Z'])).dropWhile (· != '.') = '.' :: (f ++ ['Z']) := by
    rw [List.dropWhile_append_of_pos (by simpa using hd)]; simp
  have h2 : (d ++ '.' :: (f ++ ['Z'])).takeWhile (· != '.') = d := by
    rw [List.takeWhile_append_of_pos (by simpa using hd)]; simp
  simp only [rewrittenTime, h1, h2, keptFraction_eq, dropZeros_snoc 'Z' (by decide)]

/-- C68: a time without a fraction is written as it is. -/
theorem whole_seconds (s : List Char) (h : ∀ c ∈ s, c ≠ '.') : rewrittenTime s = s := by
  have : s.dropWhile (· != '.') = [] := dropWhile_all s (by simpa using h)
  simp only [rewrittenTime, this]

/-- C68: the instant that is written is never earlier. -/
theorem never_earlier (f : List Char) : fractionLe f (keptFraction f) := by
  rw [keptFraction_eq]
  exact dropZeros_le 4 f

/-- C68: it is the same instant exactly if none of the first four digits is a zero with another digit than zero after it. -/
theorem same_instant (f : List Char) (hd : ∀ c ∈ f, c.isDigit = true) : fractionEq f (keptFraction f) ↔ zerosLast 4 f := by
  rw [keptFraction_eq]
  exact dropZeros_same 4 f hd

/-- Half a second and the twentieth part of a second are written alike. -/
example : keptFraction ['0', '5'] = ['5'] ∧ ¬ fractionEq ['0', '5'] ['5'] ∧ fractionEq ['5', '0'] ['5'] := by
  simp [keptFraction, fractionEq, digitsValue]

/-- C68: a time with at most one `.` is written as it is exactly if there is no zero among the first four characters after
the `.` and something follows it. -/
theorem text_kept (s : List Char) (h : oneDot s = true) : rewrittenTime s = s ↔ plainFraction s = true := rewrittenTime_eq s h

/-! ## The package -/

theorem timely_table : Package.types.all (fun c => c.2.timely) = true := by decide +kernel

theorem timely_of_mem {c : String × Ty} (hc : c ∈ Package.types) : c.2.timely = true := List.all_eq_true.1 timely_table c hc

/-- C68: a value that is legal but for what stands in its times is encoded exactly if every time ends in `Z`, has no time
zone or comma, and what is written for it has the right length. -/
theorem accepted (c : String × Ty) (hc : c ∈ Package.types) (v : Val) (hv : c.2.validText v = true)
    (hw : c.2.weight v < Codec.maxOctets) (h1 : c.2.everyTime (fun _ s => oneDot s) v = true) :
    (∃ b, encode c.2 v = some b) ↔ c.2.everyTime writable v = true := by
  have ht := timely_of_mem hc
  simp only [encode, enc_rewritten c.2 false v ht h1, onlyIf_some]
  constructor
  · rintro ⟨b, h, -⟩
    exact h
  · intro h
    obtain ⟨b, hb, -⟩ := enc_total c.2.asText false (c.2.rewritten v) (Ty.rewritten_valid c.2 v ht hv)
      (Nat.lt_of_le_of_lt (by rw [Ty.asText_weight]; exact Ty.rewritten_weight c.2 v) hw)
    exact ⟨b, h, hb⟩

/-- C68: what is read back is the value with every time in it rewritten. -/
theorem read_back (c : String × Ty) (hc : c ∈ Package.types) (hd : c.1 ∉ Package.defective) (v : Val) (b : Bytes)
    (hv : c.2.validText v = true) (h1 : c.2.everyTime (fun _ s => oneDot s) v = true) (hb : encode c.2 v = some b) :
    ∃ w, c.2.same false (c.2.rewritten v) w ∧ ∀ rest, decode c.2 (b ++ rest) = some (w, rest) := by
  have ht := timely_of_mem hc
  rw [encode, enc_rewritten c.2 false v ht h1, onlyIf_some] at hb
  obtain ⟨x, w, h2, h3, h4, -⟩ := Codec.encode_isTLV c.2.asText (by rw [Ty.asText_wf]; exact Package.wf_of_mem hc hd)
    (c.2.rewritten v) b (Ty.rewritten_valid c.2 v ht hv) hb.2
  refine ⟨w, (Ty.asText_same _ _ _ _).1 h4, fun rest => ?_⟩
  rw [← Ty.asText_decode]
  simp only [decode, h2.2 rest, h3]

/-- C68: it is the value that was written exactly if every time in it is one that is written as it is: then the same is
read back, and otherwise not. -/
theorem kept_iff (c : String × Ty) (hc : c ∈ Package.types) (hd : c.1 ∉ Package.defective) (v w : Val) (b rest : Bytes)
    (hv : c.2.validText v = true) (h1 : c.2.everyTime (fun _ s => oneDot s) v = true) (hb : encode c.2 v = some b)
    (hr : decode c.2 (b ++ rest) = some (w, rest)) :
    c.2.same false v w ↔ c.2.everyTime (fun _ s => plainFraction s) v = true := by
  obtain ⟨w', h2, h3⟩ := read_back c hc hd v b hv h1 hb
  have hw : w = w' := by
    have := h3 rest
    rw [hr] at this
    simpa using this
  subst hw
  rw [← Ty.rewritten_eq c.2 v h1]
  constructor
  · intro h
    have ht := timely_of_mem hc
    exact (Ty.rewritten_chars c.2 v).2 ((Ty.same_chars _ _ _ _ ht h2).trans (Ty.same_chars _ _ _ _ ht h).symm)
  · intro h
    rwa [h] at h2

/-- C68: so octets that were read are written again only if every time in them is one that is written as it is. -/
theorem octets_kept (c : String × Ty) (hc : c ∈ Package.types) (hd : c.1 ∉ Package.defective) (v : Val) (b : Bytes)
    (hv : c.2.validText v = true) (h1 : c.2.everyTime (fun _ s => oneDot s) v = true) (hr : decode c.2 b = some (v, []))
    (hb : encode c.2 v = some b) : c.2.everyTime (fun _ s => plainFraction s) v = true := by
  have ht := timely_of_mem hc
  obtain ⟨w, h2, h3⟩ := read_back c hc hd v b hv h1 hb
  have hw : w = v := by
    have := h3 []
    rw [List.append_nil, hr] at this
    simpa using this.symm
  subst hw
  exact (Ty.rewritten_eq c.2 w h1).1 ((Ty.rewritten_chars c.2 w).2 (Ty.same_chars _ _ _ _ ht h2))

/-- C68: values that differ in their times only, and in them only in zeros that are not written, are written alike. -/
theorem written_alike (c : String × Ty) (hc : c ∈ Package.types) (v w : Val)
    (h1 : c.2.everyTime (fun _ s => oneDot s) v = true) (h2 : c.2.everyTime (fun _ s => oneDot s) w = true)
    (he : c.2.rewritten v = c.2.rewritten w) (h3 : c.2.everyTime writable v = true) (h4 : c.2.everyTime writable w = true) :
    encode c.2 v = encode c.2 w := by
  have ht := timely_of_mem hc
  rw [encode, encode, enc_rewritten c.2 false v ht h1, enc_rewritten c.2 false w ht h2, he, h3, h4]

/-! ## A time stamp -/

/-- TSTInfo of RFC 3161 (rfc3161.py:102-116). -/
def stampTy : Ty := Rfc3161.TSTInfo.call.ty

theorem stamp_mem : ("rfc3161.TSTInfo", stampTy) ∈ Package.types :=
  Package.mem_types (m := Rfc3161.asModule) (c := ("rfc3161.TSTInfo", Rfc3161.TSTInfo))
    (by simp [Package.modules]) (by simp [Rfc3161.asModule, Rfc3161.classes])

/-- Version 1, a policy, a hash, a serial number, and the time `s`. -/
def stamp (s : String) : Val := .record (.ofList [.int 1, .oid [1, 2, 3],
  .record (.ofList [.record (.ofList [.oid [1, 2, 3], .absent]), .octets [0xaa]]), .int 5, .str s.toList,
  .absent, .int 0, .absent, .absent, .absent])

/-- A time stamp in DER, generated at 23:59:59.05 on the last day of 2020. -/
def stampOctets : Bytes := [0x30, 41, 2, 1, 1, 6, 2, 0x2a, 3, 0x30, 9, 0x30, 4, 6, 2, 0x2a, 3, 4, 1, 0xaa, 2, 1, 5, 0x18, 18,
  0x32, 0x30, 0x32, 0x30, 0x31, 0x32, 0x33, 0x31, 0x32, 0x33, 0x35, 0x39, 0x35, 0x39, 0x2e, 0x30, 0x35, 0x5a]

/-- The same, generated at 23:59:59.5. -/
def laterOctets : Bytes := [0x30, 40, 2, 1, 1, 6, 2, 0x2a, 3, 0x30, 9, 0x30, 4, 6, 2, 0x2a, 3, 4, 1, 0xaa, 2, 1, 5, 0x18, 17,
  0x32, 0x30, 0x32, 0x30, 0x31, 0x32, 0x33, 0x31, 0x32, 0x33, 0x35, 0x39, 0x35, 0x39, 0x2e, 0x35, 0x5a]

/-- C68: a time stamp is read as it is and written as one of nearly half a second later. -/
theorem stamp_changed : decode stampTy stampOctets = some (stamp "20201231235959.05Z", []) ∧
    encode stampTy (stamp "20201231235959.05Z") = some laterOctets ∧
    decode stampTy laterOctets = some (stamp "20201231235959.5Z", []) := by
  decide +kernel

/-- A value that meets the hypotheses of `accepted`, `read_back` and `kept_iff`, and is not written as it is. -/
example : stampTy.validText (stamp "20201231235959.05Z") = true ∧
    stampTy.everyTime (fun _ s => oneDot s) (stamp "20201231235959.05Z") = true ∧
    stampTy.everyTime writable (stamp "20201231235959.05Z") = true ∧
    stampTy.everyTime (fun _ s => plainFraction s) (stamp "20201231235959.05Z") = false ∧
    stampTy.everyTime (fun _ s => plainFraction s) (stamp "20201231235959.25Z") = true ∧
    "rfc3161.TSTInfo" ∉ Package.defective := by decide +kernel

/-- Milliseconds are the most that can be written, unless there are zeros among the digits. -/
example : writable .generalizedTime "20201231235959.123Z".toList = true ∧
    writable .generalizedTime "20201231235959.1234Z".toList = false ∧
    writable .generalizedTime "20201231235959.1034Z".toList = true := by decide +kernel

end Times
end Props
end Verif
