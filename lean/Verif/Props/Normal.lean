import Verif.Asn1.Normal
import Verif.Asn1.BasicAdmits
import Verif.Props.Times
import Verif.Props.Basic

/-!
# C78: reading and writing again

A program decodes what it is given, encodes the result, and somebody decodes that: `encode(decode(b))` as a way to bring
octets into a standard form, and to turn BER into DER.
-/

namespace Verif
namespace Props
namespace Normal

open Asn1

theorem anyFree_table : Package.types.all (fun c => c.2.anyFree) = true := by decide +kernel

theorem anyFree_of_mem {c : String × Ty} (hc : c ∈ Package.types) : c.2.anyFree = true := List.all_eq_true.1 anyFree_table c hc

/-- C78: what was read, from any octets, and can be written is legal, whatever stands in its times. -/
theorem written_legal (c : String × Ty) (hc : c ∈ Package.types) (b rest b' : Bytes) (v : Val)
    (hr : decode c.2 b = some (v, rest)) (hb : encode c.2 v = some b') : c.2.validText v = true :=
  text_of_admits c.2 false v b' (anyFree_of_mem hc) (Codec.decoded_admitted c.2 b rest v hr) (decode_single hr) hb

/-- C78: it is read again, the times as C68 says. -/
theorem reread (c : String × Ty) (hc : c ∈ Package.types) (hd : c.1 ∉ Package.defective) (b rest b' : Bytes) (v : Val)
    (hr : decode c.2 b = some (v, rest)) (h1 : c.2.everyTime (fun _ s => oneDot s) v = true) (hb : encode c.2 v = some b') :
    ∃ w, c.2.same false (c.2.rewritten v) w ∧ ∀ r, decode c.2 (b' ++ r) = some (w, r) :=
  Times.read_back c hc hd v b' (written_legal c hc b rest b' v hr hb) h1 hb

theorem legal {c : String × Ty} (hc : c ∈ Package.types) {v : Val} {b' : Bytes} (hv : c.2.validText v = true)
    (h1 : c.2.everyTime (fun _ s => plainFraction s) v = true) (hb : encode c.2 v = some b') : c.2.valid v = true := by
  have h2 := everyTime_and _ _ (fun _ s => oneDot s) (fun _ s h _ => plainFraction_oneDot s h) c.2 v h1 h1
  rw [encode, enc_rewritten c.2 false v (Times.timely_of_mem hc) h2, onlyIf_some] at hb
  refine valid_of_text c.2 v hv (everyTime_and _ _ _ (fun k s h h' => ?_) c.2 v hb.1 h1)
  simp only [asWritten, h, h', plainFraction_oneDot s h', Bool.and_self]

theorem once_of_legal {c : String × Ty} (hc : c ∈ Package.types) (hd : c.1 ∉ Package.defective) {v : Val} {b' : Bytes}
    (hv : c.2.valid v = true) (hb : encode c.2 v = some b') :
    ∃ w, c.2.same false v w ∧ (∀ r, decode c.2 (b' ++ r) = some (w, r)) ∧ encode c.2 w = some b' := by
  obtain ⟨w, h1, -, h3⟩ := Codec.reencode c hc hd v b' hv hb
  obtain ⟨x, w', h4, h5, h6, -⟩ := Codec.encode_isTLV c.2 (Package.wf_of_mem hc hd) v b' hv hb
  have h7 : ∀ r, decode c.2 (b' ++ r) = some (w', r) := fun r => by simp only [decode, h4.2, h5]
  have : w' = w := by
    have h := h7 []
    rw [List.append_nil, h1] at h
    exact (Prod.mk.inj (Option.some.inj h)).1.symm
  exact ⟨w, this ▸ h6, this ▸ h7, h3⟩

/-- C78: once is enough: octets that are accepted and can be written again become octets that stay as they are when they
are read and written, and stand for the same value. -/
theorem once (c : String × Ty) (hc : c ∈ Package.types) (hd : c.1 ∉ Package.defective) (b rest b' : Bytes) (v : Val)
    (hr : decode c.2 b = some (v, rest)) (h1 : c.2.everyTime (fun _ s => plainFraction s) v = true) (hb : encode c.2 v = some b') :
    ∃ w, c.2.same false v w ∧ (∀ r, decode c.2 (b' ++ r) = some (w, r)) ∧ encode c.2 w = some b' :=
  once_of_legal hc hd (legal hc (written_legal c hc b rest b' v hr hb) h1 hb) hb

/-- C78: BER becomes DER: whatever the BER decoder accepts, with indefinite lengths and strings in pieces, is written as
octets the DER decoder reads as the same value.  (The model has no elements of indefinite length for ANY.) -/
theorem transcoded (c : String × Ty) (hc : c ∈ Package.types) (hd : c.1 ∉ Package.defective) (b rest b' : Bytes) (v : Val)
    (hr : berDecode c.2 b = some (v, rest))
    (h1 : c.2.everyTime (fun _ s => plainFraction s) v = true) (hb : encode c.2 v = some b') :
    ∃ w, c.2.same false v w ∧ (∀ r, decode c.2 (b' ++ r) = some (w, r)) ∧ encode c.2 w = some b' :=
  once_of_legal hc hd (legal hc (text_of_admits c.2 false v b' (anyFree_of_mem hc) (berDecode_admits c.2 b rest v hr)
    (berDecode_single hr) hb) h1 hb) hb

/-- C78: what was read from BER and is written as BER is read as exactly the same value, times and the order in SET OFs
included. -/
theorem ber_again (c : String × Ty) (hc : c ∈ Package.types) (hd : c.1 ∉ Package.defective) (b rest b' : Bytes) (v : Val)
    (hr : berDecode c.2 b = some (v, rest)) (hb : berEncode c.2 v = some b') :
    ∀ r, berDecode c.2 (b' ++ r) = some (v, r) := by
  have hv : c.2.validText v = true :=
    btext_of_admits c.2 v b' (anyFree_of_mem hc) (berDecode_admits c.2 b rest v hr) (berDecode_single hr) hb
  exact fun r => BasicRules.ber_read c hc hd v b' r (BasicRules.written c hc hd v hv b' hb)

/-- C78: what was read can be written exactly if it is legal, with times that can be written: neither the decoder nor the
encoder raises for another reason. -/
theorem can_be_written (c : String × Ty) (hc : c ∈ Package.types) (b rest : Bytes) (v : Val)
    (hr : decode c.2 b = some (v, rest)) (hz : c.2.weight v < Codec.maxOctets)
    (h1 : c.2.everyTime (fun _ s => oneDot s) v = true) :
    (∃ b', encode c.2 v = some b') ↔ c.2.validText v = true ∧ c.2.everyTime writable v = true := by
  constructor
  · rintro ⟨b', hb⟩
    have hv := written_legal c hc b rest b' v hr hb
    exact ⟨hv, (Times.accepted c hc v hv hz h1).1 ⟨b', hb⟩⟩
  · rintro ⟨hv, h2⟩
    exact (Times.accepted c hc v hv hz h1).2 h2

/-! ## Concrete cases -/

def algorithmIdentifier : Ty := Rfc5280.AlgorithmIdentifier.call.ty

/-- An AlgorithmIdentifier with lengths in the long form, then in the short form. -/
def lengthy : Bytes := [0x30, 0x81, 14, 6, 0x81, 9, 0x60, 0x86, 0x48, 1, 0x65, 3, 4, 2, 1, 5, 0]
def brief : Bytes := [0x30, 13, 6, 9, 0x60, 0x86, 0x48, 1, 0x65, 3, 4, 2, 1, 5, 0]

def sha256 : Val := .record (.ofList [.oid [2, 16, 840, 1, 101, 3, 4, 2, 1], .octets [5, 0]])

/-- C78's hypotheses are met by octets that are not DER. -/
example : decode algorithmIdentifier lengthy = some (sha256, []) ∧
    algorithmIdentifier.everyTime (fun _ s => plainFraction s) sha256 = true ∧
    encode algorithmIdentifier sha256 = some brief := by decide +kernel

/-- The same with indefinite length, for `transcoded`. -/
example : berDecode algorithmIdentifier [0x30, 0x80, 6, 9, 0x60, 0x86, 0x48, 1, 0x65, 3, 4, 2, 1, 5, 0, 0, 0] = some (sha256, []) := by decide +kernel

/-- A time is not in its final form after one pass: of the zeros in its fraction only the first four are looked at. -/
theorem time_twice : ∃ v₁ v₂ b₁ b₂, encode Rfc5652.SigningTime.call.ty v₁ = some b₁ ∧
    decode Rfc5652.SigningTime.call.ty b₁ = some (v₂, []) ∧ encode Rfc5652.SigningTime.call.ty v₂ = some b₂ ∧ b₁ ≠ b₂ := by
  refine ⟨.alt 1 (.str "20200101000000.000001Z".toList), .alt 1 (.str "20200101000000.01Z".toList),
    [24, 18] ++ ("20200101000000.01Z".toList.map (fun c => UInt8.ofNat c.toNat)),
    [24, 17] ++ ("20200101000000.1Z".toList.map (fun c => UInt8.ofNat c.toNat)), ?_⟩
  decide +kernel

end Normal
end Props
end Verif
