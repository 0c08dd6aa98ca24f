import Verif.Std.Checks
import Verif.Asn1.Relax
import Verif.Props.Der

/-!
# C50, C51: the classes and constants are those of the standards

`Std.standards` sets modules of the package beside the ASN.1 of the standards they implement (tools/std,
written down from the standards and translated by tools/stdgen.py with the notation of
Verif/Spec/X680.lean).  Each class has a grade; the theorems say what the grades mean.
-/

namespace Verif
namespace Props
namespace Standard

open Asn1 Verif.Std Der

theorem entry_ok {s : Std.Standard} (hs : s ∈ standards) {e : Entry} (he : e ∈ s.entries) :
    e.graded = true ∧ e.named = true ∧ e.sound = true := by
  have h := checked s hs
  simp only [Standard.ok, Bool.and_eq_true] at h
  have := List.all_eq_true.1 h.1.1 e he
  simpa [Bool.and_eq_true, and_assoc] using this

/-- C50: a class graded `same` has exactly the legal values of the standard's type, writes each of them, and reads any octets
whatever, as that type does. -/
theorem same_as_standard (s : Std.Standard) (hs : s ∈ standards) (e : Entry) (he : e ∈ s.entries) (hg : e.grade = .same) :
    (∀ v, e.ty.valid v = e.std.valid v) ∧ (∀ v, encode e.ty v = encode e.std v) ∧
      ∀ b, decode e.ty b = decode e.std b := by
  have h := (entry_ok hs he).1
  simp only [Entry.graded, Grade.holds, hg] at h
  exact ⟨agrees_valid h, agrees_encode h, agrees_decode h⟩

/-- C50: a class graded `relaxed` does everything the standard's type does, in the same way. -/
theorem relaxed_standard (s : Std.Standard) (hs : s ∈ standards) (e : Entry) (he : e ∈ s.entries) (hg : e.grade = .relaxed) :
    (∀ v, e.std.valid v = true → e.ty.valid v = true) ∧ (∀ v b, encode e.std v = some b → encode e.ty v = some b) ∧
      ∀ b r, decode e.std b = some r → decode e.ty b = some r := by
  have h := (entry_ok hs he).1
  simp only [Entry.graded, Grade.holds, hg] at h
  exact ⟨relaxes_valid _ _ h, fun _ _ => relaxes_encode h, fun _ _ => relaxes_decode h⟩

theorem der_kept (t : Ty) (hw : t.wf = true) (hst : t.stable = true) (hd : t.derOk = true) (v : Val) (hv : t.valid v = true)
    (hk : care t v) (hn : t.kept false v = true) (b : Bytes) : encode t v = some b ↔ encodes t v b := by
  have hp := Encoding.kept_plain t false v hv hn
  refine ⟨fun he => ?_, encT_of t false v b hw hst hd hv hk hp (by simp)⟩
  have hb : b ≠ [] := by
    rintro rfl
    have := enc_isEmpty false t v [] hw hv he
    simp at this
  have := derT t false v b hw hst hd hv hk he hb
  rwa [hp] at this

/-- C50: what a class graded `same` writes for a legal value of the standard's type is the DER encoding that X.690 defines
for it, and nothing else. -/
theorem writes_standard_der (s : Std.Standard) (hs : s ∈ standards) (e : Entry) (he : e ∈ s.entries) (hg : e.grade = .same)
    (hx : e.name ∉ vanishing) (v : Val) (hv : e.std.valid v = true) (hk : care e.std v) (hn : e.std.kept false v = true) (b : Bytes) :
    encode e.ty v = some b ↔ encodes e.std v b := by
  have h := (entry_ok hs he).2.2
  have hc : vanishing.contains e.name = false := by simpa using hx
  simp only [Entry.sound, hg, hc, Bool.false_or, Bool.and_eq_true] at h
  rw [(same_as_standard s hs e he hg).2.1 v]
  exact der_kept e.std h.1.1 h.1.2 h.2 v hv hk hn b

/-- C50: a class graded `relaxed` writes that encoding, too. -/
theorem relaxed_writes_der (s : Std.Standard) (hs : s ∈ standards) (e : Entry) (he : e ∈ s.entries) (hg : e.grade = .relaxed)
    (hx : e.name ∉ vanishing) (v : Val) (hv : e.std.valid v = true) (hk : care e.std v) (hn : e.std.kept false v = true) (b : Bytes)
    (hb : encodes e.std v b) : encode e.ty v = some b := by
  have h := (entry_ok hs he).2.2
  have hc : vanishing.contains e.name = false := by simpa using hx
  simp only [Entry.sound, hg, hc, Bool.false_or, Bool.and_eq_true] at h
  exact (relaxed_standard s hs e he hg).2.1 v b ((der_kept e.std h.1.1 h.1.2 h.2 v hv hk hn b).2 hb)

/-- C50: a class graded `widened` or `rewritten` reads whatever the standard's type reads, as a value that says the same. -/
theorem widened_standard (s : Std.Standard) (hs : s ∈ standards) (e : Entry) (he : e ∈ s.entries)
    (hg : e.grade = .widened ∨ ∃ v, e.grade = .rewritten v) (b r : Bytes) (v : Val) (hd : decode e.std b = some (v, r)) :
    ∃ w, decode e.ty b = some (w, r) ∧ e.ty.rel e.std v w := by
  have h := (entry_ok hs he).1
  have hsub : e.ty.sub e.std = true := by
    rcases hg with hg | ⟨w, hg⟩
    · simpa only [Entry.graded, Grade.holds, hg] using h
    · simp only [Entry.graded, Grade.holds, hg, Bool.and_eq_true] at h
      exact h.1.1.1
  exact sub_decode _ _ b r v hd hsub

theorem readsAll_iff (t : Ty) (b : Bytes) : readsAll t b = true ↔ ∃ v, decode t b = some (v, []) := by
  unfold readsAll
  cases h : decode t b with
  | none => simp
  | some p =>
    obtain ⟨v, r⟩ := p
    cases r <;> simp

/-- C50: the exceptions are real.  A class graded `refused` raises on an encoding of the standard's type. -/
theorem refused_standard (s : Std.Standard) (hs : s ∈ standards) (e : Entry) (he : e ∈ s.entries) (b : Bytes)
    (hg : e.grade = .refused b) : (∃ v, decode e.std b = some (v, [])) ∧ decode e.ty b = none := by
  have h := (entry_ok hs he).1
  simp only [Entry.graded, Grade.holds, hg, Bool.and_eq_true, readsAll_iff, Option.isNone_iff_eq_none] at h
  exact h

/-- C50: a class graded `changed` reads an encoding of the standard's type as another value. -/
theorem changed_standard (s : Std.Standard) (hs : s ∈ standards) (e : Entry) (he : e ∈ s.entries) (b : Bytes)
    (hg : e.grade = .changed b) : ∃ v w, decode e.std b = some (v, []) ∧ decode e.ty b = some (w, []) ∧ v ≠ w := by
  have h := (entry_ok hs he).1
  simp only [Entry.graded, Grade.holds, hg, Bool.and_eq_true, readsAll_iff] at h
  obtain ⟨⟨⟨v, hv⟩, w, hw⟩, hne⟩ := h
  refine ⟨v, w, hv, hw, fun heq => ?_⟩
  rw [hv, hw, heq] at hne
  simp at hne

/-- C50: a class graded `rewritten` writes a legal value of the standard's type in other octets. -/
theorem rewritten_standard (s : Std.Standard) (hs : s ∈ standards) (e : Entry) (he : e ∈ s.entries) (v : Val)
    (hg : e.grade = .rewritten v) : e.std.valid v = true ∧ ∃ b, encode e.std v = some b ∧ encode e.ty v ≠ some b := by
  have h := (entry_ok hs he).1
  simp only [Entry.graded, Grade.holds, hg, Bool.and_eq_true] at h
  obtain ⟨⟨⟨-, h1⟩, h2⟩, h3⟩ := h
  obtain ⟨b, hb⟩ := Option.isSome_iff_exists.1 h2
  refine ⟨h1, b, hb, fun heq => ?_⟩
  rw [hb, heq] at h3
  simp at h3

/-- C50: components and numbers have the names the standard gives them. -/
theorem names_standard (s : Std.Standard) (hs : s ∈ standards) (e : Entry) (he : e ∈ s.entries) (hn : e.renamed = false) :
    e.ty.sameNames e.std = true := by
  have h := (entry_ok hs he).2.1
  simpa [Entry.named, hn] using h

/-- C50: no class of these modules is left out silently. -/
theorem classes_accounted (s : Std.Standard) (hs : s ∈ standards) (c : String × Py.Obj) (hc : c ∈ s.module.classes) :
    c.1 ∈ s.beyond ∨ ∃ e ∈ s.entries, e.name = c.1 ∧ e.obj = c.2 := by
  have h := checked s hs
  simp only [Standard.ok, Standard.accounted, Bool.and_eq_true, decide_eq_true_eq] at h
  by_cases hb : c.1 ∈ s.beyond
  · exact .inl hb
  · right
    have : c ∈ s.entries.map (fun e => (e.name, e.obj)) := by
      rw [← h.2.1]
      simp only [List.mem_filter]
      exact ⟨hc, by simpa using hb⟩
    obtain ⟨e, he, hec⟩ := List.mem_map.1 this
    exact ⟨e, he, congrArg Prod.fst hec, congrArg Prod.snd hec⟩

theorem constant_ok (s : Std.Standard) (hs : s ∈ standards) (c : Constant) (hc : c ∈ s.constants) : c.ok = true := by
  have h := checked s hs
  simp only [Standard.ok, Bool.and_eq_true] at h
  exact List.all_eq_true.1 h.1.2 c hc

/-- C51: the constants have values, which are written as the values the standards give them. -/
theorem constants_standard (s : Std.Standard) (hs : s ∈ standards) (c : Constant) (hc : c ∈ s.constants)
    (ha : c.agrees = true) :
    ∃ v b, c.obj.val = some v ∧ c.obj.ty.valid v = true ∧ encode c.obj.ty v = some b ∧
      c.std.valid c.val = true ∧ encode c.std c.val = some b := by
  have h := constant_ok s hs c hc
  simp only [Constant.ok, Bool.and_eq_true, beq_iff_eq, Option.isSome_iff_exists, ha] at h
  obtain ⟨⟨h1, b, h2⟩, h3⟩ := h
  unfold Constant.written at h3
  split at h3
  · rename_i v hv
    simp only [Bool.and_eq_true, beq_iff_eq] at h3
    exact ⟨v, b, hv, h3.1, h3.2.trans h2, h1, h2⟩
  · exact absurd h3 nofun

/-- C51: those recorded as exceptions are not written as the standard's value. -/
theorem constants_differ (s : Std.Standard) (hs : s ∈ standards) (c : Constant) (hc : c ∈ s.constants)
    (ha : c.agrees = false) :
    c.std.valid c.val = true ∧ (encode c.std c.val).isSome = true ∧
      ∀ v, c.obj.val = some v → c.obj.ty.valid v = true → encode c.obj.ty v ≠ encode c.std c.val := by
  have h := constant_ok s hs c hc
  simp only [Constant.ok, Bool.and_eq_true, beq_iff_eq, ha] at h
  refine ⟨h.1.1, h.1.2, fun v hv hval he => ?_⟩
  have h3 := h.2
  simp only [Constant.written, hv, hval, he, beq_self_eq_true, Bool.and_self] at h3
  exact absurd h3 nofun

/-- C51: no constant of these modules is left out silently. -/
theorem constants_accounted (s : Std.Standard) (hs : s ∈ standards) (c : String × Py.Obj) (hc : c ∈ constantsOf s.module) :
    c.1 ∈ s.others ∨ ∃ k ∈ s.constants, k.name = c.1 ∧ k.obj = c.2 := by
  have h := checked s hs
  simp only [Standard.ok, Standard.accounted, Bool.and_eq_true, decide_eq_true_eq] at h
  by_cases hb : c.1 ∈ s.others
  · exact .inl hb
  · right
    have : c ∈ s.constants.map (fun k => (k.name, k.obj)) := by
      rw [← h.2.2]
      simp only [List.mem_filter]
      exact ⟨hc, by simpa using hb⟩
    obtain ⟨k, hk, hkc⟩ := List.mem_map.1 this
    exact ⟨k, hk, congrArg Prod.fst hkc, congrArg Prod.snd hkc⟩

/-! ## The hypotheses are met by real classes -/

namespace Examples

/-- Whether a standard grades the class `n` as `p` says. -/
def graded (s : Std.Standard) (n : String) (p : Grade → Bool) : Bool := s.entries.any (fun e => e.name == n && p e.grade)

-- `same_as_standard`, `writes_standard_der`: certificates, CRLs, CMS content, OCSP responses, SNMP variables, RSA keys
example : ([(Rfc5280.standard, "rfc5280.Certificate"), (Rfc5280.standard, "rfc5280.CertificateList"),
    (Rfc5280.standard, "rfc5280.Validity"), (Rfc5652.standard, "rfc5652.ContentInfo"),
    (Rfc5652.standard, "rfc5652.SignedData"), (Rfc6960.standard, "rfc6960.OCSPResponse"),
    (Rfc1902.standard, "rfc1902.Counter64"), (Rfc8017.standard, "rfc8017.RSAPrivateKey")]).all
    (fun x => graded x.1 x.2 (fun g => match g with | .same => true | _ => false)) = true := by decide +kernel

-- `relaxed_standard`, `relaxed_writes_der`
example : graded Rfc5915.standard "rfc5915.ECPrivateKey" (fun g => match g with | .relaxed => true | _ => false) = true := by
  decide +kernel

-- `widened_standard`
example : graded Rfc2315.standard "rfc2315.SignedData" (fun g => match g with | .widened => true | _ => false) = true := by
  decide +kernel

-- `refused_standard`: `CRLNumber` refuses the number 0, `DelRequest` the empty DN
example : graded Rfc2459.standard "rfc2459.CRLNumber" (fun g => match g with | .refused b => b == [2, 1, 0] | _ => false) = true ∧
    graded Rfc2251.standard "rfc2251.DelRequest" (fun g => match g with | .refused b => b == [74, 0] | _ => false) = true := by
  decide +kernel

-- `changed_standard`: a CHOICE of one alternative in RFC 4210, the certificate itself in the package
example : graded Rfc4210.standard "rfc4210.CMPCertificate" (fun g => match g with | .changed _ => true | _ => false) = true := by
  decide +kernel

-- `rewritten_standard`: `UnbindRequest` writes a SEQUENCE
example : graded Rfc2251.standard "rfc2251.UnbindRequest" (fun g => match g with | .rewritten _ => true | _ => false) = true := by
  decide +kernel

-- `writes_standard_der`: a value of the standard's `Validity` that meets the hypotheses
example : Std.Rfc5280.Validity.valid Encoding.Examples.validity = true ∧ Std.Rfc5280.Validity.kept false Encoding.Examples.validity = true ∧
    Std.Rfc5280.Validity = Verif.Rfc5280.Validity.call.ty := by decide +kernel

-- `constants_standard`
example : Rfc5280.standard.constants.any (fun c => c.name == "rfc5280.id_ce_keyUsage") = true := by decide +kernel

end Examples

end Standard
end Props
end Verif
