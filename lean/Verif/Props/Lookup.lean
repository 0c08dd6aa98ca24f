import Verif.Props.OpenDer
import Verif.Props.Ber
import Verif.Props.Tools
import Verif.Asn1.Look

/-!
# Decoding by hand with a type from a dictionary

C71: the way the tests of the package, and most programs, look into extensions, attributes and parameters:
`decode(extn['extnValue'], asn1Spec=rfc5280.certificateExtensionsMap[extn['extnID']])`.  The dictionaries hold objects that
are not always instances of exported classes, so what is known about the classes does not cover them.
-/

namespace Verif
namespace Props
namespace Lookup

open Asn1 Der Py Open Encoding OpenDer Spec

/-! ## The objects in the dictionaries -/

/-- The identifiers for which some module registers a type with components that cannot be told apart (C12). -/
def blurred : List Val := [.oid [1, 2, 840, 113549, 1, 9, 16, 2, 42], .oid [1, 3, 6, 1, 5, 5, 7, 7, 25]]

theorem blurred_table : Registry.written.all (fun w => blurred.contains w.2.1 || w.2.2.wf) = true := by decide +kernel

/-- Both are needed. -/
theorem blurred_real : blurred.all (fun k => Registry.written.any (fun w => decide (w.2.1 = k) && !w.2.2.wf)) = true := by
  decide +kernel

theorem stable_table : Registry.written.all (fun w => w.2.2.stable) = true := by decide +kernel

theorem sets_table : Registry.written.all (fun w => w.2.2.setsOk) = true := by decide +kernel

/-! ## One object -/

theorem found {s : State} (hs : Reached s) {m : Py.Ident} {k : Val} {t : Ty} (h : s.get m k = some t) :
    t.stable = true ∧ t.setsOk = true ∧ (k ∉ blurred → t.wf = true) ∧ (k ∉ irregular → t.wf = true ∧ t.derOk = true) := by
  have hm := reached_written hs h
  refine ⟨List.all_eq_true.1 stable_table _ hm, List.all_eq_true.1 sets_table _ hm, fun hk => ?_, fun hk => ?_⟩
  · have := List.all_eq_true.1 blurred_table _ hm
    simp only [Bool.or_eq_true, List.contains_iff_mem] at this
    exact this.resolve_left hk
  · have := List.all_eq_true.1 regular_table _ hm
    simp only [Bool.or_eq_true, List.contains_iff_mem, Bool.and_eq_true] at this
    exact this.resolve_left hk

/-- C71: whatever is decoded with an object from a dictionary is BER of the value that is returned, from the front of
the input. -/
theorem lookup_accepted (s : State) (hs : Reached s) (m : Py.Ident) (k : Val) (t : Ty) (h : s.get m k = some t)
    (b : Bytes) (v : Val) (rest : Bytes) (hd : decode t b = some (v, rest)) :
    ∃ p, b = p ++ rest ∧ Ber.reads true t v p := Reading.accepted_any t (found hs h).2.1 b v rest hd

/-- C71: a legal value of the registered type, of up to `Codec.maxOctets`, is encoded; the octets are decoded with the object
from the dictionary to the value again, and that is encoded to the same octets. -/
theorem lookup_roundtrip (s : State) (hs : Reached s) (m : Py.Ident) (k : Val) (t : Ty) (h : s.get m k = some t)
    (hk : k ∉ blurred) (v : Val) (hv : t.valid v = true) (hm : t.weight v < Codec.maxOctets) :
    ∃ b w, encode t v = some b ∧ t.same false v w ∧ (∀ rest, decode t (b ++ rest) = some (w, rest)) ∧
      encode t w = some b ∧ t.valid w = true := by
  obtain ⟨h1, _, h3, _⟩ := found hs h
  obtain ⟨b, w, g1, g2, g3, g4⟩ := Codec.roundtrip_ty t (h3 hk) v hv hm
  exact ⟨b, w, g1, g2, g3, g4 h1⟩

/-- `b` is the DER encoding of a legal value of the type, which has none of the primitive values of `careful` and no
empty collection in an OPTIONAL component. -/
def Sound (t : Ty) (u : Val) (b : Bytes) : Prop :=
  t.valid u = true ∧ care t u ∧ t.kept false u = true ∧ encodes t u b

theorem sound_rewritten {t : Ty} (hw : t.wf = true) (hst : t.stable = true) (hd : t.derOk = true) {u : Val} {b : Bytes}
    (h : Sound t u b) : ∃ x, (∀ rest, decode t (b ++ rest) = some (x, rest)) ∧ t.reorder u x ∧ encode t x = some b ∧
      t.valid x = true := by
  obtain ⟨hv, hc, hk, he⟩ := h
  obtain ⟨x, w, h1, _, h3, h4⟩ := dd t u b hw hv he
  have hen := encT_of t false u b hw hst hd hv hc (kept_plain t false u hv hk) (by simp) he
  rcases rt t false u b hw hv hen with ⟨_, h, _⟩ | ⟨_, x', w', g1, _, g3, _, g5⟩
  · simp at h
  · have hx : x = x' := by
      have a := h1.2 []
      rw [g1.2 []] at a
      simpa using a.symm
    subst hx
    rw [h3] at g3
    cases g3
    exact ⟨w, fun rest => by simp only [decode, h1.2 rest, h3], h4, (g5 hst).1, (g5 hst).2.1⟩

/-- C71: octets made elsewhere, by anything that follows DER, are decoded with the object from the dictionary to the
value that was meant, and that is encoded to the same octets. -/
theorem lookup_rewritten (s : State) (hs : Reached s) (m : Py.Ident) (k : Val) (t : Ty) (h : s.get m k = some t)
    (hk : k ∉ irregular) (u : Val) (b : Bytes) (hb : Sound t u b) :
    ∃ x, (∀ rest, decode t (b ++ rest) = some (x, rest)) ∧ t.reorder u x ∧ encode t x = some b ∧ t.valid x = true := by
  obtain ⟨h1, _, _, h4⟩ := found hs h
  exact sound_rewritten (h4 hk).1 h1 (h4 hk).2 hb

/-! ## Going through a message -/

/-- What the sender of a message has to keep to in the parts `q`, each with an identifier called `n` and contents at `r`:
if the identifier is in dictionary `m`, the contents are DER of the type there. -/
def Orderly (s : State) (m : Py.Ident) (t : Ty) (v : Val) (q r : List Step) (n : String) : Prop :=
  ∀ q' r', Alike q' q → Alike r' r → ∀ k e u, look (q' ++ [.field n]) t v = some k → look (q' ++ r') t v = some (.octets e) →
    s.get m k = some u → k ∉ irregular ∧ ∃ x, Sound u x e

/-- C71: the loop of the tests and of most programs over the extensions of a certificate, the attributes of a message,
...: the message is decoded; in it are only parts the sender put there; and wherever an identifier is found in the
dictionary, the contents are decoded completely with the type found, and encoded to the same octets. -/
theorem walk_ty (s : State) (hs : Reached s) (t : Ty) (hw : t.wf = true) (hst : t.stable = true) (hd : t.derOk = true)
    (v : Val) (b : Bytes) (hb : Sound t v b) (m : Py.Ident) (q r : List Step) (n : String)
    (e1 : ends (q ++ [.field n]) t = true) (e2 : ends (q ++ r) t = true) (ho : Orderly s m t v q r n) :
    ∃ w, decode t b = some (w, []) ∧ encode t w = some b ∧
      ∀ q' r', Alike q' q → Alike r' r → ∀ k e u, look (q' ++ [.field n]) t w = some k →
        look (q' ++ r') t w = some (.octets e) →
        (∃ q2 r2, Alike q2 q ∧ Alike r2 r ∧ look (q2 ++ [.field n]) t v = some k ∧ look (q2 ++ r2) t v = some (.octets e)) ∧
        (s.get m k = some u → ∃ x, decode u e = some (x, []) ∧ encode u x = some e) := by
  obtain ⟨w, h1, h2, h3, _⟩ := sound_rewritten hw hst hd hb
  refine ⟨w, by simpa using h1 [], h3, fun q' r' hq hr k e u hk he => ?_⟩
  obtain ⟨q2, r2, a1, a2, g1, g2⟩ := look_pair t v w h2 q' r' n k (.octets e) hk he
    ((ends_alike t _ _ (Alike.append hq rfl)).trans e1) ((ends_alike t _ _ (Alike.append hq hr)).trans e2)
  refine ⟨⟨q2, r2, a1.trans hq, a2.trans hr, g1, g2⟩, fun hu => ?_⟩
  obtain ⟨g3, x, g4⟩ := ho q2 r2 (a1.trans hq) (a2.trans hr) k e u g1 g2 hu
  obtain ⟨y, f1, _, f3, _⟩ := lookup_rewritten s hs m k u hu g3 x e g4
  exact ⟨y, by simpa using f1 [], f3⟩

/-- Such loops of the tests (and of programs): what is decoded, where its parts are, the name of the identifier, and where
the contents are. -/
structure Loop where
  cls : Py.Obj
  parts : List Step
  key : String
  contents : List Step

/-- In the order of tests/test_rfc5280.py, test_rfc5652.py, test_rfc2986.py, test_rfc5755.py, test_rfc6960.py,
test_rfc5751.py, test_rfc7292.py, test_rfc6402.py and others that use these. -/
def loops : List Loop :=
  [⟨Rfc5280.Extensions, [.element 0], "extnID", [.field "extnValue"]⟩,
   ⟨Rfc5280.Certificate, [.field "tbsCertificate", .field "extensions", .element 0], "extnID", [.field "extnValue"]⟩,
   ⟨Rfc5280.Certificate, [.field "tbsCertificate", .field "subject", .alternative "rdnSequence", .element 0, .element 0],
    "type", [.field "value"]⟩,
   ⟨Rfc5280.CertificateList, [.field "tbsCertList", .field "crlExtensions", .element 0], "extnID", [.field "extnValue"]⟩,
   ⟨Rfc5280.CertificateList, [.field "tbsCertList", .field "revokedCertificates", .element 0, .field "crlEntryExtensions",
    .element 0], "extnID", [.field "extnValue"]⟩,
   ⟨Rfc5280.GeneralNames, [.element 0, .alternative "otherName"], "type-id", [.field "value"]⟩,
   ⟨Rfc5280.AlgorithmIdentifier, [], "algorithm", [.field "parameters"]⟩,
   ⟨Rfc5652.ContentInfo, [], "contentType", [.field "content"]⟩,
   ⟨Rfc5652.SignedData, [.field "encapContentInfo"], "eContentType", [.field "eContent"]⟩,
   ⟨Rfc5652.SignedData, [.field "signerInfos", .element 0, .field "signedAttrs", .element 0], "attrType",
    [.field "attrValues", .element 0]⟩,
   ⟨Rfc5652.SignedData, [.field "signerInfos", .element 0, .field "unsignedAttrs", .element 0], "attrType",
    [.field "attrValues", .element 0]⟩,
   ⟨Rfc5652.EnvelopedData, [.field "recipientInfos", .element 0, .alternative "ori"], "oriType", [.field "oriValue"]⟩,
   ⟨Rfc5652.EnvelopedData, [.field "unprotectedAttrs", .element 0], "attrType", [.field "attrValues", .element 0]⟩,
   ⟨Rfc2986.CertificationRequest, [.field "certificationRequestInfo", .field "attributes", .element 0], "type",
    [.field "values", .element 0]⟩,
   ⟨Rfc5755.AttributeCertificate, [.field "acinfo", .field "attributes", .element 0], "type", [.field "values", .element 0]⟩,
   ⟨Rfc5755.AttributeCertificate, [.field "acinfo", .field "extensions", .element 0], "extnID", [.field "extnValue"]⟩,
   ⟨Rfc6960.OCSPResponse, [.field "responseBytes"], "responseType", [.field "response"]⟩,
   ⟨Rfc6960.OCSPRequest, [.field "tbsRequest", .field "requestExtensions", .element 0], "extnID", [.field "extnValue"]⟩,
   ⟨Rfc5751.SMIMECapabilities, [.element 0], "capabilityID", [.field "parameters"]⟩,
   ⟨Rfc7292.SafeContents, [.element 0], "bagId", [.field "bagValue"]⟩,
   ⟨Rfc7292.SafeContents, [.element 0, .field "bagAttributes", .element 0], "attrType", [.field "attrValues", .element 0]⟩,
   ⟨Rfc7292.AuthenticatedSafe, [.element 0], "contentType", [.field "content"]⟩,
   ⟨Rfc6402.PKIData, [.field "controlSequence", .element 0], "attrType", [.field "attrValues", .element 0]⟩]

mutual
/-- There is something at the end of the path. -/
def leads : List Step → Ty → Bool
  | [], _ => true
  | .field n :: p, .seq _ _ cs => leadsAny n p cs
  | .alternative n :: p, .choice _ cs => leadsAny n p cs
  | .element _ :: p, .of _ _ t => leads p t
  | _, _ => false
def leadsAny (n : String) (p : List Step) : Comps → Bool
  | .nil => false
  | .cons f t cs => (f.name == n && leads p t) || leadsAny n p cs
end

theorem loops_table : loops.all (fun l => l.cls.call.ty.wf && l.cls.call.ty.stable && l.cls.call.ty.derOk &&
    ends (l.parts ++ [.field l.key]) l.cls.call.ty && ends (l.parts ++ l.contents) l.cls.call.ty &&
    leads (l.parts ++ [.field l.key]) l.cls.call.ty && leads (l.parts ++ l.contents) l.cls.call.ty) = true := by
  decide +kernel

/-- C71 for these loops, with any of the dictionaries. -/
theorem loops_walk (s : State) (hs : Reached s) (l : Loop) (hl : l ∈ loops) (m : Py.Ident) (v : Val) (b : Bytes)
    (hb : Sound l.cls.call.ty v b) (ho : Orderly s m l.cls.call.ty v l.parts l.contents l.key) :
    ∃ w, decode l.cls.call.ty b = some (w, []) ∧ encode l.cls.call.ty w = some b ∧
      ∀ q r, Alike q l.parts → Alike r l.contents → ∀ k e u, look (q ++ [.field l.key]) l.cls.call.ty w = some k →
        look (q ++ r) l.cls.call.ty w = some (.octets e) →
        (∃ q2 r2, Alike q2 l.parts ∧ Alike r2 l.contents ∧ look (q2 ++ [.field l.key]) l.cls.call.ty v = some k ∧
          look (q2 ++ r2) l.cls.call.ty v = some (.octets e)) ∧
        (s.get m k = some u → ∃ x, decode u e = some (x, []) ∧ encode u x = some e) := by
  have h := List.all_eq_true.1 loops_table l hl
  simp only [Bool.and_eq_true] at h
  obtain ⟨⟨⟨⟨⟨⟨h1, h2⟩, h3⟩, h4⟩, h5⟩, _⟩, _⟩ := h
  exact walk_ty s hs _ h1 h2 h3 v b hb m l.parts l.contents l.key h4 h5 ho

/-! ## The hypotheses are met -/

namespace Examples

/-- `BasicConstraints` with `cA` TRUE and a path length of 3. -/
def constraints : Val := .record (.ofList [.int 1, .int 3])

def constraintsDer : Bytes := [0x30, 6, 1, 1, 255, 2, 1, 3]

def extension : Val := .record (.ofList [.oid [2, 5, 29, 19], .int 1, .octets constraintsDer])

def extensions : Val := .list (.ofList [extension])

def extensionsDer : Bytes := [0x30, 20, 0x30, 18, 6, 3, 85, 29, 19, 1, 1, 255, 4, 8] ++ constraintsDer

theorem sound_of_encode {t : Ty} (hw : t.wf = true) (hst : t.stable = true) (hd : t.derOk = true) {v : Val} {b : Bytes}
    (hv : t.valid v = true) (hc : care t v) (hk : t.kept false v = true) (he : encode t v = some b) : Sound t v b := by
  have hb : b ≠ [] := by
    rintro rfl
    have := enc_isEmpty false t v [] hw hv he
    simp at this
  have := derT t false v b hw hst hd hv hc he hb
  rw [kept_plain t false v hv hk] at this
  exact ⟨hv, hc, hk, this⟩

theorem constraints_ty : Rfc5280.BasicConstraints.call.ty = .seq false ⟨[⟨.universal, true, 16⟩], .inter .nil, []⟩
    (.cons ⟨"cA", .dflt (.int 0), none⟩ Py.univ.Boolean.call.ty
    (.cons ⟨"pathLenConstraint", .opt, none⟩ (.prim .integer ⟨[⟨.universal, false, 2⟩],
      .inter (.cons (.range (.fin 0) .inf) .nil), []⟩) .nil)) := by decide +kernel

theorem boolean_ty : Py.univ.Boolean.call.ty = .prim .boolean ⟨[⟨.universal, false, 1⟩],
    .inter (.cons (.single [.int 0, .int 1]) .nil), [("False", 0), ("True", 1)]⟩ := by decide +kernel

theorem constraints_sound : Sound Rfc5280.BasicConstraints.call.ty constraints constraintsDer := by
  refine sound_of_encode (by decide +kernel) (by decide +kernel) (by decide +kernel) (by decide +kernel) ?_ (by decide +kernel)
    (by decide +kernel)
  rw [constraints_ty, boolean_ty]
  simp only [constraints, Vals.ofList, care, cares, careful]
  refine ⟨.inr (by simp), .inr (fun m h => ?_), trivial⟩
  have : (0 : Int) < 256 ^ m := Int.pow_pos (by decide)
  omega

theorem extensions_ty : Rfc5280.Extensions.call.ty = .of false ⟨[⟨.universal, true, 16⟩],
    .inter (.cons (.size (.fin 1) .inf) .nil), []⟩ Reading.extensionLike := by decide +kernel

theorem extensions_sound : Sound Rfc5280.Extensions.call.ty extensions extensionsDer := by
  refine sound_of_encode (by decide +kernel) (by decide +kernel) (by decide +kernel) (by decide +kernel) ?_ (by decide +kernel)
    (by decide +kernel)
  rw [extensions_ty, Reading.extensionLike, boolean_ty]
  simp [extensions, extension, Vals.ofList, Vals.toList, care, cares, careful]

def firstLoop : Loop := ⟨Rfc5280.Extensions, [.element 0], "extnID", [.field "extnValue"]⟩

theorem registered : ((importAll Package.modules 130 [Rfc4055.asModule.id] .start).bind (fun s =>
    s.get Registry.certificateExtensionsMap (.oid [2, 5, 29, 19]))) = some Rfc5280.BasicConstraints.call.ty := by decide +kernel

/-- The only extension is `extension`. -/
theorem orderly (s : State) (hs : importAll Package.modules 130 [Rfc4055.asModule.id] .start = some s) :
    Orderly s Registry.certificateExtensionsMap firstLoop.cls.call.ty extensions firstLoop.parts firstLoop.contents
      firstLoop.key := by
  intro q r hq hr k e u hk he hu
  have hr' := Alike.field_inv hr
  subst hr'
  obtain ⟨i, rfl⟩ : ∃ i, q = [.element i] := by
    simp only [Alike, firstLoop, List.map_cons, List.map_nil] at hq
    rcases q with _ | ⟨x, q⟩
    · simp at hq
    · simp only [List.map_cons, List.cons.injEq, List.map_eq_nil_iff] at hq
      obtain ⟨h1, rfl⟩ := hq
      cases x <;> simp [anyElement] at h1
      exact ⟨_, rfl⟩
  simp only [firstLoop, extensions_ty] at hk he
  rcases i with _ | i
  · simp [Reading.extensionLike, Spec.look, extensions, extension, Vals.ofList, elementAt, fieldAt] at hk he
    subst hk he
    have := registered
    rw [hs] at this
    simp only [Option.bind_some] at this
    rw [this] at hu
    cases hu
    exact ⟨by decide, _, constraints_sound⟩
  · simp [Spec.look, extensions, Vals.ofList, elementAt] at hk

example : firstLoop ∈ loops := List.mem_cons_self

/-- So the extension is decoded with the type from the dictionary and written as it was. -/
example : ∃ s w x, Reached s ∧ decode Rfc5280.Extensions.call.ty extensionsDer = some (w, []) ∧
    s.get Registry.certificateExtensionsMap (.oid [2, 5, 29, 19]) = some Rfc5280.BasicConstraints.call.ty ∧
    decode Rfc5280.BasicConstraints.call.ty constraintsDer = some (x, []) ∧
    encode Rfc5280.BasicConstraints.call.ty x = some constraintsDer := by
  obtain ⟨s, h1, h2⟩ := example_reached
  obtain ⟨w, g1, _, _⟩ := loops_walk s h2 firstLoop List.mem_cons_self _ extensions extensionsDer extensions_sound (orderly s h1)
  have hr := registered
  rw [h1] at hr
  obtain ⟨x, f1, _, f3, _⟩ := lookup_rewritten s h2 _ _ _ hr (by decide) _ _ constraints_sound
  exact ⟨s, w, x, h2, g1, hr, by simpa using f1 [], f3⟩

end Examples

end Lookup
end Props
end Verif
