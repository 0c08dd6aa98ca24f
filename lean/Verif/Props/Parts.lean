import Verif.Props.Tagging
import Verif.Props.Codec
import Verif.Asn1.BerRead
import Verif.Asn1.Items
import Verif.Package.Types
import Verif.Gen.Package

/-!
# Signed parts survive decoding

C43: a signature, a MAC or a digest is computed over the octets of a *part* of a message (`tbsCertificate`,
`certificationRequestInfo`, `signedAttrs`, header and body of a PKIMessage, ...).  The receiver has only the
decoded message, so it encodes the decoded part again and hopes to get the signed octets back.  These theorems
say that it does, whatever the rest of the message looks like.
-/

namespace Verif
namespace Props
namespace Parts

open Asn1

/-- The leading components `vs` of a value, each valid and each encoded on its own, give the strings `es`. -/
inductive Parts : Comps → Vals → List Bytes → Prop
  | nil (cs : Comps) (vs : Vals) : Parts cs vs []
  | cons (f : Field) (t : Ty) (cs : Comps) (v : Val) (vs : Vals) (e : Bytes) (es : List Bytes)
      (valid : t.valid v = true) (octets : encode t v = some e) (rest : Parts cs vs es) :
      Parts (.cons f t cs) (.cons v vs) (e :: es)

theorem parts_read {cs : Comps} {us : Vals} {es : List Bytes} (hp : Parts cs us es) :
    cs.wf = true → cs.stable = true → ∀ (s : Bytes) (xs : List TLV) (vs : Vals),
    items (es.flatten ++ s) = some xs → decComps cs xs = some vs → Parts cs vs es := by
  induction hp with
  | nil cs us => exact fun _ _ _ _ vs _ _ => .nil cs vs
  | cons f t cs u us e es hv he _ ih =>
    intro hw hs s xs vs hi hd
    simp only [Comps.wf, Bool.and_eq_true] at hw
    simp only [Comps.stable, Bool.and_eq_true] at hs
    rcases rt t false u e hw.1 hv he with ⟨_, h, _⟩ | ⟨_, x, w, h1, h2, h3, _, h5⟩
    · simp at h
    · rw [List.flatten_cons, List.append_assoc] at hi
      obtain ⟨ys, rfl, hy⟩ := items_uncons h1 _ _ hi
      obtain ⟨h6, h7, _⟩ := h5 hs.1.1
      simp only [decComps, h2, Bool.or_true, Bool.true_or, if_true, h3] at hd
      cases hr : decComps cs ys with
      | none => simp [hr] at hd
      | some ws =>
        simp only [hr, Option.some.injEq] at hd
        subst hd
        exact .cons f t cs w ws e es h7 h6 (ih hw.2 hs.2 s ys ws hy hr)

/-- **C43.** Let `es` be the encodings of the leading components of some value: what the sender signed.  Let the
message be an element that starts with them, under any BER header and followed by anything.  If the message is
decoded at all, the components of the decoded value encode to exactly these strings again. -/
theorem received (a : Attrs) (tg : Tag) (ht : a.tags = [tg]) (cs : Comps) (hw : cs.wf = true) (hs : cs.stable = true)
    (us : Vals) (es : List Bytes) (hp : Parts cs us es)
    (c : Cls) (n : Nat) (k : Bool) (s b rest : Bytes) (hb : Ber.Element c n k (es.flatten ++ s) b)
    (v : Val) (rest' : Bytes) (hd : decode (.seq false a cs) (b ++ rest) = some (v, rest')) :
    rest' = rest ∧ ∃ vs, v = .record vs ∧ Parts cs vs es := by
  have hr := (element_of c n k _ b hb).2 rest
  simp only [decode, hr] at hd
  cases hx : decT (.seq false a cs) ⟨c, k, n, es.flatten ++ s, b⟩ with
  | none => simp [hx] at hd
  | some w =>
    simp only [hx, Option.some.injEq, Prod.mk.injEq] at hd
    obtain ⟨rfl, rfl⟩ := hd
    refine ⟨rfl, ?_⟩
    simp only [decT, innerItems, ht, List.reverse_singleton, unwrap] at hx
    split at hx
    · exact absurd hx (by simp)
    rename_i xs hi
    split at hi
    · simp at hi
    rename_i y hy
    split at hy <;> simp only [Option.some.injEq, reduceCtorEq] at hy
    subst hy
    split at hi <;> simp only [reduceCtorEq] at hi
    simp only [Bool.false_eq_true, if_false] at hx
    cases hc : decComps cs xs with
    | none => simp [hc] at hx
    | some vs =>
      simp only [hc] at hx
      split at hx <;> simp only [Option.some.injEq, reduceCtorEq] at hx
      exact ⟨vs, hx.symm, parts_read hp hw hs s xs vs hi hc⟩

/-- The same for every class of the package that is a SEQUENCE with one tag. -/
theorem received_class (c : String × Ty) (hc : c ∈ Package.types) (hn : c.1 ∉ Package.defective)
    (a : Attrs) (tg : Tag) (ht : a.tags = [tg]) (cs : Comps) (hcs : c.2 = .seq false a cs)
    (us : Vals) (es : List Bytes) (hp : Parts cs us es)
    (cl : Cls) (n : Nat) (k : Bool) (s b rest : Bytes) (hb : Ber.Element cl n k (es.flatten ++ s) b)
    (v : Val) (rest' : Bytes) (hd : decode c.2 (b ++ rest) = some (v, rest')) :
    rest' = rest ∧ ∃ vs, v = .record vs ∧ Parts cs vs es := by
  have hw := Package.wf_of_mem hc hn
  have hs := Package.stable_of_mem hc
  rw [hcs] at hw hs hd
  simp only [Ty.wf, Bool.and_eq_true] at hw
  simp only [Ty.stable] at hs
  exact received a tg ht cs hw.1.1.2 hs us es hp cl n k s b rest hb v rest' hd

/-- One signed part in front: the common case. -/
theorem signed_part (c : String × Ty) (hc : c ∈ Package.types) (hn : c.1 ∉ Package.defective)
    (a : Attrs) (tg : Tag) (ht : a.tags = [tg]) (f : Field) (t : Ty) (cs : Comps) (hcs : c.2 = .seq false a (.cons f t cs))
    (u : Val) (e : Bytes) (hu : t.valid u = true) (he : encode t u = some e)
    (cl : Cls) (n : Nat) (k : Bool) (s b rest : Bytes) (hb : Ber.Element cl n k (e ++ s) b)
    (v : Val) (rest' : Bytes) (hd : decode c.2 (b ++ rest) = some (v, rest')) :
    ∃ w vs, v = .record (.cons w vs) ∧ encode t w = some e := by
  obtain ⟨_, vs, rfl, hp⟩ := received_class c hc hn a tg ht _ hcs (.cons u .nil) [e] (.cons f t cs u .nil e [] hu he (.nil _ _))
    cl n k s b rest (by simpa using hb) v rest' hd
  cases hp with
  | cons _ _ _ w ws _ _ _ hw _ => exact ⟨w, ws, rfl, hw⟩

/-! ## What the sender writes -/

/-- The first `n` components are mandatory. -/
def lead : Nat → Comps → Bool
  | 0, _ => true
  | _ + 1, .nil => false
  | n + 1, .cons f _ cs => f.mode.isReq && lead n cs

theorem parts_written : ∀ (n : Nat) (cs : Comps) (us : Vals) (ps : List (TagSet × Bytes)), lead n cs = true →
    cs.valid us = true → encComps cs us = some ps →
    ∃ es s, es.length = n ∧ Parts cs us es ∧ ps.flatMap Prod.snd = es.flatten ++ s
  | 0, cs, us, ps, _, _, _ => ⟨[], _, rfl, .nil cs us, rfl⟩
  | n + 1, .nil, _, _, h, _, _ => by simp [lead] at h
  | n + 1, .cons f t cs, .nil, ps, _, hv, _ => by simp [Comps.valid] at hv
  | n + 1, .cons f t cs, .cons v vs, ps, h, hv, he => by
    simp only [lead, Bool.and_eq_true] at h
    have hm : f.mode = .req := by cases hf : f.mode <;> simp_all [Mode.isReq]
    obtain ⟨ps', h1, h2⟩ := encComps_cons he
    rcases h2 with ⟨h2, _⟩ | ⟨h2, _, b, h3, rfl⟩
    · exact absurd hm h2
    · simp only [Comps.valid, Bool.and_eq_true] at hv
      obtain ⟨es, s, g1, g2, g3⟩ := parts_written n cs vs ps' h.2 hv.2 h1
      refine ⟨b :: es, s, by simp [g1], .cons f t cs v vs b es ?_ ?_ g2, by simp [g3]⟩
      · have := hv.1
        simpa [hm] using this
      · simpa [hm, Mode.isOpt, encode] using h3

/-- **C43, the sending side.**  The encoding of a SEQUENCE whose first `n` components are mandatory starts, after
the DER header, with the encodings these components have on their own. -/
theorem sent (a : Attrs) (tg : Tag) (ht : a.tags = [tg]) (cs : Comps) (n : Nat) (hl : lead n cs = true)
    (us : Vals) (hv : (Ty.seq false a cs).valid (.record us) = true) (b : Bytes)
    (he : encode (.seq false a cs) (.record us) = some b) :
    ∃ es s, es.length = n ∧ Parts cs us es ∧ Der.Element tg true (es.flatten ++ s) b := by
  simp only [Ty.valid, Bool.and_eq_true] at hv
  simp only [encode, enc] at he
  split at he <;> try simp at he
  cases hps : encComps cs us with
  | none => simp [hps] at he
  | some ps =>
    obtain ⟨es, s, g1, g2, g3⟩ := parts_written n cs us ps hl hv.1 hps
    refine ⟨es, s, g1, g2, ?_⟩
    rw [← g3, Der.element_iff tg true true (by simp)]
    simp only [hps, ht, wrap] at he
    cases hx : tlv tg true (ps.flatMap Prod.snd) with
    | none => simp [hx] at he
    | some y => simpa [hx] using he

/-- Putting two parts together. -/
theorem pair (a : Attrs) (tg : Tag) (ht : a.tags = [tg]) (hs : a.spec = .inter .nil) (f g : Field) (hf : f.mode = .req)
    (hg : g.mode = .req) (t t' : Ty) (v w : Val) (e e' : Bytes) (hv : t.valid v = true) (hw : t'.valid w = true)
    (he : encode t v = some e) (he' : encode t' w = some e') (b : Bytes) :
    encode (.seq false a (.cons f t (.cons g t' .nil))) (.record (.cons v (.cons w .nil))) = some b ↔
      Der.Element tg true (e ++ e') b := by
  have h1 := encComps_put (f := g) (show encComps .nil .nil = some [] from rfl) (Ty.valid_ne_absent t' w hw) (by simp [hg])
    (by simpa [hg, Mode.isOpt] using (show enc false t' w = some e' from he'))
  have h2 := encComps_put (f := f) h1 (Ty.valid_ne_absent t v hv) (by simp [hf]) (by simpa [hf, Mode.isOpt] using (show enc false t v = some e from he))
  rw [Der.element_iff tg true true (by simp)]
  simp only [encode, enc, h2, hs, ht, wrap]
  simp [Constraint.ok, Constraints.all]

/-! ## The signed structures of the package -/

/-- The classes whose first component is what the signature, MAC or proof of possession covers. -/
def signed : List (String × Py.Obj × String) :=
  [("rfc2314.CertificationRequest", Rfc2314.CertificationRequest, "certificationRequestInfo"),
   ("rfc2315.ExtendedCertificate", Rfc2315.ExtendedCertificate, "extendedCertificateInfo"),
   ("rfc2459.Certificate", Rfc2459.Certificate, "tbsCertificate"),
   ("rfc2459.CertificateList", Rfc2459.CertificateList, "tbsCertList"),
   ("rfc2511.CertReqMsg", Rfc2511.CertReqMsg, "certReq"),
   ("rfc2560.BasicOCSPResponse", Rfc2560.BasicOCSPResponse, "tbsResponseData"),
   ("rfc2560.OCSPRequest", Rfc2560.OCSPRequest, "tbsRequest"),
   ("rfc2986.CertificationRequest", Rfc2986.CertificationRequest, "certificationRequestInfo"),
   ("rfc3280.Certificate", Rfc3280.Certificate, "tbsCertificate"),
   ("rfc3280.CertificateList", Rfc3280.CertificateList, "tbsCertList"),
   ("rfc3281.AttributeCertificate", Rfc3281.AttributeCertificate, "acinfo"),
   ("rfc3852.AttributeCertificateV1", Rfc3852.AttributeCertificateV1, "acInfo"),
   ("rfc3852.ExtendedCertificate", Rfc3852.ExtendedCertificate, "extendedCertificateInfo"),
   ("rfc4211.CertReqMsg", Rfc4211.CertReqMsg, "certReq"),
   ("rfc5280.Certificate", Rfc5280.Certificate, "tbsCertificate"),
   ("rfc5280.CertificateList", Rfc5280.CertificateList, "tbsCertList"),
   ("rfc5652.AttributeCertificateV1", Rfc5652.AttributeCertificateV1, "acInfo"),
   ("rfc5652.ExtendedCertificate", Rfc5652.ExtendedCertificate, "extendedCertificateInfo"),
   ("rfc5755.AttributeCertificate", Rfc5755.AttributeCertificate, "acinfo"),
   ("rfc6402.CertificationRequest", Rfc6402.CertificationRequest, "certificationRequestInfo"),
   ("rfc6960.BasicOCSPResponse", Rfc6960.BasicOCSPResponse, "tbsResponseData"),
   ("rfc6960.OCSPRequest", Rfc6960.OCSPRequest, "tbsRequest")]

/-- The class is a SEQUENCE with one tag whose first component has the name and is mandatory. -/
def firstIs (name : String) : Ty → Bool
  | .seq false a (.cons f t cs) => a.tags.length == 1 && f.name == name && f.mode.isReq && (Comps.cons f t cs).wf &&
      (Comps.cons f t cs).stable
  | _ => false

theorem signed_table : signed.all (fun p => firstIs p.2.2 p.2.1.call.ty) = true := by decide +kernel

/-- `message[name]`: the component of that name, with its type. -/
def named (name : String) : Comps → Vals → Option (Ty × Val)
  | .cons f t cs, .cons v vs => if f.name == name then some (t, v) else named name cs vs
  | _, _ => none

/-- The same on a whole value. -/
def part (name : String) : Ty → Val → Option (Ty × Val)
  | .seq _ _ cs, .record vs => named name cs vs
  | _, _ => none

/-- The type of the component of that name. -/
def typed (name : String) : Ty → Option Ty
  | .seq _ _ cs => go cs
  | _ => none
where go : Comps → Option Ty
  | .cons f t cs => if f.name == name then some t else go cs
  | .nil => none

/-- **C43 for the signed structures.**  `e` is what was signed; the message is any BER element that starts with it.
If the message is decoded, `encode(message[name])` is `e`. -/
theorem signed_received (p : String × Py.Obj × String) (hp : p ∈ signed) :
    ∃ t, typed p.2.2 p.2.1.call.ty = some t ∧ ∀ (u : Val) (e : Bytes), t.valid u = true → encode t u = some e →
      ∀ (cl : Cls) (n : Nat) (k : Bool) (s b rest : Bytes), Ber.Element cl n k (e ++ s) b →
      ∀ (v : Val) (rest' : Bytes), decode p.2.1.call.ty (b ++ rest) = some (v, rest') →
      rest' = rest ∧ ∃ w, part p.2.2 p.2.1.call.ty v = some (t, w) ∧ encode t w = some e := by
  have h := List.all_eq_true.1 signed_table p hp
  generalize p.2.1.call.ty = ty at h ⊢
  unfold firstIs at h
  split at h
  · rename_i a f t cs
    simp only [Bool.and_eq_true, beq_iff_eq] at h
    obtain ⟨⟨⟨⟨h1, h2⟩, h3⟩, h4⟩, h5⟩ := h
    obtain ⟨tg, htg⟩ := List.length_eq_one_iff.1 h1
    refine ⟨t, by simp [typed, typed.go, h2], fun u e hu he cl n k s b rest hb v rest' hd => ?_⟩
    obtain ⟨g1, vs, rfl, hq⟩ := received a tg htg _ h4 h5 (.cons u .nil) [e] (.cons f t cs u .nil e [] hu he (.nil _ _))
      cl n k s b rest (by simpa using hb) v rest' hd
    refine ⟨g1, ?_⟩
    cases hq with
    | cons _ _ _ w ws _ _ _ hw _ => exact ⟨w, by simp [part, named, h2], hw⟩
  · simp at h

/-! ## PKIMessage: the protected part -/

/-- PKIMessage and ProtectedPart start with the same two components. -/
theorem protected_shape : ∃ a tg f g t t' cs a' tg' f' g', Rfc4210.PKIMessage.call.ty = .seq false a (.cons f t (.cons g t' cs)) ∧
    a.tags = [tg] ∧ f.name = "header" ∧ g.name = "body" ∧ (Comps.cons f t (.cons g t' cs)).wf = true ∧
    (Comps.cons f t (.cons g t' cs)).stable = true ∧
    Rfc4210.ProtectedPart.call.ty = .seq false a' (.cons f' t (.cons g' t' .nil)) ∧ a'.tags = [tg'] ∧
    tg' = ⟨.universal, true, 16⟩ ∧ a'.spec = .inter .nil ∧ f'.mode = .req ∧ g'.mode = .req :=
  ⟨_, _, _, _, _, _, _, _, _, _, _, rfl, rfl, rfl, rfl, by decide +kernel, by decide +kernel, rfl, rfl, rfl, rfl, rfl, rfl⟩

/-- **C43 for CMP.**  A message that starts with header `eh` and body `eb` is protected over SEQUENCE { header, body }
(RFC 4210, 5.1.3).  Whatever its protection and extra certificates are: if it is decoded, a ProtectedPart made of the
decoded header and body encodes to the DER header of a SEQUENCE followed by `eh` and `eb`. -/
theorem protected_part : ∃ t t', typed "header" Rfc4210.PKIMessage.call.ty = some t ∧
    typed "body" Rfc4210.PKIMessage.call.ty = some t' ∧ ∀ (h bd : Val) (eh eb : Bytes), t.valid h = true → encode t h = some eh →
      t'.valid bd = true → encode t' bd = some eb →
      ∀ (cl : Cls) (n : Nat) (k : Bool) (s b rest : Bytes), Ber.Element cl n k (eh ++ eb ++ s) b →
      ∀ (v : Val) (rest' : Bytes), decode Rfc4210.PKIMessage.call.ty (b ++ rest) = some (v, rest') →
      rest' = rest ∧ ∃ h' bd', part "header" Rfc4210.PKIMessage.call.ty v = some (t, h') ∧
        part "body" Rfc4210.PKIMessage.call.ty v = some (t', bd') ∧
        ∀ p, encode Rfc4210.ProtectedPart.call.ty (.record (.cons h' (.cons bd' .nil))) = some p ↔
          Der.Element ⟨.universal, true, 16⟩ true (eh ++ eb) p := by
  obtain ⟨a, tg, f, g, t, t', cs, a', tg', f', g', h1, h2, h3, h4, h5, h6, h7, h8, rfl, h10, h11, h12⟩ := protected_shape
  refine ⟨t, t', by simp [h1, typed, typed.go, h3], by simp [h1, typed, typed.go, h3, h4], fun h bd eh eb hh he hb he' cl n k s b rest hx v rest' hd => ?_⟩
  rw [h1] at hd ⊢
  obtain ⟨g1, vs, rfl, hq⟩ := received a tg h2 _ h5 h6 (.cons h (.cons bd .nil)) [eh, eb]
    (.cons _ _ _ _ _ _ _ hh he (.cons _ _ _ _ _ _ _ hb he' (.nil _ _))) cl n k s b rest (by simpa using hx) v rest' hd
  refine ⟨g1, ?_⟩
  cases hq with
  | cons _ _ _ w ws _ _ hv1 hw hq =>
    cases hq with
    | cons _ _ _ w' ws' _ _ hv2 hw' _ =>
      refine ⟨w, w', by simp [part, named, h3], by simp [part, named, h3, h4], fun p => ?_⟩
      rw [h7]
      exact pair a' _ h8 h10 f' g' h11 h12 t t' w w' eh eb hv1 hv2 hw hw' p

/-! ## CMS: signed attributes -/

/-- The same collection under another tag: the contents stay. -/
theorem retag (isSet : Bool) (a a' : Attrs) (tg tg' : Tag) (ht : a.tags = [tg]) (ht' : a'.tags = [tg'])
    (hs : ∀ s, a.spec.ok s = a'.spec.ok s) (t : Ty) (v : Val) (c b b' : Bytes) (hb : Der.Element tg true c b)
    (he : encode (.of isSet a t) v = some b) (hb' : Der.Element tg' true c b') : encode (.of isSet a' t) v = some b' := by
  rw [Der.element_iff tg true true (by simp)] at hb
  rw [Der.element_iff tg' true true (by simp)] at hb'
  cases v <;> simp only [encode, enc, reduceCtorEq] at he ⊢
  split at he
  rotate_left
  · simp at he
  rename_i hok
  rw [hs] at hok
  rw [if_pos hok]
  split at he
  · simp at he
  rename_i ps hps
  simp only [ht, ht', wrap] at he ⊢
  cases hx : tlv tg true (List.flatMap Prod.fst (if isSet = true then sortChunks ps else ps)) with
  | none => simp [hx] at he
  | some y =>
    have hc : List.flatMap Prod.fst (if isSet = true then sortChunks ps else ps) = c := by
      have he : y = b := by simpa [hx] using he
      subst he
      have g1 := (isTLV_tlv _ _ _ _ hx).2 []
      have g2 := (isTLV_tlv _ _ _ _ hb).2 []
      rw [g1] at g2
      simp only [Option.some.injEq, Prod.mk.injEq, TLV.mk.injEq] at g2
      exact g2.1.2.2.2.1
    simp [hc, hb']

/-- The shape of a SignerInfo: three components, then the attributes `[0] IMPLICIT`, otherwise as the class `u`
(same elements, an equivalent size constraint). -/
def SignerLike (u ty : Ty) (name : String) : Prop :=
  ∃ a tg f0 t0 f1 t1 f2 t2 f x y t cs, ty = .seq false a (.cons f0 t0 (.cons f1 t1 (.cons f2 t2 (.cons f (.of true x t) cs)))) ∧
    a.tags = [tg] ∧ ty.wf = true ∧ ty.stable = true ∧ f0.name ≠ name ∧ f1.name ≠ name ∧ f2.name ≠ name ∧ f.name = name ∧
    x.tags = [⟨.context, true, 0⟩] ∧ u = .of true y t ∧ y.tags = [⟨.universal, true, 17⟩] ∧
    ∀ s, y.spec.ok s = x.spec.ok s

/-- A size constraint alone, or wrapped in an intersection. -/
local macro "sizes" : tactic => `(tactic| first | rfl | exact Bool.and_true _)

theorem signer_2315 : SignerLike Rfc2315.Attributes.call.ty Rfc2315.SignerInfo.call.ty "authenticatedAttributes" :=
  ⟨_, _, _, _, _, _, _, _, _, _, _, _, _, rfl, rfl, by decide +kernel, by decide +kernel, by decide, by decide, by decide, rfl,
    rfl, rfl, rfl, fun s => by sizes⟩

theorem signer_3852 : SignerLike Rfc3852.SignedAttributes.call.ty Rfc3852.SignerInfo.call.ty "signedAttrs" :=
  ⟨_, _, _, _, _, _, _, _, _, _, _, _, _, rfl, rfl, by decide +kernel, by decide +kernel, by decide, by decide, by decide, rfl,
    rfl, rfl, rfl, fun s => by sizes⟩

theorem signer_5652 : SignerLike Rfc5652.SignedAttributes.call.ty Rfc5652.SignerInfo.call.ty "signedAttrs" :=
  ⟨_, _, _, _, _, _, _, _, _, _, _, _, _, rfl, rfl, by decide +kernel, by decide +kernel, by decide, by decide, by decide, rfl,
    rfl, rfl, rfl, fun s => by sizes⟩

/-- The components of a SEQUENCE. -/
def comps : Ty → Comps
  | .seq _ _ cs => cs
  | _ => .nil

/-- **C43 for CMS.**  RFC 5652, 5.4: what is signed is not the `[0]` element in the message but `d`, the same attributes
under the tag of SET OF; `c` are the contents octets they share.  Whatever follows in the message: if it is decoded,
encoding the decoded attributes as the class `u` gives `d`. -/
theorem signed_attributes (u ty : Ty) (name : String) (hs : SignerLike u ty name) (sa : Val) (c d e : Bytes)
    (hv : u.valid sa = true) (hd : encode u sa = some d) (hc : Der.Element ⟨.universal, true, 17⟩ true c d)
    (he : Der.Element ⟨.context, true, 0⟩ true c e) (us : Vals) (e0 e1 e2 : Bytes) (hp : Parts (comps ty) us [e0, e1, e2])
    (cl : Cls) (n : Nat) (k : Bool) (s b rest : Bytes) (hb : Ber.Element cl n k (e0 ++ e1 ++ e2 ++ e ++ s) b)
    (v : Val) (rest' : Bytes) (hx : decode ty (b ++ rest) = some (v, rest')) :
    rest' = rest ∧ ∃ t w, part name ty v = some (t, w) ∧ u.valid w = true ∧ encode u w = some d := by
  obtain ⟨a, tg, f0, t0, f1, t1, f2, t2, f, x, y, t, cs, rfl, h1, h2, h3, h4, h5, h6, h7, h8, rfl, h10, h11⟩ := hs
  have hvalid : ∀ w, (Ty.of true y t).valid w = (Ty.of true x t).valid w := by
    intro w; cases w <;> simp [Ty.valid, h11]
  have h9 : encode (.of true x t) sa = some e := retag true y x _ _ h10 h8 h11 t sa c d e hc hd he
  rw [hvalid] at hv
  simp only [Ty.wf, Bool.and_eq_true] at h2
  have hq : ∃ us, Parts (comps (.seq false a (.cons f0 t0 (.cons f1 t1 (.cons f2 t2 (.cons f (.of true x t) cs)))))) us
      [e0, e1, e2, e] := by
    cases hp with
    | cons _ _ _ v0 _ _ _ p0 q0 hp =>
      cases hp with
      | cons _ _ _ v1 _ _ _ p1 q1 hp =>
        cases hp with
        | cons _ _ _ v2 _ _ _ p2 q2 hp =>
          exact ⟨_, .cons _ _ _ _ _ _ _ p0 q0 (.cons _ _ _ _ _ _ _ p1 q1 (.cons _ _ _ _ _ _ _ p2 q2
            (.cons _ _ _ _ .nil _ _ hv h9 (.nil _ _))))⟩
  obtain ⟨us, hq⟩ := hq
  obtain ⟨g1, vs, rfl, hq⟩ := received a tg h1 _ h2.1.1.2 h3 us [e0, e1, e2, e] hq cl n k s b rest
    (by simpa [List.append_assoc] using hb) v rest' hx
  refine ⟨g1, ?_⟩
  cases hq with
  | cons _ _ _ v0 _ _ _ _ _ hq =>
    cases hq with
    | cons _ _ _ v1 _ _ _ _ _ hq =>
      cases hq with
      | cons _ _ _ v2 _ _ _ _ _ hq =>
        cases hq with
        | cons _ _ _ w ws _ _ p3 q3 hq =>
          subst h7
          refine ⟨.of true x t, w, by simp [part, named, h4, h5, h6], by rw [hvalid]; exact p3, ?_⟩
          exact retag true x y _ _ h8 h10 (fun s => (h11 s).symm) t w c e d he q3 hc

/-! ## Examples -/

/-- An OCSP request without requests.  The outer header is not the shortest one; the signed part comes back. -/
example : (decode Rfc6960.OCSPRequest.call.ty [0x30, 0x81, 4, 0x30, 2, 0x30, 0]).bind
      (fun p => (part "tbsRequest" Rfc6960.OCSPRequest.call.ty p.1).bind (fun q => encode q.1 q.2)) = some [0x30, 2, 0x30, 0] := by
  decide +kernel

/-- That the signed part is DER is needed: the same request with the long header inside is decoded too, and then
the signed octets are lost. -/
theorem der_needed : (decode Rfc6960.OCSPRequest.call.ty [0x30, 5, 0x30, 0x81, 2, 0x30, 0]).bind
      (fun p => (part "tbsRequest" Rfc6960.OCSPRequest.call.ty p.1).bind (fun q => encode q.1 q.2)) = some [0x30, 2, 0x30, 0] := by
  decide +kernel

/-- A SignerInfo with two signed attributes, as `signed_attributes` describes it. -/
def someAttrs : Val :=
  .list (.ofList [.record (.ofList [.oid [1, 2, 3], .list (.ofList [.octets [5, 0]])]),
    .record (.ofList [.oid [1, 2, 4], .list (.ofList [.octets [2, 1, 7]])])])

example : Rfc5652.SignedAttributes.call.ty.valid someAttrs = true ∧ encode Rfc5652.SignedAttributes.call.ty someAttrs =
    some [0x31, 21, 0x30, 8, 6, 2, 42, 3, 0x31, 2, 5, 0, 0x30, 9, 6, 2, 42, 4, 0x31, 3, 2, 1, 7] := by decide +kernel

example : (decode Rfc5652.SignerInfo.call.ty ([0x30, 0x81, 41, 2, 1, 3, 0x80, 1, 9, 0x30, 3, 6, 1, 42] ++
      [0xA0, 21, 0x30, 8, 6, 2, 42, 3, 0x31, 2, 5, 0, 0x30, 9, 6, 2, 42, 4, 0x31, 3, 2, 1, 7] ++ [0x30, 3, 6, 1, 42, 4, 0])).bind
      (fun p => (part "signedAttrs" Rfc5652.SignerInfo.call.ty p.1).bind
        (fun q => encode Rfc5652.SignedAttributes.call.ty q.2)) =
    some [0x31, 21, 0x30, 8, 6, 2, 42, 3, 0x31, 2, 5, 0, 0x30, 9, 6, 2, 42, 4, 0x31, 3, 2, 1, 7] := by decide +kernel

end Parts
end Props
end Verif
