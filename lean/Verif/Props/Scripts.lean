import Verif.Props.Tools
import Verif.Props.Cmc
import Verif.Spec.Scripts

/-!
# The dump scripts, by what they are for

C09 again, with the labels, classes and content types of `Verif/Spec/Scripts.lean` instead of
those in the model of the scripts.
-/

namespace Verif
namespace Props
namespace Scripts

open Verif.Tools
open Verif.Pem hiding Bytes
open Verif.Asn1
open Verif.Spec
open Verif.Props.Pem

/-! ## Scripts that read blocks -/

/-- The scripts, with the labels they look for and the class each label stands for. -/
def blockScripts : List ((Text → Run) × List (String × Ty)) :=
  [(x509dump.run, [("CERTIFICATE", Rfc2459.Certificate.call.ty)]),
   (x509dump5280.run, [("CERTIFICATE", Rfc5280.Certificate.call.ty)]),
   (crldump.run, [("X509 CRL", Rfc2459.CertificateList.call.ty)]),
   (pkcs10dump.run, [("CERTIFICATE REQUEST", Rfc2314.CertificationRequest.call.ty)]),
   (pkcs8dump.run, [("PRIVATE KEY", Rfc5208.PrivateKeyInfo.call.ty),
      ("ENCRYPTED PRIVATE KEY", Rfc5208.EncryptedPrivateKeyInfo.call.ty)]),
   (pkcs1dump.run, [("RSA PRIVATE KEY", Rfc2437.RSAPrivateKey.call.ty), ("DSA PRIVATE KEY", Rfc2459.DSAPrivateKey.call.ty)])]

/-- The block holds a legal value of the class its label stands for, maybe with octets behind it, and no line
before it opens a block. -/
structure Holds (kinds : List (String × Ty)) (m : Armour) (t : Ty) (v : Val) : Prop where
  width : m.width ≠ 0
  kind : (m.label, t) ∈ kinds
  lines : ∀ l ∈ m.pre, IsLine l
  pre : ∀ l ∈ m.pre, ∀ k ∈ kinds, Verif.Pem.strip l ≠ opening k.1
  valid : t.valid v = true
  size : t.weight v < Codec.maxOctets
  octets : ∃ e extra, encode t v = some e ∧ m.octets = e ++ extra

theorem opening_eq (label : String) : opening label = (marker label).1 := by
  show _ = ("-----BEGIN " ++ label ++ "-----").toList
  unfold opening
  rw [String.toList_append, String.toList_append]
theorem closing_eq (label : String) : closing label = (marker label).2 := by
  show _ = ("-----END " ++ label ++ "-----").toList
  unfold closing
  rw [String.toList_append, String.toList_append]

theorem dump_holds (d : Dump) (hd : d ∈ Tools.scripts) (ms : List (Armour × Ty × Val))
    (hm : ∀ m ∈ ms, Holds d.blocks m.1 m.2.1 m.2.2) (tail : List Text) (h1 : ∀ l ∈ tail, IsLine l)
    (h2 : ∀ l ∈ tail, ∀ k ∈ d.blocks, Verif.Pem.strip l ≠ opening k.1) :
    ∃ ws, all2 (fun (m : Armour × Ty × Val) w => m.2.1.same false m.2.2 w) ms ws ∧
      d.run (ms.flatMap (fun m => unlines m.1.lines) ++ unlines tail) = { printed := ws, count := some ms.length } := by
  have notMarker : ∀ l, (∀ k ∈ d.blocks, Verif.Pem.strip l ≠ opening k.1) → ¬ IsMarker (d.markers.map (·.1)) l := by
    intro l hl hc
    unfold IsMarker at hc
    simp only [Dump.markers, List.map_map, List.mem_map, Function.comp] at hc
    obtain ⟨k, hk, he⟩ := hc
    exact hl k hk (by rw [opening_eq]; exact he.symm)
  have key : ∃ is : List Tools.Item, (∀ m ∈ is, m.Ok d) ∧
      is.map (fun m => (m.t, m.v, m.block.lines)) = ms.map (fun m => (m.2.1, m.2.2, m.1.lines)) := by
    clear h1 h2
    induction ms with
    | nil => exact ⟨[], by simp, rfl⟩
    | cons m ms ih =>
      obtain ⟨is, i1, i2⟩ := ih (fun m' h' => hm m' (by simp [h']))
      have h := hm m (by simp)
      obtain ⟨e, extra, h3, h4⟩ := h.octets
      obtain ⟨i, hi⟩ := List.getElem?_of_mem h.kind
      refine ⟨⟨m.1.pre, i, m.1.label, m.2.1, m.2.2, extra, m.1.width⟩ :: is, ?_, ?_⟩
      · intro x hx
        rcases List.mem_cons.1 hx with rfl | hx
        · exact ⟨h.width, hi, h.lines, fun l hl => notMarker l (h.pre l hl), h.valid, h.size⟩
        · exact i1 x hx
      · simp only [List.map_cons, i2, List.cons.injEq, and_true, true_and, Prod.mk.injEq]
        simp [Block.lines, Tools.Item.block, Armour.lines, opening_eq, closing_eq, Tools.Item.octets, h3, h4]
  obtain ⟨is, i1, i2⟩ := key
  obtain ⟨ws, j1, j2⟩ := Tools.scripts_values d hd is i1 tail h1 (fun l hl => notMarker l (h2 l hl))
  have e1 : is.flatMap (fun m => unlines m.block.lines) = ms.flatMap (fun m => unlines m.1.lines) := by
    have := congrArg (fun x => x.flatMap (fun (y : Ty × Val × List Text) => unlines y.2.2)) i2
    simpa [List.flatMap_map] using this
  have e2 : is.length = ms.length := by simpa using congrArg List.length i2
  refine ⟨ws, ?_, by rw [← e1, j2, e2]⟩
  clear j2 e1 e2 i1 hm h2 notMarker
  induction is generalizing ms ws with
  | nil =>
    cases ms with
    | nil => cases ws <;> exact j1
    | cons => simp at i2
  | cons i is ih =>
    cases ms with
    | nil => simp at i2
    | cons m ms =>
      cases ws with
      | nil => exact j1.elim
      | cons w ws =>
        simp only [List.map_cons, List.cons.injEq, Prod.mk.injEq] at i2
        refine ⟨?_, ih ms i2.2 ws j1.2⟩
        show m.2.1.same false m.2.2 w
        rw [← i2.1.1, ← i2.1.2.1]
        exact j1.1

/-- C09: each of the six scripts prints all the values in a file of PEM blocks with its labels, in order, and their
number; text between the blocks and octets behind the values do not matter. -/
theorem blocks_printed (run : Text → Run) (kinds : List (String × Ty)) (hr : (run, kinds) ∈ blockScripts)
    (ms : List (Armour × Ty × Val)) (hm : ∀ m ∈ ms, Holds kinds m.1 m.2.1 m.2.2) (tail : List Text)
    (h1 : ∀ l ∈ tail, IsLine l) (h2 : ∀ l ∈ tail, ∀ k ∈ kinds, Verif.Pem.strip l ≠ opening k.1) :
    ∃ ws, all2 (fun (m : Armour × Ty × Val) w => m.2.1.same false m.2.2 w) ms ws ∧
      run (ms.flatMap (fun m => unlines m.1.lines) ++ unlines tail) = { printed := ws, count := some ms.length } := by
  have : ∃ d ∈ Tools.scripts, run = d.run ∧ kinds = d.blocks := by
    simp only [blockScripts, List.mem_cons, List.not_mem_nil, or_false, Prod.mk.injEq] at hr
    rcases hr with ⟨rfl, rfl⟩ | ⟨rfl, rfl⟩ | ⟨rfl, rfl⟩ | ⟨rfl, rfl⟩ | ⟨rfl, rfl⟩ | ⟨rfl, rfl⟩
    · exact ⟨x509dump, by simp [Tools.scripts], rfl, rfl⟩
    · exact ⟨x509dump5280, by simp [Tools.scripts], rfl, rfl⟩
    · exact ⟨crldump, by simp [Tools.scripts], rfl, rfl⟩
    · exact ⟨pkcs10dump, by simp [Tools.scripts], rfl, rfl⟩
    · exact ⟨pkcs8dump, by simp [Tools.scripts], rfl, rfl⟩
    · exact ⟨pkcs1dump, by simp [Tools.scripts], rfl, rfl⟩
  obtain ⟨d, hd, rfl, rfl⟩ := this
  exact dump_holds d hd ms hm tail h1 h2

/-! ## Scripts that read a single object -/

/-- The scripts that read base64 without PEM lines, and what they read. -/
def objectScripts : List ((Text → List Val × Ending) × Ty) :=
  [(crmfdump, Rfc2511.CertReqMessages.call.ty), (ocspreqdump, Rfc2560.OCSPRequest.call.ty),
   (ocsprspdump, Rfc2560.OCSPResponse.call.ty), (cmpdump, Rfc4210.PKIMessage.call.ty)]

theorem objectScripts_single (run : Text → List Val × Ending) (t : Ty) (h : (run, t) ∈ objectScripts) :
    run = single t ∧ ∃ n, (n, t) ∈ Package.types ∧ n ∉ Package.defective := by
  have ht := Tools.single_types t
  simp only [objectScripts, List.mem_cons, List.not_mem_nil, or_false, Prod.mk.injEq] at h
  rcases h with ⟨rfl, rfl⟩ | ⟨rfl, rfl⟩ | ⟨rfl, rfl⟩ | ⟨rfl, rfl⟩ <;> exact ⟨rfl, ht (by simp)⟩

/-- C09: each of these four scripts prints every legal value of its class, given in base64 with any other characters
in between, and ends normally if, and only if, nothing follows the value. -/
theorem object_printed (run : Text → List Val × Ending) (t : Ty) (h : (run, t) ∈ objectScripts) (v : Val)
    (hv : t.valid v = true) (hs : t.weight v < Codec.maxOctets) (b extra : List UInt8) (hb : encode t v = some b)
    (stdin : Text) (hi : stdin.filter (fun c => alphabet.contains c || c == '=') = base64 (b ++ extra)) :
    ∃ w, t.same false v w ∧ run stdin = ([w], if extra = [] then .exit else .raised) := by
  obtain ⟨rfl, n, hc, hd⟩ := objectScripts_single run t h
  by_cases he : extra = []
  · subst he
    rw [List.append_nil] at hi
    simpa using Tools.single_value n t hc hd v hv hs b hb stdin hi
  · simpa [he] using Tools.single_trailing n t hc hd v hv hs b extra hb he stdin hi

/-- C09: on any input they end normally only if there is nothing to read or if the input is just what they write
for the value they read; and what is printed was read from the octets in the input. -/
theorem object_any (run : Text → List Val × Ending) (t : Ty) (h : (run, t) ∈ objectScripts) (stdin : Text) :
    ((run stdin).2 = .exit ↔ readBase64FromFile stdin = some [] ∨ ∃ b v r, readBase64FromFile stdin = some b ∧
      decode t b = some (v, r) ∧ encode t v = some b) ∧
    ∀ v ∈ (run stdin).1, ∃ b r, readBase64FromFile stdin = some b ∧ decode t b = some (v, r) := by
  obtain ⟨rfl, n, hc, hd⟩ := objectScripts_single run t h
  refine ⟨?_, ?_⟩
  · rw [Tools.single_any]
    refine or_congr Iff.rfl ⟨?_, ?_⟩
    · rintro ⟨b, v, h1, ⟨r, h2⟩, h3⟩
      exact ⟨b, v, r, h1, h2, h3⟩
    · rintro ⟨b, v, r, h1, h2, h3⟩
      exact ⟨b, v, h1, ⟨r, h2⟩, h3⟩
  · intro v hv
    unfold single at hv
    cases hb : readBase64FromFile stdin with
    | none => simp [hb] at hv
    | some b =>
      simp only [hb] at hv
      split at hv
      · simp at hv
      · split at hv
        · simp at hv
        · rename_i w r hd
          simp only [List.mem_singleton] at hv
          exact ⟨b, r, rfl, by rw [hv]; exact hd⟩

/-! ## pkcs7dump -/

/-- A pair of two components is known when both are. -/
theorem two_look {a : Attrs} {f0 f1 : Field} {t0 t1 : Ty} {n0 n1 : String} {m x y : Val}
    (hm : Ty.admits (.seq false a (.cons f0 t0 (.cons f1 t1 .nil))) m = true) (e0 : f0.name = n0) (e1 : f1.name = n1)
    (h0 : look [.field n0] (.seq false a (.cons f0 t0 (.cons f1 t1 .nil))) m = some x)
    (h1 : look [.field n1] (.seq false a (.cons f0 t0 (.cons f1 t1 .nil))) m = some y) (hn : n0 ≠ n1 := by decide) :
    m = .record (.ofList [x, y]) := by
  cases m with
  | record vs =>
    rw [Ty.admits] at hm
    cases vs with
    | nil => simp [Comps.admits] at hm
    | cons v vs =>
    cases vs with
    | nil => simp [Comps.admits] at hm
    | cons w vs =>
    cases vs with
    | cons => simp [Comps.admits] at hm
    | nil =>
    subst e0 e1
    simp [look, fieldAt] at h0
    simp [look, fieldAt, hn] at h1
    rw [h0, h1]
    rfl
  | _ => simp [look] at h0


theorem contentInfo_look (m : Val) (hm : Rfc2315.ContentInfo.call.ty.admits m = true) (o : List Nat) (b : List UInt8)
    (h1 : look [.field "contentType"] Rfc2315.ContentInfo.call.ty m = some (.oid o))
    (h2 : look [.field "content"] Rfc2315.ContentInfo.call.ty m = some (.octets b)) : m = Tools.contentInfo o b := by
  obtain ⟨a, f0, f1, t0, t1, h, n0, n1⟩ : ∃ a f0 f1 t0 t1, Rfc2315.ContentInfo.call.ty =
      .seq false a (.cons f0 t0 (.cons f1 t1 .nil)) ∧ f0.name = "contentType" ∧ f1.name = "content" :=
    ⟨_, _, _, _, _, rfl, rfl, rfl⟩
  rw [h] at hm h1 h2
  exact two_look hm n0 n1 h1 h2

/-- C09: pkcs7dump shows the contents of every message of the six content types of RFC 2315. -/
theorem pkcs7_printed (o : List Nat) (t : Ty) (ho : (o, t) ∈ pkcs7Types) (v : Val) (hv : t.valid v = true)
    (hs : t.weight v < Codec.maxOctets) (b e : List UInt8) (hb : encode t v = some b) (m : Val)
    (hm : Rfc2315.ContentInfo.call.ty.admits m = true)
    (h1 : look [.field "contentType"] Rfc2315.ContentInfo.call.ty m = some (.oid o))
    (h2 : look [.field "content"] Rfc2315.ContentInfo.call.ty m = some (.octets b))
    (hs' : Rfc2315.ContentInfo.call.ty.weight m < Codec.maxOctets)
    (he : encode Rfc2315.ContentInfo.call.ty m = some e) (a : Armour) (ha : a.label = "PKCS7") (hw : a.width ≠ 0)
    (hl : ∀ l ∈ a.pre, IsLine l) (hp : ∀ l ∈ a.pre, Verif.Pem.strip l ≠ opening "PKCS7")
    (extra : List UInt8) (hx : a.octets = e ++ extra) (post : Text) :
    ∃ w, t.same false v w ∧ pkcs7dump (unlines a.lines ++ post) = ([m, w], .exit) := by
  have hm' : m = Tools.contentInfo o b := contentInfo_look m hm o b h1 h2
  subst hm'
  obtain ⟨w, e1, e2⟩ := Tools.pkcs7_value (o, t) (by exact ho) v hv hs b e hb hs' he a.width hw a.pre hl
    (fun l h => by rw [← opening_eq]; exact hp l h) extra post
  refine ⟨w, e1, ?_⟩
  rw [← e2, Armour.lines, ha, hx, opening_eq, closing_eq]

theorem contentOf_some {m : Val} {o : List Nat} {c : Bytes} (h : contentOf m = some (o, c)) : m = Tools.contentInfo o c := by
  unfold contentOf at h
  split at h
  · simp only [Option.some.injEq, Prod.mk.injEq] at h
    rw [h.1, h.2]
    rfl
  · simp at h

/-- C09: on any input, pkcs7dump ends normally exactly when the first block holds a message the package writes as
it is (something may follow) and its contents can be read as its content type says; it prints these two. -/
theorem pkcs7_any (stdin : Text) (ps : List Val) : pkcs7dump stdin = (ps, .exit) ↔
    ∃ e extra m o c t w r, (readPemBlocksFromFile stdin [(opening "PKCS7", closing "PKCS7")]).substrate = .bytes (e ++ extra) ∧
      decode Rfc2315.ContentInfo.call.ty (e ++ extra) = some (m, extra) ∧ encode Rfc2315.ContentInfo.call.ty m = some e ∧
      look [.field "contentType"] Rfc2315.ContentInfo.call.ty m = some (.oid o) ∧
      look [.field "content"] Rfc2315.ContentInfo.call.ty m = some (.octets c) ∧
      (o, t) ∈ pkcs7Types ∧ decode t c = some (w, r) ∧ ps = [m, w] := by
  rw [show [(opening "PKCS7", closing "PKCS7")] = [marker "PKCS7"] by rw [opening_eq, closing_eq]]
  unfold pkcs7dump
  constructor
  · intro h
    split at h
    · rename_i substrate hsub
      split at h
      · simp at h
      · split at h
        · rename_i m hrec
          obtain ⟨_, e, extra, h1, rfl, h2, h3⟩ := Tools.recode_true hrec
          cases h1
          split at h
          · simp at h
          · rename_i w hw
            simp only [Prod.mk.injEq, and_true] at h
            unfold inner at hw
            cases hc : contentOf m with
            | none => simp [hc] at hw
            | some oc =>
              obtain ⟨o, c⟩ := oc
              simp only [hc] at hw
              cases hl : contentInfoMap.lookup o with
              | none => simp [hl] at hw
              | some t =>
                simp only [hl, Option.map_eq_some_iff] at hw
                obtain ⟨⟨w', r⟩, hw, rfl⟩ := hw
                have hm := contentOf_some hc
                refine ⟨e, extra, m, o, c, t, w', r, hsub, h2, h3, by rw [hm]; rfl, by rw [hm]; rfl, ?_, hw, h.symm⟩
                show (o, t) ∈ contentInfoMap
                rw [List.lookup_eq_some_iff] at hl
                obtain ⟨l1, l2, hl, _⟩ := hl
                rw [hl]
                simp
        · simp at h
    · simp at h
  · rintro ⟨e, extra, m, o, c, t, w, r, h1, h2, h3, h4, h5, h6, h7, rfl⟩
    have hm := contentInfo_look m (Codec.decoded_admitted _ _ _ _ h2) o c h4 h5
    have hne : (e ++ extra).isEmpty = false := by
      obtain ⟨p, hp, hp', _⟩ := Codec.decode_consumes _ _ _ _ h2
      rw [hp']; cases p <;> simp_all
    have hi : inner m = some w := by
      rw [hm]
      simp [inner, Tools.contentInfo, contentOf, Vals.ofList,
        show contentInfoMap.lookup o = some t from Tools.contentInfoMap_lookup (o, t) h6, h7]
    rw [h1]
    simp only [hne, Bool.false_eq_true, ↓reduceIte, Tools.recode_accepts h2 h3, hi]

/-! ## cmcdump -/

theorem oid_contentInfo : Rfc5652.id_ct_contentInfo.value = .oid ctContentInfo := by decide +kernel
theorem oid_signedData : Rfc5652.id_signedData.value = .oid ctSignedData := by decide +kernel
theorem oid_pkiData : Rfc6402.id_cct_PKIData.value = .oid cctPKIData := by decide +kernel

theorem cmcStep_eq (l : Layer) : cmcStep l =
    if l.oid = ctContentInfo then
      match whole Rfc5652.ContentInfo.call.ty l.data with
      | none => .raised
      | some v => advance v (wrapped v)
    else if l.oid = ctSignedData then
      match whole Rfc5652.SignedData.call.ty l.data with
      | none => .raised
      | some v => advance v (signed v)
    else if l.oid = cctPKIData then
      match whole Rfc6402.PKIData.call.ty l.data with
      | none => .raised
      | some v => .last v
    else .same := by
  unfold cmcStep
  rw [oid_contentInfo, oid_signedData, oid_pkiData]
  simp only [Val.oid.injEq]
  rfl

theorem whole_iff {t : Ty} {b : Bytes} {v : Val} : whole t (some b) = some v ↔ Exactly t b v := by
  constructor
  · intro h
    obtain ⟨b', e, h1, h2⟩ := Cmc.whole_some h
    cases e
    exact ⟨h1, h2⟩
  · rintro ⟨h1, h2⟩
    simp [whole, h1, h2]

theorem info_look {m : Val} {o : List Nat} {c : List UInt8} (hm : Rfc5652.ContentInfo.call.ty.admits m = true) :
    wrapped m = some ⟨o, some c⟩ ↔ look [.field "contentType"] Rfc5652.ContentInfo.call.ty m = some (.oid o) ∧
      look [.field "content"] Rfc5652.ContentInfo.call.ty m = some (.octets c) := by
  constructor
  · intro h
    obtain ⟨c', h1, h2⟩ := Cmc.wrapped_some h
    cases h2
    rw [h1]
    exact ⟨rfl, rfl⟩
  · rintro ⟨h1, h2⟩
    have : m = .record (.ofList [.oid o, .octets c]) := by
      obtain ⟨a, f0, f1, t0, t1, h, n0, n1⟩ : ∃ a f0 f1 t0 t1, Rfc5652.ContentInfo.call.ty =
          .seq false a (.cons f0 t0 (.cons f1 t1 .nil)) ∧ f0.name = "contentType" ∧ f1.name = "content" :=
        ⟨_, _, _, _, _, rfl, rfl, rfl⟩
      rw [h] at hm h1 h2
      exact two_look hm n0 n1 h1 h2
    rw [this]
    rfl

/-- What signed data encloses: the content type and, unless the signature is detached, the contents. -/
theorem signed_look {m : Val} {o : List Nat} (hm : Rfc5652.SignedData.call.ty.admits m = true) (d : Option Bytes) :
    signed m = some ⟨o, d⟩ ↔
      look [.field "encapContentInfo", .field "eContentType"] Rfc5652.SignedData.call.ty m = some (.oid o) ∧
      look [.field "encapContentInfo", .field "eContent"] Rfc5652.SignedData.call.ty m =
        some (match d with | some c => .octets c | none => .absent) := by
  constructor
  · intro h
    obtain ⟨v0, v1, c, vs, h1, h2⟩ := Cmc.signed_some h
    rw [h1]
    rcases h2 with ⟨b, rfl, h2⟩ | ⟨rfl, h2⟩
    · cases h2
      exact ⟨rfl, rfl⟩
    · cases h2
      exact ⟨rfl, rfl⟩
  · rintro ⟨h1, h2⟩
    obtain ⟨a, f0, f1, f2, t0, t1, cs, a2, g0, g1, u0, u1, h, n0, n1, n2, m2, k0, k1⟩ : ∃ a f0 f1 f2 t0 t1 cs a2 g0 g1 u0 u1,
        Rfc5652.SignedData.call.ty = .seq false a (.cons f0 t0 (.cons f1 t1 (.cons f2
          (.seq false a2 (.cons g0 u0 (.cons g1 u1 .nil))) cs))) ∧ f0.name ≠ "encapContentInfo" ∧
          f1.name ≠ "encapContentInfo" ∧ f2.name = "encapContentInfo" ∧ f2.mode = .req ∧ g0.name = "eContentType" ∧
          g1.name = "eContent" :=
      ⟨_, _, _, _, _, _, _, _, _, _, _, _, rfl, by decide, by decide, rfl, rfl, rfl, rfl⟩
    rw [h] at hm h1 h2
    cases m with
    | record vs =>
      rw [Ty.admits] at hm
      cases vs with
      | nil => simp [Comps.admits] at hm
      | cons v0 vs =>
      cases vs with
      | nil => simp [Comps.admits] at hm
      | cons v1 vs =>
      cases vs with
      | nil => simp [Comps.admits] at hm
      | cons v2 vs =>
      simp only [Comps.admits, m2, Bool.and_eq_true] at hm
      have h3 := hm.1.2.2.1
      simp only [look, fieldAt, n0, n1, n2, ↓reduceIte] at h1 h2
      have := two_look h3 k0 k1 h1 h2
      rw [this]
      cases d <;> rfl
    | _ => simp [look] at h1

theorem step_next {o o' : List Nat} {b b' : Bytes} {v : Val} :
    cmcStep ⟨o, some b⟩ = .next v ⟨o', some b'⟩ ↔ Around o b v o' b' := by
  constructor
  · intro h
    rw [cmcStep_eq] at h
    simp only at h
    split at h
    · rename_i ho
      subst ho
      split at h
      · simp at h
      · rename_i w hw
        have hw := whole_iff.1 hw
        cases hs : wrapped w with
        | none => simp [advance, hs] at h
        | some l =>
          simp only [advance, hs, Step.next.injEq] at h
          obtain ⟨rfl, rfl⟩ := h
          have := (info_look (Codec.decoded_admitted _ _ _ _ hw.1)).1 hs
          exact .info hw this.1 this.2
    · split at h
      · rename_i ho
        subst ho
        split at h
        · simp at h
        · rename_i w hw
          have hw := whole_iff.1 hw
          cases hs : signed w with
          | none => simp [advance, hs] at h
          | some l =>
            simp only [advance, hs, Step.next.injEq] at h
            obtain ⟨rfl, rfl⟩ := h
            have := (signed_look (Codec.decoded_admitted _ _ _ _ hw.1) _).1 hs
            exact .signed hw this.1 this.2
      · split at h
        · split at h <;> simp at h
        · simp at h
  · intro h
    rw [cmcStep_eq]
    cases h with
    | info h1 h2 h3 =>
      simp only [↓reduceIte, whole_iff.2 h1, (info_look (Codec.decoded_admitted _ _ _ _ h1.1)).2 ⟨h2, h3⟩, advance]
    | signed h1 h2 h3 =>
      simp only [show ¬ ctSignedData = ctContentInfo by decide, ↓reduceIte, whole_iff.2 h1,
        (signed_look (Codec.decoded_admitted _ _ _ _ h1.1) (some b')).2 ⟨h2, h3⟩, advance]

theorem step_detached {o o' : List Nat} {b : Bytes} {v : Val} :
    cmcStep ⟨o, some b⟩ = .next v ⟨o', none⟩ ↔ o = ctSignedData ∧ Exactly Rfc5652.SignedData.call.ty b v ∧
      look [.field "encapContentInfo", .field "eContentType"] Rfc5652.SignedData.call.ty v = some (.oid o') ∧
      look [.field "encapContentInfo", .field "eContent"] Rfc5652.SignedData.call.ty v = some .absent := by
  constructor
  · intro h
    rw [cmcStep_eq] at h
    simp only at h
    split at h
    · split at h
      · simp at h
      · rename_i w hw
        cases hs : wrapped w with
        | none => simp [advance, hs] at h
        | some l =>
          simp only [advance, hs, Step.next.injEq] at h
          obtain ⟨rfl, rfl⟩ := h
          obtain ⟨_, _, h2⟩ := Cmc.wrapped_some hs
          simp at h2
    · split at h
      · rename_i ho
        subst ho
        split at h
        · simp at h
        · rename_i w hw
          have hw := whole_iff.1 hw
          cases hs : signed w with
          | none => simp [advance, hs] at h
          | some l =>
            simp only [advance, hs, Step.next.injEq] at h
            obtain ⟨rfl, rfl⟩ := h
            have := (signed_look (Codec.decoded_admitted _ _ _ _ hw.1) _).1 hs
            exact ⟨rfl, hw, this.1, this.2⟩
      · split at h
        · split at h <;> simp at h
        · simp at h
  · rintro ⟨rfl, h1, h2, h3⟩
    rw [cmcStep_eq]
    simp only [show ¬ ctSignedData = ctContentInfo by decide, ↓reduceIte, whole_iff.2 h1,
      (signed_look (Codec.decoded_admitted _ _ _ _ h1.1) none).2 ⟨h2, h3⟩, advance]

theorem step_last {o : List Nat} {b : Bytes} {v : Val} :
    cmcStep ⟨o, some b⟩ = .last v ↔ o = cctPKIData ∧ Exactly Rfc6402.PKIData.call.ty b v := by
  constructor
  · intro h
    rw [cmcStep_eq] at h
    simp only at h
    split at h
    · split at h
      · simp at h
      · unfold advance at h; split at h <;> simp at h
    · split at h
      · split at h
        · simp at h
        · unfold advance at h; split at h <;> simp at h
      · split at h
        · rename_i ho
          subst ho
          split at h
          · simp at h
          · rename_i w hw
            simp only [Step.last.injEq] at h
            subst h
            exact ⟨rfl, whole_iff.1 hw⟩
        · simp at h
  · rintro ⟨rfl, h⟩
    rw [cmcStep_eq]
    simp only [show ¬ cctPKIData = ctContentInfo by decide, show ¬ cctPKIData = ctSignedData by decide, ↓reduceIte,
      whole_iff.2 h]

theorem step_same {l : Layer} : cmcStep l = .same ↔ l.oid ∉ cmcTypes := by
  rw [Cmc.cmcStep_same_iff, Cmc.known, oid_contentInfo, oid_signedData, oid_pkiData]
  simp [cmcTypes]

theorem step_empty (o : List Nat) (v : Val) : (∀ l, cmcStep ⟨o, none⟩ ≠ .next v l) ∧ cmcStep ⟨o, none⟩ ≠ .last v := by
  rw [cmcStep_eq]
  simp only [whole]
  split
  · simp
  · split
    · simp
    · split <;> simp

theorem loop_exit {o : List Nat} {b : Bytes} {vs : List Val} :
    (∃ n, cmcLoop n ⟨o, some b⟩ = (vs, some .exit)) ↔ Layers o b vs := by
  constructor
  · rintro ⟨n, h⟩
    induction n generalizing o b vs with
    | zero => simp [cmcLoop] at h
    | succ n ih =>
      rw [cmcLoop] at h
      cases hs : cmcStep ⟨o, some b⟩ with
      | raised => simp [hs] at h
      | last v =>
        simp only [hs, Prod.mk.injEq, and_true] at h
        obtain ⟨rfl, h2⟩ := step_last.1 hs
        rw [← h]
        exact .inside h2
      | same =>
        simp only [hs] at h
        exact ih h
      | next v l =>
        simp only [hs, Prod.mk.injEq] at h
        obtain ⟨o', d⟩ := l
        cases d with
        | some b' =>
          obtain ⟨h1, h2⟩ := h
          rw [← h1]
          exact .around (step_next.1 hs) (ih (by rw [← h2]))
        | none =>
          exfalso
          have h2 := h.2
          clear h hs ih
          induction n with
          | zero => simp [cmcLoop] at h2
          | succ n ih =>
            rw [cmcLoop] at h2
            cases hs : cmcStep ⟨o', none⟩ with
            | raised => simp [hs] at h2
            | last w => exact (step_empty o' w).2 hs
            | next w l => exact (step_empty o' w).1 l hs
            | same => simp only [hs] at h2; exact ih h2
  · intro h
    induction h with
    | inside h => exact ⟨1, by simp [cmcLoop, step_last.2 ⟨rfl, h⟩]⟩
    | around h _ ih =>
      obtain ⟨n, ih⟩ := ih
      exact ⟨n + 1, by simp [cmcLoop, step_next.2 h, ih]⟩

theorem loop_strange {o : List Nat} {b : Bytes} {vs : List Val} (h : Strange o b vs) :
    ∀ n, cmcLoop n ⟨o, some b⟩ = (vs.take n, none) := by
  induction h with
  | here h =>
    intro n
    rw [Cmc.cmcStep_same _ (step_same.2 h)]
    simp
  | detached h1 h2 h3 h4 =>
    intro n
    cases n with
    | zero => rfl
    | succ n =>
      rw [cmcLoop, step_detached.2 ⟨rfl, h1, h2, h3⟩]
      simp only
      rw [Cmc.cmcStep_same _ (step_same.2 h4)]
      simp
  | around h _ ih =>
    intro n
    cases n with
    | zero => rfl
    | succ n =>
      rw [cmcLoop, step_next.2 h]
      simp [ih n]

theorem leads_strange {l l' : Layer} (h : Cmc.Leads l l') (hn : l'.oid ∉ cmcTypes) (b : Bytes) (hb : l.data = some b) :
    ∃ vs, Strange l.oid b vs := by
  induction h generalizing b with
  | refl l => exact ⟨[], .here hn⟩
  | @step l m l'' v hs ht ih =>
    obtain ⟨o, d⟩ := l
    cases hb
    obtain ⟨o', d'⟩ := m
    cases d' with
    | some b' =>
      obtain ⟨vs, hv⟩ := ih hn b' rfl
      exact ⟨v :: vs, .around (step_next.1 hs) hv⟩
    | none =>
      obtain ⟨h1, h2, h3, h4⟩ := step_detached.1 hs
      cases ht with
      | refl => exact ⟨[v], h1 ▸ .detached h2 h3 h4 hn⟩
      | step hs' _ => exact absurd hs' ((step_empty o' _).1 _)

theorem cmc_start (stdin : Text) (b : Bytes) (h : readBase64FromFile stdin = some b) (v : Val) (o : List Nat) (c : Bytes)
    (ha : Around ctContentInfo b v o c) (n : Nat) : cmcdump n stdin = cmcLoop n ⟨ctContentInfo, some b⟩ := by
  have : decode Rfc5652.ContentInfo.call.ty b = some (v, []) := by
    generalize hc : ctContentInfo = k at ha
    cases ha with
    | info h _ _ => exact h.1
    | signed => exact absurd hc (by decide)
  simp only [cmcdump, h, this, ↓reduceIte]
  rfl

/-- C09: cmcdump ends normally exactly for a CMC request, however often it is wrapped and signed, and then prints
all its layers. -/
theorem cmc_printed (stdin : Text) (vs : List Val) : (∃ n, cmcdump n stdin = (vs, some .exit)) ↔
    ∃ b, readBase64FromFile stdin = some b ∧ Layers ctContentInfo b vs := by
  constructor
  · rintro ⟨n, h⟩
    unfold cmcdump at h
    split at h
    · simp at h
    · rename_i b hb
      split at h
      · simp at h
      · split at h
        · exact ⟨b, hb, loop_exit.1 ⟨n, h⟩⟩
        · simp at h
  · rintro ⟨b, hb, h⟩
    obtain ⟨n, hn⟩ := loop_exit.2 h
    refine ⟨n, ?_⟩
    generalize hc : ctContentInfo = k at h
    cases h with
    | inside => exact absurd hc (by decide)
    | around ha _ => subst hc; rw [cmc_start stdin b hb _ _ _ ha, hn]

/-- C09: and it runs for ever exactly when there is, within any number of layers, a content type it does not know:
it prints the layers around that, and hangs. -/
theorem cmc_stuck (stdin : Text) : (∀ n, (cmcdump n stdin).2 = none) ↔
    ∃ b vs, readBase64FromFile stdin = some b ∧ Strange ctContentInfo b vs ∧ ∀ n, cmcdump n stdin = (vs.take n, none) := by
  constructor
  · intro h
    cases hb : readBase64FromFile stdin with
    | none => simp [cmcdump, hb] at h
    | some b =>
      cases hd : decode Rfc5652.ContentInfo.call.ty b with
      | none => simp [cmcdump, hb, hd] at h
      | some p =>
        obtain ⟨v, r⟩ := p
        by_cases hr : r = []
        · have e : ∀ n, cmcdump n stdin = cmcLoop n ⟨ctContentInfo, some b⟩ := by
            intro n
            simp only [cmcdump, hb, hd, hr, ↓reduceIte]
            rfl
          simp only [e] at h
          obtain ⟨l', h1, h2⟩ := (Cmc.cmc_forever _).1 h
          obtain ⟨vs, hv⟩ := leads_strange h1 (step_same.1 ((Cmc.cmcStep_same_iff l').2 h2)) b rfl
          exact ⟨b, vs, rfl, hv, fun n => by rw [e, loop_strange hv]⟩
        · simp [cmcdump, hb, hd, hr] at h
  · rintro ⟨b, vs, _, _, h⟩ n
    rw [h]

/-! ## Instances -/

/-- The two keys of `Tools.keys`, as blocks. -/
def keys : List (Armour × Ty × Val) :=
  Tools.keys.map (fun m => (⟨m.pre, m.label, (encode m.t m.v).getD [] ++ m.extra, m.k⟩, m.t, m.v))

-- `blocks_printed` applies to them
example : ∀ m ∈ keys, Holds [("RSA PRIVATE KEY", Rfc2437.RSAPrivateKey.call.ty),
    ("DSA PRIVATE KEY", Rfc2459.DSAPrivateKey.call.ty)] m.1 m.2.1 m.2.2 := by
  simp only [keys, Tools.keys, List.map_cons, List.map_nil, List.mem_cons, List.not_mem_nil, or_false, forall_eq_or_imp,
    forall_eq]
  refine ⟨⟨by decide, by simp, by decide, by simp, by decide +kernel, by decide +kernel,
      ⟨[48, 27, 2, 1, 0, 2, 1, 35, 2, 1, 5, 2, 1, 5, 2, 1, 5, 2, 1, 7, 2, 1, 1, 2, 1, 5, 2, 1, 3], [], by decide +kernel,
        by decide +kernel⟩⟩,
    ⟨by decide, by simp, by decide +kernel, ?_, by decide +kernel, by decide +kernel,
      ⟨[48, 18, 2, 1, 0, 2, 1, 23, 2, 1, 11, 2, 1, 2, 2, 1, 4, 2, 1, 2], [10], by decide +kernel, by decide +kernel⟩⟩⟩
  intro l hl k hk
  have h : ∀ l ∈ ["Key 2".toList, []], ∀ n ∈ ["RSA PRIVATE KEY", "DSA PRIVATE KEY"], Verif.Pem.strip l ≠ opening n := by
    decide +kernel
  refine h l hl k.1 ?_
  simp only [List.mem_cons, List.not_mem_nil, or_false] at hk
  rcases hk with rfl | rfl <;> simp

-- `object_printed`
example : Rfc2560.OCSPResponse.call.ty.valid (.record (.ofList [.int 1, .absent])) = true ∧
    encode Rfc2560.OCSPResponse.call.ty (.record (.ofList [.int 1, .absent])) = some [48, 3, 10, 1, 1] := by decide +kernel

-- `pkcs7_printed`: one octet of data
example : ([1, 2, 840, 113549, 1, 7, 1], Rfc2315.Data.call.ty) ∈ pkcs7Types ∧
    Rfc2315.Data.call.ty.valid (.octets [65]) = true ∧ encode Rfc2315.Data.call.ty (.octets [65]) = some [4, 1, 65] ∧
    Rfc2315.ContentInfo.call.ty.admits (Tools.contentInfo [1, 2, 840, 113549, 1, 7, 1] [4, 1, 65]) = true ∧
    (encode Rfc2315.ContentInfo.call.ty (Tools.contentInfo [1, 2, 840, 113549, 1, 7, 1] [4, 1, 65])).isSome = true := by
  refine ⟨by simp [pkcs7Types], by decide +kernel, by decide +kernel, by decide +kernel, by decide +kernel⟩

/-- An empty PKI request in signed data, in the content type for content infos. -/
def nested : List UInt8 :=
  (encode Rfc5652.ContentInfo.call.ty (Cmc.contentInfo ctSignedData
    ((encode Rfc5652.SignedData.call.ty Cmc.signedData).getD []))).getD []

-- `cmc_printed`: three layers
example : Layers ctContentInfo nested
    [Cmc.contentInfo ctSignedData ((encode Rfc5652.SignedData.call.ty Cmc.signedData).getD []), Cmc.signedData, Cmc.pkiData] := by
  refine .around (.info (o := ctSignedData) (c := (encode Rfc5652.SignedData.call.ty Cmc.signedData).getD [])
    ⟨by decide +kernel, by decide +kernel⟩ rfl rfl) (.around (.signed (o := cctPKIData)
    (c := [48, 8, 48, 0, 48, 0, 48, 0, 48, 0]) ⟨by decide +kernel, by decide +kernel⟩ rfl rfl) (.inside
    ⟨by decide +kernel, by decide +kernel⟩))

-- `cmc_stuck`: plain data
example : Strange ctContentInfo [48, 16, 6, 9, 42, 134, 72, 134, 247, 13, 1, 7, 1, 160, 3, 4, 1, 65]
    [Cmc.contentInfo [1, 2, 840, 113549, 1, 7, 1] [4, 1, 65]] :=
  .around (.info (o := [1, 2, 840, 113549, 1, 7, 1]) (c := [4, 1, 65]) ⟨by decide +kernel, by decide +kernel⟩ rfl rfl)
    (.here (by decide))

end Scripts
end Props
end Verif
