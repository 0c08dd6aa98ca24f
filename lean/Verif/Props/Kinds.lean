import Verif.Asn1.Apart
import Verif.Spec.Kinds
import Verif.Props.Open

/-!
# C73: what is it?

Octets that one class accepts another one does not, for the kinds of objects found in files, on connections and in
signed or encrypted messages, but for a list of pairs.
-/

namespace Verif
namespace Props
namespace Kinds

open Asn1 Verif.Kinds

/-- The kinds: certificates, revocation lists, requests, keys, messages of protocols, contents of CMS messages. -/
def classes : List (String × Py.Obj) :=
  [("rfc5280.Certificate", Rfc5280.Certificate), ("rfc5280.CertificateList", Rfc5280.CertificateList),
   ("rfc2986.CertificationRequest", Rfc2986.CertificationRequest), ("rfc5958.PrivateKeyInfo", Rfc5958.PrivateKeyInfo),
   ("rfc5208.EncryptedPrivateKeyInfo", Rfc5208.EncryptedPrivateKeyInfo), ("rfc8017.RSAPrivateKey", Rfc8017.RSAPrivateKey),
   ("rfc8017.RSAPublicKey", Rfc8017.RSAPublicKey), ("rfc2459.DSAPrivateKey", Rfc2459.DSAPrivateKey),
   ("rfc5915.ECPrivateKey", Rfc5915.ECPrivateKey), ("rfc5280.SubjectPublicKeyInfo", Rfc5280.SubjectPublicKeyInfo),
   ("rfc5652.ContentInfo", Rfc5652.ContentInfo), ("rfc7292.PFX", Rfc7292.PFX), ("rfc6960.OCSPRequest", Rfc6960.OCSPRequest),
   ("rfc6960.OCSPResponse", Rfc6960.OCSPResponse), ("rfc6960.BasicOCSPResponse", Rfc6960.BasicOCSPResponse),
   ("rfc4210.PKIMessage", Rfc4210.PKIMessage), ("rfc4211.CertReqMessages", Rfc4211.CertReqMessages),
   ("rfc3161.TimeStampReq", Rfc3161.TimeStampReq), ("rfc3161.TimeStampResp", Rfc3161.TimeStampResp),
   ("rfc3161.TSTInfo", Rfc3161.TSTInfo), ("rfc6402.PKIData", Rfc6402.PKIData), ("rfc6402.PKIResponse", Rfc6402.PKIResponse),
   ("rfc5755.AttributeCertificate", Rfc5755.AttributeCertificate), ("rfc5652.SignedData", Rfc5652.SignedData),
   ("rfc5652.EnvelopedData", Rfc5652.EnvelopedData), ("rfc5652.EncryptedData", Rfc5652.EncryptedData),
   ("rfc5652.DigestedData", Rfc5652.DigestedData), ("rfc5652.AuthenticatedData", Rfc5652.AuthenticatedData),
   ("rfc3274.CompressedData", Rfc3274.CompressedData), ("rfc5083.AuthEnvelopedData", Rfc5083.AuthEnvelopedData),
   ("rfc2251.LDAPMessage", Rfc2251.LDAPMessage), ("rfc1157.Message", Rfc1157.Message), ("rfc1901.Message", Rfc1901.Message),
   ("rfc3412.SNMPv3Message", Rfc3412.SNMPv3Message), ("rfc6031.SymmetricKeyPackage", Rfc6031.SymmetricKeyPackage),
   ("rfc5958.AsymmetricKeyPackage", Rfc5958.AsymmetricKeyPackage), ("rfc5035.Receipt", Rfc5035.Receipt),
   ("rfc5914.TrustAnchorList", Rfc5914.TrustAnchorList), ("rfc7191.KeyPackageReceipt", Rfc7191.KeyPackageReceipt),
   ("rfc4073.ContentCollection", Rfc4073.ContentCollection),
   ("rfc4073.ContentWithAttributes", Rfc4073.ContentWithAttributes),
   ("rfc4108.FirmwarePackageLoadError", Rfc4108.FirmwarePackageLoadError),
   ("rfc4108.FirmwarePackageLoadReceipt", Rfc4108.FirmwarePackageLoadReceipt), ("rfc5636.TACToken", Rfc5636.TACToken),
   ("rfc5636.TACTokenandBlindHash", Rfc5636.TACTokenandBlindHash),
   ("rfc5636.TACTokenandPartiallySignedCertificateHash", Rfc5636.TACTokenandPartiallySignedCertificateHash),
   ("rfc5934.TAMPStatusQuery", Rfc5934.TAMPStatusQuery), ("rfc5934.TAMPStatusResponse", Rfc5934.TAMPStatusResponse),
   ("rfc5934.TAMPUpdate", Rfc5934.TAMPUpdate), ("rfc5934.TAMPUpdateConfirm", Rfc5934.TAMPUpdateConfirm),
   ("rfc5934.TAMPApexUpdate", Rfc5934.TAMPApexUpdate), ("rfc5934.TAMPApexUpdateConfirm", Rfc5934.TAMPApexUpdateConfirm),
   ("rfc5934.TAMPCommunityUpdate", Rfc5934.TAMPCommunityUpdate),
   ("rfc5934.TAMPCommunityUpdateConfirm", Rfc5934.TAMPCommunityUpdateConfirm),
   ("rfc5934.SequenceNumberAdjust", Rfc5934.SequenceNumberAdjust),
   ("rfc5934.SequenceNumberAdjustConfirm", Rfc5934.SequenceNumberAdjustConfirm), ("rfc5934.TAMPError", Rfc5934.TAMPError),
   ("rfc6032.EncryptedKeyPackage", Rfc6032.EncryptedKeyPackage),
   ("rfc6482.RouteOriginAttestation", Rfc6482.RouteOriginAttestation), ("rfc6486.Manifest", Rfc6486.Manifest),
   ("rfc7191.KeyPackageError", Rfc7191.KeyPackageError), ("rfc5280.Name", Rfc5280.Name)]

def kinds : List (String × Ty) := classes.map (fun c => (c.1, c.2.call.ty))

/-- Two kinds, and octets that both accept. -/
def overlapping : List (String × String × List UInt8) :=
  [("rfc5208.EncryptedPrivateKeyInfo", "rfc5636.TACTokenandBlindHash", [48, 11, 48, 7, 6, 1, 42, 160, 2, 5, 0, 4, 0]),
   ("rfc5208.EncryptedPrivateKeyInfo", "rfc5636.TACTokenandPartiallySignedCertificateHash", [48, 11, 48, 7, 6, 1, 42, 160, 2, 5, 0, 4, 0]),
   ("rfc5915.ECPrivateKey", "rfc1901.Message", [48, 10, 2, 1, 1, 4, 0, 160, 3, 6, 1, 42]),
   ("rfc5652.ContentInfo", "rfc5934.TAMPError", [48, 6, 6, 1, 42, 10, 1, 0]),
   ("rfc7292.PFX", "rfc5652.EncryptedData", [48, 13, 2, 1, 3, 48, 8, 6, 1, 42, 48, 3, 6, 1, 42]),
   ("rfc7292.PFX", "rfc6032.EncryptedKeyPackage", [48, 13, 2, 1, 3, 48, 8, 6, 1, 42, 48, 3, 6, 1, 42]),
   ("rfc4211.CertReqMessages", "rfc5958.AsymmetricKeyPackage", [48, 0]),
   ("rfc4211.CertReqMessages", "rfc5914.TrustAnchorList", [48, 0]),
   ("rfc4211.CertReqMessages", "rfc4073.ContentCollection", [48, 0]), ("rfc4211.CertReqMessages", "rfc5280.Name", [48, 0]),
   ("rfc5652.EncryptedData", "rfc6032.EncryptedKeyPackage", [48, 13, 2, 1, 0, 48, 8, 6, 1, 42, 48, 3, 6, 1, 42]),
   ("rfc1157.Message", "rfc1901.Message", [48, 18, 2, 1, 1, 4, 0, 160, 11, 2, 1, 1, 2, 1, 0, 2, 1, 0, 48, 0]),
   ("rfc1901.Message", "rfc7191.KeyPackageReceipt", [48, 12, 2, 1, 1, 4, 0, 48, 5, 6, 1, 42, 4, 0]),
   ("rfc6031.SymmetricKeyPackage", "rfc6482.RouteOriginAttestation", [48, 5, 2, 1, 1, 48, 0]),
   ("rfc5958.AsymmetricKeyPackage", "rfc5914.TrustAnchorList", [48, 0]),
   ("rfc5958.AsymmetricKeyPackage", "rfc4073.ContentCollection", [48, 0]),
   ("rfc5958.AsymmetricKeyPackage", "rfc5280.Name", [48, 0]),
   ("rfc5035.Receipt", "rfc4108.FirmwarePackageLoadReceipt", [48, 10, 2, 1, 2, 6, 1, 42, 4, 0, 4, 0]),
   ("rfc5914.TrustAnchorList", "rfc4073.ContentCollection", [48, 0]), ("rfc5914.TrustAnchorList", "rfc5280.Name", [48, 0]),
   ("rfc7191.KeyPackageReceipt", "rfc4073.ContentCollection", [48, 16, 48, 7, 6, 1, 42, 49, 2, 5, 0, 48, 5, 6, 1, 42, 4, 0]),
   ("rfc4073.ContentCollection", "rfc5280.Name", [48, 0]),
   ("rfc5636.TACTokenandBlindHash", "rfc5636.TACTokenandPartiallySignedCertificateHash", [48, 11, 48, 7, 6, 1, 42, 160, 2, 5, 0, 4, 0]),
   ("rfc5934.TAMPStatusQuery", "rfc5934.SequenceNumberAdjust", [48, 7, 48, 5, 131, 0, 2, 1, 1]),
   ("rfc5934.TAMPUpdate", "rfc5934.TAMPCommunityUpdate", [48, 9, 48, 5, 131, 0, 2, 1, 1, 48, 0]),
   ("rfc5934.TAMPApexUpdateConfirm", "rfc5934.TAMPCommunityUpdateConfirm", [48, 10, 48, 5, 131, 0, 2, 1, 1, 128, 1, 0])]

/-- Both accept some octets. -/
def overlap (n m : String) : Bool := overlapping.any (fun p => (p.1 == n && p.2.1 == m) || (p.1 == m && p.2.1 == n))

/-- All pairs, in order. -/
def pairs {α : Type} : List α → List (α × α)
  | [] => []
  | x :: xs => xs.map (fun y => (x, y)) ++ pairs xs

set_option maxRecDepth 100000 in
theorem apart_table : (pairs kinds).all (fun p => overlap p.1.1 p.2.1 || Ty.apart 12 p.1.2 p.2.2) = true := by
  decide +kernel

theorem at_ {c : String × Py.Obj} (i j : Nat) (m : Py.Module) (hm : Package.modules[i]? = some m)
    (hc : m.classes[j]? = some c) : ∃ m ∈ Package.modules, c ∈ m.classes :=
  ⟨m, List.mem_of_getElem? hm, List.mem_of_getElem? hc⟩

set_option maxRecDepth 100000 in
/-- The kinds are classes of the package. -/
theorem in_modules : ∀ c ∈ classes, ∃ m ∈ Package.modules, c ∈ m.classes := by
  intro c hc
  simp only [classes, List.mem_cons, List.not_mem_nil, or_false] at hc
  rcases hc with rfl | rfl | rfl | rfl | rfl | rfl | rfl | rfl | rfl | rfl | rfl | rfl | rfl | rfl | rfl | rfl | rfl | rfl | rfl | rfl | rfl | rfl | rfl | rfl | rfl | rfl | rfl | rfl | rfl | rfl | rfl | rfl | rfl | rfl | rfl | rfl | rfl | rfl | rfl | rfl | rfl | rfl | rfl | rfl | rfl | rfl | rfl | rfl | rfl | rfl | rfl | rfl | rfl | rfl | rfl | rfl | rfl | rfl | rfl | rfl | rfl | rfl
  · exact at_ 60 76 Rfc5280.asModule rfl rfl
  · exact at_ 60 25 Rfc5280.asModule rfl rfl
  · exact at_ 16 11 Rfc2986.asModule rfl rfl
  · exact at_ 79 9 Rfc5958.asModule rfl rfl
  · exact at_ 58 4 Rfc5208.asModule rfl rfl
  · exact at_ 109 11 Rfc8017.asModule rfl rfl
  · exact at_ 109 8 Rfc8017.asModule rfl rfl
  · exact at_ 9 13 Rfc2459.asModule rfl rfl
  · exact at_ 73 0 Rfc5915.asModule rfl rfl
  · exact at_ 60 32 Rfc5280.asModule rfl rfl
  · exact at_ 65 58 Rfc5652.asModule rfl rfl
  · exact at_ 100 20 Rfc7292.asModule rfl rfl
  · exact at_ 96 26 Rfc6960.asModule rfl rfl
  · exact at_ 96 12 Rfc6960.asModule rfl rfl
  · exact at_ 96 22 Rfc6960.asModule rfl rfl
  · exact at_ 44 39 Rfc4210.asModule rfl rfl
  · exact at_ 45 22 Rfc4211.asModule rfl rfl
  · exact at_ 20 12 Rfc3161.asModule rfl rfl
  · exact at_ 20 14 Rfc3161.asModule rfl rfl
  · exact at_ 20 11 Rfc3161.asModule rfl rfl
  · exact at_ 90 24 Rfc6402.asModule rfl rfl
  · exact at_ 90 29 Rfc6402.asModule rfl rfl
  · exact at_ 70 20 Rfc5755.asModule rfl rfl
  · exact at_ 65 68 Rfc5652.asModule rfl rfl
  · exact at_ 65 49 Rfc5652.asModule rfl rfl
  · exact at_ 65 51 Rfc5652.asModule rfl rfl
  · exact at_ 65 66 Rfc5652.asModule rfl rfl
  · exact at_ 65 63 Rfc5652.asModule rfl rfl
  · exact at_ 21 1 Rfc3274.asModule rfl rfl
  · exact at_ 55 0 Rfc5083.asModule rfl rfl
  · exact at_ 5 48 Rfc2251.asModule rfl rfl
  · exact at_ 1 14 Rfc1157.asModule rfl rfl
  · exact at_ 2 0 Rfc1901.asModule rfl rfl
  · exact at_ 26 3 Rfc3412.asModule rfl rfl
  · exact at_ 83 44 Rfc6031.asModule rfl rfl
  · exact at_ 79 10 Rfc5958.asModule rfl rfl
  · exact at_ 54 32 Rfc5035.asModule rfl rfl
  · exact at_ 72 14 Rfc5914.asModule rfl rfl
  · exact at_ 98 15 Rfc7191.asModule rfl rfl
  · exact at_ 42 0 Rfc4073.asModule rfl rfl
  · exact at_ 42 1 Rfc4073.asModule rfl rfl
  · exact at_ 43 19 Rfc4108.asModule rfl rfl
  · exact at_ 43 21 Rfc4108.asModule rfl rfl
  · exact at_ 62 9 Rfc5636.asModule rfl rfl
  · exact at_ 62 10 Rfc5636.asModule rfl rfl
  · exact at_ 62 11 Rfc5636.asModule rfl rfl
  · exact at_ 77 26 Rfc5934.asModule rfl rfl
  · exact at_ 77 34 Rfc5934.asModule rfl rfl
  · exact at_ 77 39 Rfc5934.asModule rfl rfl
  · exact at_ 77 45 Rfc5934.asModule rfl rfl
  · exact at_ 77 46 Rfc5934.asModule rfl rfl
  · exact at_ 77 50 Rfc5934.asModule rfl rfl
  · exact at_ 77 52 Rfc5934.asModule rfl rfl
  · exact at_ 77 56 Rfc5934.asModule rfl rfl
  · exact at_ 77 57 Rfc5934.asModule rfl rfl
  · exact at_ 77 58 Rfc5934.asModule rfl rfl
  · exact at_ 77 59 Rfc5934.asModule rfl rfl
  · exact at_ 84 1 Rfc6032.asModule rfl rfl
  · exact at_ 91 4 Rfc6482.asModule rfl rfl
  · exact at_ 92 1 Rfc6486.asModule rfl rfl
  · exact at_ 98 14 Rfc7191.asModule rfl rfl
  · exact at_ 60 23 Rfc5280.asModule rfl rfl

theorem known (k : String × Ty) (h : k ∈ kinds) : k ∈ Package.types := by
  obtain ⟨c, hc, rfl⟩ := List.mem_map.1 h
  obtain ⟨m, hm, hc⟩ := in_modules c hc
  exact Package.mem_types hm hc

set_option maxRecDepth 100000 in
theorem count : kinds.length = 62 ∧ (kinds.filter (fun k => k.1 ∈ Package.defective)).map Prod.fst = ["rfc2251.LDAPMessage"] ∧
    overlapping.length = 26 := by
  decide +kernel

set_option maxRecDepth 100000 in
theorem overlap_table : overlapping.all (fun p => (kinds.lookup p.1).any (fun t => (kinds.lookup p.2.1).any (fun u =>
    (decode t p.2.2).any (fun r => r.2.isEmpty) && (decode u p.2.2).any (fun r => r.2.isEmpty)))) = true := by
  decide +kernel

theorem mem_pairs {α : Type} : ∀ (xs : List α) (x y : α), x ∈ xs → y ∈ xs → x = y ∨ (x, y) ∈ pairs xs ∨ (y, x) ∈ pairs xs
  | [], _, _, h, _ => by simp at h
  | z :: xs, x, y, hx, hy => by
    simp only [List.mem_cons] at hx hy
    rcases hx with rfl | hx <;> rcases hy with rfl | hy
    · exact .inl rfl
    · exact .inr (.inl (by simp [pairs, hy]))
    · exact .inr (.inr (by simp [pairs, hx]))
    · rcases mem_pairs xs x y hx hy with h | h | h
      · exact .inl h
      · exact .inr (.inl (by simp [pairs, h]))
      · exact .inr (.inr (by simp [pairs, h]))

theorem overlap_comm (n m : String) : overlap n m = overlap m n := by
  simp only [overlap]
  congr 1
  funext p
  rw [Bool.or_comm]

/-! ## Any two types -/

/-- If the types are apart, no octets are accepted by both. -/
theorem apart_decode (n : Nat) (t u : Ty) (h : Ty.apart n t u = true) (b : Bytes) : decode t b = none ∨ decode u b = none := by
  cases h1 : decode t b with
  | none => exact .inl rfl
  | some p =>
    cases h2 : decode u b with
    | none => exact .inr rfl
    | some q =>
      exfalso
      unfold decode at h1 h2
      cases hr : readTLV b with
      | none => simp [hr] at h1
      | some x =>
        refine apart_sound n t u h x.1 (fun e => ?_) (fun e => ?_)
        · simp [hr, e] at h1
        · simp [hr, e] at h2

/-! ## C73 -/

/-- C73: octets accepted by one kind are refused by every other kind that is not listed as overlapping with it. -/
theorem one_kind (k l : String × Ty) (hk : k ∈ kinds) (hl : l ∈ kinds) (hn : k ≠ l) (ho : overlap k.1 l.1 = false) (b : Bytes) :
    decode k.2 b = none ∨ decode l.2 b = none := by
  have table := List.all_eq_true.1 apart_table
  rcases mem_pairs kinds k l hk hl with h | h | h
  · exact absurd h hn
  · have := table _ h
    simp only [ho, Bool.false_or] at this
    exact apart_decode 12 _ _ this b
  · have := table _ h
    simp only [overlap_comm l.1 k.1, ho, Bool.false_or] at this
    exact (apart_decode 12 _ _ this b).symm

/-- C73: so with open types, after any imports. -/
theorem one_kind_open (s : Py.State) (k l : String × Ty) (hk : k ∈ kinds) (hl : l ∈ kinds) (hn : k ≠ l)
    (ho : overlap k.1 l.1 = false) (b : Bytes) : Open.decodeOpen s k.2 b = none ∨ Open.decodeOpen s l.2 b = none := by
  have open_of : ∀ t, decode t b = none → Open.decodeOpen s t b = none := by
    intro t h
    cases ho : Open.decodeOpen s t b with
    | none => rfl
    | some p =>
      obtain ⟨v, hv, _⟩ := Open.open_sound s t b p.2 p.1 ho
      simp [h] at hv
  exact (one_kind k l hk hl hn ho b).imp (open_of _) (open_of _)

/-- C73: each of the exceptions is one: both classes accept the octets, leaving nothing. -/
theorem both (n m : String) (b : Bytes) (h : (n, m, b) ∈ overlapping) :
    ∃ t u v w, (n, t) ∈ kinds ∧ (m, u) ∈ kinds ∧ decode t b = some (v, []) ∧ decode u b = some (w, []) := by
  have := List.all_eq_true.1 overlap_table _ h
  simp only [Option.any_eq_true, Bool.and_eq_true, List.isEmpty_iff] at this
  obtain ⟨t, ht, u, hu, ⟨⟨v, r⟩, h1, e1⟩, ⟨w, r'⟩, h2, e2⟩ := this
  simp only at e1 e2
  subst e1 e2
  have mem : ∀ (ks : List (String × Ty)) n t, ks.lookup n = some t → (n, t) ∈ ks := by
    intro ks n t hl
    induction ks with
    | nil => simp at hl
    | cons k ks ih =>
      rw [List.lookup] at hl
      split at hl
      · rename_i e
        simp only [Option.some.injEq] at hl
        have : n = k.1 := by simpa using e
        subst hl this
        simp
      · exact List.mem_cons_of_mem _ (ih hl)
  exact ⟨t, u, v, w, mem _ _ _ ht, mem _ _ _ hu, h1, h2⟩

/-- No two of the kinds overlap. -/
def Distinct (ks : List (String × Ty)) : Prop :=
  (∀ k ∈ ks, k ∈ kinds) ∧ ∀ k ∈ ks, ∀ l ∈ ks, k ≠ l → overlap k.1 l.1 = false

/-- Whichever of the classes accepts the octets is found. -/
theorem recognise_of (ks : List (String × Ty)) (hd : Distinct ks) (k : String × Ty) (hk : k ∈ ks) (b rest : Bytes) (v : Val)
    (h : decode k.2 b = some (v, rest)) : recognise decode ks b = some (k.1, v, rest) := by
  have : ∀ ls : List (String × Ty), (∀ l ∈ ls, l ∈ ks) → k ∈ ls → recognise decode ls b = some (k.1, v, rest) := by
    intro ls
    induction ls with
    | nil => intro _ h; simp at h
    | cons l ls ih =>
      intro hs hm
      rw [recognise]
      by_cases e : k = l
      · subst e
        rw [h]
      · have hl : decode l.2 b = none := by
          rcases one_kind k l (hd.1 k hk) (hd.1 l (hs l (by simp))) e (hd.2 k hk l (hs l (by simp)) e) b with h' | h'
          · simp [h] at h'
          · exact h'
        rw [hl]
        exact ih (fun x hx => hs x (by simp [hx])) (by simpa [e] using hm)
  exact this ks (fun _ h => h) hk

/-- C73: an object that was encoded is recognised, whatever classes are tried before its own, and read as what it was, as
long as no two of the classes tried overlap. -/
theorem recognised (ks : List (String × Ty)) (hd : Distinct ks) (k : String × Ty) (hk : k ∈ ks) (hn : k.1 ∉ Package.defective)
    (v : Val) (hv : k.2.valid v = true) (b rest : Bytes) (he : encode k.2 v = some b) :
    ∃ w, recognise decode ks (b ++ rest) = some (k.1, w, rest) ∧ k.2.same false v w := by
  rcases rt k.2 false v b (Package.wf_of_mem (known k (hd.1 k hk)) hn) hv he with ⟨_, h, _⟩ | ⟨_, x, w, q1, _, q3, q4, _⟩
  · simp at h
  · exact ⟨w, recognise_of ks hd k hk _ _ _ (by simp only [decode, q1.2 rest, q3]), q4⟩

/-- C73: the order in which the classes are tried, or that some are tried twice, makes no difference, for all octets. -/
theorem any_order (ks ls : List (String × Ty)) (hd : Distinct ks) (hs : ∀ k, k ∈ ks ↔ k ∈ ls) (b : Bytes) :
    recognise decode ks b = recognise decode ls b := by
  have found : ∀ (xs : List (String × Ty)), (∀ k ∈ xs, decode k.2 b = none) → recognise decode xs b = none := by
    intro xs
    induction xs with
    | nil => intro _; rfl
    | cons x xs ih =>
      intro h
      rw [recognise, h x (by simp)]
      exact ih (fun y hy => h y (by simp [hy]))
  have hd' : Distinct ls :=
    ⟨fun k hk => hd.1 k ((hs k).2 hk), fun k hk l hl => hd.2 k ((hs k).2 hk) l ((hs l).2 hl)⟩
  by_cases h : ∃ k ∈ ks, decode k.2 b ≠ none
  · obtain ⟨k, hk, hn⟩ := h
    cases e : decode k.2 b with
    | none => exact absurd e hn
    | some p => rw [recognise_of ks hd k hk b p.2 p.1 e, recognise_of ls hd' k ((hs k).1 hk) b p.2 p.1 e]
  · have h' : ∀ k ∈ ks, decode k.2 b = none := fun k hk => Classical.byContradiction (fun e => h ⟨k, hk, e⟩)
    rw [found ks h', found ls (fun k hk => h' k ((hs k).2 hk))]

/-! ## Examples -/

section Examples

/-- What one finds in PEM files. -/
def files : List (String × Ty) := kinds.filter (fun k => k.1 ∈ ["rfc5280.Certificate", "rfc5280.CertificateList",
  "rfc2986.CertificationRequest", "rfc5958.PrivateKeyInfo", "rfc5208.EncryptedPrivateKeyInfo", "rfc8017.RSAPrivateKey",
  "rfc8017.RSAPublicKey", "rfc2459.DSAPrivateKey", "rfc5915.ECPrivateKey", "rfc5280.SubjectPublicKeyInfo", "rfc5652.ContentInfo",
  "rfc7292.PFX", "rfc5755.AttributeCertificate", "rfc6960.OCSPRequest", "rfc6960.OCSPResponse", "rfc3161.TimeStampReq",
  "rfc3161.TimeStampResp"])

set_option maxRecDepth 100000 in
theorem files_table : files.length = 17 ∧
    files.all (fun k => files.all (fun l => k.1 == l.1 || !overlap k.1 l.1)) = true ∧
    (pairs files).all (fun p => p.1.1 != p.2.1) = true := by decide +kernel

/-- They can be told apart. -/
theorem files_distinct : Distinct files := by
  refine ⟨fun k hk => (List.mem_filter.1 hk).1, fun k hk l hl hn => ?_⟩
  have h := List.all_eq_true.1 (List.all_eq_true.1 files_table.2.1 k hk) l hl
  simp only [Bool.or_eq_true, beq_iff_eq, Bool.not_eq_true'] at h
  rcases h with h | h
  · exfalso
    rcases mem_pairs files k l hk hl with e | e | e
    · exact hn e
    · have := List.all_eq_true.1 files_table.2.2 _ e
      simp [h] at this
    · have := List.all_eq_true.1 files_table.2.2 _ e
      simp [h] at this
  · exact h

-- an RSA public key, with something behind it
example : (recognise decode files [48, 6, 2, 1, 35, 2, 1, 3, 0]).any (fun r => r.1 == "rfc8017.RSAPublicKey" && r.2.2 == [0]) = true := by
  decide +kernel

-- it is a legal value
example : (match kinds.lookup "rfc8017.RSAPublicKey" with
    | some t => (decode t [48, 6, 2, 1, 35, 2, 1, 3]).any (fun r => t.valid r.1 && encode t r.1 == some [48, 6, 2, 1, 35, 2, 1, 3])
    | none => false) = true ∧ "rfc8017.RSAPublicKey" ∉ Package.defective := by decide +kernel

-- with overlapping classes the order matters: an EC private key, or an SNMPv2c message
example : (match kinds.lookup "rfc5915.ECPrivateKey", kinds.lookup "rfc1901.Message" with
    | some t, some u => (recognise decode [("key", t), ("snmp", u)] [48, 10, 2, 1, 1, 4, 0, 160, 3, 6, 1, 42]).map Prod.fst == some "key" &&
        (recognise decode [("snmp", u), ("key", t)] [48, 10, 2, 1, 1, 4, 0, 160, 3, 6, 1, 42]).map Prod.fst == some "snmp"
    | _, _ => false) = true := by decide +kernel

end Examples

end Kinds
end Props
end Verif
