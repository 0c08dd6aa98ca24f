import Verif.Pem.Model
import Verif.Gen.Package

/-!
# The command line tools

The `*dump.py` scripts of `tools/`, as functions from the text on standard input to what they
print and how they end.  What is left out: the usage message for wrong arguments, the text
`prettyPrint()` makes of a value (a run lists the values themselves) and the messages around it.
-/

namespace Verif.Tools

open Verif.Pem hiding Bytes
open Verif.Asn1

/-- What one run of a script does: the values it prints, in order, and the count it prints at the
end, `none` if it dies from an exception before. -/
structure Run where
  printed : List Val
  count : Option Nat
  deriving DecidableEq

/-- A run which prints `v` first. -/
def Run.after (v : Val) (r : Run) : Run := { printed := v :: r.printed, count := r.count }

/-- `substrate[:-len(rest)]` if there is a rest, tools/x509dump.py:39-40. -/
def strip (substrate rest : Bytes) : Bytes :=
  if rest.isEmpty then substrate else substrate.take (substrate.length - rest.length)

/-- tools/x509dump.py:37-44: decode, print, and compare the new encoding with the old one.  The
values printed, and whether the assertion holds. -/
def recode (t : Ty) (substrate : Bytes) : List Val × Bool :=
  match decode t substrate with
  | none => ([], false)
  | some (v, rest) => ([v], encode t v = some (strip substrate rest))

/-! ## Reading moves on -/

theorem loop_rest (starts stops : List (Text × Nat)) (state : State) (idx : Int) (cl : List Text) (file : Text) :
    (loop starts stops state idx cl file).rest.length ≤ file.length ∧
      ((loop starts stops state idx cl file).substrate ≠ .emptyStr →
        (loop starts stops state idx cl file).rest.length < file.length) := by
  induction state, idx, cl, file using loop.induct starts stops with
  | case1 state idx cl file h => unfold loop; simp [h]
  | case2 idx cl file h hl line i hi ih =>
    unfold loop
    simp only [h, ↓reduceDIte, show dictGet (Pem.strip (readline file).1) starts = some i from hi]
    omega
  | case3 idx cl file h hl line hi ih =>
    unfold loop
    simp only [h, ↓reduceDIte, show dictGet (Pem.strip (readline file).1) starts = none from hi]
    omega
  | case4 idx cl file h hl line hi =>
    unfold loop
    simp only [h, ↓reduceDIte, show (dictGet (Pem.strip (readline file).1) stops).map Int.ofNat = some idx from hi,
      ↓reduceIte]
    omega
  | case5 idx cl file h hl line hi ih =>
    unfold loop
    simp only [h, ↓reduceDIte, show ¬ (dictGet (Pem.strip (readline file).1) stops).map Int.ofNat = some idx from hi,
      ↓reduceIte]
    simp only [show line = Pem.strip (readline file).1 from rfl] at ih
    omega

theorem read_rest (file : Text) (markers : List (Text × Text))
    (h : (readPemBlocksFromFile file markers).substrate.truthy = true) :
    (readPemBlocksFromFile file markers).rest.length < file.length := by
  refine (loop_rest _ _ _ _ _ _).2 (fun e => ?_)
  unfold readPemBlocksFromFile at h
  rw [e] at h
  exact absurd h (by decide)

/-- The loop shared by tools/x509dump.py:27-48, tools/x509dump-rfc5280.py, tools/crldump.py:27-45,
tools/pkcs10dump.py, tools/pkcs8dump.py:24-53 and tools/pkcs1dump.py:26-55.  `spec` is the type
chosen for a marker index (`none`: `break`). -/
def dumpLoop (markers : List (Text × Text)) (spec : Int → Option Ty) (file : Text) (cnt : Nat) : Run :=
  if h : (readPemBlocksFromFile file markers).substrate.truthy then
    have : (readPemBlocksFromFile file markers).rest.length < file.length := read_rest file markers h
    match (readPemBlocksFromFile file markers).substrate with
    | .bytes substrate =>
      match spec (readPemBlocksFromFile file markers).idx with
      | none => { printed := [], count := some cnt }
      | some t =>
        match recode t substrate with
        | (vs, false) => { printed := vs, count := none }
        | (vs, true) =>
          let r := dumpLoop markers spec (readPemBlocksFromFile file markers).rest (cnt + 1)
          { printed := vs ++ r.printed, count := r.count }
    | _ => { printed := [], count := none }
  else { printed := [], count := some cnt }
termination_by file.length

/-- `('-----BEGIN X-----', '-----END X-----')` -/
def marker (label : String) : Text × Text :=
  (("-----BEGIN " ++ label ++ "-----").toList, ("-----END " ++ label ++ "-----").toList)

/-- A script around `dumpLoop`: for each kind of block its label and its type. -/
structure Dump where
  blocks : List (String × Ty)

def Dump.markers (d : Dump) : List (Text × Text) := d.blocks.map (fun b => marker b.1)

/-- `if idx == 0: ... elif idx == 1: ... else: break`, tools/pkcs8dump.py:35-40. -/
def Dump.spec (d : Dump) : Int → Option Ty
  | .ofNat i => d.blocks[i]?.map Prod.snd
  | .negSucc _ => none

def Dump.run (d : Dump) (stdin : Text) : Run := dumpLoop d.markers d.spec stdin 0

/-- tools/x509dump.py -/
def x509dump : Dump := ⟨[("CERTIFICATE", Rfc2459.Certificate.call.ty)]⟩
/-- tools/x509dump-rfc5280.py -/
def x509dump5280 : Dump := ⟨[("CERTIFICATE", Rfc5280.Certificate.call.ty)]⟩
/-- tools/crldump.py -/
def crldump : Dump := ⟨[("X509 CRL", Rfc2459.CertificateList.call.ty)]⟩
/-- tools/pkcs10dump.py -/
def pkcs10dump : Dump := ⟨[("CERTIFICATE REQUEST", Rfc2314.CertificationRequest.call.ty)]⟩
/-- tools/pkcs8dump.py:28-40 -/
def pkcs8dump : Dump := ⟨[("PRIVATE KEY", Rfc5208.PrivateKeyInfo.call.ty),
  ("ENCRYPTED PRIVATE KEY", Rfc5208.EncryptedPrivateKeyInfo.call.ty)]⟩
/-- tools/pkcs1dump.py:30-42 -/
def pkcs1dump : Dump := ⟨[("RSA PRIVATE KEY", Rfc2437.RSAPrivateKey.call.ty),
  ("DSA PRIVATE KEY", Rfc2459.DSAPrivateKey.call.ty)]⟩

/-! ## Scripts which read one object -/

/-- How a script without a counter ends. -/
inductive Ending
  | exit
  | raised
  deriving DecidableEq

/-- tools/crmfdump.py:24-34, tools/ocspreqdump.py, tools/ocsprspdump.py, tools/cmpdump.py: all of
standard input is base64; trailing octets are not cut off before the comparison. -/
def single (t : Ty) (stdin : Text) : List Val × Ending :=
  match readBase64FromFile stdin with
  | none => ([], .raised)
  | some substrate =>
    if substrate.isEmpty then ([], .exit)
    else match decode t substrate with
      | none => ([], .raised)
      | some (v, _) => ([v], if encode t v = some substrate then .exit else .raised)

/-- tools/crmfdump.py -/
def crmfdump := single Rfc2511.CertReqMessages.call.ty
/-- tools/ocspreqdump.py -/
def ocspreqdump := single Rfc2560.OCSPRequest.call.ty
/-- tools/ocsprspdump.py -/
def ocsprspdump := single Rfc2560.OCSPResponse.call.ty
/-- tools/cmpdump.py -/
def cmpdump := single Rfc4210.PKIMessage.call.ty

/-- tools/pkcs7dump.py:41-48 -/
def contentInfoMap : List (List Nat × Ty) :=
  [([1, 2, 840, 113549, 1, 7, 1], Rfc2315.Data.call.ty),
   ([1, 2, 840, 113549, 1, 7, 2], Rfc2315.SignedData.call.ty),
   ([1, 2, 840, 113549, 1, 7, 3], Rfc2315.EnvelopedData.call.ty),
   ([1, 2, 840, 113549, 1, 7, 4], Rfc2315.SignedAndEnvelopedData.call.ty),
   ([1, 2, 840, 113549, 1, 7, 5], Rfc2315.DigestedData.call.ty),
   ([1, 2, 840, 113549, 1, 7, 6], Rfc2315.EncryptedData.call.ty)]

/-- `contentInfo.getComponentByName('contentType')` and `...('content')`, tools/pkcs7dump.py:39,51;
decoding a field that is not set, or asking the map for a key it has not, raises. -/
def contentOf : Val → Option (List Nat × Bytes)
  | .record (.cons (.oid o) (.cons (.octets b) .nil)) => some (o, b)
  | _ => none

/-- tools/pkcs7dump.py:50-53 -/
def inner (v : Val) : Option Val :=
  match contentOf v with
  | none => none
  | some (o, b) =>
    match contentInfoMap.lookup o with
    | none => none
    | some t => (decode t b).map Prod.fst

/-- tools/pkcs7dump.py:24-55 -/
def pkcs7dump (stdin : Text) : List Val × Ending :=
  match (readPemBlocksFromFile stdin [marker "PKCS7"]).substrate with
  | .bytes substrate =>
    if substrate.isEmpty then ([], .raised)
    else match recode Rfc2315.ContentInfo.call.ty substrate with
      | ([v], true) =>
        match inner v with
        | none => ([v], .raised)
        | some w => ([v, w], .exit)
      | (vs, _) => (vs, .raised)
  | _ => ([], .raised)

end Verif.Tools
