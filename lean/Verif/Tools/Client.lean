import Verif.Tools.Model
import Verif.Asn1.BerCodec

/-!
# tools/snmpget.py and tools/ocspclient.py

The two scripts which build a message, send it and read an answer.  What is left out: the sockets
and the HTTP library (a run is the octets handed to them, and a function of the octets they hand
back), the usage messages and the text printed around the values.
-/

namespace Verif.Tools

open Verif.Pem hiding Bytes
open Verif.Asn1

/-! ## snmpget -/

/-- The parts of a text between the dots. -/
def dots : Text → List Text
  | [] => [[]]
  | c :: cs =>
    match dots cs with
    | [] => [[c]]
    | p :: ps => if c = '.' then [] :: p :: ps else (c :: p) :: ps

/-- `ObjectIdentifier.prettyIn` on a string, used by tools/snmpget.py:35: the numbers between the
dots, empty parts skipped.  Simplified: `int()` also takes blanks, underscores, a plus sign and the
digits of other scripts; here such a text is `none`. -/
def dotted (s : Text) : Option (List Nat) :=
  ((dots s).filter (fun p => !p.isEmpty)).mapM (fun p => Py.digits? p 0)

/-- tools/snmpget.py:23-36: the fields by position, as the script sets them. -/
def getRequest (community : Bytes) (oid : List Nat) : Val :=
  .record (.ofList [.int 0, .octets community,
    .alt 0 (.record (.ofList [.int 123, .int 0, .int 0,
      .list (.ofList [.record (.ofList [.oid oid, .alt 0 (.alt 3 .null)])])]))])

/-- tools/snmpget.py:23-41: the datagram sent, `none` if the script raises before it sends one.  A
`str` becomes an OCTET STRING as ISO-8859-1. -/
def snmpget (community oid : Text) : Option Bytes :=
  match encStr .latin1 community, dotted oid with
  | some c, some o => berEncode Rfc1157.Message.call.ty (getRequest c o)
  | _, _ => none

/-- tools/snmpget.py:43-48: what is printed for a datagram received; `recvfrom(2048)` cuts it off. -/
def snmpReply (datagram : Bytes) : Option Val :=
  (berDecode Rfc1157.Message.call.ty (datagram.take 2048)).map Prod.fst

/-! ## ocspclient -/

/-- `getComponentByName`, the name looked up in the schema. -/
def Comps.find (n : String) : Comps → Vals → Option Val
  | .cons f _ cs, .cons v vs => if f.name = n then some v else Comps.find n cs vs
  | _, _ => none

/-- `v.getComponentByName(n)` of a SEQUENCE value of type `t` which has that component. -/
def component (t : Ty) (n : String) : Val → Option Val
  | .record vs => match t with
    | .seq _ _ cs => Comps.find n cs vs
    | _ => none
  | _ => none

/-- The fields of a certificate the script reads, tools/ocspclient.py:53-75. -/
structure CertFields where
  serial : Val
  issuer : Val
  subject : Val
  key : Val
  deriving DecidableEq

def certFields (v : Val) : Option CertFields := do
  let tbs ← component Rfc2459.Certificate.call.ty "tbsCertificate" v
  let t := Rfc2459.TBSCertificate.call.ty
  let spki ← component t "subjectPublicKeyInfo" tbs
  return {
    serial := ← component t "serialNumber" tbs
    issuer := ← component t "issuer" tbs
    subject := ← component t "subject" tbs
    key := ← component Rfc2459.SubjectPublicKeyInfo.call.ty "subjectPublicKey" spki }

/-- tools/ocspclient.py:79-99: the request object. -/
def ocspRequest (nameHash keyHash : Bytes) (serial : Val) : Val :=
  .record (.ofList [
    .record (.ofList [.int 0, .absent,
      .list (.ofList [.record (.ofList [
        .record (.ofList [.record (.ofList [.oid [1, 3, 14, 3, 2, 26], .absent]),
          .octets nameHash, .octets keyHash, serial]),
        .absent])]),
      .absent]),
    .absent])

/-- tools/ocspclient.py:52-101 `mkOcspRequest`.  `sha1` is `hashlib.sha1(...).digest()`; `keyOctets`
is `valueOnlyBitStringEncoder`, tools/ocspclient.py:29-48, `none` where that raises (see DESIGN.md:
with the versions of pyasn1 that setup.py asks for it always does). -/
def mkOcspRequest (sha1 : Bytes → Bytes) (keyOctets : Val → Option Bytes) (issuerCert userCert : Val) : Option Val := do
  let i ← certFields issuerCert
  let u ← certFields userCert
  if i.subject = u.issuer then
    let name ← encode Rfc2459.Name.call.ty u.issuer
    let key ← keyOctets i.key
    return ocspRequest (sha1 name) (sha1 key) u.serial
  else none

/-- tools/ocspclient.py:136-148: the next certificate on standard input, and what is left of it. -/
def nextCert (stdin : Text) : Option (Val × Text) :=
  match readPemBlocksFromFile stdin [marker "CERTIFICATE"] with
  | ⟨_, .bytes substrate, rest⟩ => (decode Rfc2459.Certificate.call.ty substrate).map (fun p => (p.1, rest))
  | _ => none

/-- tools/ocspclient.py:136-161: the body of the HTTP request, `none` if the script raises before. -/
def ocspPost (sha1 : Bytes → Bytes) (keyOctets : Val → Option Bytes) (stdin : Text) : Option Bytes := do
  let (issuerCert, rest) ← nextCert stdin
  let (userCert, _) ← nextCert rest
  let request ← mkOcspRequest sha1 keyOctets issuerCert userCert
  encode Rfc2560.OCSPRequest.call.ty request

/-- What the script prints, tools/ocspclient.py:119-124, 172-173. -/
structure OcspReport where
  producedAt : Val
  certID : Val
  /-- the name of the alternative chosen for `certStatus` -/
  status : String
  thisUpdate : Val
  deriving DecidableEq

def alternativeName (t : Ty) : Val → Option String
  | .alt i _ => match t with
    | .choice _ cs => (cs.get? i).map (fun p => p.1.name)
    | _ => none
  | _ => none

/-- `getComponentByPosition(0)` of a SEQUENCE OF that has elements. -/
def firstOf : Val → Option Val
  | .list (.cons v _) => some v
  | _ => none

/-- The octets of an OCTET STRING. -/
def octetsOf : Val → Option Bytes
  | .octets b => some b
  | _ => none

/-- tools/ocspclient.py:104-124 `parseOcspResponse` -/
def parseOcspResponse (v : Val) : Option OcspReport := do
  let status ← component Rfc2560.OCSPResponse.call.ty "responseStatus" v
  if (Rfc2560.OCSPResponseStatus.call.callStr "successful").value = status then
    let bytes ← component Rfc2560.OCSPResponse.call.ty "responseBytes" v
    let type ← component Rfc2560.ResponseBytes.call.ty "responseType" bytes
    if type = Rfc2560.id_pkix_ocsp_basic.value then
      let response ← component Rfc2560.ResponseBytes.call.ty "response" bytes
      let (basic, _) ← decode Rfc2560.BasicOCSPResponse.call.ty (← octetsOf response)
      let data ← component Rfc2560.BasicOCSPResponse.call.ty "tbsResponseData" basic
      let t := Rfc2560.ResponseData.call.ty
      let first ← firstOf (← component t "responses" data)
      let s := Rfc2560.SingleResponse.call.ty
      return {
        producedAt := ← component t "producedAt" data
        certID := ← component s "certID" first
        status := ← alternativeName Rfc2560.CertStatus.call.ty (← component s "certStatus" first)
        thisUpdate := ← component s "thisUpdate" first }
    else none
  else none

/-- tools/ocspclient.py:166-173: what is printed for the body of an HTTP response. -/
def ocspReply (body : Bytes) : Option OcspReport := do
  let (v, _) ← decode Rfc2560.OCSPResponse.call.ty body
  parseOcspResponse v

end Verif.Tools
