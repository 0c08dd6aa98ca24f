import Verif.Tools.Model

/-!
# tools/cmcdump.py

The loop over the layers of a CMC request, tools/cmcdump.py:22-61.  It has no `else` branch: on a
content type it does not know it goes round for ever.  `Step.same` is that round.
-/

namespace Verif.Tools

open Verif.Pem hiding Bytes
open Verif.Asn1

/-- `next_layer` and `data`, tools/cmcdump.py:27-28; `data` is `none` if it is a field that is not
set, which the decoder refuses. -/
structure Layer where
  oid : List Nat
  data : Option Bytes
  deriving DecidableEq

/-- One round of the loop. -/
inductive Step
  /-- an exception -/
  | raised
  /-- a layer is printed and the loop goes on with the next one -/
  | next (v : Val) (l : Layer)
  /-- the innermost layer is printed and the loop ends -/
  | last (v : Val)
  /-- none of the branches is taken -/
  | same
  deriving DecidableEq

/-- tools/cmcdump.py:31-33, 42-44, 53-55: the whole of `data` is one encoding of `t`. -/
def whole (t : Ty) (data : Option Bytes) : Option Val :=
  match data with
  | none => none
  | some b =>
    match decode t b with
    | none => none
    | some (v, rest) => if encode t v = some b ∧ rest = [] then some v else none

/-- tools/cmcdump.py:38-39 -/
def wrapped : Val → Option Layer
  | .record (.cons (.oid o) (.cons (.octets b) .nil)) => some ⟨o, some b⟩
  | _ => none

/-- tools/cmcdump.py:49-50 -/
def signed : Val → Option Layer
  | .record (.cons _ (.cons _ (.cons (.record (.cons (.oid o) (.cons c .nil))) _))) =>
    match c with
    | .octets b => some ⟨o, some b⟩
    | .absent => some ⟨o, none⟩
    | _ => none
  | _ => none

def advance (v : Val) : Option Layer → Step
  | some l => .next v l
  | none => .raised

/-- tools/cmcdump.py:30-61 -/
def cmcStep (l : Layer) : Step :=
  if Val.oid l.oid = Rfc5652.id_ct_contentInfo.value then
    match whole Rfc5652.ContentInfo.call.ty l.data with
    | none => .raised
    | some v => advance v (wrapped v)
  else if Val.oid l.oid = Rfc5652.id_signedData.value then
    match whole Rfc5652.SignedData.call.ty l.data with
    | none => .raised
    | some v => advance v (signed v)
  else if Val.oid l.oid = Rfc6402.id_cct_PKIData.value then
    match whole Rfc6402.PKIData.call.ty l.data with
    | none => .raised
    | some v => .last v
  else .same

/-- The first `n` rounds: what was printed and how the loop ended, `none` if it still runs. -/
def cmcLoop : Nat → Layer → List Val × Option Ending
  | 0, _ => ([], none)
  | n + 1, l =>
    match cmcStep l with
    | .raised => ([], some .raised)
    | .last v => ([v], some .exit)
    | .next v l' => (v :: (cmcLoop n l').1, (cmcLoop n l').2)
    | .same => cmcLoop n l

/-- tools/cmcdump.py:27 -/
def cmcStart (data : Bytes) : Layer := ⟨[1, 2, 840, 113549, 1, 9, 16, 1, 6], some data⟩

/-- The constant of tools/cmcdump.py:27 -/
theorem cmcStart_oid (data : Bytes) : Val.oid (cmcStart data).oid = Rfc5652.id_ct_contentInfo.value := by
  show Val.oid [1, 2, 840, 113549, 1, 9, 16, 1, 6] = _
  decide +kernel

/-- tools/cmcdump.py:22-61, the first `n` rounds. -/
def cmcdump (n : Nat) (stdin : Text) : List Val × Option Ending :=
  match readBase64FromFile stdin with
  | none => ([], some .raised)
  | some data =>
    match decode Rfc5652.ContentInfo.call.ty data with
    | none => ([], some .raised)
    | some (_, rest) => if rest = [] then cmcLoop n (cmcStart data) else ([], some .raised)

end Verif.Tools
