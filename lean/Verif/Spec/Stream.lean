import Verif.Asn1.Codec

/-!
# Messages from a stream of octets

A connection hands over octets in pieces of any size.  The reader keeps what it cannot use yet, and after every
piece decodes as many messages as there are:

    buffer += piece
    while buffer:
        try:
            message, buffer = decode(buffer, asn1Spec=...)
        except SubstrateUnderrunError:
            break
        deliver(message)

The model of the decoders does not tell exceptions apart; here the loop ends with any of them.
-/

namespace Verif
namespace Stream

open Asn1

/-- What has been delivered, and what is kept. -/
structure Reader (α : Type) where
  delivered : List α
  buffer : Bytes

/-- The inner loop, at most `n` rounds. -/
def rounds {α : Type} (dec : Bytes → Option (α × Bytes)) : Nat → Reader α → Reader α
  | 0, r => r
  | n + 1, r =>
    match dec r.buffer with
    | none => r
    | some (v, rest) => rounds dec n ⟨r.delivered ++ [v], rest⟩

/-- One piece arrives.  Every message takes an octet, so there are no more rounds than octets. -/
def receive {α : Type} (dec : Bytes → Option (α × Bytes)) (r : Reader α) (piece : Bytes) : Reader α :=
  rounds dec (r.buffer ++ piece).length ⟨r.delivered, r.buffer ++ piece⟩

/-- All pieces arrive, one after the other. -/
def listen {α : Type} (dec : Bytes → Option (α × Bytes)) (pieces : List Bytes) : Reader α :=
  pieces.foldl (receive dec) ⟨[], []⟩

end Stream
end Verif
