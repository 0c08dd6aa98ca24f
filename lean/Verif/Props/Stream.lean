import Verif.Spec.Stream
import Verif.Props.Basic
import Verif.Props.Open

/-!
# Messages from a stream of octets

C72: it makes no difference in what pieces the octets arrive; every message is delivered once, in order, with its last
octet.
-/

namespace Verif
namespace Props
namespace Streams

open Asn1 Stream

/-- What is needed of a decoder: it takes an octet at least, and leaves what follows alone. -/
structure Steady {α : Type} (dec : Bytes → Option (α × Bytes)) : Prop where
  shorter : ∀ b v r, dec b = some (v, r) → r.length < b.length
  append : ∀ b v r s, dec b = some (v, r) → dec (b ++ s) = some (v, r ++ s)

section
variable {α : Type} {dec : Bytes → Option (α × Bytes)}

/-- The loop has come to its end. -/
theorem rounds_done (h : Steady dec) : ∀ (n : Nat) (r : Reader α), r.buffer.length ≤ n → dec [] = none →
    dec (rounds dec n r).buffer = none
  | 0, r, hn, h0 => by
    have : r.buffer = [] := List.length_eq_zero_iff.1 (by omega)
    simp only [rounds, this, h0]
  | n + 1, r, hn, h0 => by
    simp only [rounds]
    split
    · assumption
    · rename_i v rest hd
      have := h.shorter _ _ _ hd
      exact rounds_done h n _ (by simp; omega) h0

theorem Steady.nil (h : Steady dec) : dec [] = none := by
  cases hd : dec [] with
  | none => rfl
  | some p => exact absurd (h.shorter _ p.1 p.2 hd) (by simp)

/-- More rounds than octets make no difference. -/
theorem rounds_enough (h : Steady dec) : ∀ (n m : Nat) (r : Reader α), r.buffer.length ≤ n → r.buffer.length ≤ m →
    rounds dec n r = rounds dec m r
  | 0, m, r, hn, _ => by
    have : r.buffer = [] := List.length_eq_zero_iff.1 (by omega)
    cases m <;> simp [rounds, this, h.nil]
  | n + 1, 0, r, _, hm => by
    have : r.buffer = [] := List.length_eq_zero_iff.1 (by omega)
    simp [rounds, this, h.nil]
  | n + 1, m + 1, r, hn, hm => by
    simp only [rounds]
    split
    · rfl
    · rename_i v rest hd
      have := h.shorter _ _ _ hd
      exact rounds_enough h n m _ (by simp; omega) (by simp; omega)

/-- Octets that arrive after the loop might as well have been there before. -/
theorem rounds_later (h : Steady dec) (s : Bytes) : ∀ (n : Nat) (d : List α) (b : Bytes), b.length ≤ n →
    receive dec (rounds dec n ⟨d, b⟩) s = receive dec ⟨d, b⟩ s
  | 0, d, b, hn => rfl
  | n + 1, d, b, hn => by
    simp only [rounds]
    split
    · rfl
    · rename_i v rest hd
      have hl := h.shorter _ _ _ hd
      rw [rounds_later h s n _ _ (by omega)]
      have e : (b ++ s).length = ((b ++ s).length - 1) + 1 := by
        simp only [List.length_append]
        omega
      simp only [receive]
      rw [e, rounds, h.append _ _ _ s hd]
      exact rounds_enough h _ _ _ (Nat.le_refl _) (by simp only [List.length_append]; omega)

theorem receive_append (h : Steady dec) (r : Reader α) (p s : Bytes) :
    receive dec (receive dec r p) s = receive dec r (p ++ s) := by
  show receive dec (rounds dec (r.buffer ++ p).length ⟨r.delivered, r.buffer ++ p⟩) s = _
  rw [rounds_later h s _ _ _ (Nat.le_refl _)]
  simp only [receive, List.append_assoc]

theorem foldl_receive (h : Steady dec) : ∀ (ps : List Bytes) (r : Reader α), ps ≠ [] →
    ps.foldl (receive dec) r = receive dec r ps.flatten
  | [], _, hn => absurd rfl hn
  | [p], r, _ => by simp
  | p :: q :: ps, r, _ => by
    rw [List.foldl_cons, foldl_receive h (q :: ps) _ (by simp), receive_append h]
    rfl

theorem listen_flatten (h : Steady dec) (ps : List Bytes) : listen dec ps = receive dec ⟨[], []⟩ ps.flatten := by
  by_cases hp : ps = []
  · subst hp
    simp [listen, receive, rounds]
  · exact foldl_receive h ps _ hp

/-- The messages are delivered, and what follows is looked at. -/
theorem receive_messages (h : Steady dec) (s : Bytes) : ∀ (ms : List (α × Bytes)) (d : List α),
    (∀ m ∈ ms, ∀ s, dec (m.2 ++ s) = some (m.1, s)) →
    receive dec ⟨d, []⟩ ((ms.map Prod.snd).flatten ++ s) = receive dec ⟨d ++ ms.map Prod.fst, []⟩ s
  | [], d, _ => by simp
  | m :: ms, d, hm => by
    have h1 := hm m (by simp)
    have e : receive dec ⟨d, []⟩ (((m :: ms).map Prod.snd).flatten ++ s) =
        receive dec ⟨d ++ [m.1], []⟩ ((ms.map Prod.snd).flatten ++ s) := by
      have hd := h1 ((ms.map Prod.snd).flatten ++ s)
      have hl := h.shorter _ _ _ hd
      simp only [List.length_append] at hl
      simp only [receive, List.nil_append, List.map_cons, List.flatten_cons, List.append_assoc]
      obtain ⟨k, hk⟩ : ∃ k, (m.2 ++ ((ms.map Prod.snd).flatten ++ s)).length = k + 1 :=
        ⟨(m.2 ++ ((ms.map Prod.snd).flatten ++ s)).length - 1, by simp only [List.length_append]; omega⟩
      rw [hk, rounds, hd]
      simp only [List.length_append] at hk
      exact rounds_enough h _ _ _ (by simp only [List.length_append]; omega) (Nat.le_refl _)
    rw [e, receive_messages h s ms _ (fun x hx => hm x (by simp [hx]))]
    simp

theorem receive_nothing {d : List α} {s : Bytes} (hs : dec s = none) : receive dec ⟨d, []⟩ s = ⟨d, s⟩ := by
  simp only [receive, List.nil_append]
  cases s.length <;> simp [rounds, hs]

theorem delivered_grows (r : Reader α) (p : Bytes) : ∃ vs, (receive dec r p).delivered = r.delivered ++ vs := by
  have : ∀ (n : Nat) (r : Reader α), ∃ vs, (rounds dec n r).delivered = r.delivered ++ vs := by
    intro n
    induction n with
    | zero => exact fun r => ⟨[], by simp [rounds]⟩
    | succ n ih =>
      intro r
      simp only [rounds]
      split
      · exact ⟨[], by simp⟩
      · obtain ⟨vs, hv⟩ := ih ⟨r.delivered ++ [_], _⟩
        exact ⟨_ :: vs, by rw [hv]; simp; rfl⟩
  exact this _ _

/-- C72, for a decoder. -/
theorem any_pieces_of (h : Steady dec) (ps qs : List Bytes) (he : ps.flatten = qs.flatten) : listen dec ps = listen dec qs := by
  rw [listen_flatten h, listen_flatten h, he]

theorem delivered_of (h : Steady dec) (ms : List (α × Bytes)) (hm : ∀ m ∈ ms, ∀ s, dec (m.2 ++ s) = some (m.1, s))
    (tail : Bytes) (ht : dec tail = none) (ps : List Bytes) (hp : ps.flatten = (ms.map Prod.snd).flatten ++ tail) :
    listen dec ps = ⟨ms.map Prod.fst, tail⟩ := by
  rw [listen_flatten h, hp, receive_messages h tail ms [] hm, receive_nothing ht]
  rfl

end
/-! ## The decoders -/

theorem der_steady (t : Ty) : Steady (decode t) :=
  ⟨fun b v r h => Codec.decode_shorter t b r v h, fun b v r s h => Codec.decode_append t b r s v h⟩

theorem ber_shorter (t : Ty) (b : Bytes) (v : Val) (r : Bytes) (h : berDecode t b = some (v, r)) : r.length < b.length := by
  simp only [berDecode] at h
  split at h
  · simp at h
  · rename_i x r' hr
    split at h
    · simp at h
    · simp only [Option.some.injEq, Prod.mk.injEq] at h
      obtain ⟨h1, h2⟩ := readElt_raw b x r' hr
      have := isElt_read (element_isElt _ _ _ _ _ _ h2) []
      rw [h1, ← h.2, List.length_append]
      cases hx : x.tlv.raw with
      | nil => rw [hx] at this; have h0 : readElt [] = none := by decide
               simp [h0] at this
      | cons _ _ => simp

theorem ber_steady (t : Ty) : Steady (berDecode t) :=
  ⟨ber_shorter t, fun b v r s h => BasicRules.decode_append t b r s v h⟩

theorem open_steady (s : Py.State) (hs : Open.Reached s) (c : String × Ty) (hc : c ∈ Package.types) :
    Steady (Open.decodeOpen s c.2) := by
  constructor
  · intro b w r h
    obtain ⟨v, hv, _⟩ := Open.open_sound s c.2 b r w h
    exact Codec.decode_shorter c.2 b r v hv
  · intro b w r z h
    rw [← Open.open_depth s hs c hc b ((b ++ z).length + 1) (by simp only [List.length_append]; omega)] at h
    rw [Open.decodeOpen]
    simp only [odecode] at h ⊢
    cases hr : readTLV b with
    | none => simp [hr] at h
    | some p =>
      obtain ⟨x, r'⟩ := p
      obtain ⟨_, _, h3, _⟩ := readTLV_suffix b x r' hr
      simp only [hr] at h
      rw [h3 z]
      simp only []
      split at h
      · simp at h
      · rename_i w' hw
        simp only [Option.some.injEq, Prod.mk.injEq] at h
        rw [h.1, h.2]

/-! ## C72 -/

/-- C72: what has been delivered and what is kept depends on the octets received so far, not on how they were cut into
pieces; for every type and all octets. -/
theorem any_pieces (t : Ty) (ps qs : List Bytes) (he : ps.flatten = qs.flatten) : listen (decode t) ps = listen (decode t) qs :=
  any_pieces_of (der_steady t) ps qs he

theorem any_pieces_ber (t : Ty) (ps qs : List Bytes) (he : ps.flatten = qs.flatten) :
    listen (berDecode t) ps = listen (berDecode t) qs := any_pieces_of (ber_steady t) ps qs he

theorem any_pieces_open (s : Py.State) (hs : Open.Reached s) (c : String × Ty) (hc : c ∈ Package.types) (ps qs : List Bytes)
    (he : ps.flatten = qs.flatten) : listen (Open.decodeOpen s c.2) ps = listen (Open.decodeOpen s c.2) qs :=
  any_pieces_of (open_steady s hs c hc) ps qs he

/-- C72: what has been delivered stays, and what is delivered later comes after it. -/
theorem never_taken_back (t : Ty) (ps qs : List Bytes) :
    ∃ vs, (listen (decode t) (ps ++ qs)).delivered = (listen (decode t) ps).delivered ++ vs := by
  rw [listen, List.foldl_append]
  change ∃ vs, (qs.foldl (receive (decode t)) (listen (decode t) ps)).delivered = _
  generalize listen (decode t) ps = r
  induction qs generalizing r with
  | nil => exact ⟨[], by simp⟩
  | cons q qs ih =>
    obtain ⟨vs, h1⟩ := delivered_grows (dec := decode t) r q
    obtain ⟨ws, h2⟩ := ih (receive (decode t) r q)
    exact ⟨vs ++ ws, by rw [List.foldl_cons, h2, h1, List.append_assoc]⟩

/-- `tail` is nothing, or the beginning of a message of some type that has not yet arrived completely. -/
def Begun (dec : Ty → Bytes → Option (Val × Bytes)) (tail : Bytes) : Prop :=
  tail = [] ∨ ∃ u s v, s ≠ [] ∧ dec u (tail ++ s) = some (v, [])

/-- C72: messages of any type arrive one after the other; up to now some have arrived, and perhaps a part of the next.
Those that have arrived have been delivered, in order, each once; the part is kept. -/
theorem messages_delivered (t : Ty) (ms : List (Val × Bytes)) (hm : ∀ m ∈ ms, decode t m.2 = some (m.1, []))
    (tail : Bytes) (ht : Begun decode tail) (ps : List Bytes) (hp : ps.flatten = (ms.map Prod.snd).flatten ++ tail) :
    listen (decode t) ps = ⟨ms.map Prod.fst, tail⟩ := by
  refine delivered_of (der_steady t) ms (fun m h s => by simpa using Codec.decode_append t m.2 [] s m.1 (hm m h)) tail ?_ ps hp
  rcases ht with rfl | ⟨u, s, v, h1, h2⟩
  · exact (der_steady t).nil
  · exact Codec.prefix_refused u t tail s v h2 h1

/-- C72: so it is if legal values are encoded and sent; what is delivered are these values, and encodes to the same octets. -/
theorem sent_delivered (c : String × Ty) (hc : c ∈ Package.types) (hd : c.1 ∉ Package.defective) (ms : List (Val × Bytes))
    (hm : ∀ m ∈ ms, c.2.valid m.1 = true ∧ encode c.2 m.1 = some m.2) (tail : Bytes) (ht : Begun decode tail)
    (ps : List Bytes) (hp : ps.flatten = (ms.map Prod.snd).flatten ++ tail) :
    (listen (decode c.2) ps).buffer = tail ∧ all2 (c.2.same false) (ms.map Prod.fst) (listen (decode c.2) ps).delivered ∧
      (listen (decode c.2) ps).delivered.map (encode c.2) = ms.map (fun m => some m.2) := by
  obtain ⟨ns, h1, h2, h3, h4⟩ : ∃ ns : List (Val × Bytes), ns.map Prod.snd = ms.map Prod.snd ∧
      all2 (c.2.same false) (ms.map Prod.fst) (ns.map Prod.fst) ∧
      (ns.map Prod.fst).map (encode c.2) = ms.map (fun m => some m.2) ∧ ∀ m ∈ ns, decode c.2 m.2 = some (m.1, []) := by
    clear hp
    induction ms with
    | nil => exact ⟨[], rfl, trivial, rfl, by simp⟩
    | cons m ms ih =>
      obtain ⟨ns, h1, h2, h3, h4⟩ := ih (fun x hx => hm x (by simp [hx]))
      obtain ⟨g1, g2⟩ := hm m (by simp)
      obtain ⟨w, e1, e2, e3⟩ : ∃ w, decode c.2 m.2 = some (w, []) ∧ c.2.same false m.1 w ∧ encode c.2 w = some m.2 := by
        rcases rt c.2 false m.1 m.2 (Package.wf_of_mem hc hd) g1 g2 with ⟨_, h, _⟩ | ⟨_, x, w, q1, _, q3, q4, q5⟩
        · simp at h
        · exact ⟨w, by simp only [decode, q1.read, q3], q4, (q5 (Package.stable_of_mem hc)).1⟩
      refine ⟨(w, m.2) :: ns, by simp [h1], ⟨e2, h2⟩, by simp only [List.map_cons, e3, h3], ?_⟩
      intro x hx
      rcases List.mem_cons.1 hx with rfl | hx
      · exact e1
      · exact h4 x hx
  rw [messages_delivered c.2 ns h4 tail ht ps (by rw [h1, hp])]
  exact ⟨rfl, h2, h3⟩

/-- C72: and with the BER codec. -/
theorem messages_delivered_ber (t : Ty) (ms : List (Val × Bytes)) (hm : ∀ m ∈ ms, berDecode t m.2 = some (m.1, []))
    (tail : Bytes) (ht : Begun berDecode tail) (ps : List Bytes) (hp : ps.flatten = (ms.map Prod.snd).flatten ++ tail) :
    listen (berDecode t) ps = ⟨ms.map Prod.fst, tail⟩ := by
  refine delivered_of (ber_steady t) ms (fun m h s => by simpa using BasicRules.decode_append t m.2 [] s m.1 (hm m h)) tail ?_ ps hp
  rcases ht with rfl | ⟨u, s, v, h1, h2⟩
  · exact (ber_steady t).nil
  · exact BasicRules.prefix_refused u t tail s v h2 h1

/-- C72: a message that is complete but not one of the type, for instance of another version of the protocol, stops the
stream: nothing after it is delivered, whatever arrives. -/
theorem blocked (t u : Ty) (ms : List (Val × Bytes)) (hm : ∀ m ∈ ms, decode t m.2 = some (m.1, [])) (b more : Bytes) (v : Val)
    (r : Bytes) (hu : decode u b = some (v, r)) (ht : decode t b = none) (ps : List Bytes)
    (hp : ps.flatten = (ms.map Prod.snd).flatten ++ (b ++ more)) : listen (decode t) ps = ⟨ms.map Prod.fst, b ++ more⟩ := by
  refine delivered_of (der_steady t) ms (fun m h s => by simpa using Codec.decode_append t m.2 [] s m.1 (hm m h)) _ ?_ ps hp
  unfold decode at hu ht ⊢
  cases hr : readTLV b with
  | none => simp [hr] at hu
  | some p =>
    obtain ⟨x, r'⟩ := p
    obtain ⟨_, _, h3, _⟩ := readTLV_suffix b x r' hr
    rw [h3 more]
    simp only [hr] at ht
    simp only []
    split at ht
    · rfl
    · simp at ht

/-! ## Examples -/

section Examples

/-- An LDAP message: the search with this number is done. -/
private def done (i : UInt8) : Bytes := [48, 12, 2, 1, i, 101, 7, 10, 1, 0, 4, 0, 4, 0]

-- two such messages arrive with the beginning of a third, in four pieces; both are delivered and the beginning is kept
example : (match decode Rfc2251.LDAPMessage.call.ty (done 1), decode Rfc2251.LDAPMessage.call.ty (done 2) with
    | some (v, []), some (w, []) =>
      v != w &&
      (let r := listen (decode Rfc2251.LDAPMessage.call.ty) 
        [[48, 12, 2], [1, 1, 101, 7, 10, 1, 0, 4, 0, 4, 0, 48], [], [12, 2, 1, 2, 101, 7, 10, 1, 0, 4, 0, 4, 0, 48, 12]]
       r.delivered == [v, w] && r.buffer == [48, 12])
    | _, _ => false) = true := by decide +kernel

-- the beginning is one of a message
example : Begun decode [48, 12] := by
  refine .inr ⟨Rfc2251.LDAPMessage.call.ty, [2, 1, 3, 101, 7, 10, 1, 0, 4, 0, 4, 0], (decode Rfc2251.LDAPMessage.call.ty (done 3)).get (by decide +kernel) |>.1, by simp, ?_⟩
  decide +kernel

-- legal values are sent
example : (match decode Rfc5280.AlgorithmIdentifier.call.ty [48, 3, 6, 1, 42] with
    | some (v, []) => Rfc5280.AlgorithmIdentifier.call.ty.valid v && encode Rfc5280.AlgorithmIdentifier.call.ty v == some [48, 3, 6, 1, 42]
    | _ => false) = true ∧ "rfc5280.AlgorithmIdentifier" ∉ Package.defective := by decide +kernel

-- an abandon request, `[APPLICATION 16] MessageID`, is a message that `LDAPMessage` refuses; the one after it is lost
example : (decode Rfc5280.AttributeValue.call.ty [48, 6, 2, 1, 2, 80, 1, 1]).isSome = true ∧
    decode Rfc2251.LDAPMessage.call.ty [48, 6, 2, 1, 2, 80, 1, 1] = none ∧
    (listen (decode Rfc2251.LDAPMessage.call.ty) [[48, 6, 2, 1, 2, 80, 1, 1], done 3]).delivered = [] := by decide +kernel

end Examples

end Streams
end Props
end Verif
