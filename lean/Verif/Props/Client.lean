import Verif.Props.Cmc
import Verif.Props.Basic
import Verif.Tools.Client
import Verif.Spec.Path

/-!
# snmpget and ocspclient

C41, C42: what the two scripts send, for all arguments and inputs, and what they make of the answer.
-/

namespace Verif
namespace Props
namespace Client

open Verif.Tools
open Verif.Pem hiding Bytes
open Verif.Asn1
open Verif.Spec
open Verif.Props.Pem

/-! ## Object identifiers as text -/

/-- The numbers in decimal, with dots between them. -/
def render : List Nat → Text
  | [] => []
  | [n] => n.repr.toList
  | n :: m :: l => n.repr.toList ++ '.' :: render (m :: l)

theorem digit_value (d : Nat) (h : d < 10) : d.digitChar.isDigit = true ∧ d.digitChar.toNat - 48 = d := by
  revert h; revert d; decide

theorem digits_append : ∀ (s t : List Char) (acc : Nat),
    Py.digits? (s ++ t) acc = (Py.digits? s acc).bind (Py.digits? t)
  | [], _, _ => rfl
  | c :: s, t, acc => by
    simp only [List.cons_append, Py.digits?]
    split
    · exact digits_append s t _
    · rfl

theorem digits_repr (n : Nat) : Py.digits? (Nat.toDigits 10 n) 0 = some n := by
  induction n using Nat.strongRecOn with
  | _ n ih =>
    rw [Nat.toDigits_eq_if (by decide)]
    split
    · rename_i h
      simp [Py.digits?, (digit_value n h).1, (digit_value n h).2]
    · rename_i h
      have hd := digit_value (n % 10) (Nat.mod_lt _ (by decide))
      rw [digits_append, ih (n / 10) (by omega)]
      simp only [Option.bind_some, Py.digits?, hd.1, hd.2, ↓reduceIte, Option.some.injEq]
      omega

theorem dots_ne : ∀ s : Text, dots s ≠ []
  | [] => by simp [dots]
  | c :: s => by
    rw [dots]
    split
    · simp
    · split <;> simp

theorem dots_plain : ∀ s : Text, '.' ∉ s → dots s = [s]
  | [], _ => rfl
  | c :: s, h => by
    simp only [List.mem_cons, not_or] at h
    rw [dots, dots_plain s h.2]
    simp [Ne.symm h.1]

theorem dots_cons : ∀ s t : Text, '.' ∉ s → dots (s ++ '.' :: t) = s :: dots t
  | [], t, _ => by
    show dots ('.' :: t) = _
    rw [dots]
    cases h : dots t with
    | nil => exact absurd h (dots_ne t)
    | cons p ps => simp
  | c :: s, t, h => by
    simp only [List.mem_cons, not_or] at h
    rw [List.cons_append, dots, dots_cons s t h.2]
    simp [Ne.symm h.1]

theorem repr_digits (n : Nat) : ∀ c ∈ Nat.toDigits 10 n, c.isDigit = true := by
  induction n using Nat.strongRecOn with
  | _ n ih =>
    rw [Nat.toDigits_eq_if (by decide)]
    split
    · rename_i h; simp [(digit_value n h).1]
    · intro c hc
      rcases List.mem_append.1 hc with hc | hc
      · exact ih (n / 10) (by omega) c hc
      · rw [List.mem_singleton.1 hc]; exact (digit_value _ (Nat.mod_lt _ (by decide))).1

theorem repr_dot (n : Nat) : '.' ∉ Nat.toDigits 10 n := fun h => by
  have := repr_digits n _ h
  exact absurd this (by decide)

theorem repr_ne (n : Nat) : (Nat.toDigits 10 n).isEmpty = false := by
  rw [Nat.toDigits_eq_if (by decide)]; split <;> simp

/-- C41: the text of an object identifier stands for it. -/
theorem dotted_render : ∀ o : List Nat, dotted (render o) = some o
  | [] => by decide
  | [n] => by
    simp only [render, dotted, Nat.toList_repr, dots_plain _ (repr_dot n)]
    simp [repr_ne, digits_repr]
  | n :: m :: l => by
    have ih := dotted_render (m :: l)
    simp only [render, dotted, Nat.toList_repr] at ih ⊢
    rw [dots_cons _ _ (repr_dot n)]
    simp only [List.filter_cons, repr_ne, Bool.not_false, ↓reduceIte, List.mapM_cons, digits_repr]
    rw [ih]; rfl

/-- C41: a leading dot makes no difference. -/
theorem dotted_leading (s : Text) : dotted ('.' :: s) = dotted s := by
  have : dots ('.' :: s) = [] :: dots s := dots_cons [] s (by simp)
  simp [dotted, this]

/-! ## What snmpget sends -/

/-- The arcs of an object identifier that can be encoded. -/
def legalOid (o : List Nat) : Prop := primLegal .oid (.oid o) = true

theorem getRequest_valid (c : Bytes) (o : List Nat) (h : legalOid o) :
    Rfc1157.Message.call.ty.valid (getRequest c o) = true := by
  iterate 16 (try first | rfl | exact h | (refine Bool.and_eq_true_iff.2 ⟨?_, ?_⟩ <;> try rfl))

theorem message_shape : ∃ a f1 t1 f2 t2 f3 a3 g a4 f4 t4 f5 t5 f6 t6 f7 a7 a8 f9 a9 f10 t10 alts,
    Rfc1157.Message.call.ty = .seq false a (.cons f1 t1 (.cons f2 t2 (.cons f3 (.choice a3 (.cons g
      (.seq false a4 (.cons f4 t4 (.cons f5 t5 (.cons f6 t6 (.cons f7 (.of false a7
        (.seq false a8 (.cons f9 (.prim .oid a9) (.cons f10 t10 .nil)))) .nil))))) alts)) .nil))) ∧
    f3.mode = .req ∧ f7.mode = .req ∧ f9.mode = .req :=
  ⟨_, _, _, _, _, _, _, _, _, _, _, _, _, _, _, _, _, _, _, _, _, _, _, rfl, rfl, rfl, rfl⟩

/-- If a mandatory component cannot be encoded, neither can its SEQUENCE. -/
theorem seq_none (ine s : Bool) (a : Attrs) (cs : Comps) (vs : Vals) (i : Nat) (f : Field) (t : Ty) (v : Val)
    (hc : cs.get? i = some (f, t)) (hv : vs.get? i = some v) (hf : f.mode = .req) (hn : v ≠ .absent)
    (h : ∀ ine, enc ine t v = none) : enc ine (.seq s a cs) (.record vs) = none := by
  rw [enc]
  split
  · cases he : encComps cs vs with
    | none => rfl
    | some ps =>
      obtain ⟨b, h1, _⟩ := Cmc.encComps_length cs vs ps i f t v he hc hv hn (by rw [hf]; simp)
      rw [h] at h1; cases h1
  · rfl

theorem getRequest_refused (c : Bytes) (o : List Nat) (h : encOid o = none) :
    encode Rfc1157.Message.call.ty (getRequest c o) = none := by
  obtain ⟨a, f1, t1, f2, t2, f3, a3, g, a4, f4, t4, f5, t5, f6, t6, f7, a7, a8, f9, a9, f10, t10, alts, e, m3, m7, m9⟩ :=
    message_shape
  rw [e]
  refine seq_none _ _ _ _ _ 2 _ _ _ rfl rfl m3 (by simp) (fun ine => ?_)
  rw [enc, encAlt, seq_none _ _ _ _ _ 3 _ _ _ rfl rfl m7 (by simp) (fun ine => ?_)]
  rw [enc]
  have : ∀ ine, enc ine (.seq false a8 (.cons f9 (.prim .oid a9) (.cons f10 t10 .nil)))
      (.record (.ofList [.oid o, .alt 0 (.alt 3 .null)])) = none := fun ine =>
    seq_none _ _ _ _ _ 0 _ _ _ rfl rfl m9 (by simp) (fun ine => by simp [enc, encPrim, h])
  have h2 : mapOpt (fun v => (enc ine (.seq false a8 (.cons f9 (.prim .oid a9) (.cons f10 t10 .nil))) v).map
      (fun b => (b, v))) (Vals.ofList [.record (.ofList [.oid o, .alt 0 (.alt 3 .null)])]).toList = none := by
    simp only [Vals.ofList, Vals.toList, mapOpt] at this ⊢
    simp [this]
  rw [h2]
  split <;> rfl

theorem encOid_legal (o : List Nat) : (∃ b, encOid o = some b) ↔ legalOid o := by
  unfold legalOid encOid
  cases o with
  | nil => simp [mergeArcs, primLegal]
  | cons x o =>
    cases o with
    | nil => simp [mergeArcs, primLegal]
    | cons y l =>
      match x with
      | 0 => by_cases h : y ≤ 39 <;> simp [mergeArcs, primLegal, h] <;> omega
      | 1 => by_cases h : y ≤ 39 <;> simp [mergeArcs, primLegal, h] <;> omega
      | 2 => simp [mergeArcs, primLegal]
      | n + 3 => simp [mergeArcs, primLegal]

theorem message_mem : ("rfc1157.Message", Rfc1157.Message.call.ty) ∈ Package.types :=
  Package.mem_types (m := Rfc1157.asModule) (c := ("rfc1157.Message", Rfc1157.Message))
    (by simp [Package.modules]) (by simp [Rfc1157.asModule, Rfc1157.classes])

theorem latin1 : ∀ s : Text, encStr .latin1 s =
    if s.all (fun c => c.toNat < 256) then some (s.map (fun c => UInt8.ofNat c.toNat)) else none
  | [] => rfl
  | c :: s => by
    rw [encStr, latin1 s]
    by_cases h1 : c.toNat < 256 <;> by_cases h2 : (s.all fun c => c.toNat < 256) = true <;> simp [encChar, h1, h2]

/-- The message is an SNMPv1 get-request for the value of `o`, in the names of RFC 1157. -/
structure IsGetRequest (community : Bytes) (o : List Nat) (v : Val) : Prop where
  version : look [.field "version"] Rfc1157.Message.call.ty v = some (.int 0)
  community : look [.field "community"] Rfc1157.Message.call.ty v = some (.octets community)
  errorStatus : look [.field "data", .alternative "get-request", .field "error-status"] Rfc1157.Message.call.ty v = some (.int 0)
  errorIndex : look [.field "data", .alternative "get-request", .field "error-index"] Rfc1157.Message.call.ty v = some (.int 0)
  /-- the script always uses the same -/
  requestId : look [.field "data", .alternative "get-request", .field "request-id"] Rfc1157.Message.call.ty v = some (.int 123)
  name : look [.field "data", .alternative "get-request", .field "variable-bindings", .element 0, .field "name"]
    Rfc1157.Message.call.ty v = some (.oid o)
  value : look [.field "data", .alternative "get-request", .field "variable-bindings", .element 0, .field "value",
    .alternative "simple", .alternative "empty"] Rfc1157.Message.call.ty v = some .null
  one : look [.field "data", .alternative "get-request", .field "variable-bindings", .element 1]
    Rfc1157.Message.call.ty v = none

theorem getRequest_spec (c : Bytes) (o : List Nat) : IsGetRequest c o (getRequest c o) :=
  ⟨rfl, rfl, rfl, rfl, rfl, rfl, rfl, rfl⟩

/-- The BER encoder writes SNMP messages like the DER encoder. -/
theorem message_same (v : Val) : berEncode Rfc1157.Message.call.ty v = encode Rfc1157.Message.call.ty v :=
  BasicRules.same_octets _ (by decide +kernel) v

theorem snmpget_sent (community oid : Text) (b : Bytes) (h : snmpget community oid = some b) :
    ∃ o, dotted oid = some o ∧ ∀ rest, decode Rfc1157.Message.call.ty (b ++ rest) =
      some (getRequest (community.map (fun c => UInt8.ofNat c.toNat)) o, rest) := by
  unfold snmpget at h
  rw [latin1] at h
  split at h
  · rename_i c o hc ho
    rw [message_same] at h
    split at hc
    · simp only [Option.some.injEq] at hc
      subst hc
      have hl : legalOid o := by
        rw [← encOid_legal]
        cases he : encOid o with
        | none => rw [getRequest_refused _ _ he] at h; cases h
        | some b => exact ⟨b, rfl⟩
      refine ⟨o, ho, fun rest => ?_⟩
      obtain ⟨x, w, h1, h2, h3, _⟩ := Codec.encode_isTLV _ (Package.wf_of_mem message_mem (by decide)) _ b
        (getRequest_valid _ o hl) h
      rw [← Codec.plain_same _ _ _ _ (by rfl) h3] at h2
      simp only [decode, h1.2 rest, h2]
    · cases hc
  · cases h

/-- C41: whatever snmpget sends, a receiver reads a get-request for the object identifier on the
command line, with the community on the command line, whatever follows in the buffer, with DER and with BER. -/
theorem snmpget_sends (community oid : Text) (b : Bytes) (h : snmpget community oid = some b) :
    ∃ o v, dotted oid = some o ∧ IsGetRequest (community.map (fun c => UInt8.ofNat c.toNat)) o v ∧
      ∀ rest, decode Rfc1157.Message.call.ty (b ++ rest) = some (v, rest) ∧
        berDecode Rfc1157.Message.call.ty (b ++ rest) = some (v, rest) := by
  obtain ⟨o, h1, h2⟩ := snmpget_sent community oid b h
  exact ⟨o, _, h1, getRequest_spec _ o, fun rest => ⟨h2 rest, BasicRules.extends_der _ _ _ _ (h2 rest)⟩⟩

/-- C41: it sends one for every community in ISO-8859-1 and every object identifier that can be
encoded, and for no other. -/
theorem snmpget_iff (community : Text) (o : List Nat)
    (hs : ∀ c, c.length = community.length → Rfc1157.Message.call.ty.weight (getRequest c o) < Codec.maxOctets) :
    (∃ b, snmpget community (render o) = some b) ↔ (∀ c ∈ community, c.toNat < 256) ∧ legalOid o := by
  unfold snmpget
  rw [latin1, dotted_render]
  constructor
  · rintro ⟨b, h⟩
    split at h
    · rename_i c o' hc ho
      simp only [Option.some.injEq] at ho
      subst ho
      rw [message_same] at h
      split at hc
      · rename_i ha
        refine ⟨by simpa using ha, ?_⟩
        rw [← encOid_legal]
        cases he : encOid o with
        | none => rw [getRequest_refused _ _ he] at h; cases h
        | some b => exact ⟨b, rfl⟩
      · cases hc
    · cases h
  · rintro ⟨h1, h2⟩
    rw [if_pos (by simpa using h1)]
    obtain ⟨b, _, h, _⟩ := Codec.roundtrip _ message_mem (by decide) _ (getRequest_valid _ o h2) (hs (community.map fun c => UInt8.ofNat c.toNat) (by simp))
    exact ⟨b, (message_same _).trans h⟩

theorem latin1_inj : ∀ s t : Text, (∀ c ∈ s, c.toNat < 256) → (∀ c ∈ t, c.toNat < 256) →
    s.map (fun c => UInt8.ofNat c.toNat) = t.map (fun c => UInt8.ofNat c.toNat) → s = t
  | [], [], _, _, _ => rfl
  | [], _ :: _, _, _, h => by simp at h
  | _ :: _, [], _, _, h => by simp at h
  | c :: s, d :: t, hs, ht, h => by
    simp only [List.map_cons, List.cons.injEq] at h
    have h1 := congrArg UInt8.toNat h.1
    simp only [UInt8.toNat_ofNat'] at h1
    have hc := hs c (by simp)
    have hd := ht d (by simp)
    rw [Nat.mod_eq_of_lt hc, Nat.mod_eq_of_lt hd] at h1
    rw [latin1_inj s t (fun c hc => hs c (by simp [hc])) (fun c hc => ht c (by simp [hc])) h.2]
    congr 1
    exact Char.ext (UInt32.toNat_inj.1 h1)

theorem snmpget_latin1 (community oid : Text) (b : Bytes) (h : snmpget community oid = some b) :
    ∀ c ∈ community, c.toNat < 256 := by
  unfold snmpget at h
  rw [latin1] at h
  split at h
  · rename_i hc _
    split at hc
    · rename_i ha; simpa using ha
    · cases hc
  · cases h

/-- C41: different arguments, different datagrams. -/
theorem snmpget_differs (c c' oid oid' : Text) (b : Bytes) (h : snmpget c oid = some b) (h' : snmpget c' oid' = some b) :
    c = c' ∧ dotted oid = dotted oid' := by
  obtain ⟨o, h1, h2⟩ := snmpget_sent c oid b h
  obtain ⟨o', h1', h2'⟩ := snmpget_sent c' oid' b h'
  have := h2 []
  rw [h2' []] at this
  simp only [getRequest, Vals.ofList, Option.some.injEq, Prod.mk.injEq, Val.record.injEq, Vals.cons.injEq, Val.octets.injEq,
    Val.alt.injEq, Val.list.injEq, Val.oid.injEq, true_and, and_true] at this
  exact ⟨(latin1_inj c' c (snmpget_latin1 _ _ _ h') (snmpget_latin1 _ _ _ h) this.1).symm, by rw [h1, h1', this.2]⟩

/-- C41: a reply that does not fit in 2048 octets is refused, not misread. -/
theorem snmp_long_reply (v : Val) (datagram : Bytes) (h : berDecode Rfc1157.Message.call.ty datagram = some (v, []))
    (hl : 2048 < datagram.length) : snmpReply datagram = none := by
  rw [← List.take_append_drop 2048 datagram] at h
  have := BasicRules.prefix_refused _ Rfc1157.Message.call.ty _ _ v h (by
    intro e
    have := congrArg List.length e
    simp at this
    omega)
  simp [snmpReply, this]

/-- C41: a shorter one is printed as it was sent, in whatever form of BER: here `v` is any value and `p` any encoding of it
in the sense of X.690, followed by anything. -/
theorem snmp_reply (v : Val) (p rest : Bytes) (h : Basic.reads false Rfc1157.Message.call.ty v p)
    (hl : (p ++ rest).length ≤ 2048) : snmpReply (p ++ rest) = some v := by
  have := BasicRules.ber_read _ message_mem (by decide) v p rest h
  simp [snmpReply, List.take_of_length_le hl, this]

/-- C41: in particular what an agent writes with this package. -/
theorem snmp_reply_written (v : Val) (hv : Rfc1157.Message.call.ty.valid v = true) (b : Bytes)
    (hb : encode Rfc1157.Message.call.ty v = some b) (hl : b.length ≤ 2048) : snmpReply b = some v := by
  have := BasicRules.written _ message_mem (by decide) v (BasicRules.valid _ v hv) b ((message_same v).trans hb)
  simpa using snmp_reply v b [] this (by simpa using hl)

/-- C41: nothing is shown but what the datagram says. -/
theorem snmp_reply_sound (v : Val) (datagram : Bytes) (h : snmpReply datagram = some v) :
    ∃ p rest, datagram = p ++ rest ∧ Basic.reads true Rfc1157.Message.call.ty v p := by
  simp only [snmpReply, Option.map_eq_some_iff] at h
  obtain ⟨⟨w, r⟩, h, rfl⟩ := h
  obtain ⟨p, h1, h2⟩ := BasicRules.accepted _ message_mem _ _ _ h
  refine ⟨p, r ++ datagram.drop 2048, ?_, h2⟩
  rw [← List.append_assoc, ← h1, List.take_append_drop]

/-- The request of RFC 1157 for sysDescr with community "public". -/
example : snmpget "public".toList "1.3.6.1.2.1.1.1.0".toList =
    some [0x30, 0x26, 2, 1, 0, 4, 6, 0x70, 0x75, 0x62, 0x6c, 0x69, 0x63, 0xa0, 0x19, 2, 1, 0x7b, 2, 1, 0, 2, 1, 0,
      0x30, 0x0e, 0x30, 0x0c, 6, 8, 0x2b, 6, 1, 2, 1, 1, 1, 0, 5, 0] := by decide +kernel
example : legalOid [1, 3, 6, 1, 2, 1, 1, 1, 0] ∧ render [1, 3, 6] = "1.3.6".toList := by
  constructor
  · rfl
  · decide

/-! ## What ocspclient sends -/

theorem cert_shape : ∃ a f1 a1 g1 t1 g2 a2 g3 t3 g4 t4 g5 t5 g6 t6 g7 a7 k1 u1 k2 b2 ds ds',
    Rfc2459.Certificate.call.ty = .seq false a (.cons f1 (.seq false a1 (.cons g1 t1 (.cons g2 (.prim .integer a2)
      (.cons g3 t3 (.cons g4 t4 (.cons g5 t5 (.cons g6 t6 (.cons g7 (.seq false a7 (.cons k1 u1
        (.cons k2 (.prim .bitString b2) .nil))) ds)))))))) ds') ∧
    f1.mode = .req ∧ g2.mode = .req ∧ g4.mode = .req ∧ g6.mode = .req ∧ g7.mode = .req ∧ k2.mode = .req ∧
    t4 = Rfc2459.Name.call.ty ∧ t6 = Rfc2459.Name.call.ty :=
  ⟨_, _, _, _, _, _, _, _, _, _, _, _, _, _, _, _, _, _, _, _, _, _, _, rfl, rfl, rfl, rfl, rfl, rfl, rfl, rfl, rfl⟩

theorem admits_cons {f : Field} {t : Ty} {cs : Comps} : ∀ {vs : Vals}, (Comps.cons f t cs).admits vs = true →
    ∃ v ws, vs = .cons v ws ∧ (f.mode = .req → t.admits v = true) ∧ cs.admits ws = true
  | .nil, h => by simp [Comps.admits] at h
  | .cons v ws, h => by
    simp only [Comps.admits, Bool.and_eq_true] at h
    refine ⟨v, ws, rfl, fun hf => ?_, h.2⟩
    have := h.1
    rw [hf] at this
    exact this

theorem admits_record {s : Bool} {a : Attrs} {cs : Comps} : ∀ {v : Val}, (Ty.seq s a cs).admits v = true →
    ∃ vs, v = .record vs ∧ cs.admits vs = true
  | .record vs, h => by simp only [Ty.admits, Bool.and_eq_true] at h; exact ⟨vs, rfl, h.1⟩
  | .absent, h | .int _, h | .bits _, h | .octets _, h | .null, h | .oid _, h | .str _, h | .list _, h | .alt _ _, h => by
    simp [Ty.admits] at h

/-- Every certificate that decodes has the fields the script reads. -/
theorem cert_fields (b r : Bytes) (v : Val) (h : decode Rfc2459.Certificate.call.ty b = some (v, r)) :
    ∃ n bits iss subj, certFields v = some ⟨.int n, iss, subj, .bits bits⟩ ∧ Rfc2459.Name.call.ty.admits iss = true ∧
      Rfc2459.Name.call.ty.admits subj = true := by
  have ha := Codec.decoded_admitted _ _ _ _ h
  obtain ⟨a, f1, a1, g1, t1, g2, a2, g3, t3, g4, t4, g5, t5, g6, t6, g7, a7, k1, u1, k2, b2, ds, ds', e, m1, m2, m4, m6, m7,
    mk, e4, e6⟩ := cert_shape
  rw [e] at ha
  obtain ⟨_, rfl, h0⟩ := admits_record ha
  obtain ⟨tbs, _, rfl, ht, _⟩ := admits_cons h0
  obtain ⟨_, rfl, h1⟩ := admits_record (ht m1)
  obtain ⟨v1, _, rfl, _, h2⟩ := admits_cons h1
  obtain ⟨v2, _, rfl, p2, h3⟩ := admits_cons h2
  obtain ⟨v3, _, rfl, _, h4⟩ := admits_cons h3
  obtain ⟨v4, _, rfl, p4, h5⟩ := admits_cons h4
  obtain ⟨v5, _, rfl, _, h6⟩ := admits_cons h5
  obtain ⟨v6, _, rfl, p6, h7⟩ := admits_cons h6
  obtain ⟨v7, _, rfl, p7, _⟩ := admits_cons h7
  obtain ⟨_, rfl, h8⟩ := admits_record (p7 m7)
  obtain ⟨w1, _, rfl, _, h9⟩ := admits_cons h8
  obtain ⟨w2, _, rfl, pk, _⟩ := admits_cons h9
  have q2 := p2 m2
  have qk := pk mk
  cases v2 with
  | int n =>
    cases w2 with
    | bits bits => exact ⟨n, bits, v4, v6, rfl, by rw [← e4]; exact p4 m4, by rw [← e6]; exact p6 m6⟩
    | _ => simp [Ty.admits, primShape, primLegal] at qk
  | _ => simp [Ty.admits, primShape, primLegal] at q2

theorem request_mem : ("rfc2560.OCSPRequest", Rfc2560.OCSPRequest.call.ty) ∈ Package.types :=
  Package.mem_types (m := Rfc2560.asModule) (c := ("rfc2560.OCSPRequest", Rfc2560.OCSPRequest))
    (by simp [Package.modules]) (by simp [Rfc2560.asModule, Rfc2560.classes])

theorem request_valid (h k : Bytes) (n : Int) : Rfc2560.OCSPRequest.call.ty.valid (ocspRequest h k (.int n)) = true := by
  rfl

/-- A request that was encoded is read back as it was built. -/
theorem request_read (h k : Bytes) (n : Int) (b : Bytes)
    (he : encode Rfc2560.OCSPRequest.call.ty (ocspRequest h k (.int n)) = some b) (rest : Bytes) :
    decode Rfc2560.OCSPRequest.call.ty (b ++ rest) = some (ocspRequest h k (.int n), rest) := by
  obtain ⟨x, w, h1, h2, h3, _⟩ := Codec.encode_isTLV _ (Package.wf_of_mem request_mem (by decide)) _ b
    (request_valid h k n) he
  rw [← Codec.plain_same _ _ _ _ (by rfl) h3] at h2
  simp only [decode, h1.2 rest, h2]

/-! What a certificate and a request say, in the names of RFC 2459 and RFC 2560. -/

def certSerial (v : Val) : Option Val := look [.field "tbsCertificate", .field "serialNumber"] Rfc2459.Certificate.call.ty v
def certIssuer (v : Val) : Option Val := look [.field "tbsCertificate", .field "issuer"] Rfc2459.Certificate.call.ty v
def certSubject (v : Val) : Option Val := look [.field "tbsCertificate", .field "subject"] Rfc2459.Certificate.call.ty v
def certKey (v : Val) : Option Val :=
  look [.field "tbsCertificate", .field "subjectPublicKeyInfo", .field "subjectPublicKey"] Rfc2459.Certificate.call.ty v

/-- The request asks about one certificate, is not signed and has no extensions; the hash algorithm is SHA-1. -/
structure IsOcspRequest (nameHash keyHash : Bytes) (serial : Val) (v : Val) : Prop where
  version : look [.field "tbsRequest", .field "version"] Rfc2560.OCSPRequest.call.ty v = some (.int 0)
  requestor : look [.field "tbsRequest", .field "requestorName"] Rfc2560.OCSPRequest.call.ty v = some .absent
  algorithm : look [.field "tbsRequest", .field "requestList", .element 0, .field "reqCert", .field "hashAlgorithm",
    .field "algorithm"] Rfc2560.OCSPRequest.call.ty v = some (.oid [1, 3, 14, 3, 2, 26])
  parameters : look [.field "tbsRequest", .field "requestList", .element 0, .field "reqCert", .field "hashAlgorithm",
    .field "parameters"] Rfc2560.OCSPRequest.call.ty v = some .absent
  nameHash : look [.field "tbsRequest", .field "requestList", .element 0, .field "reqCert", .field "issuerNameHash"]
    Rfc2560.OCSPRequest.call.ty v = some (.octets nameHash)
  keyHash : look [.field "tbsRequest", .field "requestList", .element 0, .field "reqCert", .field "issuerKeyHash"]
    Rfc2560.OCSPRequest.call.ty v = some (.octets keyHash)
  serial : look [.field "tbsRequest", .field "requestList", .element 0, .field "reqCert", .field "serialNumber"]
    Rfc2560.OCSPRequest.call.ty v = some serial
  single : look [.field "tbsRequest", .field "requestList", .element 0, .field "singleRequestExtensions"]
    Rfc2560.OCSPRequest.call.ty v = some .absent
  one : look [.field "tbsRequest", .field "requestList", .element 1] Rfc2560.OCSPRequest.call.ty v = none
  extensions : look [.field "tbsRequest", .field "requestExtensions"] Rfc2560.OCSPRequest.call.ty v = some .absent
  signature : look [.field "optionalSignature"] Rfc2560.OCSPRequest.call.ty v = some .absent

theorem ocspRequest_spec (h k : Bytes) (s : Val) : IsOcspRequest h k s (ocspRequest h k s) :=
  ⟨rfl, rfl, rfl, rfl, rfl, rfl, rfl, rfl, rfl, rfl, rfl⟩

/-- The type of the component called `n`. -/
def typeAt (n : String) : Comps → Option Ty
  | .cons f t cs => if f.name = n then some t else typeAt n cs
  | .nil => none

theorem find_fieldAt (n : String) : ∀ (cs : Comps) (vs : Vals) (w : Val), Comps.find n cs vs = some w →
    ∃ t, typeAt n cs = some t ∧ fieldAt n cs vs = some (t, w)
  | .nil, vs, w, h => by cases vs <;> simp [Comps.find] at h
  | .cons f t cs, .nil, w, h => by simp [Comps.find] at h
  | .cons f t cs, .cons v vs, w, h => by
    unfold Comps.find at h
    unfold fieldAt typeAt
    split
    · rename_i hn
      rw [if_pos hn] at h
      cases h
      exact ⟨t, rfl, rfl⟩
    · rename_i hn
      rw [if_neg hn] at h
      exact find_fieldAt n cs vs w h

theorem component_look {t : Ty} {n : String} {v w : Val} (h : component t n v = some w) :
    ∃ s a cs u, t = .seq s a cs ∧ typeAt n cs = some u ∧ ∀ p, look (.field n :: p) t v = look p u w := by
  unfold component at h
  split at h
  · split at h
    · rename_i vs _ s a cs
      obtain ⟨u, h1, h2⟩ := find_fieldAt n cs vs w h
      exact ⟨s, a, cs, u, rfl, h1, fun p => by simp only [Spec.look, h2]⟩
    · cases h
  · cases h

theorem component_at {t u : Ty} {n : String} {v w : Val} (h : component t n v = some w)
    (hu : ∀ s a cs, t = .seq s a cs → typeAt n cs = some u) (p : List Spec.Step) : look (.field n :: p) t v = look p u w := by
  obtain ⟨s, a, cs, u', h1, h2, h3⟩ := component_look h
  have := hu s a cs h1
  rw [h2] at this
  cases this
  exact h3 p

theorem certFields_look {v : Val} {f : CertFields} (h : certFields v = some f) :
    certSerial v = some f.serial ∧ certIssuer v = some f.issuer ∧ certSubject v = some f.subject ∧ certKey v = some f.key := by
  simp only [certFields, bind, Option.bind_eq_some_iff, pure, Option.some.injEq] at h
  obtain ⟨tbs, h1, spki, h2, serial, h3, issuer, h4, subject, h5, key, h6, rfl⟩ := h
  have e : ∀ p, look (.field "tbsCertificate" :: p) Rfc2459.Certificate.call.ty v =
      look p Rfc2459.TBSCertificate.call.ty tbs :=
    component_at h1 (by intro s a cs hc; cases hc; rfl)
  refine ⟨?_, ?_, ?_, ?_⟩
  · rw [certSerial, e, component_at (u := Rfc2459.CertificateSerialNumber.call.ty) h3 (by intro s a cs hc; cases hc; rfl)]; rfl
  · rw [certIssuer, e, component_at (u := Rfc2459.Name.call.ty) h4 (by intro s a cs hc; cases hc; rfl)]; rfl
  · rw [certSubject, e, component_at (u := Rfc2459.Name.call.ty) h5 (by intro s a cs hc; cases hc; rfl)]; rfl
  · rw [certKey, e, component_at (u := Rfc2459.SubjectPublicKeyInfo.call.ty) h2 (by intro s a cs hc; cases hc; rfl),
      component_at (u := Py.univ.BitString.call.ty) h6 (by intro s a cs hc; cases hc; rfl)]; rfl

theorem ocsp_posted (sha1 : Bytes → Bytes) (keyOctets : Val → Option Bytes) (stdin : Text) (b : Bytes)
    (h : ocspPost sha1 keyOctets stdin = some b) :
    ∃ issuer user rest rest' i u n name key, nextCert stdin = some (issuer, rest) ∧ nextCert rest = some (user, rest') ∧
      certFields issuer = some i ∧ certFields user = some u ∧ u.serial = .int n ∧ i.subject = u.issuer ∧
      encode Rfc2459.Name.call.ty i.subject = some name ∧ keyOctets i.key = some key ∧
      ∀ tail, decode Rfc2560.OCSPRequest.call.ty (b ++ tail) = some (ocspRequest (sha1 name) (sha1 key) (.int n), tail) := by
  simp only [ocspPost, mkOcspRequest, bind, Option.bind_eq_some_iff] at h
  obtain ⟨⟨issuer, rest⟩, h1, ⟨user, rest'⟩, h2, req, ⟨i, h3, u, h4, h5⟩, h6⟩ := h
  split at h5
  · rename_i hn
    simp only [Option.bind_eq_some_iff] at h5
    obtain ⟨name, h7, key, h8, h9⟩ := h5
    simp only [pure, Option.some.injEq] at h9
    have hu : ∃ n, u.serial = .int n := by
      unfold nextCert at h2
      split at h2
      · simp only [Option.map_eq_some_iff, Prod.mk.injEq] at h2
        obtain ⟨⟨v, r⟩, h10, rfl, _⟩ := h2
        obtain ⟨n, _, _, _, h11, _⟩ := cert_fields _ _ _ h10
        rw [h11] at h4
        simp only [Option.some.injEq] at h4
        exact ⟨n, by rw [← h4]⟩
      · cases h2
    obtain ⟨n, hu⟩ := hu
    refine ⟨issuer, user, rest, rest', i, u, n, name, key, h1, h2, h3, h4, hu, hn, by rw [hn]; exact h7, h8, ?_⟩
    rw [← h9, hu] at h6
    exact request_read _ _ n b h6
  · cases h5

/-- C42: for every hash function and every standard input, whatever ocspclient posts asks for
exactly one certificate: the second one on standard input, whose issuer is the subject of the first
one, named by its serial number, the hash of its issuer's name and the hash of its issuer's key. -/
theorem ocsp_posts (sha1 : Bytes → Bytes) (keyOctets : Val → Option Bytes) (stdin : Text) (b : Bytes)
    (h : ocspPost sha1 keyOctets stdin = some b) :
    ∃ issuer user rest rest' ca k n name key req, nextCert stdin = some (issuer, rest) ∧ nextCert rest = some (user, rest') ∧
      certSubject issuer = some ca ∧ certIssuer user = some ca ∧ certSerial user = some (.int n) ∧ certKey issuer = some k ∧
      encode Rfc2459.Name.call.ty ca = some name ∧ keyOctets k = some key ∧ IsOcspRequest (sha1 name) (sha1 key) (.int n) req ∧
      ∀ tail, decode Rfc2560.OCSPRequest.call.ty (b ++ tail) = some (req, tail) := by
  obtain ⟨issuer, user, rest, rest', i, u, n, name, key, h1, h2, h3, h4, h5, h6, h7, h8, h9⟩ := ocsp_posted sha1 keyOctets stdin b h
  have l1 := certFields_look h3
  have l2 := certFields_look h4
  exact ⟨issuer, user, rest, rest', i.subject, i.key, n, name, key, _, h1, h2, l1.2.2.1, by rw [l2.2.1, h6], by rw [l2.1, h5],
    l1.2.2.2, h7, h8, ocspRequest_spec _ _ _, h9⟩

/-- C42: requests for different certificates differ, unless the hash function makes them equal. -/
theorem ocsp_differs (sha1 : Bytes → Bytes) (keyOctets : Val → Option Bytes) (stdin stdin' : Text) (b : Bytes)
    (h : ocspPost sha1 keyOctets stdin = some b) (h' : ocspPost sha1 keyOctets stdin' = some b)
    (issuer user issuer' user' : Val) (rest rest' tail tail' : Text)
    (h1 : nextCert stdin = some (issuer, rest)) (h2 : nextCert rest = some (user, tail))
    (h1' : nextCert stdin' = some (issuer', rest')) (h2' : nextCert rest' = some (user', tail')) :
    certSerial user = certSerial user' ∧
    ∃ ca ca' name name' k k' key key', certIssuer user = some ca ∧ certIssuer user' = some ca' ∧
      encode Rfc2459.Name.call.ty ca = some name ∧ encode Rfc2459.Name.call.ty ca' = some name' ∧ sha1 name = sha1 name' ∧
      certKey issuer = some k ∧ certKey issuer' = some k' ∧ keyOctets k = some key ∧ keyOctets k' = some key' ∧
      sha1 key = sha1 key' := by
  obtain ⟨_, _, _, _, ca, k, n, name, key, req, g1, g2, g3, g4, g5, g6, g7, g8, g9, g10⟩ := ocsp_posts sha1 keyOctets stdin b h
  obtain ⟨_, _, _, _, ca', k', n', name', key', req', f1, f2, f3, f4, f5, f6, f7, f8, f9, f10⟩ := ocsp_posts sha1 keyOctets stdin' b h'
  rw [h1] at g1
  cases g1
  rw [h2] at g2
  cases g2
  rw [h1'] at f1
  cases f1
  rw [h2'] at f2
  cases f2
  have e := g10 []
  rw [f10 []] at e
  cases e
  have a1 := g9.serial
  rw [f9.serial] at a1
  have a2 := g9.nameHash
  rw [f9.nameHash] at a2
  have a3 := g9.keyHash
  rw [f9.keyHash] at a3
  simp only [Option.some.injEq, Val.octets.injEq] at a1 a2 a3
  exact ⟨by rw [g5, f5, a1], ca, ca', name, name', k, k', key, key', g4, f4, g7, f7, a2.symm, g6, f6, g8, f8, a3.symm⟩

theorem next_armored (k : Nat) (hk : k ≠ 0) (pre : List Text) (hl : ∀ l ∈ pre, IsLine l)
    (hp : ∀ l ∈ pre, Verif.Pem.strip l ≠ (marker "CERTIFICATE").1) (b : Bytes) (post : Text) :
    nextCert (unlines (pre ++ (marker "CERTIFICATE").1 :: wrap (4 * k) (base64 b) ++ [(marker "CERTIFICATE").2]) ++ post) =
      (decode Rfc2459.Certificate.call.ty b).map (fun p => (p.1, post)) := by
  have h1 : GoodMarker (marker "CERTIFICATE").1 := by decide
  have h2 : GoodMarker (marker "CERTIFICATE").2 := by decide
  rw [nextCert, first_block_distinct [marker "CERTIFICATE"] pre (wrap (4 * k) (base64 b)) _ _ post 0 (by simp) (by simp) ?_
    (by simpa using hp) (by simp [h1.stripped, h2.stripped])
    (fun l hl => by rw [h2.stripped]; exact (wrap_body _ _ _ h2 l hl).2.2)]
  · rw [bodyResult_wrap _ _ _ h2, dumped, dump_wrap k hk]
  · intro l hl'
    simp only [List.mem_append, List.mem_cons, List.not_mem_nil, or_false] at hl'
    rcases hl' with (hl' | rfl | hl') | rfl
    · exact hl l hl'
    · exact h1.line
    · exact (wrap_body _ _ _ h2 l hl').1
    · exact h2.line

theorem ocsp_armored (sha1 : Bytes → Bytes) (keyOctets : Val → Option Bytes) (k k' : Nat) (hk : k ≠ 0) (hk' : k' ≠ 0)
    (pre pre' : List Text) (hl : ∀ l ∈ pre, IsLine l) (hl' : ∀ l ∈ pre', IsLine l)
    (hp : ∀ l ∈ pre, Verif.Pem.strip l ≠ (marker "CERTIFICATE").1)
    (hp' : ∀ l ∈ pre', Verif.Pem.strip l ≠ (marker "CERTIFICATE").1) (post : Text)
    (b1 b2 r1 r2 : Bytes) (issuer user : Val) (h1 : decode Rfc2459.Certificate.call.ty b1 = some (issuer, r1))
    (h2 : decode Rfc2459.Certificate.call.ty b2 = some (user, r2)) (i u : CertFields)
    (hi : certFields issuer = some i) (hu : certFields user = some u) (name key : Bytes) (hn : i.subject = u.issuer)
    (he : encode Rfc2459.Name.call.ty u.issuer = some name) (hkey : keyOctets i.key = some key) :
    ocspPost sha1 keyOctets
      (unlines (pre ++ (marker "CERTIFICATE").1 :: wrap (4 * k) (base64 b1) ++ [(marker "CERTIFICATE").2]) ++
      (unlines (pre' ++ (marker "CERTIFICATE").1 :: wrap (4 * k') (base64 b2) ++ [(marker "CERTIFICATE").2]) ++ post)) =
      encode Rfc2560.OCSPRequest.call.ty (ocspRequest (sha1 name) (sha1 key) u.serial) := by
  simp only [ocspPost, next_armored k hk pre hl hp, next_armored k' hk' pre' hl' hp', h1, h2, Option.map_some, bind,
    Option.bind_some, mkOcspRequest, hi, hu, hn, ↓reduceIte, he, hkey, pure]

/-- C42: two certificates in PEM form, with any text before, between and after them and any line
width divisible by four, are asked about if the first one's subject is the second one's issuer. -/
theorem ocsp_pem (sha1 : Bytes → Bytes) (keyOctets : Val → Option Bytes) (k k' : Nat) (hk : k ≠ 0) (hk' : k' ≠ 0)
    (pre pre' : List Text) (hl : ∀ l ∈ pre, IsLine l) (hl' : ∀ l ∈ pre', IsLine l)
    (hp : ∀ l ∈ pre, Verif.Pem.strip l ≠ (marker "CERTIFICATE").1)
    (hp' : ∀ l ∈ pre', Verif.Pem.strip l ≠ (marker "CERTIFICATE").1) (post : Text)
    (b1 b2 r1 r2 : Bytes) (issuer user : Val) (h1 : decode Rfc2459.Certificate.call.ty b1 = some (issuer, r1))
    (h2 : decode Rfc2459.Certificate.call.ty b2 = some (user, r2)) (ca c s : Val)
    (hs : certSubject issuer = some ca) (hi : certIssuer user = some ca) (hn : certSerial user = some s)
    (hc : certKey issuer = some c) (name key : Bytes)
    (he : encode Rfc2459.Name.call.ty ca = some name) (hkey : keyOctets c = some key) :
    ∃ req, IsOcspRequest (sha1 name) (sha1 key) s req ∧ ocspPost sha1 keyOctets
      (unlines (pre ++ (marker "CERTIFICATE").1 :: wrap (4 * k) (base64 b1) ++ [(marker "CERTIFICATE").2]) ++
      (unlines (pre' ++ (marker "CERTIFICATE").1 :: wrap (4 * k') (base64 b2) ++ [(marker "CERTIFICATE").2]) ++ post)) =
      encode Rfc2560.OCSPRequest.call.ty req := by
  obtain ⟨_, _, _, _, f1, _⟩ := cert_fields _ _ _ h1
  obtain ⟨_, _, _, _, f2, _⟩ := cert_fields _ _ _ h2
  have l1 := certFields_look f1
  have l2 := certFields_look f2
  rw [l1.2.2.1] at hs
  rw [l2.2.1] at hi
  rw [l2.1] at hn
  rw [l1.2.2.2] at hc
  cases hs
  cases hi
  cases hn
  cases hc
  exact ⟨_, ocspRequest_spec _ _ _, ocsp_armored sha1 keyOctets k k' hk hk' pre pre' hl hl' hp hp' post b1 b2 r1 r2 issuer user
    h1 h2 _ _ f1 f2 name key rfl he hkey⟩

/-- C42: nothing is posted unless the subject of the first certificate is the issuer of the second. -/
theorem ocsp_mismatch (sha1 : Bytes → Bytes) (keyOctets : Val → Option Bytes) (stdin rest rest' : Text)
    (issuer user : Val) (h1 : nextCert stdin = some (issuer, rest))
    (h2 : nextCert rest = some (user, rest')) (hn : certSubject issuer ≠ certIssuer user) :
    ocspPost sha1 keyOctets stdin = none := by
  cases h : ocspPost sha1 keyOctets stdin with
  | none => rfl
  | some b =>
    obtain ⟨_, _, _, _, _, _, _, _, _, _, g1, g2, g3, g4, _⟩ := ocsp_posts sha1 keyOctets stdin b h
    rw [h1] at g1
    cases g1
    rw [h2] at g2
    cases g2
    exact absurd (g3.trans g4.symm) hn

/-- C42, a failure: with `valueOnlyBitStringEncoder` raising, as it does with pyasn1 0.4.7 and later,
the script never posts anything. -/
theorem ocsp_never (sha1 : Bytes → Bytes) (stdin : Text) : ocspPost sha1 (fun _ => none) stdin = none := by
  cases h : ocspPost sha1 (fun _ => none) stdin with
  | none => rfl
  | some b =>
    obtain ⟨_, _, _, _, _, _, _, _, _, _, _, _, _, _, _, _, _, hk, _⟩ := ocsp_posts sha1 _ stdin b h
    cases hk

/-- A small self-signed certificate with serial number 7. -/
def smallCert : Val :=
  .record (.ofList [.record (.ofList [.int 0, .int 7, .record (.ofList [.oid [1, 2, 3], .absent]), .alt 0 (.list .nil),
      .record (.ofList [.alt 0 (.str "200101000000Z".toList), .alt 0 (.str "300101000000Z".toList)]),
      .alt 0 (.list .nil), .record (.ofList [.record (.ofList [.oid [1, 2, 3], .absent]), .bits [true]]),
      .absent, .absent, .absent]),
    .record (.ofList [.oid [1, 2, 3], .absent]), .bits []])

/-- Its PEM form. -/
def smallPem : Text :=
  unlines ((marker "CERTIFICATE").1 ::
    wrap 64 (base64 ((encode Rfc2459.Certificate.call.ty smallCert).getD [])) ++ [(marker "CERTIFICATE").2])

-- C42: something is posted (the identity as hash function, a constant for the key)
example : ocspPost id (fun _ => some [9]) (smallPem ++ "text between\n".toList ++ smallPem) =
    encode Rfc2560.OCSPRequest.call.ty (ocspRequest [48, 0] [9] (.int 7)) := by decide +kernel
example : encode Rfc2560.OCSPRequest.call.ty (ocspRequest [48, 0] [9] (.int 7)) =
    some [48, 27, 48, 25, 48, 23, 48, 21, 48, 19, 48, 7, 6, 5, 43, 14, 3, 2, 26, 4, 2, 48, 0, 4, 1, 9, 2, 1, 7] := by
  decide +kernel

/-! ## What ocspclient makes of the answer -/

/-- An answer with the given status and basic response. -/
def answer (status : Int) (type : List Nat) (response : Bytes) : Val :=
  .record (.ofList [.int status, .record (.ofList [.oid type, .octets response])])

/-- A basic response: when it was produced, and its first entry. -/
def basic (version responder producedAt certID : Val) (i : Nat) (info thisUpdate : Val) (more others extensions : Vals)
    (rest : Vals) : Val :=
  .record (.cons (.record (.cons version (.cons responder (.cons producedAt (.cons (.list
    (.cons (.record (.cons certID (.cons (.alt i info) (.cons thisUpdate more)))) others)) extensions))))) rest)

theorem response_shape : ∃ a f1 a1 f2 a2 g1 b1 g2 b2,
    Rfc2560.OCSPResponse.call.ty = .seq false a (.cons f1 (.prim .enumerated a1) (.cons f2 (.seq false a2
      (.cons g1 (.prim .oid b1) (.cons g2 (.prim .octetString b2) .nil))) .nil)) ∧
    f1.mode = .req ∧ f2.mode = .opt ∧ g1.mode = .req ∧ g2.mode = .req :=
  ⟨_, _, _, _, _, _, _, _, _, rfl, rfl, rfl, rfl, rfl⟩

theorem admits_nil : ∀ {vs : Vals}, Comps.nil.admits vs = true → vs = .nil
  | .nil, _ => rfl
  | .cons _ _, h => by simp [Comps.admits] at h

theorem admits_opt {f : Field} {t : Ty} {cs : Comps} {vs : Vals} (h : (Comps.cons f t cs).admits vs = true)
    (hf : f.mode = .opt) : ∃ v ws, vs = .cons v ws ∧ (v = .absent ∨ t.admits v = true) ∧ cs.admits ws = true := by
  cases vs with
  | nil => simp [Comps.admits] at h
  | cons v ws =>
    simp only [Comps.admits, hf, Bool.and_eq_true, Bool.or_eq_true, beq_iff_eq] at h
    exact ⟨v, ws, rfl, h⟩

/-- Every answer that decodes has a status, and may have a typed response. -/
theorem response_cases (b r : Bytes) (v : Val) (h : decode Rfc2560.OCSPResponse.call.ty b = some (v, r)) :
    ∃ n, v = .record (.ofList [.int n, .absent]) ∨ ∃ o c, v = answer n o c := by
  have ha := Codec.decoded_admitted _ _ _ _ h
  obtain ⟨a, f1, a1, f2, a2, g1, b1, g2, b2, e, m1, m2, k1, k2⟩ := response_shape
  rw [e] at ha
  obtain ⟨_, rfl, h0⟩ := admits_record ha
  obtain ⟨v1, _, rfl, p1, h1⟩ := admits_cons h0
  obtain ⟨v2, _, rfl, p2, h2⟩ := admits_opt h1 m2
  have hn := admits_nil h2
  subst hn
  have q1 := p1 m1
  cases v1 with
  | int n =>
    refine ⟨n, ?_⟩
    rcases p2 with rfl | p2
    · exact .inl rfl
    · obtain ⟨_, rfl, h3⟩ := admits_record p2
      obtain ⟨w1, _, rfl, s1, h4⟩ := admits_cons h3
      obtain ⟨w2, _, rfl, s2, h5⟩ := admits_cons h4
      have hn := admits_nil h5
      subst hn
      have r1 := s1 k1
      have r2 := s2 k2
      cases w1 with
      | oid o =>
        cases w2 with
        | octets c => exact .inr ⟨o, c, rfl⟩
        | _ => simp [Ty.admits, primShape, primLegal] at r2
      | _ => simp [Ty.admits, primShape, primLegal] at r1
  | _ => simp [Ty.admits, primShape, primLegal] at q1

theorem basic_shape : ∃ a f a0 g1 t1 g2 t2 g3 t3 g4 a4 a5 k1 u1 k2 a6 alts k3 u3 ds ds' ds'',
    Rfc2560.BasicOCSPResponse.call.ty = .seq false a (.cons f (.seq false a0 (.cons g1 t1 (.cons g2 t2 (.cons g3 t3
      (.cons g4 (.of false a4 (.seq false a5 (.cons k1 u1 (.cons k2 (.choice a6 alts) (.cons k3 u3 ds))))) ds'))))) ds'') ∧
    f.mode = .req ∧ g4.mode = .req ∧ k2.mode = .req :=
  ⟨_, _, _, _, _, _, _, _, _, _, _, _, _, _, _, _, _, _, _, _, _, _, rfl, rfl, rfl, rfl⟩

/-- Every basic response that decodes has a list of entries, maybe an empty one. -/
theorem basic_cases (b r : Bytes) (v : Val) (h : decode Rfc2560.BasicOCSPResponse.call.ty b = some (v, r)) :
    (∃ version responder producedAt extensions rest, v = .record (.cons (.record (.cons version (.cons responder
      (.cons producedAt (.cons (.list .nil) extensions))))) rest)) ∨
    ∃ version responder producedAt certID i info thisUpdate more others extensions rest,
      v = basic version responder producedAt certID i info thisUpdate more others extensions rest := by
  have ha := Codec.decoded_admitted _ _ _ _ h
  obtain ⟨a, f, a0, g1, t1, g2, t2, g3, t3, g4, a4, a5, k1, u1, k2, a6, alts, k3, u3, ds, ds', ds'', e, m1, m4, mk⟩ :=
    basic_shape
  rw [e] at ha
  obtain ⟨_, rfl, h0⟩ := admits_record ha
  obtain ⟨v0, rest, rfl, p0, _⟩ := admits_cons h0
  obtain ⟨_, rfl, h1⟩ := admits_record (p0 m1)
  obtain ⟨v1, _, rfl, _, h2⟩ := admits_cons h1
  obtain ⟨v2, _, rfl, _, h3⟩ := admits_cons h2
  obtain ⟨v3, _, rfl, _, h4⟩ := admits_cons h3
  obtain ⟨v4, ext, rfl, p4, _⟩ := admits_cons h4
  have q := p4 m4
  cases v4 with
  | list l =>
    cases l with
    | nil => exact .inl ⟨v1, v2, v3, ext, rest, rfl⟩
    | cons w others =>
      simp only [Ty.admits, Vals.every, Bool.and_eq_true] at q
      have qw : (Ty.seq false a5 (.cons k1 u1 (.cons k2 (.choice a6 alts) (.cons k3 u3 ds)))).admits w = true := q.1
      obtain ⟨_, rfl, h5⟩ := admits_record qw
      obtain ⟨w1, _, rfl, _, h6⟩ := admits_cons h5
      obtain ⟨w2, _, rfl, s2, h7⟩ := admits_cons h6
      obtain ⟨w3, more, rfl, _, _⟩ := admits_cons h7
      have r2 := s2 mk
      cases w2 with
      | alt i info => exact .inr ⟨v1, v2, v3, w1, i, info, w3, more, others, ext, rest, rfl⟩
      | _ => simp [Ty.admits] at r2
  | _ => simp [Ty.admits] at q

theorem answer_status (n : Int) (o : List Nat) (c : Bytes) :
    component Rfc2560.OCSPResponse.call.ty "responseStatus" (answer n o c) = some (.int n) := rfl
theorem answer_bytes (n : Int) (o : List Nat) (c : Bytes) :
    component Rfc2560.OCSPResponse.call.ty "responseBytes" (answer n o c) =
      some (.record (.ofList [.oid o, .octets c])) := rfl
theorem answer_type (o : List Nat) (c : Bytes) : component Rfc2560.ResponseBytes.call.ty "responseType"
    (.record (.ofList [.oid o, .octets c])) = some (.oid o) := rfl
theorem answer_response (o : List Nat) (c : Bytes) : component Rfc2560.ResponseBytes.call.ty "response"
    (.record (.ofList [.oid o, .octets c])) = some (.octets c) := rfl
theorem successful_value : (Rfc2560.OCSPResponseStatus.call.callStr "successful").value = .int 0 := by decide +kernel
theorem basic_value : Rfc2560.id_pkix_ocsp_basic.value = .oid [1, 3, 6, 1, 5, 5, 7, 48, 1, 1] := by decide +kernel

theorem status_name (i : Nat) (info : Val) :
    alternativeName Rfc2560.CertStatus.call.ty (.alt i info) = ["good", "revoked", "unknown"][i]? := by
  match i with
  | 0 => rfl
  | 1 => rfl
  | 2 => rfl
  | n + 3 => rfl

/-- Reading the fields of a decoded answer. -/
theorem parse_answer (n : Int) (o : List Nat) (c : Bytes) : parseOcspResponse (answer n o c) =
    if n = 0 ∧ o = [1, 3, 6, 1, 5, 5, 7, 48, 1, 1] then
      (decode Rfc2560.BasicOCSPResponse.call.ty c).bind (fun p => do
        let data ← component Rfc2560.BasicOCSPResponse.call.ty "tbsResponseData" p.1
        let first ← firstOf (← component Rfc2560.ResponseData.call.ty "responses" data)
        return {
          producedAt := ← component Rfc2560.ResponseData.call.ty "producedAt" data
          certID := ← component Rfc2560.SingleResponse.call.ty "certID" first
          status := ← alternativeName Rfc2560.CertStatus.call.ty
            (← component Rfc2560.SingleResponse.call.ty "certStatus" first)
          thisUpdate := ← component Rfc2560.SingleResponse.call.ty "thisUpdate" first })
    else none := by
  simp only [parseOcspResponse, answer_status, answer_bytes, answer_type, answer_response, successful_value, basic_value,
    octetsOf, bind, Option.bind_some, Val.int.injEq, Val.oid.injEq]
  by_cases h1 : n = 0 <;> by_cases h2 : o = [1, 3, 6, 1, 5, 5, 7, 48, 1, 1] <;> simp [h1, h2, eq_comm]

theorem basic_data (version responder producedAt certID : Val) (i : Nat) (info thisUpdate : Val) (more others extensions : Vals)
    (rest : Vals) : (do
        let data ← component Rfc2560.BasicOCSPResponse.call.ty "tbsResponseData"
          (basic version responder producedAt certID i info thisUpdate more others extensions rest)
        let first ← firstOf (← component Rfc2560.ResponseData.call.ty "responses" data)
        return {
          producedAt := ← component Rfc2560.ResponseData.call.ty "producedAt" data
          certID := ← component Rfc2560.SingleResponse.call.ty "certID" first
          status := ← alternativeName Rfc2560.CertStatus.call.ty
            (← component Rfc2560.SingleResponse.call.ty "certStatus" first)
          thisUpdate := ← component Rfc2560.SingleResponse.call.ty "thisUpdate" first }) =
    (["good", "revoked", "unknown"][i]?).map (fun s => (⟨producedAt, certID, s, thisUpdate⟩ : OcspReport)) := by
  rw [← status_name i info]
  show (alternativeName Rfc2560.CertStatus.call.ty (.alt i info)).bind
    (fun s => some (⟨producedAt, certID, s, thisUpdate⟩ : OcspReport)) = _
  cases alternativeName Rfc2560.CertStatus.call.ty (.alt i info) <;> rfl

/-- C42: the script reports on an answer exactly when it is successful and carries a basic response
with an entry, and it reports the first one; trailing octets are ignored twice. -/
theorem ocsp_reply (body : Bytes) (rep : OcspReport) :
    ocspReply body = some rep ↔
    ∃ b r r' version responder i info more others extensions rest,
      decode Rfc2560.OCSPResponse.call.ty body = some (answer 0 [1, 3, 6, 1, 5, 5, 7, 48, 1, 1] b, r) ∧
      decode Rfc2560.BasicOCSPResponse.call.ty b = some (basic version responder rep.producedAt rep.certID i info
        rep.thisUpdate more others extensions rest, r') ∧
      ["good", "revoked", "unknown"][i]? = some rep.status := by
  constructor
  · intro h
    simp only [ocspReply, bind, Option.bind_eq_some_iff] at h
    obtain ⟨⟨v, r⟩, h1, h2⟩ := h
    obtain ⟨n, rfl | ⟨o, c, rfl⟩⟩ := response_cases _ _ _ h1
    · exfalso
      have e1 : component Rfc2560.OCSPResponse.call.ty "responseStatus" (.record (.ofList [.int n, .absent])) =
        some (.int n) := rfl
      have e2 : component Rfc2560.OCSPResponse.call.ty "responseBytes" (.record (.ofList [.int n, .absent])) =
        some .absent := rfl
      have e3 : ∀ n, component Rfc2560.ResponseBytes.call.ty n .absent = none := fun _ => rfl
      simp [parseOcspResponse, e1, e2, e3] at h2
    · rw [parse_answer] at h2
      split at h2
      · rename_i hno
        obtain ⟨rfl, rfl⟩ := hno
        simp only [Option.bind_eq_some_iff] at h2
        obtain ⟨⟨w, r'⟩, h3, h4⟩ := h2
        rcases basic_cases _ _ _ h3 with ⟨v1, v2, v3, ext, rest, rfl⟩ |
          ⟨v1, v2, v3, w1, i, info, w3, more, others, ext, rest, rfl⟩
        · exfalso
          revert h4
          show ¬ (none : Option OcspReport) = some rep
          simp
        · have := basic_data v1 v2 v3 w1 i info w3 more others ext rest
          rw [this, Option.map_eq_some_iff] at h4
          obtain ⟨s, h5, rfl⟩ := h4
          exact ⟨c, r, r', v1, v2, i, info, more, others, ext, rest, h1, h3, h5⟩
      · cases h2
  · rintro ⟨b, r, r', version, responder, i, info, more, others, extensions, rest, h1, h2, h3⟩
    have := basic_data version responder rep.producedAt rep.certID i info rep.thisUpdate more others extensions rest
    simp only [bind] at this
    simp only [ocspReply, h1, bind, Option.bind_some, parse_answer, and_self, ↓reduceIte, h2, this, h3, Option.map_some]

/-- A response to whatever was asked: certificate number 5 is good. -/
def smallBasic : Val :=
  .record (.ofList [.record (.ofList [.int 0, .alt 1 (.octets [1]), .str "20200101000000Z".toList,
      .list (.ofList [.record (.ofList [.record (.ofList [.record (.ofList [.oid [1, 2, 3], .absent]), .octets [1], .octets [2],
        .int 5]), .alt 0 .null, .str "20200101000000Z".toList, .absent, .absent])]), .absent]),
    .record (.ofList [.oid [1, 2, 3], .absent]), .bits [], .absent])

-- C42: it is reported, although no request asked about number 5
example : ((encode Rfc2560.BasicOCSPResponse.call.ty smallBasic).bind (fun b =>
      encode Rfc2560.OCSPResponse.call.ty (answer 0 [1, 3, 6, 1, 5, 5, 7, 48, 1, 1] b))).bind ocspReply =
    some ⟨.str "20200101000000Z".toList, .record (.ofList [.record (.ofList [.oid [1, 2, 3], .absent]), .octets [1],
      .octets [2], .int 5]), "good", .str "20200101000000Z".toList⟩ := by decide +kernel

end Client
end Props
end Verif
