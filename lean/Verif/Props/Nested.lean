import Verif.Props.Codec
import Verif.Asn1.BerRead
import Verif.Asn1.BerPrim
import Verif.Asn1.Der
import Verif.Package.Types
import Verif.Gen.Package

/-!
# Nested CMP messages

C45: RFC 4210, 5.1.3.4: a PKIMessage may carry other PKIMessages in its body, `nested [20] NestedMessageContent`,
to any depth.  rfc4210.py cannot express the recursion: `NestedMessageContent` is a SEQUENCE OF ANY
(rfc4210.py:468-474), and the assignments at the end of the module (rfc4210.py:800-803) that should turn it into
PKIMessages have no effect.  So the receiver gets each inner message as octets and has to decode them itself.
The theorems say that this works, message by message and to any depth.
-/

namespace Verif
namespace Props
namespace Nested

open Asn1

/-- The type of a PKIMessage. -/
def message : Ty := Rfc4210.PKIMessage.call.ty

/-- The body: alternative 20 holding inner messages as octets. -/
def inner (es : List Bytes) : Val := .alt 20 (.list (.ofList (es.map Val.octets)))

/-- A message with nested messages and without protection. -/
def wrapping (h : Val) (es : List Bytes) : Val := .record (.ofList [h, inner es, .absent, .absent])

/-- What the module says about the shape of a PKIMessage. -/
theorem shape : ∃ a fh th fb ab cs fp tp fx tx, message = .seq false a (.cons fh th (.cons fb (.choice ab cs) (.cons fp tp
      (.cons fx tx .nil)))) ∧ fh.mode = .req ∧ fb.mode = .req ∧ fp.mode = .opt ∧ fx.mode = .opt ∧ a.spec = .inter .nil ∧
    Rfc4210.PKIHeader.call.ty = th ∧
    (∀ v, cs.validAlt 20 v = (Ty.of false ⟨[⟨.universal, true, 16⟩, ⟨.context, true, 20⟩], .inter .nil, []⟩
      (.prim .any ⟨[], .inter .nil, []⟩)).valid v) ∧
    (∀ ine v w, cs.sameAlt ine 20 v w = (Ty.of false ⟨[⟨.universal, true, 16⟩, ⟨.context, true, 20⟩], .inter .nil, []⟩
      (.prim .any ⟨[], .inter .nil, []⟩)).same ine v w) :=
  ⟨_, _, _, _, _, _, _, _, _, _, rfl, rfl, rfl, rfl, rfl, rfl, rfl, fun _ => rfl, fun _ _ _ => rfl⟩

/-- Messages in messages. -/
inductive Tree
  | plain (v : Val)
  | nested (h : Val) (ts : List Tree)

mutual
/-- The sender encodes from the inside out. -/
def Sent : Tree → Bytes → Prop
  | .plain v, b => message.valid v = true ∧ encode message v = some b
  | .nested h ts, b => Rfc4210.PKIHeader.call.ty.valid h = true ∧ ∃ es, SentAll ts es ∧ encode message (wrapping h es) = some b
def SentAll : List Tree → List Bytes → Prop
  | [], [] => True
  | t :: ts, e :: es => Sent t e ∧ SentAll ts es
  | _, _ => False
end

mutual
/-- The receiver decodes from the outside in: the inner octets are decoded as messages again. -/
def Received : Tree → Bytes → Prop
  | .plain v, b => ∃ w, decode message b = some (w, []) ∧ message.same false v w
  | .nested h ts, b => ∃ h' es, decode message b = some (wrapping h' es, []) ∧ Rfc4210.PKIHeader.call.ty.same false h h' ∧
      ReceivedAll ts es
def ReceivedAll : List Tree → List Bytes → Prop
  | [], [] => True
  | t :: ts, e :: es => Received t e ∧ ReceivedAll ts es
  | _, _ => False
end

theorem message_mem : ("rfc4210.PKIMessage", message) ∈ Package.types :=
  Package.mem_types (m := Rfc4210.asModule) (c := ("rfc4210.PKIMessage", Rfc4210.PKIMessage)) (by simp [Package.modules])
    (by simp [Rfc4210.asModule, Rfc4210.classes])

theorem message_wf : message.wf = true := Package.wf_of_mem message_mem (by decide)

/-- Encoding and decoding one message. -/
theorem step (v : Val) (b : Bytes) (hv : message.valid v = true) (he : encode message v = some b) :
    oneElement b = true ∧ ∃ w, decode message b = some (w, []) ∧ message.same false v w := by
  rcases rt message false v b message_wf hv he with ⟨_, h, _⟩ | ⟨_, x, w, h1, _, h3, h4, _⟩
  · simp at h
  · have hr := h1.2 []
    simp only [List.append_nil] at hr
    exact ⟨by simp [oneElement, hr], w, by simp [decode, hr, h3], h4⟩

theorem wrapping_valid (h : Val) (es : List Bytes) (hh : Rfc4210.PKIHeader.call.ty.valid h = true)
    (he : ∀ e ∈ es, oneElement e = true) : message.valid (wrapping h es) = true := by
  obtain ⟨a, fh, th, fb, ab, cs, fp, tp, fx, tx, h1, h2, h3, h4, h5, h6, h7, h8, _⟩ := shape
  rw [h1]
  have hb : cs.validAlt 20 (.list (.ofList (es.map Val.octets))) = true := by
    rw [h8]
    simp only [Ty.valid, Constraint.ok, Constraints.all, Bool.and_true]
    rw [Vals.every_iff, List.all_eq_true, Vals.toList_ofList]
    intro v hv
    obtain ⟨e, hm, rfl⟩ := List.mem_map.1 hv
    simpa [primLegal] using he e hm
  rw [h7] at hh
  simp [wrapping, inner, Vals.ofList, Ty.valid, Comps.valid, h2, h3, h4, h5, h6, hh, hb, Constraint.ok, Constraints.all]

theorem all2_octets (t : Ty) (ht : t = .prim .any ⟨[], .inter .nil, []⟩) : ∀ (es : List Bytes) (ws : List Val),
    all2 (t.same false) (es.map Val.octets) ws → ws = es.map Val.octets
  | [], [], _ => rfl
  | [], _ :: _, h => by simp [all2] at h
  | _ :: _, [], h => by simp [all2] at h
  | e :: es, w :: ws, h => by
    subst ht
    simp only [List.map_cons, all2, Ty.same] at h
    simp [← h.1, all2_octets _ rfl es ws h.2]

theorem same_absent (ine : Bool) (t : Ty) (w : Val) (h : t.same ine .absent w) : w = .absent := by
  cases t with
  | prim k a => simpa [Ty.same, eq_comm] using h
  | seq => simp [Ty.same] at h
  | of => simp [Ty.same] at h
  | choice => simp [Ty.same] at h
  | bad => simp [Ty.same] at h

theorem wrapping_same (h : Val) (es : List Bytes) (w : Val) (hs : message.same false (wrapping h es) w) :
    ∃ h', w = wrapping h' es ∧ Rfc4210.PKIHeader.call.ty.same false h h' := by
  obtain ⟨a, fh, th, fb, ab, cs, fp, tp, fx, tx, h1, h2, h3, h4, h5, h6, h7, _, h8⟩ := shape
  rw [h1] at hs
  cases w <;> simp only [wrapping, Ty.same] at hs
  rename_i ws
  simp only [Vals.ofList] at hs
  cases ws <;> simp only [Comps.same] at hs
  rename_i h' ws
  cases ws <;> simp only [Comps.same, and_false] at hs
  rename_i b ws
  cases ws <;> simp only [Comps.same, and_false] at hs
  rename_i p ws
  cases ws <;> simp only [Comps.same, and_false] at hs
  rename_i x ws
  cases ws <;> simp only [Comps.same, and_false] at hs
  simp only [h2, h3, h4, h5] at hs
  obtain ⟨g1, g2, g3, g4, _⟩ := hs
  have hp : p = .absent := by
    rcases g3 with g | g | g
    · exact g.2
    · exact g.2
    · exact same_absent _ _ _ g.2
  have hx : x = .absent := by
    rcases g4 with g | g | g
    · exact g.2
    · exact g.2
    · exact same_absent _ _ _ g.2
  refine ⟨h', ?_, h7 ▸ g1⟩
  subst hp hx
  cases b <;> simp only [inner, Ty.same] at g2
  rename_i k u
  obtain ⟨rfl, g2⟩ := g2
  rw [h8] at g2
  cases u <;> simp only [Ty.same] at g2
  rename_i us
  obtain ⟨vs, e1, e2⟩ := g2
  simp only [Bool.false_eq_true, if_false] at e1
  subst e1
  rw [Vals.toList_ofList] at e2
  have hf : ∀ l : List Val, l.filter (fun _ => true) = l := fun l => List.filter_eq_self.2 (fun _ _ => rfl)
  simp only [Bool.false_and, Bool.not_false, hf] at e2
  have := all2_octets _ rfl es us.toList e2
  rw [← Vals.ofList_toList us, this]
  rfl

mutual
/-- **C45.** Whatever is sent, nested to any depth, is received. -/
theorem received : ∀ (t : Tree) (b : Bytes), Sent t b → oneElement b = true ∧ Received t b
  | .plain v, b, h => by
    simp only [Sent] at h
    simpa only [Received] using step v b h.1 h.2
  | .nested h ts, b, hs => by
    simp only [Sent] at hs
    obtain ⟨hh, es, h1, h2⟩ := hs
    obtain ⟨h3, h4⟩ := receivedAll ts es h1
    obtain ⟨h5, w, h6, h7⟩ := step _ b (wrapping_valid h es hh h3) h2
    obtain ⟨h', rfl, h8⟩ := wrapping_same h es w h7
    simp only [Received]
    exact ⟨h5, h', es, h6, h8, h4⟩
theorem receivedAll : ∀ (ts : List Tree) (es : List Bytes), SentAll ts es →
    (∀ e ∈ es, oneElement e = true) ∧ ReceivedAll ts es
  | [], [], _ => by simp [ReceivedAll]
  | [], _ :: _, h => by simp [SentAll] at h
  | _ :: _, [], h => by simp [SentAll] at h
  | t :: ts, e :: es, h => by
    simp only [SentAll] at h
    obtain ⟨h1, h2⟩ := received t e h.1
    obtain ⟨h3, h4⟩ := receivedAll ts es h.2
    simp only [ReceivedAll, List.mem_cons, forall_eq_or_imp]
    exact ⟨⟨h1, h3⟩, h2, h4⟩
end

/-- **C45.** Every nesting of valid headers and messages can be sent, as long as it stays below pyasn1's size limit. -/
theorem sendable (h : Val) (es : List Bytes) (hh : Rfc4210.PKIHeader.call.ty.valid h = true)
    (he : ∀ e ∈ es, oneElement e = true) (hs : message.weight (wrapping h es) < 256 ^ 126) :
    ∃ b, encode message (wrapping h es) = some b := by
  obtain ⟨b, hb, _⟩ := enc_total message false _ (wrapping_valid h es hh he) hs
  exact ⟨b, hb⟩

theorem element_tlv {b : Bytes} {x : TLV} (h : IsTLV b x) : Ber.Element x.cls x.num x.constructed x.content b := by
  have hr := h.raw
  have := whole_ber x (by have := h.2 []; rw [List.append_nil, ← hr] at this; exact this)
  rwa [hr] at this

/-- **C45.** What is written as PKIMessages, the type the RFC means, is cut into its messages by NestedMessageContent,
the type the module uses: any BER header, any BER elements. -/
theorem cut (es : List Bytes) (he : ∀ e ∈ es, ∃ c n k d, Ber.Element c n k d e) (b rest : Bytes)
    (hb : Ber.Element .universal 16 true es.flatten b) :
    decode Rfc4210.NestedMessageContent.call.ty (b ++ rest) = some (.list (.ofList (es.map Val.octets)), rest) := by
  refine ber_decode _ _ _ _ (by decide +kernel) ?_
  refine ⟨es, ⟨b, hb, rfl⟩, ?_⟩
  rw [Vals.toList_ofList]
  clear hb
  induction es with
  | nil => trivial
  | cons e es ih =>
    refine ⟨?_, ih (fun e h => he e (by simp [h]))⟩
    obtain ⟨c, n, k, d, hd⟩ := he e (by simp)
    exact ⟨c, n, k, d, hd, rfl⟩

/-- The type the RFC means: what is sent as PKIMessages arrives, message by message. -/
theorem messages (ms : List Val) (hm : ∀ m ∈ ms, message.valid m = true) (b : Bytes)
    (he : encode Rfc4210.PKIMessages.call.ty (.list (.ofList ms)) = some b) :
    ∃ es, decode Rfc4210.NestedMessageContent.call.ty b = some (.list (.ofList (es.map Val.octets)), []) ∧
      all2 (fun m e => encode message m = some e ∧ ∃ w, decode message e = some (w, []) ∧ message.same false m w) ms es := by
  obtain ⟨a, h1, h2⟩ : ∃ a, Rfc4210.PKIMessages.call.ty = .of false a message ∧ a.tags = [⟨.universal, true, 16⟩] := ⟨_, rfl, rfl⟩
  rw [h1] at he
  simp only [encode, enc, h2, wrap] at he
  split at he
  rotate_left
  · simp at he
  split at he
  · simp at he
  rename_i ps hps
  rw [Vals.toList_ofList] at hps
  obtain ⟨g1, g2⟩ := mapOpt_pairs' _ _ _ hps
  have hb : tlv ⟨.universal, true, 16⟩ true (ps.map Prod.fst).flatten = some b := by
    rw [← List.flatMap_def]
    simpa using he
  have g3 : ∀ e ∈ ps.map Prod.fst, ∃ c n k d, Ber.Element c n k d e := by
    intro e h
    obtain ⟨p, hp, rfl⟩ := List.mem_map.1 h
    have hv := hm p.2 (by rw [← g1]; exact List.mem_map.2 ⟨p, hp, rfl⟩)
    rcases rt message false p.2 p.1 message_wf hv (g2 p hp) with ⟨_, h, _⟩ | ⟨_, x, w, h1, _⟩
    · simp at h
    · exact ⟨_, _, _, _, element_tlv h1⟩
  have g4 := element_tlv (isTLV_tlv _ _ _ _ hb)
  refine ⟨ps.map Prod.fst, by simpa using cut _ g3 b [] g4, ?_⟩
  rw [← g1] at hm ⊢
  clear hps g1 g3 g4 hb he
  induction ps with
  | nil => trivial
  | cons p ps ih =>
    refine ⟨⟨g2 p (by simp), ?_⟩, ih (fun m h => hm m (by simp at h ⊢; exact .inr h)) (fun q h => g2 q (by simp [h]))⟩
    exact (step p.2 p.1 (hm p.2 (by simp)) (g2 p (by simp))).2

/-! ## Example: a message in a message in a message -/

/-- A header with two empty directory names. -/
def header : Val := .record (.ofList [.int 2, .alt 4 (.alt 0 (.list .nil)), .alt 4 (.alt 0 (.list .nil)),
  .absent, .absent, .absent, .absent, .absent, .absent, .absent, .absent, .absent])

/-- The innermost one is a confirmation. -/
def confirmation : Val := .record (.ofList [header, .alt 19 .null, .absent, .absent])

/-- The nesting is not vacuous: three messages, the one inside the other. -/
def octets1 : Bytes := [48, 17, 48, 11, 2, 1, 2, 164, 2, 48, 0, 164, 2, 48, 0, 179, 2, 5, 0]
def octets2 : Bytes := [48, 36, 48, 11, 2, 1, 2, 164, 2, 48, 0, 164, 2, 48, 0, 180, 21] ++ [48, 19] ++ octets1
def octets3 : Bytes := [48, 55, 48, 11, 2, 1, 2, 164, 2, 48, 0, 164, 2, 48, 0, 180, 40] ++ [48, 38] ++ octets2

example : Sent (.nested header [.nested header [.plain confirmation]]) octets3 := by
  simp only [Sent]
  refine ⟨by decide +kernel, [octets2], ⟨?_, trivial⟩, by decide +kernel⟩
  simp only [Sent]
  refine ⟨by decide +kernel, [octets1], ⟨?_, trivial⟩, by decide +kernel⟩
  simp only [Sent]
  exact ⟨by decide +kernel, by decide +kernel⟩

end Nested
end Props
end Verif
