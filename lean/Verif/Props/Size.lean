import Verif.Spec.Size
import Verif.Asn1.SizeOpen
import Verif.Asn1.Depth
import Verif.Asn1.BasicSize
import Verif.Props.Ber
import Verif.Props.Open

/-!
# C65: what decoding makes is not much larger than the input

A few octets never make a large value: the size of a decoded value is at most ten times the number of octets read, with
open types opened or not, whatever is registered.  And without open types it is nested at most 22 deep, whatever the
input.
-/

namespace Verif
namespace Props
namespace Size

open Asn1 Py Open

/-! ## Every type -/

/-- C65: for any type whose SEQUENCEs and SETs fit the factor `K`: what is decoded is at most `K` times as large as what is
read. -/
theorem size_general (K : Nat) (hK : 2 ≤ K) (t : Ty) (hf : t.each (Ty.within K) = true) (hs : t.setsOk = true)
    (b r : Bytes) (v : Val) (h : decode t b = some (v, r)) : v.size + K * r.length ≤ K * b.length :=
  decode_size hK t b v r hf hs h

/-- C65: for any type at all: a decoded value is nested no deeper than the type is written. -/
theorem depth_general (t : Ty) (b r : Bytes) (v : Val) (h : decode t b = some (v, r)) : v.depth ≤ t.depth :=
  decode_depth h

/-! ## The package -/

theorem fits_table : Package.types.all (fun c => c.2.each (Ty.within 10)) = true := by decide +kernel

theorem written_table : Registry.written.all (fun w => w.2.2.each (Ty.within 10) && w.2.2.setsOk) = true := by decide +kernel

theorem depth_table : Package.types.all (fun c => Nat.ble c.2.depth 22) = true := by decide +kernel

/-- C65: decoding one of the package's types from `b`, `r` of it being left over, makes a value of size at most ten times
the octets read. -/
theorem decoded_size (c : String × Ty) (hc : c ∈ Package.types) (b r : Bytes) (v : Val) (h : decode c.2 b = some (v, r)) :
    v.size + 10 * r.length ≤ 10 * b.length :=
  decode_size (by decide) c.2 b v r (List.all_eq_true.1 fits_table c hc) (List.all_eq_true.1 Reading.sets_ok c hc) h

/-- C65: so also with open types, after any imports: an opened field replaces its octets and takes at most ten times as
much. -/
theorem opened_size (s : State) (hs : Reached s) (c : String × Ty) (hc : c ∈ Package.types) (b r : Bytes) (v : OVal)
    (h : decodeOpen s c.2 b = some (v, r)) : v.size + 10 * r.length ≤ 10 * b.length := by
  refine odecode_size (by decide) (fun m k u hu => ?_) _ c.2 b v r (List.all_eq_true.1 fits_table c hc)
    (List.all_eq_true.1 Reading.sets_ok c hc) (Open.openOk_of_mem hc) h
  have hw := reached_written hs hu
  have h1 := List.all_eq_true.1 written_table _ hw
  rw [Bool.and_eq_true] at h1
  exact ⟨h1.1, h1.2, List.all_eq_true.1 registered_openOk _ hw⟩

/-- C65: no smaller factor does. -/
theorem factor_least : ∃ c ∈ Package.types, ∃ b v, b ≠ [] ∧ decode c.2 b = some (v, []) ∧ v.size = 10 * b.length :=
  ⟨_, Package.mem_types (m := Rfc5275.asModule) (c := ("rfc5275.GLKeyAttributes", Rfc5275.GLKeyAttributes))
    (by simp [Package.modules]) (by simp [Rfc5275.asModule, Rfc5275.classes]), [0x30, 0], _, by simp, rfl, by decide +kernel⟩

/-- C65: a decoded value is nested at most 22 deep, however long and however nested the input is. -/
theorem decoded_depth (c : String × Ty) (hc : c ∈ Package.types) (b r : Bytes) (v : Val) (h : decode c.2 b = some (v, r)) :
    v.depth ≤ 22 :=
  Nat.le_trans (decode_depth h) (Nat.le_of_ble_eq_true (List.all_eq_true.1 depth_table c hc))

/-- C65: the BER decoder keeps to the same factor, however the input is cut into pieces and whatever lengths are
indefinite. -/
theorem ber_size (c : String × Ty) (hc : c ∈ Package.types) (b r : Bytes) (v : Val) (h : berDecode c.2 b = some (v, r)) :
    v.size + 10 * r.length ≤ 10 * b.length :=
  berDecode_size (by decide) c.2 b v r (List.all_eq_true.1 fits_table c hc) (List.all_eq_true.1 Reading.sets_ok c hc) h

/-- C65: and to the same depth. -/
theorem ber_depth (c : String × Ty) (hc : c ∈ Package.types) (b r : Bytes) (v : Val) (h : berDecode c.2 b = some (v, r)) :
    v.depth ≤ 22 :=
  Nat.le_trans (admits_depth c.2 v (berDecode_admits c.2 b r v h)) (Nat.le_of_ble_eq_true (List.all_eq_true.1 depth_table c hc))

-- an octet string in two pieces, of indefinite length
example : (berDecode Py.univ.OctetString.call.ty [0x24, 0x80, 4, 1, 112, 4, 2, 117, 98, 0, 0, 9]).map
    (fun p => (p.1.size, p.1.depth, p.2)) = some (4, 1, [9]) := by decide +kernel

/-! ## With open types the nesting is up to the input -/

/-- The identifier of MGF1 (rfc4055.py:46), for which rfc4055.py:252 registers AlgorithmIdentifier. -/
def mgf1 : Val := .oid [1, 2, 840, 113549, 1, 1, 8]

/-- An AlgorithmIdentifier for MGF1. -/
def mgf (p : Val) : Val := .record (.ofList [mgf1, p])

/-- AlgorithmIdentifier, written out. -/
def algTy : Ty :=
  .seq false ⟨[⟨.universal, true, 16⟩], .inter .nil, []⟩
    (.cons ⟨"algorithm", .req, none⟩ (.prim .oid ⟨[⟨.universal, false, 6⟩], .inter .nil, []⟩)
    (.cons ⟨"parameters", .opt, some ⟨"algorithm", Py.map 3 "rfc5280.algorithmIdentifierMap"⟩⟩
      (.prim .any ⟨[], .inter .nil, []⟩) .nil))

theorem algTy_eq : algorithmIdentifier = algTy := by rfl

theorem alg_mem : ("rfc5280.AlgorithmIdentifier", algorithmIdentifier) ∈ Package.types :=
  Package.mem_types (m := Rfc5280.asModule) (c := ("rfc5280.AlgorithmIdentifier", Rfc5280.AlgorithmIdentifier))
    (by simp [Package.modules]) (by simp [Rfc5280.asModule, Rfc5280.classes])

theorem mgf_encode (b : Bytes) : encode algTy (mgf (.octets b)) =
    tlv ⟨.universal, true, 16⟩ true ([6, 9, 0x2a, 0x86, 0x48, 0x86, 0xf7, 13, 1, 1, 8] ++ b) := by
  have e : enc false (.prim .oid ⟨[⟨.universal, false, 6⟩], .inter .nil, []⟩) mgf1 =
      some [6, 9, 0x2a, 0x86, 0x48, 0x86, 0xf7, 13, 1, 1, 8] := by decide +kernel
  have e2 : enc true (.prim .any ⟨[], .inter .nil, []⟩) (.octets b) = some b := rfl
  have h : encComps (.cons ⟨"algorithm", .req, none⟩ (.prim .oid ⟨[⟨.universal, false, 6⟩], .inter .nil, []⟩)
      (.cons ⟨"parameters", .opt, some ⟨"algorithm", Py.map 3 "rfc5280.algorithmIdentifierMap"⟩⟩
        (.prim .any ⟨[], .inter .nil, []⟩) .nil)) (.ofList [mgf1, .octets b]) =
        some [(setKey (.prim .oid ⟨[⟨.universal, false, 6⟩], .inter .nil, []⟩) mgf1,
          [6, 9, 0x2a, 0x86, 0x48, 0x86, 0xf7, 13, 1, 1, 8]),
          (setKey (.prim .any ⟨[], .inter .nil, []⟩) (.octets b), b)] := by
    rw [Vals.ofList, encComps_present (by simp [mgf1]), Vals.ofList, encComps_present (by simp)]
    simp only [Vals.ofList, encComps, Option.bind_some, reduceCtorEq, if_false, Mode.isOpt, e, e2, Option.map_some]
  show enc false algTy (mgf (.octets b)) = _
  rw [algTy, mgf, enc, h, if_pos (by rfl)]
  show (tlv _ _ _).bind some = _
  simp

theorem tlv_length {t : Tag} {c b : Bytes} (ht : t.num < 31) (hc : c.length < 2 ^ 32) (h : tlv t true c = some b) :
    b.length ≤ c.length + 6 := by
  obtain ⟨l, h1, rfl⟩ := Option.map_eq_some_iff.1 h
  have hl : l.length ≤ 5 := by
    unfold encLen at h1
    split at h1
    · simp at h1; subst h1; simp
    · have := natBytes_length 4 c.length c.length (by omega)
      simp only [] at h1
      split at h1
      · simp at h1
      · simp at h1; subst h1; simp; omega
  have : (encTag t.cls (t.constructed || true) t.num).length = 1 := by
    simp [encTag, ht]
  simp only [List.length_append]
  omega

theorem mgf_valid {b : Bytes} (h : oneElement b = true) : algTy.valid (mgf (.octets b)) = true := by
  have e : (Ty.prim .oid ⟨[⟨.universal, false, 6⟩], .inter .nil, []⟩).valid mgf1 = true := by decide +kernel
  have e2 : (Ty.prim .any ⟨[], .inter .nil, []⟩).valid (.octets b) = true := by
    simp only [Ty.valid, h]; rfl
  show Ty.valid algTy (.record _) = true
  simp only [algTy, Ty.valid, Vals.ofList, Comps.valid, e, e2, Bool.or_true, Bool.and_self, Bool.true_and, h]
  rfl

theorem alg_rigid : algTy.rigid = true := by decide +kernel

theorem mgf_weight (b : Bytes) (h : b.length < 2 ^ 32) : algTy.weight (mgf (.octets b)) < Codec.maxOctets := by
  have : algTy.weight (mgf (.octets b)) ≤ b.length + 1000 := by
    have e : (Ty.prim .oid ⟨[⟨.universal, false, 6⟩], .inter .nil, []⟩).weight mgf1 ≤ 500 := by decide +kernel
    show Ty.weight algTy (.record _) ≤ _
    simp only [algTy, Ty.weight, Vals.ofList, Comps.weight, Val.bulk, overhead] at *
    simp at *
    omega
  have : 2 ^ 32 + 1000 < Codec.maxOctets := by decide +kernel
  omega

theorem mgf1_get {s : State} (hs : Reached s) (hl : Rfc4055.asModule.id ∈ s.loaded) :
    s.get (Py.map 3 "rfc5280.algorithmIdentifierMap") mgf1 = some algTy := by
  obtain ⟨fuel, ns, hi⟩ := hs
  have hw : (Py.map 3 "rfc5280.algorithmIdentifierMap", mgf1, algTy) ∈ Rfc4055.asModule.writes := by
    have : Rfc4055.asModule.writes.contains (Py.map 3 "rfc5280.algorithmIdentifierMap", mgf1, algTy) = true := by
      decide +kernel
    exact List.contains_iff_mem.1 this
  exact (Registry.registered fuel ns s hi Rfc4055.asModule (by simp [Package.modules]) hl _ _ _ hw).2 (by decide +kernel)

/-- What is opened in an AlgorithmIdentifier for MGF1 is nested deeper than its parameters. -/
theorem mgf_opens {s : State} (hg : s.get (Py.map 3 "rfc5280.algorithmIdentifierMap") mgf1 = some algTy) {ine : Bool} {b : Bytes}
    {w : OVal} (h : Opens { registry := s.get } ine algTy (mgf (.octets b)) w) :
    ∃ v r u, decode algTy b = some (v, r) ∧ Opens { registry := s.get } true algTy v u ∧ 1 + u.depth ≤ w.depth := by
  unfold mgf algTy at h
  cases h with
  | seq _ _ _ _ _ ws _ h =>
    simp only [Vals.ofList] at h
    cases h with
    | cons _ _ _ _ _ _ _ w1 ws h1 h =>
      cases h with
      | cons _ _ _ _ _ _ _ w2 ws h2 h =>
        cases h2 with
        | dflt _ _ _ _ _ h => cases h
        | plain _ _ _ _ _ _ h => cases h
        | unknown _ _ _ _ _ _ o g h3 h4 h5 =>
          cases h3
          rw [show fieldVal _ _ _ = some mgf1 from rfl] at h4
          cases h4
          have h5 := hg.symm.trans h5
          cases h5
        | known _ _ _ _ _ _ o g u h3 h4 h5 _ h6 =>
          cases h3
          rw [show fieldVal _ _ _ = some mgf1 from rfl] at h4
          cases h4
          have h5 := hg.symm.trans h5
          cases h5
          cases h6 with
          | one _ _ _ _ r v w h7 _ h8 =>
            refine ⟨v, r, w, h7, h8, ?_⟩
            simp only [OVal.depth, OVals.depth]
            omega

theorem mgf_contents {s : State} (hg : s.get (Py.map 3 "rfc5280.algorithmIdentifierMap") mgf1 = some algTy) (b : Bytes) :
    algTy.contents s.get (mgf (.octets b)) = [(algTy, b)] := by
  unfold mgf algTy
  simp only [Ty.contents, Vals.ofList, Comps.contents]
  rw [show fieldVal _ _ _ = some mgf1 from rfl, Option.bind_some, hg]
  rfl

theorem one_of_decode {t : Ty} {b : Bytes} {v : Val} (h : decode t b = some (v, [])) : oneElement b = true := by
  simp only [decode] at h
  unfold oneElement
  split at h
  · simp at h
  · rename_i x r hx
    split at h
    · simp at h
    · simp only [Option.some.injEq, Prod.mk.injEq] at h
      rw [hx, h.2]

theorem alg_not : "rfc5280.AlgorithmIdentifier" ∉ Open.ungoverned ∧ "rfc5280.AlgorithmIdentifier" ∉ Package.defective := by
  decide +kernel

/-- C65: with open types there is no such limit: once rfc4055 is loaded, an AlgorithmIdentifier of `17 n + 13` octets can be
nested more than `n` deep. -/
theorem opened_depth (s : State) (hs : Reached s) (hl : Rfc4055.asModule.id ∈ s.loaded) (n : Nat) (hn : n ≤ 100000000) :
    ∃ b w, b.length ≤ 17 * n + 13 ∧ decodeOpen s algorithmIdentifier b = some (w, []) ∧ n < w.depth := by
  have hg := mgf1_get hs hl
  have key : ∀ n, n ≤ 100000000 → ∃ b v, b.length ≤ 17 * n + 13 ∧ decode algTy b = some (v, []) ∧
      decodeOpen s algTy b ≠ none ∧ ∀ ine w, Opens { registry := s.get } ine algTy v w → n < w.depth := by
    intro n
    induction n with
    | zero =>
      intro _
      have hd : decode algTy [0x30, 11, 6, 9, 0x2a, 0x86, 0x48, 0x86, 0xf7, 13, 1, 1, 8] = some (mgf .absent, []) := by
        decide +kernel
      refine ⟨_, _, by simp, hd, ?_, ?_⟩
      · obtain ⟨w, hw⟩ := open_complete s hs _ alg_mem alg_not.1 _ _ _ hd (by
          intro p hp
          unfold mgf at hp
          rw [algTy_eq] at hp
          unfold algTy at hp
          simp only [Ty.contents, Vals.ofList, Comps.contents] at hp
          rw [show fieldVal _ _ _ = some mgf1 from rfl, Option.bind_some, hg] at hp
          simp [octetsIn] at hp)
        rw [algTy_eq] at hw
        rw [hw]
        simp
      · intro ine w h
        unfold mgf algTy at h
        cases h
        simp only [OVal.depth]
        omega
    | succ n ih =>
      intro hn
      obtain ⟨b, v, h1, h2, h3, h4⟩ := ih (by omega)
      have hb : b.length < 2 ^ 32 := by omega
      obtain ⟨b', h5, h6⟩ := Codec.roundtrip_exact _ alg_mem alg_not.2 alg_rigid (mgf (.octets b)) (mgf_valid (one_of_decode h2))
        (mgf_weight b hb)
      have h6 := h6 []
      rw [List.append_nil] at h6
      refine ⟨b', mgf (.octets b), ?_, h6, ?_, ?_⟩
      · have := (mgf_encode b).symm.trans h5
        have := tlv_length (by decide) (by simp; omega) this
        simp at this
        omega
      · obtain ⟨w, hw⟩ := open_complete s hs _ alg_mem alg_not.1 _ _ _ h6 (by
          intro p hp
          have hp : p ∈ algTy.contents s.get (mgf (.octets b)) := hp
          rw [mgf_contents hg b, List.mem_singleton] at hp
          subst hp
          exact h3)
        intro hc
        have hw : decodeOpen s algTy b' = some (w, []) := hw
        rw [hc] at hw
        cases hw
      · intro ine w h
        obtain ⟨v', r, u, h7, h8, h9⟩ := mgf_opens hg h
        rw [h2] at h7
        cases h7
        have := h4 _ _ h8
        omega
  obtain ⟨b, v, h1, h2, h3, h4⟩ := key n hn
  rw [algTy_eq]
  cases hw : decodeOpen s algTy b with
  | none => exact absurd hw h3
  | some p =>
    obtain ⟨w, r⟩ := p
    obtain ⟨v', h5, h6⟩ := open_sound s algTy b r w hw
    rw [h2] at h5
    cases h5
    exact ⟨b, w, h1, hw, h4 _ _ h6⟩

/-- The hypotheses are met: a program that imports rfc4055. -/
example : ∃ s, Reached s ∧ Rfc4055.asModule.id ∈ s.loaded := by
  have h : ((importAll Package.modules 130 [Rfc4055.asModule.id] .start).any (fun s => s.loaded.contains Rfc4055.asModule.id))
      = true := by decide +kernel
  cases hi : importAll Package.modules 130 [Rfc4055.asModule.id] .start with
  | none => simp [hi] at h
  | some s => exact ⟨s, ⟨_, _, hi⟩, by simpa [hi] using h⟩

end Size
end Props
end Verif
