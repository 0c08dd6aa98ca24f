import Verif.Asn1.Shortest
import Verif.Props.Ber

/-!
# How long the output is

C67: what is read and written again grows by half at most, twice at most where a tagged ANY is inside, and not at all
if the integers are ordinary: DER is the shortest encoding.
-/

namespace Verif
namespace Props
namespace Shortest

open Asn1

abbrev Octets := Der.Octets

/-! ## What the classes of the package meet -/

/-- Every ANY inside a class of the package has no tag or one with a number below 31. -/
theorem anys_short : Package.types.all (fun c => c.2.everyAny oneShort) = true := by decide +kernel

mutual
theorem definite_anys : ∀ t : Ty, Reading.definite t = t.everyAny untagged
  | .prim _ _ => rfl
  | .seq _ _ cs => by simp only [Reading.definite, Ty.everyAny]; exact definite_anysC cs
  | .of _ _ t => by simp only [Reading.definite, Ty.everyAny]; exact definite_anys t
  | .choice _ cs => by simp only [Reading.definite, Ty.everyAny]; exact definite_anysC cs
  | .bad _ => rfl
theorem definite_anysC : ∀ cs : Comps, Reading.definiteC cs = cs.everyAny untagged
  | .nil => rfl
  | .cons _ t cs => by simp only [Reading.definiteC, Comps.everyAny, definite_anys t, definite_anysC cs]
end

theorem consumed {b p rest : Bytes} (h : b = p ++ rest) : b.length - rest.length = p.length := by
  subst h; simp

/-! ## Reading and writing again -/

/-- C67: whatever octets are read as a value of a class of the package: written again the value is at most twice as
long as the octets that were read. -/
theorem recoded_double (c : String × Ty) (hc : c ∈ Package.types) (b : Bytes) (v : Val) (rest b' : Bytes)
    (h : decode c.2 b = some (v, rest)) (h' : encode c.2 v = some b') : b'.length ≤ 2 * (b.length - rest.length) := by
  obtain ⟨p, hp, hr⟩ := Reading.accepted c hc b v rest h
  have := enc_rate rate_double c.2 false v p b' (List.all_eq_true.1 anys_short c hc) ((reads_by true c.2 v p).2 hr) h'
  rw [consumed hp]
  omega

/-- C67: and at most half as long again, if the class has no tagged ANY inside. -/
theorem recoded_half (c : String × Ty) (hc : c ∈ Package.types) (ht : Reading.definite c.2 = true) (b : Bytes) (v : Val)
    (rest b' : Bytes) (h : decode c.2 b = some (v, rest)) (h' : encode c.2 v = some b') :
    2 * b'.length ≤ 3 * (b.length - rest.length) := by
  obtain ⟨p, hp, hr⟩ := Reading.accepted c hc b v rest h
  rw [definite_anys] at ht
  have := enc_rate rate_half c.2 false v p b' ht ((reads_by true c.2 v p).2 hr) h'
  rw [consumed hp]
  exact this

/-- The same for any type, not only those of the package. -/
theorem recoded_half_any (t : Ty) (hs : t.setsOk = true) (ht : Reading.definite t = true) (b : Bytes) (v : Val)
    (rest b' : Bytes) (h : decode t b = some (v, rest)) (h' : encode t v = some b') :
    2 * b'.length ≤ 3 * (b.length - rest.length) := by
  obtain ⟨p, hp, hr⟩ := Reading.accepted_any t hs b v rest h
  rw [definite_anys] at ht
  have := enc_rate rate_half t false v p b' ht ((reads_by true t v p).2 hr) h'
  rw [consumed hp]
  exact this

/-! ## The shortest encoding -/

/-- C67: no BER encoding of a value is shorter than what the encoder writes, if integers have contents and are not
among those for which an octet too many is written. -/
theorem shortest (c : String × Ty) (hc : c ∈ Package.types) (v : Val) (b b' : Bytes)
    (h : Ber.readsBy Ber.ordinary false c.2 v b) (h' : encode c.2 v = some b') : b'.length ≤ b.length := by
  have := enc_rate rate_shortest c.2 false v b b' (List.all_eq_true.1 anys_short c hc) h h'
  omega

/-- With the contents unrestricted, the relation is the one of C38 and C39. -/
theorem readsBy_contents (lax : Bool) (t : Ty) (v : Val) (b : Octets) :
    Ber.readsBy Ber.Contents lax t v b ↔ Ber.reads lax t v b := reads_by lax t v b

/-- C67: an octet string of a simple type is never written longer than it was read; only INTEGER and ENUMERATED are. -/
theorem simple_shortest (k : Prim) (hi : k ≠ .integer) (he : k ≠ .enumerated) (v : Val) (c c' : Octets) (h : Ber.Contents k v c)
    (h' : encPrim k v = some c') : c'.length ≤ c.length :=
  contents_ordinary k v c c' ⟨h, by split <;> first | exact absurd rfl hi | exact absurd rfl he | trivial⟩ h'

/-- C67: an integer is written in as many octets as it was read from at most, but for empty contents and the integers
-128, -32768, …, for which it is one more. -/
theorem integer_length (c : Octets) : (encInt (Der.twos c)).length ≤ c.length + 1 ∧
    (c ≠ [] → Der.notEdge (Der.twos c) → (encInt (Der.twos c)).length ≤ c.length) := ⟨encInt_le c, encInt_shorter⟩

/-! ## The bounds are met -/

namespace Case

theorem mem_serial : ("rfc5280.CertificateSerialNumber", Rfc5280.CertificateSerialNumber.call.ty) ∈ Package.types :=
  Package.mem_types (m := Rfc5280.asModule) (c := ("rfc5280.CertificateSerialNumber", Rfc5280.CertificateSerialNumber))
    (by simp [Package.modules]) (by simp [Rfc5280.asModule, Rfc5280.classes])

theorem mem_other : ("rfc5280.AnotherName", Rfc5280.AnotherName.call.ty) ∈ Package.types :=
  Package.mem_types (m := Rfc5280.asModule) (c := ("rfc5280.AnotherName", Rfc5280.AnotherName))
    (by simp [Package.modules]) (by simp [Rfc5280.asModule, Rfc5280.classes])

/-- Two octets become three. -/
example : decode Rfc5280.CertificateSerialNumber.call.ty [2, 0] = some (.int 0, []) ∧
    encode Rfc5280.CertificateSerialNumber.call.ty (.int 0) = some [2, 1, 0] := by decide +kernel

/-- Three become four. -/
example : decode Rfc5280.CertificateSerialNumber.call.ty [2, 1, 128] = some (.int (-128), []) ∧
    encode Rfc5280.CertificateSerialNumber.call.ty (.int (-128)) = some [2, 2, 255, 128] := by decide +kernel

/-- More leading octets and a longer length than needed: seven become three. -/
example : decode Rfc5280.CertificateSerialNumber.call.ty [2, 0x82, 0, 3, 0, 0, 5] = some (.int 5, []) ∧
    encode Rfc5280.CertificateSerialNumber.call.ty (.int 5) = some [2, 1, 5] := by decide +kernel

/-- A class with a tagged ANY: the value without its tag gets one, seven octets become nine. -/
example : (decode Rfc5280.AnotherName.call.ty [48, 5, 6, 1, 42, 5, 0]).bind (fun r => encode Rfc5280.AnotherName.call.ty r.1) =
    some [48, 7, 6, 1, 42, 160, 2, 5, 0] := by decide +kernel

example : Reading.definite Rfc5280.CertificateSerialNumber.call.ty = true := by decide +kernel
example : Reading.definite Rfc5280.AnotherName.call.ty = false := by decide +kernel

/-- The hypotheses of `shortest`: five, with a leading zero. -/
example : Ber.readsBy Ber.ordinary false Rfc5280.CertificateSerialNumber.call.ty (.int 5) [2, 2, 0, 5] := by
  have hty : Rfc5280.CertificateSerialNumber.call.ty = .prim .integer ⟨[⟨.universal, false, 2⟩], .inter .nil, []⟩ := by decide +kernel
  rw [hty]
  refine ⟨⟨[0, 5], ⟨by show Der.twos [0, 5] = 5; decide, by simp, ?_⟩, [2, 2, 0, 5],
    ⟨[2], [2], .low (n := 2) (by decide), .short (n := 2) (by decide), rfl⟩, rfl⟩, by decide⟩
  intro m hm
  have h : (0 : Int) ≤ 128 * 256 ^ m := by
    have e : (256 : Int) ^ m = ((256 ^ m : Nat) : Int) := by rw [Int.natCast_pow]; rfl
    omega
  omega

end Case

end Shortest
end Props
end Verif
