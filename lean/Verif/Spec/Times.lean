import Verif.Spec.Asn1

/-!
# Times with fractions

What becomes of the fraction of a UTCTime or GeneralizedTime when it is written, said on texts and numbers; and what a
value is when its times are just texts.
-/

namespace Verif
namespace Asn1

/-! ## Texts -/

/-- What is written of the characters after the `.`: the first four without their zeros, the others as they are. -/
def keptFraction (f : List Char) : List Char := (f.take 4).filter (· != '0') ++ f.drop 4

/-- The text that is written for a time: the fraction without the zeros among its first four characters, and no `.` if
nothing but the `Z` is left. -/
def rewrittenTime (s : List Char) : List Char :=
  match s.dropWhile (· != '.') with
  | [] => s
  | _ :: f => s.takeWhile (· != '.') ++ (if (keptFraction f).head? = some 'Z' then keptFraction f else '.' :: keptFraction f)

/-- At most one `.`. -/
def oneDot (s : List Char) : Bool := s.count '.' ≤ 1

/-- What is asked of a time: UTC, and after rewriting between `lo` and `hi` characters. -/
def writableTime (lo hi : Nat) (s : List Char) : Bool :=
  s.all (fun c => !['+', '-', ','].contains c) && s.getLast? == some 'Z' &&
  lo ≤ (rewrittenTime s).length && (rewrittenTime s).length ≤ hi

/-- The number written with the digits. -/
def digitsValue : List Char → Nat
  | [] => 0
  | c :: cs => (c.toNat - '0'.toNat) * 10 ^ cs.length + digitsValue cs

/-- `0.f ≤ 0.g` as fractions. -/
def fractionLe (f g : List Char) : Prop := digitsValue f * 10 ^ g.length ≤ digitsValue g * 10 ^ f.length

/-- `0.f = 0.g` as fractions. -/
def fractionEq (f g : List Char) : Prop := digitsValue f * 10 ^ g.length = digitsValue g * 10 ^ f.length

/-- No zero among the first `k` digits has a digit other than zero after it. -/
def zerosLast (k : Nat) (f : List Char) : Prop :=
  ∀ i, i < k → f[i]? = some '0' → ∀ c ∈ f.drop i, c = '0'

/-! ## Types and values -/

/-- The time types as the strings they are carried in. -/
def Prim.asText : Prim → Prim
  | .utcTime => .str .ascii
  | .generalizedTime => .str .ascii
  | k => k

mutual
/-- The type with its times as strings. -/
def Ty.asText : Ty → Ty
  | .prim k a => .prim k.asText a
  | .seq s a cs => .seq s a cs.asText
  | .of s a t => .of s a t.asText
  | .choice a cs => .choice a cs.asText
  | .bad w => .bad w
def Comps.asText : Comps → Comps
  | .nil => .nil
  | .cons f t cs => .cons f t.asText cs.asText
end

/-- A text that is a time, rewritten. -/
def Prim.rewritten : Prim → Val → Val
  | .utcTime, .str s => .str (rewrittenTime s)
  | .generalizedTime, .str s => .str (rewrittenTime s)
  | _, v => v

mutual
/-- The value with every time in it rewritten. -/
def Ty.rewritten : Ty → Val → Val
  | .prim k _, v => k.rewritten v
  | .seq _ _ cs, .record vs => .record (cs.rewritten vs)
  | .of _ _ t, .list vs => .list (Vals.ofList (vs.toList.map t.rewritten))
  | .choice _ cs, .alt i v => .alt i (cs.rewrittenAlt i v)
  | _, v => v
def Comps.rewritten : Comps → Vals → Vals
  | .cons _ t cs, .cons v vs => .cons (t.rewritten v) (cs.rewritten vs)
  | _, vs => vs
def Comps.rewrittenAlt : Comps → Nat → Val → Val
  | .cons _ t _, 0, v => t.rewritten v
  | .cons _ _ cs, i + 1, v => cs.rewrittenAlt i v
  | .nil, _, v => v
end

/-- A time is what `p` asks for. -/
def Prim.everyTime (p : Prim → List Char → Bool) : Prim → Val → Bool
  | .utcTime, .str s => p .utcTime s
  | .generalizedTime, .str s => p .generalizedTime s
  | _, _ => true

mutual
/-- Every time in the value is what `p` asks for. -/
def Ty.everyTime (p : Prim → List Char → Bool) : Ty → Val → Bool
  | .prim k _, v => k.everyTime p v
  | .seq _ _ cs, .record vs => cs.everyTime p vs
  | .of _ _ t, .list vs => vs.every (t.everyTime p)
  | .choice _ cs, .alt i v => cs.everyTimeAlt p i v
  | _, _ => true
def Comps.everyTime (p : Prim → List Char → Bool) : Comps → Vals → Bool
  | .cons _ t cs, .cons v vs => t.everyTime p v && cs.everyTime p vs
  | _, _ => true
def Comps.everyTimeAlt (p : Prim → List Char → Bool) : Comps → Nat → Val → Bool
  | .cons _ t _, 0, v => t.everyTime p v
  | .cons _ _ cs, i + 1, v => cs.everyTimeAlt p i v
  | .nil, _, _ => true
end

/-- The lengths of times: 11 to 13 characters, 13 to 19. -/
def writable : Prim → List Char → Bool
  | .utcTime, s => writableTime 11 13 s
  | .generalizedTime, s => writableTime 13 19 s
  | _, _ => true

/-- The value is legal, whatever is written in its times. -/
def Ty.validText (t : Ty) (v : Val) : Bool := t.asText.valid v

end Asn1
end Verif
