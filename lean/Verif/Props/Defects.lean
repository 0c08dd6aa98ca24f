import Verif.Props.Codec

/-!
# Classes that do not round-trip

For each class of `Package.defective` (those of rfc2251 are in `Verif/Props/Protocol.lean`) what goes
wrong, and some classes that are encoded reliably but do not mean what their specification says.
-/

namespace Verif
namespace Props
namespace Defects

open Asn1

/-! ## Components and alternatives with the same tag -/

/-- An alternative behind one that takes all its elements is never returned. -/
theorem decAlt_shadowed : ∀ (cs : Comps) (k i j : Nat) (fi fj : Field) (ti tj : Ty) (x : TLV) (v : Val),
    cs.get? i = some (fi, ti) → cs.get? j = some (fj, tj) → i < j → (∀ y, tj.matches y = true → ti.matches y = true) →
    decAlt cs k x ≠ some (.alt (k + j) v)
  | .nil, _, _, _, _, _, _, _, _, _, h, _, _, _ => by simp [Comps.get?] at h
  | .cons f t cs, k, i, j, fi, fj, ti, tj, x, v, hi, hj, hij, hm => by
    intro h
    rw [decAlt] at h
    obtain ⟨j, rfl⟩ : ∃ j', j = j' + 1 := ⟨j - 1, by omega⟩
    split at h
    · split at h
      · simp only [Option.some.injEq, Val.alt.injEq] at h; omega
      · simp at h
    · rename_i hx
      cases i with
      | zero =>
        simp only [Comps.get?, Option.some.injEq, Prod.mk.injEq] at hi
        obtain ⟨rfl, rfl⟩ := hi
        -- no alternative from `j` on can match either
        have key : ∀ (cs : Comps) (k' j' : Nat), cs.get? j' = some (fj, tj) → decAlt cs k' x ≠ some (.alt (k' + j') v) := by
          intro cs
          intro k' j'
          induction j' generalizing cs k' with
          | zero =>
            intro hg h
            cases cs with
            | nil => simp [Comps.get?] at hg
            | cons g u cs =>
              simp only [Comps.get?, Option.some.injEq, Prod.mk.injEq] at hg
              obtain ⟨rfl, rfl⟩ := hg
              rw [decAlt] at h
              split at h
              · rename_i hu; exact hx (hm x hu)
              · exact absurd h (decAlt_ge cs (k' + 1) x k' v (by omega))
          | succ j' ih =>
            intro hg h
            cases cs with
            | nil => simp [Comps.get?] at hg
            | cons g u cs =>
              simp only [Comps.get?] at hg
              rw [decAlt] at h
              split at h
              · split at h
                · simp only [Option.some.injEq, Val.alt.injEq] at h; omega
                · simp at h
              · rw [show k' + (j' + 1) = (k' + 1) + j' by omega] at h
                exact ih cs (k' + 1) hg h
        simp only [Comps.get?] at hj
        rw [show k + (j + 1) = (k + 1) + j by omega] at h
        exact key cs (k + 1) j hj h
      | succ i =>
        simp only [Comps.get?] at hi hj
        rw [show k + (j + 1) = (k + 1) + j by omega] at h
        exact decAlt_shadowed cs (k + 1) i j fi fj ti tj x v hi hj (by omega) hm h
where
  decAlt_ge : ∀ (cs : Comps) (k : Nat) (x : TLV) (n : Nat) (v : Val), n < k → decAlt cs k x ≠ some (.alt (n + 0) v)
    | .nil, _, _, _, _, _ => by simp [decAlt]
    | .cons f t cs, k, x, n, v, h => by
      rw [decAlt]
      split
      · split
        · simp only [ne_eq, Option.some.injEq, Val.alt.injEq]; omega
        · simp
      · exact decAlt_ge cs (k + 1) x n v (by omega)

/-- Every component of what is decoded is its default or was decoded from some element. -/
theorem decComps_get : ∀ (cs : Comps) (xs : List TLV) (vs : Vals) (i : Nat) (f : Field) (t : Ty),
    decComps cs xs = some vs → cs.get? i = some (f, t) →
    ∃ v, vs.get? i = some v ∧ (f.mode.missing = some v ∨ ∃ x, decT t x = some v)
  | .nil, _, _, _, _, _, _, h => by simp [Comps.get?] at h
  | .cons g u cs, [], vs, i, f, t, h, hg => by
    rw [decComps] at h
    split at h
    · rename_i v ws hv hw
      simp only [Option.some.injEq] at h
      subst h
      cases i with
      | zero =>
        simp only [Comps.get?, Option.some.injEq, Prod.mk.injEq] at hg
        obtain ⟨rfl, rfl⟩ := hg
        exact ⟨v, rfl, .inl hv⟩
      | succ i => exact decComps_get cs [] ws i f t hw hg
    · simp at h
  | .cons g u cs, x :: xs, vs, i, f, t, h, hg => by
    rw [decComps] at h
    split at h
    · split at h
      · rename_i v ws hv hw
        simp only [Option.some.injEq] at h
        subst h
        cases i with
        | zero =>
          simp only [Comps.get?, Option.some.injEq, Prod.mk.injEq] at hg
          obtain ⟨rfl, rfl⟩ := hg
          exact ⟨v, rfl, .inr ⟨x, hv⟩⟩
        | succ i => exact decComps_get cs xs ws i f t hw hg
      · simp at h
    · split at h
      · rename_i v ws hv hw
        simp only [Option.some.injEq] at h
        subst h
        cases i with
        | zero =>
          simp only [Comps.get?, Option.some.injEq, Prod.mk.injEq] at hg
          obtain ⟨rfl, rfl⟩ := hg
          exact ⟨v, rfl, .inl hv⟩
        | succ i => exact decComps_get cs (x :: xs) ws i f t hw hg
      · simp at h

/-- The elements of a decoded SEQUENCE. -/
theorem decode_seq {a : Attrs} {cs : Comps} {b r : Bytes} {v : Val} (h : decode (.seq false a cs) b = some (v, r)) :
    ∃ xs vs, v = .record vs ∧ decComps cs xs = some vs := by
  unfold decode at h
  split at h
  · simp at h
  · split at h
    · simp at h
    · rename_i w hw
      simp only [Option.some.injEq, Prod.mk.injEq] at h
      obtain ⟨rfl, rfl⟩ := h
      rw [decT] at hw
      split at hw
      · simp at hw
      · rename_i xs hx
        simp only [Bool.false_eq_true, ↓reduceIte] at hw
        split at hw
        · simp at hw
        · rename_i vs hv
          split at hw
          · simp only [Option.some.injEq] at hw
            exact ⟨xs, vs, hw.symm, hv⟩
          · simp at hw

theorem statusInfo_shape : ∃ (a a' : Attrs) (f0 f1 f2 f3 g0 g1 g2 : Field) (t0 t1 t2 u0 u1 u2 : Ty),
    Rfc6402.CMCStatusInfoV2.call.ty = .seq false a (.cons f0 t0 (.cons f1 t1 (.cons f2 t2 (.cons f3
      (.choice a' (.cons g0 u0 (.cons g1 u1 (.cons g2 u2 .nil)))) .nil)))) ∧ f3.mode = .opt ∧ a'.tags = [] ∧
    ∀ y, u2.matches y = true → u1.matches y = true :=
  ⟨_, _, _, _, _, _, _, _, _, _, _, _, _, _, _, rfl, rfl, rfl, fun _ h => h⟩

/-- C12: the `extendedFailInfo` of a CMCStatusInfoV2 is never returned by the decoder, from any
input: its tag is that of `pendInfo`, which comes first.  (rfc6402.py, as in the specification
before its erratum.) -/
theorem extendedFailInfo_never (b r : Bytes) (v w : Val) (vs : Vals)
    (h : decode Rfc6402.CMCStatusInfoV2.call.ty b = some (v, r)) (hv : v = .record vs) : vs.get? 3 ≠ some (.alt 2 w) := by
  obtain ⟨a, a', f0, f1, f2, f3, g0, g1, g2, t0, t1, t2, u0, u1, u2, hs, hm, ht, hu⟩ := statusInfo_shape
  rw [hs] at h
  obtain ⟨xs, vs', h1, h2⟩ := decode_seq h
  rw [hv] at h1
  cases h1
  obtain ⟨u, h3, h4⟩ := decComps_get _ xs vs 3 f3 _ h2 rfl
  rw [h3]
  intro hc
  simp only [Option.some.injEq] at hc
  subst hc
  rcases h4 with h4 | ⟨x, h4⟩
  · simp [hm, Mode.missing] at h4
  · rw [decT, ht] at h4
    exact decAlt_shadowed _ 0 1 2 g1 g2 u1 u2 x w rfl rfl (by omega) hu (by simpa using h4)

/-- Such a value is legal and encodes, but what is sent is refused by the receiver. -/
theorem extendedFailInfo_lost :
    let v : Val := .record (.ofList [.int 2, .list .nil, .absent, .alt 2 (.record (.ofList [.oid [1, 3, 6], .octets [5, 0]]))])
    Rfc6402.CMCStatusInfoV2.call.ty.valid v = true ∧
    ∃ b, encode Rfc6402.CMCStatusInfoV2.call.ty v = some b ∧ decode Rfc6402.CMCStatusInfoV2.call.ty b = none :=
  ⟨by decide +kernel, [48, 13, 2, 1, 2, 48, 0, 48, 6, 6, 2, 43, 6, 5, 0], by decide +kernel, by decide +kernel⟩

theorem changeSubject_shape : ∃ (a : Attrs) (f0 f1 : Field) (t0 t1 : Ty),
    Rfc6402.ChangeSubjectName.call.ty = .seq false a (.cons f0 t0 (.cons f1 t1 .nil)) ∧ f0.mode = .opt ∧ f1.mode = .opt ∧
    t1.anyLike = false ∧ ∀ y, t1.matches y = true → t0.matches y = true :=
  ⟨_, _, _, _, _, rfl, rfl, rfl, rfl, fun y h => by
    show (_ || false) = true
    rw [Bool.or_false]
    exact h⟩

/-- C12: nor is a ChangeSubjectName with only a `subjectAlt` ever returned: its tag is that of
`subject`. -/
theorem subjectAlt_never (b r : Bytes) (s a : Val)
    (h : decode Rfc6402.ChangeSubjectName.call.ty b = some (.record (.cons s (.cons a .nil)), r)) :
    a = .absent ∨ s ≠ .absent := by
  obtain ⟨at', f0, f1, t0, t1, hs, hm0, hm1, hn, ht⟩ := changeSubject_shape
  rw [hs] at h
  obtain ⟨xs, vs, h1, h2⟩ := decode_seq h
  cases h1
  cases xs with
  | nil =>
    simp only [decComps, hm0, hm1, Mode.missing, Option.some.injEq, Vals.cons.injEq] at h2
    exact .inl h2.2.1.symm
  | cons x xs =>
    rw [decComps] at h2
    split at h2
    · split at h2
      · rename_i v ws hv hw
        simp only [Option.some.injEq, Vals.cons.injEq] at h2
        obtain ⟨rfl, _⟩ := h2
        right
        rintro rfl
        have := decT_admits t0 x .absent hv
        exact absurd this (by
          cases t0 with
          | prim k _ => cases k <;> simp [Ty.admits, primShape, primLegal]
          | _ => simp [Ty.admits])
      · simp at h2
    · rename_i hx
      left
      have hx' : t1.matches x = false := by
        cases h : t1.matches x with
        | false => rfl
        | true => exact absurd (by simp [ht x h]) hx
      rw [decComps] at h2
      simp [hm0, hm1, Mode.missing, Mode.isReq, hx', hn, decComps] at h2

/-- The value with one alternative name is legal and encodes, but what is sent is refused. -/
theorem subjectAlt_lost :
    let v : Val := .record (.ofList [.absent, .list (.ofList [.alt 2 (.str "a.b".toList)])])
    Rfc6402.ChangeSubjectName.call.ty.valid v = true ∧
    ∃ b, encode Rfc6402.ChangeSubjectName.call.ty v = some b ∧ decode Rfc6402.ChangeSubjectName.call.ty b = none :=
  ⟨by decide +kernel, [48, 7, 48, 5, 130, 3, 97, 46, 98], by decide +kernel, by decide +kernel⟩

/-! ## Constraints on values that vanish -/

/-- C12, C17: an empty list of dependencies counts as a component when the constraint is checked before
encoding, is not sent, and so the receiver refuses the message (rfc4108.py:156-164). -/
theorem firmware_lost :
    let v : Val := .record (.ofList [.absent, .list .nil])
    Rfc4108.FirmwarePackageInfo.call.ty.valid v = true ∧
    ∃ b, encode Rfc4108.FirmwarePackageInfo.call.ty v = some b ∧ decode Rfc4108.FirmwarePackageInfo.call.ty b = none :=
  ⟨by decide +kernel, [48, 0], by decide +kernel, by decide +kernel⟩

/-- C12, C17: likewise for a list of authorities whose only element is the empty name
(rfc3739.py:156-168). -/
theorem semantics_lost :
    let v : Val := .record (.ofList [.absent, .list (.ofList [.alt 4 (.alt 0 (.list .nil))])])
    Rfc3739.SemanticsInformation.call.ty.valid v = true ∧
    ∃ b, encode Rfc3739.SemanticsInformation.call.ty v = some b ∧ decode Rfc3739.SemanticsInformation.call.ty b = none :=
  ⟨by decide +kernel, [48, 0], by decide +kernel, by decide +kernel⟩

/-! ## Reliable, but not what was meant -/

/-- rfc3280.py defines `DirectoryString` twice; the second definition (1366-1372) is in force.  It is
not the choice between five string types any more: every element is accepted, and returned
undecoded. -/
theorem directoryString_any (b : Bytes) (x : TLV) (r : Bytes) (h : readTLV b = some (x, r)) :
    decode Rfc3280.DirectoryString.call.ty b = some (.alt 0 (.octets x.raw), r) := by
  unfold decode
  rw [h]
  rfl

/-- The X.509 attribute types built with it before (rfc3280.py:617-626) do decode strings. -/
theorem directoryString_before : decode Rfc3280.DirectoryString__1.call.ty [19, 2, 85, 83] =
    some (.alt 1 (.str ['U', 'S']), []) := by decide +kernel

end Defects
end Props
end Verif
