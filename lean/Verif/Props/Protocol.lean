import Verif.Props.Codec

/-!
# Operations of SNMP and LDAP

C30: whether the receiver of a message sees the operation that was sent.
-/

namespace Verif
namespace Props
namespace Protocol

open Asn1

/-! ## Every CHOICE of the package -/

/-- C30: the alternative that is encoded is the one that is decoded, for every CHOICE class, and
whatever follows. -/
theorem operation_kept (n : String) (a : Attrs) (cs : Comps) (hc : (n, Ty.choice a cs) ∈ Package.types)
    (hd : n ∉ Package.defective) (i : Nat) (v : Val) (b rest : Bytes) (hv : (Ty.choice a cs).valid (.alt i v) = true)
    (he : encode (.choice a cs) (.alt i v) = some b) :
    ∃ w, decode (.choice a cs) (b ++ rest) = some (.alt i w, rest) := by
  obtain ⟨x, w, h1, h2, h3, _⟩ := Codec.encode_isTLV _ (Package.wf_of_mem hc hd) _ b hv he
  cases w with
  | alt j w =>
    simp only [Ty.same] at h3
    rw [← h3.1] at h2
    exact ⟨w, by simp only [decode, h1.2 rest, h2]⟩
  | _ => simp [Ty.same] at h3

/-- C30: two operations never have the same encoding. -/
theorem operations_differ (n : String) (a : Attrs) (cs : Comps) (hc : (n, Ty.choice a cs) ∈ Package.types)
    (hd : n ∉ Package.defective) (i j : Nat) (v w : Val) (b : Bytes)
    (hv : (Ty.choice a cs).valid (.alt i v) = true) (hw : (Ty.choice a cs).valid (.alt j w) = true)
    (hev : encode (.choice a cs) (.alt i v) = some b) (hew : encode (.choice a cs) (.alt j w) = some b) : i = j := by
  obtain ⟨v', h1⟩ := operation_kept n a cs hc hd i v b [] hv hev
  obtain ⟨w', h2⟩ := operation_kept n a cs hc hd j w b [] hw hew
  rw [h1] at h2
  simp only [Option.some.injEq, Prod.mk.injEq, Val.alt.injEq] at h2
  exact h2.1.1

/-- The classes this is about. -/
example : ["rfc1157.Pdus", "rfc1905.PDUs"].all (fun n => Package.types.any (fun c => c.1 == n && (match c.2 with
    | .choice _ _ => true
    | _ => false))) = true := by decide +kernel

/-! ## SNMPv1 traps -/

theorem decAlt_none : ∀ (cs : Comps) (k : Nat) (x : TLV), cs.matches x = false → decAlt cs k x = none
  | .nil, _, _, _ => by simp [decAlt]
  | .cons f t cs, k, x, h => by
    simp only [Comps.matches, Bool.or_eq_false_iff] at h
    simp [decAlt, h.1, decAlt_none cs (k + 1) x h.2]

/-- The type of an SNMPv1 PDU. -/
def pdus : Ty := Rfc1157.Pdus.call.ty

theorem pdus_table : (match pdus with
      | .choice a _ => a.tags.isEmpty
      | _ => false) = true ∧ pdus.anyFirst = false ∧ pdus.firsts.contains (.context, 4) = false := by decide +kernel

/-- An untagged CHOICE refuses an element that starts none of its alternatives. -/
theorem choice_refuses (t : Ty) (x : TLV) (ht : (match t with
    | .choice a _ => a.tags.isEmpty
    | _ => false) = true) (hm : t.matches x = false) : decT t x = none := by
  cases t with
  | choice a cs =>
    simp only [List.isEmpty_iff] at ht
    simp only [Ty.matches, ht, List.getLast?_nil] at hm
    simp only [decT, ht]
    exact decAlt_none cs 0 x hm
  | _ => simp at ht

/-- C30, a failure: a trap as RFC 1157 has it, with tag [4], is refused whatever its contents,
because rfc1157.py:97-108 does not tag TrapPDU. -/
theorem snmp_trap_refused (x : TLV) (h1 : x.cls = .context) (h2 : x.num = 4) : decT pdus x = none := by
  obtain ⟨h, ha, hf⟩ := pdus_table
  refine choice_refuses pdus x h ?_
  rw [Ty.matches_iff, ha, h1, h2, hf]; rfl

/-- An instance: an (empty) element with this tag. -/
example : ∃ x, readTLV [0xa4, 0] = some (x, []) ∧ x.cls = .context ∧ x.num = 4 :=
  ⟨⟨.context, true, 4, [], [0xa4, 0]⟩, by decide +kernel, rfl, rfl⟩

/-! ## LDAP -/

/-- Replace the type of alternative `i`. -/
def swap (u : Ty) : Nat → Comps → Comps
  | _, .nil => .nil
  | 0, .cons f _ cs => .cons f u cs
  | i + 1, .cons f t cs => .cons f t (swap u i cs)

theorem encAlt_swap (u : Ty) (ine : Bool) (v : Val) : ∀ (i j : Nat) (cs : Comps), j ≠ i →
    encAlt ine (swap u i cs) j v = encAlt ine cs j v
  | 0, j, .nil, _ => by simp [swap]
  | i + 1, j, .nil, _ => by simp [swap]
  | 0, 0, .cons f t cs, h => absurd rfl h
  | 0, j + 1, .cons f t cs, _ => by simp [swap, encAlt]
  | i + 1, 0, .cons f t cs, _ => by simp [swap, encAlt]
  | i + 1, j + 1, .cons f t cs, h => by
    simp only [swap, encAlt]
    exact encAlt_swap u ine v i j cs (fun e => h (by rw [e]))

theorem encAlt_at (u : Ty) (ine : Bool) (v : Val) : ∀ (i : Nat) (cs : Comps), i < cs.length →
    encAlt ine (swap u i cs) i v = enc ine u v
  | _, .nil, h => by simp [Comps.length] at h
  | 0, .cons f t cs, _ => by simp [swap, encAlt]
  | i + 1, .cons f t cs, h => by
    simp only [Comps.length, Nat.add_lt_add_iff_right] at h
    simp only [swap, encAlt]
    exact encAlt_at u ine v i cs h

theorem validAlt_swap (u : Ty) (v : Val) : ∀ (i j : Nat) (cs : Comps), j ≠ i → (swap u i cs).validAlt j v = cs.validAlt j v
  | 0, j, .nil, _ => by simp [swap]
  | i + 1, j, .nil, _ => by simp [swap]
  | 0, 0, .cons f t cs, h => absurd rfl h
  | 0, j + 1, .cons f t cs, _ => by simp [swap, Comps.validAlt]
  | i + 1, 0, .cons f t cs, _ => by simp [swap, Comps.validAlt]
  | i + 1, j + 1, .cons f t cs, h => by
    simp only [swap, Comps.validAlt]
    exact validAlt_swap u v i j cs (fun e => h (by rw [e]))

theorem validAlt_at (u : Ty) (v : Val) : ∀ (i : Nat) (cs : Comps), i < cs.length → (swap u i cs).validAlt i v = u.valid v
  | _, .nil, h => by simp [Comps.length] at h
  | 0, .cons f t cs, _ => by simp [swap, Comps.validAlt]
  | i + 1, .cons f t cs, h => by
    simp only [Comps.length, Nat.add_lt_add_iff_right] at h
    simp only [swap, Comps.validAlt]
    exact validAlt_at u v i cs h

theorem sameAlt_swap (u : Ty) (ine : Bool) (v w : Val) : ∀ (i j : Nat) (cs : Comps), j ≠ i →
    (swap u i cs).sameAlt ine j v w = cs.sameAlt ine j v w
  | 0, j, .nil, _ => by simp [swap]
  | i + 1, j, .nil, _ => by simp [swap]
  | 0, 0, .cons f t cs, h => absurd rfl h
  | 0, j + 1, .cons f t cs, _ => by simp [swap, Comps.sameAlt]
  | i + 1, 0, .cons f t cs, _ => by simp [swap, Comps.sameAlt]
  | i + 1, j + 1, .cons f t cs, h => by
    simp only [swap, Comps.sameAlt]
    exact sameAlt_swap u ine v w i j cs (fun e => h (by rw [e]))

theorem decAlt_ge : ∀ (cs : Comps) (k : Nat) (x : TLV) (n : Nat) (w : Val), decAlt cs k x = some (.alt n w) → k ≤ n
  | .nil, _, _, _, _, h => by simp [decAlt] at h
  | .cons f t cs, k, x, n, w, h => by
    simp only [decAlt] at h
    split at h
    · split at h
      · simp only [Option.some.injEq, Val.alt.injEq] at h; omega
      · simp at h
    · exact Nat.le_of_succ_le (decAlt_ge cs (k + 1) x n w h)

/-- Decoding to another alternative is not affected; decoding to this one is what `t` does. -/
theorem decAlt_swap (t u : Ty) (w : Val) (hm : ∀ x, u.matches x = t.matches x) : ∀ (i j : Nat) (cs : Comps) (f : Field) (k : Nat) (x : TLV),
    cs.get? i = some (f, t) → decAlt (swap u i cs) k x = some (.alt (k + j) w) →
    (j ≠ i → decAlt cs k x = some (.alt (k + j) w)) ∧ (j = i → decT u x = some w ∧ decAlt cs k x = (decT t x).map (.alt (k + j)))
  | i, j, .nil, _, _, _, h, _ => by simp [Comps.get?] at h
  | 0, j, .cons g s cs, f, k, x, h, hd => by
    simp only [Comps.get?, Option.some.injEq, Prod.mk.injEq] at h
    obtain ⟨_, rfl⟩ := h
    simp only [swap, decAlt, hm x] at hd
    simp only [decAlt]
    split at hd
    · rename_i hx
      split at hd
      · rename_i v hv
        simp only [Option.some.injEq, Val.alt.injEq] at hd
        refine ⟨fun hj => absurd (by omega) hj, fun _ => ⟨by rw [hv, hd.2], ?_⟩⟩
        rw [if_pos hx]
        cases decT s x <;> simp
        omega
      · simp at hd
    · rename_i hx
      refine ⟨fun _ => by rw [if_neg hx, hd], fun hj => ?_⟩
      exfalso
      have := decAlt_ge _ _ _ _ _ hd
      omega
  | i + 1, j, .cons g s cs, f, k, x, h, hd => by
    simp only [Comps.get?] at h
    simp only [swap, decAlt] at hd
    simp only [decAlt]
    split at hd
    · rename_i hx
      rw [if_pos hx]
      split at hd
      · rename_i v hv
        simp only [Option.some.injEq, Val.alt.injEq] at hd
        simp only [hv, Option.some.injEq, Val.alt.injEq]
        exact ⟨fun _ => hd, fun hj => by omega⟩
      · simp at hd
    · rename_i hx
      rw [if_neg hx]
      cases j with
      | zero =>
        exfalso
        have := decAlt_ge _ _ _ _ _ hd
        omega
      | succ j =>
        have e : k + (j + 1) = k + 1 + j := by omega
        rw [e] at hd ⊢
        have := decAlt_swap t u w hm i j cs f (k + 1) x h hd
        simpa using this

/-- The message type. -/
def ldapMessage : Ty := Rfc2251.LDAPMessage.call.ty

/-- An empty SEQUENCE with the tag of UnbindRequest: the octets the module sends. -/
def unbindOctets : Ty := .seq false { (default : Attrs) with tags := [⟨.application, true, 2⟩] } .nil

/-- As `ldapMessage`, with this type for UnbindRequest. -/
def ldapPatched : Ty :=
  match ldapMessage with
  | .seq s a (.cons f1 t1 (.cons f2 (.choice a2 cs) r)) => .seq s a (.cons f1 t1 (.cons f2 (.choice a2 (swap unbindOctets 2 cs)) r))
  | t => t

/-- What the proofs below need to know about the message type. -/
theorem ldap_shape : ∃ a f1 t1 f2 a2 cs f3 t3 f u,
    ldapMessage = .seq false a (.cons f1 t1 (.cons f2 (.choice a2 cs) (.cons f3 t3 .nil))) ∧
    a2.tags = [] ∧ cs.get? 2 = some (f, .prim .null u) ∧ u.tags = [⟨.application, true, 2⟩] ∧
    f1.mode = .req ∧ f2.mode = .req ∧ a.spec.truthy = false := by
  have h : (match ldapMessage with
      | .seq false a (.cons f1 _ (.cons f2 (.choice a2 cs) (.cons _ _ .nil))) =>
        decide (a2.tags = []) && (match cs.get? 2 with
          | some (_, .prim .null u) => decide (u.tags = [⟨.application, true, 2⟩])
          | _ => false) && decide (f1.mode = .req) && decide (f2.mode = .req) && !a.spec.truthy
      | _ => false) = true := by decide +kernel
  split at h
  · rename_i a f1 t1 f2 a2 cs f3 t3 heq
    simp only [Bool.and_eq_true, decide_eq_true_eq, Bool.not_eq_true'] at h
    obtain ⟨⟨⟨⟨h1, h2⟩, h3⟩, h4⟩, h5⟩ := h
    split at h2
    · rename_i f u hg
      exact ⟨a, f1, t1, f2, a2, cs, f3, t3, f, u, heq, h1, hg, by simpa using h2, h3, h4, h5⟩
    · simp at h2
  · simp at h

theorem patched_wf : ldapPatched.wf = true := by decide +kernel

theorem get_swap (u : Ty) : ∀ (i j : Nat) (cs : Comps), j ≠ i → (swap u i cs).get? j = cs.get? j
  | 0, j, .nil, _ => by simp [swap]
  | i + 1, j, .nil, _ => by simp [swap]
  | 0, 0, .cons f t cs, h => absurd rfl h
  | 0, j + 1, .cons f t cs, _ => by simp [swap, Comps.get?]
  | i + 1, 0, .cons f t cs, _ => by simp [swap, Comps.get?]
  | i + 1, j + 1, .cons f t cs, h => by
    simp only [swap, Comps.get?]
    exact get_swap u i j cs (fun e => h (by rw [e]))

theorem get_at (u : Ty) : ∀ (i : Nat) (cs : Comps) (f : Field) (t : Ty), cs.get? i = some (f, t) →
    (swap u i cs).get? i = some (f, u)
  | _, .nil, _, _, h => by simp [Comps.get?] at h
  | 0, .cons f t cs, _, _, h => by
    simp only [Comps.get?, Option.some.injEq, Prod.mk.injEq] at h
    simp [swap, Comps.get?, h.1]
  | i + 1, .cons f t cs, _, _, h => by
    simp only [Comps.get?] at h
    simp only [swap, Comps.get?]
    exact get_at u i cs _ _ h

theorem get_lt : ∀ (i : Nat) (cs : Comps) (p : Field × Ty), cs.get? i = some p → i < cs.length
  | _, .nil, _, h => by simp [Comps.get?] at h
  | 0, .cons f t cs, _, _ => by simp [Comps.length]
  | i + 1, .cons f t cs, _, h => by
    simp only [Comps.get?] at h
    simp only [Comps.length, Nat.add_lt_add_iff_right]
    exact get_lt i cs _ h

theorem encComps_congr {f : Field} {t t' : Ty} {cs : Comps} {v v' : Val} {vs : Vals} (hf : f.mode = .req)
    (hv : v ≠ .absent) (hv' : v' ≠ .absent) (h1 : enc false t v = enc false t' v') (h2 : setKey t v = setKey t' v') :
    encComps (.cons f t cs) (.cons v vs) = encComps (.cons f t' cs) (.cons v' vs) := by
  simp only [encComps, hf]
  cases encComps cs vs with
  | none => rfl
  | some ps =>
    cases v <;> cases v' <;> simp_all [Mode.isOpt]

/-- An LDAP message. -/
def message (id : Val) (op : Nat) (body controls : Val) : Val :=
  .record (.cons id (.cons (.alt op body) (.cons controls .nil)))

theorem encAlt_get {ine : Bool} {v : Val} : ∀ {cs : Comps} {i : Nat} {f : Field} {t : Ty}, cs.get? i = some (f, t) →
    encAlt ine cs i v = enc ine t v
  | .nil, _, _, _, h => by simp [Comps.get?] at h
  | .cons _ _ _, 0, _, _, h => by
    simp only [Comps.get?, Option.some.injEq, Prod.mk.injEq] at h
    simp [encAlt, h.2]
  | .cons _ _ cs, i + 1, _, _, h => by
    simp only [Comps.get?] at h
    simp [encAlt, encAlt_get h]

theorem decComps_req {f : Field} {t : Ty} {cs : Comps} (hf : f.mode = .req) {xs : List TLV} {ws : Vals} :
    decComps (.cons f t cs) xs = some ws ↔
      ∃ x xs' v vs, xs = x :: xs' ∧ decT t x = some v ∧ decComps cs xs' = some vs ∧ ws = .cons v vs := by
  cases xs with
  | nil => simp [decComps, hf, Mode.missing]
  | cons x xs =>
    simp only [decComps, hf, Mode.isReq, Bool.true_or, if_true]
    constructor
    · intro h
      split at h
      · rename_i v vs h1 h2
        simp only [Option.some.injEq] at h
        exact ⟨x, xs, v, vs, rfl, h1, h2, h.symm⟩
      · simp at h
    · rintro ⟨y, ys, v, vs, h, h1, h2, rfl⟩
      simp only [List.cons.injEq] at h
      obtain ⟨rfl, rfl⟩ := h
      simp [h1, h2]

theorem encComps_tail {f : Field} {t : Ty} {cs cs' : Comps} {v : Val} {vs vs' : Vals} (h : encComps cs vs = encComps cs' vs') :
    encComps (.cons f t cs) (.cons v vs) = encComps (.cons f t cs') (.cons v vs') := by
  simp only [encComps, h]

/-- The patched message type has the same values and octets, with an empty record for unbind. -/
theorem patched (a : Attrs) (f1 f2 f3 f : Field) (t1 t3 : Ty) (a2 u : Attrs) (cs : Comps) (ha2 : a2.tags = [])
    (hg : cs.get? 2 = some (f, .prim .null u)) (hu : u.tags = [⟨.application, true, 2⟩]) (hf2 : f2.mode = .req)
    (hsp : a.spec.truthy = false) (id : Val) (op : Nat) (body controls body' : Val)
    (hb : (op ≠ 2 ∧ body' = body) ∨ (op = 2 ∧ body = .null ∧ body' = .record .nil)) (b : Bytes)
    (hv : (Ty.seq false a (.cons f1 t1 (.cons f2 (.choice a2 cs) (.cons f3 t3 .nil)))).valid (message id op body controls) = true)
    (he : encode (.seq false a (.cons f1 t1 (.cons f2 (.choice a2 cs) (.cons f3 t3 .nil)))) (message id op body controls) = some b) :
    (Ty.seq false a (.cons f1 t1 (.cons f2 (.choice a2 (swap unbindOctets 2 cs)) (.cons f3 t3 .nil)))).valid
      (message id op body' controls) = true ∧
    encode (.seq false a (.cons f1 t1 (.cons f2 (.choice a2 (swap unbindOctets 2 cs)) (.cons f3 t3 .nil))))
      (message id op body' controls) = some b := by
  have ok := fun s => Constraint.ok_of_not_truthy a.spec s hsp
  have h1 : cs.validAlt op body = true → (swap unbindOctets 2 cs).validAlt op body' = true := by
    rcases hb with ⟨h, rfl⟩ | ⟨rfl, rfl, rfl⟩
    · rw [validAlt_swap unbindOctets body' 2 op cs h]; exact fun h => h
    · intro _
      rw [validAlt_at unbindOctets _ 2 cs (get_lt 2 cs _ hg)]
      decide
  have h2 : enc false (.choice a2 (swap unbindOctets 2 cs)) (.alt op body') = enc false (.choice a2 cs) (.alt op body) := by
    rcases hb with ⟨h, rfl⟩ | ⟨rfl, rfl, rfl⟩
    · simp only [enc, encAlt_swap unbindOctets false body' 2 op cs h]
    · simp only [enc, encAlt_at unbindOctets false _ 2 cs (get_lt 2 cs _ hg), encAlt_get hg]
      simp only [enc, hu]
      rfl
  have h3 : setKey (.choice a2 (swap unbindOctets 2 cs)) (.alt op body') = setKey (.choice a2 cs) (.alt op body) := by
    rcases hb with ⟨h, rfl⟩ | ⟨rfl, rfl, rfl⟩
    · simp only [setKey, get_swap unbindOctets 2 op cs h]
    · simp only [setKey, get_at unbindOctets 2 cs _ _ hg, hg]
      simp [unbindOctets, Ty.tags, hu]
  constructor
  · simp only [Ty.valid, Comps.valid, message, ok, Bool.and_true, hf2, Bool.and_eq_true] at hv ⊢
    exact ⟨hv.1, h1 hv.2.1, hv.2.2⟩
  · rw [← he]
    have e3 := encComps_congr (cs := .cons f3 t3 .nil) (vs := .cons controls .nil) hf2 (by simp) (by simp) h2 h3
    simp only [encode, message, enc, ok, if_true, encComps_tail e3]

theorem decComps_length : ∀ (cs : Comps) (xs : List TLV) (ws : Vals), decComps cs xs = some ws → ws.length = cs.length
  | .nil, [], ws, h => by simp [decComps] at h; subst h; rfl
  | .nil, _ :: _, ws, h => by simp [decComps] at h
  | .cons fld t cs, [], ws, h => by
    simp only [decComps] at h
    split at h
    · rename_i v ws' h1 h2
      simp at h; subst h
      simp [Vals.length, Comps.length, decComps_length cs [] ws' h2]
    · simp at h
  | .cons fld t cs, x :: xs, ws, h => by
    simp only [decComps] at h
    split at h
    · split at h
      · rename_i v ws' h1 h2
        simp at h; subst h
        simp [Vals.length, Comps.length, decComps_length cs _ ws' h2]
      · simp at h
    · split at h
      · rename_i v ws' h1 h2
        simp at h; subst h
        simp [Vals.length, Comps.length, decComps_length cs _ ws' h2]
      · simp at h

/-- How a message is decoded. -/
theorem patched_decode {a : Attrs} {f1 f2 f3 : Field} {t1 t3 : Ty} {a2 : Attrs} {cs : Comps} (ha2 : a2.tags = [])
    (hf1 : f1.mode = .req) (hf2 : f2.mode = .req) (hsp : a.spec.truthy = false) {x : TLV} {w : Val}
    (h : decT (.seq false a (.cons f1 t1 (.cons f2 (.choice a2 cs) (.cons f3 t3 .nil)))) x = some w) :
    ∃ xs id op controls x2, innerItems a x = some xs ∧ w = .record (.cons id (.cons op (.cons controls .nil))) ∧
      decAlt cs 0 x2 = some op ∧ ∀ cs' op', decAlt cs' 0 x2 = op' →
        decT (.seq false a (.cons f1 t1 (.cons f2 (.choice a2 cs') (.cons f3 t3 .nil)))) x =
          op'.map (fun op' => .record (.cons id (.cons op' (.cons controls .nil)))) := by
  have ok := fun s => Constraint.ok_of_not_truthy a.spec s hsp
  simp only [decT, ok, Bool.or_true, if_true, Bool.false_eq_true, if_false] at h
  split at h
  · simp at h
  · rename_i xs hi
    split at h
    · simp at h
    · rename_i ws hws
      simp only [Option.some.injEq] at h
      obtain ⟨x1, xs1, id, ws1, rfl, h1, h2, rfl⟩ := (decComps_req hf1).1 hws
      obtain ⟨x2, xs2, op, ws2, rfl, h3, h4, rfl⟩ := (decComps_req hf2).1 h2
      have hlen : ∃ controls, ws2 = .cons controls .nil := by
        have := decComps_length _ _ _ h4
        match ws2, this with
        | .nil, h => simp [Vals.length, Comps.length] at h
        | .cons c .nil, _ => exact ⟨c, rfl⟩
        | .cons c (.cons _ _), h => simp [Vals.length, Comps.length] at h
      obtain ⟨controls, rfl⟩ := hlen
      simp only [decT, ha2] at h3
      refine ⟨_, id, op, controls, x2, hi, h.symm, h3, ?_⟩
      rintro cs' op' rfl
      simp only [decT, ok, Bool.or_true, if_true, Bool.false_eq_true, if_false, hi]
      cases hd : decAlt cs' 0 x2 with
      | none =>
        have : decComps (.cons f1 t1 (.cons f2 (.choice a2 cs') (.cons f3 t3 .nil))) (x1 :: x2 :: xs2) = none := by
          simp [decComps, hf1, hf2, Mode.isReq, decT, ha2, hd]
        simp [this]
      | some op' =>
        have : decComps (.cons f1 t1 (.cons f2 (.choice a2 cs') (.cons f3 t3 .nil))) (x1 :: x2 :: xs2) =
            some (.cons id (.cons op' (.cons controls .nil))) :=
          (decComps_req hf1).2 ⟨x1, x2 :: xs2, id, _, rfl, h1, (decComps_req hf2).2 ⟨x2, xs2, op', _, rfl, by
            simp only [decT, ha2, hd], h4, rfl⟩, rfl⟩
        simp [this]

theorem unbind_matches {u : Attrs} (hu : u.tags = [⟨.application, true, 2⟩]) (x : TLV) :
    unbindOctets.matches x = (Ty.prim .null u).matches x := by
  simp [unbindOctets, Ty.matches, hu]

/-- C30: every LDAP operation other than unbind survives the round trip. -/
theorem ldap_roundtrip (id : Val) (op : Nat) (body controls : Val) (hop : op ≠ 2) (b rest : Bytes)
    (hv : ldapMessage.valid (message id op body controls) = true)
    (he : encode ldapMessage (message id op body controls) = some b) :
    ∃ id' body' controls', decode ldapMessage (b ++ rest) = some (message id' op body' controls', rest) ∧
      ldapMessage.same false (message id op body controls) (message id' op body' controls') := by
  obtain ⟨a, f1, t1, f2, a2, cs, f3, t3, f, u, hs, ha2, hg, hu, hf1, hf2, hsp⟩ := ldap_shape
  have hp : ldapPatched = .seq false a (.cons f1 t1 (.cons f2 (.choice a2 (swap unbindOctets 2 cs)) (.cons f3 t3 .nil))) := by
    simp only [ldapPatched, hs]
  have hwf := patched_wf
  rw [hp] at hwf
  rw [hs] at hv he ⊢
  obtain ⟨hv', he'⟩ := patched a f1 f2 f3 f t1 t3 a2 u cs ha2 hg hu hf2 hsp id op body controls body (Or.inl ⟨hop, rfl⟩) b hv he
  obtain ⟨x, w, hx, hd, hsame, _⟩ := Codec.encode_isTLV _ hwf _ b hv' he'
  obtain ⟨xs, id', w2, controls', x2, hi, hw, hd2, hall⟩ := patched_decode ha2 hf1 hf2 hsp hd
  subst hw
  simp only [Ty.same, message, Comps.same, hf2] at hsame
  cases w2 with
  | alt op' body' =>
    simp only [Ty.same] at hsame
    obtain ⟨h1, ⟨h2, h3⟩, h4⟩ := hsame
    subst h2
    rw [sameAlt_swap unbindOctets false body body' 2 op cs hop] at h3
    have := (decAlt_swap _ unbindOctets body' (unbind_matches hu) 2 op cs f 0 x2 hg (by simpa using hd2)).1 hop
    rw [Nat.zero_add] at this
    refine ⟨id', body', controls', ?_, ?_⟩
    · have e := hall cs _ this
      simp only [Option.map_some] at e
      simp only [decode, hx.2 rest, e, message]
    · simp only [Ty.same, message, Comps.same, hf2]
      exact ⟨h1, ⟨trivial, h3⟩, h4⟩
  | _ => simp [Ty.same] at hsame

/-- C30, a failure: what the module encodes for an unbind request it refuses to decode, whatever
the message identifier and the controls.  rfc2251.py:278-281 derives the tag of UnbindRequest, which
is a NULL, from that of SEQUENCE. -/
theorem ldap_unbind_lost (id controls : Val) (b rest : Bytes)
    (hv : ldapMessage.valid (message id 2 .null controls) = true)
    (he : encode ldapMessage (message id 2 .null controls) = some b) :
    decode ldapMessage (b ++ rest) = none := by
  obtain ⟨a, f1, t1, f2, a2, cs, f3, t3, f, u, hs, ha2, hg, hu, hf1, hf2, hsp⟩ := ldap_shape
  have hp : ldapPatched = .seq false a (.cons f1 t1 (.cons f2 (.choice a2 (swap unbindOctets 2 cs)) (.cons f3 t3 .nil))) := by
    simp only [ldapPatched, hs]
  have hwf := patched_wf
  rw [hp] at hwf
  rw [hs] at hv he ⊢
  obtain ⟨hv', he'⟩ := patched a f1 f2 f3 f t1 t3 a2 u cs ha2 hg hu hf2 hsp id 2 .null controls (.record .nil)
    (Or.inr ⟨rfl, rfl, rfl⟩) b hv he
  obtain ⟨x, w, hx, hd, hsame, _⟩ := Codec.encode_isTLV _ hwf _ b hv' he'
  obtain ⟨xs, id', w2, controls', x2, hi, hw, hd2, hall⟩ := patched_decode ha2 hf1 hf2 hsp hd
  subst hw
  simp only [Ty.same, message, Comps.same, hf2] at hsame
  cases w2 with
  | alt op' body' =>
    simp only [Ty.same] at hsame
    obtain ⟨h1, ⟨h2, h3⟩, h4⟩ := hsame
    subst h2
    obtain ⟨h5, h6⟩ := (decAlt_swap _ unbindOctets body' (unbind_matches hu) 2 2 cs f 0 x2 hg (by simpa using hd2)).2 rfl
    have h7 : decT (.prim .null u) x2 = none := by
      have hc : x2.constructed = true ∧ x2.has ⟨.application, true, 2⟩ = true := by
        simp only [unbindOctets, decT, innerItems, List.reverse_cons, List.reverse_nil, List.nil_append, unwrap] at h5
        by_cases h : x2.has ⟨.application, true, 2⟩ = true
        · by_cases h' : x2.constructed = true
          · exact ⟨h', h⟩
          · simp [h, h'] at h5
        · simp [h] at h5
      simp [decT, decPrimT, hu, unwrap, hc.1, hc.2]
    rw [h7] at h6
    have e := hall cs _ h6
    simp only [Option.map_none] at e
    simp only [decode, hx.2 rest, e]
  | _ => simp [Ty.same] at hsame

/-- An unbind request, number 1: what is sent, and that RFC 2251's own form is accepted. -/
example : ldapMessage.valid (message (.int 1) 2 .null .absent) = true ∧
    encode ldapMessage (message (.int 1) 2 .null .absent) = some [0x30, 5, 2, 1, 1, 0x62, 0] ∧
    decode ldapMessage [0x30, 5, 2, 1, 1, 0x62, 0] = none ∧
    decode ldapMessage [0x30, 5, 2, 1, 1, 0x42, 0] = some (message (.int 1) 2 .null .absent, []) := by decide +kernel

/-- A delete response: an instance of `ldap_roundtrip`. -/
example : ldapMessage.valid (message (.int 1) 12 (.record (.ofList [.int 0, .octets [], .octets [], .absent])) .absent) = true ∧
    encode ldapMessage (message (.int 1) 12 (.record (.ofList [.int 0, .octets [], .octets [], .absent])) .absent) =
      some [0x30, 12, 2, 1, 1, 0x6b, 7, 10, 1, 0, 4, 0, 4, 0] := by decide +kernel

/-- C30, a failure: a delete request as RFC 2251 has it, `[APPLICATION 10] LDAPDN`, is refused whatever
the name: rfc2251.py:421-424 derives DelRequest from LDAPResult. -/
theorem ldap_delete_refused (x : TLV) (hc : x.constructed = false) :
    decT Rfc2251.DelRequest.call.ty x = none := by
  have h : (match Rfc2251.DelRequest.call.ty with
    | .seq _ a _ => decide (a.tags = [⟨.application, true, 10⟩])
    | _ => false) = true := by decide +kernel
  cases ht : Rfc2251.DelRequest.call.ty with
  | seq s a cs =>
    rw [ht] at h
    simp only [decide_eq_true_eq] at h
    simp only [decT, innerItems, h, List.reverse_cons, List.reverse_nil, List.nil_append, unwrap]
    by_cases h' : x.has ⟨.application, true, 10⟩ = true <;> simp [h', hc]
  | _ => simp [ht] at h

/-- A request to delete the entry "x". -/
example : ∃ x, readTLV [0x4a, 1, 0x78] = some (x, []) ∧ x.constructed = false :=
  ⟨⟨.application, false, 10, [0x78], [0x4a, 1, 0x78]⟩, by decide +kernel, rfl⟩

/-- C30, a failure: an abandon request as RFC 2251 has it, `[APPLICATION 16] MessageID`, likewise
(rfc2251.py:469-472). -/
theorem ldap_abandon_refused (x : TLV) (hc : x.constructed = false) :
    decT Rfc2251.AbandonRequest.call.ty x = none := by
  have h : (match Rfc2251.AbandonRequest.call.ty with
    | .seq _ a _ => decide (a.tags = [⟨.application, true, 16⟩])
    | _ => false) = true := by decide +kernel
  cases ht : Rfc2251.AbandonRequest.call.ty with
  | seq s a cs =>
    rw [ht] at h
    simp only [decide_eq_true_eq] at h
    simp only [decT, innerItems, h, List.reverse_cons, List.reverse_nil, List.nil_append, unwrap]
    by_cases h' : x.has ⟨.application, true, 16⟩ = true <;> simp [h', hc]
  | _ => simp [ht] at h

end Protocol
end Props
end Verif
