import Verif.Asn1.BuildScript
import Verif.Props.Keep
import Verif.Spec.Relax
import Verif.Tools.Client

/-!
# C59 and C60: objects in memory
-/

namespace Verif
namespace Props
namespace InMemory

open Asn1

/-! ## The classes -/

/-- The class with a `ComponentAbsentConstraint`. -/
def absence : List String := ["rfc6211.CMSAlgorithmProtection"]

/-- The classes with a constraint on a SEQUENCE that depends on which OPTIONAL components there are. -/
def conditional : List String :=
  ["rfc3739.SemanticsInformation", "rfc4108.FirmwarePackageInfo", "rfc6031.OneSymmetricKey", "rfc6031.SymmetricKeys",
   "rfc6031.SymmetricKeyPackage", "rfc6211.CMSAlgorithmProtection", "rfc8226.JWTClaimConstraints"]

theorem absence_table : (Package.types.filter (fun c => !c.2.growing)).map Prod.fst = absence := by decide +kernel

theorem conditional_table : (Package.types.filter (fun c => !(c.2.neutral && c.2.whole))).map Prod.fst = conditional := by
  decide +kernel

theorem growing_of_mem {c : String × Ty} (hc : c ∈ Package.types) (ha : c.1 ∉ absence) : c.2.growing = true :=
  Keep.of_table (p := Ty.growing) absence_table hc ha

theorem neutral_of_mem {c : String × Ty} (hc : c ∈ Package.types) (ha : c.1 ∉ conditional) :
    c.2.neutral = true ∧ c.2.whole = true := by
  have := Keep.of_table (p := fun t => t.neutral && t.whole) conditional_table hc ha
  simpa using this

/-! ## C59: looking at an object -/

/-- What can be done to an object: `x[i][j]...`, `x[i][j]... = y`, `encode(x[i][j]...)`. -/
inductive Op where
  | read (p : List Nat)
  | assign (p : List Nat) (y : Obj)
  | encode (p : List Nat)

/-- `none` if it raises. -/
def Op.run (t : Ty) (o : Obj) : Op → Option Obj
  | .read p => readAt t o p
  | .assign p y => assignAt t o p y
  | .encode p => encodeAt t o p

/-- The object is only looked at: components are read that are there or that do not become values by being read, and the
object or a part of it that has a value is encoded. -/
def Op.looks (t : Ty) (o : Obj) : Op → Prop
  | .read p => safe t o p = true
  | .encode p => p = [] ∨ (safe t o p = true ∧ ∀ u c, look t o p = some (u, c) → u.isValue c = true ∧ (encObj false u c).isSome = true)
  | .assign _ _ => False

/-- From `o` to `o'` by looking. -/
inductive Looked (t : Ty) : Obj → Obj → Prop
  | nil {o : Obj} : Looked t o o
  | step {o o' q : Obj} (op : Op) : op.looks t o → op.run t o = some o' → Looked t o' q → Looked t o q

theorem looks_grown {t : Ty} {o : Obj} {b : Bytes} (he : encObj false t o = some b) {op : Op} (h : op.looks t o) :
    ∃ o', op.run t o = some o' ∧ t.grown o o' := by
  cases op with
  | assign p y => exact h.elim
  | read p =>
    obtain ⟨o', h1, h2, _⟩ := atPath_grown (fun _ c => some c) p t o h (fun u c _ => ⟨c, rfl, Ty.grown_refl u c, rfl⟩)
    exact ⟨o', h1, h2⟩
  | encode p =>
    rcases h with rfl | ⟨hs, hv⟩
    · refine ⟨touch t o, ?_, touch_grown t false o b he⟩
      simp [Op.run, encodeAt, atPath, he]
    · obtain ⟨o', h1, h2, _⟩ := atPath_grown (fun u c => if (encObj false u c).isSome then some (touch u c) else none) p t o hs
        (fun u c hl => by
          obtain ⟨h1, h2⟩ := hv u c hl
          obtain ⟨b, hb⟩ := Option.isSome_iff_exists.1 h2
          have hg := touch_grown u false c b hb
          exact ⟨touch u c, by simp [h2], hg, by rw [h1, Ty.grown_isValue u c _ hg h1]⟩)
      exact ⟨o', h1, h2⟩

/-- C59: reading and encoding do not raise. -/
theorem looking_succeeds {t : Ty} {o : Obj} {b : Bytes} (he : encObj false t o = some b) {op : Op} (h : op.looks t o) :
    ∃ o', op.run t o = some o' := by
  obtain ⟨o', h, _⟩ := looks_grown he h
  exact ⟨o', h⟩

/-- C59: however often an object is read and encoded, it keeps its encoding and its value. -/
theorem looking_harmless (c : String × Ty) (hc : c ∈ Package.types) (ha : c.1 ∉ absence) {o o' : Obj} {b : Bytes}
    (he : encObj false c.2 o = some b) (h : Looked c.2 o o') : encObj false c.2 o' = some b ∧ c.2.value o' = c.2.value o := by
  have hg := growing_of_mem hc ha
  induction h with
  | nil => exact ⟨he, rfl⟩
  | step op hl hr _ ih =>
    obtain ⟨q, h1, h2⟩ := looks_grown he hl
    obtain rfl := Option.some.inj (h1.symm.trans hr)
    obtain ⟨h3, h4⟩ := ih (encObj_grown c.2 false _ _ b hg h2 he)
    exact ⟨h3, h4.trans (Ty.grown_value c.2 _ _ h2)⟩

/-- C59: in particular, encoding twice yields the same octets. -/
theorem encoding_repeatable (c : String × Ty) (hc : c ∈ Package.types) (ha : c.1 ∉ absence) {o o' : Obj} {b : Bytes}
    (he : encObj false c.2 o = some b) (h : encodeAt c.2 o [] = some o') : encObj false c.2 o' = some b :=
  (looking_harmless c hc ha he (.step (.encode []) (.inl rfl) h .nil)).1

/-! ### What is not harmless -/

/-- Reading an alternative that is not the chosen one: what the CHOICE held is gone. -/
theorem other_alternative_lost (a : Attrs) (cs : Comps) (i j k : Nat) (hj : j ≠ i) (hk : k ≠ i) (c d : Obj) (p : List Nat) :
    readAt (.choice a cs) (.chosen j c) (i :: p) = readAt (.choice a cs) (.chosen k d) (i :: p) := by
  simp only [readAt, atPath, Obj.under, if_neg hj, if_neg hk]

/-- Reading the element after the last one: there is one more element, without a value. -/
theorem next_element_added (s : Bool) (a : Attrs) (t : Ty) (os : List Obj) :
    readAt (.of s a t) (.list (.ofList os)) [os.length] = some (.list (.ofList (os ++ [.fresh t]))) := by
  simp [readAt, atPath, Obj.elems_list]

theorem slotNames_touch : ∀ (cs : Comps) (ss : Slots), slotNames cs (touchSlots cs ss) = cs.names
  | .nil, _ => rfl
  | .cons f t cs, ss => by simp [slotNames, touchSlots, Slots.head, Slots.tail, Comps.names, slotNames_touch cs]

/-- The exception: a `CMSAlgorithmProtection` can be encoded once only. -/
theorem absence_once (o o' : Obj) (h : encodeAt Rfc6211.CMSAlgorithmProtection.call.ty o [] = some o') :
    encObj false Rfc6211.CMSAlgorithmProtection.call.ty o' = none := by
  have hT : ∃ s a cs, Rfc6211.CMSAlgorithmProtection.call.ty = .seq s a cs ∧ a.spec.ok (.mapping cs.names.length cs.names) = false :=
    ⟨_, _, _, rfl, by decide +kernel⟩
  obtain ⟨s, a, cs, hT, hn⟩ := hT
  rw [hT] at h ⊢
  simp only [encodeAt, atPath] at h
  split at h
  · simp only [Option.some.injEq] at h
    subst h
    rename_i he
    simp only [encObj] at he
    split at he
    · rename_i hc
      cases o <;> simp only [consistent, Bool.false_eq_true] at hc <;>
        simp [touch, encObj, consistent, slotNames_touch, hn]
    · simp at he
  · simp at h

/-! ## C60: building an object -/

/-- The object after some operations; one that raises changes nothing. -/
def after (t : Ty) (o : Obj) (ops : List Op) : Obj := ops.foldl (fun o op => (op.run t o).getD o) o

theorem run_fits {t : Ty} (hn : t.neutral = true) (hw : t.whole = true) {o o' : Obj} (hf : t.fits o = true) (op : Op)
    (h : op.run t o = some o') : t.fits o' = true := by
  cases op with
  | read p => exact atPath_fits _ (fun u c c' _ _ hc h => by simp only [Option.some.injEq] at h; rwa [← h]) p t o o' hn hw hf h
  | assign p y =>
    refine atPath_fits _ (fun u c c' _ _ hc h => ?_) p t o o' hn hw hf h
    simp only [place] at h
    split at h
    · simp only [Option.some.injEq] at h
      rwa [← h]
    · simp at h
  | encode p =>
    refine atPath_fits _ (fun u c c' hn hw hc h => ?_) p t o o' hn hw hf h
    split at h
    · simp only [Option.some.injEq] at h
      rw [← h]
      exact touch_fits u c hn hw hc
    · simp at h

theorem after_fits {t : Ty} (hn : t.neutral = true) (hw : t.whole = true) : ∀ (ops : List Op) (o : Obj), t.fits o = true →
    t.fits (after t o ops) = true
  | [], _, hf => hf
  | op :: ops, o, hf => by
    simp only [after, List.foldl_cons]
    cases h : op.run t o with
    | none => exact after_fits hn hw ops o hf
    | some o' => exact after_fits hn hw ops o' (run_fits hn hw hf op h)

/-- C60: whatever has been done to an object, `encode` writes the encoding of the value it holds, or raises if it holds none or
one that cannot be encoded. -/
theorem encode_value (c : String × Ty) (hc : c ∈ Package.types) (hd : c.1 ∉ conditional) (ops : List Op) :
    encObj false c.2 (after c.2 (.fresh c.2) ops) = (c.2.value (after c.2 (.fresh c.2) ops)).bind (encode c.2) := by
  obtain ⟨hn, hw⟩ := neutral_of_mem hc hd
  exact encObj_value c.2 false _ hn hw (after_fits hn hw ops _ (Ty.fits_fresh c.2 (Ty.ne_bad hw)))

/-- C60: whatever has been done to an object, if it can be encoded then it holds a legal value, and the octets, followed by
anything, decode to that value.  Octets assigned to an untagged ANY must be one element; this is not checked. -/
theorem built_decodes (c : String × Ty) (hc : c ∈ Package.types) (hd : c.1 ∉ conditional) (hw' : c.1 ∉ Package.defective)
    (ops : List Op) (b : Bytes) (he : encObj false c.2 (after c.2 (.fresh c.2) ops) = some b) :
    ∃ v, c.2.value (after c.2 (.fresh c.2) ops) = some v ∧ (c.2.faithful v = true → c.2.valid v = true ∧
      ∃ w, c.2.same false v w ∧ ∀ rest, decode c.2 (b ++ rest) = some (w, rest)) := by
  obtain ⟨hn, hw⟩ := neutral_of_mem hc hd
  have hf := after_fits hn hw ops _ (Ty.fits_fresh c.2 (Ty.ne_bad hw))
  rw [encode_value c hc hd ops, Option.bind_eq_some_iff] at he
  obtain ⟨v, hv, he⟩ := he
  refine ⟨v, hv, fun ha => ?_⟩
  have hval := valid_of_enc c.2 false _ v b hn hw hf hv he ha
  obtain ⟨x, w, h1, h2, h3, _⟩ := Codec.encode_isTLV c.2 (Package.wf_of_mem hc hw') v b hval he
  exact ⟨hval, w, h3, fun rest => by simp only [decode, h1.2 rest, h2]⟩

/-- A scalar, or a collection that has been emptied (`clear()`). -/
def atom : Obj → Prop
  | .leaf _ => True
  | .record .nil => True
  | .list .nil => True
  | _ => False

mutual
theorem script_atoms : ∀ (t : Ty) (v : Val), ∀ s ∈ script t v, atom s.2
  | .prim _ _, v, s, h => by simp only [script, List.mem_singleton] at h; subst h; trivial
  | .bad _, v, s, h => by simp [script] at h
  | .seq _ _ cs, v, s, h => by
    cases v <;> simp only [script, List.not_mem_nil, List.mem_cons] at h
    rcases h with rfl | h
    · trivial
    · exact scriptC_atoms cs _ s h
  | .of _ _ t, v, s, h => by
    cases v <;> simp only [script, List.not_mem_nil, List.mem_cons] at h
    rcases h with rfl | h
    · trivial
    · rename_i vs
      revert h
      generalize 0 = i
      induction vs.toList generalizing i with
      | nil => simp [number]
      | cons v vs ih =>
        intro h
        simp only [List.map_cons, number, List.mem_append, List.mem_map] at h
        rcases h with ⟨x, hx, rfl⟩ | h
        · exact script_atoms t v x hx
        · exact ih _ h
  | .choice _ cs, v, s, h => by
    cases v <;> simp only [script, List.not_mem_nil, List.mem_map] at h
    obtain ⟨x, hx, rfl⟩ := h
    exact scriptAlt_atoms cs _ _ x hx
theorem scriptC_atoms : ∀ (cs : Comps) (vs : Vals), ∀ s ∈ scriptC cs vs, atom s.2
  | .nil, vs, s, h => by simp [scriptC] at h
  | .cons f t cs, vs, s, h => by
    cases vs <;> simp only [scriptC, List.not_mem_nil, List.mem_append, List.mem_map] at h
    rename_i v vs
    rcases h with h | ⟨x, hx, rfl⟩
    · split at h
      · simp at h
      · simp only [List.mem_map] at h
        obtain ⟨x, hx, rfl⟩ := h
        exact script_atoms t v x hx
    · have := scriptC_atoms cs vs x hx
      obtain ⟨p, y⟩ := x
      cases p <;> exact this
theorem scriptAlt_atoms : ∀ (cs : Comps) (i : Nat) (v : Val), ∀ s ∈ scriptAlt cs i v, atom s.2
  | .nil, _, _, s, h => by simp [scriptAlt] at h
  | .cons _ t _, 0, v, s, h => script_atoms t v s h
  | .cons _ _ cs, i + 1, v, s, h => scriptAlt_atoms cs i v s h
end

theorem run_after {t : Ty} : ∀ (ss : List (List Nat × Obj)) (o o' : Obj), run t o ss = some o' →
    after t o (ss.map (fun s => .assign s.1 s.2)) = o'
  | [], o, o', h => by simpa [run, after] using h
  | s :: ss, o, o', h => by
    simp only [run] at h
    cases ha : assignAt t o s.1 s.2 with
    | none => simp [ha] at h
    | some q =>
      simp only [ha, Option.bind_some] at h
      simp only [List.map_cons, after, List.foldl_cons, Op.run, ha, Option.getD_some]
      exact run_after ss q o' h

/-- C60: every legal value can be built from an object, whatever it held before, by assigning scalars and emptying collections;
it then has the encoding of the value. -/
theorem buildable (c : String × Ty) (hc : c ∈ Package.types) (hd : c.1 ∉ conditional) (v : Val) (hv : c.2.valid v = true)
    (o : Obj) : ∃ ss : List (List Nat × Obj), (∀ s ∈ ss, atom s.2) ∧ ∃ o', run c.2 o ss = some o' ∧ c.2.value o' = some v ∧
      c.2.isValue o' = true ∧ encObj false c.2 o' = encode c.2 v := by
  obtain ⟨hn, hw⟩ := neutral_of_mem hc hd
  obtain ⟨o', h1, h2, h3, h4⟩ := (script_spec c.2 v hn hw hv).2 o
  refine ⟨script c.2 v, script_atoms c.2 v, o', h1, h4, h3, ?_⟩
  rw [encObj_value c.2 false o' hn hw h2, h4]
  rfl

/-- C60: after an assignment the object assigned is found in its place. -/
theorem assigned_found (t : Ty) (o o' y : Obj) (p : List Nat) (h : assignAt t o p y = some o') :
    ∃ u, look t o' p = some (u, y) ∧ u.fits y = true := by
  obtain ⟨u, c, c', _, h2, h3⟩ := look_atPath (place y) p t o o' h
  simp only [place] at h2
  split at h2
  · rename_i hf
    simp only [Option.some.injEq] at h2
    subst h2
    exact ⟨u, h3, hf⟩
  · simp at h2

/-- C60: what is in other components is found unchanged. -/
theorem others_untouched (t : Ty) (o o' y : Obj) (p q : List Nat) (h : assignAt t o p y = some o') (ha : apart t p q = true)
    (r : Ty × Obj) (hr : look t o q = some r) : look t o' q = some r :=
  look_atPath_apart (place y) p q t o o' r ha h hr

theorem values_set : ∀ (cs : Comps) (ss : Slots) (i : Nat) (f : Field) (t : Ty) (c d : Obj), cs.get? i = some (f, t) → f.mode = .opt →
    t.isValue c = false → t.isValue d = false → cs.values (ss.set c i) = cs.values (ss.set d i)
  | .nil, _, _, _, _, _, _, h, _, _, _ => by simp [Comps.get?] at h
  | .cons f' t' cs, ss, 0, f, t, c, d, h, hm, hc, hd => by
    simp only [Comps.get?, Option.some.injEq, Prod.mk.injEq] at h
    obtain ⟨rfl, rfl⟩ := h
    have h1 : ∀ c, (ss.set c 0).tail = ss.tail := fun _ => rfl
    have h2 : ∀ c, (ss.set c 0).first f' t' = c := fun _ => rfl
    simp only [Comps.values, h1, h2, hm, Mode.lax, hc, hd, Bool.not_false, Bool.and_self, if_true]
  | .cons f' t' cs, ss, i + 1, f, t, c, d, h, hm, hc, hd => by
    have h1 : ∀ c, (ss.set c (i + 1)).tail = ss.tail.set c i := fun c => by simp only [Slots.set, Slots.tail_cons]
    have h2 : ∀ c, (ss.set c (i + 1)).first f' t' = ss.first f' t' := fun c => by
      simp only [Slots.first, Slots.set, Slots.head_cons]
    simp only [Comps.values, h1, h2, values_set cs ss.tail i f t c d h hm hc hd]

/-- An OPTIONAL component that is not complete is left out without notice: what has been assigned in it makes no difference. -/
theorem incomplete_left_out (s : Bool) (a : Attrs) (cs : Comps) (ss : Slots) (i : Nat) (f : Field) (t : Ty) (c d : Obj)
    (h : cs.get? i = some (f, t)) (hm : f.mode = .opt) (hc : t.isValue c = false) (hd : t.isValue d = false) :
    (Ty.seq s a cs).value (.record (ss.set c i)) = (Ty.seq s a cs).value (.record (ss.set d i)) := by
  simp only [Ty.value, values_set cs ss i f t c d h hm hc hd]

/-! ## The tools -/

/-- tools/snmpget.py:23-36.  `Version()` has the value 0 (rfc1157.py:27), which is not in the model: it is assigned here.  So is
the NULL at the end. -/
def snmpSteps (community : Bytes) (oid : List Nat) : List Op :=
  [.read [0], .assign [0] (.leaf (.int 0)), .assign [1] (.leaf (.octets community)),
   .read [2], .read [2, 0], .assign [2, 0, 0] (.leaf (.int 123)), .assign [2, 0, 1] (.leaf (.int 0)),
   .assign [2, 0, 2] (.leaf (.int 0)), .read [2, 0, 3], .read [2, 0, 3, 0], .assign [2, 0, 3, 0, 0] (.leaf (.oid oid)),
   .read [2, 0, 3, 0, 1], .read [2, 0, 3, 0, 1, 0], .read [2, 0, 3, 0, 1, 0, 3], .assign [2, 0, 3, 0, 1, 0, 3] (.leaf .null)]

/-- tools/ocspclient.py:77-86 -/
def requestSteps (nameHash keyHash : Bytes) (serial : Int) : List Op :=
  [.read [0], .read [0, 0], .assign [0, 0, 0] (.leaf (.oid [1, 3, 14, 3, 2, 26])), .assign [0, 1] (.leaf (.octets nameHash)),
   .assign [0, 2] (.leaf (.octets keyHash)), .assign [0, 3] (.leaf (.int serial))]

/-- tools/ocspclient.py:88-96 -/
def ocspSteps (nameHash keyHash : Bytes) (serial : Int) : List Op :=
  [.read [0], .assign [0, 0] (.leaf (.int 0)), .read [0, 2],
   .assign [0, 2, 0] (after Rfc2560.Request.call.ty (.fresh Rfc2560.Request.call.ty) (requestSteps nameHash keyHash serial))]

set_option maxRecDepth 100000 in
set_option cbv.warning false in
/-- C60: the object snmpget builds holds the message of C41. -/
theorem snmpget_builds (community : Bytes) (oid : List Nat) :
    Rfc1157.Message.call.ty.value (after Rfc1157.Message.call.ty (.fresh Rfc1157.Message.call.ty) (snmpSteps community oid)) =
      some (Tools.getRequest community oid) := by cbv

set_option maxRecDepth 100000 in
/-- C60: the object ocspclient builds holds the request of C42. -/
theorem ocspclient_builds (nameHash keyHash : Bytes) (serial : Int) :
    Rfc2560.OCSPRequest.call.ty.value (after Rfc2560.OCSPRequest.call.ty (.fresh Rfc2560.OCSPRequest.call.ty)
      (ocspSteps nameHash keyHash serial)) = some (Tools.ocspRequest nameHash keyHash (.int serial)) := by rfl

/-! ## Examples -/

namespace Examples

theorem time_mem : ("rfc5280.Time", Rfc5280.Time.call.ty) ∈ Package.types :=
  Package.mem_types (m := Rfc5280.asModule) (c := ("rfc5280.Time", Rfc5280.Time))
    (by simp [Package.modules]) (by simp [Rfc5280.asModule, Rfc5280.classes])

theorem validity_mem : ("rfc5280.Validity", Rfc5280.Validity.call.ty) ∈ Package.types :=
  Package.mem_types (m := Rfc5280.asModule) (c := ("rfc5280.Validity", Rfc5280.Validity))
    (by simp [Package.modules]) (by simp [Rfc5280.asModule, Rfc5280.classes])

/-- `x['algorithm'] = (2, 5, 4, 3)`, the parameters not yet looked at. -/
def alg : Obj := after Rfc5280.AlgorithmIdentifier.call.ty .blank [.assign [0] (.leaf (.oid [2, 5, 4, 3]))]

-- C59: the parameters are read, the object is encoded, and it is not the same object
example : "rfc5280.AlgorithmIdentifier" ∉ absence ∧ (encObj false Rfc5280.AlgorithmIdentifier.call.ty alg).isSome = true ∧
    Looked Rfc5280.AlgorithmIdentifier.call.ty alg (after Rfc5280.AlgorithmIdentifier.call.ty alg [.read [1], .encode []]) ∧
    after Rfc5280.AlgorithmIdentifier.call.ty alg [.read [1], .encode []] ≠ alg := by
  refine ⟨by decide, by decide,   .step (.read [1]) (show safe _ _ _ = true by decide) rfl (.step (.encode []) (.inl rfl) rfl .nil), by decide⟩

/-- `x['notBefore']['utcTime'] = '200101000000Z'` and the like. -/
def validity : List Op :=
  [.assign [0, 0] (.leaf (.str "200101000000Z".toList)), .read [1, 1], .encode [0], .assign [1, 1] (.leaf (.str "20300101000000Z".toList))]

-- C60: an object that has been read and encoded while it was built
example : "rfc5280.Validity" ∉ conditional ∧ "rfc5280.Validity" ∉ Package.defective ∧
    (encObj false Rfc5280.Validity.call.ty (after Rfc5280.Validity.call.ty .blank validity)).isSome = true ∧
    Rfc5280.Validity.call.ty.faithful (.record (.ofList [.alt 0 (.str "200101000000Z".toList), .alt 1 (.str "20300101000000Z".toList)])) = true ∧
    Rfc5280.Validity.call.ty.value (after Rfc5280.Validity.call.ty .blank validity) =
      some (.record (.ofList [.alt 0 (.str "200101000000Z".toList), .alt 1 (.str "20300101000000Z".toList)])) := by
  decide +kernel

-- C60: a legal value
example : Rfc5280.Validity.call.ty.valid
    (.record (.ofList [.alt 0 (.str "200101000000Z".toList), .alt 1 (.str "20300101000000Z".toList)])) = true := by decide +kernel

-- C60: paths that part, an assignment, something found elsewhere
example : apart Rfc5280.Validity.call.ty [0, 0] [1] = true ∧
    (assignAt Rfc5280.Validity.call.ty .blank [0, 0] (.leaf (.str "200101000000Z".toList))).isSome = true ∧
    (look Rfc5280.Validity.call.ty .blank [1]).isSome = true := by decide +kernel

/-- A time. -/
def time : Obj := after Rfc5280.Time.call.ty .blank [.assign [0] (.leaf (.str "200101000000Z".toList))]

-- Looking whether a time is a GeneralizedTime destroys it
example : (encObj false Rfc5280.Time.call.ty time).isSome = true ∧ (readAt Rfc5280.Time.call.ty time [1]).isSome = true ∧
    encObj false Rfc5280.Time.call.ty (after Rfc5280.Time.call.ty time [.read [1]]) = none := by decide +kernel

/-- `x['digestAlgorithm']['algorithm'] = ...; x['signatureAlgorithm']['algorithm'] = ...` -/
def protection : Obj := after Rfc6211.CMSAlgorithmProtection.call.ty .blank
  [.assign [0, 0] (.leaf (.oid [2, 5, 4, 3])), .assign [1, 0] (.leaf (.oid [2, 5, 4, 3]))]

-- `absence_once`
example : (encodeAt Rfc6211.CMSAlgorithmProtection.call.ty protection []).isSome = true := by decide +kernel

-- `incomplete_left_out`
example : ∃ f t, (match Rfc5280.TBSCertificate.call.ty with | .seq _ _ cs => cs.get? 9 | _ => none) = some (f, t) ∧
    f.mode = .opt ∧ t.isValue (.fresh t) = false := by
  refine ⟨_, _, rfl, rfl, rfl⟩

end Examples

/-! ## What the constraints of the classes in `conditional` are worth -/

/-- A `SemanticsInformation` must have one of its components.  One that has none cannot be encoded, unless a component has been
read; then it can, and the decoder does not take it. -/
theorem read_satisfies : encObj false Rfc3739.SemanticsInformation.call.ty .blank = none ∧
    encObj false Rfc3739.SemanticsInformation.call.ty (after Rfc3739.SemanticsInformation.call.ty .blank [.read [0]]) = some [48, 0] ∧
    decode Rfc3739.SemanticsInformation.call.ty [48, 0] = none := by decide +kernel

end InMemory
end Props
end Verif
