import Verif.Gen.Package
import Verif.Py.Import
import Verif.Asn1.Codec

/-!
# The registries that the modules share

C23, C24 and C31: what importing the modules of the package, in any order, does
to the dictionaries from object identifiers to types.
-/

namespace Verif
namespace Props
namespace Registry

open Asn1 Py

/-! ## Tables -/

/-- All entries the 130 modules write, with the dictionary they write to. -/
def written : List (Py.Ident × Val × Ty) := Package.modules.flatMap Module.writes

/-- A number for a key; equal keys have equal numbers. -/
def code : Val → Nat
  | .oid l => l.foldl (fun n a => n * 1099511627776 + (a + 1)) 0
  | .int n => n.toNat
  | _ => 0

def sameIn (except : Nat → Val → Bool) : List (Py.Ident × Val × Ty) → Bool
  | [] => true
  | w :: ws =>
    ws.all (fun w' => !(Nat.beq (code w.2.1) (code w'.2.1)) || decide (w.2.2 = w'.2.2) || except w.1.idx w.2.1)
      && sameIn except ws

theorem sameIn_spec (ex : Nat → Val → Bool) : ∀ (l : List (Py.Ident × Val × Ty)), sameIn ex l = true →
    ∀ m k t t', (m, k, t) ∈ l → (m, k, t') ∈ l → ex m.idx k = false → t = t'
  | [], _, _, _, _, _, h, _, _ => by simp at h
  | w :: ws, h, m, k, t, t', h1, h2, hex => by
    simp only [sameIn, Bool.and_eq_true, List.all_eq_true] at h
    have use : ∀ a b, (m, k, a) = w → (m, k, b) ∈ ws → a = b := by
      intro a b ha hb
      have := h.1 _ hb
      rw [← ha] at this
      simpa [hex] using this
    rcases List.mem_cons.1 h1 with h1 | h1 <;> rcases List.mem_cons.1 h2 with h2 | h2
    · rw [← h1] at h2
      simpa using h2.symm
    · exact use t t' h1 h2
    · exact (use t' t h2 h1).symm
    · exact sameIn_spec ex ws h.2 m k t t' h1 h2 hex

/-- The keys that two modules of the package map to different types. -/
def contested : List (Py.Ident × Val) :=
  [(Py.map 4 "rfc5280.certificateAttributesMap", .oid [1, 3, 6, 1, 5, 5, 7, 9, 2]),
   (Py.map 4 "rfc5280.certificateAttributesMap", .oid [1, 3, 6, 1, 5, 5, 7, 9, 3]),
   (Py.map 4 "rfc5280.certificateAttributesMap", .oid [1, 3, 6, 1, 5, 5, 7, 10, 7]),
   (Py.map 4 "rfc5280.certificateAttributesMap", .oid [2, 5, 4, 65]),
   (Py.map 48 "rfc5280.certificateExtensionsMap", .oid [1, 3, 6, 1, 5, 5, 7, 1, 13]),
   (Py.map 3 "rfc5280.algorithmIdentifierMap", .oid [1, 2, 840, 10045, 2, 1])]

/-- As `contested`, by number. -/
def isContested (i : Nat) (k : Val) : Bool := contested.any (fun c => Nat.beq c.1.idx i && decide (c.2 = k))

theorem same_table : (List.range 147).all (fun i =>
    sameIn isContested (written.filter (fun w => Nat.beq w.1.idx i))) = true := by decide +kernel

theorem bound_table : written.all (fun w => Nat.blt w.1.idx 147) = true := by decide +kernel

/-- The dictionary an operation writes to. -/
def target : Effect → Py.Ident
  | .create m _ => m
  | .update m _ => m
  | .alias m _ => m

theorem name_table : Package.modules.all (fun m => m.effects.all (fun e =>
    contested.all (fun c => !(Nat.beq c.1.idx (target e).idx) || decide (c.1 = target e)))) = true := by decide +kernel

theorem writes_target (e : Effect) (m : Py.Ident) (k : Val) (t : Ty) (h : (m, k, t) ∈ e.writes) : target e = m := by
  cases e <;> simp only [Effect.writes, List.mem_map, Prod.mk.injEq] at h
  · obtain ⟨_, _, h, _⟩ := h; exact h
  · obtain ⟨_, _, h, _⟩ := h; exact h
  · simp at h

/-- Outside `contested`, all modules that write a key write the same type. -/
theorem agree (m : Py.Ident) (k : Val) (h : (m, k) ∉ contested) : Agree Package.modules m k := by
  intro t t' h1 h2
  have hc : isContested m.idx k = false := by
    cases hc : isContested m.idx k with
    | false => rfl
    | true =>
      refine absurd ?_ h
      obtain ⟨c, hc1, hc2⟩ := List.any_eq_true.1 hc
      simp only [Bool.and_eq_true, decide_eq_true_eq, Nat.beq_eq] at hc2
      obtain ⟨x, hx, hx2⟩ := List.mem_flatMap.1 h1
      obtain ⟨e, he, he2⟩ := List.mem_flatMap.1 hx2
      have ht := writes_target e m k t he2
      have := List.all_eq_true.1 (List.all_eq_true.1 (List.all_eq_true.1 name_table x hx) e he) c hc1
      rw [ht] at this
      simp only [hc2.1, Bool.or_eq_true, Bool.not_eq_true', decide_eq_true_eq] at this
      rcases this with this | this
      · simp at this
      · rw [← this, ← hc2.2]; exact hc1
  have hlt : m.idx < 147 := by
    have := List.all_eq_true.1 bound_table _ h1
    simpa [Nat.blt_eq] using this
  have h3 := List.all_eq_true.1 same_table m.idx (List.mem_range.2 hlt)
  exact sameIn_spec _ _ h3 m k t t' (List.mem_filter.2 ⟨h1, by simp⟩) (List.mem_filter.2 ⟨h2, by simp⟩) hc

def distinctNat : List Nat → Bool
  | [] => true
  | a :: l => l.all (fun b => !(Nat.beq a b)) && distinctNat l

theorem nodup_of_distinctNat : ∀ l : List Nat, distinctNat l = true → l.Nodup
  | [], _ => List.nodup_nil
  | a :: l, h => by
    simp only [distinctNat, Bool.and_eq_true, List.all_eq_true] at h
    refine List.nodup_cons.2 ⟨?_, nodup_of_distinctNat l h.2⟩
    intro ha
    have := h.1 a ha
    simp at this

theorem nodup_of_map {α β : Type} (f : α → β) (l : List α) (h : (l.map f).Nodup) : l.Nodup :=
  (List.pairwise_map.1 h).imp (fun hab e => hab (by rw [e]))

theorem created_table : distinctNat ((Package.modules.flatMap Module.creates).map (·.idx)) = true := by decide +kernel

/-- Every dictionary of the package is created in exactly one place. -/
theorem created_once : CreatedOnce Package.modules :=
  nodup_of_map (·.idx) _ (nodup_of_distinctNat _ created_table)

theorem ids_table : distinctNat (Package.modules.map (·.id.idx)) = true := by decide +kernel

theorem find_of_nodup : ∀ (l : List Module), (l.map (·.id.idx)).Nodup → ∀ m ∈ l,
    l.find? (fun x => x.id = m.id) = some m
  | [], _, m, hm => by simp at hm
  | a :: l, h, m, hm => by
    rw [List.map_cons, List.nodup_cons] at h
    rw [List.find?_cons]
    by_cases ha : a.id = m.id
    · simp only [ha, decide_true]
      rcases List.mem_cons.1 hm with hm | hm
      · rw [hm]
      · refine absurd ?_ h.1
        rw [ha]
        exact List.mem_map.2 ⟨m, hm, rfl⟩
    · simp only [ha, decide_false]
      rcases List.mem_cons.1 hm with hm | hm
      · rw [hm] at ha; exact absurd rfl ha
      · exact find_of_nodup l h.2 m hm

theorem ids_ok : ∀ m ∈ Package.modules, Package.modules.find? (fun x => x.id = m.id) = some m :=
  find_of_nodup _ (nodup_of_distinctNat _ ids_table)

/-! ## C31 -/

def targetsB (hv : Py.Ident → Bool) : List Effect → Bool
  | [] => true
  | .create m _ :: es => targetsB (fun x => decide (x = m) || hv x) es
  | .update m _ :: es => hv m && targetsB hv es
  | .alias _ t :: es => hv t && targetsB hv es

theorem targetsB_spec : ∀ (es : List Effect) (hv : Py.Ident → Bool) (P : Py.Ident → Prop), (∀ x, hv x = true → P x) →
    targetsB hv es = true → Targets P es
  | [], _, _, _, _ => trivial
  | .create m _ :: es, hv, P, hp, h => by
    simp only [targetsB] at h
    refine targetsB_spec es _ _ ?_ h
    intro x hx
    simp only [Bool.or_eq_true, decide_eq_true_eq] at hx
    exact hx.imp id (hp x)
  | .update m _ :: es, hv, P, hp, h => by
    simp only [targetsB, Bool.and_eq_true] at h
    exact ⟨hp m h.1, targetsB_spec es hv P hp h.2⟩
  | .alias _ t :: es, hv, P, hp, h => by
    simp only [targetsB, Bool.and_eq_true] at h
    exact ⟨hp t h.1, targetsB_spec es hv P hp h.2⟩

theorem imports_table : Package.modules.all (fun m => m.imports.all (fun n =>
    Nat.blt n.idx m.id.idx && Package.modules.any (fun x => decide (x.id = n)))) = true := by decide +kernel

theorem targets_table : Package.modules.all (fun m => targetsB (fun d =>
    Package.modules.any (fun x => m.imports.any (fun i => decide (i = x.id)) && x.creates.any (fun c => decide (c = d))))
    m.effects) = true := by decide +kernel

/-- The modules can be imported: no cycle, nothing missing. -/
theorem sane : Sane Package.modules where
  ids := ids_ok
  imports := by
    intro m hm n hn
    have := List.all_eq_true.1 (List.all_eq_true.1 imports_table m hm) n hn
    simp only [Bool.and_eq_true, List.any_eq_true, decide_eq_true_eq, Nat.blt_eq] at this
    exact this
  targets := by
    intro m hm
    refine targetsB_spec _ _ _ ?_ (List.all_eq_true.1 targets_table m hm)
    intro d hd
    obtain ⟨x, hx, h⟩ := List.any_eq_true.1 hd
    simp only [Bool.and_eq_true, List.any_eq_true, decide_eq_true_eq] at h
    obtain ⟨⟨i, hi, hix⟩, c, hc, hcd⟩ := h
    exact ⟨x, hx, by rw [← hix]; exact hi, by rw [← hcd]; exact hc⟩

theorem rank_table : Package.modules.all (fun m => Nat.blt m.id.idx 130) = true := by decide +kernel

/-- C31: a program that imports modules of the package, any of them in any order, never fails in
a cyclic or missing import or on a missing dictionary, and ends up with all of them loaded. -/
theorem import_ok (ns : List Py.Ident) (hn : ∀ n ∈ ns, ∃ m ∈ Package.modules, m.id = n) :
    ∃ s, importAll Package.modules 130 ns .start = some s ∧ ∀ n ∈ ns, n ∈ s.loaded :=
  importAll_ok sane 130 (fun m hm => by
    have := List.all_eq_true.1 rank_table m hm
    simpa [Nat.blt_eq] using this) ns hn

-- all of them at once
example : ∃ s, importAll Package.modules 130 (Package.modules.map (·.id)) .start = some s ∧
    ∀ m ∈ Package.modules, m.id ∈ s.loaded := by
  obtain ⟨s, h1, h2⟩ := import_ok (Package.modules.map (·.id)) (fun n hn => by
    obtain ⟨m, hm, h⟩ := List.mem_map.1 hn
    exact ⟨m, hm, h⟩)
  exact ⟨s, h1, fun m hm => h2 _ (List.mem_map.2 ⟨m, hm, rfl⟩)⟩

/-! ## C23 -/

/-- C23: two programs that import the same modules, in whatever order and however often, find the
same type under every key of every registry, except the keys in `contested`. -/
theorem order_irrelevant (fuel fuel' : Nat) (ns ns' : List Py.Ident) (s s' : State)
    (h : importAll Package.modules fuel ns .start = some s) (h' : importAll Package.modules fuel' ns' .start = some s')
    (hs : ∀ n, n ∈ ns ↔ n ∈ ns') (m : Py.Ident) (k : Val) (hk : (m, k) ∉ contested) : s.get m k = s'.get m k := by
  refine order_independent created_once fuel fuel' ns ns' s s' h h' ?_ m k (agree m k hk)
  intro n
  rw [importAll_loaded _ _ _ _ ids_ok h, importAll_loaded _ _ _ _ ids_ok h']
  constructor
  · rintro ⟨x, hx, hr⟩; exact ⟨x, (hs x).1 hx, hr⟩
  · rintro ⟨x, hx, hr⟩; exact ⟨x, (hs x).2 hx, hr⟩

/-- C23: more generally, it only matters which modules are reachable. -/
theorem order_irrelevant_reach (fuel fuel' : Nat) (ns ns' : List Py.Ident) (s s' : State)
    (h : importAll Package.modules fuel ns .start = some s) (h' : importAll Package.modules fuel' ns' .start = some s')
    (hs : ∀ x, (∃ n ∈ ns, Reach Package.modules n x) ↔ ∃ n ∈ ns', Reach Package.modules n x)
    (m : Py.Ident) (k : Val) (hk : (m, k) ∉ contested) : s.get m k = s'.get m k := by
  refine order_independent created_once fuel fuel' ns ns' s s' h h' ?_ m k (agree m k hk)
  intro n
  rw [importAll_loaded _ _ _ _ ids_ok h, importAll_loaded _ _ _ _ ids_ok h']
  exact hs n

/-- C23: any reordering of the imports of a program runs, and gives the same registries. -/
theorem reordered (ns ns' : List Py.Ident) (hn : ∀ n ∈ ns, ∃ m ∈ Package.modules, m.id = n) (hp : ns.Perm ns') :
    ∃ s s', importAll Package.modules 130 ns .start = some s ∧ importAll Package.modules 130 ns' .start = some s' ∧
      ∀ m k, (m, k) ∉ contested → s.get m k = s'.get m k := by
  obtain ⟨s, h1, _⟩ := import_ok ns hn
  obtain ⟨s', h2, _⟩ := import_ok ns' (fun n h => hn n (hp.mem_iff.2 h))
  exact ⟨s, s', h1, h2, order_irrelevant 130 130 ns ns' s s' h1 h2 (fun _ => hp.mem_iff)⟩

/-! ## C24 -/

/-- C24: importing further modules keeps every entry a registry already has, except under the
keys in `contested`. -/
theorem entries_stay (fuel fuel' : Nat) (ns ns' : List Py.Ident) (s s' : State)
    (h : importAll Package.modules fuel ns .start = some s) (h' : importAll Package.modules fuel' ns' s = some s')
    (m : Py.Ident) (k : Val) (t : Ty) (hk : (m, k) ∉ contested) (hg : s.get m k = some t) : s'.get m k = some t :=
  entry_stays created_once fuel fuel' ns ns' s s' h h' m k t (agree m k hk) hg

/-- C24: contested or not, a key that is bound stays bound. -/
theorem keys_stay (fuel fuel' : Nat) (ns ns' : List Py.Ident) (s s' : State)
    (h : importAll Package.modules fuel ns .start = some s) (h' : importAll Package.modules fuel' ns' s = some s')
    (m : Py.Ident) (k : Val) (hg : s.get m k ≠ none) : s'.get m k ≠ none := by
  obtain ⟨a, ta⟩ := importAll_trace _ fuel ns _ _ h
  obtain ⟨b, tb⟩ := importAll_trace _ fuel' ns' _ _ h'
  cases hs : s.get m k with
  | none => exact absurd hs hg
  | some t =>
    refine (reach_facts created_once (ta.append tb)).2 m k t ?_
    rw [List.flatMap_append]
    exact List.mem_append_left _ ((reach_facts created_once ta).1 m k t hs)

/-- C24: what a module registers is there once the module is loaded: under an uncontested key
the type it registered, under any other at least some type. -/
theorem registered (fuel : Nat) (ns : List Py.Ident) (s : State)
    (h : importAll Package.modules fuel ns .start = some s) (x : Module) (hx : x ∈ Package.modules)
    (hl : x.id ∈ s.loaded) (m : Py.Ident) (k : Val) (t : Ty) (hw : (m, k, t) ∈ x.writes) :
    s.get m k ≠ none ∧ ((m, k) ∉ contested → s.get m k = some t) := by
  obtain ⟨a, ta⟩ := importAll_trace _ fuel ns _ _ h
  obtain ⟨r1, r2⟩ := reach_facts created_once ta
  have hxa : x ∈ a := by
    rcases (ta.loaded x.id).1 hl with h1 | h1
    · simp [State.start] at h1
    · obtain ⟨y, hy, hyx⟩ := List.mem_map.1 h1
      have e := ta.found y hy
      rw [hyx, ids_ok x hx] at e
      rw [Option.some.inj e]; exact hy
  have hmem : (m, k, t) ∈ a.flatMap Module.writes := List.mem_flatMap.2 ⟨x, hxa, hw⟩
  have h1 := r2 m k t hmem
  refine ⟨h1, ?_⟩
  intro hk
  cases hs : s.get m k with
  | none => exact absurd hs h1
  | some t' =>
    have up : ∀ w, w ∈ a.flatMap Module.writes → w ∈ Package.modules.flatMap Module.writes := by
      intro w hw
      obtain ⟨y, hy, hw⟩ := List.mem_flatMap.1 hw
      exact List.mem_flatMap.2 ⟨y, ta.mem y hy, hw⟩
    rw [agree m k hk t t' (up _ hmem) (up _ (r1 m k t' hs))]

/-- C24: and nothing else is: an entry comes from a loaded module. -/
theorem registered_by (fuel : Nat) (ns : List Py.Ident) (s : State)
    (h : importAll Package.modules fuel ns .start = some s) (m : Py.Ident) (k : Val) (t : Ty)
    (hg : s.get m k = some t) : ∃ x ∈ Package.modules, x.id ∈ s.loaded ∧ (m, k, t) ∈ x.writes := by
  obtain ⟨a, ta⟩ := importAll_trace _ fuel ns _ _ h
  obtain ⟨x, hx, hw⟩ := List.mem_flatMap.1 ((reach_facts created_once ta).1 m k t hg)
  exact ⟨x, ta.mem x hx, (ta.loaded x.id).2 (Or.inr (List.mem_map.2 ⟨x, hx, rfl⟩)), hw⟩

/-! ## The contested keys

For each of them, a program for which C23 or C24 fails. -/

/-- What a program that imports `ns` decodes `b` to, with the type found under `k` in `m`. -/
def decodeUnder (ns : List Py.Ident) (m : Py.Ident) (k : Val) (b : Bytes) : Option Val :=
  (importAll Package.modules 130 ns .start).bind (fun s => (s.get m k).bind (fun t => (decode t b).map Prod.fst))

def certificateAttributesMap : Py.Ident := Py.map 4 "rfc5280.certificateAttributesMap"
def certificateExtensionsMap : Py.Ident := Py.map 48 "rfc5280.certificateExtensionsMap"
def algorithmIdentifierMap : Py.Ident := Py.map 3 "rfc5280.algorithmIdentifierMap"

/-- A list of one 33-octet SSID. -/
def longSSID : Bytes := [0x30, 35, 4, 33] ++ List.replicate 33 0x61

/-- The wlanSSID extension: an over-long SSID is accepted if rfc4334 is imported last, refused if
rfc3770 is.  rfc3770 limits the length to 32, rfc4334 loses the limit. -/
theorem wlanSSID_extension_order :
    decodeUnder [Rfc3770.asModule.id, Rfc4334.asModule.id] certificateExtensionsMap (.oid [1, 3, 6, 1, 5, 5, 7, 1, 13])
      longSSID = some (.list (.cons (.octets (List.replicate 33 0x61)) .nil)) ∧
    decodeUnder [Rfc4334.asModule.id, Rfc3770.asModule.id] certificateExtensionsMap (.oid [1, 3, 6, 1, 5, 5, 7, 1, 13])
      longSSID = none := by decide +kernel

/-- The wlanSSID attribute, likewise. -/
theorem wlanSSID_attribute_order :
    decodeUnder [Rfc3770.asModule.id, Rfc4334.asModule.id] certificateAttributesMap
      (.oid [1, 3, 6, 1, 5, 5, 7, 10, 7]) longSSID = some (.list (.cons (.octets (List.replicate 33 0x61)) .nil)) ∧
    decodeUnder [Rfc4334.asModule.id, Rfc3770.asModule.id] certificateAttributesMap
      (.oid [1, 3, 6, 1, 5, 5, 7, 10, 7]) longSSID = none := by decide +kernel

/-- A 300-character PrintableString. -/
def longText : Bytes := [0x13, 0x82, 1, 44] ++ List.replicate 300 0x61

/-- The placeOfBirth attribute: 300 characters are accepted if rfc3739 is imported last, refused
if rfc2985 is. -/
theorem placeOfBirth_order :
    decodeUnder [Rfc2985.asModule.id, Rfc3739.asModule.id] certificateAttributesMap
      (.oid [1, 3, 6, 1, 5, 5, 7, 9, 2]) longText ≠ none ∧
    decodeUnder [Rfc3739.asModule.id, Rfc2985.asModule.id] certificateAttributesMap
      (.oid [1, 3, 6, 1, 5, 5, 7, 9, 2]) longText = none := by decide +kernel

/-- A 200-character PrintableString. -/
def pseudonym200 : Bytes := [0x13, 0x81, 200] ++ List.replicate 200 0x61

/-- The pseudonym attribute: importing rfc2985 replaces the entry of rfc5280 and makes longer
values acceptable. -/
theorem pseudonym_overridden :
    decodeUnder [Rfc5280.asModule.id] certificateAttributesMap (.oid [2, 5, 4, 65]) pseudonym200 = none ∧
    decodeUnder [Rfc5280.asModule.id, Rfc2985.asModule.id] certificateAttributesMap (.oid [2, 5, 4, 65]) pseudonym200
      ≠ none := by decide +kernel

/-- The parameters of an EC public key: importing rfc5480 replaces the entry of rfc3279 and makes
`implicitlyCA` undecodable. -/
theorem ecPublicKey_overridden :
    decodeUnder [Rfc3279.asModule.id] algorithmIdentifierMap (.oid [1, 2, 840, 10045, 2, 1]) [5, 0]
      = some (.alt 2 .null) ∧
    decodeUnder [Rfc3279.asModule.id, Rfc5480.asModule.id] algorithmIdentifierMap (.oid [1, 2, 840, 10045, 2, 1]) [5, 0]
      = none := by decide +kernel

/-- The gender attribute: rfc3739 and rfc2985 register different types, but a decoder cannot tell
them apart, so here the order does not matter after all. -/
theorem gender_equivalent : Rfc3739.Gender.call.ty ≠ Rfc2985.GenderString.call.ty ∧
    ∀ b, decode Rfc3739.Gender.call.ty b = decode Rfc2985.GenderString.call.ty b := by
  refine ⟨by decide +kernel, ?_⟩
  intro b
  have e1 : Rfc3739.Gender.call.ty = .prim (.str .ascii) ⟨[⟨.universal, false, 19⟩],
      .inter (.cons (.size (.fin 1) (.fin 1)) (.cons (.single [.str ['M'], .str ['F'], .str ['m'], .str ['f']]) .nil)),
      []⟩ := by decide +kernel
  have e2 : Rfc2985.GenderString.call.ty = .prim (.str .ascii) ⟨[⟨.universal, false, 19⟩],
      .single [.str ['M'], .str ['F'], .str ['m'], .str ['f']], []⟩ := by decide +kernel
  have key : ∀ v : Val, Constraint.ok (.inter (.cons (.size (.fin 1) (.fin 1))
      (.cons (.single [.str ['M'], .str ['F'], .str ['m'], .str ['f']]) .nil))) (.simple v) =
      Constraint.ok (.single [.str ['M'], .str ['F'], .str ['m'], .str ['f']]) (.simple v) := by
    intro v
    by_cases hv : v ∈ [Val.str ['M'], .str ['F'], .str ['m'], .str ['f']]
    · simp only [List.mem_cons, List.not_mem_nil, or_false] at hv
      rcases hv with h | h | h | h <;> subst h <;> decide
    · have h0 : [Val.str ['M'], .str ['F'], .str ['m'], .str ['f']].contains v = false := by simpa using hv
      simp only [Constraint.ok, Constraints.all, h0, Bool.false_and, Bool.and_false]
  rw [e1, e2]
  unfold decode
  simp only [decT, decPrimT]
  simp only [key]

end Registry
end Props
end Verif
