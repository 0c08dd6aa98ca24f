import Verif.Asn1.OpenWhileEntire
import Verif.Asn1.OpenWhileFail
import Verif.Props.Open
import Verif.Props.Threads

/-!
# C62: decoding with open types before, during and after further imports
-/

namespace Verif
namespace Props
namespace While

open Asn1 Py Open

/-! ## Before and after -/

/-- Contested keys that are bound in `s` are bound to the same types in `s'`. -/
def Settled (s s' : State) : Prop := ∀ c ∈ Registry.contested, s.get c.1 c.2 = none ∨ s.get c.1 c.2 = s'.get c.1 c.2

/-- `s'` is reached from `s` by importing further modules. -/
def Further (s s' : State) : Prop := ∃ fuel fuel' ns ns', importAll Package.modules fuel ns .start = some s ∧
  importAll Package.modules fuel' ns' s = some s'

theorem kept {s s' : State} (h : Further s s') (hc : Settled s s') {m : Py.Ident} {k : Val} {u : Ty} (hu : s.get m k = some u) :
    s'.get m k = some u := by
  obtain ⟨fuel, fuel', ns, ns', h1, h2⟩ := h
  by_cases hk : (m, k) ∈ Registry.contested
  · rcases hc (m, k) hk with hn | he
    · simp only at hn; rw [hu] at hn; simp at hn
    · simp only at he; rw [← he]; exact hu
  · exact Registry.entries_stay fuel fuel' ns ns' s s' h1 h2 m k u hk hu

theorem later {s s' : State} (h : Further s s') (hc : Settled s s') : Later (Registry.looks s.get) (Registry.looks s'.get) := by
  intro m k u r h1 h2
  simp only [Registry.looks, Nd.lift] at h1 h2
  rw [h2]
  exact kept h hc h1.symm

/-- C62: after further imports a message is decoded to the same, except that in some open type fields octets may have been
replaced by what they mean. -/
theorem grows {s s' : State} (h : Further s s') (hc : Settled s s') (t : Ty) (b : Bytes) (w w' : OVal) (r r' : Bytes)
    (hw : decodeOpen s t b = some (w, r)) (hw' : decodeOpen s' t b = some (w', r')) : Refines w w' ∧ r = r' := by
  refine wdecode_more (later h hc) (b.length + 1) t b w w' r r' ?_ ?_
  · rw [wdecode_steady]; exact hw.symm
  · rw [wdecode_steady]; exact hw'.symm

/-- C62: what can be decoded after further imports could be decoded before. -/
theorem no_new_success {s s' : State} (h : Further s s') (hc : Settled s s') (t : Ty) (b : Bytes) (hw' : decodeOpen s' t b ≠ none) :
    decodeOpen s t b ≠ none := by
  obtain ⟨p, hp⟩ := Option.ne_none_iff_exists'.1 hw'
  intro hn
  refine wdecode_safe (later h hc) (b.length + 1) t b p ?_ ?_
  · rw [wdecode_steady]; exact hp.symm
  · rw [wdecode_steady]; exact hn.symm

theorem written_governed {m : Py.Ident} {k : Val} {u : Ty} (h : (m, k, u) ∈ Registry.written) : u.each Ty.governed = true :=
  List.all_eq_true.1 registered_governed _ h

/-- C62: a message in which all open type fields are decoded is decoded to the same after further imports. -/
theorem stays {s s' : State} (h : Further s s') (hc : Settled s s') (c : String × Ty) (hm : c ∈ Package.types) (hu : c.1 ∉ ungoverned)
    (b r : Bytes) (w : OVal) (hw : decodeOpen s c.2 b = some (w, r)) (he : w.entire c.2 = true) : decodeOpen s' c.2 b = some (w, r) := by
  have hs : Reached s := by
    obtain ⟨fuel, _, ns, _, h1, _⟩ := h
    exact ⟨fuel, ns, h1⟩
  have := wdecode_entire (D := s.get) (L := Registry.looks s'.get) (fun m k u q h1 h2 => by
      rw [h2]; exact kept h hc h1) (fun m k u hk => written_governed (reached_written hs hk)) (b.length + 1) (b.length + 1) c.2 b w r
    (Nat.le_refl _) (governed_of_mem hm hu) hw he
  rw [wdecode_steady] at this
  exact this _ rfl

/-! ## During -/

/-- A moment between two others. -/
def Between (w₀ w₁ w : World) : Prop := Steps Package.modules w₀ w ∧ Steps Package.modules w w₁

/-- What a decoder finds that runs between two moments while other threads import modules. -/
def looks (w₀ w₁ : World) : Looks := fun m k r => ∃ w, Between w₀ w₁ w ∧ w.get m k = r

/-- `decode(b, asn1Spec=t, decodeOpenTypes=True)` at one moment. -/
def decodeAt (w : World) (t : Ty) (b : Bytes) : Option (OVal × Bytes) := odecode w.get (b.length + 1) t b

/-- Contested keys are not bound otherwise meanwhile. -/
def Calm (w₀ w₁ : World) : Prop := ∀ c ∈ Registry.contested, ∀ w, Between w₀ w₁ w → w.get c.1 c.2 = none ∨ w.get c.1 c.2 = w₁.get c.1 c.2

theorem steps_trans {ms : List Module} {a b c : World} (h : Steps ms a b) (h' : Steps ms b c) : Steps ms a c := by
  induction h' with
  | nil => exact h
  | snoc i _ hs ih => exact .snoc i ih hs

/-- What threads import that begin with modules of `S`, if modules of `S` import only modules of `S`. -/
theorem reach_closed {S : List Py.Ident} (hS : ∀ m ∈ Package.modules, m.id ∈ S → ∀ i ∈ m.imports, i ∈ S) {n x : Py.Ident}
    (h : Reach Package.modules n x) (hn : n ∈ S) : x ∈ S := by
  induction h with
  | refl => exact hn
  | step m i b hm hi _ ih => exact ih (hS m hm hn i hi)

/-- What the modules of `S` register for contested keys. -/
def contestedWrites (S : List Py.Ident) : List (Py.Ident × Val × Ty) :=
  (Package.modules.filter (fun m => S.any (fun n => Nat.beq n.idx m.id.idx))).flatMap
    (fun m => m.writes.filter (fun a => Registry.isContested a.1.idx a.2.1))

theorem mem_contestedWrites {S : List Py.Ident} {x : Module} (hx : x ∈ Package.modules) (hs : x.id ∈ S) {c : Py.Ident × Val}
    (hc : c ∈ Registry.contested) {u : Ty} (hw : (c.1, c.2, u) ∈ x.writes) : (c.1, c.2, u) ∈ contestedWrites S := by
  refine List.mem_flatMap.2 ⟨x, List.mem_filter.2 ⟨hx, List.any_eq_true.2 ⟨_, hs, Nat.beq_refl _⟩⟩, List.mem_filter.2 ⟨hw, ?_⟩⟩
  exact List.any_eq_true.2 ⟨c, hc, by simp⟩

/-- `Calm` holds if the modules that are imported agree about the contested keys. -/
theorem calm_of_closed {ps : List (List Py.Ident)} (hp : Threads.Ours ps) {w₀ w₁ : World} (h₀ : Threads.Reachable ps w₀)
    (S : List Py.Ident) (hS : ∀ m ∈ Package.modules, m.id ∈ S → ∀ i ∈ m.imports, i ∈ S) (hi : ∀ p ∈ ps, ∀ n ∈ p, n ∈ S)
    (ha : ∀ a ∈ contestedWrites S, ∀ b ∈ contestedWrites S, a.1.idx = b.1.idx → a.2.1 = b.2.1 → a.2.2 = b.2.2) : Calm w₀ w₁ := by
  intro c hc w hb
  cases hw : w.get c.1 c.2 with
  | none => exact .inl rfl
  | some u =>
    refine .inr ?_
    have hr := steps_trans h₀ hb.1
    obtain ⟨u', hu'⟩ := Option.ne_none_iff_exists'.1 (Threads.entries_stay hp hr hb.2 c.1 c.2 u hw).1
    obtain ⟨x, hx, ⟨p, hpp, n, hn, hxr⟩, hxw⟩ := Threads.only_registered hp hr c.1 c.2 u hw
    obtain ⟨y, hy, ⟨p', hpp', n', hn', hyr⟩, hyw⟩ := Threads.only_registered hp (steps_trans hr hb.2) c.1 c.2 u' hu'
    rw [hu']
    exact congrArg some (ha _ (mem_contestedWrites hx (reach_closed hS hxr (hi p hpp n hn)) hc hxw) _
      (mem_contestedWrites hy (reach_closed hS hyr (hi p' hpp' n' hn')) hc hyw) rfl rfl)

section

variable {ps : List (List Py.Ident)} (hp : Threads.Ours ps) {w₀ w₁ : World} (h₀ : Threads.Reachable ps w₀)
include hp h₀

theorem stay {w w' : World} (h : Steps Package.modules w₀ w) (h' : Steps Package.modules w w') (hb : Steps Package.modules w' w₁)
    (hc : Calm w₀ w₁) {m : Py.Ident} {k : Val} {u : Ty} (hu : w.get m k = some u) : w'.get m k = some u := by
  have hr : Threads.Reachable ps w := steps_trans h₀ h
  obtain ⟨h1, h2⟩ := Threads.entries_stay hp hr h' m k u hu
  by_cases hk : (m, k) ∈ Registry.contested
  · have e1 := hc (m, k) hk w ⟨h, steps_trans h' hb⟩
    have e2 := hc (m, k) hk w' ⟨steps_trans h h', hb⟩
    simp only at e1 e2
    rcases e1 with e1 | e1
    · rw [hu] at e1; simp at e1
    · rcases e2 with e2 | e2
      · exact absurd e2 h1
      · rw [e2, ← e1, hu]
  · exact h2 hk

omit h₀ in
theorem written_of {w : World} (h : Threads.Reachable ps w) {m : Py.Ident} {k : Val} {u : Ty} (hu : w.get m k = some u) :
    (m, k, u) ∈ Registry.written := by
  obtain ⟨x, hx, _, hw⟩ := Threads.only_registered hp h m k u hu
  exact List.mem_flatMap.2 ⟨x, hx, hw⟩

omit h₀ in
theorem depth {w : World} (h : Threads.Reachable ps w) (c : String × Ty) (hm : c ∈ Package.types) (b : Bytes) {n : Nat}
    (hn : b.length < n) : odecode w.get n c.2 b = decodeAt w c.2 b :=
  odecode_fuel (fun _ _ _ hu => List.all_eq_true.1 registered_openOk _ (written_of hp h hu)) b.length c.2 b n (b.length + 1)
    (openOk_of_mem hm) (Nat.le_refl _) hn (Nat.lt_succ_self _)

omit hp h₀ in
/-- C62: while other threads import modules, a message is decoded to a meaning of it: what the plain decoder returns, with some
of the open type fields decoded. -/
theorem during_meaning (n : Nat) (t : Ty) (b r : Bytes) (w : OVal) (h : wdecode (looks w₀ w₁) n t b (some (w, r))) :
    ∃ v v', decode t b = some (v, r) ∧ v'.plain? = some v ∧ Refines v' w := wdecode_meant _ n t b w r h

/-- C62: the result says at least what decoding would have said at the beginning. -/
theorem during_after (hc : Calm w₀ w₁) (c : String × Ty) (hm : c ∈ Package.types) (b : Bytes) (n : Nat)
    (hn : b.length < n) (w w' : OVal) (r r' : Bytes) (h : decodeAt w₀ c.2 b = some (w, r))
    (h' : wdecode (looks w₀ w₁) n c.2 b (some (w', r'))) : Refines w w' ∧ r = r' := by
  refine wdecode_more (L := Registry.looks w₀.get) ?_ n c.2 b w w' r r' ?_ h'
  · rintro m k u q hq ⟨x, hx, rfl⟩
    exact stay hp h₀ (.nil _) hx.1 hx.2 hc hq.symm
  · rw [wdecode_steady, depth hp h₀ c hm b hn]; exact h.symm

/-- C62: and no more than decoding says at the end. -/
theorem during_before (hc : Calm w₀ w₁) (h₁ : Steps Package.modules w₀ w₁) (c : String × Ty) (hm : c ∈ Package.types) (b : Bytes) (n : Nat)
    (hn : b.length < n) (w w' : OVal) (r r' : Bytes) (h : wdecode (looks w₀ w₁) n c.2 b (some (w, r)))
    (h' : decodeAt w₁ c.2 b = some (w', r')) : Refines w w' ∧ r = r' := by
  refine wdecode_more (L' := Registry.looks w₁.get) ?_ n c.2 b w w' r r' h ?_
  · rintro m k u q ⟨x, hx, he⟩ hq
    rw [hq]
    exact stay hp h₀ hx.1 hx.2 (.nil _) hc he
  · rw [wdecode_steady, depth hp (steps_trans h₀ h₁) c hm b hn]; exact h'.symm

/-- C62: it raises nothing if decoding succeeds at the end. -/
theorem during_safe (hc : Calm w₀ w₁) (h₁ : Steps Package.modules w₀ w₁) (c : String × Ty) (hm : c ∈ Package.types) (b : Bytes) (n : Nat)
    (hn : b.length < n) (h' : decodeAt w₁ c.2 b ≠ none) : ¬ wdecode (looks w₀ w₁) n c.2 b none := by
  obtain ⟨p, hp'⟩ := Option.ne_none_iff_exists'.1 h'
  refine wdecode_safe (L' := Registry.looks w₁.get) ?_ n c.2 b p ?_
  · rintro m k u q ⟨x, hx, he⟩ hq
    rw [hq]
    exact stay hp h₀ hx.1 hx.2 (.nil _) hc he
  · rw [wdecode_steady, depth hp (steps_trans h₀ h₁) c hm b hn]; exact hp'.symm

/-- C62: if at the beginning all open type fields are decoded, imports of other threads make no difference. -/
theorem during_stays (hc : Calm w₀ w₁) (c : String × Ty) (hm : c ∈ Package.types) (hu : c.1 ∉ ungoverned) (b : Bytes) (n : Nat)
    (hn : b.length < n) (w : OVal) (r : Bytes) (h : decodeAt w₀ c.2 b = some (w, r)) (he : w.entire c.2 = true)
    (q : Option (OVal × Bytes)) (hq : wdecode (looks w₀ w₁) n c.2 b q) : q = some (w, r) :=
  wdecode_entire (D := w₀.get) (L := looks w₀ w₁) (fun m k u q h1 h2 => by
      obtain ⟨x, hx, rfl⟩ := h2
      exact stay hp h₀ (.nil _) hx.1 hx.2 hc h1) (fun m k u hk => written_governed (written_of hp h₀ hk)) (b.length + 1) n c.2 b w r
    hn (governed_of_mem hm hu) h he q hq

end

/-! ## Importing may add to a result, or make decoding fail -/

/-- C62: the reverse of `no_new_success` does not hold. -/
theorem may_fail_after : ∃ s s' b, Further s s' ∧ Settled s s' ∧ decodeOpen s algorithmIdentifier b ≠ none ∧
    decodeOpen s' algorithmIdentifier b = none := by
  have h : (importAll Package.modules 130 [Rfc5280.asModule.id] .start).isSome = true := by decide +kernel
  obtain ⟨s, hs⟩ := Option.isSome_iff_exists.1 h
  have h' : ((importAll Package.modules 130 [Rfc5280.asModule.id] .start).bind (importAll Package.modules 130 [Rfc4357.asModule.id])).isSome = true := by
    decide +kernel
  rw [hs, Option.bind_some] at h'
  obtain ⟨s', hs'⟩ := Option.isSome_iff_exists.1 h'
  have hc : (importAll Package.modules 130 [Rfc5280.asModule.id] .start).all (fun s => (importAll Package.modules 130 [Rfc4357.asModule.id] s).all
      (fun s' => Registry.contested.all (fun c => decide (s.get c.1 c.2 = none ∨ s.get c.1 c.2 = s'.get c.1 c.2)))) = true := by
    decide +kernel
  have h1 : (importAll Package.modules 130 [Rfc5280.asModule.id] .start).all (fun s => (decodeOpen s algorithmIdentifier gost2001).isSome) = true := by
    decide +kernel
  have h2 : ((importAll Package.modules 130 [Rfc5280.asModule.id] .start).bind (importAll Package.modules 130 [Rfc4357.asModule.id])).all
      (fun s => (decodeOpen s algorithmIdentifier gost2001).isNone) = true := by decide +kernel
  rw [hs, Option.all_some] at hc h1
  rw [hs', Option.all_some] at hc
  rw [hs, Option.bind_some, hs', Option.all_some] at h2
  refine ⟨s, s', gost2001, ⟨130, 130, _, _, hs, hs'⟩, fun c hm => ?_, ?_, ?_⟩
  · exact of_decide_eq_true (List.all_eq_true.1 hc c hm)
  · intro hn
    rw [hn] at h1
    simp at h1
  · simpa using h2

/-! ## Two looks at the same key
-/

/-- Two threads. -/
def imports : List (List Py.Ident) := [[Rfc5652.asModule.id], [Rfc4055.asModule.id]]

/-- The first thread is done, the second has not begun. -/
def first : World := runSchedule Package.modules (.start imports) (List.replicate 100 0)

/-- Both are done. -/
def second : World := runSchedule Package.modules first (List.replicate 100 1)

/-- Twice sha-256 in a SET OF AlgorithmIdentifier. -/
def twice : Bytes := [0x31, 30] ++ sha256Null ++ sha256Null

def digestAlgorithms : Ty := Rfc5652.DigestAlgorithmIdentifiers.call.ty

def algorithmMap : Py.Ident := ⟨3, "rfc5280.algorithmIdentifierMap"⟩

def sha256 (w : OVal) : OVal := .record (.cons (.leaf (.oid [2, 16, 840, 1, 101, 3, 4, 2, 1])) (.cons w .nil))

def known : OVal := sha256 (.opened Py.univ.Null.call.ty (.leaf .null))

def unknown : OVal := sha256 (.leaf (.octets [5, 0]))

theorem digest_eq : digestAlgorithms = .of true { tags := [⟨.universal, true, 17⟩], spec := .inter .nil, named := [] } algorithmIdentifier := by decide +kernel

theorem alg_eq : algorithmIdentifier = .seq false { tags := [⟨.universal, true, 16⟩], spec := .inter .nil, named := [] }
      (.cons { name := "algorithm", mode := .req, openType := none }
        (.prim .oid { tags := [⟨.universal, false, 6⟩], spec := .inter .nil, named := [] })
        (.cons { name := "parameters", mode := .opt, openType := some ⟨"algorithm", algorithmMap⟩ }
          (.prim .any { tags := [], spec := .inter .nil, named := [] }) .nil)) := by decide +kernel

def sha256Item : TLV := ⟨.universal, true, 16, sha256Null.drop 2, sha256Null⟩

theorem item {L : Looks} {F} {o w} (h : L algorithmMap (.oid [2, 16, 840, 1, 101, 3, 4, 2, 1]) o)
    (hw : wopenLook F (.leaf (.octets [5, 0])) o (some w)) : wdecT L F algorithmIdentifier sha256Item (some (sha256 w)) := by
  rw [alg_eq]
  simp only [wdecT]
  refine Or.inr ⟨[⟨.universal, false, 6, [0x60, 0x86, 0x48, 1, 0x65, 3, 4, 2, 1], (sha256Null.drop 2).take 11⟩, ⟨.universal, false, 5, [], [5, 0]⟩],
    by show some _ = _; decide +kernel, ?_⟩
  simp only [Bool.false_eq_true, if_false]
  refine Or.inr ⟨.cons (.leaf (.oid [2, 16, 840, 1, 101, 3, 4, 2, 1])) (.cons (.leaf (.octets [5, 0])) .nil), ?_, ?_⟩
  · rw [wdecComps, if_pos (by rfl)]
    refine Or.inr ⟨.leaf (.oid [2, 16, 840, 1, 101, 3, 4, 2, 1]), by show some _ = _; decide +kernel, Or.inr ⟨.cons (.leaf (.octets [5, 0])) .nil, ?_, rfl⟩⟩
    rw [wdecComps, if_pos (by decide +kernel)]
    exact Or.inr ⟨.leaf (.octets [5, 0]), by show some _ = _; decide +kernel, Or.inr ⟨.nil, rfl, rfl⟩⟩
  · simp only [wfinish, Comps.noOpen, Option.isNone_none, Option.isNone_some, Bool.false_and, Bool.and_false, Bool.false_eq_true, if_false]
    refine Or.inr ⟨_, Or.inr ⟨_, rfl, Or.inr ⟨_, Or.inr ⟨w, ⟨o, h, hw⟩, Or.inr ⟨_, rfl, rfl⟩⟩, rfl⟩⟩, rfl⟩

theorem first_reachable : Threads.Reachable imports first := Threads.runSchedule_steps _ _ _ _ (.nil _)

theorem first_second : Steps Package.modules first second := Threads.runSchedule_steps _ _ _ _ (.nil _)

/-- C62: a decoder that runs meanwhile may decode one of two equal items and leave the other: a result that no state of the
dictionaries gives. -/
theorem mixed : wdecode (looks first second) 33 digestAlgorithms twice (some (.list (.ofList [unknown, known]), [])) ∧
    ∀ D n r, odecode D n digestAlgorithms twice ≠ some (.list (.ofList [unknown, known]), r) := by
  constructor
  · have h1 : looks first second algorithmMap (.oid [2, 16, 840, 1, 101, 3, 4, 2, 1]) none := ⟨first, ⟨.nil _, first_second⟩, by decide +kernel⟩
    have h2 : looks first second algorithmMap (.oid [2, 16, 840, 1, 101, 3, 4, 2, 1]) (some Py.univ.Null.call.ty) :=
      ⟨second, ⟨first_second, .nil _⟩, by decide +kernel⟩
    rw [digest_eq]
    simp only [wdecode]
    refine Or.inr ⟨(⟨.universal, true, 17, sha256Null ++ sha256Null, twice⟩, []), by show some _ = _; decide +kernel, Or.inr ⟨_, ?_, rfl⟩⟩
    simp only [wdecT]
    refine Or.inr ⟨[sha256Item, sha256Item], by show some _ = _; decide +kernel, Or.inr ⟨[unknown, known], ?_, rfl⟩⟩
    refine Or.inr ⟨_, item h1 rfl, Or.inr ⟨_, Or.inr ⟨_, item h2 ?_, Or.inr ⟨_, rfl, rfl⟩⟩, rfl⟩⟩
    refine Or.inr ⟨.leaf .null, Or.inr ⟨(.leaf .null, []), ?_, rfl⟩, rfl⟩
    refine Or.inr ⟨(⟨.universal, false, 5, [], [5, 0]⟩, []), by show some _ = _; decide +kernel, Or.inr ⟨.leaf .null, ?_, rfl⟩⟩
    show some _ = _
    decide +kernel
  · intro D n r h
    have hp : unknown = known := by
      rw [digest_eq] at h
      cases n with
      | zero => simp [odecode] at h
      | succ n =>
        have hr : readTLV twice = some (⟨.universal, true, 17, sha256Null ++ sha256Null, twice⟩, []) := by decide +kernel
        have hi : innerItems { tags := [⟨.universal, true, 17⟩], spec := .inter .nil, named := [] }
            ⟨.universal, true, 17, sha256Null ++ sha256Null, twice⟩ = some [sha256Item, sha256Item] := by decide +kernel
        simp only [odecode, hr, odecT, hi, mapOpt] at h
        generalize odecT D _ algorithmIdentifier sha256Item = o at h
        cases o with
        | none => simp at h
        | some v =>
          simp only [Option.some.injEq, Prod.mk.injEq, OVal.list.injEq, OVals.ofList, OVals.cons.injEq] at h
          rw [← h.1.1, ← h.1.2.1]
    simp [unknown, known, sha256] at hp

/-! ## Examples -/

namespace Examples

theorem imports_ours : Threads.Ours imports := by
  intro p hp n hn
  simp only [imports, List.mem_cons, List.not_mem_nil, or_false] at hp
  rcases hp with rfl | rfl <;> simp only [List.mem_cons, List.not_mem_nil, or_false] at hn <;> subst hn
  · exact ⟨Rfc5652.asModule, by simp [Package.modules], rfl⟩
  · exact ⟨Rfc4055.asModule, by simp [Package.modules], rfl⟩

/-- Modules that import only each other. -/
def here : List Module := [Rfc5280.asModule, Rfc4055.asModule, Rfc3280.asModule, Rfc3281.asModule, Rfc5652.asModule]

theorem calm : Calm first second := by
  refine calm_of_closed imports_ours first_reachable (here.map Module.id) ?_ ?_ ?_
  · decide +kernel
  · decide +kernel
  · decide +kernel

-- `during_after`, `during_before`, `during_safe`: what is decoded at the beginning and at the end
example : decodeAt first digestAlgorithms twice = some (.list (.ofList [unknown, unknown]), []) ∧
    decodeAt second digestAlgorithms twice = some (.list (.ofList [known, known]), []) := by decide +kernel

-- `during_stays`: from the end on, all open type fields are decoded
example : OVal.entire digestAlgorithms (.list (.ofList [known, known])) = true ∧
    OVal.entire digestAlgorithms (.list (.ofList [unknown, known])) = false := by decide +kernel

theorem digest_mem : ("rfc5652.DigestAlgorithmIdentifiers", digestAlgorithms) ∈ Package.types :=
  Package.mem_types (m := Rfc5652.asModule) (c := ("rfc5652.DigestAlgorithmIdentifiers", Rfc5652.DigestAlgorithmIdentifiers))
    (by simp [Package.modules]) (by simp [Rfc5652.asModule, Rfc5652.classes])

example : "rfc5652.DigestAlgorithmIdentifiers" ∉ ungoverned := by decide +kernel

/-- All the theorems about decoding meanwhile, for this message. -/
example (w : OVal) (r : Bytes) (h : wdecode (looks first second) 33 digestAlgorithms twice (some (w, r))) :
    Refines (.list (.ofList [unknown, unknown])) w ∧ Refines w (.list (.ofList [known, known])) ∧ r = [] ∧
      ¬ wdecode (looks first second) 33 digestAlgorithms twice none := by
  have h1 := during_after imports_ours first_reachable calm _ digest_mem twice 33 (by decide) _ w [] r
    (by decide +kernel : decodeAt first digestAlgorithms twice = some (.list (.ofList [unknown, unknown]), [])) h
  have h2 := during_before imports_ours first_reachable calm first_second _ digest_mem twice 33 (by decide) w _ r []
    h (by decide +kernel : decodeAt second digestAlgorithms twice = some (.list (.ofList [known, known]), []))
  exact ⟨h1.1, h2.1, h2.2, during_safe imports_ours first_reachable calm first_second _ digest_mem twice 33 (by decide) (by
    show decodeAt second digestAlgorithms twice ≠ none
    decide +kernel)⟩

end Examples

end While
end Props
end Verif
