import Verif.Asn1.OpenDer
import Verif.Props.Open
import Verif.Props.Der

/-!
# C57: DER messages with open types

A message in DER is decoded with `decodeOpenTypes=True` and encoded again.
-/

namespace Verif
namespace Props
namespace OpenDer

open Asn1 Py Open Encoding

theorem registered_stable : Registry.written.all (fun w => w.2.2.stable) = true := by decide +kernel

/-- The objects whose registered type is one of those C12 and C35 leave out (`defective`, `primitiveAny`): the attributes
firmware-package-info, security label and equivalent labels, the CMC control changeSubjectName, the attribute clearance
under both object identifiers, and the extension clearanceConstraints. -/
def irregular : List Val :=
  [.oid [1, 2, 840, 113549, 1, 9, 16, 2, 42], .oid [1, 3, 6, 1, 5, 5, 7, 7, 25], .oid [1, 2, 840, 113549, 1, 9, 16, 2, 2],
   .oid [1, 2, 840, 113549, 1, 9, 16, 2, 9], .oid [2, 5, 4, 55], .oid [2, 5, 1, 5, 55], .oid [1, 3, 6, 1, 5, 5, 7, 1, 21]]

/-- A subject key identifier in `rfc2459.Extension`: the field and what it holds are the same type. -/
def skiField (c : Content) : Prop := c.map = Py.map 1 "rfc2459.certificateExtensionsMap" ∧ c.key = .oid [2, 5, 29, 14]

/-- All other fields. -/
def Allowed (c : Content) : Prop := c.key ∉ irregular ∧ ¬ skiField c

theorem regular_table : Registry.written.all (fun w => irregular.contains w.2.1 || (w.2.2.wf && w.2.2.derOk)) = true := by
  decide +kernel

/-- They are all needed: the objects with such a type are exactly these. -/
theorem irregular_real : irregular.all (fun k => Registry.written.any (fun w => decide (w.2.1 = k) &&
    !(w.2.2.wf && w.2.2.derOk))) = true := by decide +kernel

/-- The fields among `cs` differ from whatever may be in them. -/
def apart : Comps → Bool
  | .nil => true
  | .cons f t cs => (match f.openType with
     | none => true
     | some o => t.item.tags.isEmpty || Registry.written.all (fun w => !Nat.beq w.1.idx o.map.idx ||
         !(decide (t.item.tags = w.2.2.tags) && decide (t.item.attrs.spec = w.2.2.attrs.spec)) ||
         (Nat.beq w.1.idx 1 && decide (w.2.1 = .oid [2, 5, 29, 14])))) && apart cs

def Ty.apart : Ty → Bool
  | .seq _ _ cs => OpenDer.apart cs
  | _ => true

theorem apart_table : Package.types.all (fun c => c.2.each Ty.apart) = true := by decide +kernel

theorem apart_registered : Registry.written.all (fun w => w.2.2.each Ty.apart) = true := by decide +kernel

/-- The dictionary number 1. -/
theorem first_map : Registry.written.all (fun w => !Nat.beq w.1.idx 1 || decide (w.1 = Py.map 1 "rfc2459.certificateExtensionsMap")) =
    true := by decide +kernel

theorem apart_mem : ∀ (cs : Comps), apart cs = true → ∀ f t o, (f, t) ∈ cs.toList → f.openType = some o →
    ∀ w ∈ Registry.written, w.1 = o.map → t.item.tags = w.2.2.tags → t.item.attrs.spec = w.2.2.attrs.spec →
    t.item.tags = [] ∨ (w.1.idx = 1 ∧ w.2.1 = .oid [2, 5, 29, 14])
  | .nil, _, _, _, _, h, _ => by simp [Comps.toList] at h
  | .cons g u cs, ha, f, t, o, h, ho => by
    simp only [apart, Bool.and_eq_true] at ha
    simp only [Comps.toList, List.mem_cons, Prod.mk.injEq] at h
    rcases h with ⟨rfl, rfl⟩ | h
    · intro w hw hm h1 h2
      have ha := ha.1
      simp only [ho, Bool.or_eq_true, List.isEmpty_iff, List.all_eq_true] at ha
      rcases ha with ha | ha
      · exact .inl ha
      · have := ha w hw
        rw [hm] at this ⊢
        simp only [Nat.beq_refl, Bool.not_true, h1, h2, decide_true, Bool.and_self, Bool.false_eq_true, false_or,
          Bool.and_eq_true, decide_eq_true_eq] at this
        exact .inr ⟨Nat.eq_of_beq_eq_true this.1, this.2⟩
    · exact apart_mem cs ha.2 f t o h ho

/-- A field and what is in it are never of the same type, but for that one. -/
theorem apart_fits {s : State} (hs : Reached s) {t : Ty} (ht : t.each Ty.apart = true) {v : Val} {c : Content}
    (hc : c ∈ t.fields s.get v) (ha : ¬ skiField c) : c.fits := by
  obtain ⟨hr, st, a, cs, f, t', o, hn, hm, ho, hom, hi⟩ := Ty.fields_from t v c hc
  have hw := reached_written hs hr
  rw [Ty.each_nodes] at ht
  have ht := List.all_eq_true.1 ht _ hn
  intro h1 h2
  rw [← hi] at h1 h2 ⊢
  rcases apart_mem cs ht f t' o hm ho _ hw hom.symm h1 h2 with h | ⟨h3, h4⟩
  · exact h
  · refine absurd ⟨?_, h4⟩ ha
    have := List.all_eq_true.1 first_map _ hw
    simp only at h3
    simpa [h3] using this

/-- What `Allowed` is for. -/
theorem allowed_spec {s : State} (hs : Reached s) {t : Ty} (ht : t.each Ty.apart = true) {v : Val} {c : Content}
    (hc : c ∈ t.fields s.get v) (ha : Allowed c) : c.fits ∧ c.type.wf = true ∧ c.type.derOk = true := by
  refine ⟨apart_fits hs ht hc ha.2, ?_⟩
  have := List.all_eq_true.1 regular_table _ (reached_written hs (Ty.fields_from t v c hc).registered)
  simp only [Bool.or_eq_true, List.contains_iff_mem, Bool.and_eq_true] at this
  exact this.resolve_left ha.1

/-- The decoder accepts it, and what it returns is written as it was. -/
theorem back {s : State} (hs : Reached s) {ine : Bool} {t : Ty} {b : Bytes} (h : Distinguished s.get Allowed ine t b) :
    t.wf = true → t.stable = true → t.derOk = true → t.each Ty.openOk = true → t.each Ty.governed = true →
    t.each Ty.apart = true →
    (∃ w, odecode s.get (b.length + 1) t b = some (w, [])) ∧
    ∀ n r w, odecode s.get n t b = some (w, r) → ∃ v, decode t b = some (v, r) ∧
      enc ine t v = some b ∧ Opens (encSide s.get) ine t v w := by
  induction h with
  | mk ine t b v he hv hc hk hn hal _ ih =>
    intro hw hst hd ho hg hap
    obtain ⟨x, w, hx, h1, h2, h3, h4⟩ := der_back hw hst hd he hv hc (kept_plain t ine v hv hk) hn
    have hdec : decode t b = some (w, []) := by simp only [decode, hx, h1]
    have key : ∀ c ∈ t.fields s.get w, (∃ o, odecode s.get (c.octets.length + 1) c.type c.octets = some (o, [])) ∧
        ∀ n, Returns (fun ine u v b => enc ine u v = some b) s.get (fun u c => (odecode s.get n u c).map Prod.fst) c := by
      intro c hcm
      have hr := reached_written hs (Ty.fields_from t w c hcm).registered
      obtain ⟨f1, f2, f3⟩ := allowed_spec hs hap hcm (hal w [] hdec c hcm)
      obtain ⟨i1, i2⟩ := ih w [] hdec c hcm f2 (List.all_eq_true.1 registered_stable _ hr) f3
        (List.all_eq_true.1 registered_openOk _ hr) (List.all_eq_true.1 registered_governed _ hr)
        (List.all_eq_true.1 apart_registered _ hr)
      refine ⟨i1, fun n => ⟨f1, fun v r o hv ho => ?_⟩⟩
      simp only [Option.map_eq_some_iff] at ho
      obtain ⟨⟨o', r'⟩, k1, rfl⟩ := ho
      obtain ⟨v', k2, k3⟩ := i2 n r' o' k1
      rw [hv] at k2
      simp only [Option.some.injEq, Prod.mk.injEq] at k2
      rw [k2.1]
      exact k3
    refine ⟨odecode_complete (reached_openOk hs) ho hg b [] w hdec ?_, ?_⟩
    · intro p hp
      rw [Ty.contents_fields, List.mem_map] at hp
      obtain ⟨c, hcm, rfl⟩ := hp
      obtain ⟨o, ho⟩ := (key c hcm).1
      simp [ho]
    · intro n r w' hw'
      obtain ⟨v', k1, k2⟩ := odecode_sound s.get n t b w' r hw'
      rw [hdec] at k1
      simp only [Option.some.injEq, Prod.mk.injEq] at k1
      obtain ⟨rfl, rfl⟩ := k1
      refine ⟨w, hdec, h2, ?_⟩
      cases n with
      | zero => simp [odecode] at hw'
      | succ n =>
        simp only [odecode, hx] at hw'
        split at hw' <;> simp only [reduceCtorEq, Option.some.injEq, Prod.mk.injEq] at hw'
        rename_i w'' hw''
        obtain ⟨rfl, _⟩ := hw'
        exact (k2 ine).raise hg (.inl h3) (odecT_calm t x w w'' hg h1 hw'' h4) (fun c hcm => (key c hcm).2 n)

/-- C57: in a program that has imported any modules of the package, a DER message whose open type fields hold DER, at any
depth, is decoded with open types without error, and what was decoded is encoded to the same octets. -/
theorem open_rewritten (s : State) (hs : Reached s) (c : String × Ty) (hc : c ∈ Package.types)
    (hd : c.1 ∉ Package.defective) (ha : c.1 ∉ primitiveAny) (hu : c.1 ∉ ungoverned) (b : Bytes)
    (h : Distinguished s.get Allowed false c.2 b) : ∃ w, decodeOpen s c.2 b = some (w, []) ∧ oencode c.2 w = some b := by
  obtain ⟨⟨w, h1⟩, h2⟩ := back hs h (Package.wf_of_mem hc hd) (Package.stable_of_mem hc) (derOk_of_mem hc ha)
    (openOk_of_mem hc) (governed_of_mem hc hu) (List.all_eq_true.1 apart_table c hc)
  obtain ⟨v, _, h5, h6⟩ := h2 _ _ w h1
  exact ⟨w, h1, h6.encEq.trans h5⟩

/-! ## Concrete cases -/

/-- The parameters of an algorithm with rfc4055 imported. -/
theorem registered_after {s : State} (hs : importAll Package.modules 130 [Rfc4055.asModule.id] .start = some s)
    {k : Val} {u : Ty} (h : ((importAll Package.modules 130 [Rfc4055.asModule.id] .start).bind (fun s =>
      s.get (Py.map 3 "rfc5280.algorithmIdentifierMap") k)) = some u) :
    s.get (Py.map 3 "rfc5280.algorithmIdentifierMap") k = some u := by
  rw [hs] at h
  exact h

theorem algorithm_type : algorithmIdentifier = .seq false ⟨[⟨.universal, true, 16⟩], .inter .nil, []⟩
    (.cons ⟨"algorithm", .req, none⟩ (.prim .oid ⟨[⟨.universal, false, 6⟩], .inter .nil, []⟩)
    (.cons ⟨"parameters", .opt, some ⟨"algorithm", Py.map 3 "rfc5280.algorithmIdentifierMap"⟩⟩
      (.prim .any ⟨[], .inter .nil, []⟩) .nil)) := by
  decide +kernel

/-- The value of an AlgorithmIdentifier. -/
def algorithm (oid : List Nat) (parameters : Bytes) : Val := .record (.ofList [.oid oid, .octets parameters])

/-- An AlgorithmIdentifier is `Distinguished` if its parameters are. -/
theorem algorithm_distinguished {D : Asn1.Registry} {oid : List Nat} {c b : Bytes} {u : Ty} {ine : Bool}
    (hr : D (Py.map 3 "rfc5280.algorithmIdentifierMap") (.oid oid) = some u)
    (hd : decode algorithmIdentifier b = some (algorithm oid c, []))
    (he : encode algorithmIdentifier (algorithm oid c) = some b) (hv : algorithmIdentifier.valid (algorithm oid c) = true)
    (hk : algorithmIdentifier.kept ine (algorithm oid c) = true) (hk' : algorithmIdentifier.kept false (algorithm oid c) = true)
    (ha : Allowed ⟨true, Py.map 3 "rfc5280.algorithmIdentifierMap", .oid oid, .prim .any ⟨[], .inter .nil, []⟩, u, c⟩)
    (hs : Distinguished D Allowed true u c) : Distinguished D Allowed ine algorithmIdentifier b := by
  have hc : Der.care algorithmIdentifier (algorithm oid c) := by
    rw [algorithm_type]
    simp [algorithm, Vals.ofList, Der.care, Der.cares, Der.careful]
  have hf : algorithmIdentifier.fields D (algorithm oid c) =
      [⟨true, Py.map 3 "rfc5280.algorithmIdentifierMap", .oid oid, .prim .any ⟨[], .inter .nil, []⟩, u, c⟩] := by
    rw [algorithm_type]
    simp [algorithm, Vals.ofList, Ty.fields, Comps.fields, fieldVal, hr, octetsIn, Mode.isOpt, Ty.item]
  refine .mk ine _ b (algorithm oid c) (encode_der_kept _ Codec.Examples.alg_mem (by decide) (by decide) _ b hv hc hk' he)
    hv hc hk (fun _ => ?_) ?_ ?_
  · rw [algorithm_type]
    simp [algorithm, Vals.ofList, Ty.vanish, Comps.vanish]
  all_goals
    intro v' r h
    rw [hd] at h
    simp only [Option.some.injEq, Prod.mk.injEq] at h
    obtain ⟨rfl, _⟩ := h
    rw [hf]
    simpa using by assumption

theorem null_distinguished {D : Asn1.Registry} : Distinguished D Allowed true Py.univ.Null.call.ty [5, 0] := by
  have hu : Py.univ.Null.call.ty = .prim .null ⟨[⟨.universal, false, 5⟩], .inter .nil, []⟩ := by decide +kernel
  have hf : ∀ v, Py.univ.Null.call.ty.fields D v = [] := by
    intro v
    rw [hu]
    simp [Ty.fields]
  refine .mk true _ [5, 0] .null ?_ (by decide +kernel) ?_ (by decide +kernel) (fun _ => by decide +kernel) ?_ ?_
  · rw [hu]
    exact ⟨[], rfl, [5, 0], ⟨[5], [0], .low (by decide), .short (by decide), rfl⟩, rfl⟩
  · rw [hu]
    simp [Der.care, Der.careful]
  all_goals
    intro v' r _ c hc
    rw [hf] at hc
    simp at hc

/-- C57's hypotheses are met by `mgf1Sha256`, where an open type is within an open type. -/
theorem mgf1_distinguished (s : State) (hs : importAll Package.modules 130 [Rfc4055.asModule.id] .start = some s) :
    Distinguished s.get Allowed false algorithmIdentifier mgf1Sha256 := by
  refine algorithm_distinguished (oid := [1, 2, 840, 113549, 1, 1, 8]) (c := sha256Null) (u := algorithmIdentifier)
    (registered_after hs (by decide +kernel)) (by decide +kernel) (by decide +kernel) (by decide +kernel) (by decide +kernel)
    (by decide +kernel) ⟨by decide, by simp [skiField]⟩ ?_
  exact algorithm_distinguished (oid := [2, 16, 840, 1, 101, 3, 4, 2, 1]) (c := [5, 0]) (u := Py.univ.Null.call.ty)
    (registered_after hs (by decide +kernel)) (by decide +kernel) (by decide +kernel) (by decide +kernel) (by decide +kernel)
    (by decide +kernel) ⟨by decide, by simp [skiField]⟩ null_distinguished

/-- So it is decoded and encoded to itself. -/
example : ∃ s w, Reached s ∧ decodeOpen s algorithmIdentifier mgf1Sha256 = some (w, []) ∧
    oencode algorithmIdentifier w = some mgf1Sha256 := by
  obtain ⟨s, h1, h2⟩ := example_reached
  obtain ⟨w, h3⟩ := open_rewritten s h2 _ Codec.Examples.alg_mem (by decide) (by decide) (by decide) _ (mgf1_distinguished s h1)
  exact ⟨s, w, h2, h3⟩

/-! PBKDF2 with the default PRF, which has an open type field in it. -/

def pbkdf2Default : Bytes := [0x30, 7, 4, 1, 0x2a, 2, 2, 8, 0]

def pbkdf2Value : Val := .record (.ofList [.alt 0 (.octets [0x2a]), .int 2048, .absent, algorithm [1, 2, 840, 113549, 2, 7] [5, 0]])

theorem pbkdf2_mem : ("rfc8018.PBKDF2_params", Rfc8018.PBKDF2_params.call.ty) ∈ Package.types :=
  Package.mem_types (m := Rfc8018.asModule) (c := ("rfc8018.PBKDF2_params", Rfc8018.PBKDF2_params))
    (by simp [Package.modules]) (by simp [Rfc8018.asModule, Rfc8018.classes])

theorem pbkdf2_type : ∃ a b c d e, Rfc8018.PBKDF2_params.call.ty = .seq false a
    (.cons ⟨"salt", .req, none⟩ (.choice b (.cons ⟨"specified", .req, none⟩ (.prim .octetString c)
      (.cons ⟨"otherSource", .req, none⟩ algorithmIdentifier .nil)))
    (.cons ⟨"iterationCount", .req, none⟩ (.prim .integer d)
    (.cons ⟨"keyLength", .opt, none⟩ (.prim .integer e)
    (.cons ⟨"prf", .dflt (algorithm [1, 2, 840, 113549, 2, 7] [5, 0]), none⟩ algorithmIdentifier .nil)))) :=
  ⟨_, _, _, _, _, rfl⟩

/-- The hypotheses are met by a message that leaves out the default. -/
theorem pbkdf2_distinguished {D : Asn1.Registry}
    (hr : D (Py.map 3 "rfc5280.algorithmIdentifierMap") (.oid [1, 2, 840, 113549, 2, 7]) = some Py.univ.Null.call.ty) :
    Distinguished D Allowed false Rfc8018.PBKDF2_params.call.ty pbkdf2Default := by
  have hd : decode Rfc8018.PBKDF2_params.call.ty pbkdf2Default = some (pbkdf2Value, []) := by decide +kernel
  obtain ⟨_, _, _, _, _, ht⟩ := pbkdf2_type
  have hc : Der.care Rfc8018.PBKDF2_params.call.ty pbkdf2Value := by
    rw [ht, algorithm_type]
    simp [pbkdf2Value, algorithm, Vals.ofList, Der.care, Der.cares, Der.careAlt, Der.careful]
    intro m
    have : (0 : Int) < 256 ^ m := Int.pow_pos (by decide)
    omega
  have hf : Rfc8018.PBKDF2_params.call.ty.fields D pbkdf2Value =
      [⟨true, Py.map 3 "rfc5280.algorithmIdentifierMap", .oid [1, 2, 840, 113549, 2, 7], .prim .any ⟨[], .inter .nil, []⟩,
        Py.univ.Null.call.ty, [5, 0]⟩] := by
    rw [ht, algorithm_type]
    simp [pbkdf2Value, algorithm, Vals.ofList, Ty.fields, Comps.fields, Comps.fieldsAlt, fieldVal, hr, octetsIn, Mode.isOpt, Ty.item]
  refine .mk false _ _ pbkdf2Value (encode_der_kept _ pbkdf2_mem (by decide) (by decide) _ _ (by decide +kernel) hc
    (by decide +kernel) (by decide +kernel)) (by decide +kernel) hc (by decide +kernel) (by simp) ?_ ?_
  all_goals
    intro v' r h
    rw [hd] at h
    simp only [Option.some.injEq, Prod.mk.injEq] at h
    obtain ⟨rfl, _⟩ := h
    rw [hf]
  · simp only [List.mem_singleton, forall_eq]
    exact ⟨by decide, by simp [skiField]⟩
  · simpa using null_distinguished

/-- So it is decoded and encoded to itself. -/
example : (decodeAfter [Rfc8018.asModule.id] Rfc8018.PBKDF2_params.call.ty pbkdf2Default).isSome = true ∧
    recodeAfter [Rfc8018.asModule.id] Rfc8018.PBKDF2_params.call.ty pbkdf2Default = some pbkdf2Default := by decide +kernel

end OpenDer
end Props
end Verif
