import Verif.Asn1.KeepOpen
import Verif.Props.OpenDer

/-!
# C58: `encode(..., omitEmptyOptionals=False)`
-/

namespace Verif
namespace Props
namespace Keep

open Asn1 Py Open Encoding OpenDer

/-! ## The classes -/

/-- Of the classes C12 leaves out, those with components that cannot be told apart; the option does not help them. -/
def muddled : List String :=
  ["rfc2251.UnbindRequest", "rfc2251.LDAPMessage", "rfc6402.ChangeSubjectName", "rfc6402.CMCStatusInfoV2"]

/-- A SET with an OPTIONAL SEQUENCE OF that may be empty: pyasn1's SET encoder does not know of the option. -/
def postal : List String :=
  ["rfc2459.UnformattedPostalAddress", "rfc3280.UnformattedPostalAddress", "rfc5280.UnformattedPostalAddress"]

/-- The classes with a SET that has OPTIONAL components which are not primitive. -/
def settled : List String :=
  ["rfc2459.UnformattedPostalAddress", "rfc2634.ESSSecurityLabel", "rfc2634.EquivalentLabels",
   "rfc3280.UnformattedPostalAddress", "rfc5035.ESSSecurityLabel", "rfc5035.EquivalentLabels",
   "rfc5280.UnformattedPostalAddress", "rfc7906.ESSSecurityLabel", "rfc7906.Classification"]

theorem muddled_table : (Package.types.filter (fun c => !c.2.held.wf)).map Prod.fst = muddled := by decide +kernel

theorem postal_table : (Package.types.filter (fun c => !c.2.quietSets)).map Prod.fst = postal := by decide +kernel

theorem settled_table : (Package.types.filter (fun c => !c.2.plainSets)).map Prod.fst = settled := by decide +kernel

theorem of_table {p : Ty → Bool} {l : List String} (h : (Package.types.filter (fun c => !p c.2)).map Prod.fst = l)
    {c : String × Ty} (hc : c ∈ Package.types) (hl : c.1 ∉ l) : p c.2 = true := by
  cases hw : p c.2 with
  | true => rfl
  | false =>
    refine absurd ?_ hl
    rw [← h]
    exact List.mem_map.2 ⟨c, List.mem_filter.2 ⟨hc, by simp [hw]⟩, rfl⟩

theorem held_of_mem {c : String × Ty} (hc : c ∈ Package.types) (hm : c.1 ∉ muddled) : c.2.held.wf = true :=
  of_table (p := fun t => t.held.wf) muddled_table hc hm

theorem quiet_of_mem {c : String × Ty} (hc : c ∈ Package.types) (hp : c.1 ∉ postal) : c.2.quietSets = true :=
  of_table (p := Ty.quietSets) postal_table hc hp

theorem plain_of_mem {c : String × Ty} (hc : c ∈ Package.types) (hp : c.1 ∉ postal) (ha : c.1 ∉ primitiveAny) :
    c.2.plainSets = true := by
  refine of_table (p := Ty.plainSets) settled_table hc fun h => ?_
  have h1 : ∀ s ∈ settled, s ∈ postal ∨ s ∈ primitiveAny := by decide
  rcases h1 _ h with h | h
  · exact hp h
  · exact ha h

/-- The classes in `muddled` are in `defective`. -/
theorem muddled_defective : ∀ s ∈ muddled, s ∈ Package.defective := by decide

/-- What the option amounts to. -/
theorem encode_held (c : String × Ty) (hc : c ∈ Package.types) (hm : c.1 ∉ muddled) (hp : c.1 ∉ postal) (v : Val)
    (hv : c.2.valid v = true) : encodeKeep c.2 v = encode c.2.held v :=
  encKeep_held c.2 false v (held_of_mem hc hm) (quiet_of_mem hc hp) (by simp) hv

/-! ## Plain values -/

/-- C58: with the option nothing is lost: every legal value encodes, and the encoding, followed by anything, decodes to
the same value, up to the order in SET OFs. -/
theorem keep_roundtrip (c : String × Ty) (hc : c ∈ Package.types) (hm : c.1 ∉ muddled) (hp : c.1 ∉ postal) (v : Val)
    (hv : c.2.valid v = true) (hs : c.2.weight v < Codec.maxOctets) :
    ∃ b w, encodeKeep c.2 v = some b ∧ c.2.reorder v w ∧ ∀ rest, decode c.2 (b ++ rest) = some (w, rest) := by
  obtain ⟨b, w, h1, h2, h3, _⟩ := Codec.roundtrip_ty c.2.held (held_of_mem hc hm) v
    (by rwa [Ty.held_valid]) (by rwa [Ty.held_weight])
  refine ⟨b, w, (encode_held c hc hm hp v hv).trans h1, Ty.held_same _ _ _ h2, fun rest => ?_⟩
  rw [← Ty.held_decode]
  exact h3 rest

/-- C58: with the option the encoder writes the DER encoding, whether or not there are empty collections in OPTIONAL
components. -/
theorem keep_der (c : String × Ty) (hc : c ∈ Package.types) (hm : c.1 ∉ muddled) (hp : c.1 ∉ postal)
    (ha : c.1 ∉ primitiveAny) (v : Val) (hv : c.2.valid v = true) (hk : Der.care c.2 v) (b : Bytes) :
    encodeKeep c.2 v = some b ↔ Der.encodes c.2 v b := by
  have hw := held_of_mem hc hm
  have hst := Ty.held_stable _ (Package.stable_of_mem hc)
  have hd : c.2.held.derOk = true := by rw [Ty.held_derOk]; exact derOk_of_mem hc ha
  have hv' : c.2.held.valid v = true := by rwa [Ty.held_valid]
  have hn := kept_plain c.2.held false v hv' (Ty.held_kept c.2 v)
  rw [encode_held c hc hm hp v hv, ← Ty.held_encodes]
  constructor
  · intro he
    have hb : b ≠ [] := by
      rintro rfl
      have := enc_isEmpty false c.2.held v [] hw hv' he
      simp at this
    have := derT c.2.held false v b hw hst hd hv' ((Ty.held_care _ _).2 hk) he hb
    rwa [hn] at this
  · exact encT_of c.2.held false v b hw hst hd hv' ((Ty.held_care _ _).2 hk) hn (by simp)

/-- C58: DER that was made elsewhere is decoded and, with the option, written again without a change. -/
theorem keep_rewritten (c : String × Ty) (hc : c ∈ Package.types) (hm : c.1 ∉ muddled) (hp : c.1 ∉ postal)
    (ha : c.1 ∉ primitiveAny) (v : Val) (b : Bytes) (hv : c.2.valid v = true) (hk : Der.care c.2 v)
    (he : Der.encodes c.2 v b) : ∃ w, decode c.2 b = some (w, []) ∧ encodeKeep c.2 w = some b := by
  obtain ⟨x, w, h1, h2, h3, h4, _⟩ := der_back (t := c.2.held) (ine := false) (held_of_mem hc hm)
    (Ty.held_stable _ (Package.stable_of_mem hc)) (by rw [Ty.held_derOk]; exact derOk_of_mem hc ha)
    ((Ty.held_encodes _ _ _).2 he) (by rwa [Ty.held_valid]) ((Ty.held_care _ _).2 hk)
    (kept_plain c.2.held false v (by rwa [Ty.held_valid]) (Ty.held_kept c.2 v)) (by simp)
  rw [Ty.held_decT] at h2
  rw [Ty.held_valid] at h4
  refine ⟨w, by simp only [decode, h1, h2], (encode_held c hc hm hp w h4).trans h3⟩

/-- C58: the option is for empty collections in OPTIONAL components only: it changes nothing about other values. -/
theorem keep_same (c : String × Ty) (hc : c ∈ Package.types) (hd : c.1 ∉ Package.defective) (hp : c.1 ∉ postal) (v : Val)
    (hv : c.2.valid v = true) (hk : c.2.kept false v = true) : encodeKeep c.2 v = encode c.2 v := by
  have hm : c.1 ∉ muddled := fun h => hd (muddled_defective _ h)
  rw [encode_held c hc hm hp v hv]
  exact (enc_held c.2 false v (Package.wf_of_mem hc hd) hv hk (by simp)).symm

/-! ## Open types -/

/-- The objects whose registered type is one of the exceptions above: CMC changeSubjectName, security label, equivalent
labels, clearance, clearanceConstraints, and the extension attribute unformatted-postal-address. -/
def uneven : List Val :=
  [.oid [1, 3, 6, 1, 5, 5, 7, 7, 25], .oid [1, 2, 840, 113549, 1, 9, 16, 2, 2], .oid [1, 2, 840, 113549, 1, 9, 16, 2, 9],
   .oid [2, 5, 4, 55], .oid [2, 5, 1, 5, 55], .oid [1, 3, 6, 1, 5, 5, 7, 1, 21], .int 16]

/-- All other fields. -/
def Permitted (c : Content) : Prop := c.key ∉ uneven ∧ ¬ skiField c

theorem even_table : Registry.written.all (fun w =>
    uneven.contains w.2.1 || (w.2.2.held.wf && w.2.2.derOk && w.2.2.plainSets)) = true := by decide +kernel

/-- They are all needed. -/
theorem uneven_real : uneven.all (fun k => Registry.written.any (fun w => decide (w.2.1 = k) &&
    !(w.2.2.held.wf && w.2.2.derOk && w.2.2.plainSets))) = true := by decide +kernel

/-- What `Permitted` is for. -/
theorem permitted_spec {s : State} (hs : Reached s) {t : Ty} (ht : t.each Ty.apart = true) {v : Val} {c : Content}
    (hc : c ∈ t.fields s.get v) (ha : Permitted c) :
    c.fits ∧ c.type.held.wf = true ∧ c.type.derOk = true ∧ c.type.plainSets = true := by
  refine ⟨apart_fits hs ht hc ha.2, ?_⟩
  have := List.all_eq_true.1 even_table _ (reached_written hs (Ty.fields_from t v c hc).registered)
  simp only [Bool.or_eq_true, List.contains_iff_mem, Bool.and_eq_true] at this
  have := this.resolve_left ha.1
  exact ⟨this.1.1, this.1.2, this.2⟩

/-- The decoder accepts it, and what it returns is written as it was. -/
theorem keep_back {s : State} (hs : Reached s) {t : Ty} {b : Bytes} (h : Nested s.get Permitted t b) :
    t.held.wf = true → t.stable = true → t.derOk = true → t.plainSets = true → t.each Ty.openOk = true →
    t.each Ty.governed = true → t.each Ty.apart = true →
    (∃ w, odecode s.get (b.length + 1) t b = some (w, [])) ∧
    ∀ n r w, odecode s.get n t b = some (w, r) → ∃ v, decode t b = some (v, r) ∧
      encKeep false t v = some b ∧ ∀ ine, Opens (sideOf Kept s.get) ine t v w := by
  induction h with
  | mk t b v he hv hc hal _ ih =>
    intro hw hst hd hps ho hg hap
    have hv' : t.held.valid v = true := by rwa [Ty.held_valid]
    obtain ⟨x, w, hx, h1, h2, h3, h4⟩ := der_back (ine := false) hw (Ty.held_stable _ hst) (by rwa [Ty.held_derOk])
      ((Ty.held_encodes _ _ _).2 he) hv' ((Ty.held_care _ _).2 hc) (kept_plain t.held false v hv' (Ty.held_kept t v)) (by simp)
    rw [Ty.held_decT] at h1
    rw [Ty.held_valid] at h3
    have hdec : decode t b = some (w, []) := by simp only [decode, hx, h1]
    have henc : encKeep false t w = some b :=
      (encKeep_held t false w hw (Ty.plainSets_quiet t hps) (by simp) h3).trans h2
    have key : ∀ c ∈ t.fields s.get w, (∃ o, odecode s.get (c.octets.length + 1) c.type c.octets = some (o, [])) ∧
        ∀ n, Returns Kept s.get (fun u c => (odecode s.get n u c).map Prod.fst) c := by
      intro c hcm
      have hr := reached_written hs (Ty.fields_from t w c hcm).registered
      obtain ⟨f1, f2, f3, f4⟩ := permitted_spec hs hap hcm (hal w [] hdec c hcm)
      obtain ⟨i1, i2⟩ := ih w [] hdec c hcm f2 (List.all_eq_true.1 registered_stable _ hr) f3 f4
        (List.all_eq_true.1 registered_openOk _ hr) (List.all_eq_true.1 registered_governed _ hr)
        (List.all_eq_true.1 apart_registered _ hr)
      refine ⟨i1, fun n => ⟨f1, fun v r o hv ho => ?_⟩⟩
      simp only [Option.map_eq_some_iff] at ho
      obtain ⟨⟨o', r'⟩, k1, rfl⟩ := ho
      obtain ⟨v', k2, k3, k4⟩ := i2 n r' o' k1
      rw [hv] at k2
      simp only [Option.some.injEq, Prod.mk.injEq] at k2
      rw [k2.1]
      exact ⟨⟨k3, f4⟩, k4 _⟩
    refine ⟨odecode_complete (reached_openOk hs) ho hg b [] w hdec ?_, ?_⟩
    · intro p hp
      rw [Ty.contents_fields, List.mem_map] at hp
      obtain ⟨c, hcm, rfl⟩ := hp
      obtain ⟨o, ho⟩ := (key c hcm).1
      simp [ho]
    · intro n r w' hw'
      obtain ⟨v', k1, k2⟩ := odecode_sound s.get n t b w' r hw'
      rw [hdec] at k1
      simp only [Option.some.injEq, Prod.mk.injEq] at k1
      obtain ⟨rfl, rfl⟩ := k1
      refine ⟨w, hdec, henc, fun ine => ?_⟩
      cases n with
      | zero => simp [odecode] at hw'
      | succ n =>
        simp only [odecode, hx] at hw'
        split at hw' <;> simp only [reduceCtorEq, Option.some.injEq, Prod.mk.injEq] at hw'
        rename_i w'' hw''
        obtain ⟨rfl, _⟩ := hw'
        exact (k2 ine).raise hg (.inl h3) (odecT_calm t x w w'' hg h1 hw'' (Ty.held_strict t x h4))
          (fun c hcm => (key c hcm).2 n)

/-- C58: in a program that has imported any modules of the package, a DER message whose open type fields hold DER, at any
depth, is decoded with `decodeOpenTypes=True` without error, and what was decoded is encoded with the option to the same
octets, whether or not there are empty collections in OPTIONAL components. -/
theorem open_keep_rewritten (s : State) (hs : Reached s) (c : String × Ty) (hc : c ∈ Package.types)
    (hm : c.1 ∉ muddled) (hp : c.1 ∉ postal) (ha : c.1 ∉ primitiveAny) (hu : c.1 ∉ ungoverned) (b : Bytes)
    (h : Nested s.get Permitted c.2 b) : ∃ w, decodeOpen s c.2 b = some (w, []) ∧ oencodeKeep c.2 w = some b := by
  have hps := plain_of_mem hc hp ha
  obtain ⟨⟨w, h1⟩, h2⟩ := keep_back hs h (held_of_mem hc hm) (Package.stable_of_mem hc) (derOk_of_mem hc ha) hps
    (openOk_of_mem hc) (governed_of_mem hc hu) (List.all_eq_true.1 apart_table c hc)
  obtain ⟨v, _, h5, h6⟩ := h2 _ _ w h1
  exact ⟨w, h1, ((h6 false).keepEq hps).trans h5⟩

/-! ## Concrete cases -/

/-- The empty list of C35's example is written. -/
example : Rfc5652.OriginatorInfo.call.ty.valid (.record (.ofList [.list .nil, .absent])) = true ∧
    encodeKeep Rfc5652.OriginatorInfo.call.ty (.record (.ofList [.list .nil, .absent])) = some [48, 2, 160, 0] ∧
    "rfc5652.OriginatorInfo" ∉ muddled ∧ "rfc5652.OriginatorInfo" ∉ postal ∧ "rfc5652.OriginatorInfo" ∉ primitiveAny := by
  decide +kernel

/-- The values of `Defects.firmware_lost` and `Defects.semantics_lost` come back. -/
theorem defects_kept :
    (let v : Val := .record (.ofList [.absent, .list .nil])
     (encodeKeep Rfc4108.FirmwarePackageInfo.call.ty v).bind (decode Rfc4108.FirmwarePackageInfo.call.ty) = some (v, [])) ∧
    (let v : Val := .record (.ofList [.absent, .list (.ofList [.alt 4 (.alt 0 (.list .nil))])])
     (encodeKeep Rfc3739.SemanticsInformation.call.ty v).bind (decode Rfc3739.SemanticsInformation.call.ty) =
       some (v, [])) := by decide +kernel

/-- C58: in `UnformattedPostalAddress`, a SET, an empty list of lines is lost even with the option. -/
theorem postal_lost :
    [Rfc2459.UnformattedPostalAddress, Rfc3280.UnformattedPostalAddress, Rfc5280.UnformattedPostalAddress].all (fun c =>
      c.call.ty.valid (.record (.ofList [.list .nil, .absent])) &&
      encodeKeep c.call.ty (.record (.ofList [.list .nil, .absent])) == some [0x31, 0] &&
      decode c.call.ty [0x31, 0] == some (.record (.ofList [.absent, .absent]), []) &&
      decode c.call.ty [0x31, 2, 0x30, 0] == some (.record (.ofList [.list .nil, .absent]), [])) = true := by
  decide +kernel

theorem pss_type : ∃ a₀ a₁ a₂ a₃, Rfc4055.RSASSA_PSS_params.call.ty = .seq false ⟨[⟨.universal, true, 16⟩], .inter .nil, []⟩
    (.cons ⟨"hashAlgorithm", .opt, none⟩ a₀ (.cons ⟨"maskGenAlgorithm", .opt, none⟩ a₁
    (.cons ⟨"saltLength", .dflt (.int 20), none⟩ (.prim .integer a₂) (.cons ⟨"trailerField", .dflt (.int 1), none⟩ (.prim .integer a₃) .nil)))) :=
  ⟨_, _, _, _, rfl⟩

/-- The RSASSA-PSS parameters are all omitted. -/
theorem pss_nested {D : Asn1.Registry} : Nested D Permitted Rfc4055.RSASSA_PSS_params.call.ty [0x30, 0] := by
  have hd : decode Rfc4055.RSASSA_PSS_params.call.ty [0x30, 0] =
      some (.record (.ofList [.absent, .absent, .int 20, .int 1]), []) := by decide +kernel
  obtain ⟨a₀, a₁, a₂, a₃, ht⟩ := pss_type
  refine .mk _ _ (.record (.ofList [.absent, .absent, .int 20, .int 1])) ?_ (by decide +kernel) ?_ ?_ ?_
  · rw [ht]
    refine ⟨[], [], by simp [Vals.ofList, Der.components], rfl, [0x30, 0], ⟨[0x30], [0], .low (by decide), .short (by decide), rfl⟩, rfl⟩
  · rw [ht]
    simp [Vals.ofList, Der.care, Der.cares]
  all_goals
    intro v' r h
    rw [hd] at h
    simp only [Option.some.injEq, Prod.mk.injEq] at h
    obtain ⟨rfl, _⟩ := h
    rw [ht]
    have h : ∀ t : Ty, t.fields D .absent = [] := fun t => by cases t <;> simp [Ty.fields]
    simp [Vals.ofList, Ty.fields, Comps.fields, h]

/-- C58's hypotheses are met by `pssDefault`, which C57 leaves out. -/
theorem pssDefault_nested (s : State) (hs : importAll Package.modules 130 [Rfc4055.asModule.id] .start = some s) :
    Nested s.get Permitted algorithmIdentifier pssDefault := by
  have hd : decode algorithmIdentifier pssDefault = some (algorithm [1, 2, 840, 113549, 1, 1, 10] [0x30, 0], []) := by
    decide +kernel
  have hr : s.get (Py.map 3 "rfc5280.algorithmIdentifierMap") (.oid [1, 2, 840, 113549, 1, 1, 10]) =
      some Rfc4055.RSASSA_PSS_params.call.ty := registered_after hs (by decide +kernel)
  have hc : Der.care algorithmIdentifier (algorithm [1, 2, 840, 113549, 1, 1, 10] [0x30, 0]) := by
    rw [algorithm_type]
    simp [algorithm, Vals.ofList, Der.care, Der.cares, Der.careful]
  have hf : algorithmIdentifier.fields s.get (algorithm [1, 2, 840, 113549, 1, 1, 10] [0x30, 0]) =
      [⟨true, Py.map 3 "rfc5280.algorithmIdentifierMap", .oid [1, 2, 840, 113549, 1, 1, 10], .prim .any ⟨[], .inter .nil, []⟩,
        Rfc4055.RSASSA_PSS_params.call.ty, [0x30, 0]⟩] := by
    rw [algorithm_type]
    simp [algorithm, Vals.ofList, Ty.fields, Comps.fields, fieldVal, hr, octetsIn, Mode.isOpt, Ty.item]
  refine .mk _ _ (algorithm [1, 2, 840, 113549, 1, 1, 10] [0x30, 0])
    (encode_der_kept _ Codec.Examples.alg_mem (by decide) (by decide) _ _ (by decide +kernel) hc (by decide +kernel)
      (by decide +kernel)) (by decide +kernel) hc ?_ ?_
  all_goals
    intro v' r h
    rw [hd] at h
    simp only [Option.some.injEq, Prod.mk.injEq] at h
    obtain ⟨rfl, _⟩ := h
    rw [hf]
  · simp only [List.mem_singleton, forall_eq]
    exact ⟨by decide, by simp [skiField]⟩
  · simpa using pss_nested

/-- So it comes back unchanged, which `pssDefault_lost` shows it does not without the option. -/
theorem pssDefault_kept : ∃ s w, Reached s ∧ decodeOpen s algorithmIdentifier pssDefault = some (w, []) ∧
    oencodeKeep algorithmIdentifier w = some pssDefault := by
  obtain ⟨s, h1, h2⟩ := example_reached
  obtain ⟨w, h3⟩ := open_keep_rewritten s h2 _ Codec.Examples.alg_mem (by decide) (by decide) (by decide) (by decide) _
    (pssDefault_nested s h1)
  exact ⟨s, w, h2, h3⟩

end Keep
end Props
end Verif
