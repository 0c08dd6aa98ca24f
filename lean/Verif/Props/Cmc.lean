import Verif.Props.Tools

/-!
# cmcdump

C09: when the loop over the layers of a CMC message ends, and what it prints.
-/

namespace Verif
namespace Props
namespace Cmc

open Verif.Tools
open Verif.Pem hiding Bytes
open Verif.Asn1
open Verif.Spec
open Verif.Props.Pem

/-! ## Contents are shorter than what contains them -/

theorem wrap_length (isC : Bool) : ∀ (ts : TagSet) (c b : Bytes), Asn1.wrap isC ts c = some b → c.length ≤ b.length
  | [], c, b, h => by simp [Asn1.wrap] at h; simp [h]
  | t :: ts, c, b, h => by
    simp only [Asn1.wrap, Option.bind_eq_some_iff] at h
    obtain ⟨d, h1, h2⟩ := h
    have := wrap_length isC ts d b h2
    simp only [tlv, Option.map_eq_some_iff] at h1
    obtain ⟨l, _, rfl⟩ := h1
    simp only [List.length_append] at this
    omega

theorem encTag_pos (c : Cls) (k : Bool) (n : Nat) : 0 < (encTag c k n).length := by
  unfold encTag; split <;> split <;> simp

theorem wrap_length_lt (isC : Bool) (t : Tag) (ts : TagSet) (c b : Bytes) (h : Asn1.wrap isC (t :: ts) c = some b) :
    c.length < b.length := by
  simp only [Asn1.wrap, Option.bind_eq_some_iff] at h
  obtain ⟨d, h1, h2⟩ := h
  have := wrap_length isC ts d b h2
  simp only [tlv, Option.map_eq_some_iff] at h1
  obtain ⟨l, _, rfl⟩ := h1
  have := encTag_pos t.cls (t.constructed || isC) t.num
  simp only [List.length_append] at *
  omega

theorem encComps_length : ∀ (cs : Comps) (vs : Vals) (ps : List (TagSet × Bytes)) (i : Nat) (f : Field) (t : Ty) (v : Val),
    encComps cs vs = some ps → cs.get? i = some (f, t) → vs.get? i = some v → v ≠ .absent → f.mode ≠ .dflt v →
    ∃ b, enc f.mode.isOpt t v = some b ∧ b.length ≤ (ps.flatMap Prod.snd).length
  | .nil, vs, ps, i, f, t, v, _, h, _, _, _ => by simp [Comps.get?] at h
  | .cons g u cs, .nil, ps, i, f, t, v, h, _, _, _, _ => by simp [encComps] at h
  | .cons g u cs, .cons w vs, ps, i, f, t, v, h, hc, hv, hn, hm => by
    rw [encComps] at h
    cases he : encComps cs vs with
    | none => simp [he] at h
    | some qs =>
      simp only [he] at h
      cases i with
      | zero =>
        simp only [Comps.get?, Vals.get?, Option.some.injEq, Prod.mk.injEq] at hc hv
        obtain ⟨⟨rfl, rfl⟩, rfl⟩ := hc, hv
        split at h
        · exact absurd rfl hn
        · exact absurd rfl hn
        · exact absurd rfl hn
        · rw [if_neg hm] at h
          split at h
          · simp at h
          · rename_i b hb
            simp only [Option.some.injEq] at h
            subst h
            exact ⟨b, hb, by simp⟩
      | succ i =>
        simp only [Comps.get?, Vals.get?] at hc hv
        obtain ⟨b, h1, h2⟩ := encComps_length cs vs qs i f t v he hc hv hn hm
        refine ⟨b, h1, ?_⟩
        split at h
        · simp at h
        · simp only [Option.some.injEq] at h; subst h; exact h2
        · simp only [Option.some.injEq] at h; subst h; exact h2
        · split at h
          · simp only [Option.some.injEq] at h; subst h; exact h2
          · split at h
            · simp at h
            · simp only [Option.some.injEq] at h; subst h
              simp only [List.flatMap_cons, List.length_append]
              omega

/-- A component's encoding is shorter than that of its SEQUENCE. -/
theorem enc_component (ine : Bool) (a : Attrs) (tag : Tag) (tags : TagSet) (ha : a.tags = tag :: tags) (cs : Comps)
    (vs : Vals) (b : Bytes) (h : enc ine (.seq false a cs) (.record vs) = some b) (i : Nat) (f : Field) (t : Ty) (v : Val)
    (hc : cs.get? i = some (f, t)) (hv : vs.get? i = some v) (hn : v ≠ .absent) (hm : f.mode ≠ .dflt v) :
    ∃ c, enc f.mode.isOpt t v = some c ∧ (c.length < b.length ∨ c = []) := by
  rw [enc] at h
  split at h
  · cases he : encComps cs vs with
    | none => simp [he] at h
    | some ps =>
      obtain ⟨c, h1, h2⟩ := encComps_length cs vs ps i f t v he hc hv hn hm
      refine ⟨c, h1, ?_⟩
      simp only [he, Bool.false_eq_true, ↓reduceIte] at h
      split at h
      · rename_i hemp
        right
        simp only [Bool.and_eq_true, List.isEmpty_iff] at hemp
        rw [hemp.2] at h2
        exact List.length_eq_zero_iff.1 (by simpa using h2)
      · left
        rw [ha] at h
        have := wrap_length_lt true tag tags _ b h
        omega
  · simp at h

theorem enc_octets (ine : Bool) (k : Prim) (a : Attrs) (c b : Bytes) (h : enc ine (.prim k a) (.octets c) = some b) :
    c.length ≤ b.length := by
  rw [enc] at h
  obtain ⟨d, h1, h2⟩ := Option.bind_eq_some_iff.1 h
  have : d = c := by
    cases k <;> simp [encPrim] at h1 <;> exact h1.symm
  exact this ▸ wrap_length false a.tags d b h2

theorem contentInfo_shape : ∃ (a : Attrs) (tag : Tag) (tags : TagSet) (f0 f1 : Field) (t0 : Ty) (a1 : Attrs),
    Rfc5652.ContentInfo.call.ty = .seq false a (.cons f0 t0 (.cons f1 (.prim .any a1) .nil)) ∧
    a.tags = tag :: tags ∧ f1.mode = .req := ⟨_, _, _, _, _, _, _, rfl, rfl, rfl⟩

theorem signedData_shape : ∃ (a : Attrs) (tag : Tag) (tags : TagSet) (f0 f1 f2 : Field) (t0 t1 : Ty) (cs : Comps)
    (a2 : Attrs) (tag2 : Tag) (tags2 : TagSet) (g0 g1 : Field) (b0 b1 : Attrs),
    Rfc5652.SignedData.call.ty = .seq false a (.cons f0 t0 (.cons f1 t1 (.cons f2
      (.seq false a2 (.cons g0 (.prim .oid b0) (.cons g1 (.prim .octetString b1) .nil))) cs))) ∧
    a.tags = tag :: tags ∧ f2.mode = .req ∧ a2.tags = tag2 :: tags2 ∧ g0.mode = .req ∧ g1.mode = .opt :=
  ⟨_, _, _, _, _, _, _, _, _, _, _, _, _, _, _, _, rfl, rfl, rfl, rfl, rfl, rfl⟩

theorem wrapped_some {v : Val} {l : Layer} (h : wrapped v = some l) :
    ∃ c, v = .record (.cons (.oid l.oid) (.cons (.octets c) .nil)) ∧ l.data = some c := by
  unfold wrapped at h
  split at h
  · simp only [Option.some.injEq] at h
    subst h
    exact ⟨_, rfl, rfl⟩
  · simp at h

theorem signed_some {v : Val} {l : Layer} (h : signed v = some l) :
    ∃ v0 v1 c vs, v = .record (.cons v0 (.cons v1 (.cons (.record (.cons (.oid l.oid) (.cons c .nil))) vs))) ∧
      ((∃ b, c = .octets b ∧ l.data = some b) ∨ c = .absent ∧ l.data = none) := by
  unfold signed at h
  split at h
  · split at h
    · simp only [Option.some.injEq] at h
      subst h
      exact ⟨_, _, _, _, rfl, .inl ⟨_, rfl, rfl⟩⟩
    · simp only [Option.some.injEq] at h
      subst h
      exact ⟨_, _, _, _, rfl, .inr ⟨rfl, rfl⟩⟩
    · simp at h
  · simp at h

theorem whole_some {t : Ty} {d : Option Bytes} {v : Val} (h : whole t d = some v) :
    ∃ b, d = some b ∧ decode t b = some (v, []) ∧ encode t v = some b := by
  unfold whole at h
  cases d with
  | none => simp at h
  | some b =>
    simp only at h
    cases hd : decode t b with
    | none => simp [hd] at h
    | some p =>
      obtain ⟨w, r⟩ := p
      simp only [hd] at h
      split at h
      · rename_i hc
        simp only [Option.some.injEq] at h
        subst h
        exact ⟨b, rfl, by rw [← hc.2, hd], hc.1⟩
      · simp at h

/-- The data of a layer within a layer is shorter. -/
theorem cmc_shrinks (l l' : Layer) (v : Val) (h : cmcStep l = .next v l') :
    ∃ b, l.data = some b ∧ ∀ c, l'.data = some c → c.length < b.length := by
  unfold cmcStep at h
  split at h
  · split at h
    · simp at h
    · rename_i w hw
      obtain ⟨b, h1, _, h3⟩ := whole_some hw
      refine ⟨b, h1, ?_⟩
      unfold advance at h
      split at h
      · rename_i l'' hl
        simp only [Step.next.injEq] at h
        obtain ⟨rfl, rfl⟩ := h
        obtain ⟨c, rfl, hd⟩ := wrapped_some hl
        intro c' hc'
        rw [hd] at hc'; cases hc'
        obtain ⟨a, tag, tags, f0, f1, t0, a1, hs, ht, hm⟩ := contentInfo_shape
        rw [hs] at h3
        obtain ⟨e, h4, h5⟩ := enc_component false a tag tags ht _ _ b h3 1 f1 (.prim .any a1) (.octets c) rfl rfl
          (by simp) (by simp [hm])
        have h6 := enc_octets _ _ _ _ _ h4
        rcases h5 with h5 | h5
        · omega
        · subst h5
          have : 0 < b.length := by
            simp only [encode, enc] at h3
            split at h3
            · split at h3
              · simp at h3
              · simp only [Bool.false_and, Bool.false_eq_true, ↓reduceIte] at h3
                rw [ht] at h3
                have := wrap_length_lt true tag tags _ b h3
                omega
            · simp at h3
          simp only [List.length_nil] at h6
          omega
      · simp at h
  · split at h
    · split at h
      · simp at h
      · rename_i w hw
        obtain ⟨b, h1, _, h3⟩ := whole_some hw
        refine ⟨b, h1, ?_⟩
        unfold advance at h
        split at h
        · rename_i l'' hl
          simp only [Step.next.injEq] at h
          obtain ⟨rfl, rfl⟩ := h
          obtain ⟨v0, v1, c, vs, rfl, hd⟩ := signed_some hl
          intro c' hc'
          rcases hd with ⟨c'', rfl, hd⟩ | ⟨_, hd⟩
          · rw [hd] at hc'; cases hc'
            obtain ⟨a, tag, tags, f0, f1, f2, t0, t1, cs, a2, tag2, tags2, g0, g1, b0, b1, hs, ht, hm, ht2, hm1, hm2⟩ := signedData_shape
            rw [hs] at h3
            obtain ⟨e, h4, h5⟩ := enc_component false a tag tags ht _ _ b h3 2 f2 _ _ rfl rfl (by simp) (by simp [hm])
            rw [hm] at h4
            obtain ⟨e', h6, h7⟩ := enc_component false a2 tag2 tags2 ht2 _ _ e h4 1 g1 _ _ rfl rfl (by simp) (by simp [hm2])
            have h8 := enc_octets _ _ _ _ _ h6
            have h9 : 0 < e.length := by
              simp only [Mode.isOpt, enc] at h4
              split at h4
              · split at h4
                · simp at h4
                · simp only [Bool.false_and, Bool.false_eq_true, ↓reduceIte] at h4
                  rw [ht2] at h4
                  have := wrap_length_lt true tag2 tags2 _ e h4
                  omega
              · simp at h4
            have h10 : e.length < b.length := by
              rcases h5 with h5 | h5
              · exact h5
              · subst h5; simp at h9
            rcases h7 with h7 | h7
            · omega
            · subst h7
              simp only [List.length_nil] at h8
              omega
          · rw [hd] at hc'; simp at hc'
        · simp at h
    · split at h
      · split at h <;> simp at h
      · simp at h

/-! ## When the loop ends -/

/-- The number of rounds that can do anything. -/
def rounds (l : Layer) : Nat := match l.data with
  | some b => b.length + 2
  | none => 1

theorem cmcStep_same (l : Layer) (h : cmcStep l = .same) (n : Nat) : cmcLoop n l = ([], none) := by
  induction n with
  | zero => rfl
  | succ n ih => simp [cmcLoop, h, ih]

theorem cmcLoop_mono (n m : Nat) (h : n ≤ m) : ∀ (l : Layer), (cmcLoop n l).2 ≠ none → cmcLoop m l = cmcLoop n l := by
  induction n generalizing m with
  | zero => intro l hl; simp [cmcLoop] at hl
  | succ n ih =>
    intro l hl
    obtain ⟨m, rfl⟩ : ∃ m', m = m' + 1 := ⟨m - 1, by omega⟩
    cases hs : cmcStep l with
    | raised => simp [cmcLoop, hs]
    | last v => simp [cmcLoop, hs]
    | same => rw [cmcStep_same l hs] at hl; simp at hl
    | next v l' =>
      simp only [cmcLoop, hs] at hl ⊢
      rw [ih m (by omega) l' hl]

/-- C09: whatever the input, the loop either ends within a number of rounds bounded by the size of
the data or never. -/
theorem cmc_decides (l : Layer) : (cmcLoop (rounds l) l).2 ≠ none ∨ ∀ n, (cmcLoop n l).2 = none := by
  induction hk : (rounds l) using Nat.strongRecOn generalizing l with
  | ind k ih =>
    subst hk
    obtain ⟨k, hk⟩ : ∃ k, rounds l = k + 1 := by
      unfold rounds; split
      · exact ⟨_, rfl⟩
      · exact ⟨0, rfl⟩
    cases hs : cmcStep l with
    | raised => left; rw [hk]; simp [cmcLoop, hs]
    | last v => left; rw [hk]; simp [cmcLoop, hs]
    | same => right; intro n; rw [cmcStep_same l hs]
    | next v l' =>
      obtain ⟨b, h1, h2⟩ := cmc_shrinks l l' v hs
      have hlt : rounds l' ≤ k := by
        have : rounds l = b.length + 2 := by simp [rounds, h1]
        cases hd : l'.data with
        | none => simp [rounds, hd]; omega
        | some c => have := h2 c hd; simp [rounds, hd]; omega
      rcases ih _ (by omega) l' rfl with h | h
      · left
        rw [hk]
        simp only [cmcLoop, hs]
        rw [cmcLoop_mono _ _ hlt l' h]
        exact h
      · right
        intro n
        cases n with
        | zero => rfl
        | succ n => simp only [cmcLoop, hs]; exact h n

/-- The content types the script has a branch for. -/
def known : List Val :=
  [Rfc5652.id_ct_contentInfo.value, Rfc5652.id_signedData.value, Rfc6402.id_cct_PKIData.value]

/-- One layer lies, at some depth, within another one. -/
inductive Leads : Layer → Layer → Prop
  | refl (l : Layer) : Leads l l
  | step {l l' l'' : Layer} {v : Val} : cmcStep l = .next v l' → Leads l' l'' → Leads l l''

theorem cmcStep_same_iff (l : Layer) : cmcStep l = .same ↔ Val.oid l.oid ∉ known := by
  unfold cmcStep known
  simp only [List.mem_cons, List.not_mem_nil, or_false, not_or]
  split
  · rename_i h
    constructor
    · intro hs
      split at hs
      · simp at hs
      · unfold advance at hs; split at hs <;> simp at hs
    · exact fun hn => absurd h hn.1
  · rename_i h1
    split
    · rename_i h
      constructor
      · intro hs
        split at hs
        · simp at hs
        · unfold advance at hs; split at hs <;> simp at hs
      · exact fun hn => absurd h hn.2.1
    · rename_i h2
      split
      · rename_i h
        constructor
        · intro hs
          split at hs <;> simp at hs
        · exact fun hn => absurd h hn.2.2
      · rename_i h3
        exact ⟨fun _ => ⟨h1, h2, h3⟩, fun _ => rfl⟩

/-- C09: cmcdump runs for ever exactly when the layers lead to a content type it has no branch
for. -/
theorem cmc_forever (l : Layer) : (∀ n, (cmcLoop n l).2 = none) ↔ ∃ l', Leads l l' ∧ Val.oid l'.oid ∉ known := by
  constructor
  · intro h
    induction hk : rounds l using Nat.strongRecOn generalizing l with
    | ind k ih =>
      subst hk
      cases hs : cmcStep l with
      | raised => have := h 1; simp [cmcLoop, hs] at this
      | last v => have := h 1; simp [cmcLoop, hs] at this
      | same => exact ⟨l, .refl l, (cmcStep_same_iff l).1 hs⟩
      | next v l' =>
        obtain ⟨b, h1, h2⟩ := cmc_shrinks l l' v hs
        have hlt : rounds l' < rounds l := by
          have : rounds l = b.length + 2 := by simp [rounds, h1]
          cases hd : l'.data with
          | none => rw [this]; simp only [rounds, hd]; omega
          | some c => have := h2 c hd; rw [‹rounds l = _›]; simp only [rounds, hd]; omega
        obtain ⟨l'', h3, h4⟩ := ih _ hlt l' (fun n => by have := h (n + 1); simpa [cmcLoop, hs] using this) rfl
        exact ⟨l'', .step hs h3, h4⟩
  · rintro ⟨l', h1, h2⟩ n
    induction h1 generalizing n with
    | refl l => rw [cmcStep_same l ((cmcStep_same_iff l).2 h2)]
    | step hs _ ih =>
      cases n with
      | zero => rfl
      | succ n => simp only [cmcLoop, hs]; exact ih h2 n

/-! ## Messages -/

/-- A content info with the given type and contents. -/
def contentInfo (o : List Nat) (b : Bytes) : Val := .record (.cons (.oid o) (.cons (.octets b) .nil))

theorem contentInfo_mem : ("rfc5652.ContentInfo", Rfc5652.ContentInfo.call.ty) ∈ Package.types :=
  Package.mem_types (m := Rfc5652.asModule) (c := ("rfc5652.ContentInfo", Rfc5652.ContentInfo))
    (by simp [Package.modules]) (by simp [Rfc5652.asModule, Rfc5652.classes])
theorem signedData_mem : ("rfc5652.SignedData", Rfc5652.SignedData.call.ty) ∈ Package.types :=
  Package.mem_types (m := Rfc5652.asModule) (c := ("rfc5652.SignedData", Rfc5652.SignedData))
    (by simp [Package.modules]) (by simp [Rfc5652.asModule, Rfc5652.classes])
theorem pkiData_mem : ("rfc6402.PKIData", Rfc6402.PKIData.call.ty) ∈ Package.types :=
  Package.mem_types (m := Rfc6402.asModule) (c := ("rfc6402.PKIData", Rfc6402.PKIData))
    (by simp [Package.modules]) (by simp [Rfc6402.asModule, Rfc6402.classes])

/-- The loop accepts the encoding of every legal value. -/
theorem whole_value (n : String) (t : Ty) (hc : (n, t) ∈ Package.types) (hd : n ∉ Package.defective) (v : Val)
    (hv : t.valid v = true) (b : Bytes) (hb : encode t v = some b) :
    ∃ w, t.same false v w ∧ decode t b = some (w, []) ∧ whole t (some b) = some w := by
  rcases rt t false v b (Package.wf_of_mem hc hd) hv hb with ⟨_, h, _⟩ | ⟨_, x, w, h1, _, h3, h4, h5⟩
  · simp at h
  · obtain ⟨h6, _⟩ := h5 (Package.stable_of_mem hc)
    have h7 : decode t b = some (w, []) := by simp only [decode, h1.read, h3]
    exact ⟨w, h4, h7, by simp [whole, h7, show encode t w = some b from h6]⟩

theorem whole_contentInfo (o : List Nat) (c b : Bytes) (hv : Rfc5652.ContentInfo.call.ty.valid (contentInfo o c) = true)
    (hb : encode Rfc5652.ContentInfo.call.ty (contentInfo o c) = some b) :
    decode Rfc5652.ContentInfo.call.ty b = some (contentInfo o c, []) ∧
    whole Rfc5652.ContentInfo.call.ty (some b) = some (contentInfo o c) := by
  obtain ⟨w, h1, h2, h3⟩ := whole_value _ _ contentInfo_mem (by decide) _ hv b hb
  rw [← Ty.rigid_same _ false _ w (by decide +kernel) hv h1] at h2 h3
  exact ⟨h2, h3⟩

theorem cmcStep_start (o : List Nat) (c b : Bytes) (hv : Rfc5652.ContentInfo.call.ty.valid (contentInfo o c) = true)
    (hb : encode Rfc5652.ContentInfo.call.ty (contentInfo o c) = some b) :
    cmcStep (cmcStart b) = .next (contentInfo o c) ⟨o, some c⟩ := by
  unfold cmcStep
  rw [if_pos (cmcStart_oid b)]
  show (match whole Rfc5652.ContentInfo.call.ty (some b) with
    | none => Step.raised
    | some v => advance v (wrapped v)) = _
  rw [(whole_contentInfo o c b hv hb).2]
  rfl

/-- C09: a message of any other content type is printed, and then cmcdump hangs. -/
theorem cmc_hangs (o : List Nat) (c b : Bytes) (ho : Val.oid o ∉ known)
    (hv : Rfc5652.ContentInfo.call.ty.valid (contentInfo o c) = true)
    (hb : encode Rfc5652.ContentInfo.call.ty (contentInfo o c) = some b) (stdin : Text)
    (hi : stdin.filter (fun c => alphabet.contains c || c == '=') = base64 b) (n : Nat) :
    cmcdump (n + 1) stdin = ([contentInfo o c], none) := by
  unfold cmcdump
  rw [readBase64FromFile_inserted b stdin hi]
  simp only [(whole_contentInfo o c b hv hb).1, ↓reduceIte, cmcLoop, cmcStep_start o c b hv hb]
  rw [cmcStep_same ⟨o, some c⟩ ((cmcStep_same_iff _).2 ho)]

theorem signed_same (v w : Val) (l : Layer) (hv : signed v = some l) (hs : Rfc5652.SignedData.call.ty.same false v w) :
    signed w = some l := by
  obtain ⟨v0, v1, c, vs, rfl, hd⟩ := signed_some hv
  obtain ⟨a, tag, tags, f0, f1, f2, t0, t1, cs, a2, tag2, tags2, g0, g1, b0, b1, h, ht, hm, ht2, hm1, hm2⟩ := signedData_shape
  rw [h] at hs
  cases w <;> try (simp [Ty.same] at hs; done)
  rename_i ws
  simp only [Ty.same] at hs
  cases ws with
  | nil => simp [Comps.same] at hs
  | cons w0 ws =>
  cases ws with
  | nil => simp [Comps.same] at hs
  | cons w1 ws =>
  cases ws with
  | nil => simp [Comps.same] at hs
  | cons w2 ws =>
  simp only [Comps.same, hm] at hs
  obtain ⟨_, _, hs, _⟩ := hs
  cases w2 <;> try (simp [Ty.same] at hs; done)
  rename_i us
  simp only [Ty.same] at hs
  cases us with
  | nil => simp [Comps.same] at hs
  | cons u us =>
  cases us with
  | nil => simp [Comps.same] at hs
  | cons u' us =>
  cases us with
  | cons => simp [Comps.same] at hs
  | nil =>
  simp only [Comps.same, hm1, hm2, Ty.same, Ty.vanish, and_true] at hs
  obtain ⟨rfl, hs⟩ := hs
  have hc : c = u' := by
    rcases hs with ⟨h1, h2⟩ | ⟨h1, _⟩ | ⟨_, h1⟩
    · rw [h1, h2]
    · simp at h1
    · exact h1
  subst hc
  rcases hd with ⟨b, rfl, hd⟩ | ⟨rfl, hd⟩
  · simp only [signed, ← hd]
  · simp only [signed, ← hd]

/-- C09: a CMC request is printed layer by layer: content info, signed data, PKI data, for all
legal values. -/
theorem cmc_value (pk sd : Val) (p s b : Bytes)
    (hpv : Rfc6402.PKIData.call.ty.valid pk = true) (hp : encode Rfc6402.PKIData.call.ty pk = some p)
    (hsv : Rfc5652.SignedData.call.ty.valid sd = true) (hs : encode Rfc5652.SignedData.call.ty sd = some s)
    (hin : signed sd = some ⟨[1, 3, 6, 1, 5, 5, 7, 12, 2], some p⟩)
    (hcv : Rfc5652.ContentInfo.call.ty.valid (contentInfo [1, 2, 840, 113549, 1, 7, 2] s) = true)
    (hb : encode Rfc5652.ContentInfo.call.ty (contentInfo [1, 2, 840, 113549, 1, 7, 2] s) = some b) (stdin : Text)
    (hi : stdin.filter (fun c => alphabet.contains c || c == '=') = base64 b) :
    ∃ sd' pk', Rfc5652.SignedData.call.ty.same false sd sd' ∧ Rfc6402.PKIData.call.ty.same false pk pk' ∧
      ∀ n, 3 ≤ n → cmcdump n stdin = ([contentInfo [1, 2, 840, 113549, 1, 7, 2] s, sd', pk'], some .exit) := by
  obtain ⟨sd', s1, _, s3⟩ := whole_value _ _ signedData_mem (by decide) sd hsv s hs
  obtain ⟨pk', p1, _, p3⟩ := whole_value _ _ pkiData_mem (by decide) pk hpv p hp
  refine ⟨sd', pk', s1, p1, ?_⟩
  intro n hn
  obtain ⟨n, rfl⟩ : ∃ m, n = m + 3 := ⟨n - 3, by omega⟩
  have e1 : cmcStep ⟨[1, 2, 840, 113549, 1, 7, 2], some s⟩ = .next sd' ⟨[1, 3, 6, 1, 5, 5, 7, 12, 2], some p⟩ := by
    unfold cmcStep
    simp only
    rw [if_neg (by decide +kernel), if_pos (by decide +kernel), s3]
    simp only [signed_same sd sd' _ hin s1, advance]
  have e2 : cmcStep ⟨[1, 3, 6, 1, 5, 5, 7, 12, 2], some p⟩ = .last pk' := by
    unfold cmcStep
    simp only
    rw [if_neg (by decide +kernel), if_neg (by decide +kernel), if_pos (by decide +kernel), p3]
  unfold cmcdump
  rw [readBase64FromFile_inserted b stdin hi]
  simp only [(whole_contentInfo _ s b hcv hb).1, ↓reduceIte, cmcLoop, cmcStep_start _ s b hcv hb, e1, e2]

/-! ## Instances -/

/-- An empty PKI request. -/
def pkiData : Val := .record (.ofList [.list .nil, .list .nil, .list .nil, .list .nil])

/-- It, signed by nobody. -/
def signedData : Val :=
  .record (.ofList [.int 3, .list .nil,
    .record (.ofList [.oid [1, 3, 6, 1, 5, 5, 7, 12, 2], .octets [48, 8, 48, 0, 48, 0, 48, 0, 48, 0]]),
    .absent, .absent, .list .nil])

-- `cmc_value` applies to it
example : Rfc6402.PKIData.call.ty.valid pkiData = true ∧
    encode Rfc6402.PKIData.call.ty pkiData = some [48, 8, 48, 0, 48, 0, 48, 0, 48, 0] ∧
    Rfc5652.SignedData.call.ty.valid signedData = true ∧
    (encode Rfc5652.SignedData.call.ty signedData).isSome = true ∧
    signed signedData = some ⟨[1, 3, 6, 1, 5, 5, 7, 12, 2], some [48, 8, 48, 0, 48, 0, 48, 0, 48, 0]⟩ ∧
    Rfc5652.ContentInfo.call.ty.valid (contentInfo [1, 2, 840, 113549, 1, 7, 2]
      ((encode Rfc5652.SignedData.call.ty signedData).getD [])) = true := by decide +kernel

-- `cmc_hangs` applies to plain data, the simplest content type there is
example : Val.oid [1, 2, 840, 113549, 1, 7, 1] ∉ known ∧
    Rfc5652.ContentInfo.call.ty.valid (contentInfo [1, 2, 840, 113549, 1, 7, 1] [4, 1, 65]) = true ∧
    encode Rfc5652.ContentInfo.call.ty (contentInfo [1, 2, 840, 113549, 1, 7, 1] [4, 1, 65]) =
      some [48, 16, 6, 9, 42, 134, 72, 134, 247, 13, 1, 7, 1, 160, 3, 4, 1, 65] := by decide +kernel

end Cmc
end Props
end Verif
