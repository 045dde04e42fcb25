import Verif.KeytabLemmas
/-
Properties C06 (keytab part), C08 (keytab part), C10–C15: the keytab file format.
`dbg` is the build profile (overflow checks).
-/
namespace Verif.KT

theorem parse_eq (dbg : Bool) (a b : UInt8) (i : Bytes) :
    Keytab.parse dbg (a :: b :: i) = match many0 (KeytabEntry.parse dbg) i with
      | .error e => .error e
      | .ok (es, r) => .ok (⟨a, b, es⟩, r) := by
  unfold Keytab.parse
  simp only [bind_def, beU8]
  cases many0 (KeytabEntry.parse dbg) i with
  | error e => rfl
  | ok v => rfl

theorem many0_nil (dbg : Bool) : many0 (KeytabEntry.parse dbg) [] = .ok ([], []) := by
  rw [many0_unfold (entry_suffix dbg)]; rfl

/-! ## C10 -/

/-- C10. A representable keytab reads back identically, in both build profiles. -/
theorem c10_keytab_roundtrip (dbg : Bool) (k : Keytab) (h : k.Fits) :
    Keytab.parse dbg k.build = .ok (k, []) := by
  rw [Keytab.build, List.append_assoc, List.singleton_append, List.singleton_append, parse_eq]
  have := many0_reads (b := KeytabEntry.build) (entry_suffix dbg) k.entries []
    (fun e he => entry_reads dbg (h e he)) (fun e _ => build_ne e)
  rw [List.append_nil, many0_nil] at this
  rw [this]; simp

/-- C10. A single entry followed by arbitrary bytes. -/
theorem c10_entry_roundtrip (dbg : Bool) (e : KeytabEntry) (h : e.Fits) (rest : Bytes) :
    KeytabEntry.parse dbg (e.build ++ rest) = .ok (e, rest) := entry_reads dbg h rest

example : sampleKeytab.Fits ∧ sampleKeytab.entries.length = 2 := by decide

/-! ## C06 (keytab) -/

/-- C06. For keytab entries the limits are exact: the round-trip works iff every count, length and the
record size fit their fields. -/
theorem c06_keytab_entry_limit (dbg : Bool) (e : KeytabEntry) :
    KeytabEntry.parse dbg e.build = .ok (e, []) ↔ e.Fits := by
  constructor
  · intro h; exact entry_fits h
  · intro h; simpa using entry_reads dbg h []

/-- C06. The 16-bit limit of keytab strings is exact. -/
theorem c06_keytab_string_limit (d : Bytes) :
    parseCos (buildCos d) = .ok (d, []) ↔ d.length < 2^16 := by
  constructor
  · intro h; exact (cos_ok h).1
  · intro h; simpa using cos_reads h []

example : ∃ e : KeytabEntry, ¬ e.Fits :=
  ⟨{ sampleEntry with realm := List.replicate 65536 1 }, by
    intro h; have := h.1; simp only [List.length_replicate] at this; exact absurd this (by decide)⟩

/-! ## C08 (keytab) -/

/-- C08. Without overflow checks no input makes the keytab parser panic. -/
theorem c08_keytab_no_panic (raw : Bytes) : Keytab.parse false raw ≠ .error .panic := by
  unfold Keytab.parse
  exact beU8_noPanic.bind (fun _ => beU8_noPanic.bind fun _ =>
    (many0_noPanic (entry_suffix false) entry_noPanic).bind fun _ => NoPanic.pure _) raw

/-- C08. The remainder of a keytab parse is a suffix of the input. -/
theorem c08_keytab_suffix (dbg : Bool) (raw : Bytes) (k : Keytab) (rest : Bytes)
    (h : Keytab.parse dbg raw = .ok (k, rest)) :
    ∃ body, raw = [k.kversion, k.version] ++ body ++ rest := by
  unfold Keytab.parse at h
  simp only [bind_ok, pure_ok] at h
  obtain ⟨a, r1, h1, b, r2, h2, es, r3, h3, rfl, rfl⟩ := h
  obtain ⟨c, hc⟩ := many0_suffix (entry_suffix dbg) _ _ _ h3
  exact ⟨c, by rw [beU8_exact _ _ _ h1, beU8_exact _ _ _ h2, hc]; simp⟩

example : (Keytab.parse true (sampleKeytab.build ++ [1, 2, 3])) = .ok (sampleKeytab, [1, 2, 3]) := by
  decide +kernel

/-! ## C11 -/

theorem hole_parse (dbg : Bool) (c rest : Bytes) (h0 : 0 < c.length) (h1 : c.length < 2^31) :
    KeytabEntry.parse dbg (holeHeader c.length ++ c ++ rest) = .ok (KeytabEntry.dflt, rest) := by
  have hn : (UInt32.ofNat (2^32 - c.length)).toNat = 2^32 - c.length := by
    rw [u32_toNat_ofNat]; omega
  rw [holeHeader, List.append_assoc, parse_hole dbg _ (by omega), hn]
  rw [if_neg (by simp; omega)]
  have : 2^32 - (2^32 - c.length) = c.length := by omega
  rw [this]; simp

/-- C11. A deleted slot of any size with any content consumes exactly its bytes and is reported as the
blank entry. -/
theorem c11_hole_entry (dbg : Bool) (content rest : Bytes) (h0 : 0 < content.length)
    (h1 : content.length < 2^31) :
    KeytabEntry.parse dbg (holeHeader content.length ++ content ++ rest)
      = .ok (⟨[], [], 0, 0, 0, ⟨0, []⟩, some 0⟩, rest) := hole_parse dbg content rest h0 h1

theorem slot_reads (dbg : Bool) (s : Slot) (h : s.Fits) :
    Reads (KeytabEntry.parse dbg) s.bytes s.shown := by
  cases s with
  | live e => exact entry_reads dbg h
  | hole c => intro rest; exact hole_parse dbg c rest h.1 h.2

theorem slots_read (dbg : Bool) (slots : List Slot) (h : ∀ s ∈ slots, s.Fits) (rest : Bytes) :
    many0 (KeytabEntry.parse dbg) (slots.flatMap Slot.bytes ++ rest) =
      match many0 (KeytabEntry.parse dbg) rest with
      | .error e => .error e
      | .ok (es, r) => .ok (slots.map Slot.shown ++ es, r) := by
  induction slots with
  | nil => simp only [List.flatMap_nil, List.nil_append, List.map_nil]; cases many0 _ rest <;> rfl
  | cons s slots ih =>
    rw [List.flatMap_cons, List.append_assoc, many0_unfold (entry_suffix dbg),
      slot_reads dbg s (h s (by simp))]
    have := entry_consumes (slot_reads dbg s (h s (by simp)) (slots.flatMap Slot.bytes ++ rest))
    have hn : ¬ ((slots.flatMap Slot.bytes ++ rest).length
        = (s.bytes ++ (slots.flatMap Slot.bytes ++ rest)).length) := by omega
    simp only [hn, if_false]
    rw [ih (fun x hx => h x (by simp [hx]))]
    cases many0 (KeytabEntry.parse dbg) rest <;> rfl

/-- C11. In a keytab made of live entries and deleted slots in any order, every live entry is read intact
and every deleted slot appears as one blank entry at its position. -/
theorem c11_keytab_with_holes (dbg : Bool) (kv v : UInt8) (slots : List Slot)
    (h : ∀ s ∈ slots, s.Fits) :
    Keytab.parse dbg ([kv, v] ++ slots.flatMap Slot.bytes)
      = .ok (⟨kv, v, slots.map Slot.shown⟩, []) := by
  rw [List.cons_append, List.cons_append, List.nil_append, parse_eq]
  have := slots_read dbg slots h []
  rw [List.append_nil, many0_nil] at this
  rw [this]; simp

/-- the record that stands in the saved file for a slot: the live entry as it was, for a deleted one a live record of 21
bytes (size 21; no components; every other field zero) -/
def Slot.resaved : Slot → Bytes
  | .live e => e.build
  | .hole _ => [0, 0, 0, 21] ++ List.replicate 21 0

/-- C11 (violation of "deleted entries are not visible"): in every keytab with live entries and deleted slots there are as many
entries as slots, and saving the loaded keytab makes every deleted slot a live blank record in its place. -/
theorem c11_hole_resurrected (dbg : Bool) (kv v : UInt8) (slots : List Slot) (h : ∀ s ∈ slots, s.Fits) :
    ∃ k, Keytab.parse dbg ([kv, v] ++ slots.flatMap Slot.bytes) = .ok (k, []) ∧ k.entries.length = slots.length ∧
      k.build = [kv, v] ++ slots.flatMap Slot.resaved := by
  refine ⟨_, c11_keytab_with_holes dbg kv v slots h, List.length_map .., ?_⟩
  have hs : ∀ s : Slot, s.shown.build = s.resaved := by
    intro s
    cases s with
    | live e => rfl
    | hole c => show KeytabEntry.build ⟨[], [], 0, 0, 0, ⟨0, []⟩, some 0⟩ = [0, 0, 0, 21] ++ List.replicate 21 0; decide +kernel
  have : ∀ l : List Slot, (l.map Slot.shown).flatMap KeytabEntry.build = l.flatMap Slot.resaved := by
    intro l
    induction l with
    | nil => rfl
    | cons s l ih => rw [List.map_cons, List.flatMap_cons, List.flatMap_cons, ih, hs]
  show [kv, v] ++ (slots.map Slot.shown).flatMap KeytabEntry.build = _
  rw [this]

example : ∀ s ∈ [Slot.live sampleEntry, .hole [1, 2, 3], .live sampleEntry], s.Fits := by
  intro s hs
  simp only [List.mem_cons, List.not_mem_nil, or_false] at hs
  rcases hs with rfl | rfl | rfl
  · exact (by decide : sampleEntry.Fits)
  · exact ⟨by decide, by decide⟩
  · exact (by decide : sampleEntry.Fits)

/-! ## C12 -/

theorem many0_panic_iff (raw : Bytes) :
    many0 (KeytabEntry.parse true) raw = .error .panic ↔
      ∃ pre es post, raw = pre ++ [0x80, 0, 0, 0] ++ post ∧
        many0 (KeytabEntry.parse true) pre = .ok (es, []) := by
  have hs := entry_suffix true
  constructor
  · suffices H : ∀ n i, i.length ≤ n → many0 (KeytabEntry.parse true) i = .error .panic →
        ∃ pre es post, i = pre ++ [0x80, 0, 0, 0] ++ post ∧
        many0 (KeytabEntry.parse true) pre = .ok (es, []) from
      fun h => H raw.length raw (Nat.le_refl _) h
    intro n
    induction n with
    | zero =>
      intro i hi h
      have : i = [] := List.length_eq_zero_iff.mp (by omega)
      subst this
      rw [many0_nil] at h; simp at h
    | succ n ih =>
      intro i hi h
      rw [many0_unfold hs] at h
      cases hpi : KeytabEntry.parse true i with
      | error e =>
        cases e <;> rw [hpi] at h <;> simp at h
        obtain ⟨r, rfl⟩ := entry_panic hpi
        exact ⟨[], [], r, rfl, many0_nil true⟩
      | ok v =>
        obtain ⟨a, r1⟩ := v
        rw [hpi] at h
        have hcons := entry_consumes hpi
        obtain ⟨c, hc⟩ := hs _ _ _ hpi
        have hn : ¬ (r1.length = i.length) := by omega
        simp only [hn, if_false] at h
        cases hm : many0 (KeytabEntry.parse true) r1 with
        | ok w => rw [hm] at h; simp at h
        | error e =>
          rw [hm] at h
          simp only [Except.error.injEq] at h
          subst h
          obtain ⟨pre, es, post, h1, h2⟩ := ih r1 (by omega) hm
          refine ⟨c ++ pre, a :: es, post, by rw [hc, h1]; simp, ?_⟩
          -- the first record is inside `c`
          have hci : KeytabEntry.parse true c = .ok (a, []) := by
            cases hcp : KeytabEntry.parse true c with
            | ok w =>
              have := entry_stable true _ _ _ r1 hcp
              rw [← hc, hpi] at this
              simp only [Except.ok.injEq, Prod.mk.injEq] at this
              have hw : w.2 = [] := by
                have := congrArg List.length this.2; simp at this; exact this
              obtain ⟨w1, w2⟩ := w
              simp only at hw this
              rw [hw, this.1]
            | error e =>
              exfalso
              rcases size_cases c with hsc | ⟨n, x, rfl⟩
              · have := congrArg List.length hc; simp at this; omega
              · rw [hc, List.append_assoc] at hpi
                have hr : r1.length ≤ (x ++ r1).length := by simp
                rcases Nat.lt_trichotomy n.toNat (2^31) with hn | hn | hn
                · rw [parse_live true n hn] at hpi hcp
                  split at hpi
                  · simp at hpi
                  · cases hb : parseBody ((x ++ r1).take n.toNat) with
                    | error e => rw [hb] at hpi; simp at hpi
                    | ok e' =>
                      rw [hb] at hpi
                      simp only [Except.ok.injEq, Prod.mk.injEq] at hpi
                      have := congrArg List.length hpi.2
                      simp only [List.length_drop, List.length_append] at this
                      have hx : n.toNat = x.length := by
                        rename_i hlt; simp at hlt; omega
                      rw [if_neg (by omega)] at hcp
                      rw [hx, List.take_append_of_le_length (by omega)] at hb
                      rw [hx, hb] at hcp
                      simp at hcp
                · rw [parse_min true n hn] at hpi; simp at hpi
                · rw [parse_hole true n hn] at hpi hcp
                  split at hpi
                  · simp at hpi
                  · simp only [Except.ok.injEq, Prod.mk.injEq] at hpi
                    have := congrArg List.length hpi.2
                    simp only [List.length_drop, List.length_append] at this
                    rename_i hlt; simp at hlt
                    rw [if_neg (by omega)] at hcp
                    simp at hcp
          have := entry_stable true _ _ _ pre hci
          rw [many0_unfold hs, this]
          have hcne : c ≠ [] := by
            intro h; subst h; simp at hc; rw [hc] at hcons; omega
          have : ¬ (([] ++ pre).length = (c ++ pre).length) := by
            simp [hcne]
          simp only [this, if_false]
          simp only [List.nil_append, h2]
  · rintro ⟨pre, es, post, rfl, h⟩
    suffices H : ∀ n i es, i.length ≤ n → many0 (KeytabEntry.parse true) i = .ok (es, []) →
        many0 (KeytabEntry.parse true) (i ++ ([0x80, 0, 0, 0] ++ post)) = .error .panic by
      rw [List.append_assoc]; exact H pre.length pre es (Nat.le_refl _) h
    intro n
    induction n with
    | zero =>
      intro i es hi h
      have : i = [] := List.length_eq_zero_iff.mp (by omega)
      subst this
      rw [List.nil_append, many0_unfold hs, entry_min_panics]
    | succ n ih =>
      intro i es hi h
      rw [many0_unfold hs] at h
      cases hpi : KeytabEntry.parse true i with
      | error e =>
        cases e <;> rw [hpi] at h <;> simp at h
        obtain ⟨-, rfl⟩ := h
        rw [List.nil_append, many0_unfold hs, entry_min_panics]
      | ok v =>
        obtain ⟨a, r1⟩ := v
        rw [hpi] at h
        have hcons := entry_consumes hpi
        have hn : ¬ (r1.length = i.length) := by omega
        simp only [hn, if_false] at h
        cases hm : many0 (KeytabEntry.parse true) r1 with
        | error e => rw [hm] at h; simp at h
        | ok w =>
          obtain ⟨es', r2⟩ := w
          rw [hm] at h
          simp only [Except.ok.injEq, Prod.mk.injEq] at h
          rw [h.2] at hm
          have h3 := entry_stable true _ _ _ ([0x80, 0, 0, 0] ++ post) hpi
          rw [many0_unfold hs, h3]
          have : ¬ ((r1 ++ ([0x80, 0, 0, 0] ++ post)).length
              = (i ++ ([0x80, 0, 0, 0] ++ post)).length) := by simp; omega
          simp only [this, if_false]
          rw [ih r1 es' (by omega) hm]

/-- C12. With overflow checks the parser panics exactly on the inputs consisting of a complete readable
keytab followed by a record whose size field is 80 00 00 00. -/
theorem c12_panic_iff (raw : Bytes) :
    Keytab.parse true raw = .error .panic ↔
      ∃ pre k post, raw = pre ++ [0x80, 0, 0, 0] ++ post ∧ Keytab.parse true pre = .ok (k, []) := by
  match raw with
  | [] =>
    constructor
    · intro h; exact absurd h (by decide)
    · rintro ⟨pre, k, post, h, -⟩; simp at h
  | [a] =>
    constructor
    · intro h; exact absurd (show (Except.error PErr.error : Except PErr (Keytab × Bytes)) = _ from h) (by simp)
    · rintro ⟨pre, k, post, h, -⟩
      have := congrArg List.length h; simp at this; omega
  | a :: b :: i =>
    rw [parse_eq]
    have key : (match many0 (KeytabEntry.parse true) i with
        | .error e => (.error e : Except PErr (Keytab × Bytes))
        | .ok (es, r) => .ok (⟨a, b, es⟩, r)) = .error .panic ↔
        many0 (KeytabEntry.parse true) i = .error .panic := by
      cases many0 (KeytabEntry.parse true) i <;> simp
    rw [key, many0_panic_iff]
    constructor
    · rintro ⟨pre, es, post, rfl, h⟩
      refine ⟨a :: b :: pre, ⟨a, b, es⟩, post, rfl, ?_⟩
      rw [parse_eq, h]
    · rintro ⟨pre, k, post, h, h'⟩
      match pre, h, h' with
      | [], _, h' => exact absurd (show (Except.error PErr.error : Except PErr (Keytab × Bytes)) = _ from h') (by simp)
      | [x], _, h' => exact absurd (show (Except.error PErr.error : Except PErr (Keytab × Bytes)) = _ from h') (by simp)
      | x :: y :: pre, h, h' =>
        simp only [List.cons_append, List.cons.injEq] at h
        obtain ⟨rfl, rfl, h⟩ := h
        rw [parse_eq] at h'
        cases hm : many0 (KeytabEntry.parse true) pre with
        | error e => rw [hm] at h'; simp at h'
        | ok w =>
          rw [hm] at h'
          simp only [Except.ok.injEq, Prod.mk.injEq] at h'
          exact ⟨pre, w.1, post, by simpa using h, by rw [hm, ← h'.2]⟩

/-- C12. The six-byte file 05 02 80 00 00 00 panics with overflow checks and is read as an empty keytab
without. -/
theorem c12_panic_witness : Keytab.parse true [5, 2, 0x80, 0, 0, 0] = .error .panic ∧
    Keytab.parse false [5, 2, 0x80, 0, 0, 0] = .ok (⟨5, 2, []⟩, [0x80, 0, 0, 0]) := by
  decide +kernel

/-- C12. Where it does not panic, the profile with overflow checks gives the same result as the one
without. -/
theorem c12_profiles_agree (raw : Bytes) (h : Keytab.parse true raw ≠ .error .panic) :
    Keytab.parse true raw = Keytab.parse false raw := by
  match raw with
  | [] => rfl
  | [a] => rfl
  | a :: b :: i =>
    rw [parse_eq] at h
    rw [parse_eq, parse_eq]
    suffices H : ∀ n i, i.length ≤ n → many0 (KeytabEntry.parse true) i ≠ .error .panic →
        many0 (KeytabEntry.parse true) i = many0 (KeytabEntry.parse false) i by
      rw [H i.length i (Nat.le_refl _)]
      intro h'; rw [h'] at h; simp at h
    intro n
    induction n with
    | zero =>
      intro i hi _
      have : i = [] := List.length_eq_zero_iff.mp (by omega)
      subst this; rw [many0_nil, many0_nil]
    | succ n ih =>
      intro i hi h
      rw [many0_unfold (entry_suffix true)] at h
      rw [many0_unfold (entry_suffix true), many0_unfold (entry_suffix false)]
      have hne : KeytabEntry.parse true i ≠ .error .panic := by
        intro h'; rw [h'] at h; simp at h
      rw [← entry_profiles i hne]
      cases hpi : KeytabEntry.parse true i with
      | error e => cases e <;> rfl
      | ok v =>
        obtain ⟨a, r1⟩ := v
        rw [hpi] at h
        have hcons := entry_consumes hpi
        have hn : ¬ (r1.length = i.length) := by omega
        simp only [hn, if_false] at h ⊢
        rw [ih r1 (by omega)]
        intro h'; rw [h'] at h; simp at h

/-! ## C13 -/

/-- C13. The result for a record with a non-negative size depends only on the bytes inside it; what
follows is returned untouched as remainder (or the record fails). -/
theorem c13_record_isolation (dbg : Bool) (content rest : Bytes) (h : content.length < 2^31) :
    KeytabEntry.parse dbg (be32 (UInt32.ofNat content.length) ++ content ++ rest) =
      match KeytabEntry.parse dbg (be32 (UInt32.ofNat content.length) ++ content) with
      | .error e => .error e
      | .ok (e, _) => .ok (e, rest) := by
  have hn : (UInt32.ofNat content.length).toNat = content.length := by
    rw [u32_toNat_ofNat]; omega
  rw [List.append_assoc, parse_live dbg _ (by omega), parse_live dbg _ (by omega), hn]
  rw [if_neg (by simp), if_neg (by omega)]
  simp only [List.take_left', List.drop_left', List.take_length, List.drop_length]
  cases parseBody content <;> simp

theorem fixed_surplus (dbg : Bool) (e : KeytabEntry) (x rest : Bytes) (hf : e.FieldsFit)
    (h : (e.fixed ++ x).length < 2^31) :
    KeytabEntry.parse dbg (be32 (UInt32.ofNat (e.fixed ++ x).length) ++ (e.fixed ++ x) ++ rest) =
      match (if x = [] then .ok { e with vno := none }
       else match beU32 x with
        | .error err => .error err
        | .ok (v, _) => .ok { e with vno := some v } : Except PErr KeytabEntry) with
      | .error err => .error err
      | .ok e => .ok (e, rest) := by
  have hn : (UInt32.ofNat (e.fixed ++ x).length).toNat = (e.fixed ++ x).length := by
    rw [u32_toNat_ofNat]; omega
  rw [List.append_assoc, parse_live dbg _ (by omega), hn]
  rw [if_neg (by simp)]
  have h1 : (e.fixed ++ x ++ rest).take (e.fixed ++ x).length = e.fixed ++ x :=
    List.take_left' rfl
  have h2 : (e.fixed ++ x ++ rest).drop (e.fixed ++ x).length = rest := List.drop_left' rfl
  rw [h1, h2, parseBody_fixed hf]
  cases (if x = [] then .ok { e with vno := none }
       else match beU32 x with
        | .error err => .error err
        | .ok (v, _) => .ok { e with vno := some v } : Except PErr KeytabEntry) <;> rfl

/-- C13. Surplus bytes after the 32-bit key version inside a record are ignored. -/
theorem c13_surplus_ignored (dbg : Bool) (e : KeytabEntry) (surplus rest : Bytes) (h : e.Fits)
    (hv : e.vno.isSome) (hs : e.bodySize + surplus.length < 2^31) :
    KeytabEntry.parse dbg (be32 (UInt32.ofNat (e.bodySize + surplus.length)) ++ (e.body ++ surplus) ++ rest)
      = .ok (e, rest) := by
  obtain ⟨v, hv⟩ := Option.isSome_iff_exists.mp hv
  have hb : e.body ++ surplus = e.fixed ++ (be32 v ++ surplus) := by rw [body_eq, hv]; simp
  have hl : e.bodySize + surplus.length = (e.fixed ++ (be32 v ++ surplus)).length := by
    rw [← hb, List.length_append, body_length]
  rw [hb, hl, fixed_surplus dbg e _ rest (Fits.fields h) (by omega)]
  have : be32 v ++ surplus ≠ [] := by simp [be32]
  rw [if_neg this, beU32_reads]
  cases e; simp_all

/-- C13. One to three surplus bytes after the key of an entry without 32-bit version make the record
unreadable: a plain `Err::Error`, which ends the keytab at this entry without any error being
reported. -/
theorem c13_short_surplus_unreadable (dbg : Bool) (e : KeytabEntry) (surplus rest : Bytes) (h : e.Fits)
    (hv : e.vno = none) (h1 : 1 ≤ surplus.length) (h3 : surplus.length ≤ 3)
    (hs : e.bodySize + surplus.length < 2^31) :
    KeytabEntry.parse dbg (be32 (UInt32.ofNat (e.bodySize + surplus.length)) ++ (e.body ++ surplus) ++ rest)
      = .error .error := by
  have hb : e.body ++ surplus = e.fixed ++ surplus := by rw [body_eq, hv]; simp
  have hl : e.bodySize + surplus.length = (e.fixed ++ surplus).length := by
    rw [← hb, List.length_append, body_length]
  rw [hb, hl, fixed_surplus dbg e _ rest (Fits.fields h) (by omega)]
  match surplus, h1, h3 with
  | [a], _, _ => rfl
  | [a, b], _, _ => rfl
  | [a, b, c], _, _ => rfl

/-- C13. Consequence at file level, for every file and place: the entries before such a record are shown, it and all entries
behind it are silently lost. -/
theorem c13_entries_lost (dbg : Bool) (k : Keytab) (hk : k.Fits) (e : KeytabEntry) (surplus : Bytes) (h : e.Fits)
    (hv : e.vno = none) (h1 : 1 ≤ surplus.length) (h3 : surplus.length ≤ 3)
    (hs : e.bodySize + surplus.length < 2^31) (behind : List KeytabEntry) :
    Keytab.parse dbg (k.build ++ (be32 (UInt32.ofNat (e.bodySize + surplus.length)) ++ (e.body ++ surplus)
        ++ behind.flatMap KeytabEntry.build))
      = .ok (k, be32 (UInt32.ofNat (e.bodySize + surplus.length)) ++ (e.body ++ surplus)
        ++ behind.flatMap KeytabEntry.build) := by
  have hu := c13_short_surplus_unreadable dbg e surplus (behind.flatMap KeytabEntry.build) h hv h1 h3 hs
  generalize be32 (UInt32.ofNat (e.bodySize + surplus.length)) ++ (e.body ++ surplus)
        ++ behind.flatMap KeytabEntry.build = tail at hu
  rw [Keytab.build, List.append_assoc, List.append_assoc, List.singleton_append, List.singleton_append, parse_eq]
  have := many0_reads (b := KeytabEntry.build) (entry_suffix dbg) k.entries tail
    (fun e he => entry_reads dbg (hk e he)) (fun e _ => build_ne e)
  rw [this, many0_unfold (entry_suffix dbg), hu]
  simp

example : sampleEntry.Fits ∧ sampleEntry.vno.isSome ∧ ({ sampleEntry with vno := none }).Fits := by
  decide

/-! ## C14 -/

theorem entries_prefix (dbg : Bool) (es : List KeytabEntry) (h : ∀ e ∈ es, e.Fits) (k : Nat)
    (hk : k ≤ (es.flatMap KeytabEntry.build).length) :
    ∃ j rest, j ≤ es.length ∧
      many0 (KeytabEntry.parse dbg) ((es.flatMap KeytabEntry.build).take k) = .ok (es.take j, rest) ∧
      (es.flatMap KeytabEntry.build).take k = (es.take j).flatMap KeytabEntry.build ++ rest ∧
      (∀ x ∈ es[j]?, rest.length < x.build.length) := by
  induction es generalizing k with
  | nil => exact ⟨0, [], by simp, by simp [many0_nil], by simp, by simp⟩
  | cons e es ih =>
    have he := h e (by simp)
    have hl : e.body.length < 2^31 := by rw [body_length]; exact he.2.2.2.2
    have hn : (UInt32.ofNat e.body.length).toNat = e.body.length := by
      rw [u32_toNat_ofNat]; omega
    by_cases hlt : k < e.build.length
    · have e1 : (List.flatMap KeytabEntry.build (e :: es)).take k = e.build.take k := by
        rw [List.flatMap_cons, List.take_append_of_le_length (by omega)]
      have herr : KeytabEntry.parse dbg (e.build.take k) = .error .error := by
        by_cases h4 : k < 4
        · exact parse_short dbg (by simp; omega)
        · have hb : e.build.take k = be32 (UInt32.ofNat e.body.length) ++ e.body.take (k - 4) := by
            rw [KeytabEntry.build, List.take_append, List.take_of_length_le (by simp; omega)]; simp
          have : e.build.length = 4 + e.body.length := by simp [KeytabEntry.build]
          rw [hb, parse_live dbg _ (by omega), hn, if_pos (by simp; omega)]
      rw [e1, many0_unfold (entry_suffix dbg), herr]
      refine ⟨0, e.build.take k, by simp, rfl, by simp, ?_⟩
      simp; omega
    · have e1 : (List.flatMap KeytabEntry.build (e :: es)).take k =
          [e].flatMap KeytabEntry.build ++ (List.flatMap KeytabEntry.build es).take (k - e.build.length) := by
        rw [List.flatMap_cons, List.take_append, List.take_of_length_le (by omega)]; simp
      have hk' : k - e.build.length ≤ (List.flatMap KeytabEntry.build es).length := by
        rw [List.flatMap_cons, List.length_append] at hk; omega
      have e2 := many0_reads (b := KeytabEntry.build) (entry_suffix dbg) [e]
        ((List.flatMap KeytabEntry.build es).take (k - e.build.length))
        (fun x hx => by rw [List.mem_singleton.mp hx]; exact entry_reads dbg he)
        (fun x _ => build_ne x)
      obtain ⟨j, rest, hj, hm, hb, hr⟩ := ih (fun x hx => h x (by simp [hx])) _ hk'
      refine ⟨j + 1, rest, by simpa using hj, ?_, ?_, by simpa using hr⟩
      · rw [e1, e2, hm]; rfl
      · rw [e1, hb]; simp

/-- C14. A keytab file cut at any byte behind the version is always accepted, showing exactly the entries
that are complete; the bytes of the incomplete one are the remainder. -/
theorem c14_truncated_keytab (dbg : Bool) (k : Keytab) (h : k.Fits) (n : Nat) (h2 : 2 ≤ n)
    (hn : n ≤ k.build.length) :
    ∃ j rest, j ≤ k.entries.length ∧
      Keytab.parse dbg (k.build.take n) = .ok ({ k with entries := k.entries.take j }, rest) ∧
      k.build.take n = { k with entries := k.entries.take j }.build ++ rest ∧
      (∀ x ∈ k.entries[j]?, rest.length < x.build.length) := by
  obtain ⟨m, rfl⟩ : ∃ m, n = m + 2 := ⟨n - 2, by omega⟩
  have e1 : k.build.take (m + 2)
      = k.kversion :: k.version :: (k.entries.flatMap KeytabEntry.build).take m := by
    simp [Keytab.build]
  have hm : m ≤ (k.entries.flatMap KeytabEntry.build).length := by
    simp [Keytab.build] at hn ⊢; omega
  obtain ⟨j, rest, hj, h3, h4, h5⟩ := entries_prefix dbg k.entries h m hm
  refine ⟨j, rest, hj, ?_, ?_, h5⟩
  · rw [e1, parse_eq, h3]
  · rw [e1, h4]; simp [Keytab.build]

/-- C14. A cut inside the two version bytes is refused. -/
theorem c14_truncated_version (dbg : Bool) (raw : Bytes) (h : raw.length < 2) :
    Keytab.parse dbg raw = .error .error := by
  match raw, h with
  | [], _ => rfl
  | [_], _ => rfl
  | a :: b :: r, h => simp at h; omega

example : sampleKeytab.Fits ∧ 2 ≤ 30 ∧ 30 ≤ sampleKeytab.build.length := by decide +kernel

/-! ## C15 -/

/-- C15. Whatever was loaded can be saved and loads again as the same keytab, completely. -/
theorem c15_resave (dbg dbg' : Bool) (raw : Bytes) (k : Keytab) (rest : Bytes)
    (h : Keytab.parse dbg raw = .ok (k, rest)) : Keytab.parse dbg' k.build = .ok (k, []) := by
  apply c10_keytab_roundtrip
  unfold Keytab.parse at h
  simp only [bind_ok, pure_ok] at h
  obtain ⟨a, r1, h1, b, r2, h2, es, r3, h3, rfl, rfl⟩ := h
  exact many0_all (P := KeytabEntry.Fits) (entry_suffix dbg) (fun _ _ _ h => entry_fits h) _ _ _ h3

example : ∃ k rest, Keytab.parse true ([5, 2] ++ Slot.bytes (.hole [1, 2, 3]) ++ sampleEntry.build ++ [7])
    = .ok (k, rest) ∧ k.entries.length = 2 := exists_ok (by decide +kernel)

end Verif.KT
