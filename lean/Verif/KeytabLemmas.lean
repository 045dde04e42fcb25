import Verif.KeytabSpec
/- Helper lemmas for the keytab format. -/
namespace Verif.KT

theorem except_bind_ok {ε α β} {x : Except ε α} {f : α → Except ε β} {b : β} :
    (x >>= f) = .ok b ↔ ∃ a, x = .ok a ∧ f a = .ok b := by
  cases x with
  | error e => simp [Bind.bind, Except.bind]
  | ok a => simp [Bind.bind, Except.bind]
theorem except_ok_bind {ε α β} (a : α) (f : α → Except ε β) :
    ((.ok a : Except ε α) >>= f) = f a := rfl
theorem except_error_bind {ε α β} (e : ε) (f : α → Except ε β) :
    ((.error e : Except ε α) >>= f) = .error e := rfl
theorem except_pure {ε α} (a : α) : (pure a : Except ε α) = .ok a := rfl

theorem u16_ofNat_toNat {n : Nat} (h : n < 2^16) : (UInt16.ofNat n).toNat = n := by
  rw [u16_toNat_ofNat]; omega

theorem cos_reads {d : Bytes} (h : d.length < 2^16) : Reads parseCos (buildCos d) d :=
  lengthData16_reads d h
theorem cos_ok {i d r} (h : parseCos i = .ok (d, r)) : d.length < 2^16 ∧ i = buildCos d ++ r :=
  lengthData16_ok h
theorem buildCos_ne (d) : buildCos d ≠ [] := by simp [buildCos, be16]

theorem keyBlock_reads {k : KeyBlock} (h : k.keyvalue.length < 2^16) :
    Reads KeyBlock.parse k.build k := by
  refine (beU16_reads _).seq ((lengthData16_reads _ h).seq (Reads.pure k) rfl) ?_
  simp [KeyBlock.build]
theorem keyBlock_ok {i k r} (h : KeyBlock.parse i = .ok (k, r)) :
    k.keyvalue.length < 2^16 ∧ i = k.build ++ r := by
  unfold KeyBlock.parse at h
  simp only [bind_ok, pure_ok] at h
  obtain ⟨a, r1, h1, b, r2, h2, rfl, rfl⟩ := h
  obtain ⟨f2, e2⟩ := lengthData16_ok h2
  refine ⟨f2, ?_⟩
  rw [beU16_exact _ _ _ h1, e2]; simp [KeyBlock.build]

theorem body_length (e : KeytabEntry) : e.body.length = e.bodySize := by
  unfold KeytabEntry.body KeytabEntry.bodySize
  have h : (e.components.flatMap buildCos).length = (e.components.map fun c => 2 + c.length).sum := by
    induction e.components with
    | nil => rfl
    | cons c cs ih =>
      simp only [List.flatMap_cons, List.length_append, List.map_cons, List.sum_cons, ih]
      simp [buildCos]
  cases e.vno <;> simp [h, KeyBlock.build, buildCos] <;> omega

/-- The fixed part of a record body. -/
def KeytabEntry.fixed (e : KeytabEntry) : Bytes :=
  be16 (UInt16.ofNat e.components.length) ++ buildCos e.realm ++ e.components.flatMap buildCos
    ++ be32 e.name_type ++ be32 e.timestamp ++ [e.vno8] ++ e.key.build

/-- Counted fields fit (no total size condition). -/
def KeytabEntry.FieldsFit (e : KeytabEntry) : Prop :=
  e.realm.length < 2^16 ∧ e.components.length < 2^16 ∧ (∀ c ∈ e.components, c.length < 2^16)
  ∧ e.key.keyvalue.length < 2^16

theorem parseBody_fixed {e : KeytabEntry} (h : e.FieldsFit) (x : Bytes) :
    parseBody (e.fixed ++ x) =
      (if x = [] then .ok { e with vno := none }
       else match beU32 x with
        | .error err => .error err
        | .ok (v, _) => .ok { e with vno := some v }) := by
  obtain ⟨h1, h2, h3, h4⟩ := h
  unfold parseBody KeytabEntry.fixed
  simp only [List.append_assoc]
  rw [beU16_reads, except_ok_bind]
  simp only [u16_ofNat_toNat h2]
  rw [cos_reads h1, except_ok_bind]
  simp only
  rw [manyN_reads e.components (fun c hc => cos_reads (h3 c hc)) (fun c _ => buildCos_ne c),
    except_ok_bind]
  simp only
  rw [beU32_reads, except_ok_bind]
  simp only
  rw [beU32_reads, except_ok_bind]
  simp only
  rw [beU8_reads, except_ok_bind]
  simp only
  rw [keyBlock_reads h4, except_ok_bind]
  simp only
  cases x with
  | nil => rfl
  | cons a x =>
    simp only [parseVno, List.isEmpty_cons, Bool.not_false, if_true, reduceCtorEq, if_false]
    cases beU32 (a :: x) with
    | error err => rfl
    | ok v => rfl

theorem parseBody_ok {i e} (h : parseBody i = .ok e) :
    e.FieldsFit ∧ ∃ x, i = e.fixed ++ x ∧
      ((x = [] ∧ e.vno = none) ∨ (∃ v r, x = be32 v ++ r ∧ e.vno = some v)) := by
  unfold parseBody at h
  simp only [except_bind_ok, except_pure, Except.ok.injEq] at h
  obtain ⟨⟨n, r1⟩, h1, ⟨rl, r2⟩, h2, ⟨cs, r3⟩, h3, ⟨nt, r4⟩, h4, ⟨ts, r5⟩, h5, ⟨v8, r6⟩, h6,
    ⟨k, r7⟩, h7, vno, h8, rfl⟩ := h
  simp only at *
  obtain ⟨f2, e2⟩ := cos_ok h2
  obtain ⟨l3, f3, e3⟩ := manyN_ok (P := fun d => d.length < 2^16) (fun _ _ _ h => (cos_ok h).2)
    (fun _ _ _ h => (cos_ok h).1) _ _ _ _ h3
  obtain ⟨f7, e7⟩ := keyBlock_ok h7
  refine ⟨⟨f2, ?_, f3, f7⟩, r7, ?_, ?_⟩
  · have := n.toNat_lt; simp only; omega
  · rw [beU16_exact _ _ _ h1, e2, e3, beU32_exact _ _ _ h4, beU32_exact _ _ _ h5,
      beU8_exact _ _ _ h6, e7]
    simp [KeytabEntry.fixed, l3]
  · cases r7 with
    | nil => left; simp [parseVno] at h8; simp [h8]
    | cons a x =>
      right
      simp only [parseVno, List.isEmpty_cons, Bool.not_false, if_true] at h8
      cases hb : beU32 (a :: x) with
      | error e => rw [hb] at h8; simp at h8
      | ok w =>
        obtain ⟨v, r⟩ := w
        rw [hb] at h8
        simp only [Except.ok.injEq] at h8
        exact ⟨v, r, beU32_exact _ _ _ hb, h8.symm⟩

theorem parseBody_noPanic (i : Bytes) : parseBody i ≠ .error .panic := by
  intro h
  have key : ∀ {α β} {p : Parser α} {i : Bytes} {f : α × Bytes → Except PErr β}, NoPanic p →
      ((p i) >>= f) = .error .panic → ∃ v, f v = .error .panic := by
    intro α β p i f hp h
    cases hpi : p i with
    | error e => rw [hpi, except_error_bind] at h; have := hp i; rw [hpi] at this; simp_all
    | ok v => rw [hpi, except_ok_bind] at h; exact ⟨v, h⟩
  unfold parseBody at h
  obtain ⟨v, h⟩ := key beU16_noPanic h
  obtain ⟨v, h⟩ := key lengthData16_noPanic h
  obtain ⟨v, h⟩ := key (manyN_noPanic lengthData16_noPanic _) h
  obtain ⟨v, h⟩ := key beU32_noPanic h
  obtain ⟨v, h⟩ := key beU32_noPanic h
  obtain ⟨v, h⟩ := key beU8_noPanic h
  obtain ⟨v, h⟩ := key (beU16_noPanic.bind fun _ => lengthData16_noPanic.bind fun _ =>
    NoPanic.pure _) h
  simp only at h
  cases hv : parseVno v.2 with
  | ok w => rw [hv] at h; simp [except_ok_bind, except_pure] at h
  | error e =>
    rw [hv, except_error_bind, Except.error.injEq] at h
    subst h
    unfold parseVno at hv
    split at hv
    · cases hb : beU32 v.2 with
      | error e =>
        rw [hb] at hv
        have := beU32_noPanic v.2
        simp_all
      | ok w => rw [hb] at hv; simp at hv
    · simp at hv

theorem body_eq (e : KeytabEntry) :
    e.body = e.fixed ++ (match e.vno with | some v => be32 v | none => []) := rfl

theorem parseBody_body {e : KeytabEntry} (h : e.FieldsFit) : parseBody e.body = .ok e := by
  rw [body_eq, parseBody_fixed h]
  cases hv : e.vno with
  | none => simp only [if_true]; cases e; simp_all
  | some v =>
    have hne : be32 v ≠ [] := by simp [be32]
    simp only [hne, if_false]
    have := beU32_reads v []
    rw [List.append_nil] at this
    rw [this]
    cases e; simp_all

/-! ### record framing -/

theorem beI32_reads (x : UInt32) (r : Bytes) : beI32 (be32 x ++ r) = .ok (x.toInt32, r) := by
  unfold beI32; rw [beU32_reads]

theorem asUsize_pos {x : UInt32} (h : x.toNat < 2^31) : asUsize x.toInt32 = x.toNat := by
  unfold asUsize
  rw [u32_toInt32_toInt, if_pos (by omega)]
  omega

theorem pos_not_neg {x : UInt32} (h : x.toNat < 2^31) : ¬ x.toInt32 < 0 := by
  rw [i32_neg_iff, u32_toInt32_toInt, if_pos (by omega)]; omega
theorem neg_of_ge {x : UInt32} (h : 2^31 ≤ x.toNat) : x.toInt32 < 0 := by
  rw [i32_neg_iff, u32_toInt32_toInt, if_neg (by omega)]
  have := x.toNat_lt; omega
theorem eq_min_iff (x : UInt32) : x.toInt32 = Int32.minValue ↔ x.toNat = 2^31 := by
  rw [← Int32.toInt_inj, u32_toInt32_toInt]
  have : Int32.minValue.toInt = -2147483648 := by decide
  rw [this]
  have := x.toNat_lt
  split <;> omega
theorem asUsize_neg {x : UInt32} (h : 2^31 < x.toNat) : asUsize (-x.toInt32) = 2^32 - x.toNat := by
  unfold asUsize
  rw [i32_neg, u32_toInt32_toInt]
  have := x.toNat_lt
  rw [if_neg (by omega), if_neg (by omega)]
  omega
theorem asUsize_min {x : UInt32} (h : x.toNat = 2^31) : asUsize (-x.toInt32) = 2^64 - 2^31 := by
  unfold asUsize
  rw [i32_neg, u32_toInt32_toInt, h]
  decide

/-- A record with non-negative size. -/
theorem parse_live (dbg : Bool) (n : UInt32) (hn : n.toNat < 2^31) (i : Bytes) :
    KeytabEntry.parse dbg (be32 n ++ i) =
      if i.length < n.toNat then .error .error
      else match parseBody (i.take n.toNat) with
        | .error e => .error e
        | .ok e => .ok (e, i.drop n.toNat) := by
  unfold KeytabEntry.parse
  rw [beI32_reads, except_ok_bind]
  simp only [pos_not_neg hn, if_false, asUsize_pos hn, takeC]
  split
  · rfl
  · rw [except_ok_bind]
    simp only
    cases parseBody (i.take n.toNat) <;> rfl

/-- A record with negative size other than `i32::MIN`. -/
theorem parse_hole (dbg : Bool) (n : UInt32) (hn : 2^31 < n.toNat) (i : Bytes) :
    KeytabEntry.parse dbg (be32 n ++ i) =
      if i.length < 2^32 - n.toNat then .error .error
      else .ok (KeytabEntry.dflt, i.drop (2^32 - n.toNat)) := by
  unfold KeytabEntry.parse
  rw [beI32_reads, except_ok_bind]
  have h2 : ¬ (n.toInt32 = Int32.minValue) := by rw [eq_min_iff]; omega
  simp only [neg_of_ge (Nat.le_of_lt hn), if_true, h2, and_false, if_false, asUsize_neg hn, takeC]
  split <;> rfl

theorem parse_min (dbg : Bool) (n : UInt32) (hn : n.toNat = 2^31) (i : Bytes) :
    KeytabEntry.parse dbg (be32 n ++ i) =
      if dbg = true then .error .panic else if i.length < 2^64 - 2^31 then .error .error
      else .ok (KeytabEntry.dflt, i.drop (2^64 - 2^31)) := by
  unfold KeytabEntry.parse
  rw [beI32_reads, except_ok_bind]
  have h2 : n.toInt32 = Int32.minValue := by rw [eq_min_iff]; omega
  simp only [neg_of_ge (Nat.le_of_eq hn.symm), if_true, asUsize_min hn]
  cases dbg with
  | true => simp only [h2, and_self, if_true]
  | false =>
    simp only [Bool.false_eq_true, if_false, false_and, takeC]
    split <;> rfl

/-- Every input either is too short for a size or starts with one. -/
theorem size_cases (i : Bytes) : i.length < 4 ∨ ∃ n r, i = be32 n ++ r := by
  match i with
  | [] => left; simp
  | [_] => left; simp
  | [_, _] => left; simp
  | [_, _, _] => left; simp
  | a :: b :: c :: d :: r => right; exact ⟨ofBe32 a b c d, r, by rw [be32_ofBe32]; rfl⟩

theorem parse_short (dbg : Bool) {i : Bytes} (h : i.length < 4) :
    KeytabEntry.parse dbg i = .error .error := by
  match i, h with
  | [], _ => rfl
  | [_], _ => rfl
  | [_, _], _ => rfl
  | [_, _, _], _ => rfl
  | a :: b :: c :: d :: r, h => simp at h; omega

theorem entry_suffix (dbg : Bool) : Suffix (KeytabEntry.parse dbg) := by
  intro i a r h
  rcases size_cases i with hs | ⟨n, x, rfl⟩
  · rw [parse_short dbg hs] at h; simp at h
  · rcases Nat.lt_trichotomy n.toNat (2^31) with hn | hn | hn
    · rw [parse_live dbg n hn] at h
      split at h
      · simp at h
      · cases hb : parseBody (x.take n.toNat) with
        | error e => rw [hb] at h; simp at h
        | ok e =>
          rw [hb] at h
          simp only [Except.ok.injEq, Prod.mk.injEq] at h
          refine ⟨be32 n ++ x.take n.toNat, ?_⟩
          rw [← h.2, List.append_assoc, List.take_append_drop]
    · rw [parse_min dbg n hn] at h
      split at h
      · simp at h
      · split at h
        · simp at h
        · simp only [Except.ok.injEq, Prod.mk.injEq] at h
          refine ⟨be32 n ++ x.take (2^64 - 2^31), ?_⟩
          rw [← h.2, List.append_assoc, List.take_append_drop]
    · rw [parse_hole dbg n hn] at h
      split at h
      · simp at h
      · simp only [Except.ok.injEq, Prod.mk.injEq] at h
        refine ⟨be32 n ++ x.take (2^32 - n.toNat), ?_⟩
        rw [← h.2, List.append_assoc, List.take_append_drop]

theorem entry_consumes {dbg i a r} (h : KeytabEntry.parse dbg i = .ok (a, r)) :
    r.length + 4 ≤ i.length := by
  rcases size_cases i with hs | ⟨n, x, rfl⟩
  · rw [parse_short dbg hs] at h; simp at h
  · rcases Nat.lt_trichotomy n.toNat (2^31) with hn | hn | hn
    · rw [parse_live dbg n hn] at h
      split at h
      · simp at h
      · cases hb : parseBody (x.take n.toNat) with
        | error e => rw [hb] at h; simp at h
        | ok e =>
          rw [hb] at h
          simp only [Except.ok.injEq, Prod.mk.injEq] at h
          rw [← h.2]; simp; omega
    · rw [parse_min dbg n hn] at h
      split at h
      · simp at h
      · split at h
        · simp at h
        · simp only [Except.ok.injEq, Prod.mk.injEq] at h
          rw [← h.2]; simp; omega
    · rw [parse_hole dbg n hn] at h
      split at h
      · simp at h
      · simp only [Except.ok.injEq, Prod.mk.injEq] at h
        rw [← h.2]; simp; omega

theorem entry_stable (dbg : Bool) : Stable (KeytabEntry.parse dbg) := by
  intro i a r y h
  rcases size_cases i with hs | ⟨n, x, rfl⟩
  · rw [parse_short dbg hs] at h; simp at h
  · rw [List.append_assoc]
    rcases Nat.lt_trichotomy n.toNat (2^31) with hn | hn | hn
    · rw [parse_live dbg n hn] at h ⊢
      split at h
      · simp at h
      · rename_i hl
        rw [if_neg (by simp; omega), List.take_append_of_le_length (by omega)]
        cases hb : parseBody (x.take n.toNat) with
        | error e => rw [hb] at h; simp at h
        | ok e =>
          rw [hb] at h
          simp only [Except.ok.injEq, Prod.mk.injEq] at h ⊢
          exact ⟨h.1, by rw [List.drop_append_of_le_length (by omega), h.2]⟩
    · rw [parse_min dbg n hn] at h ⊢
      split at h
      · simp at h
      · rename_i hd
        rw [if_neg hd]
        split at h
        · simp at h
        · rename_i hl
          rw [if_neg (by simp; omega)]
          simp only [Except.ok.injEq, Prod.mk.injEq] at h ⊢
          exact ⟨h.1, by rw [List.drop_append_of_le_length (by omega), h.2]⟩
    · rw [parse_hole dbg n hn] at h ⊢
      split at h
      · simp at h
      · rename_i hl
        rw [if_neg (by simp; omega)]
        simp only [Except.ok.injEq, Prod.mk.injEq] at h ⊢
        exact ⟨h.1, by rw [List.drop_append_of_le_length (by omega), h.2]⟩

theorem Fits.fields {e : KeytabEntry} (h : e.Fits) : e.FieldsFit :=
  ⟨h.1, h.2.1, h.2.2.1, h.2.2.2.1⟩

theorem entry_reads (dbg : Bool) {e : KeytabEntry} (h : e.Fits) :
    Reads (KeytabEntry.parse dbg) e.build e := by
  intro rest
  have hl : e.body.length < 2^31 := by rw [body_length]; exact h.2.2.2.2
  have hn : (UInt32.ofNat e.body.length).toNat = e.body.length := by
    rw [u32_toNat_ofNat]; omega
  rw [KeytabEntry.build, List.append_assoc, parse_live dbg _ (by omega), hn]
  rw [if_neg (by simp)]
  simp [parseBody_body (Fits.fields h)]

theorem build_ne (e : KeytabEntry) : e.build ≠ [] := by simp [KeytabEntry.build, be32]

/-- An accepted entry is representable. -/
theorem entry_fits {dbg i e r} (h : KeytabEntry.parse dbg i = .ok (e, r)) : e.Fits := by
  rcases size_cases i with hs | ⟨n, x, rfl⟩
  · rw [parse_short dbg hs] at h; simp at h
  · rcases Nat.lt_trichotomy n.toNat (2^31) with hn | hn | hn
    · rw [parse_live dbg n hn] at h
      split at h
      · simp at h
      · cases hb : parseBody (x.take n.toNat) with
        | error e => rw [hb] at h; simp at h
        | ok e' =>
          rw [hb] at h
          simp only [Except.ok.injEq, Prod.mk.injEq] at h
          obtain ⟨rfl, -⟩ := h
          obtain ⟨hf, y, hy, hv⟩ := parseBody_ok hb
          refine ⟨hf.1, hf.2.1, hf.2.2.1, hf.2.2.2, ?_⟩
          rw [← body_length, body_eq]
          have hlen := congrArg List.length hy
          simp only [List.length_take, List.length_append] at hlen
          rcases hv with ⟨rfl, hv⟩ | ⟨v, z, rfl, hv⟩
          · rw [hv]; simp at hlen ⊢; omega
          · rw [hv]; simp at hlen ⊢; omega
    · rw [parse_min dbg n hn] at h
      split at h
      · simp at h
      · split at h
        · simp at h
        · simp only [Except.ok.injEq, Prod.mk.injEq] at h
          rw [← h.1]; decide
    · rw [parse_hole dbg n hn] at h
      split at h
      · simp at h
      · simp only [Except.ok.injEq, Prod.mk.injEq] at h
        rw [← h.1]; decide

/-- Release profile: no panic. -/
theorem entry_noPanic : NoPanic (KeytabEntry.parse false) := by
  intro i
  rcases size_cases i with hs | ⟨n, x, rfl⟩
  · rw [parse_short _ hs]; simp
  · rcases Nat.lt_trichotomy n.toNat (2^31) with hn | hn | hn
    · rw [parse_live _ n hn]
      split
      · simp
      · have := parseBody_noPanic (x.take n.toNat)
        cases hb : parseBody (x.take n.toNat) with
        | error e => rw [hb] at this; simpa using this
        | ok e => simp
    · rw [parse_min _ n hn]; simp only [Bool.false_eq_true, if_false]; split <;> simp
    · rw [parse_hole _ n hn]; split <;> simp

/-- Debug profile: a panic means the size field is `i32::MIN`. -/
theorem entry_panic {i} (h : KeytabEntry.parse true i = .error .panic) :
    ∃ r, i = [0x80, 0, 0, 0] ++ r := by
  rcases size_cases i with hs | ⟨n, x, rfl⟩
  · rw [parse_short _ hs] at h; simp at h
  · rcases Nat.lt_trichotomy n.toNat (2^31) with hn | hn | hn
    · rw [parse_live _ n hn] at h
      split at h
      · simp at h
      · have := parseBody_noPanic (x.take n.toNat)
        cases hb : parseBody (x.take n.toNat) with
        | error e => rw [hb] at this h; simp_all
        | ok e => rw [hb] at h; simp at h
    · refine ⟨x, ?_⟩
      have : n = UInt32.ofNat (2^31) := by apply u32_ext; rw [hn]; rfl
      rw [this]; rfl
    · rw [parse_hole _ n hn] at h; split at h <;> simp at h

theorem entry_min_panics (r : Bytes) :
    KeytabEntry.parse true ([0x80, 0, 0, 0] ++ r) = .error .panic := by
  have : ([0x80, 0, 0, 0] : Bytes) = be32 (UInt32.ofNat (2^31)) := by decide
  rw [this, parse_min true _ (by decide)]; rfl

/-- The two profiles differ only in the panic. -/
theorem entry_profiles (i : Bytes) (h : KeytabEntry.parse true i ≠ .error .panic) :
    KeytabEntry.parse true i = KeytabEntry.parse false i := by
  rcases size_cases i with hs | ⟨n, x, rfl⟩
  · rw [parse_short _ hs, parse_short _ hs]
  · rcases Nat.lt_trichotomy n.toNat (2^31) with hn | hn | hn
    · rw [parse_live _ n hn, parse_live _ n hn]
    · rw [parse_min _ n hn] at h; simp at h
    · rw [parse_hole _ n hn, parse_hole _ n hn]

end Verif.KT
