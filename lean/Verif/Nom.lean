import Verif.Bytes
/-
The parts of the external crate `nom` 7 used by kerberos_ccache and kerberos_keytab.

`IResult<&[u8], T>` is `Except PErr (T × Bytes)` (value first, remaining input second).
nom's `Err::Failure` is never produced by the combinators used in this repository and is left out.
-/
namespace Verif

/-- nom's `Err::Error`, `Err::Incomplete`, plus an explicit value for a Rust panic. -/
inductive PErr
  | error
  | incomplete
  | panic
deriving DecidableEq, Repr

/-- `Fn(&[u8]) -> IResult<&[u8], α>`. -/
def Parser (α : Type) := Bytes → Except PErr (α × Bytes)

namespace Parser

/-- `Ok((input, a))`. -/
def pure {α} (a : α) : Parser α := fun i => .ok (a, i)

/-- `let (rest, a) = p(raw)?; f(a)(rest)`. -/
def bind {α β} (p : Parser α) (f : α → Parser β) : Parser β := fun i =>
  match p i with
  | .error e => .error e
  | .ok (a, r) => f a r

/-- Sequencing in `do` notation is Rust's `?`. -/
instance : Monad Parser where
  pure := pure
  bind := bind

end Parser

/-- nom `number::complete::be_u8`: `Err::Error(Eof)` on short input. -/
def beU8 : Parser UInt8
  | a :: r => .ok (a, r)
  | _ => .error .error

/-- nom `number::complete::be_u16`. -/
def beU16 : Parser UInt16
  | a :: b :: r => .ok (ofBe16 a b, r)
  | _ => .error .error

/-- nom `number::complete::be_u32`. -/
def beU32 : Parser UInt32
  | a :: b :: c :: d :: r => .ok (ofBe32 a b c d, r)
  | _ => .error .error

/-- nom `number::complete::be_i32`. -/
def beI32 : Parser Int32 := fun i =>
  match beU32 i with
  | .ok (x, r) => .ok (x.toInt32, r)
  | .error e => .error e

/-- nom `bytes::complete::take(n)`: `Err::Error(Eof)` on short input. -/
def takeC (n : Nat) : Parser Bytes := fun i =>
  if i.length < n then .error .error else .ok (i.take n, i.drop n)

/-- The data part of nom `multi::length_data`: when fewer than `n` bytes remain it returns
`Err::Incomplete` (even though the length itself is read by a "complete" parser). -/
def lengthDataN (n : Nat) : Parser Bytes := fun i =>
  if i.length < n then .error .incomplete else .ok (i.take n, i.drop n)

/-- nom `length_data(be_u16)`. -/
def lengthData16 : Parser Bytes := do
  let n ← beU16
  lengthDataN n.toNat

/-- nom `length_data(be_u32)`. -/
def lengthData32 : Parser Bytes := do
  let n ← beU32
  lengthDataN n.toNat

/-- nom `bytes::complete::tag(t)`: `Err::Error(Tag)` unless the input starts with `t`. -/
def tagC (t : Bytes) : Parser Bytes := fun i =>
  if i.take t.length = t then .ok (t, i.drop t.length) else .error .error

/-- nom `multi::many_m_n(n, n, p)`: exactly `n` elements; an element that succeeds without consuming
is `Err::Error`; `Err::Error` of an element stays `Err::Error` (count < min);
other errors propagate. -/
def manyN {α} (p : Parser α) : Nat → Parser (List α)
  | 0 => fun i => .ok ([], i)
  | n + 1 => fun i =>
    match p i with
    | .error e => .error e
    | .ok (a, r) =>
      if r.length = i.length then .error .error
      else match manyN p n r with
        | .error e => .error e
        | .ok (as, r') => .ok (a :: as, r')

/-- nom `multi::many0(p)` with an explicit bound on the number of iterations: `Err::Error` of an
element ends the loop successfully, other errors propagate, an element consuming nothing
is `Err::Error`. The `0` case is never reached from `many0` (`many0_fuel`). -/
def many0Fuel {α} (p : Parser α) : Nat → Parser (List α)
  | 0 => fun _ => .error .panic
  | n + 1 => fun i =>
    match p i with
    | .error .error => .ok ([], i)
    | .error e => .error e
    | .ok (a, r) =>
      if r.length = i.length then .error .error
      else match many0Fuel p n r with
        | .error e => .error e
        | .ok (as, r') => .ok (a :: as, r')

/-- nom `multi::many0(p)`; every iteration consumes at least one byte, so `length + 1` iterations
are enough. -/
def many0 {α} (p : Parser α) : Parser (List α) := fun i => many0Fuel p (i.length + 1) i

/-! ### Properties of parsers used as proof vocabulary -/

/-- `p` reads exactly the bytes `bs`, whatever follows, and returns `a`. -/
def Reads {α} (p : Parser α) (bs : Bytes) (a : α) : Prop :=
  ∀ rest, p (bs ++ rest) = .ok (a, rest)

/-- Whatever `p` accepts is the serialisation `b a` followed by the remainder. -/
def Exact {α} (p : Parser α) (b : α → Bytes) : Prop :=
  ∀ i a r, p i = .ok (a, r) → i = b a ++ r

/-- A success is not changed by further bytes behind the input. -/
def Stable {α} (p : Parser α) : Prop :=
  ∀ i a r x, p i = .ok (a, r) → p (i ++ x) = .ok (a, r ++ x)

/-- On success the remainder is a suffix of the input. -/
def Suffix {α} (p : Parser α) : Prop :=
  ∀ i a r, p i = .ok (a, r) → ∃ c, i = c ++ r

/-- `p` never panics. -/
def NoPanic {α} (p : Parser α) : Prop := ∀ i, p i ≠ .error .panic

theorem bind_def {α β} (p : Parser α) (f : α → Parser β) (i : Bytes) :
    (p >>= f) i = match p i with | .error e => .error e | .ok (a, r) => f a r := rfl
theorem pure_def {α} (a : α) (i : Bytes) : (Pure.pure a : Parser α) i = .ok (a, i) := rfl

theorem bind_ok {α β} {p : Parser α} {f : α → Parser β} {i b r} :
    (p >>= f) i = .ok (b, r) ↔ ∃ a r1, p i = .ok (a, r1) ∧ f a r1 = .ok (b, r) := by
  rw [bind_def]
  cases p i with
  | error e => simp
  | ok v =>
    obtain ⟨a, r1⟩ := v
    constructor
    · intro h; exact ⟨a, r1, rfl, h⟩
    · rintro ⟨a', r', h1, h2⟩
      simp only [Except.ok.injEq, Prod.mk.injEq] at h1
      obtain ⟨rfl, rfl⟩ := h1; exact h2
theorem pure_ok {α} {a b : α} {i r : Bytes} :
    (Pure.pure a : Parser α) i = .ok (b, r) ↔ a = b ∧ i = r := by
  simp [pure_def]

section reads
theorem Reads.pure {α} (a : α) : Reads (Pure.pure a) [] a := fun _ => rfl

theorem Reads.bind {α β} {p : Parser α} {f : α → Parser β} {bs bs' a b}
    (h : Reads p bs a) (h' : Reads (f a) bs' b) : Reads (p >>= f) (bs ++ bs') b := by
  intro rest
  rw [bind_def, List.append_assoc, h]
  exact h' rest

theorem Reads.seq {α β} {p : Parser α} {f : α → Parser β} {bs bs' cs a b}
    (h : Reads p bs a) (h' : Reads (f a) bs' b) (e : cs = bs ++ bs') : Reads (p >>= f) cs b :=
  e ▸ h.bind h'

theorem beU8_reads (x : UInt8) : Reads beU8 [x] x := fun _ => rfl
theorem beU16_reads (x : UInt16) : Reads beU16 (be16 x) x := by
  intro r; simp only [beU16, be16, List.cons_append, List.nil_append, ofBe16_be16]
theorem beU32_reads (x : UInt32) : Reads beU32 (be32 x) x := by
  intro r; simp only [beU32, be32, List.cons_append, List.nil_append, ofBe32_be32]
theorem lengthDataN_reads (d : Bytes) : Reads (lengthDataN d.length) d d := by
  intro r; simp [lengthDataN]
theorem takeC_reads (d : Bytes) : Reads (takeC d.length) d d := by
  intro r; simp [takeC]
theorem tagC_reads (d : Bytes) : Reads (tagC d) d d := by
  intro r; simp [tagC]

theorem lengthData32_reads (d : Bytes) (h : d.length < 2^32) :
    Reads lengthData32 (be32 (UInt32.ofNat d.length) ++ d) d := by
  apply (beU32_reads _).bind
  have : (UInt32.ofNat d.length).toNat = d.length := by rw [u32_toNat_ofNat]; omega
  rw [this]; exact lengthDataN_reads d
theorem lengthData16_reads (d : Bytes) (h : d.length < 2^16) :
    Reads lengthData16 (be16 (UInt16.ofNat d.length) ++ d) d := by
  apply (beU16_reads _).bind
  have : (UInt16.ofNat d.length).toNat = d.length := by rw [u16_toNat_ofNat]; omega
  rw [this]; exact lengthDataN_reads d

/-- Reading back a string written with a wrapped 32-bit length. -/
theorem lengthData32_wrap (d : Bytes) : lengthData32 (be32 (UInt32.ofNat d.length) ++ d) =
    .ok (d.take (d.length % 2^32), d.drop (d.length % 2^32)) := by
  unfold lengthData32
  rw [bind_def, beU32_reads]
  have := Nat.mod_le d.length 4294967296
  simp only [lengthDataN, u32_toNat_ofNat]
  rw [if_neg (by omega)]
/-- Reading back a string written with a wrapped 16-bit length. -/
theorem lengthData16_wrap (d : Bytes) : lengthData16 (be16 (UInt16.ofNat d.length) ++ d) =
    .ok (d.take (d.length % 2^16), d.drop (d.length % 2^16)) := by
  unfold lengthData16
  rw [bind_def, beU16_reads]
  have := Nat.mod_le d.length 65536
  simp only [lengthDataN, u16_toNat_ofNat]
  rw [if_neg (by omega)]

theorem manyN_reads {α} {p : Parser α} {b : α → Bytes} (as : List α)
    (h : ∀ a ∈ as, Reads p (b a) a) (hne : ∀ a ∈ as, b a ≠ []) :
    Reads (manyN p as.length) (as.flatMap b) as := by
  induction as with
  | nil => intro r; rfl
  | cons a as ih =>
    intro r
    simp only [List.length_cons, manyN, List.flatMap_cons, List.append_assoc]
    rw [h a (by simp)]
    have hl : 0 < (b a).length := List.length_pos_iff.mpr (hne a (by simp))
    have hn : ¬ ((as.flatMap b ++ r).length = (b a ++ (as.flatMap b ++ r)).length) := by
      rw [List.length_append (as := b a)]; omega
    simp only [hn, if_false]
    rw [ih (fun x hx => h x (by simp [hx])) (fun x hx => hne x (by simp [hx]))]
end reads

section exact
theorem Exact.bind {α β} {p : Parser α} {f : α → Parser β} {b : α → Bytes} {g : β → Bytes}
    (hp : Exact p b) (hf : ∀ a i c r, f a i = .ok (c, r) → b a ++ i = g c ++ r) :
    Exact (p >>= f) g := by
  intro i c r h
  rw [bind_def] at h
  cases hpi : p i with
  | error e => rw [hpi] at h; simp at h
  | ok v => obtain ⟨a, r'⟩ := v; rw [hpi] at h; rw [hp i a r' hpi]; exact hf a r' c r h

theorem beU8_exact : Exact beU8 (fun x => [x]) := by
  intro i a r h
  match i, h with
  | x :: r', h => simp only [beU8, Except.ok.injEq, Prod.mk.injEq] at h; simp [h]
theorem beU16_exact : Exact beU16 be16 := by
  intro i a r h
  match i, h with
  | x :: y :: r', h =>
    simp only [beU16, Except.ok.injEq, Prod.mk.injEq] at h
    rw [← h.1, ← h.2, be16_ofBe16]; rfl
theorem beU32_exact : Exact beU32 be32 := by
  intro i a r h
  match i, h with
  | x :: y :: z :: w :: r', h =>
    simp only [beU32, Except.ok.injEq, Prod.mk.injEq] at h
    rw [← h.1, ← h.2, be32_ofBe32]; rfl
theorem lengthDataN_ok {n i a r} (h : lengthDataN n i = .ok (a, r)) :
    a.length = n ∧ i = a ++ r := by
  unfold lengthDataN at h
  split at h
  · simp at h
  · simp only [Except.ok.injEq, Prod.mk.injEq] at h
    obtain ⟨rfl, rfl⟩ := h
    refine ⟨?_, by simp⟩
    simp; omega
theorem takeC_ok {n i a r} (h : takeC n i = .ok (a, r)) :
    a.length = n ∧ i = a ++ r := by
  unfold takeC at h
  split at h
  · simp at h
  · simp only [Except.ok.injEq, Prod.mk.injEq] at h
    obtain ⟨rfl, rfl⟩ := h
    refine ⟨?_, by simp⟩
    simp; omega
theorem tagC_ok {t i a r} (h : tagC t i = .ok (a, r)) : i = t ++ r := by
  unfold tagC at h
  split at h
  · rename_i h'
    simp only [Except.ok.injEq, Prod.mk.injEq] at h
    rw [← h.2, ← h', List.length_take]
    have : t.length ≤ i.length := by
      have := congrArg List.length h'
      simp at this; omega
    rw [Nat.min_eq_left this, List.take_append_drop]
  · simp at h

theorem lengthData32_ok {i d r} (h : lengthData32 i = .ok (d, r)) :
    d.length < 2^32 ∧ i = be32 (UInt32.ofNat d.length) ++ d ++ r := by
  unfold lengthData32 at h
  rw [bind_def] at h
  cases hb : beU32 i with
  | error e => rw [hb] at h; simp at h
  | ok v =>
    obtain ⟨n, i'⟩ := v
    rw [hb] at h
    obtain ⟨h1, h2⟩ := lengthDataN_ok h
    refine ⟨by have := n.toNat_lt; omega, ?_⟩
    have := beU32_exact _ _ _ hb
    rw [this, h1, h2]; simp
theorem lengthData16_ok {i d r} (h : lengthData16 i = .ok (d, r)) :
    d.length < 2^16 ∧ i = be16 (UInt16.ofNat d.length) ++ d ++ r := by
  unfold lengthData16 at h
  rw [bind_def] at h
  cases hb : beU16 i with
  | error e => rw [hb] at h; simp at h
  | ok v =>
    obtain ⟨n, i'⟩ := v
    rw [hb] at h
    obtain ⟨h1, h2⟩ := lengthDataN_ok h
    refine ⟨by have := n.toNat_lt; omega, ?_⟩
    have := beU16_exact _ _ _ hb
    rw [this, h1, h2]; simp

theorem manyN_ok {α} {p : Parser α} {b : α → Bytes} {P : α → Prop} (hp : Exact p b)
    (hP : ∀ i a r, p i = .ok (a, r) → P a) (n : Nat) :
    ∀ i as r, manyN p n i = .ok (as, r) →
      as.length = n ∧ (∀ a ∈ as, P a) ∧ i = as.flatMap b ++ r := by
  induction n with
  | zero => intro i as r h; simp [manyN] at h; obtain ⟨rfl, rfl⟩ := h; simp
  | succ n ih =>
    intro i as r h
    unfold manyN at h
    cases hpi : p i with
    | error e => rw [hpi] at h; simp at h
    | ok v =>
      obtain ⟨a, r1⟩ := v
      rw [hpi] at h
      simp only at h
      split at h
      · simp at h
      · cases hm : manyN p n r1 with
        | error e => rw [hm] at h; simp at h
        | ok w =>
          obtain ⟨as', r2⟩ := w
          rw [hm] at h
          simp only [Except.ok.injEq, Prod.mk.injEq] at h
          obtain ⟨rfl, rfl⟩ := h
          obtain ⟨h1, h2, h3⟩ := ih _ _ _ hm
          refine ⟨by simp [h1], ?_, ?_⟩
          · intro x hx
            rcases List.mem_cons.mp hx with rfl | hx
            · exact hP _ _ _ hpi
            · exact h2 x hx
          · rw [hp _ _ _ hpi, h3]; simp
end exact

section stable
theorem Stable.pure {α} (a : α) : Stable (Pure.pure a : Parser α) := by
  intro i b r x h
  simp only [pure_def, Except.ok.injEq, Prod.mk.injEq] at h ⊢
  simp [h]
theorem Stable.bind {α β} {p : Parser α} {f : α → Parser β}
    (hp : Stable p) (hf : ∀ a, Stable (f a)) : Stable (p >>= f) := by
  intro i b r x h
  rw [bind_def] at h ⊢
  cases hpi : p i with
  | error e => rw [hpi] at h; simp at h
  | ok v =>
    obtain ⟨a, r1⟩ := v
    rw [hpi] at h
    rw [hp _ _ _ x hpi]
    exact hf a _ _ _ _ h
theorem beU8_stable : Stable beU8 := by
  intro i a r x h
  match i, h with
  | y :: r', h => simp only [beU8, Except.ok.injEq, Prod.mk.injEq] at h; simp [beU8, h]
theorem beU16_stable : Stable beU16 := by
  intro i a r x h
  match i, h with
  | y :: z :: r', h => simp only [beU16, Except.ok.injEq, Prod.mk.injEq] at h; simp [beU16, h]
theorem beU32_stable : Stable beU32 := by
  intro i a r x h
  match i, h with
  | y :: z :: u :: w :: r', h =>
    simp only [beU32, Except.ok.injEq, Prod.mk.injEq] at h; simp [beU32, h]
theorem lengthDataN_stable (n) : Stable (lengthDataN n) := by
  intro i a r x h
  obtain ⟨h1, h2⟩ := lengthDataN_ok h
  subst h2 h1
  simpa using lengthDataN_reads a (r ++ x)
theorem takeC_stable (n) : Stable (takeC n) := by
  intro i a r x h
  obtain ⟨h1, h2⟩ := takeC_ok h
  subst h2 h1
  simpa using takeC_reads a (r ++ x)
theorem tagC_stable (t) : Stable (tagC t) := by
  intro i a r x h
  have h2 := tagC_ok h
  have h3 : a = t := by
    unfold tagC at h; split at h <;> simp at h; exact h.1.symm
  subst h2 h3
  simpa using tagC_reads a (r ++ x)
theorem lengthData32_stable : Stable lengthData32 :=
  beU32_stable.bind fun _ => lengthDataN_stable _
theorem lengthData16_stable : Stable lengthData16 :=
  beU16_stable.bind fun _ => lengthDataN_stable _
theorem manyN_stable {α} {p : Parser α} (hp : Stable p) (n : Nat) : Stable (manyN p n) := by
  induction n with
  | zero => intro i a r x h; simp [manyN] at h ⊢; simp [h]
  | succ n ih =>
    intro i as r x h
    unfold manyN at h ⊢
    cases hpi : p i with
    | error e => rw [hpi] at h; simp at h
    | ok v =>
      obtain ⟨a, r1⟩ := v
      rw [hpi] at h
      rw [hp _ _ _ x hpi]
      simp only at h ⊢
      split at h
      · simp at h
      · rename_i hne
        have : ¬ ((r1 ++ x).length = (i ++ x).length) := by simp; omega
        simp only [this, if_false]
        cases hm : manyN p n r1 with
        | error e => rw [hm] at h; simp at h
        | ok w =>
          obtain ⟨as', r2⟩ := w
          rw [hm] at h
          rw [ih _ _ _ x hm]
          simp only [Except.ok.injEq, Prod.mk.injEq] at h ⊢
          simp [h]

/-- A proper prefix of something `p` reads completely is never accepted by a stable `p`. -/
theorem Stable.prefix_fails {α} {p : Parser α} (hp : Stable p) {bs a} (h : Reads p bs a)
    {k} (hk : k < bs.length) : ∃ e, p (bs.take k) = .error e := by
  cases hpi : p (bs.take k) with
  | error e => exact ⟨e, rfl⟩
  | ok v =>
    obtain ⟨a', r'⟩ := v
    have h1 := hp _ _ _ (bs.drop k) hpi
    rw [List.take_append_drop] at h1
    have h2 := h []
    rw [List.append_nil, h1] at h2
    simp only [Except.ok.injEq, Prod.mk.injEq, List.append_eq_nil_iff, List.drop_eq_nil_iff] at h2
    omega
end stable

section nopanic
theorem NoPanic.pure {α} (a : α) : NoPanic (Pure.pure a : Parser α) := by
  intro i; simp [pure_def]
theorem NoPanic.bind {α β} {p : Parser α} {f : α → Parser β}
    (hp : NoPanic p) (hf : ∀ a, NoPanic (f a)) : NoPanic (p >>= f) := by
  intro i
  rw [bind_def]
  cases hpi : p i with
  | error e => have := hp i; rw [hpi] at this; simpa using this
  | ok v => exact hf _ _
theorem beU8_noPanic : NoPanic beU8 := by intro i; unfold beU8; split <;> simp
theorem beU16_noPanic : NoPanic beU16 := by intro i; unfold beU16; split <;> simp
theorem beU32_noPanic : NoPanic beU32 := by intro i; unfold beU32; split <;> simp
theorem lengthDataN_noPanic (n) : NoPanic (lengthDataN n) := by
  intro i; unfold lengthDataN; split <;> simp
theorem takeC_noPanic (n) : NoPanic (takeC n) := by
  intro i; unfold takeC; split <;> simp
theorem tagC_noPanic (n) : NoPanic (tagC n) := by
  intro i; unfold tagC; split <;> simp
theorem lengthData32_noPanic : NoPanic lengthData32 :=
  beU32_noPanic.bind fun _ => lengthDataN_noPanic _
theorem lengthData16_noPanic : NoPanic lengthData16 :=
  beU16_noPanic.bind fun _ => lengthDataN_noPanic _
theorem manyN_noPanic {α} {p : Parser α} (hp : NoPanic p) (n : Nat) : NoPanic (manyN p n) := by
  induction n with
  | zero => intro i; simp [manyN]
  | succ n ih =>
    intro i
    unfold manyN
    cases hpi : p i with
    | error e => have := hp i; rw [hpi] at this; simpa using this
    | ok v =>
      simp only
      split
      · simp
      · cases hm : manyN p n v.2 with
        | error e => have := ih v.2; rw [hm] at this; simpa using this
        | ok w => simp
end nopanic

section many0

/-- One iteration of `many0`, independent of the fuel as long as it exceeds the input length. -/
theorem many0Fuel_irrel {α} {p : Parser α} (hs : Suffix p) :
    ∀ n m i, i.length < n → i.length < m → many0Fuel p n i = many0Fuel p m i := by
  intro n
  induction n with
  | zero => intro m i h; omega
  | succ n ih =>
    intro m i hn hm
    cases m with
    | zero => omega
    | succ m =>
      unfold many0Fuel
      cases hpi : p i with
      | error e => cases e <;> rfl
      | ok v =>
        obtain ⟨a, r⟩ := v
        simp only
        split
        · rfl
        · rename_i hne
          obtain ⟨c, hc⟩ := hs _ _ _ hpi
          have : r.length < i.length := by
            rw [hc, List.length_append] at hne ⊢; omega
          rw [ih m r (by omega) (by omega)]

theorem many0_unfold {α} {p : Parser α} (hs : Suffix p) (i : Bytes) :
    many0 p i = match p i with
      | .error .error => .ok ([], i)
      | .error e => .error e
      | .ok (a, r) => if r.length = i.length then .error .error
        else match many0 p r with
          | .error e => .error e
          | .ok (as, r') => .ok (a :: as, r') := by
  conv => lhs; unfold many0 many0Fuel
  cases hpi : p i with
  | error e => cases e <;> rfl
  | ok v =>
    obtain ⟨a, r⟩ := v
    simp only
    split
    · rfl
    · rename_i hne
      obtain ⟨c, hc⟩ := hs _ _ _ hpi
      have : r.length < i.length := by
        rw [hc, List.length_append] at hne ⊢; omega
      unfold many0
      rw [many0Fuel_irrel hs i.length (r.length + 1) r (by omega) (by omega)]

/-- Reading a list of records followed by something the element parser refuses with `Err::Error`. -/
theorem many0_reads {α} {p : Parser α} {b : α → Bytes} (hs : Suffix p) (as : List α) (rest : Bytes)
    (h : ∀ a ∈ as, Reads p (b a) a) (hne : ∀ a ∈ as, b a ≠ []) :
    many0 p (as.flatMap b ++ rest) = match many0 p rest with
      | .error e => .error e
      | .ok (as', r') => .ok (as ++ as', r') := by
  induction as with
  | nil => simp only [List.flatMap_nil, List.nil_append]; cases many0 p rest <;> rfl
  | cons a as ih =>
    rw [List.flatMap_cons, List.append_assoc, many0_unfold hs, h a (by simp)]
    have hl : 0 < (b a).length := List.length_pos_iff.mpr (hne a (by simp))
    have hn : ¬ ((as.flatMap b ++ rest).length = (b a ++ (as.flatMap b ++ rest)).length) := by
      rw [List.length_append (as := b a)]; omega
    simp only [hn, if_false]
    rw [ih (fun x hx => h x (by simp [hx])) (fun x hx => hne x (by simp [hx]))]
    cases many0 p rest <;> rfl

theorem many0_ok {α} {p : Parser α} {b : α → Bytes} {P : α → Prop} (hp : Exact p b)
    (hP : ∀ i a r, p i = .ok (a, r) → P a) :
    ∀ i as r, many0 p i = .ok (as, r) →
      (∀ a ∈ as, P a) ∧ i = as.flatMap b ++ r ∧ p r = .error .error := by
  have hs : Suffix p := fun i a r h => ⟨b a, hp i a r h⟩
  suffices H : ∀ n i as r, i.length ≤ n → many0 p i = .ok (as, r) →
      (∀ a ∈ as, P a) ∧ i = as.flatMap b ++ r ∧ p r = .error .error from
    fun i as r => H i.length i as r (Nat.le_refl _)
  intro n
  induction n with
  | zero =>
    intro i as r hi h
    rw [many0_unfold hs] at h
    cases hpi : p i with
    | error e =>
      cases e <;> rw [hpi] at h <;> simp at h
      obtain ⟨rfl, rfl⟩ := h; simp [hpi]
    | ok v =>
      obtain ⟨a, r1⟩ := v
      rw [hpi] at h
      have := hp _ _ _ hpi
      have hr : r1.length = i.length := by
        have := congrArg List.length this; simp at this; omega
      simp [hr] at h
  | succ n ih =>
    intro i as r hi h
    rw [many0_unfold hs] at h
    cases hpi : p i with
    | error e =>
      cases e <;> rw [hpi] at h <;> simp at h
      obtain ⟨rfl, rfl⟩ := h; simp [hpi]
    | ok v =>
      obtain ⟨a, r1⟩ := v
      rw [hpi] at h
      have he := hp _ _ _ hpi
      simp only at h
      split at h
      · simp at h
      · rename_i hne
        have hlt : r1.length < i.length := by
          have := congrArg List.length he; simp at this; omega
        cases hm : many0 p r1 with
        | error e => rw [hm] at h; simp at h
        | ok w =>
          obtain ⟨as', r2⟩ := w
          rw [hm] at h
          simp only [Except.ok.injEq, Prod.mk.injEq] at h
          obtain ⟨rfl, rfl⟩ := h
          obtain ⟨h2, h3, h4⟩ := ih _ _ _ (by omega) hm
          refine ⟨?_, ?_, h4⟩
          · intro x hx
            rcases List.mem_cons.mp hx with rfl | hx
            · exact hP _ _ _ hpi
            · exact h2 x hx
          · rw [he, h3]; simp

theorem many0_noPanic {α} {p : Parser α} (hs : Suffix p) (hp : NoPanic p) : NoPanic (many0 p) := by
  suffices H : ∀ n i, i.length ≤ n → many0 p i ≠ .error .panic from
    fun i => H i.length i (Nat.le_refl _)
  intro n
  induction n with
  | zero =>
    intro i hi
    rw [many0_unfold hs]
    have hnp := hp i
    cases hpi : p i with
    | error e => rw [hpi] at hnp; cases e <;> simp_all
    | ok v =>
      obtain ⟨a, r1⟩ := v
      obtain ⟨c, hc⟩ := hs _ _ _ hpi
      have : r1.length = i.length := by
        have := congrArg List.length hc; simp at this; omega
      simp [this]
  | succ n ih =>
    intro i hi
    rw [many0_unfold hs]
    have hnp := hp i
    cases hpi : p i with
    | error e => rw [hpi] at hnp; cases e <;> simp_all
    | ok v =>
      obtain ⟨a, r1⟩ := v
      obtain ⟨c, hc⟩ := hs _ _ _ hpi
      simp only
      split
      · simp
      · have hlt : r1.length < i.length := by
          have := congrArg List.length hc; simp at this; omega
        have := ih r1 (by omega)
        cases hm : many0 p r1 with
        | error e => rw [hm] at this; simpa using this
        | ok w => simp
theorem many0_suffix {α} {p : Parser α} (hs : Suffix p) : Suffix (many0 p) := by
  suffices H : ∀ n i as r, i.length ≤ n → many0 p i = .ok (as, r) → ∃ c, i = c ++ r from
    fun i as r => H i.length i as r (Nat.le_refl _)
  intro n
  induction n with
  | zero =>
    intro i as r hi h
    rw [many0_unfold hs] at h
    cases hpi : p i with
    | error e =>
      cases e <;> rw [hpi] at h <;> simp at h
      exact ⟨[], by simp [h.2]⟩
    | ok v =>
      obtain ⟨a, r1⟩ := v
      rw [hpi] at h
      obtain ⟨c, hc⟩ := hs _ _ _ hpi
      have : r1.length = i.length := by
        have := congrArg List.length hc; simp at this; omega
      simp [this] at h
  | succ n ih =>
    intro i as r hi h
    rw [many0_unfold hs] at h
    cases hpi : p i with
    | error e =>
      cases e <;> rw [hpi] at h <;> simp at h
      exact ⟨[], by simp [h.2]⟩
    | ok v =>
      obtain ⟨a, r1⟩ := v
      rw [hpi] at h
      obtain ⟨c, hc⟩ := hs _ _ _ hpi
      simp only at h
      split at h
      · simp at h
      · have hlt : r1.length < i.length := by
          have := congrArg List.length hc; simp at this; omega
        cases hm : many0 p r1 with
        | error e => rw [hm] at h; simp at h
        | ok w =>
          rw [hm] at h
          simp only [Except.ok.injEq, Prod.mk.injEq] at h
          obtain ⟨d, hd⟩ := ih r1 w.1 w.2 (by omega) hm
          exact ⟨c ++ d, by rw [hc, hd, ← h.2]; simp⟩

theorem many0_all {α} {p : Parser α} {P : α → Prop} (hs : Suffix p)
    (hP : ∀ i a r, p i = .ok (a, r) → P a) :
    ∀ i as r, many0 p i = .ok (as, r) → ∀ a ∈ as, P a := by
  suffices H : ∀ n i as r, i.length ≤ n → many0 p i = .ok (as, r) → ∀ a ∈ as, P a from
    fun i as r => H i.length i as r (Nat.le_refl _)
  intro n
  induction n with
  | zero =>
    intro i as r hi h
    rw [many0_unfold hs] at h
    cases hpi : p i with
    | error e =>
      cases e <;> rw [hpi] at h <;> simp at h
      simp [h.1]
    | ok v =>
      obtain ⟨a, r1⟩ := v
      rw [hpi] at h
      obtain ⟨c, hc⟩ := hs _ _ _ hpi
      have : r1.length = i.length := by
        have := congrArg List.length hc; simp at this; omega
      simp [this] at h
  | succ n ih =>
    intro i as r hi h
    rw [many0_unfold hs] at h
    cases hpi : p i with
    | error e =>
      cases e <;> rw [hpi] at h <;> simp at h
      simp [h.1]
    | ok v =>
      obtain ⟨a, r1⟩ := v
      rw [hpi] at h
      obtain ⟨c, hc⟩ := hs _ _ _ hpi
      simp only at h
      split at h
      · simp at h
      · have hlt : r1.length < i.length := by
          have := congrArg List.length hc; simp at this; omega
        cases hm : many0 p r1 with
        | error e => rw [hm] at h; simp at h
        | ok w =>
          rw [hm] at h
          simp only [Except.ok.injEq, Prod.mk.injEq] at h
          rw [← h.1]
          intro x hx
          rcases List.mem_cons.mp hx with rfl | hx
          · exact hP _ _ _ hpi
          · exact ih r1 w.1 w.2 (by omega) hm x hx

end many0

end Verif
