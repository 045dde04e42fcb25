import Verif.Asn1Count
/-
The counting parsers of `Asn1Count`: same results as the parsers of `Asn1Messages`, at most nine steps for an octet.
-/
namespace Verif.Asn1

/-- counts the parser of `c`: same tag and results, at most nine steps for an octet and 14 more, and at least one for an octet that is
accepted by a strict parser -/
structure Counts {α} (g : Cfg) (w : Counted α) (c : Codec α) : Prop where
  tag : w.tag = c.tag
  same : ∀ b, (w.parse b).1 = c.parse b
  cheap : ∀ b, (w.parse b).2 ≤ 9 * b.length + 14
  paid : g.strictSeq = true → g.strictWrap = true → ∀ b a, c.parse b = .ok a → b.length ≤ (w.parse b).2

/-- the same for the components of a SEQUENCE, with `n` more steps -/
structure CountsF {α} (g : Cfg) (n : Nat) (f : Metered α) (p : Parser α) : Prop where
  same : ∀ i, (f i).1 = p i
  cheap : ∀ i, (f i).2 ≤ 9 * i.length + n
  left : ∀ i a r, p i = .ok (a, r) → (f i).2 + 9 * r.length ≤ 9 * i.length + n
  paid : g.strictSeq = true → g.strictWrap = true → ∀ i a r, p i = .ok (a, r) → i.length ≤ (f i).2 + r.length

theorem countTlv_same (g : Cfg) (tag : UInt8) (i : Bytes) : (countTlv g tag i).1 = parseTlv g tag i := by
  cases i with
  | nil => rfl
  | cons t i =>
    simp only [countTlv, parseTlv, countLen]
    split
    · rfl
    · rcases parseLen g i with (e | ⟨n, r⟩)
      · rfl
      · dsimp only; split <;> rfl

theorem parseLen_count (g : Cfg) (i : Bytes) :
    (countLen g i).2 ≤ i.length ∧ ∀ n r, parseLen g i = .ok (n, r) → 1 ≤ (countLen g i).2 ∧ (countLen g i).2 + r.length = i.length := by
  cases i with
  | nil => exact ⟨Nat.le_refl _, fun n r h => nomatch h⟩
  | cons b r =>
    simp only [countLen, parseLen, List.length_cons]
    by_cases h1 : b.toNat < 128
    · rw [if_pos h1, if_pos h1]
      refine ⟨by omega, fun n q h => ?_⟩
      injection h with h; injection h with _ h; subst h; omega
    · rw [if_neg h1, if_neg h1]
      by_cases h2 : r.length < b.toNat - 128
      · rw [if_pos h2, if_pos h2]
        exact ⟨by omega, fun n q h => nomatch h⟩
      · rw [if_neg h2, if_neg h2]
        refine ⟨by omega, fun n q h => ?_⟩
        split at h
        · exact nomatch h
        · injection h with h; injection h with _ h; subst h; rw [List.length_drop]; omega

theorem countTlv_cost (g : Cfg) (tag : UInt8) (i : Bytes) :
    (countTlv g tag i).2 ≤ i.length + 1 ∧
      ∀ v r, parseTlv g tag i = .ok (v, r) → 3 ≤ (countTlv g tag i).2 ∧ (countTlv g tag i).2 + v.length + r.length = i.length + 1 := by
  cases i with
  | nil => exact ⟨Nat.le_refl _, fun n r h => nomatch h⟩
  | cons t i =>
    have ⟨h1, h2⟩ := parseLen_count g i
    simp only [countTlv, parseTlv, List.length_cons]
    split
    · exact ⟨by dsimp only; omega, fun n r h => nomatch h⟩
    · have h3 : (countLen g i).1 = parseLen g i := rfl
      revert h1 h2
      rw [← h3]
      rcases countLen g i with ⟨(e | ⟨n, r⟩), c⟩
      · dsimp only
        exact fun h1 _ => ⟨by omega, fun n r h => nomatch h⟩
      · dsimp only
        intro h1 h2
        have h2 := h2 n r rfl
        split
        · exact ⟨by dsimp only; omega, fun n r h => nomatch h⟩
        · refine ⟨by dsimp only; omega, fun v q h => ?_⟩
          injection h with h; injection h with h h'; subst h; subst h'
          dsimp only
          rw [List.length_take, List.length_drop]; omega

/-- steps of `dec` -/
structure Decs {α} (g : Cfg) (m : Metered α) (p : Parser α) : Prop where
  same : ∀ i, (m i).1 = p i
  cheap : ∀ i, (m i).2 ≤ 9 * i.length + 1
  left : ∀ i a r, p i = .ok (a, r) → (m i).2 + 1 + 9 * r.length ≤ 9 * i.length
  paid : g.strictSeq = true → g.strictWrap = true → ∀ i a r, p i = .ok (a, r) → i.length + 1 ≤ (m i).2 + r.length

theorem Counts.dec {α} {g : Cfg} {w : Counted α} {c : Codec α} (h : Counts g w c) : Decs g (w.dec g) (c.dec g) := by
  have all : ∀ i, (w.dec g i).1 = c.dec g i ∧ (w.dec g i).2 ≤ 9 * i.length + 1 ∧
      (∀ a r, c.dec g i = .ok (a, r) → (w.dec g i).2 + 1 + 9 * r.length ≤ 9 * i.length) ∧
      (g.strictSeq = true → g.strictWrap = true → ∀ a r, c.dec g i = .ok (a, r) → i.length + 1 ≤ (w.dec g i).2 + r.length) := by
    intro i
    have h1 := countTlv_same g w.tag i
    have ⟨h2, h3⟩ := countTlv_cost g w.tag i
    unfold Counted.dec Codec.dec
    rw [← h.tag]
    revert h2 h3
    rw [← h1]
    rcases countTlv g w.tag i with ⟨(e | ⟨v, r⟩), k⟩
    · dsimp only
      exact fun h2 _ => ⟨rfl, by omega, (fun a r h => nomatch h), fun _ _ a r h => nomatch h⟩
    · dsimp only
      intro h2 h3
      have ⟨h3, h4⟩ := h3 v r rfl
      have h5 := h.same v
      have h6 := h.cheap v
      have h7 := h.paid
      have h7 := fun s s' => h7 s s' v
      revert h6 h7
      rw [← h5]
      rcases w.parse v with ⟨(e | a), k'⟩
      · dsimp only
        exact fun h6 _ => ⟨rfl, by omega, (fun a r h => nomatch h), fun _ _ a r h => nomatch h⟩
      · dsimp only
        intro h6 h7
        refine ⟨rfl, by omega, fun a' r' h => ?_, fun s s' a' r' h => ?_⟩
        · injection h with h; injection h with _ h; subst h; omega
        · injection h with h; injection h with _ h; subst h
          have := h7 s s' a rfl
          omega
  exact ⟨fun i => (all i).1, fun i => (all i).2.1, fun i => (all i).2.2.1, fun s s' i => (all i).2.2.2 s s'⟩

theorem Counts.leaf {α} (g : Cfg) (c : Codec α) : Counts g (countLeaf c) c :=
  ⟨rfl, fun _ => rfl, fun b => by show 1 + b.length ≤ _; omega, fun _ _ b _ _ => by show b.length ≤ 1 + b.length; omega⟩

theorem countLoop_counts {α} {g : Cfg} {w : Counted α} {c : Codec α} (h : Counts g w c) (n : Nat) :
    ∀ b, (countLoop g w n b).1 = seqOfLoop g c n b ∧ (countLoop g w n b).2 ≤ 9 * b.length + 2 ∧
      (g.strictSeq = true → g.strictWrap = true → ∀ as, seqOfLoop g c n b = .ok as → b.length ≤ (countLoop g w n b).2) := by
  have hd := h.dec
  induction n with
  | zero =>
    intro b
    cases b with
    | nil => exact ⟨rfl, by show 1 ≤ _; omega, fun _ _ _ _ => Nat.zero_le _⟩
    | cons x b => exact ⟨rfl, by show 1 ≤ _; omega, fun _ _ _ h => nomatch h⟩
  | succ n ih =>
    intro b
    cases b with
    | nil => exact ⟨rfl, by show 1 ≤ _; omega, fun _ _ _ _ => Nat.zero_le _⟩
    | cons x b =>
      simp only [countLoop, seqOfLoop]
      generalize x :: b = b
      have h1 := hd.same b
      have h2 := hd.cheap b
      have h3 := hd.left b
      have h4 := fun s s' => hd.paid s s' b
      revert h2 h3 h4
      rw [← h1]
      rcases w.dec g b with ⟨(e | ⟨a, r⟩), k⟩
      · dsimp only
        exact fun h2 _ _ => ⟨rfl, by omega, fun _ _ _ h => nomatch h⟩
      · dsimp only
        intro _ h3 h4
        have h3 := h3 a r rfl
        have ⟨h5, h6, h7⟩ := ih r
        revert h6 h7
        rw [← h5]
        rcases countLoop g w n r with ⟨(e | as), k'⟩
        · dsimp only
          exact fun h6 _ => ⟨rfl, by omega, fun _ _ _ h => nomatch h⟩
        · dsimp only
          intro h6 h7
          refine ⟨rfl, by omega, fun s s' _ _ => ?_⟩
          have := h7 s s' as rfl
          have := h4 s s' a r rfl
          omega

theorem Counts.seqOf {α} {g : Cfg} {w : Counted α} {c : Codec α} (h : Counts g w c) : Counts g (countSeqOf g w) (seqOfC g c) := by
  have all := fun b : Bytes => countLoop_counts h b.length b
  refine ⟨rfl, fun b => (all b).1, fun b => ?_, fun s s' b => (all b).2.2 s s'⟩
  have := (all b).2.1
  show (countLoop g w b.length b).2 ≤ _
  omega

theorem Counts.wrapped {α} {g : Cfg} {w : Counted α} {c : Codec α} (h : Counts g w c) (tag : UInt8) :
    Decs g (countWrapped g tag w) (parseWrapped g tag c) := by
  have hd := h.dec
  have all : ∀ i, (countWrapped g tag w i).1 = parseWrapped g tag c i ∧ (countWrapped g tag w i).2 ≤ 9 * i.length + 1 ∧
      (∀ a r, parseWrapped g tag c i = .ok (a, r) → (countWrapped g tag w i).2 + 1 + 9 * r.length ≤ 9 * i.length) ∧
      (g.strictSeq = true → g.strictWrap = true → ∀ a r, parseWrapped g tag c i = .ok (a, r) →
        i.length + 1 ≤ (countWrapped g tag w i).2 + r.length) := by
    intro i
    have h1 := countTlv_same g tag i
    have ⟨h2, h3⟩ := countTlv_cost g tag i
    unfold countWrapped parseWrapped
    revert h2 h3
    rw [← h1]
    rcases countTlv g tag i with ⟨(e | ⟨v, r⟩), k⟩
    · dsimp only
      exact fun h2 _ => ⟨rfl, by omega, (fun a r h => nomatch h), fun _ _ a r h => nomatch h⟩
    · dsimp only
      intro h2 h3
      have ⟨h3, h4⟩ := h3 v r rfl
      have h5 := hd.same v
      have h6 := hd.cheap v
      have h8 := hd.left v
      have h7 := fun s s' => hd.paid s s' v
      revert h6 h7 h8
      rw [← h5]
      rcases w.dec g v with ⟨(e | ⟨a, left⟩), k'⟩
      · dsimp only
        exact fun h6 _ _ => ⟨rfl, by omega, (fun a r h => nomatch h), fun _ _ a r h => nomatch h⟩
      · dsimp only
        intro h6 h8 h7
        have h8 := h8 a left rfl
        refine ⟨rfl, by omega, fun a' r' h => ?_, fun s s' a' r' h => ?_⟩
        · split at h
          · exact nomatch h
          · injection h with h; injection h with _ h; subst h; omega
        · rw [s'] at h
          cases left with
          | cons x l => exact nomatch h
          | nil =>
            injection h with h; injection h with _ h; subst h
            have := h7 s s' a [] rfl
            rw [List.length_nil] at this
            omega
  exact ⟨fun i => (all i).1, fun i => (all i).2.1, fun i => (all i).2.2.1, fun s s' i => (all i).2.2.2 s s'⟩

theorem CountsF.none (g : Cfg) : CountsF g 2 countNone noFields.parse := by
  refine ⟨fun _ => rfl, fun i => Nat.zero_le _, fun i a r h => ?_, fun _ _ i a r h => ?_⟩
  all_goals
    injection h with h; injection h with _ h; subst h
    show _ ≤ _
    simp only [countNone]; omega

theorem CountsF.req {α β} {g : Cfg} {n : Nat} {w : Counted α} {c : Codec α} {f : Metered β} {F : Fields β} (k : Nat) (hn : 2 ≤ n)
    (h : Counts g w c) (hf : CountsF g n f F.parse) : CountsF g n (countReq g k w f) (reqField g k c F).parse := by
  have hd := h.wrapped (ctxTag k)
  have all : ∀ i, (countReq g k w f i).1 = (reqField g k c F).parse i ∧ (countReq g k w f i).2 ≤ 9 * i.length + n ∧
      (∀ a r, (reqField g k c F).parse i = .ok (a, r) → (countReq g k w f i).2 + 9 * r.length ≤ 9 * i.length + n) ∧
      (g.strictSeq = true → g.strictWrap = true → ∀ a r, (reqField g k c F).parse i = .ok (a, r) →
        i.length ≤ (countReq g k w f i).2 + r.length) := by
    intro i
    have h5 := hd.same i
    have h6 := hd.cheap i
    have h8 := hd.left i
    have h7 := fun s s' => hd.paid s s' i
    unfold countReq reqField
    dsimp only
    revert h6 h7 h8
    rw [← h5]
    rcases countWrapped g (ctxTag k) w i with ⟨(e | ⟨a, r⟩), m⟩
    · dsimp only
      exact fun h6 _ _ => ⟨rfl, by omega, (fun a r h => nomatch h), fun _ _ a r h => nomatch h⟩
    · dsimp only
      intro h6 h8 h7
      have h8 := h8 a r rfl
      have i5 := hf.same r
      have i6 := hf.cheap r
      have i8 := hf.left r
      have i7 := fun s s' => hf.paid s s' r
      revert i6 i7 i8
      rw [← i5]
      rcases f r with ⟨(e | ⟨b, q⟩), m'⟩
      · dsimp only
        exact fun i6 _ _ => ⟨rfl, by omega, (fun a r h => nomatch h), fun _ _ a r h => nomatch h⟩
      · dsimp only
        intro i6 i8 i7
        have i8 := i8 b q rfl
        refine ⟨rfl, by omega, fun a' r' h => ?_, fun s s' a' r' h => ?_⟩
        · injection h with h; injection h with _ h; subst h; omega
        · injection h with h; injection h with _ h; subst h
          have := h7 s s' a r rfl
          have := i7 s s' b q rfl
          omega
  exact ⟨fun i => (all i).1, fun i => (all i).2.1, fun i => (all i).2.2.1, fun s s' i => (all i).2.2.2 s s'⟩

theorem CountsF.opt {α β} {g : Cfg} {n : Nat} {w : Counted α} {c : Codec α} {f : Metered β} {F : Fields β} (k : Nat) (hn : 2 ≤ n)
    (h : Counts g w c) (hf : CountsF g n f F.parse) : CountsF g (n + 1) (countOpt g k w f) (optField g k c F).parse := by
  have hd := h.wrapped (ctxTag k)
  have all : ∀ i, (countOpt g k w f i).1 = (optField g k c F).parse i ∧ (countOpt g k w f i).2 ≤ 9 * i.length + (n + 1) ∧
      (∀ a r, (optField g k c F).parse i = .ok (a, r) → (countOpt g k w f i).2 + 9 * r.length ≤ 9 * i.length + (n + 1)) ∧
      (g.strictSeq = true → g.strictWrap = true → ∀ a r, (optField g k c F).parse i = .ok (a, r) →
        i.length ≤ (countOpt g k w f i).2 + r.length) := by
    intro i
    unfold countOpt optField
    dsimp only
    split
    · have h5 := hd.same i
      have h6 := hd.cheap i
      have h8 := hd.left i
      have h7 := fun s s' => hd.paid s s' i
      revert h6 h7 h8
      rw [← h5]
      rcases countWrapped g (ctxTag k) w i with ⟨(e | ⟨a, r⟩), m⟩
      · dsimp only
        exact fun h6 _ _ => ⟨rfl, by omega, (fun a r h => nomatch h), fun _ _ a r h => nomatch h⟩
      · dsimp only
        intro h6 h8 h7
        have h8 := h8 a r rfl
        have i5 := hf.same r
        have i6 := hf.cheap r
        have i8 := hf.left r
        have i7 := fun s s' => hf.paid s s' r
        revert i6 i7 i8
        rw [← i5]
        rcases f r with ⟨(e | ⟨b, q⟩), m'⟩
        · dsimp only
          exact fun i6 _ _ => ⟨rfl, by omega, (fun a r h => nomatch h), fun _ _ a r h => nomatch h⟩
        · dsimp only
          intro i6 i8 i7
          have i8 := i8 b q rfl
          refine ⟨rfl, by omega, fun a' r' h => ?_, fun s s' a' r' h => ?_⟩
          · injection h with h; injection h with _ h; subst h; omega
          · injection h with h; injection h with _ h; subst h
            have := h7 s s' a r rfl
            have := i7 s s' b q rfl
            omega
    · have i5 := hf.same i
      have i6 := hf.cheap i
      have i8 := hf.left i
      have i7 := fun s s' => hf.paid s s' i
      revert i6 i7 i8
      rw [← i5]
      rcases f i with ⟨(e | ⟨b, q⟩), m'⟩
      · dsimp only
        exact fun i6 _ _ => ⟨rfl, by omega, (fun a r h => nomatch h), fun _ _ a r h => nomatch h⟩
      · dsimp only
        intro i6 i8 i7
        have i8 := i8 b q rfl
        refine ⟨rfl, by omega, fun a' r' h => ?_, fun s s' a' r' h => ?_⟩
        · injection h with h; injection h with _ h; subst h; omega
        · injection h with h; injection h with _ h; subst h
          have := i7 s s' b q rfl
          omega
  exact ⟨fun i => (all i).1, fun i => (all i).2.1, fun i => (all i).2.2.1, fun s s' i => (all i).2.2.2 s s'⟩

theorem CountsF.map {α β} {g : Cfg} {n : Nat} {f : Metered α} {F : Fields α} (mk : α → β) (un : β → α) (hf : CountsF g n f F.parse) :
    CountsF g n (countMap f mk) (F.imap mk un).parse := by
  have all : ∀ i, (countMap f mk i).1 = (F.imap mk un).parse i ∧ (countMap f mk i).2 ≤ 9 * i.length + n ∧
      (∀ a r, (F.imap mk un).parse i = .ok (a, r) → (countMap f mk i).2 + 9 * r.length ≤ 9 * i.length + n) ∧
      (g.strictSeq = true → g.strictWrap = true → ∀ a r, (F.imap mk un).parse i = .ok (a, r) →
        i.length ≤ (countMap f mk i).2 + r.length) := by
    intro i
    unfold countMap Fields.imap
    dsimp only
    have i5 := hf.same i
    have i6 := hf.cheap i
    have i8 := hf.left i
    have i7 := fun s s' => hf.paid s s' i
    revert i6 i7 i8
    rw [← i5]
    rcases f i with ⟨(e | ⟨b, q⟩), m'⟩
    · dsimp only
      exact fun i6 _ _ => ⟨rfl, by omega, (fun a r h => nomatch h), fun _ _ a r h => nomatch h⟩
    · dsimp only
      intro i6 i8 i7
      have i8 := i8 b q rfl
      refine ⟨rfl, by omega, fun a' r' h => ?_, fun s s' a' r' h => ?_⟩
      · injection h with h; injection h with _ h; subst h; omega
      · injection h with h; injection h with _ h; subst h
        exact i7 s s' b q rfl
  exact ⟨fun i => (all i).1, fun i => (all i).2.1, fun i => (all i).2.2.1, fun s s' i => (all i).2.2.2 s s'⟩

theorem CountsF.seq {α} {g : Cfg} {n : Nat} {f : Metered α} {F : Fields α} (hn : n ≤ 13) (hf : CountsF g n f F.parse) :
    Counts g (countSeq g f) (seqC g F) := by
  have all : ∀ i, ((countSeq g f).parse i).1 = (seqC g F).parse i ∧ ((countSeq g f).parse i).2 ≤ 9 * i.length + 14 ∧
      (g.strictSeq = true → g.strictWrap = true → ∀ a, (seqC g F).parse i = .ok a → i.length ≤ ((countSeq g f).parse i).2) := by
    intro i
    unfold countSeq seqC
    dsimp only
    have i5 := hf.same i
    have i6 := hf.cheap i
    have i7 := fun s s' => hf.paid s s' i
    revert i6 i7
    rw [← i5]
    rcases f i with ⟨(e | ⟨b, q⟩), m'⟩
    · dsimp only
      exact fun i6 _ => ⟨rfl, by omega, fun _ _ a h => nomatch h⟩
    · dsimp only
      intro i6 i7
      refine ⟨rfl, by omega, fun s s' a h => ?_⟩
      rw [s] at h
      cases q with
      | cons x l => exact nomatch h
      | nil =>
        have := i7 s s' b [] rfl
        rw [List.length_nil] at this
        omega
  exact ⟨rfl, fun i => (all i).1, fun i => (all i).2.1, fun s s' i => (all i).2.2 s s'⟩

theorem CountsF.app {α} {g : Cfg} {n : Nat} {f : Metered α} {F : Fields α} (k : Nat) (hn : n ≤ 13) (hf : CountsF g n f F.parse) :
    Counts g (countApp g k f) (appC g k F) := by
  have hd := (hf.seq hn).dec
  have all : ∀ i, ((countApp g k f).parse i).1 = (appC g k F).parse i ∧ ((countApp g k f).parse i).2 ≤ 9 * i.length + 14 ∧
      (g.strictSeq = true → g.strictWrap = true → ∀ a, (appC g k F).parse i = .ok a → i.length ≤ ((countApp g k f).parse i).2) := by
    intro i
    unfold countApp appC
    dsimp only
    have i5 := hd.same i
    have i6 := hd.cheap i
    have i7 := fun s s' => hd.paid s s' i
    revert i6 i7
    rw [← i5]
    rcases (countSeq g f).dec g i with ⟨(e | ⟨b, q⟩), m'⟩
    · dsimp only
      exact fun i6 _ => ⟨rfl, by omega, fun _ _ a h => nomatch h⟩
    · dsimp only
      intro i6 i7
      refine ⟨rfl, by omega, fun s s' a h => ?_⟩
      rw [s'] at h
      cases q with
      | cons x l => exact nomatch h
      | nil =>
        have := i7 s s' b [] rfl
        rw [List.length_nil] at this
        omega
  exact ⟨rfl, fun i => (all i).1, fun i => (all i).2.1, fun s s' i => (all i).2.2 s s'⟩

/-! ### The message types -/

theorem countEncryptedData_counts (g : Cfg) : Counts g (countEncryptedData g) (encryptedDataC g) :=
  CountsF.seq (by omega) <| CountsF.map _ _ <|
    CountsF.req 0 (by omega) (Counts.leaf g _) <|
    CountsF.opt 1 (by omega) (Counts.leaf g _) <|
    CountsF.req 2 (by omega) (Counts.leaf g _) <|
    CountsF.none g

theorem countApRep_counts (g : Cfg) : Counts g (countApRep g) (apRepC g) :=
  CountsF.app 15 (by omega) <| CountsF.map _ _ <|
    CountsF.req 0 (by omega) (Counts.leaf g _) <|
    CountsF.req 1 (by omega) (Counts.leaf g _) <|
    CountsF.req 2 (by omega) (countEncryptedData_counts g) <|
    CountsF.none g

theorem countPrincipalName_counts (g : Cfg) : Counts g (countPrincipalName g) (principalNameC g) :=
  CountsF.seq (by omega) <| CountsF.map _ _ <|
    CountsF.req 0 (by omega) (Counts.leaf g _) <|
    CountsF.req 1 (by omega) (Counts.seqOf (Counts.leaf g _)) <|
    CountsF.none g

theorem countTicket_counts (g : Cfg) : Counts g (countTicket g) (ticketC g) :=
  CountsF.app 1 (by omega) <| CountsF.map _ _ <|
    CountsF.req 0 (by omega) (Counts.leaf g _) <|
    CountsF.req 1 (by omega) (Counts.leaf g _) <|
    CountsF.req 2 (by omega) (countPrincipalName_counts g) <|
    CountsF.req 3 (by omega) (countEncryptedData_counts g) <|
    CountsF.none g

theorem countApReq_counts (g : Cfg) : Counts g (countApReq g) (apReqC g) :=
  CountsF.app 14 (by omega) <| CountsF.map _ _ <|
    CountsF.req 0 (by omega) (Counts.leaf g _) <|
    CountsF.req 1 (by omega) (Counts.leaf g _) <|
    CountsF.req 2 (by omega) (Counts.leaf g _) <|
    CountsF.req 3 (by omega) (countTicket_counts g) <|
    CountsF.req 4 (by omega) (countEncryptedData_counts g) <|
    CountsF.none g

theorem countPaData_counts (g : Cfg) : Counts g (countPaData g) (paDataC g) :=
  CountsF.seq (by omega) <| CountsF.map _ _ <|
    CountsF.req 1 (by omega) (Counts.leaf g _) <|
    CountsF.req 2 (by omega) (Counts.leaf g _) <|
    CountsF.none g

theorem countAsRep_counts (g : Cfg) : Counts g (countAsRep g) (asRepC g) :=
  CountsF.app 11 (by omega) <| CountsF.map _ _ <|
    CountsF.req 0 (by omega) (Counts.leaf g _) <|
    CountsF.req 1 (by omega) (Counts.leaf g _) <|
    CountsF.opt 2 (by omega) (Counts.seqOf (countPaData_counts g)) <|
    CountsF.req 3 (by omega) (Counts.leaf g _) <|
    CountsF.req 4 (by omega) (countPrincipalName_counts g) <|
    CountsF.req 5 (by omega) (countTicket_counts g) <|
    CountsF.req 6 (by omega) (countEncryptedData_counts g) <|
    CountsF.none g

theorem countHostAddress_counts (g : Cfg) : Counts g (countHostAddress g) (hostAddressC g) :=
  CountsF.seq (by omega) <| CountsF.map _ _ <|
    CountsF.req 0 (by omega) (Counts.leaf g _) <|
    CountsF.req 1 (by omega) (Counts.leaf g _) <|
    CountsF.none g

theorem countKdcReqBody_counts (g : Cfg) : Counts g (countKdcReqBody g) (kdcReqBodyC g) :=
  CountsF.seq (by omega) <| CountsF.map _ _ <|
    CountsF.req 0 (by omega) (Counts.leaf g _) <|
    CountsF.opt 1 (by omega) (countPrincipalName_counts g) <|
    CountsF.req 2 (by omega) (Counts.leaf g _) <|
    CountsF.opt 3 (by omega) (countPrincipalName_counts g) <|
    CountsF.opt 4 (by omega) (Counts.leaf g _) <|
    CountsF.req 5 (by omega) (Counts.leaf g _) <|
    CountsF.opt 6 (by omega) (Counts.leaf g _) <|
    CountsF.req 7 (by omega) (Counts.leaf g _) <|
    CountsF.req 8 (by omega) (Counts.seqOf (Counts.leaf g _)) <|
    CountsF.opt 9 (by omega) (Counts.seqOf (countHostAddress_counts g)) <|
    CountsF.opt 10 (by omega) (countEncryptedData_counts g) <|
    CountsF.opt 11 (by omega) (Counts.seqOf (countTicket_counts g)) <|
    CountsF.none g

theorem countAsReq_counts (g : Cfg) : Counts g (countAsReq g) (asReqC g) :=
  CountsF.app 10 (by omega) <| CountsF.map _ _ <|
    CountsF.req 1 (by omega) (Counts.leaf g _) <|
    CountsF.req 2 (by omega) (Counts.leaf g _) <|
    CountsF.opt 3 (by omega) (Counts.seqOf (countPaData_counts g)) <|
    CountsF.req 4 (by omega) (countKdcReqBody_counts g) <|
    CountsF.none g

theorem countChecksum_counts (g : Cfg) : Counts g (countChecksum g) (checksumC g) :=
  CountsF.seq (by omega) <| CountsF.map _ _ <|
    CountsF.req 0 (by omega) (Counts.leaf g _) <|
    CountsF.req 1 (by omega) (Counts.leaf g _) <|
    CountsF.none g

theorem countEncryptionKey_counts (g : Cfg) : Counts g (countEncryptionKey g) (encryptionKeyC g) :=
  CountsF.seq (by omega) <| CountsF.map _ _ <|
    CountsF.req 0 (by omega) (Counts.leaf g _) <|
    CountsF.req 1 (by omega) (Counts.leaf g _) <|
    CountsF.none g

theorem countAuthorizationDataEntry_counts (g : Cfg) : Counts g (countAuthorizationDataEntry g) (authorizationDataEntryC g) :=
  CountsF.seq (by omega) <| CountsF.map _ _ <|
    CountsF.req 0 (by omega) (Counts.leaf g _) <|
    CountsF.req 1 (by omega) (Counts.leaf g _) <|
    CountsF.none g

theorem countAuthenticator_counts (g : Cfg) : Counts g (countAuthenticator g) (authenticatorC g) :=
  CountsF.app 2 (by omega) <| CountsF.map _ _ <|
    CountsF.req 0 (by omega) (Counts.leaf g _) <|
    CountsF.req 1 (by omega) (Counts.leaf g _) <|
    CountsF.req 2 (by omega) (countPrincipalName_counts g) <|
    CountsF.opt 3 (by omega) (countChecksum_counts g) <|
    CountsF.req 4 (by omega) (Counts.leaf g _) <|
    CountsF.req 5 (by omega) (Counts.leaf g _) <|
    CountsF.opt 6 (by omega) (countEncryptionKey_counts g) <|
    CountsF.opt 7 (by omega) (Counts.leaf g _) <|
    CountsF.opt 8 (by omega) (Counts.seqOf (countAuthorizationDataEntry_counts g)) <|
    CountsF.none g

theorem countEncApRepPart_counts (g : Cfg) : Counts g (countEncApRepPart g) (encApRepPartC g) :=
  CountsF.app 27 (by omega) <| CountsF.map _ _ <|
    CountsF.req 0 (by omega) (Counts.leaf g _) <|
    CountsF.req 1 (by omega) (Counts.leaf g _) <|
    CountsF.req 2 (by omega) (countEncryptionKey_counts g) <|
    CountsF.req 3 (by omega) (Counts.leaf g _) <|
    CountsF.none g

theorem countLastReqEntry_counts (g : Cfg) : Counts g (countLastReqEntry g) (lastReqEntryC g) :=
  CountsF.seq (by omega) <| CountsF.map _ _ <|
    CountsF.req 0 (by omega) (Counts.leaf g _) <|
    CountsF.req 1 (by omega) (Counts.leaf g _) <|
    CountsF.none g

theorem countEncAsRepPart_counts (g : Cfg) : Counts g (countEncAsRepPart g) (encAsRepPartC g) :=
  CountsF.app 25 (by omega) <| CountsF.map _ _ <|
    CountsF.req 0 (by omega) (countEncryptionKey_counts g) <|
    CountsF.req 1 (by omega) (Counts.seqOf (countLastReqEntry_counts g)) <|
    CountsF.req 2 (by omega) (Counts.leaf g _) <|
    CountsF.opt 3 (by omega) (Counts.leaf g _) <|
    CountsF.req 4 (by omega) (Counts.leaf g _) <|
    CountsF.req 5 (by omega) (Counts.leaf g _) <|
    CountsF.opt 6 (by omega) (Counts.leaf g _) <|
    CountsF.req 7 (by omega) (Counts.leaf g _) <|
    CountsF.opt 8 (by omega) (Counts.leaf g _) <|
    CountsF.req 9 (by omega) (Counts.leaf g _) <|
    CountsF.req 10 (by omega) (countPrincipalName_counts g) <|
    CountsF.opt 11 (by omega) (Counts.seqOf (countHostAddress_counts g)) <|
    CountsF.opt 12 (by omega) (Counts.seqOf (countPaData_counts g)) <|
    CountsF.none g

theorem countEncKdcRepPart_counts (g : Cfg) : Counts g (countEncKdcRepPart g) (encKdcRepPartC g) :=
  CountsF.seq (by omega) <| CountsF.map _ _ <|
    CountsF.req 0 (by omega) (countEncryptionKey_counts g) <|
    CountsF.req 1 (by omega) (Counts.seqOf (countLastReqEntry_counts g)) <|
    CountsF.req 2 (by omega) (Counts.leaf g _) <|
    CountsF.opt 3 (by omega) (Counts.leaf g _) <|
    CountsF.req 4 (by omega) (Counts.leaf g _) <|
    CountsF.req 5 (by omega) (Counts.leaf g _) <|
    CountsF.opt 6 (by omega) (Counts.leaf g _) <|
    CountsF.req 7 (by omega) (Counts.leaf g _) <|
    CountsF.opt 8 (by omega) (Counts.leaf g _) <|
    CountsF.req 9 (by omega) (Counts.leaf g _) <|
    CountsF.req 10 (by omega) (countPrincipalName_counts g) <|
    CountsF.opt 11 (by omega) (Counts.seqOf (countHostAddress_counts g)) <|
    CountsF.opt 12 (by omega) (Counts.seqOf (countPaData_counts g)) <|
    CountsF.none g

theorem countKrbCredInfo_counts (g : Cfg) : Counts g (countKrbCredInfo g) (krbCredInfoC g) :=
  CountsF.seq (by omega) <| CountsF.map _ _ <|
    CountsF.req 0 (by omega) (countEncryptionKey_counts g) <|
    CountsF.opt 1 (by omega) (Counts.leaf g _) <|
    CountsF.opt 2 (by omega) (countPrincipalName_counts g) <|
    CountsF.opt 3 (by omega) (Counts.leaf g _) <|
    CountsF.opt 4 (by omega) (Counts.leaf g _) <|
    CountsF.opt 5 (by omega) (Counts.leaf g _) <|
    CountsF.opt 6 (by omega) (Counts.leaf g _) <|
    CountsF.opt 7 (by omega) (Counts.leaf g _) <|
    CountsF.opt 8 (by omega) (Counts.leaf g _) <|
    CountsF.opt 9 (by omega) (countPrincipalName_counts g) <|
    CountsF.opt 10 (by omega) (Counts.seqOf (countHostAddress_counts g)) <|
    CountsF.none g

theorem countEncKrbCredPart_counts (g : Cfg) : Counts g (countEncKrbCredPart g) (encKrbCredPartC g) :=
  CountsF.app 29 (by omega) <| CountsF.map _ _ <|
    CountsF.req 0 (by omega) (Counts.seqOf (countKrbCredInfo_counts g)) <|
    CountsF.opt 1 (by omega) (Counts.leaf g _) <|
    CountsF.opt 2 (by omega) (Counts.leaf g _) <|
    CountsF.opt 3 (by omega) (Counts.leaf g _) <|
    CountsF.opt 4 (by omega) (countHostAddress_counts g) <|
    CountsF.opt 5 (by omega) (countHostAddress_counts g) <|
    CountsF.none g

theorem countEncKrbPrivPart_counts (g : Cfg) : Counts g (countEncKrbPrivPart g) (encKrbPrivPartC g) :=
  CountsF.app 28 (by omega) <| CountsF.map _ _ <|
    CountsF.req 0 (by omega) (Counts.leaf g _) <|
    CountsF.opt 1 (by omega) (Counts.leaf g _) <|
    CountsF.opt 2 (by omega) (Counts.leaf g _) <|
    CountsF.opt 3 (by omega) (Counts.leaf g _) <|
    CountsF.req 4 (by omega) (countHostAddress_counts g) <|
    CountsF.opt 5 (by omega) (countHostAddress_counts g) <|
    CountsF.none g

theorem countEncTgsRepPart_counts (g : Cfg) : Counts g (countEncTgsRepPart g) (encTgsRepPartC g) :=
  CountsF.app 26 (by omega) <| CountsF.map _ _ <|
    CountsF.req 0 (by omega) (countEncryptionKey_counts g) <|
    CountsF.req 1 (by omega) (Counts.seqOf (countLastReqEntry_counts g)) <|
    CountsF.req 2 (by omega) (Counts.leaf g _) <|
    CountsF.opt 3 (by omega) (Counts.leaf g _) <|
    CountsF.req 4 (by omega) (Counts.leaf g _) <|
    CountsF.req 5 (by omega) (Counts.leaf g _) <|
    CountsF.opt 6 (by omega) (Counts.leaf g _) <|
    CountsF.req 7 (by omega) (Counts.leaf g _) <|
    CountsF.opt 8 (by omega) (Counts.leaf g _) <|
    CountsF.req 9 (by omega) (Counts.leaf g _) <|
    CountsF.req 10 (by omega) (countPrincipalName_counts g) <|
    CountsF.opt 11 (by omega) (Counts.seqOf (countHostAddress_counts g)) <|
    CountsF.opt 12 (by omega) (Counts.seqOf (countPaData_counts g)) <|
    CountsF.none g

theorem countTransitedEncoding_counts (g : Cfg) : Counts g (countTransitedEncoding g) (transitedEncodingC g) :=
  CountsF.seq (by omega) <| CountsF.map _ _ <|
    CountsF.req 0 (by omega) (Counts.leaf g _) <|
    CountsF.req 1 (by omega) (Counts.leaf g _) <|
    CountsF.none g

theorem countEncTicketPart_counts (g : Cfg) : Counts g (countEncTicketPart g) (encTicketPartC g) :=
  CountsF.app 3 (by omega) <| CountsF.map _ _ <|
    CountsF.req 0 (by omega) (Counts.leaf g _) <|
    CountsF.req 1 (by omega) (countEncryptionKey_counts g) <|
    CountsF.req 2 (by omega) (Counts.leaf g _) <|
    CountsF.req 3 (by omega) (countPrincipalName_counts g) <|
    CountsF.req 4 (by omega) (countTransitedEncoding_counts g) <|
    CountsF.req 5 (by omega) (Counts.leaf g _) <|
    CountsF.opt 6 (by omega) (Counts.leaf g _) <|
    CountsF.req 7 (by omega) (Counts.leaf g _) <|
    CountsF.opt 8 (by omega) (Counts.leaf g _) <|
    CountsF.opt 9 (by omega) (Counts.seqOf (countHostAddress_counts g)) <|
    CountsF.opt 10 (by omega) (Counts.seqOf (countAuthorizationDataEntry_counts g)) <|
    CountsF.none g

theorem countKdcReq_counts (g : Cfg) : Counts g (countKdcReq g) (kdcReqC g) :=
  CountsF.seq (by omega) <| CountsF.map _ _ <|
    CountsF.req 1 (by omega) (Counts.leaf g _) <|
    CountsF.req 2 (by omega) (Counts.leaf g _) <|
    CountsF.opt 3 (by omega) (Counts.seqOf (countPaData_counts g)) <|
    CountsF.req 4 (by omega) (countKdcReqBody_counts g) <|
    CountsF.none g

theorem countKerbAdRestrictionEntry_counts (g : Cfg) : Counts g (countKerbAdRestrictionEntry g) (kerbAdRestrictionEntryC g) :=
  CountsF.seq (by omega) <| CountsF.map _ _ <|
    CountsF.req 0 (by omega) (Counts.leaf g _) <|
    CountsF.req 1 (by omega) (Counts.leaf g _) <|
    CountsF.none g

theorem countKerbErrorData_counts (g : Cfg) : Counts g (countKerbErrorData g) (kerbErrorDataC g) :=
  CountsF.seq (by omega) <| CountsF.map _ _ <|
    CountsF.req 1 (by omega) (Counts.leaf g _) <|
    CountsF.opt 2 (by omega) (Counts.leaf g _) <|
    CountsF.none g

theorem countKrbCred_counts (g : Cfg) : Counts g (countKrbCred g) (krbCredC g) :=
  CountsF.app 22 (by omega) <| CountsF.map _ _ <|
    CountsF.req 0 (by omega) (Counts.leaf g _) <|
    CountsF.req 1 (by omega) (Counts.leaf g _) <|
    CountsF.req 2 (by omega) (Counts.seqOf (countTicket_counts g)) <|
    CountsF.req 3 (by omega) (countEncryptedData_counts g) <|
    CountsF.none g

theorem countKrbError_counts (g : Cfg) : Counts g (countKrbError g) (krbErrorC g) :=
  CountsF.app 30 (by omega) <| CountsF.map _ _ <|
    CountsF.req 0 (by omega) (Counts.leaf g _) <|
    CountsF.req 1 (by omega) (Counts.leaf g _) <|
    CountsF.opt 2 (by omega) (Counts.leaf g _) <|
    CountsF.opt 3 (by omega) (Counts.leaf g _) <|
    CountsF.req 4 (by omega) (Counts.leaf g _) <|
    CountsF.req 5 (by omega) (Counts.leaf g _) <|
    CountsF.req 6 (by omega) (Counts.leaf g _) <|
    CountsF.opt 7 (by omega) (Counts.leaf g _) <|
    CountsF.opt 8 (by omega) (countPrincipalName_counts g) <|
    CountsF.req 9 (by omega) (Counts.leaf g _) <|
    CountsF.req 10 (by omega) (countPrincipalName_counts g) <|
    CountsF.opt 11 (by omega) (Counts.leaf g _) <|
    CountsF.opt 12 (by omega) (Counts.leaf g _) <|
    CountsF.none g

theorem countKrbPriv_counts (g : Cfg) : Counts g (countKrbPriv g) (krbPrivC g) :=
  CountsF.app 21 (by omega) <| CountsF.map _ _ <|
    CountsF.req 0 (by omega) (Counts.leaf g _) <|
    CountsF.req 1 (by omega) (Counts.leaf g _) <|
    CountsF.req 3 (by omega) (countEncryptedData_counts g) <|
    CountsF.none g

theorem countKrbSafeBody_counts (g : Cfg) : Counts g (countKrbSafeBody g) (krbSafeBodyC g) :=
  CountsF.seq (by omega) <| CountsF.map _ _ <|
    CountsF.req 0 (by omega) (Counts.leaf g _) <|
    CountsF.opt 1 (by omega) (Counts.leaf g _) <|
    CountsF.opt 2 (by omega) (Counts.leaf g _) <|
    CountsF.opt 3 (by omega) (Counts.leaf g _) <|
    CountsF.req 4 (by omega) (countHostAddress_counts g) <|
    CountsF.opt 5 (by omega) (countHostAddress_counts g) <|
    CountsF.none g

theorem countKrbSafe_counts (g : Cfg) : Counts g (countKrbSafe g) (krbSafeC g) :=
  CountsF.app 20 (by omega) <| CountsF.map _ _ <|
    CountsF.req 0 (by omega) (Counts.leaf g _) <|
    CountsF.req 1 (by omega) (Counts.leaf g _) <|
    CountsF.req 2 (by omega) (countKrbSafeBody_counts g) <|
    CountsF.req 3 (by omega) (countChecksum_counts g) <|
    CountsF.none g

theorem countAdAndOr_counts (g : Cfg) : Counts g (countAdAndOr g) (adAndOrC g) :=
  CountsF.seq (by omega) <| CountsF.map _ _ <|
    CountsF.req 0 (by omega) (Counts.leaf g _) <|
    CountsF.req 1 (by omega) (Counts.seqOf (countAuthorizationDataEntry_counts g)) <|
    CountsF.none g

theorem countAdKdcIssued_counts (g : Cfg) : Counts g (countAdKdcIssued g) (adKdcIssuedC g) :=
  CountsF.seq (by omega) <| CountsF.map _ _ <|
    CountsF.req 0 (by omega) (countChecksum_counts g) <|
    CountsF.opt 1 (by omega) (Counts.leaf g _) <|
    CountsF.opt 2 (by omega) (countPrincipalName_counts g) <|
    CountsF.req 3 (by omega) (Counts.seqOf (countAuthorizationDataEntry_counts g)) <|
    CountsF.none g

theorem countEtypeInfo2Entry_counts (g : Cfg) : Counts g (countEtypeInfo2Entry g) (etypeInfo2EntryC g) :=
  CountsF.seq (by omega) <| CountsF.map _ _ <|
    CountsF.req 0 (by omega) (Counts.leaf g _) <|
    CountsF.opt 1 (by omega) (Counts.leaf g _) <|
    CountsF.opt 2 (by omega) (Counts.leaf g _) <|
    CountsF.none g

theorem countEtypeInfoEntry_counts (g : Cfg) : Counts g (countEtypeInfoEntry g) (etypeInfoEntryC g) :=
  CountsF.seq (by omega) <| CountsF.map _ _ <|
    CountsF.req 0 (by omega) (Counts.leaf g _) <|
    CountsF.opt 1 (by omega) (Counts.leaf g _) <|
    CountsF.none g

theorem countKerbPaPacRequest_counts (g : Cfg) : Counts g (countKerbPaPacRequest g) (kerbPaPacRequestC g) :=
  CountsF.seq (by omega) <| CountsF.map _ _ <|
    CountsF.req 0 (by omega) (Counts.leaf g _) <|
    CountsF.none g

theorem countPaEncTsEnc_counts (g : Cfg) : Counts g (countPaEncTsEnc g) (paEncTsEncC g) :=
  CountsF.seq (by omega) <| CountsF.map _ _ <|
    CountsF.req 0 (by omega) (Counts.leaf g _) <|
    CountsF.opt 1 (by omega) (Counts.leaf g _) <|
    CountsF.none g

theorem countPaForUser_counts (g : Cfg) : Counts g (countPaForUser g) (paForUserC g) :=
  CountsF.seq (by omega) <| CountsF.map _ _ <|
    CountsF.req 0 (by omega) (countPrincipalName_counts g) <|
    CountsF.req 1 (by omega) (Counts.leaf g _) <|
    CountsF.req 2 (by omega) (countChecksum_counts g) <|
    CountsF.req 3 (by omega) (Counts.leaf g _) <|
    CountsF.none g

theorem countPaPacOptions_counts (g : Cfg) : Counts g (countPaPacOptions g) (paPacOptionsC g) :=
  CountsF.seq (by omega) <| CountsF.map _ _ <|
    CountsF.req 0 (by omega) (Counts.leaf g _) <|
    CountsF.none g

theorem countS4uUserId_counts (g : Cfg) : Counts g (countS4uUserId g) (s4uUserIdC g) :=
  CountsF.seq (by omega) <| CountsF.map _ _ <|
    CountsF.req 0 (by omega) (Counts.leaf g _) <|
    CountsF.opt 1 (by omega) (countPrincipalName_counts g) <|
    CountsF.req 2 (by omega) (Counts.leaf g _) <|
    CountsF.opt 3 (by omega) (Counts.leaf g _) <|
    CountsF.opt 4 (by omega) (Counts.leaf g _) <|
    CountsF.none g

theorem countPaS4uX509User_counts (g : Cfg) : Counts g (countPaS4uX509User g) (paS4uX509UserC g) :=
  CountsF.seq (by omega) <| CountsF.map _ _ <|
    CountsF.req 0 (by omega) (countS4uUserId_counts g) <|
    CountsF.req 1 (by omega) (countChecksum_counts g) <|
    CountsF.none g

theorem countTgsRep_counts (g : Cfg) : Counts g (countTgsRep g) (tgsRepC g) :=
  CountsF.app 13 (by omega) <| CountsF.map _ _ <|
    CountsF.req 0 (by omega) (Counts.leaf g _) <|
    CountsF.req 1 (by omega) (Counts.leaf g _) <|
    CountsF.opt 2 (by omega) (Counts.seqOf (countPaData_counts g)) <|
    CountsF.req 3 (by omega) (Counts.leaf g _) <|
    CountsF.req 4 (by omega) (countPrincipalName_counts g) <|
    CountsF.req 5 (by omega) (countTicket_counts g) <|
    CountsF.req 6 (by omega) (countEncryptedData_counts g) <|
    CountsF.none g

theorem countTgsReq_counts (g : Cfg) : Counts g (countTgsReq g) (tgsReqC g) :=
  CountsF.app 12 (by omega) <| CountsF.map _ _ <|
    CountsF.req 1 (by omega) (Counts.leaf g _) <|
    CountsF.req 2 (by omega) (Counts.leaf g _) <|
    CountsF.opt 3 (by omega) (Counts.seqOf (countPaData_counts g)) <|
    CountsF.req 4 (by omega) (countKdcReqBody_counts g) <|
    CountsF.none g

theorem countTypedDataEntry_counts (g : Cfg) : Counts g (countTypedDataEntry g) (typedDataEntryC g) :=
  CountsF.seq (by omega) <| CountsF.map _ _ <|
    CountsF.req 0 (by omega) (Counts.leaf g _) <|
    CountsF.opt 1 (by omega) (Counts.leaf g _) <|
    CountsF.none g

theorem MsgType.counts (g : Cfg) : (T : MsgType) → Counts g (T.counted g) (T.codec g)
  | .encryptedData => (countEncryptedData_counts g)
  | .apRep => (countApRep_counts g)
  | .principalName => (countPrincipalName_counts g)
  | .ticket => (countTicket_counts g)
  | .apReq => (countApReq_counts g)
  | .paData => (countPaData_counts g)
  | .asRep => (countAsRep_counts g)
  | .hostAddress => (countHostAddress_counts g)
  | .kdcReqBody => (countKdcReqBody_counts g)
  | .asReq => (countAsReq_counts g)
  | .checksum => (countChecksum_counts g)
  | .encryptionKey => (countEncryptionKey_counts g)
  | .authorizationDataEntry => (countAuthorizationDataEntry_counts g)
  | .authenticator => (countAuthenticator_counts g)
  | .encApRepPart => (countEncApRepPart_counts g)
  | .lastReqEntry => (countLastReqEntry_counts g)
  | .encAsRepPart => (countEncAsRepPart_counts g)
  | .encKdcRepPart => (countEncKdcRepPart_counts g)
  | .krbCredInfo => (countKrbCredInfo_counts g)
  | .encKrbCredPart => (countEncKrbCredPart_counts g)
  | .encKrbPrivPart => (countEncKrbPrivPart_counts g)
  | .encTgsRepPart => (countEncTgsRepPart_counts g)
  | .transitedEncoding => (countTransitedEncoding_counts g)
  | .encTicketPart => (countEncTicketPart_counts g)
  | .kdcReq => (countKdcReq_counts g)
  | .kerbAdRestrictionEntry => (countKerbAdRestrictionEntry_counts g)
  | .kerbErrorData => (countKerbErrorData_counts g)
  | .krbCred => (countKrbCred_counts g)
  | .krbError => (countKrbError_counts g)
  | .krbPriv => (countKrbPriv_counts g)
  | .krbSafeBody => (countKrbSafeBody_counts g)
  | .krbSafe => (countKrbSafe_counts g)
  | .adAndOr => (countAdAndOr_counts g)
  | .adKdcIssued => (countAdKdcIssued_counts g)
  | .etypeInfo2Entry => (countEtypeInfo2Entry_counts g)
  | .etypeInfoEntry => (countEtypeInfoEntry_counts g)
  | .kerbPaPacRequest => (countKerbPaPacRequest_counts g)
  | .paEncTsEnc => (countPaEncTsEnc_counts g)
  | .paForUser => (countPaForUser_counts g)
  | .paPacOptions => (countPaPacOptions_counts g)
  | .s4uUserId => (countS4uUserId_counts g)
  | .paS4uX509User => (countPaS4uX509User_counts g)
  | .tgsRep => (countTgsRep_counts g)
  | .tgsReq => (countTgsReq_counts g)
  | .typedDataEntry => (countTypedDataEntry_counts g)
  | .hostAddresses => (Counts.seqOf (countHostAddress_counts g))
  | .authorizationData => (Counts.seqOf (countAuthorizationDataEntry_counts g))
  | .lastReq => (Counts.seqOf (countLastReqEntry_counts g))
  | .typedData => (Counts.seqOf (countTypedDataEntry_counts g))
  | .etypeInfo => (Counts.seqOf (countEtypeInfoEntry_counts g))
  | .etypeInfo2 => (Counts.seqOf (countEtypeInfo2Entry_counts g))
  | .methodData => (Counts.seqOf (countPaData_counts g))
  | .kerbKeyListRep => (Counts.seqOf (countEncryptionKey_counts g))
  | .kerbKeyListReq => (Counts.seqOf (Counts.leaf g _))
  | .kerbLocal => (Counts.leaf g _)
  | .realm => (Counts.leaf g _)
  | .int32 => (Counts.leaf g _)
  | .kerberosFlags => (Counts.leaf g _)
  | .kerberosTime => (Counts.leaf g _)
  | .uInt32 => (Counts.leaf g _)

end Verif.Asn1
