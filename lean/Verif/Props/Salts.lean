import Verif.Props.Client
import Verif.Props.Keys
/-
Property theorems C104: which accounts share a salt, and so the key of a common password.
-/
namespace Verif.Crypto

/-! ### Specification -/

/-- a machine account and a user account that is called like it with "host" in front, up to letter case -/
def MachineAndHost (M : CaseMap) (suffix n n' : List Char) : Prop :=
  ∃ m, M.lower n = m ++ ['$'] ∧ M.lower n' = "host".toList ++ m ++ suffix ∧ (M.lower n').getLast? ≠ some '$'

/-- the same name up to letter case, or a machine and the user called host... -/
def ShareSalt (M : CaseMap) (suffix n n' : List Char) : Prop :=
  M.lower n = M.lower n' ∨ MachineAndHost M suffix n n' ∨ MachineAndHost M suffix n' n

/-! ### Lemmas -/

theorem ends_dollar {l : List Char} : l.getLast? = some '$' ↔ ∃ m, l = m ++ ['$'] := by
  constructor
  · intro h
    have := List.dropLast_append_getLast? '$' h
    exact ⟨l.dropLast, this.symm⟩
  · rintro ⟨m, rfl⟩; simp

/-- the text of a salt after the realm -/
def saltName (M : CaseMap) (suffix name : List Char) : List Char :=
  if (M.lower name).getLast? = some '$' then "host".toList ++ (M.lower name).dropLast ++ suffix else M.lower name

theorem calculateAesSalt_name (M : CaseMap) (r n : List Char) : calculateAesSalt M r n = utf8 (M.upper r ++ saltName M [] n) := by
  unfold calculateAesSalt saltName
  by_cases h : (M.lower n).getLast? = some '$'
  · rw [if_pos h, if_pos h]; simp
  · rw [if_neg h, if_neg h]

theorem aesSalt_name (M : CaseMap) (r n : List Char) :
    aesSalt M r n = utf8 (M.upper r ++ saltName M ('.' :: M.lower r) n) := by
  unfold aesSalt saltName
  by_cases h : (M.lower n).getLast? = some '$'
  · rw [if_pos h, if_pos h]; simp
  · rw [if_neg h, if_neg h]

theorem saltName_machine {M : CaseMap} {x n m : List Char} (h : M.lower n = m ++ ['$']) :
    saltName M x n = "host".toList ++ m ++ x := by
  unfold saltName
  rw [if_pos (ends_dollar.2 ⟨m, h⟩), h, List.dropLast_concat]

theorem saltName_user {M : CaseMap} {x n : List Char} (h : (M.lower n).getLast? ≠ some '$') : saltName M x n = M.lower n := by
  unfold saltName
  rw [if_neg h]

theorem saltName_eq_iff (M : CaseMap) (x n n' : List Char) : saltName M x n = saltName M x n' ↔ ShareSalt M x n n' := by
  constructor
  · intro h
    by_cases h1 : (M.lower n).getLast? = some '$'
    · obtain ⟨m, hm⟩ := ends_dollar.1 h1
      rw [saltName_machine hm] at h
      by_cases h2 : (M.lower n').getLast? = some '$'
      · obtain ⟨m', hm'⟩ := ends_dollar.1 h2
        rw [saltName_machine hm'] at h
        have h := List.append_cancel_left (List.append_cancel_right h)
        left
        rw [hm, hm', h]
      · rw [saltName_user h2] at h
        exact .inr (.inl ⟨m, hm, h.symm, h2⟩)
    · rw [saltName_user h1] at h
      by_cases h2 : (M.lower n').getLast? = some '$'
      · obtain ⟨m', hm'⟩ := ends_dollar.1 h2
        rw [saltName_machine hm'] at h
        exact .inr (.inr ⟨m', hm', h, h1⟩)
      · rw [saltName_user h2] at h
        exact .inl h
  · rintro (h | ⟨m, hm, h, h2⟩ | ⟨m, hm, h, h2⟩)
    · unfold saltName; rw [h]
    · rw [saltName_machine hm, saltName_user h2, h]
    · rw [saltName_machine hm, saltName_user h2, h]

/-! ### C104 -/

/-- C104. Within one realm: the accounts that share the salt for pre-authentication are those whose names differ only in letter
case, and the machine NAME$ with the user "hostname". -/
theorem c104_one_realm (M : CaseMap) (r n n' : List Char) :
    calculateAesSalt M r n = calculateAesSalt M r n' ↔ ShareSalt M [] n n' := by
  rw [calculateAesSalt_name, calculateAesSalt_name, ← saltName_eq_iff]
  exact ⟨fun h => List.append_cancel_left (utf8_inj h), fun h => by rw [h]⟩

/-- C104. The same for the library's salt function, where the user would have to be called "hostname.realm". -/
theorem c104_one_realm_library (M : CaseMap) (r n n' : List Char) :
    aesSalt M r n = aesSalt M r n' ↔ ShareSalt M ('.' :: M.lower r) n n' := by
  rw [aesSalt_name, aesSalt_name, ← saltName_eq_iff]
  exact ⟨fun h => List.append_cancel_left (utf8_inj h), fun h => by rw [h]⟩

theorem append_eq_cases {a b c d : List Char} (h : a ++ b = c ++ d) :
    (a = c ∧ b = d) ∨ (∃ x xs, c = a ++ x :: xs ∧ b = x :: xs ++ d) ∨ ∃ x xs, a = c ++ x :: xs ∧ d = x :: xs ++ b := by
  rcases List.append_eq_append_iff.1 h with ⟨y, h1, h2⟩ | ⟨y, h1, h2⟩
  · cases y with
    | nil => exact .inl ⟨by simpa using h1.symm, by simpa using h2⟩
    | cons x xs => exact .inr (.inl ⟨x, xs, h1, h2⟩)
  · cases y with
    | nil => exact .inl ⟨by simpa using h1, by simpa using h2.symm⟩
    | cons x xs => exact .inr (.inr ⟨x, xs, h1, h2⟩)

/-- a name that begins with an ASCII letter -/
def LetterFirst (n : List Char) : Prop := ∃ c t, n = c :: t ∧ c.isAlpha = true

theorem char_facts : (∀ c : Char, c.isAlpha = true → c.toLower.isLower = true) ∧ ∀ c : Char, (Char.toUpper c).isLower = false := by
  have eA : 'A'.val.toNat = 65 := rfl
  have eZ : 'Z'.val.toNat = 90 := rfl
  have ea : 'a'.val.toNat = 97 := rfl
  have ez : 'z'.val.toNat = 122 := rfl
  constructor
  · intro c h
    simp only [Char.isAlpha, Char.isUpper, Char.isLower, Bool.or_eq_true, Bool.and_eq_true, decide_eq_true_eq] at *
    unfold Char.toLower
    by_cases h2 : c.val ≥ 'A'.val ∧ c.val ≤ 'Z'.val
    · rw [dif_pos h2]
      obtain ⟨h3, h4⟩ := h2
      have e5 : ('a'.val - 'A'.val).toNat = 32 := rfl
      simp only [ge_iff_le, UInt32.le_iff_toNat_le, UInt32.toNat_add] at h3 h4 ⊢
      omega
    · rw [dif_neg h2]
      rcases h with h | h
      · exact absurd h h2
      · exact h
  · intro c
    simp only [Char.isLower, Bool.and_eq_false_iff, decide_eq_false_iff_not]
    unfold Char.toUpper
    by_cases h2 : 'a'.val ≤ c.val ∧ c.val ≤ 'z'.val
    · rw [dif_pos h2]
      obtain ⟨h3, h4⟩ := h2
      have e5 : ('A'.val - 'a'.val).toNat = 4294967264 := rfl
      simp only [ge_iff_le, UInt32.le_iff_toNat_le, UInt32.toNat_add] at h3 h4 ⊢
      omega
    · rw [dif_neg h2]
      by_cases h5 : 'a'.val ≤ c.val
      · exact .inr fun h => h2 ⟨h5, h⟩
      · exact .inl h5

theorem saltName_lower {n x : List Char} (h : LetterFirst n) : ∃ c t, saltName asciiCase x n = c :: t ∧ c.isLower = true := by
  obtain ⟨c, t, rfl, hc⟩ := h
  unfold saltName
  by_cases h : (asciiCase.lower (c :: t)).getLast? = some '$'
  · rw [if_pos h]
    exact ⟨'h', "ost".toList ++ (asciiCase.lower (c :: t)).dropLast ++ x, rfl, by decide⟩
  · rw [if_neg h]
    exact ⟨c.toLower, t.map Char.toLower, rfl, char_facts.1 c hc⟩

/-- C104. Across realms, for names that begin with a letter (and ASCII case mapping, which is what `AsciiString` has): a salt is
shared only within one realm, up to letter case. -/
theorem c104_realms (r r' n n' : List Char) (hn : LetterFirst n) (hn' : LetterFirst n') :
    calculateAesSalt asciiCase r n = calculateAesSalt asciiCase r' n' ↔
      asciiCase.upper r = asciiCase.upper r' ∧ ShareSalt asciiCase [] n n' := by
  rw [calculateAesSalt_name, calculateAesSalt_name, ← saltName_eq_iff]
  constructor
  · intro h
    have noLower : ∀ (r a x : List Char) (c : Char), asciiCase.upper r = a ++ c :: x → c.isLower = false := by
      intro r a x c h
      have : c ∈ r.map Char.toUpper := by
        show c ∈ asciiCase.upper r
        rw [h]; simp
      obtain ⟨d, -, rfl⟩ := List.mem_map.1 this
      exact char_facts.2 d
    rcases append_eq_cases (utf8_inj h) with h | ⟨x, xs, h1, h2⟩ | ⟨x, xs, h1, h2⟩
    · exact h
    · obtain ⟨c, t, h3, h4⟩ := saltName_lower (x := []) hn
      rw [h3] at h2
      have := noLower r' _ xs x h1
      rw [← (List.cons.inj h2).1, h4] at this
      cases this
    · obtain ⟨c, t, h3, h4⟩ := saltName_lower (x := []) hn'
      rw [h3] at h2
      have := noLower r _ xs x h1
      rw [← (List.cons.inj h2).1, h4] at this
      cases this
  · rintro ⟨h1, h2⟩
    rw [h1, h2]

/-- C104. Violated otherwise: a character without case (a digit, a dot, a hyphen) can belong to the realm or to the name. -/
theorem c104_boundary (r n : List Char) (c : Char) (hu : c.toUpper = c) (hl : c.toLower = c)
    (hn : (asciiCase.lower n).getLast? ≠ some '$') (hne : n ≠ []) :
    calculateAesSalt asciiCase (r ++ [c]) n = calculateAesSalt asciiCase r (c :: n) := by
  rw [calculateAesSalt_name, calculateAesSalt_name, saltName_user hn, saltName_user]
  · simp [asciiCase, hu, hl]
  · cases n with
    | nil => exact absurd rfl hne
    | cons d t =>
      show ((c.toLower :: d.toLower :: t.map Char.toLower).getLast?) ≠ _
      rw [List.getLast?_cons_cons]
      exact hn

end Verif.Crypto

namespace Verif.Kb
open Verif.Asn1
open Verif.Crypto

/-- C104. What sharing a salt means: the same password gives both accounts the same key, which then encrypts their timestamps. -/
theorem c104_shared (P : Prims) (M : CaseMap) (o : Options) (r n n' pw : List Char)
    (h : calculateAesSalt M o.realm n = calculateAesSalt M r n') (et : Int32) (kb : Bytes) :
    PreauthKey P M o n (.secret pw) et kb ↔ PreauthKey P M { o with realm := r } n' (.secret pw) et kb := by
  show (_ ∧ ∃ c, _ ∧ _ = _) ↔ (_ ∧ ∃ c, _ ∧ _ = _)
  rw [h]

/-- C104. Violated for RC4: there is no salt, and all accounts of all realms with the same password have the same key. -/
theorem c104_rc4 (P : Prims) (M : CaseMap) (o o' : Options) (n n' pw : List Char) (h : o.etypes = [23]) (h' : o'.etypes = [23])
    (et : Int32) (kb : Bytes) :
    (PreauthKey P M o n (.secret pw) et kb ↔ PreauthKey P M o' n' (.secret pw) et kb) ∧
      (PreauthKey P M o n (.secret pw) et kb ↔ et = 23 ∧ kb = P.md4 (stringUnicodeBytes pw)) := by
  have key : ∀ (o : Options) n, o.etypes = [23] →
      (PreauthKey P M o n (.secret pw) et kb ↔ et = 23 ∧ kb = P.md4 (stringUnicodeBytes pw)) := by
    intro o n h
    constructor
    · rintro ⟨h1, c, h2, h3⟩
      rw [h] at h1
      have h1 : some (23 : Int32) = some et := h1
      injection h1 with h1
      subst h1
      have h2 : Except.ok Cipher.rc4 = Except.ok c := h2
      injection h2 with h2
      subst h2
      have h3 : Except.ok (P.md4 (stringUnicodeBytes pw)) = Except.ok kb := h3
      injection h3 with h3
      exact ⟨rfl, h3.symm⟩
    · rintro ⟨rfl, rfl⟩
      refine ⟨?_, .rc4, rfl, rfl⟩
      rw [h]; rfl
  exact ⟨(key o n h).trans (key o' n' h').symm, key o n h⟩

end Verif.Kb

namespace Verif.Crypto

/-! ### Examples -/

example : ShareSalt asciiCase [] "Mickey".toList "mickey".toList := .inl (by decide)
example : ShareSalt asciiCase [] "PC$".toList "HostPC".toList := .inr (.inl ⟨"pc".toList, by decide, by decide, by decide⟩)
example : ¬ ShareSalt asciiCase [] "mickey".toList "minnie".toList := by
  rw [← saltName_eq_iff]; decide
example : LetterFirst "Mickey".toList := ⟨'M', "ickey".toList, by decide, by decide⟩
example : calculateAesSalt asciiCase "LAB1".toList "23bob".toList = calculateAesSalt asciiCase "lab12".toList "3Bob".toList := by
  decide +kernel
example : '-'.toUpper = '-' ∧ '-'.toLower = '-' ∧ (asciiCase.lower "bob".toList).getLast? ≠ some '$' := by decide

end Verif.Crypto
