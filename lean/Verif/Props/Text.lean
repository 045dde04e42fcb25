import Verif.TextModel
import Verif.Props.CCache
import Verif.Props.Keytab
/-
Property theorems C79: texts in the files. UTF-8 is that of Lean's own library, which does not depend on this model.
-/
namespace Verif

/-! ### UTF-8 -/

theorem utf8Char_lean (c : Char) : utf8Char c = String.utf8EncodeChar c := by
  have hlt := char_lt c
  unfold utf8Char String.utf8EncodeChar
  dsimp only
  generalize c.val.toNat = n at *
  by_cases h1 : n < 0x80
  · rw [if_pos h1, if_pos (by omega)]
  rw [if_neg h1, if_neg (show ¬ n ≤ 127 by omega)]
  by_cases h2 : n < 0x800
  · rw [if_pos h2, if_pos (show n ≤ 2047 by omega)]
    have e : n / 64 % 32 = n / 64 := by omega
    rw [e, Nat.add_comm (n / 64), Nat.add_comm (n % 64)]
  rw [if_neg h2, if_neg (show ¬ n ≤ 2047 by omega)]
  by_cases h3 : n < 0x10000
  · rw [if_pos h3, if_pos (show n ≤ 65535 by omega)]
    have e : n / 4096 % 16 = n / 4096 := by omega
    rw [e, Nat.add_comm (n / 4096), Nat.add_comm (n / 64 % 64), Nat.add_comm (n % 64)]
  rw [if_neg h3, if_neg (show ¬ n ≤ 65535 by omega)]
  have e : n / 262144 % 8 = n / 262144 := by omega
  rw [e, Nat.add_comm (n / 262144), Nat.add_comm (n / 4096 % 64), Nat.add_comm (n / 64 % 64), Nat.add_comm (n % 64)]

theorem utf8_lean (s : List Char) : (utf8 s).toByteArray = s.utf8Encode := by
  have : utf8Char = String.utf8EncodeChar := funext utf8Char_lean
  unfold utf8 List.utf8Encode
  rw [this]

/-- C79. The bytes of a text are its UTF-8 encoding, and the bytes that can be read as a text are exactly valid UTF-8. -/
theorem c79_utf8 (s : List Char) (d : Bytes) :
    (CC.cosOfStr s).toByteArray = (String.ofList s).toUTF8 ∧ (KT.cosOfStr s).toByteArray = (String.ofList s).toUTF8 ∧
    ((∃ t, CC.cosToStr d = some t) ↔ d.toByteArray.IsValidUTF8) ∧ CC.cosToStr d = KT.cosToStr d := by
  have e1 : (utf8 s).toByteArray = (String.ofList s).toUTF8 := by
    rw [utf8_lean]; rfl
  refine ⟨e1, e1, ?_, rfl⟩
  constructor
  · rintro ⟨t, h⟩
    rw [(utf8Dec_iff d t).1 h]
    exact ⟨t, utf8_lean t⟩
  · rintro ⟨t, h⟩
    refine ⟨t, (utf8Dec_iff d t).2 ?_⟩
    rw [← utf8_lean] at h
    simpa using h

/-- C79. The text read back is the text written, in both formats; what can be read as a text is written back
unchanged. -/
theorem c79_text (s : List Char) (d : Bytes) :
    CC.cosToStr (CC.cosOfStr s) = some s ∧ KT.cosToStr (KT.cosOfStr s) = some s ∧
    (∀ t, CC.cosToStr d = some t → CC.cosOfStr t = d) ∧ (∀ t, KT.cosToStr d = some t → KT.cosOfStr t = d) :=
  ⟨utf8Dec_utf8 s, utf8Dec_utf8 s, fun t h => ((utf8Dec_iff d t).1 h).symm, fun t h => ((utf8Dec_iff d t).1 h).symm⟩

/-- C79. A text in a credential cache: written and read it is the same text, with nothing left over, exactly if it has
fewer than 2^32 bytes. -/
theorem c79_cache_file (s : List Char) :
    (∃ d, CC.parseCos (CC.buildCos (CC.cosOfStr s)) = .ok (d, []) ∧ CC.cosToStr d = some s) ↔ (utf8 s).length < 2^32 := by
  rw [← CC.c06_counted_string_limit (utf8 s)]
  constructor
  · rintro ⟨d, h, hd⟩
    rw [(utf8Dec_iff d s).1 hd] at h
    exact h
  · intro h; exact ⟨_, h, utf8Dec_utf8 s⟩

/-- C79. A text in a keytab: the same with 2^16 bytes. -/
theorem c79_keytab_file (s : List Char) :
    (∃ d, KT.parseCos (KT.buildCos (KT.cosOfStr s)) = .ok (d, []) ∧ KT.cosToStr d = some s) ↔ (utf8 s).length < 2^16 := by
  rw [← KT.c06_keytab_string_limit (utf8 s)]
  constructor
  · rintro ⟨d, h, hd⟩
    rw [(utf8Dec_iff d s).1 hd] at h
    exact h
  · intro h; exact ⟨_, h, utf8Dec_utf8 s⟩

/-! ### Examples -/

example : CC.cosOfStr "ñ€😀".toList = [0xc3, 0xb1, 0xe2, 0x82, 0xac, 0xf0, 0x9f, 0x98, 0x80] ∧
    CC.cosToStr [0xc3, 0xb1, 0xe2, 0x82, 0xac, 0xf0, 0x9f, 0x98, 0x80] = some "ñ€😀".toList ∧
    CC.cosToStr [0xff] = none ∧ CC.cosToStr [0xed, 0xa0, 0x80] = none ∧ CC.cosToStr [0xc0, 0x80] = none := by decide +kernel

end Verif
