import Verif.ErrorModel
import Verif.Props.Dialogue
/-
C90: what a failed request tells; C91: debug output of keys.
-/
set_option linter.unusedSimpArgs false
namespace Verif.Kb
open Verif.Asn1 Verif.Map
open Verif.Crypto (Prims Key CaseMap Cipher CErr newKerberosCipher)

/-! ### C90 -/

theorem decrypt_error_text {P : Prims} (hP : P.Lawful) {c : Cipher} {kb : Bytes} (hk : c.keyOk kb) {u ct e} (h : c.decrypt P kb u ct = .error e) :
    e = .decryption (if ct.length < Crypto.overhead c then "Ciphertext too short" else "Hmac integrity failure") := by
  obtain ⟨h1, h2⟩ := Crypto.c29_no_panic P hP c kb hk u ct
  by_cases hl : ct.length < Crypto.overhead c
  · rw [if_pos hl]
    rw [h2.2 hl] at h; injection h with h; exact h.symm
  · rw [if_neg hl]
    rcases h1 with ⟨pt, h1⟩ | h1 | h1
    · rw [h1] at h; cases h
    · rw [h1] at h; injection h with h; exact h.symm
    · exact absurd (h2.1 h1) hl

theorem reply_errors {P : Prims} (hP : P.Lawful) (g : Cfg) (r : AsRep) (types : List Int32) :
    ∃ x, ∀ (key : Key), key.WF → key.etypes = types → ∀ e, ReplyOutcome P g (some key) r (.error e) →
      e = .panic ∨ e = .parseAsRep r .asn1 ∨ e = x := by
  by_cases hs : types = [18, 17, 23]
  · cases hc : newKerberosCipher r.enc_part.etype with
    | error y =>
      refine ⟨.parseAsRep r (.crypto (.unsupported r.enc_part.etype)), ?_⟩
      intro key hw ht e h
      cases h with
      | unsupported pw _ h => exact .inr (.inr rfl)
      | crash => exact .inl rfl
      | badPassword pw _ c kb e' hk hd =>
        rcases hk with ⟨et, h1 | h1 | h1, -⟩ | ⟨pw', salt, -, h1, -⟩
        · cases h1.2
        · cases h1.2
        · cases h1.2
        · rw [hc] at h1; cases h1
      | badKey k _ c kb e' hi hk hd => rcases hi with ⟨-, rfl⟩ | ⟨-, rfl⟩ | ⟨-, rfl⟩ <;> rw [hs] at ht <;> cases ht
      | wrongType k _ c et kb e' hi hne hk hd => rcases hi with ⟨-, rfl⟩ | ⟨-, rfl⟩ | ⟨-, rfl⟩ <;> rw [hs] at ht <;> cases ht
      | badPart => exact .inr (.inl rfl)
    | ok c0 =>
      refine ⟨.parseAsRep r (.crypto (.decryption
        (if r.enc_part.cipher.length < Crypto.overhead c0 then "Ciphertext too short" else "Hmac integrity failure"))), ?_⟩
      intro key hw ht e h
      cases h with
      | unsupported pw _ h =>
        have := (Crypto.c35_factory r.enc_part.etype).2.1.1 ⟨_, hc⟩
        obtain ⟨h1, h2, h3⟩ := h
        rcases this with h' | h' | h'
        · exact absurd h' h1
        · exact absurd h' h2
        · exact absurd h' h3
      | crash => exact .inl rfl
      | badPassword pw _ c kb e' hk hd =>
        have hf := hk.fits hP (k := .secret pw) trivial
        have he := decrypt_error_text hP hf hd
        rcases hk with ⟨et, h1 | h1 | h1, -⟩ | ⟨pw', salt, -, h1, -⟩
        · cases h1.2
        · cases h1.2
        · cases h1.2
        · rw [hc] at h1; injection h1 with h1; subst h1
          rw [he]; exact .inr (.inr rfl)
      | badKey k _ c kb e' hi hk hd => rcases hi with ⟨-, rfl⟩ | ⟨-, rfl⟩ | ⟨-, rfl⟩ <;> rw [hs] at ht <;> cases ht
      | wrongType k _ c et kb e' hi hne hk hd => rcases hi with ⟨-, rfl⟩ | ⟨-, rfl⟩ | ⟨-, rfl⟩ <;> rw [hs] at ht <;> cases ht
      | badPart => exact .inr (.inl rfl)
  · by_cases ht0 : types = [r.enc_part.etype]
    · cases hc : newKerberosCipher r.enc_part.etype with
      | error y =>
        refine ⟨.panic, ?_⟩
        intro key hw ht e h
        cases h with
        | unsupported pw _ h => exact absurd ht.symm hs
        | crash => exact .inl rfl
        | badPassword => exact absurd ht.symm hs
        | badKey k _ c kb e' hi hk hd =>
          rcases hk with ⟨et, h1, h2⟩ | ⟨pw', salt, -, h1, -⟩
          · have : et = r.enc_part.etype := by
              rcases h1 with ⟨rfl, rfl⟩ | ⟨rfl, rfl⟩ | ⟨rfl, rfl⟩ <;> (rw [ht0] at ht; injection ht)
            rw [this, hc] at h2; cases h2
          · rw [hc] at h1; cases h1
        | wrongType k _ c et kb e' hi hne hk hd =>
          rcases hi with ⟨rfl, rfl⟩ | ⟨rfl, rfl⟩ | ⟨rfl, rfl⟩ <;> (rw [ht0] at ht; injection ht with ht; exact absurd ht hne)
        | badPart => exact .inr (.inl rfl)
      | ok c0 =>
        refine ⟨.parseAsRep r (.crypto (.decryption
          (if r.enc_part.cipher.length < Crypto.overhead c0 then "Ciphertext too short" else "Hmac integrity failure"))), ?_⟩
        intro key hw ht e h
        cases h with
        | unsupported pw _ h => exact absurd ht.symm hs
        | crash => exact .inl rfl
        | badPassword => exact absurd ht.symm hs
        | badKey k _ c kb e' hi hk hd =>
          have hf := hk.fits hP hw
          have he := decrypt_error_text hP hf hd
          have hcc : c = c0 := by
            rcases hk with ⟨et, h1, h2⟩ | ⟨pw', salt, rfl, h1, -⟩
            · have : et = r.enc_part.etype := by
                rcases h1 with ⟨rfl, rfl⟩ | ⟨rfl, rfl⟩ | ⟨rfl, rfl⟩ <;> (rw [ht0] at ht; injection ht)
              rw [this, hc] at h2; injection h2 with h2; exact h2.symm
            · exact absurd ht.symm hs
          subst hcc
          rw [he]; exact .inr (.inr rfl)
        | wrongType k _ c et kb e' hi hne hk hd =>
          rcases hi with ⟨rfl, rfl⟩ | ⟨rfl, rfl⟩ | ⟨rfl, rfl⟩ <;> (rw [ht0] at ht; injection ht with ht; exact absurd ht hne)
        | badPart => exact .inr (.inl rfl)
    · refine ⟨.parseAsRep r (.crypto (.decryption
        s!"Key etype = {(types.headD 0).toInt} doesn't match with message etype = {r.enc_part.etype.toInt}")), ?_⟩
      intro key hw ht e h
      cases h with
      | unsupported pw _ h => exact absurd ht.symm hs
      | crash => exact .inl rfl
      | badPassword => exact absurd ht.symm hs
      | badKey k _ c kb e' hi hk hd =>
        rcases hi with ⟨h, rfl⟩ | ⟨h, rfl⟩ | ⟨h, rfl⟩ <;> (rw [h] at ht0; exact absurd ht.symm ht0)
      | wrongType k _ c et kb e' hi hne hk hd =>
        right; right
        rcases hi with ⟨rfl, rfl⟩ | ⟨rfl, rfl⟩ | ⟨rfl, rfl⟩ <;> (rw [← ht]; rfl)
      | badPart => exact .inr (.inl rfl)

/-- C90. The errors of a request reveal nothing of the secret but whether it opens the reply: for given answers of the KDC and
given kind of key (password, or cipher key of a type) there are at most two errors with which requests fail, for all secrets,
users, options, clocks and random numbers. -/
theorem c90_no_secret {P : Prims} (hP : P.Lawful) {g : Cfg} (hg : g.Total) (answers : Nat → Option Bytes) (types : List Int32) :
    ∃ x y, ∀ (key : Key), key.WF → key.etypes = types → ∀ (M : CaseMap) (e1 e2 : Env), EnvOk e1 → ∀ (username : List Char) (o : Options) e,
      (tgtRequest P M g (fun sent => answers sent.length) e1 e2 username (some key) o).1 = .error e → e ≠ .panic →
      e = x ∨ e = y := by
  have step : ∀ a : Option Bytes, ∃ x y, ∀ (key : Key), key.WF → key.etypes = types → ∀ e, LastAnswer P g (some key) a (.error e) →
      e ≠ .panic → e = x ∨ e = y := by
    intro a
    cases a with
    | none =>
      refine ⟨.network, .network, ?_⟩
      intro key hw ht e h hp
      cases h with
      | noAnswer => exact .inl rfl
    | some b =>
      by_cases h1 : ∃ err, ReadsError g b err
      · obtain ⟨err, h1⟩ := h1
        refine ⟨.krbErrorResponse err, .krbErrorResponse err, ?_⟩
        intro key hw ht e h hp
        obtain ⟨rest, h1⟩ := h1
        cases h with
        | unreadable _ h => obtain ⟨⟨x, h⟩, -⟩ := h; rw [h1] at h; cases h
        | refused _ err' h =>
          obtain ⟨rest', h⟩ := h
          rw [h1] at h; injection h with h; injection h with h; subst h; exact .inl rfl
        | reply _ r _ h ho => obtain ⟨⟨x, h⟩, -⟩ := h; rw [h1] at h; cases h
      · by_cases h2 : ∃ r, ReadsReply g b r
        · obtain ⟨r, h2⟩ := h2
          obtain ⟨x, hx⟩ := reply_errors hP g r types
          refine ⟨.parseAsRep r .asn1, x, ?_⟩
          intro key hw ht e h hp
          obtain ⟨-, rest, h2⟩ := h2
          cases h with
          | unreadable _ h => obtain ⟨-, y, h⟩ := h; rw [h2] at h; cases h
          | refused _ err h => exact absurd ⟨err, h⟩ h1
          | reply _ r' _ h ho =>
            obtain ⟨-, rest', h⟩ := h
            rw [h2] at h; injection h with h; injection h with h; subst h
            rcases hx key hw ht e ho with h | h | h
            · exact absurd h hp
            · exact .inl h
            · exact .inr h
        · refine ⟨.asn1, .asn1, ?_⟩
          intro key hw ht e h hp
          cases h with
          | unreadable _ h => exact .inl rfl
          | refused _ err h => exact absurd ⟨err, h⟩ h1
          | reply _ r _ h ho => exact absurd ⟨r, h⟩ h2
  obtain ⟨x, y, hxy⟩ := step (@ite _ (DemandsPreauth g (answers 1)) (Classical.dec _) (answers 2) (answers 1))
  refine ⟨x, y, ?_⟩
  intro key hw ht M e1 e2 he1 username o e h hp
  have hkk : ∀ k', some key = some k' → k'.WF := by rintro k' h; injection h with h; subst h; exact hw
  obtain ⟨req1, hb1, hd1, hd2⟩ := c48_dialogue hP M hg (fun sent => answers sent.length) username (some key) hkk o he1 (e2 := e2)
  by_cases hd : DemandsPreauth g (answers 1)
  · rw [if_pos hd] at hxy
    cases hb : buildAsReq P M g e2 username (some key) o with
    | ok req2 =>
      have hl := ((hd2 key rfl hd).1 req2 hb).2
      rw [h] at hl
      exact hxy key hw ht e hl hp
    | error z =>
      have := (hd2 key rfl hd).2 z hb
      rw [this] at h
      injection h with h
      exact absurd h.symm hp
  · rw [if_neg hd] at hxy
    have hl := (hd1 (fun h => hd h.1)).2
    rw [h] at hl
    exact hxy key hw ht e hl hp

/-- the text begins so -/
def Begins (t : List Char) (s : String) : Prop := ∃ rest, t = s.toList ++ rest

theorem heads : ("Network error".toList).head? = some 'N' ∧ ("Received ".toList).head? = some 'R' ∧
    ("Asn1 error: ".toList).head? = some 'A' ∧ ("Error parsing AsRep: ".toList).head? = some 'E' := by decide +kernel

theorem head_append {l r : List Char} {c : Char} (h : l.head? = some c) : (l ++ r).head? = some c := by
  cases l with
  | nil => cases h
  | cons x l => exact h

/-- C90. The text of the error tells the cause: `Network error` exactly if the transport failed, `Received …` exactly if the KDC
refused, `Asn1 error: …` exactly if the answer was no Kerberos reply, `Error parsing AsRep: …` exactly if a reply came that
the user's key does not open or that is not what it should be. -/
theorem c90_tells {P : Prims} (hP : P.Lawful) (M : CaseMap) {g : Cfg} (hg : g.Total) (net : Net) {e1 e2 : Env} (username : List Char)
    (key : Option Key) (hk : ∀ k, key = some k → k.WF) (o : Options) (he1 : EnvOk e1) (A : Outside) {a : Option Bytes}
    (h : Decides P M g net e1 e2 username key o a) (e : KErr) (he : (tgtRequest P M g net e1 e2 username key o).1 = .error e)
    (t : List Char) (ht : e.text A = some t) :
    (t = "Network error".toList ↔ a = none) ∧
    (Begins t "Received " ↔ ∃ b err, a = some b ∧ ReadsError g b err) ∧
    (Begins t "Asn1 error: " ↔ ∃ b, a = some b ∧ Unreadable g b) ∧
    (Begins t "Error parsing AsRep: " ↔ ∃ b r, a = some b ∧ ReadsReply g b r) := by
  have hl := decides_last hP M hg net username key hk o he1 h
  rw [he] at hl
  obtain ⟨hN, hR, hA, hE⟩ := heads
  have key1 : ∀ c, t.head? = some c → (t = "Network error".toList → c = 'N') ∧ (Begins t "Received " → c = 'R') ∧
      (Begins t "Asn1 error: " → c = 'A') ∧ (Begins t "Error parsing AsRep: " → c = 'E') := by
    intro c hc
    refine ⟨?_, ?_, ?_, ?_⟩
    · intro h; rw [h, hN] at hc; injection hc with hc; exact hc.symm
    · rintro ⟨x, h⟩; rw [h, head_append hR] at hc; injection hc with hc; exact hc.symm
    · rintro ⟨x, h⟩; rw [h, head_append hA] at hc; injection hc with hc; exact hc.symm
    · rintro ⟨x, h⟩; rw [h, head_append hE] at hc; injection hc with hc; exact hc.symm
  cases hl with
  | noAnswer =>
    injection ht with ht
    obtain ⟨-, k2, k3, k4⟩ := key1 'N' (by rw [← ht]; exact hN)
    refine ⟨⟨fun _ => rfl, fun _ => ht.symm⟩, ⟨fun h => absurd (k2 h) (by decide), ?_⟩, ⟨fun h => absurd (k3 h) (by decide), ?_⟩,
      ⟨fun h => absurd (k4 h) (by decide), ?_⟩⟩
    · rintro ⟨b, err, h, -⟩; cases h
    · rintro ⟨b, h, -⟩; cases h
    · rintro ⟨b, r, h, -⟩; cases h
  | unreadable b hb =>
    injection ht with ht
    obtain ⟨k1, k2, k3, k4⟩ := key1 'A' (by rw [← ht]; exact head_append hA)
    refine ⟨⟨fun h => absurd (k1 h) (by decide), fun h => (nomatch h)⟩, ⟨fun h => absurd (k2 h) (by decide), ?_⟩,
      ⟨fun _ => ⟨b, rfl, hb⟩, fun _ => ⟨_, ht.symm⟩⟩, ⟨fun h => absurd (k4 h) (by decide), ?_⟩⟩
    · rintro ⟨b', err, h, ⟨rest, h'⟩⟩; injection h with h; subst h
      obtain ⟨⟨x, hx⟩, -⟩ := hb; rw [hx] at h'; cases h'
    · rintro ⟨b', r, h, ⟨-, rest, h'⟩⟩; injection h with h; subst h
      obtain ⟨-, x, hx⟩ := hb; rw [hx] at h'; cases h'
  | refused b err hb =>
    injection ht with ht
    obtain ⟨k1, k2, k3, k4⟩ := key1 'R' (by rw [← ht]; exact head_append hR)
    refine ⟨⟨fun h => absurd (k1 h) (by decide), fun h => (nomatch h)⟩, ⟨fun _ => ⟨b, err, rfl, hb⟩, fun _ => ⟨_, ht.symm⟩⟩,
      ⟨fun h => absurd (k3 h) (by decide), ?_⟩, ⟨fun h => absurd (k4 h) (by decide), ?_⟩⟩
    · rintro ⟨b', h, ⟨⟨x, hx⟩, -⟩⟩; injection h with h; subst h
      obtain ⟨rest, h'⟩ := hb; rw [hx] at h'; cases h'
    · rintro ⟨b', r, h, ⟨⟨x, hx⟩, -⟩⟩; injection h with h; subst h
      obtain ⟨rest, h'⟩ := hb; rw [hx] at h'; cases h'
  | reply b r _ hb ho =>
    have hp : Begins t "Error parsing AsRep: " := by
      have aux : ∀ x, (KErr.parseAsRep r x).text A = some t → Begins t "Error parsing AsRep: " := by
        intro x hx
        have hx : (x.text A).map ("Error parsing AsRep: ".toList ++ ·) = some t := hx
        rw [Option.map_eq_some_iff] at hx
        obtain ⟨y, -, hy⟩ := hx
        exact ⟨y, hy.symm⟩
      cases ho with
      | crash => cases ht
      | _ => exact aux _ ht
    obtain ⟨k1, k2, k3, k4⟩ := key1 'E' (by obtain ⟨y, hy⟩ := hp; rw [hy]; exact head_append hE)
    refine ⟨⟨fun h => absurd (k1 h) (by decide), fun h => (nomatch h)⟩, ⟨fun h => absurd (k2 h) (by decide), ?_⟩,
      ⟨fun h => absurd (k3 h) (by decide), ?_⟩, ⟨fun _ => ⟨b, r, rfl, hb⟩, fun _ => hp⟩⟩
    · rintro ⟨b', err, h, ⟨rest, h'⟩⟩; injection h with h; subst h
      obtain ⟨⟨x, hx⟩, -⟩ := hb; rw [hx] at h'; cases h'
    · rintro ⟨b', h, ⟨-, x, hx⟩⟩; injection h with h; subst h
      obtain ⟨-, rest, h'⟩ := hb; rw [hx] at h'; cases h'

/-! ### examples for C90 -/

/-- requests that fail with different causes: the texts they give (the text of the KDC's error is a parameter) -/
def exOutside : Outside := ⟨"EOF".toList, fun e => "KrbError ".toList ++ Crypto.decimal e.error_code⟩

/-- the text with which the request of `mickey` with this key fails -/
def exText (net : Net) (k : Key) (o : Options) : Option String :=
  match (tgtRequest Crypto.toyPrims Crypto.asciiCase strictCfg net exEnv exEnv "mickey".toList (some k) o).1 with
  | .error e => (e.text exOutside).map String.ofList
  | .ok _ => none

/-- a wrong cipher key; the key of another type; a wrong password; another wrong password: the same text; no answer; an answer
that is no message; a refusal -/
example : exText (exNet exCipherKey) (.rc4Key (List.replicate 16 9)) exOptions =
      some "Error parsing AsRep: Cryptography error: DecryptionError: Hmac integrity failure" ∧
    exText (exNet exCipherKey) (.aes256Key (List.replicate 32 9)) exOptions =
      some "Error parsing AsRep: Cryptography error: DecryptionError: Key etype = 18 doesn't match with message etype = 23" ∧
    exText (exNet exPassword) (.secret "donald".toList) { exOptions with etypes := [23] } =
      some "Error parsing AsRep: Cryptography error: DecryptionError: Hmac integrity failure" ∧
    exText (exNet exPassword) (.secret "daisy".toList) { exOptions with etypes := [23] } =
      some "Error parsing AsRep: Cryptography error: DecryptionError: Hmac integrity failure" ∧
    exText (fun _ => none) exPassword exOptions = some "Network error" ∧
    exText (fun _ => some [1, 2, 3]) exPassword exOptions = some "Asn1 error: EOF" ∧
    exText (fun _ => some (MsgType.build strictCfg .krbError exPreauth)) exCipherKey exOptions = some "Received KrbError 25" := by
  refine ⟨?_, ?_, ?_, ?_, ?_, ?_, ?_⟩ <;> decide +kernel

example : ((KErr.crypto (.unsupported (-133))).text exOutside).map String.ofList = some "Cryptography error: UnsupportedAlgorithm: -133" ∧
    ((KErr.crypto (.decryption "Hmac integrity failure")).text exOutside).map String.ofList =
      some "Cryptography error: DecryptionError: Hmac integrity failure" ∧
    (KErr.asn1.text exOutside).map String.ofList = some "Asn1 error: EOF" := by decide +kernel

end Verif.Kb

namespace Verif.Crypto

/-! ### C91 -/

/-- a byte in decimal -/
abbrev digits (b : UInt8) : List Char := (toString b.toNat).toList

/-- what a reader of decimal digits reads -/
def readDigits (t : List Char) : Nat := t.foldl (fun n c => n * 10 + (c.toNat - 48)) 0

theorem byte_cases {p : Nat → Prop} (h : ∀ n, n < 256 → p n) (b : UInt8) : p b.toNat := h _ b.toNat_lt

theorem digits_no_comma (b : UInt8) : ∀ c ∈ digits b, c ≠ ',' :=
  byte_cases (p := fun n => ∀ c ∈ (toString n).toList, c ≠ ',') (by decide +kernel) b

theorem read_digits (b : UInt8) : readDigits (digits b) = b.toNat :=
  byte_cases (p := fun n => readDigits (toString n).toList = n) (by decide +kernel) b

theorem digits_inj {a b : UInt8} (h : digits a = digits b) : a = b := by
  have := congrArg readDigits h
  rw [read_digits, read_digits] at this
  exact UInt8.toNat_inj.mp this

theorem takeWhile_all {l : List Char} {p : Char → Bool} (h : ∀ c ∈ l, p c = true) (r : List Char) (hr : r.head?.all (fun c => !p c) = true) :
    (l ++ r).takeWhile p = l := by
  induction l with
  | nil =>
    cases r with
    | nil => rfl
    | cons x r => have : p x = false := by simpa using hr
                  simp [this]
  | cons x l ih =>
    have hx := h x (List.mem_cons_self ..)
    rw [List.cons_append, List.takeWhile_cons, if_pos hx, ih (fun c hc => h c (List.mem_cons_of_mem _ hc))]

theorem listDebug_cons (b : UInt8) (bs : Bytes) : ∃ r, Key.debug.listDebug (b :: bs) = digits b ++ r ∧
    ((bs = [] ∧ r = []) ∨ (bs ≠ [] ∧ r = [',', ' '] ++ Key.debug.listDebug bs)) := by
  cases bs with
  | nil => exact ⟨[], by rw [List.append_nil]; rfl, .inl ⟨rfl, rfl⟩⟩
  | cons c bs =>
    exact ⟨_, by rw [← List.append_assoc]; rfl, .inr ⟨by simp, rfl⟩⟩

theorem listDebug_inj : ∀ {a b : Bytes}, a.length = b.length → Key.debug.listDebug a = Key.debug.listDebug b → a = b
  | [], [], _, _ => rfl
  | [], _ :: _, h, _ => by simp at h
  | _ :: _, [], h, _ => by simp at h
  | x :: xs, y :: ys, hl, h => by
    obtain ⟨r, h1, h1'⟩ := listDebug_cons x xs
    obtain ⟨s, h2, h2'⟩ := listDebug_cons y ys
    have hl' : xs.length = ys.length := by simpa using hl
    rw [h1, h2] at h
    have hp : ∀ (b : UInt8), ∀ c ∈ digits b, (fun c => c != ',') c = true := by
      intro b c hc
      have := digits_no_comma b c hc
      simpa using this
    have hr : ∀ {r bs}, (bs = [] ∧ r = []) ∨ (bs ≠ [] ∧ r = [',', ' '] ++ Key.debug.listDebug bs) →
        r.head?.all (fun c => !(fun c => c != ',') c) = true := by
      rintro r bs (⟨-, rfl⟩ | ⟨-, rfl⟩) <;> rfl
    have ht := congrArg (List.takeWhile (fun c => c != ',')) h
    rw [takeWhile_all (hp x) r (hr h1'), takeWhile_all (hp y) s (hr h2')] at ht
    have hxy := digits_inj ht
    subst hxy
    have hrs := List.append_cancel_left h
    subst hrs
    rcases h1' with ⟨rfl, rfl⟩ | ⟨hx, hx'⟩
    · have : ys = [] := List.length_eq_zero_iff.mp (by rw [← hl']; rfl)
      rw [this]
    · rcases h2' with ⟨-, h3⟩ | ⟨hy, hy'⟩
      · rw [h3] at hx'; simp at hx'
      · rw [hx'] at hy'
        rw [listDebug_inj hl' (List.append_cancel_left hy')]

/-- C91 fails: the debug output of a key shows the secret, whatever it is. Of a password without characters that are escaped
(quotation marks, backslashes, control characters) it is the password in quotation marks; -/
theorem c91_password_shown (esc : Char → List Char) (pw : List Char) (h : ∀ c ∈ pw, esc c = [c]) :
    (Key.secret pw).debug esc = "Secret(\"".toList ++ pw ++ "\")".toList := by
  have : pw.flatMap esc = pw := by
    induction pw with
    | nil => rfl
    | cons c l ih =>
      rw [List.flatMap_cons, h c (List.mem_cons_self ..), ih (fun c hc => h c (List.mem_cons_of_mem _ hc))]; rfl
  show _ ++ pw.flatMap esc ++ _ = _
  rw [this]

/-- how Rust's `{:?}` writes a character of a text (core `char::escape_debug_ext`): `hidden` are the characters that are not
printable or extend the one before -/
def rustEscape (hidden : Char → Bool) (c : Char) : List Char :=
  if c = Char.ofNat 0 then ['\\', '0'] else if c = '\t' then ['\\', 't'] else if c = '\r' then ['\\', 'r']
  else if c = '\n' then ['\\', 'n'] else if c = '\\' ∨ c = '"' then ['\\', c]
  else if hidden c then ['\\', 'u', '{'] ++ Nat.toDigits 16 c.toNat ++ ['}'] else [c]

def hexVal (l : List Char) : Nat :=
  l.foldl (fun n c => 16 * n + (if c.toNat < 58 then c.toNat - 48 else c.toNat - 87)) 0

theorem hex_spec (n : Nat) : hexVal (Nat.toDigits 16 n) = n ∧ ∀ c ∈ Nat.toDigits 16 n, c ≠ '}' := by
  have small : ∀ d, d < 16 → (if (Nat.digitChar d).toNat < 58 then (Nat.digitChar d).toNat - 48 else (Nat.digitChar d).toNat - 87) = d ∧
      Nat.digitChar d ≠ '}' := by decide
  induction n using Nat.strongRecOn with
  | _ n ih =>
    rw [Nat.toDigits_eq_if (by omega)]
    split
    · rename_i h
      refine ⟨by simp only [hexVal, List.foldl]; rw [(small n h).1]; omega, fun c hc => ?_⟩
      rw [List.mem_singleton.1 hc]; exact (small n h).2
    · obtain ⟨h1, h2⟩ := ih (n / 16) (by omega)
      have h3 := small (n % 16) (by omega)
      refine ⟨?_, fun c hc => ?_⟩
      · unfold hexVal at h1 ⊢
        rw [List.foldl_append, h1]
        simp only [List.foldl]
        rw [h3.1]; omega
      · rcases List.mem_append.1 hc with hc | hc
        · exact h2 c hc
        · rw [List.mem_singleton.1 hc]; exact h3.2

theorem upto_brace : ∀ {a b x y : List Char}, (∀ c ∈ a, c ≠ '}') → (∀ c ∈ b, c ≠ '}') → a ++ '}' :: x = b ++ '}' :: y → a = b ∧ x = y
  | [], [], _, _, _, _, h => ⟨rfl, by injection h⟩
  | [], d :: _, _, _, _, hb, h => by injection h with h _; exact absurd h.symm (hb d List.mem_cons_self)
  | c :: _, [], _, _, ha, _, h => by injection h with h _; exact absurd h (ha c List.mem_cons_self)
  | c :: a, d :: b, _, _, ha, hb, h => by
    injection h with h1 h2
    obtain ⟨h3, h4⟩ := upto_brace (fun c hc => ha c (List.mem_cons_of_mem _ hc)) (fun c hc => hb c (List.mem_cons_of_mem _ hc)) h2
    exact ⟨by rw [h1, h3], h4⟩

theorem rustEscape_first (hidden : Char → Bool) (c d : Char) (x y : List Char)
    (h : rustEscape hidden c ++ x = rustEscape hidden d ++ y) : c = d ∧ x = y := by
  have forms : ∀ c, (∃ e, rustEscape hidden c = ['\\', e] ∧ e ≠ 'u' ∧ ∀ d, rustEscape hidden d = ['\\', e] → d = c) ∨
      (rustEscape hidden c = ['\\', 'u', '{'] ++ Nat.toDigits 16 c.toNat ++ ['}']) ∨ (rustEscape hidden c = [c] ∧ c ≠ '\\') := by
    intro c
    have long : ∀ (d : Char) (e : Char), ['\\', 'u', '{'] ++ Nat.toDigits 16 d.toNat ++ ['}'] ≠ ['\\', e] := by
      intro d e h; have := congrArg List.length h; simp at this
    have inv : ∀ d e, rustEscape hidden d = ['\\', e] → (d = Char.ofNat 0 ∧ e = '0') ∨ (d = '\t' ∧ e = 't') ∨ (d = '\r' ∧ e = 'r') ∨
        (d = '\n' ∧ e = 'n') ∨ ((d = '\\' ∨ d = '"') ∧ e = d) := by
      intro d e hd
      unfold rustEscape at hd
      split at hd
      · rename_i h; simp at hd; exact .inl ⟨h, hd.symm⟩
      · split at hd
        · rename_i h; simp at hd; exact .inr (.inl ⟨h, hd.symm⟩)
        · split at hd
          · rename_i h; simp at hd; exact .inr (.inr (.inl ⟨h, hd.symm⟩))
          · split at hd
            · rename_i h; simp at hd; exact .inr (.inr (.inr (.inl ⟨h, hd.symm⟩)))
            · split at hd
              · rename_i h; simp at hd; exact .inr (.inr (.inr (.inr ⟨h, hd.symm⟩)))
              · split at hd
                · exact absurd hd (long d e)
                · simp at hd
    have two : ∀ e, rustEscape hidden c = ['\\', e] → (∃ e, rustEscape hidden c = ['\\', e] ∧ e ≠ 'u' ∧ ∀ d, rustEscape hidden d = ['\\', e] → d = c) := by
      intro e he
      refine ⟨e, he, ?_, ?_⟩
      · rcases inv c e he with ⟨-, rfl⟩ | ⟨-, rfl⟩ | ⟨-, rfl⟩ | ⟨-, rfl⟩ | ⟨rfl | rfl, rfl⟩ <;> decide
      · intro d hd
        rcases inv c e he with ⟨rfl, rfl⟩ | ⟨rfl, rfl⟩ | ⟨rfl, rfl⟩ | ⟨rfl, rfl⟩ | ⟨rfl | rfl, rfl⟩ <;>
        rcases inv d _ hd with ⟨rfl, h⟩ | ⟨rfl, h⟩ | ⟨rfl, h⟩ | ⟨rfl, h⟩ | ⟨rfl | rfl, h⟩ <;> first | rfl | exact absurd h (by decide)
    by_cases hl : ∃ e, rustEscape hidden c = ['\\', e]
    · obtain ⟨e, he⟩ := hl
      exact .inl (two e he)
    · right
      have hr := hl
      unfold rustEscape at hr ⊢
      split at hr
      · exact absurd ⟨_, rfl⟩ hr
      · split at hr
        · exact absurd ⟨_, rfl⟩ hr
        · split at hr
          · exact absurd ⟨_, rfl⟩ hr
          · split at hr
            · exact absurd ⟨_, rfl⟩ hr
            · split at hr
              · exact absurd ⟨_, rfl⟩ hr
              · rename_i h1 h2 h3 h4 h5
                rw [if_neg h1, if_neg h2, if_neg h3, if_neg h4, if_neg h5]
                split
                · exact .inl rfl
                · exact .inr ⟨rfl, fun h => h5 (.inl h)⟩
  rcases forms c with ⟨e, h1, h2, h3⟩ | h1 | ⟨h1, h2⟩ <;> rcases forms d with ⟨e', k1, k2, k3⟩ | k1 | ⟨k1, k2⟩ <;> rw [h1, k1] at h
  · simp only [List.cons_append, List.nil_append, List.cons.injEq, true_and] at h
    obtain ⟨rfl, h⟩ := h
    exact ⟨(h3 d k1).symm, h⟩
  · simp only [List.cons_append, List.nil_append, List.cons.injEq, true_and] at h
    exact absurd h.1 h2
  · simp only [List.cons_append, List.nil_append, List.cons.injEq, true_and] at h
    exact absurd h.1.symm k2
  · simp only [List.cons_append, List.nil_append, List.cons.injEq, true_and] at h
    exact absurd h.1.symm k2
  · simp only [List.cons_append, List.nil_append, List.cons.injEq, true_and, List.append_assoc] at h
    obtain ⟨h4, h5⟩ := upto_brace (hex_spec c.toNat).2 (hex_spec d.toNat).2 h
    have h6 := congrArg hexVal h4
    rw [(hex_spec _).1, (hex_spec _).1] at h6
    exact ⟨Char.toNat_inj.1 h6, h5⟩
  · simp only [List.cons_append, List.nil_append, List.cons.injEq, true_and] at h
    exact absurd h.1.symm k2
  · simp only [List.cons_append, List.nil_append, List.cons.injEq, true_and] at h
    exact absurd h.1 h2
  · simp only [List.cons_append, List.nil_append, List.cons.injEq, true_and] at h
    exact absurd h.1 h2
  · simp only [List.cons_append, List.nil_append, List.cons.injEq, true_and] at h
    exact h

/-- every password can be read from the output, also one with characters that are escaped: different ones print differently. -/
theorem c91_password_determined (hidden : Char → Bool) (pw pw' : List Char)
    (h : (Key.secret pw).debug (rustEscape hidden) = (Key.secret pw').debug (rustEscape hidden)) : pw = pw' := by
  have h : pw.flatMap (rustEscape hidden) = pw'.flatMap (rustEscape hidden) :=
    List.append_cancel_left (List.append_cancel_right h)
  have ne : ∀ c x, rustEscape hidden c ++ x ≠ [] := by
    intro c x
    unfold rustEscape
    repeat' split
    all_goals simp
  clear * - h ne
  induction pw generalizing pw' with
  | nil =>
    cases pw' with
    | nil => rfl
    | cons d l => rw [List.flatMap_cons] at h; exact absurd h.symm (ne d _)
  | cons c l ih =>
    cases pw' with
    | nil => rw [List.flatMap_cons] at h; exact absurd h (ne c _)
    | cons d l' =>
      rw [List.flatMap_cons, List.flatMap_cons] at h
      obtain ⟨rfl, h'⟩ := rustEscape_first hidden c d _ _ h
      rw [ih l' h']

/-- of a cipher key it determines the key, byte for byte: two cipher keys of the same kind with the same output are equal. -/
theorem c91_key_shown (esc : Char → List Char) {k k' : Key} (hk : k.WF) (hk' : k'.WF) (ht : k.etypes = k'.etypes)
    (hs : ∀ pw, k ≠ .secret pw) (h : k.debug esc = k'.debug esc) : k = k' := by
  have aux : ∀ {p : List Char} {a b : Bytes}, a.length = b.length → p ++ Key.debug.listDebug a ++ "])".toList = p ++ Key.debug.listDebug b ++ "])".toList → a = b :=
    fun hl h => listDebug_inj hl (List.append_cancel_left (List.append_cancel_right h))
  cases k with
  | secret pw => exact absurd rfl (hs pw)
  | rc4Key a =>
    cases k' with
    | rc4Key b => rw [aux (hk.trans hk'.symm) h]
    | _ => cases ht
  | aes128Key a =>
    cases k' with
    | aes128Key b => rw [aux (hk.trans hk'.symm) h]
    | _ => cases ht
  | aes256Key a =>
    cases k' with
    | aes256Key b => rw [aux (hk.trans hk'.symm) h]
    | _ => cases ht

example : String.ofList ((Key.secret "S3cret".toList).debug (fun c => [c])) = "Secret(\"S3cret\")" ∧
    String.ofList ((Key.rc4Key [0xcb, 0x8a, 0x42, 0x83, 0x85, 0x45, 0x9d, 0x5f, 1, 2, 3, 4, 5, 6, 7, 0]).debug (fun c => [c])) =
      "RC4Key([203, 138, 66, 131, 133, 69, 157, 95, 1, 2, 3, 4, 5, 6, 7, 0])" := by decide +kernel

/-- with characters that are escaped: a quotation mark, a line feed, a zero-width space -/
example : String.ofList ((Key.secret ['a', '"', '\n', Char.ofNat 0x200b]).debug (rustEscape (fun c => c.toNat = 0x200b))) =
    "Secret(\"a\\\"\\n\\u{200b}\")" := by decide +kernel

end Verif.Crypto
