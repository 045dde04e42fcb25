import Verif.ClientSpec
import Verif.Props.Client
import Verif.ToyPrims
/-
Property theorems C48 to C54 and C57: the dialogue with the KDC, for every behaviour of KDC and network.
-/
set_option linter.unusedSimpArgs false
namespace Verif.Kb
open Verif.Asn1
open Verif.Crypto (CErr Prims Key Cipher CaseMap newKerberosCipher isSupportedEtype calculateAesSalt)

/-! ### Reading answers -/

/-- every answer is exactly one of: error, reply, unreadable -/
theorem answer_cases (g : Cfg) (raw : Bytes) :
    (∃ e, ReadsError g raw e) ∨ (∃ r, ReadsReply g raw r) ∨ Unreadable g raw := by
  cases h1 : MsgType.parse g .krbError raw with
  | ok v => exact .inl ⟨v.1, v.2, h1⟩
  | error x =>
    cases h2 : MsgType.parse g .asRep raw with
    | ok v => exact .inr (.inl ⟨v.1, ⟨x, h1⟩, v.2, h2⟩)
    | error y => exact .inr (.inr ⟨⟨x, h1⟩, y, h2⟩)

theorem parseResponse_error {g raw e} (h : ReadsError g raw e) : parseResponse g raw = .ok (.krbError e) := by
  obtain ⟨rest, h⟩ := h
  have h : (krbErrorC g).dec g raw = .ok (e, rest) := h
  unfold parseResponse
  rw [h]

theorem parse_fail {g : Cfg} (hg : g.Total) {T : MsgType} {raw x} (h : MsgType.parse g T raw = .error x) : x ≠ .panic := by
  rintro rfl; exact c45_no_panic g hg T raw h

theorem parseResponse_reply {g raw r} (hg : g.Total) (h : ReadsReply g raw r) : parseResponse g raw = .ok (.asRep r) := by
  obtain ⟨⟨x, h1⟩, rest, h2⟩ := h
  have hx := parse_fail hg h1
  have h1 : (krbErrorC g).dec g raw = .error x := h1
  have h2 : (asRepC g).dec g raw = .ok (r, rest) := h2
  unfold parseResponse
  rw [h1, h2]
  cases x with
  | panic => exact absurd rfl hx
  | _ => rfl

theorem parseResponse_unreadable {g raw} (hg : g.Total) (h : Unreadable g raw) : parseResponse g raw = .error .asn1 := by
  obtain ⟨⟨x, h1⟩, y, h2⟩ := h
  have hx := parse_fail hg h1
  have hy := parse_fail hg h2
  have h1 : (krbErrorC g).dec g raw = .error x := h1
  have h2 : (asRepC g).dec g raw = .error y := h2
  unfold parseResponse
  rw [h1, h2]
  cases x with
  | panic => exact absurd rfl hx
  | _ => cases y with
    | panic => exact absurd rfl hy
    | _ => rfl

/-! ### C53: the salt -/

theorem firstSalt_some {l : List EtypeInfo2Entry} {s} : firstSalt l = some s ↔
    ∃ before x after, l = before ++ x :: after ∧ (∀ y ∈ before, y.salt = none) ∧ x.salt = some s := by
  induction l with
  | nil => simp [firstSalt]
  | cons e l ih =>
    rw [firstSalt]
    cases he : e.salt with
    | some t =>
      constructor
      · intro h
        injection h with h
        exact ⟨[], e, l, rfl, by simp, by rw [he, h]⟩
      · rintro ⟨before, x, after, h1, h2, h3⟩
        cases before with
        | nil => injection h1 with h1 h4; subst h1; rw [he] at h3; exact h3
        | cons b bs =>
          injection h1 with h1 h4
          have := h2 b (List.mem_cons_self ..)
          rw [← h1, he] at this; cases this
    | none =>
      constructor
      · intro h
        obtain ⟨before, x, after, h1, h2, h3⟩ := ih.1 h
        refine ⟨e :: before, x, after, by rw [h1]; rfl, ?_, h3⟩
        intro y hy
        rcases List.mem_cons.1 hy with rfl | hy
        · exact he
        · exact h2 y hy
      · rintro ⟨before, x, after, h1, h2, h3⟩
        refine ih.2 ?_
        cases before with
        | nil => injection h1 with h1 h4; subst h1; rw [he] at h3; cases h3
        | cons b bs =>
          injection h1 with h1 h4
          exact ⟨bs, x, after, h4, fun y hy => h2 y (List.mem_cons_of_mem _ hy), h3⟩

theorem firstSalt_none {l : List EtypeInfo2Entry} : firstSalt l = none ↔ ∀ y ∈ l, y.salt = none := by
  induction l with
  | nil => simp [firstSalt]
  | cons e l ih =>
    rw [firstSalt]
    cases he : e.salt with
    | some t => simp [he]
    | none => simp [he, ih]

theorem NoSalt.nil (g : Cfg) : NoSalt g [] := fun _ h => nomatch h

theorem NoSalt.cons {g p l} (h : p.padata_type = 19 → ∃ info rest, MsgType.parse g .etypeInfo2 p.padata_value = .ok (info, rest) ∧
    ∀ x : EtypeInfo2Entry, x ∈ (info : List EtypeInfo2Entry) → x.salt = none) (hl : NoSalt g l) : NoSalt g (p :: l) := by
  intro q hq
  rcases List.mem_cons.1 hq with rfl | hq
  · exact h
  · exact hl q hq

theorem SaltIs.cons {g p l s} (h : p.padata_type = 19 → ∃ info rest, MsgType.parse g .etypeInfo2 p.padata_value = .ok (info, rest) ∧
    ∀ x : EtypeInfo2Entry, x ∈ (info : List EtypeInfo2Entry) → x.salt = none) (hl : SaltIs g l s) : SaltIs g (p :: l) s := by
  rcases hl with ⟨pre, q, post, info, rest, before, x, after, t, h1, h2, h3⟩ | ⟨h1, h2⟩
  · exact .inl ⟨p :: pre, q, post, info, rest, before, x, after, t, by rw [h1]; rfl, h2.cons h, h3⟩
  · exact .inr ⟨h1.cons h, h2⟩

theorem saltLoop_total (g : Cfg) (l : List PaData) :
    (∃ s, saltLoop g l = .ok s ∧ SaltIs g l s) ∨ (saltLoop g l = .error .panic ∧ SaltBroken g l) := by
  induction l with
  | nil => exact .inl ⟨[], rfl, .inr ⟨NoSalt.nil g, rfl⟩⟩
  | cons p l ih =>
    rw [saltLoop]
    by_cases h19 : p.padata_type = 19
    · rw [if_pos h19]
      cases hp : MsgType.parse g .etypeInfo2 p.padata_value with
      | error x =>
        have hp' : (seqOfC g (etypeInfo2EntryC g)).dec g p.padata_value = .error x := hp
        rw [hp']
        exact .inr ⟨rfl, [], p, l, x, rfl, NoSalt.nil g, h19, hp⟩
      | ok v =>
        obtain ⟨info, rest⟩ := v
        have hp' : (seqOfC g (etypeInfo2EntryC g)).dec g p.padata_value = .ok (info, rest) := hp
        rw [hp']
        cases hf : firstSalt info with
        | some s =>
          left
          simp only [hf]
          obtain ⟨before, x, after, h1, h2, h3⟩ := firstSalt_some.1 hf
          exact ⟨_, rfl, .inl ⟨[], p, l, info, rest, before, x, after, s, rfl, NoSalt.nil g, h19, hp, h1, h2,
            h3, rfl⟩⟩
        | none =>
          simp only [hf]
          have hn := firstSalt_none.1 hf
          have hh : p.padata_type = 19 → ∃ info rest, MsgType.parse g .etypeInfo2 p.padata_value = .ok (info, rest) ∧
              ∀ x : EtypeInfo2Entry, x ∈ (info : List EtypeInfo2Entry) → x.salt = none := fun _ => ⟨info, rest, hp, hn⟩
          rcases ih with ⟨s, h1, h2⟩ | ⟨h1, pre, q, post, x, h2, h3, h4⟩
          · exact .inl ⟨s, h1, h2.cons hh⟩
          · exact .inr ⟨h1, p :: pre, q, post, x, by rw [h2]; rfl, h3.cons hh, h4⟩
    · rw [if_neg h19]
      have hh : p.padata_type = 19 → ∃ info rest, MsgType.parse g .etypeInfo2 p.padata_value = .ok (info, rest) ∧
          ∀ x : EtypeInfo2Entry, x ∈ (info : List EtypeInfo2Entry) → x.salt = none := fun h => absurd h h19
      rcases ih with ⟨s, h1, h2⟩ | ⟨h1, pre, q, post, x, h2, h3, h4⟩
      · exact .inl ⟨s, h1, h2.cons hh⟩
      · exact .inr ⟨h1, p :: pre, q, post, x, by rw [h2]; rfl, h3.cons hh, h4⟩

theorem saltLoop_noSalt_append {g pre l} (h : NoSalt g pre) : saltLoop g (pre ++ l) = saltLoop g l := by
  induction pre with
  | nil => rfl
  | cons p pre ih =>
    have ih := ih (fun q hq => h q (List.mem_cons_of_mem _ hq))
    show saltLoop g (p :: (pre ++ l)) = _
    rw [saltLoop]
    by_cases h19 : p.padata_type = 19
    · rw [if_pos h19]
      obtain ⟨info, rest, hp, hn⟩ := h p (List.mem_cons_self ..) h19
      have hp' : (seqOfC g (etypeInfo2EntryC g)).dec g p.padata_value = .ok (info, rest) := hp
      rw [hp']
      simp only [firstSalt_none.2 hn, ih]
    · rw [if_neg h19, ih]

theorem saltLoop_is {g l s} (h : SaltIs g l s) : saltLoop g l = .ok s := by
  rcases h with ⟨pre, q, post, info, rest, before, x, after, t, h1, h2, h3, h4, h5, h6, h7, rfl⟩ | ⟨h1, rfl⟩
  · rw [h1, saltLoop_noSalt_append h2, saltLoop, if_pos h3]
    have h4' : (seqOfC g (etypeInfo2EntryC g)).dec g q.padata_value = .ok (info, rest) := h4
    rw [h4']
    simp only [firstSalt_some.2 ⟨before, x, after, h5, h6, h7⟩]
  · have := saltLoop_noSalt_append (l := []) h1
    rw [List.append_nil] at this
    rw [this]; rfl

theorem saltLoop_broken {g l} (h : SaltBroken g l) : saltLoop g l = .error .panic := by
  obtain ⟨pre, q, post, x, h1, h2, h3, h4⟩ := h
  rw [h1, saltLoop_noSalt_append h2, saltLoop, if_pos h3]
  have h4' : (seqOfC g (etypeInfo2EntryC g)).dec g q.padata_value = .error x := h4
  rw [h4']

theorem asRepSalt_eq (g : Cfg) (r : AsRep) : asRepSalt g r = saltLoop g (r.padata.getD []) := by
  unfold asRepSalt
  cases r.padata <;> rfl

/-- C53. The salt used for a reply is the first salt of its ETYPE-INFO2 data, and this is well defined: there is exactly
one such salt unless a malformed ETYPE-INFO2 comes first, in which case the program crashes. -/
theorem c53_salt (g : Cfg) (r : AsRep) (s : Bytes) :
    (asRepSalt g r = .ok s ↔ SaltIs g (r.padata.getD []) s) ∧
    (asRepSalt g r = .error .panic ↔ SaltBroken g (r.padata.getD [])) ∧
    ((∃ s, SaltIs g (r.padata.getD []) s) ↔ ¬ SaltBroken g (r.padata.getD [])) := by
  rw [asRepSalt_eq]
  generalize r.padata.getD [] = l
  have ht := saltLoop_total g l
  refine ⟨⟨?_, saltLoop_is⟩, ⟨?_, saltLoop_broken⟩, ?_, ?_⟩
  · intro h
    rcases ht with ⟨t, h1, h2⟩ | ⟨h1, h2⟩
    · rw [h] at h1; injection h1 with h1; subst h1; exact h2
    · rw [h] at h1; cases h1
  · intro h
    rcases ht with ⟨t, h1, h2⟩ | ⟨h1, h2⟩
    · rw [h] at h1; cases h1
    · exact h2
  · rintro ⟨t, h⟩ hb
    have h1 := saltLoop_is h
    rw [saltLoop_broken hb] at h1; cases h1
  · intro h
    rcases ht with ⟨t, h1, h2⟩ | ⟨h1, h2⟩
    · exact ⟨t, h2⟩
    · exact absurd h2 h

/-- C53. A KDC that sends one ETYPE-INFO2 with a single entry gets its salt used, between any other data. -/
theorem c53_single (g : Cfg) (r : AsRep) (pre post : List PaData) (entry : EtypeInfo2Entry)
    (hr : r.padata = some (pre ++ ⟨19, MsgType.build g .etypeInfo2 [entry]⟩ :: post))
    (hpre : ∀ p ∈ pre, p.padata_type ≠ 19) (hpost : ∀ p ∈ post, p.padata_type ≠ 19)
    (hs : (MsgType.build g .etypeInfo2 [entry]).length < 2^64) :
    asRepSalt g r = .ok ((entry.salt.map utf8).getD []) := by
  have hp : MsgType.parse g .etypeInfo2 (MsgType.build g .etypeInfo2 [entry]) = .ok ([entry], []) := by
    have := c39_roundtrip g .etypeInfo2 [entry] (by intro x _; trivial) hs []
    rwa [List.append_nil] at this
  have hn : NoSalt g pre := fun p hp h19 => absurd h19 (hpre p hp)
  have hn' : NoSalt g post := fun p hp h19 => absurd h19 (hpost p hp)
  refine ((c53_salt g r _).1).2 ?_
  rw [hr]
  show SaltIs g (pre ++ _ :: post) _
  cases hsalt : entry.salt with
  | some s =>
    exact .inl ⟨pre, _, post, [entry], [], [], entry, [], s, rfl, hn, rfl, hp, rfl, (fun _ h => nomatch h), hsalt, rfl⟩
  | none =>
    refine .inr ⟨?_, rfl⟩
    intro q hq
    rcases List.mem_append.1 hq with hq | hq
    · exact hn q hq
    · rcases List.mem_cons.1 hq with rfl | hq
      · intro _
        refine ⟨[entry], [], hp, ?_⟩
        intro x hx
        rw [List.mem_singleton.1 hx]; exact hsalt
      · exact hn' q hq

/-- C53 (violation of RFC 4120 5.2.7.5). With entries for several types the first salt listed is used, even when the reply is
encrypted with another type and a different salt is listed for that type. -/
theorem c53_first_entry_wins (g : Cfg) (r : AsRep) (pre post : List PaData) (before mid after : List EtypeInfo2Entry)
    (t1 t2 : Int32) (s1 s2 : List Char) (p1 p2 : Option Bytes)
    (hr : r.padata = some (pre ++ ⟨19, MsgType.build g .etypeInfo2
      (before ++ ⟨t1, some s1, p1⟩ :: mid ++ ⟨t2, some s2, p2⟩ :: after)⟩ :: post))
    (hpre : ∀ p ∈ pre, p.padata_type ≠ 19) (hb : ∀ y ∈ before, y.salt = none)
    (_ht : r.enc_part.etype = t2) (_hne : t1 ≠ t2) (hsalt : s1 ≠ s2)
    (hs : (MsgType.build g .etypeInfo2 (before ++ ⟨t1, some s1, p1⟩ :: mid ++ ⟨t2, some s2, p2⟩ :: after)).length < 2^64) :
    asRepSalt g r = .ok (utf8 s1) ∧ utf8 s1 ≠ utf8 s2 := by
  have hp := c39_roundtrip g .etypeInfo2 (before ++ ⟨t1, some s1, p1⟩ :: mid ++ ⟨t2, some s2, p2⟩ :: after)
    (by intro x _; trivial) hs []
  rw [List.append_nil] at hp
  refine ⟨((c53_salt g r _).1).2 ?_, fun h => hsalt (utf8_inj h)⟩
  rw [hr]
  refine .inl ⟨pre, _, post, _, [], before, ⟨t1, some s1, p1⟩, mid ++ ⟨t2, some s2, p2⟩ :: after, s1, rfl, ?_, rfl, hp, ?_, hb, rfl, rfl⟩
  · intro p hpm h; exact absurd h (hpre p hpm)
  · simp

/-! ### Opening replies -/

theorem IsCipherKey.cases {k : Key} : (∃ pw, k = .secret pw) ∨ ∃ et kb, IsCipherKey k et kb := by
  cases k with
  | secret pw => exact .inl ⟨pw, rfl⟩
  | rc4Key b => exact .inr ⟨23, b, .inl ⟨rfl, rfl⟩⟩
  | aes128Key b => exact .inr ⟨17, b, .inr (.inl ⟨rfl, rfl⟩)⟩
  | aes256Key b => exact .inr ⟨18, b, .inr (.inr ⟨rfl, rfl⟩)⟩

theorem IsCipherKey.notSecret {et kb pw} (h : IsCipherKey (.secret pw) et kb) : False := by
  rcases h with ⟨_, h⟩ | ⟨_, h⟩ | ⟨_, h⟩ <;> cases h

/-- the cipher of a cipher key; the key fits it -/
theorem IsCipherKey.cipher {k et kb} (h : IsCipherKey k et kb) (hk : k.WF) :
    ∃ c, newKerberosCipher et = .ok c ∧ c.keyOk kb ∧ c.etype = et := by
  rcases h with ⟨rfl, rfl⟩ | ⟨rfl, rfl⟩ | ⟨rfl, rfl⟩
  · exact ⟨.rc4, rfl, trivial, rfl⟩
  · exact ⟨.aes .aes128, rfl, hk, rfl⟩
  · exact ⟨.aes .aes256, rfl, hk, rfl⟩

theorem IsCipherKey.parts {k et kb} (h : IsCipherKey k et kb) : firstEtype k = et ∧ k.asBytes = kb := by
  rcases h with ⟨rfl, rfl⟩ | ⟨rfl, rfl⟩ | ⟨rfl, rfl⟩ <;> exact ⟨rfl, rfl⟩

theorem IsCipherKey.unique {k et kb et' kb'} (h : IsCipherKey k et kb) (h' : IsCipherKey k et' kb') : et = et' ∧ kb = kb' :=
  ⟨h.parts.1.symm.trans h'.parts.1, h.parts.2.symm.trans h'.parts.2⟩

theorem decryptRep_cipher {P g k r et kb} (h : IsCipherKey k et kb) : decryptRep P g k r = decryptWithKey P k r := by
  rcases h with ⟨rfl, rfl⟩ | ⟨rfl, rfl⟩ | ⟨rfl, rfl⟩ <;> rfl

theorem liftX_error {α} {e : CErr} (h : e ≠ .panic) : liftX (.error e : Except CErr α) = .error (.crypto e) := by
  cases e with
  | panic => exact absurd rfl h
  | _ => rfl

theorem tryDecrypt_eq {P k r et kb c} (h : IsCipherKey k et kb) (hc : newKerberosCipher et = .ok c) :
    tryDecryptWithKey P k r = liftX (c.decrypt P kb 3 r.enc_part.cipher) := by
  unfold tryDecryptWithKey
  rw [h.parts.1, hc, h.parts.2]

theorem decryptRep_password {P g pw r c salt kb} (hc : newKerberosCipher r.enc_part.etype = .ok c)
    (hs : SaltIs g (r.padata.getD []) salt) (hk : c.generateKeyFromString P pw salt = .ok kb) :
    decryptRep P g (.secret pw) r = liftX (c.decrypt P kb 3 r.enc_part.cipher) := by
  show decryptWithPassword P g pw r = _
  unfold decryptWithPassword
  rw [hc, ((c53_salt g r salt).1).2 hs]
  show liftX (c.generateKeyFromStringAndDecrypt P pw salt 3 r.enc_part.cipher) = _
  unfold Cipher.generateKeyFromStringAndDecrypt
  rw [hk]

/-- decryption errors are never panics -/
theorem decrypt_error {P : Prims} (hP : P.Lawful) {c : Cipher} {kb ct e} (hk : c.keyOk kb)
    (h : c.decrypt P kb 3 ct = .error e) : ∃ s, e = .decryption s := by
  rcases (Crypto.c29_no_panic P hP c kb hk 3 ct).1 with ⟨pt, h1⟩ | h1 | h1
  · rw [h] at h1; cases h1
  · rw [h] at h1; injection h1 with h1; exact ⟨_, h1⟩
  · rw [h] at h1; injection h1 with h1; exact ⟨_, h1⟩

theorem ReplyKey.fits {P : Prims} (hP : P.Lawful) {g k r c kb} (hk : k.WF) (h : ReplyKey P g k r c kb) : c.keyOk kb := by
  rcases h with ⟨et, h1, h2⟩ | ⟨pw, salt, rfl, h1, h2, h3⟩
  · obtain ⟨c', h3, h4, -⟩ := h1.cipher hk
    rw [h2] at h3; injection h3 with h3; subst h3; exact h4
  · obtain ⟨kb', h4, h5, -⟩ := Crypto.c33_generated_key_from_string P hP c pw salt
    rw [h3] at h4; injection h4 with h4; subst h4; exact h5

/-- the reply opens with the reply key -/
theorem decryptRep_ok {P g k r c kb plain} (h : ReplyKey P g k r c kb) (hd : c.decrypt P kb 3 r.enc_part.cipher = .ok plain) :
    decryptRep P g k r = .ok plain := by
  rcases h with ⟨et, h1, h2⟩ | ⟨pw, salt, rfl, h1, h2, h3⟩
  · rw [decryptRep_cipher h1]
    unfold decryptWithKey
    rw [tryDecrypt_eq h1 h2, hd]; rfl
  · rw [decryptRep_password h1 h2 h3, hd]; rfl

/-- errors of a reply carry the reply -/
def asRepError (r : AsRep) : Except KErr Credential → Except KErr Credential
  | .ok c => .ok c
  | .error .panic => .error .panic
  | .error e => .error (.parseAsRep r e)

theorem extract_of_decrypt {P g k r plain} (h : decryptRep P g k r = .ok plain) :
    extractCredential P g (some k) r = asRepError r (liftP ((encAsRepPartC g).dec g plain) >>= fun part =>
      .ok ⟨r.crealm, r.cname, r.ticket, part⟩) := by
  show asRepError r (kdcRepToCredential P g k r) = _
  unfold kdcRepToCredential
  rw [h]
  simp only [bind, Except.bind]
  cases liftP ((encAsRepPartC g).dec g plain) with
  | ok part => rfl
  | error e => rfl

theorem extract_of_error {P g k r e} (h : decryptRep P g k r = .error e) (hne : e ≠ .panic) :
    extractCredential P g (some k) r = .error (.parseAsRep r e) := by
  show asRepError r (kdcRepToCredential P g k r) = _
  unfold kdcRepToCredential
  rw [h]
  simp only [bind, Except.bind]
  cases e with
  | panic => exact absurd rfl hne
  | _ => rfl

theorem replyOutcome_eval {P : Prims} (hP : P.Lawful) {g : Cfg} (hg : g.Total) {key r res} (hk : ∀ k, key = some k → k.WF)
    (h : ReplyOutcome P g key r res) : extractCredential P g key r = res := by
  cases h with
  | noKey => rfl
  | unsupported pw _ h =>
    have hn := (Crypto.c35_factory r.enc_part.etype).2.2.1 (by
      rintro (h' | h' | h')
      · exact h.1 h'
      · exact h.2.1 h'
      · exact h.2.2 h')
    refine extract_of_error ?_ (by intro h; cases h)
    show decryptWithPassword P g pw r = _
    unfold decryptWithPassword
    rw [hn]; rfl
  | crash pw _ h hs =>
    obtain ⟨c, hc⟩ := (Crypto.c35_factory r.enc_part.etype).2.1.2 h
    have : decryptRep P g (.secret pw) r = .error .panic := by
      show decryptWithPassword P g pw r = _
      unfold decryptWithPassword
      rw [hc, ((c53_salt g r []).2.1).2 hs]; rfl
    show asRepError r (kdcRepToCredential P g (.secret pw) r) = _
    unfold kdcRepToCredential
    rw [this]; rfl
  | badPassword pw _ c kb e hk' hd =>
    obtain ⟨s, rfl⟩ := decrypt_error hP (hk'.fits hP (hk _ rfl)) hd
    rcases hk' with ⟨et, h1, -⟩ | ⟨pw', salt, h0, h1, h2, h3⟩
    · exact absurd h1 (fun h => h.notSecret)
    · injection h0 with h0
      subst h0
      refine extract_of_error ?_ (by intro h; cases h)
      rw [decryptRep_password h1 h2 h3, hd]; rfl
  | badKey k _ c kb e hi hk' hd =>
    obtain ⟨s, rfl⟩ := decrypt_error hP (hk'.fits hP (hk _ rfl)) hd
    rcases hk' with ⟨et, h1, h2⟩ | ⟨pw', salt, rfl, h1, h2, h3⟩
    · refine extract_of_error ?_ (by intro h; cases h)
      rw [decryptRep_cipher h1]
      unfold decryptWithKey
      rw [tryDecrypt_eq h1 h2, hd]
      show (if firstEtype k ≠ r.enc_part.etype then _ else _) = _
      rw [if_neg (fun h => h hi.parts.1)]
    · exact absurd hi (fun h => h.notSecret)
  | wrongType k _ c et kb e hi hne hk' hd =>
    obtain ⟨s, rfl⟩ := decrypt_error hP (hk'.fits hP (hk _ rfl)) hd
    rcases hk' with ⟨et', h1, h2⟩ | ⟨pw', salt, rfl, h1, h2, h3⟩
    · obtain ⟨rfl, -⟩ := hi.unique h1
      refine extract_of_error ?_ (by intro h; cases h)
      rw [decryptRep_cipher h1]
      unfold decryptWithKey
      rw [tryDecrypt_eq h1 h2, hd]
      show (if firstEtype k ≠ r.enc_part.etype then _ else _) = _
      rw [hi.parts.1, if_pos hne]
    · exact absurd hi (fun h => h.notSecret)
  | badPart k _ c kb plain x hk' hd hp =>
    rw [extract_of_decrypt (decryptRep_ok hk' hd)]
    have hx := parse_fail hg hp
    have hp : (encAsRepPartC g).dec g plain = .error x := hp
    rw [hp]
    cases x with
    | panic => exact absurd rfl hx
    | _ => rfl
  | opened k _ c kb plain rest part hk' hd hp =>
    rw [extract_of_decrypt (decryptRep_ok hk' hd)]
    have hp : (encAsRepPartC g).dec g plain = .ok (part, rest) := hp
    rw [hp]; rfl

theorem replyOutcome_total {P : Prims} (hP : P.Lawful) (g : Cfg) (key : Option Key) (r : AsRep)
    (hk : ∀ k, key = some k → k.WF) : ∃ res, ReplyOutcome P g key r res := by
  cases key with
  | none => exact ⟨_, .noKey r⟩
  | some k =>
    have finish : ∀ c kb, ReplyKey P g k r c kb → ∀ plain, c.decrypt P kb 3 r.enc_part.cipher = .ok plain →
        ∃ res, ReplyOutcome P g (some k) r res := by
      intro c kb hr plain hd
      cases hp : MsgType.parse g .encAsRepPart plain with
      | error x => exact ⟨_, .badPart k r c kb plain x hr hd hp⟩
      | ok v => exact ⟨_, .opened k r c kb plain v.2 v.1 hr hd hp⟩
    rcases IsCipherKey.cases (k := k) with ⟨pw, rfl⟩ | ⟨et, kb, hi⟩
    · by_cases h : r.enc_part.etype = 18 ∨ r.enc_part.etype = 17 ∨ r.enc_part.etype = 23
      · by_cases hs : SaltBroken g (r.padata.getD [])
        · exact ⟨_, .crash pw r h hs⟩
        · obtain ⟨salt, hs⟩ := ((c53_salt g r []).2.2).2 hs
          obtain ⟨c, hc⟩ := (Crypto.c35_factory r.enc_part.etype).2.1.2 h
          obtain ⟨kb, h1, -⟩ := Crypto.c33_generated_key_from_string P hP c pw salt
          have hr : ReplyKey P g (.secret pw) r c kb := .inr ⟨pw, salt, rfl, hc, hs, h1⟩
          cases hd : c.decrypt P kb 3 r.enc_part.cipher with
          | error e => exact ⟨_, .badPassword pw r c kb e hr hd⟩
          | ok plain => exact finish c kb hr plain hd
      · refine ⟨_, .unsupported pw r ?_⟩
        refine ⟨fun h' => h (.inl h'), fun h' => h (.inr (.inl h')), fun h' => h (.inr (.inr h'))⟩
    · obtain ⟨c, hc, -, -⟩ := hi.cipher (hk k rfl)
      have hr : ReplyKey P g k r c kb := .inl ⟨et, hi, hc⟩
      cases hd : c.decrypt P kb 3 r.enc_part.cipher with
      | ok plain => exact finish c kb hr plain hd
      | error e =>
        by_cases hne : et = r.enc_part.etype
        · subst hne; exact ⟨_, .badKey k r c kb e hi hr hd⟩
        · exact ⟨_, .wrongType k r c et kb e hi hne hr hd⟩

/-- what the program makes of a reply is what the specification says -/
theorem extract_iff {P : Prims} (hP : P.Lawful) {g : Cfg} (hg : g.Total) {key r res} (hk : ∀ k, key = some k → k.WF) :
    extractCredential P g key r = res ↔ ReplyOutcome P g key r res := by
  refine ⟨?_, replyOutcome_eval hP hg hk⟩
  intro h
  obtain ⟨res', h'⟩ := replyOutcome_total hP g key r hk
  rw [replyOutcome_eval hP hg hk h'] at h
  subst h; exact h'

/-! ### C48: the dialogue -/

theorem build_without_key (P : Prims) (M : CaseMap) (g : Cfg) {e : Env} (he : EnvOk e) (username : List Char) (o : Options) :
    ∃ req, buildAsReq P M g e username none o = .ok req := by
  obtain ⟨r, h, -⟩ := c47_without_key P M g e he username o
  refine ⟨(asReqC g).enc r, ?_⟩
  unfold buildAsReq
  rw [h]; rfl

/-- building with a key fails only for a password without any encryption type -/
theorem build_with_key {P : Prims} (hP : P.Lawful) (M : CaseMap) (g : Cfg) {e : Env} (he : EnvOk e) (username : List Char)
    (o : Options) (k : Key) (hk : k.WF) :
    (∃ x, buildAsReq P M g e username (some k) o = .error x) ↔
      (∃ pw, k = .secret pw) ∧ ∀ t ∈ [18, 17, 23], t ∉ o.etypes := by
  constructor
  · rintro ⟨x, hx⟩
    by_cases hne : (∃ pw, k = .secret pw) ∧ ∀ t ∈ [18, 17, 23], t ∉ o.etypes
    · exact hne
    · obtain ⟨r, et, kb, c, data, h, -⟩ := c47_with_key P hP M g e he username o k hk (by
        intro hpw
        apply Classical.byContradiction
        intro hno
        refine hne ⟨hpw, fun t ht hm => hno ⟨t, ht, hm⟩⟩)
      unfold buildAsReq at hx
      rw [h] at hx; cases hx
  · rintro ⟨⟨pw, rfl⟩, h⟩
    refine ⟨.noProvidedSupportedCipherAlgorithm, ?_⟩
    unfold buildAsReq
    rw [c47_no_etype P M g e he username pw o h]; rfl

section
variable {P : Prims} (hP : P.Lawful) (M : CaseMap) {g : Cfg} (hg : g.Total) (net : Net)
  {e1 e2 : Env} (username : List Char) (key : Option Key) (hk : ∀ k, key = some k → k.WF) (o : Options)

theorem lastAnswer_total (hP : P.Lawful) (hk : ∀ k, key = some k → k.WF) (a : Option Bytes) :
    ∃ res, LastAnswer P g key a res := by
  cases a with
  | none => exact ⟨_, .noAnswer⟩
  | some a =>
    rcases answer_cases g a with ⟨e, h⟩ | ⟨r, h⟩ | h
    · exact ⟨_, .refused a e h⟩
    · obtain ⟨res, ho⟩ := replyOutcome_total hP g key r hk
      exact ⟨res, .reply a r res h ho⟩
    · exact ⟨_, .unreadable a h⟩

include hP hg hk in
/-- what an answer leads to is determined by the answer and the key -/
theorem c48_determined {a : Option Bytes} {res res' : Except KErr Credential} (h : LastAnswer P g key a res)
    (h' : LastAnswer P g key a res') : res = res' := by
  have hu : ∀ a, Unreadable g a → ∀ e, ¬ ReadsError g a e := by
    rintro a ⟨⟨x, h1⟩, -⟩ e ⟨rest, h2⟩
    rw [h1] at h2; cases h2
  have hr : ∀ a r, ReadsReply g a r → ∀ e, ¬ ReadsError g a e := by
    rintro a r ⟨⟨x, h1⟩, -⟩ e ⟨rest, h2⟩
    rw [h1] at h2; cases h2
  have hru : ∀ a r, ReadsReply g a r → ¬ Unreadable g a := by
    rintro a r ⟨-, rest, h1⟩ ⟨-, x, h2⟩
    rw [h1] at h2; cases h2
  cases h with
  | noAnswer => cases h'; rfl
  | unreadable a h =>
    cases h' with
    | unreadable _ h' => rfl
    | refused _ err h' => exact absurd h' (hu a h err)
    | reply _ r _ h' => exact absurd h (hru a r h')
  | refused a err h =>
    cases h' with
    | unreadable _ h' => exact absurd h (hu a h' err)
    | refused _ err' h' =>
      obtain ⟨x, h⟩ := h
      obtain ⟨y, h'⟩ := h'
      rw [h] at h'
      injection h' with h'
      injection h' with h' _
      subst h'
      rfl
    | reply _ r _ h' => exact absurd h (hr a r h' err)
  | reply a r _ h ho =>
    cases h' with
    | unreadable _ h' => exact absurd h' (hru a r h)
    | refused _ err h' => exact absurd h' (hr a r h err)
    | reply _ r' _ h' ho' =>
      obtain ⟨-, x, h⟩ := h
      obtain ⟨-, y, h'⟩ := h'
      rw [h] at h'
      injection h' with h'
      injection h' with h' _
      subst h'
      rw [← replyOutcome_eval hP hg hk ho, replyOutcome_eval hP hg hk ho']

theorem asRequest_eq {e : Env} {key : Option Key} {sent : List Bytes} {req : Bytes}
    (h : buildAsReq P M g e username key o = .ok req) :
    asRequest P M g net e username key o sent =
      ((match net (sent ++ [req]) with
        | none => .error .network
        | some a => parseResponse g a), sent ++ [req]) := by
  unfold asRequest
  rw [h]
  cases h1 : net (sent ++ [req]) <;> simp only [h1]

include hP hg hk in
/-- C48. Every run: the first message is the request without pre-authentication. If the answer demands pre-authentication
and there is a key, the second and last message is the request with it and its answer decides; otherwise the first answer
decides. (If the second request cannot be built the program crashes; see `c52_panics_iff`.) -/
theorem c48_dialogue (he1 : EnvOk e1) :
    ∃ req1, buildAsReq P M g e1 username none o = .ok req1 ∧
      (¬ (DemandsPreauth g (net [req1]) ∧ key ≠ none) →
        (tgtRequest P M g net e1 e2 username key o).2 = [req1] ∧
        LastAnswer P g key (net [req1]) (tgtRequest P M g net e1 e2 username key o).1) ∧
      ∀ k, key = some k → DemandsPreauth g (net [req1]) →
        (∀ req2, buildAsReq P M g e2 username (some k) o = .ok req2 →
          (tgtRequest P M g net e1 e2 username key o).2 = [req1, req2] ∧
          LastAnswer P g key (net [req1, req2]) (tgtRequest P M g net e1 e2 username key o).1) ∧
        (∀ x, buildAsReq P M g e2 username (some k) o = .error x →
          tgtRequest P M g net e1 e2 username key o = (.error .panic, [req1])) := by
  obtain ⟨req1, hreq1⟩ := build_without_key P M g he1 username o
  have h1 := asRequest_eq M net username o (sent := []) hreq1
  rw [List.nil_append] at h1
  refine ⟨req1, hreq1, ?_, ?_⟩
  · intro hnp
    unfold tgtRequest
    rw [h1]
    cases hn : net [req1] with
    | none => exact ⟨rfl, .noAnswer⟩
    | some a =>
      rcases answer_cases g a with ⟨e, h⟩ | ⟨r, h⟩ | h
      · simp only [parseResponse_error h]
        by_cases h25 : e.error_code = 25
        · rw [if_neg (fun h => h h25)]
          cases key with
          | none => exact ⟨rfl, .refused a e h⟩
          | some k => exact absurd ⟨⟨a, e, hn, h, h25⟩, fun h => by cases h⟩ hnp
        · rw [if_pos h25]
          exact ⟨rfl, .refused a e h⟩
      · simp only [parseResponse_reply hg h]
        exact ⟨trivial, .reply a r _ h ((extract_iff hP hg hk).1 rfl)⟩
      · simp only [parseResponse_unreadable hg h]
        exact ⟨trivial, .unreadable a h⟩
  · rintro k rfl ⟨a, e, hn, h, h25⟩
    have h2 : tgtRequest P M g net e1 e2 username (some k) o = secondRequest P M g net e2 username k o [req1] := by
      unfold tgtRequest
      rw [h1, hn]
      simp only [parseResponse_error h]
      rw [if_neg (fun h => h h25)]
    rw [h2]
    refine ⟨?_, ?_⟩
    · intro req2 hreq2
      have h3 := asRequest_eq M net username o (sent := [req1]) hreq2
      have e2' : [req1] ++ [req2] = [req1, req2] := rfl
      rw [e2'] at h3
      unfold secondRequest
      rw [h3]
      cases hn2 : net [req1, req2] with
      | none => exact ⟨rfl, .noAnswer⟩
      | some a =>
        rcases answer_cases g a with ⟨e, h⟩ | ⟨r, h⟩ | h
        · simp only [parseResponse_error h]
          exact ⟨trivial, .refused a e h⟩
        · simp only [parseResponse_reply hg h]
          exact ⟨trivial, .reply a r _ h ((extract_iff hP hg hk).1 rfl)⟩
        · simp only [parseResponse_unreadable hg h]
          exact ⟨trivial, .unreadable a h⟩
    · intro x hx
      unfold secondRequest asRequest
      rw [hx]

include hP hg hk in
/-- C48. One or two messages are sent; a second one iff the first answer demands pre-authentication, there is a key, and
the key is not a password without any encryption type. -/
theorem c48_messages (he1 : EnvOk e1) (he2 : EnvOk e2) :
    ∃ req1, buildAsReq P M g e1 username none o = .ok req1 ∧
      ((tgtRequest P M g net e1 e2 username key o).2 = [req1] ∨
        ∃ k req2, key = some k ∧ buildAsReq P M g e2 username (some k) o = .ok req2 ∧
          (tgtRequest P M g net e1 e2 username key o).2 = [req1, req2]) ∧
      ((tgtRequest P M g net e1 e2 username key o).2.length = 2 ↔
        DemandsPreauth g (net [req1]) ∧ ∃ k, key = some k ∧ ((∃ pw, k = .secret pw) → ∃ t ∈ [18, 17, 23], t ∈ o.etypes)) := by
  obtain ⟨req1, h1, h2, h3⟩ := c48_dialogue hP M hg net username key hk o he1 (e2 := e2)
  refine ⟨req1, h1, ?_⟩
  by_cases hd : DemandsPreauth g (net [req1])
  · cases key with
    | none =>
      have h2 := (h2 (fun h => h.2 rfl)).1
      rw [h2]
      refine ⟨.inl rfl, ?_⟩
      constructor
      · intro h; cases h
      · rintro ⟨-, k, hk, -⟩; cases hk
    | some k =>
      have hb := build_with_key hP M g he2 username o k (hk k rfl)
      cases hreq2 : buildAsReq P M g e2 username (some k) o with
      | error x =>
        rw [(h3 k rfl hd).2 x hreq2]
        refine ⟨.inl rfl, ?_⟩
        constructor
        · intro h; cases h
        · rintro ⟨-, k', hk', h⟩
          injection hk' with hk'
          subst hk'
          obtain ⟨ha, hb⟩ := hb.1 ⟨x, hreq2⟩
          obtain ⟨t, ht, hm⟩ := h ha
          exact absurd hm (hb t ht)
      | ok req2 =>
        have h4 := ((h3 k rfl hd).1 req2 hreq2).1
        rw [h4]
        refine ⟨.inr ⟨k, req2, rfl, hreq2, rfl⟩, ?_⟩
        constructor
        · intro _
          refine ⟨hd, k, rfl, ?_⟩
          intro hpw
          apply Classical.byContradiction
          intro hno
          obtain ⟨x, hx⟩ := hb.2 ⟨hpw, fun t ht hm => hno ⟨t, ht, hm⟩⟩
          rw [hreq2] at hx; cases hx
        · intro _; rfl
  · have h2 := (h2 (fun h => hd h.1)).1
    rw [h2]
    refine ⟨.inl rfl, ?_⟩
    constructor
    · intro h; cases h
    · rintro ⟨h, -⟩; exact absurd h hd

/-! ### C49: nothing derived from the key leaves before the KDC asks for it -/

/-- the encrypted timestamp type -/
def HasTimestamp (r : AsReq) : Prop := ∃ p ∈ r.padata.getD [], p.padata_type = 2

include hP hg in
/-- C49. The first message does not depend on the key and has no encrypted timestamp; two users with different keys (or
none) send the same messages to every KDC that does not answer the first with error 25. -/
theorem c49_independent (he1 : EnvOk e1) (he2 : EnvOk e2) :
    ∃ r req1, createAsReq P M g e1 username none o = .ok r ∧ req1 = MsgType.build g .asReq r ∧ ¬ HasTimestamp r ∧
      (∀ key : Option Key, (∀ k, key = some k → k.WF) →
        (tgtRequest P M g net e1 e2 username key o).2.head? = some req1) ∧
      (∀ key : Option Key, (∀ k, key = some k → k.WF) → ¬ DemandsPreauth g (net [req1]) →
        (tgtRequest P M g net e1 e2 username key o).2 = [req1]) := by
  obtain ⟨r, h1, -, -, h4⟩ := c47_without_key P M g e1 he1 username o
  have hb : buildAsReq P M g e1 username none o = .ok (MsgType.build g .asReq r) := by
    unfold buildAsReq
    rw [h1]; rfl
  refine ⟨r, _, h1, rfl, ?_, ?_, ?_⟩
  · rintro ⟨p, hp, h2⟩
    rw [h4] at hp
    unfold pacRequest at hp
    by_cases ho : o.pac = true
    · rw [if_pos ho, List.mem_singleton] at hp
      subst hp
      exact absurd h2 (by show (128 : Int32) ≠ 2; decide)
    · rw [if_neg ho] at hp
      cases hp
  · intro key hk
    obtain ⟨req1, h5, h6, -⟩ := c48_messages hP M hg net username key hk o he1 he2
    rw [hb] at h5
    injection h5 with h5
    subst h5
    rcases h6 with h6 | ⟨k, req2, -, -, h6⟩ <;> rw [h6] <;> rfl
  · intro key hk hd
    obtain ⟨req1, h5, h6, -⟩ := c48_dialogue hP M hg net username key hk o he1 (e2 := e2)
    rw [hb] at h5
    injection h5 with h5
    subst h5
    exact (h6 (fun h => hd h.1)).1

/-! ### C52: crashes -/

include hP hg hk in
/-- C52. The request crashes iff (a) the last answer is a reply with a supported type and a malformed ETYPE-INFO2 before
any salt, and the key is a password; or (b) the KDC demands pre-authentication and the key is a password but no encryption
type is configured. -/
theorem c52_panics_iff (he1 : EnvOk e1) (he2 : EnvOk e2) :
    ∃ req1, buildAsReq P M g e1 username none o = .ok req1 ∧
      ((tgtRequest P M g net e1 e2 username key o).1 = .error .panic ↔
        ∃ pw, key = some (.secret pw) ∧
          ((¬ DemandsPreauth g (net [req1]) ∧ ∃ a r, net [req1] = some a ∧ ReadsReply g a r ∧
              (r.enc_part.etype = 18 ∨ r.enc_part.etype = 17 ∨ r.enc_part.etype = 23) ∧ SaltBroken g (r.padata.getD [])) ∨
            (DemandsPreauth g (net [req1]) ∧ (∀ t ∈ [18, 17, 23], t ∉ o.etypes)) ∨
            (DemandsPreauth g (net [req1]) ∧ ∃ req2 a r, buildAsReq P M g e2 username key o = .ok req2 ∧
              net [req1, req2] = some a ∧ ReadsReply g a r ∧
              (r.enc_part.etype = 18 ∨ r.enc_part.etype = 17 ∨ r.enc_part.etype = 23) ∧
              SaltBroken g (r.padata.getD [])))) := by
  obtain ⟨req1, h1, h2, h3⟩ := c48_dialogue hP M hg net username key hk o he1 (e2 := e2)
  refine ⟨req1, h1, ?_⟩
  have last : ∀ a, LastAnswer P g key a (.error .panic) ↔ ∃ pw, key = some (.secret pw) ∧ ∃ b r, a = some b ∧
      ReadsReply g b r ∧ (r.enc_part.etype = 18 ∨ r.enc_part.etype = 17 ∨ r.enc_part.etype = 23) ∧
      SaltBroken g (r.padata.getD []) := by
    intro a
    constructor
    · intro h
      cases h with
      | reply a r _ h ho =>
        cases ho with
        | crash pw _ h' hs => exact ⟨pw, rfl, a, r, rfl, h, h', hs⟩
    · rintro ⟨pw, rfl, b, r, rfl, h4, h5, h6⟩
      exact .reply b r _ h4 (.crash pw r h5 h6)
  have decided : ∀ {a}, LastAnswer P g key a (tgtRequest P M g net e1 e2 username key o).1 →
      ((tgtRequest P M g net e1 e2 username key o).1 = .error .panic ↔ LastAnswer P g key a (.error .panic)) := by
    intro a h
    constructor
    · intro h'; rw [h'] at h; exact h
    · intro h'; exact c48_determined hP hg key hk h h'
  by_cases hd : DemandsPreauth g (net [req1])
  · cases key with
    | none =>
      rw [decided (h2 (fun h => h.2 rfl)).2, last]
      constructor
      · rintro ⟨pw, h, -⟩; cases h
      · rintro ⟨pw, h, -⟩; cases h
    | some k =>
      have hb := build_with_key hP M g he2 username o k (hk k rfl)
      cases hreq2 : buildAsReq P M g e2 username (some k) o with
      | error x =>
        rw [(h3 k rfl hd).2 x hreq2]
        obtain ⟨⟨pw, rfl⟩, ht⟩ := hb.1 ⟨x, hreq2⟩
        exact ⟨fun _ => ⟨pw, rfl, .inr (.inl ⟨hd, ht⟩)⟩, fun _ => rfl⟩
      | ok req2 =>
        rw [decided ((h3 k rfl hd).1 req2 hreq2).2, last]
        constructor
        · rintro ⟨pw, hkk, b, r, h5, h6⟩
          exact ⟨pw, hkk, .inr (.inr ⟨hd, req2, b, r, rfl, h5, h6⟩)⟩
        · rintro ⟨pw, hkk, h | h | ⟨-, req2', b, r, h4, h5, h6⟩⟩
          · exact absurd hd h.1
          · injection hkk with hkk
            subst hkk
            obtain ⟨x, hx⟩ := hb.2 ⟨⟨pw, rfl⟩, h.2⟩
            rw [hreq2] at hx; cases hx
          · injection h4 with h4
            subst h4
            exact ⟨pw, hkk, b, r, h5, h6⟩
  · rw [decided (h2 (fun h => hd h.1)).2, last]
    constructor
    · rintro ⟨pw, hkk, b, r, h⟩
      exact ⟨pw, hkk, .inl ⟨hd, b, r, h⟩⟩
    · rintro ⟨pw, hkk, h | h | h⟩
      · exact ⟨pw, hkk, h.2⟩
      · exact absurd h.1 hd
      · exact absurd h.1 hd

end

/-! ### C57: where errors come from -/

section
variable {P : Prims} (hP : P.Lawful) (M : CaseMap) {g : Cfg} (hg : g.Total) (net : Net)
  {e1 e2 : Env} (username : List Char) (key : Option Key) (hk : ∀ k, key = some k → k.WF) (o : Options)

include hP hg hk in
/-- the deciding answer decides -/
theorem decides_last (he1 : EnvOk e1) {a} (h : Decides P M g net e1 e2 username key o a) :
    LastAnswer P g key a (tgtRequest P M g net e1 e2 username key o).1 := by
  obtain ⟨req1, h1, h2⟩ := h
  obtain ⟨req1', h1', h3, h4⟩ := c48_dialogue hP M hg net username key hk o he1 (e2 := e2)
  rw [h1] at h1'
  injection h1' with h1'
  subst h1'
  rcases h2 with ⟨h2, rfl⟩ | ⟨h2, k, req2, hkk, h5, rfl⟩
  · exact (h3 h2).2
  · exact ((h4 k hkk h2).1 req2 h5).2

include hP hg hk in
/-- every run that does not crash while building has a deciding answer -/
theorem decides_exists (he1 : EnvOk e1) (he2 : EnvOk e2)
    (hne : (∃ pw, key = some (.secret pw)) → ∃ t ∈ [18, 17, 23], t ∈ o.etypes) :
    ∃ a, Decides P M g net e1 e2 username key o a := by
  obtain ⟨req1, h1, -, -⟩ := c48_dialogue hP M hg net username key hk o he1 (e2 := e2)
  by_cases hd : DemandsPreauth g (net [req1]) ∧ key ≠ none
  · cases key with
    | none => exact absurd rfl hd.2
    | some k =>
      cases hb : buildAsReq P M g e2 username (some k) o with
      | ok req2 => exact ⟨_, req1, h1, .inr ⟨hd.1, k, req2, rfl, hb, rfl⟩⟩
      | error x =>
        obtain ⟨⟨pw, rfl⟩, h⟩ := (build_with_key hP M g he2 username o k (hk k rfl)).1 ⟨x, hb⟩
        obtain ⟨t, ht, hm⟩ := hne ⟨pw, rfl⟩
        exact absurd hm (h t ht)
  · exact ⟨_, req1, h1, .inl ⟨hd, rfl⟩⟩

include hP hg hk in
/-- C57. A transport failure of the deciding exchange gives the network error and nothing else does; an answer that is no
Kerberos reply gives the ASN.1 error and nothing else does; a KDC error is handed out unchanged and only then; a
credential comes only from a reply. -/
theorem c57_sources (he1 : EnvOk e1) {a} (h : Decides P M g net e1 e2 username key o a) :
    ((tgtRequest P M g net e1 e2 username key o).1 = .error .network ↔ a = none) ∧
    ((tgtRequest P M g net e1 e2 username key o).1 = .error .asn1 ↔ ∃ b, a = some b ∧ Unreadable g b) ∧
    (∀ err, (tgtRequest P M g net e1 e2 username key o).1 = .error (.krbErrorResponse err) ↔
      ∃ b, a = some b ∧ ReadsError g b err) ∧
    (∀ c, (tgtRequest P M g net e1 e2 username key o).1 = .ok c → ∃ b r k, a = some b ∧ ReadsReply g b r ∧ key = some k) := by
  have hl := decides_last hP M hg net username key hk o he1 h
  clear h
  generalize (tgtRequest P M g net e1 e2 username key o).1 = res at hl
  have det := fun res' h' => c48_determined hP hg key hk (res' := res') hl h'
  refine ⟨⟨?_, ?_⟩, ⟨?_, ?_⟩, fun err => ⟨?_, ?_⟩, ?_⟩
  · rintro rfl
    cases hl with
    | noAnswer => rfl
    | reply a r _ _ ho => cases ho
  · rintro rfl; exact det _ .noAnswer
  · rintro rfl
    cases hl with
    | unreadable a h => exact ⟨a, rfl, h⟩
    | reply a r _ _ ho => cases ho
  · rintro ⟨b, rfl, hb⟩; exact det _ (.unreadable b hb)
  · rintro rfl
    cases hl with
    | refused a _ h => exact ⟨a, rfl, h⟩
    | reply a r _ _ ho => cases ho
  · rintro ⟨b, rfl, hb⟩; exact det _ (.refused b err hb)
  · rintro c rfl
    cases hl with
    | reply a r _ h ho =>
      cases ho with
      | opened k _ c kb plain rest part _ _ _ => exact ⟨a, r, k, rfl, h, rfl⟩

/-! ### C50: honest KDCs -/

/-- a built reply reads as that reply, not as an error -/
theorem readsReply_build (g : Cfg) (r : AsRep) (hw : MsgType.WF .asRep r) (hs : (MsgType.build g .asRep r).length < 2^64) :
    ReadsReply g (MsgType.build g .asRep r) r := by
  refine ⟨⟨.error, ?_⟩, [], ?_⟩
  · show (krbErrorC g).dec g ((asRepC g).enc r) = _
    have e1 : (asRepC g).enc r = 0x6b :: (buildLen ((asRepC g).build r).length ++ (asRepC g).build r) := rfl
    rw [e1]
    have h1 : parseTlv g (krbErrorC g).tag (0x6b :: (buildLen ((asRepC g).build r).length ++ (asRepC g).build r))
        = .error .error := by
      rw [parseTlv, if_pos (by show (0x6b : UInt8) ≠ appTag 30; decide)]
    unfold Codec.dec
    rw [h1]
  · have := c39_roundtrip g .asRep r hw hs []
    rwa [List.append_nil] at this

/-- the client finds the key the KDC used -/
theorem Issued.replyKey {P : Prims} {g k r part} (h : Issued P g k r part) :
    ∃ c kb conf, ReplyKey P g k r c kb ∧ conf.length = c.preambleSize ∧
      c.encrypt P kb 3 (MsgType.build g .encAsRepPart part) conf = .ok r.enc_part.cipher := by
  obtain ⟨c, kb, conf, h1, h2, h3, h4 | ⟨pw, rfl, ⟨pre, post, salt, params, h4, h5, h6, h7⟩ | ⟨h4, h5⟩⟩⟩ := h
  · exact ⟨c, kb, conf, .inl ⟨_, h4, h1⟩, h2, h3⟩
  · refine ⟨c, kb, conf, .inr ⟨pw, utf8 salt, rfl, h1, ?_, h6⟩, h2, h3⟩
    refine (c53_salt g r _).1.1 ?_
    have := c53_single g r pre post ⟨r.enc_part.etype, some salt, params⟩ h4
      (fun p hp => h5 p (List.mem_append_left _ hp)) (fun p hp => h5 p (List.mem_append_right _ hp)) h7
    exact this
  · exact ⟨c, kb, conf, .inr ⟨pw, [], rfl, h1, .inr ⟨fun p hp h19 => absurd h19 (h4 p hp), rfl⟩, h5⟩, h2, h3⟩

theorem issued_outcome {P : Prims} (hP : P.Lawful) {g k r part} (hk : k.WF) (h : Issued P g k r part)
    (hw : MsgType.WF .encAsRepPart part) (hs : (MsgType.build g .encAsRepPart part).length < 2^64) :
    ReplyOutcome P g (some k) r (.ok ⟨r.crealm, r.cname, r.ticket, part⟩) := by
  obtain ⟨c, kb, conf, h1, h2, h3⟩ := h.replyKey
  have hp := c39_roundtrip g .encAsRepPart part hw hs []
  rw [List.append_nil] at hp
  exact .opened k r c kb _ [] part h1
    ((Crypto.c28_accepts_iff P hP c kb (h1.fits hP hk) 3 _ _).2 ⟨conf, h2, h3⟩) hp

include hP hg in
/-- C50. A KDC that (directly, or after demanding pre-authentication) answers with the reply issued for the user's key
makes the request return exactly the issued ticket, names and client part. -/
theorem c50_honest (he1 : EnvOk e1) (k : Key) (hkw : k.WF) (r : AsRep) (part : EncAsRepPart)
    (hi : Issued P g k r part) (hw : MsgType.WF .asRep r) (hs : (MsgType.build g .asRep r).length < 2^64)
    (hw' : MsgType.WF .encAsRepPart part) (hs' : (MsgType.build g .encAsRepPart part).length < 2^64)
    (h : Decides P M g net e1 e2 username (some k) o (some (MsgType.build g .asRep r))) :
    (tgtRequest P M g net e1 e2 username (some k) o).1 = .ok ⟨r.crealm, r.cname, r.ticket, part⟩ := by
  have hk : ∀ k', some k = some k' → k'.WF := by rintro k' h; injection h with h; subst h; exact hkw
  refine c48_determined hP hg (some k) hk (decides_last hP M hg net username (some k) hk o he1 h) ?_
  exact .reply _ r _ (readsReply_build g r hw hs) (issued_outcome hP hkw hi hw' hs')

/-- C50. Such a reply exists for every key, ticket, names and client part: for a cipher key with any other data, for a
password with every supported type and every salt string. -/
theorem c50_exists (hP : P.Lawful) (g : Cfg) (k : Key) (hk : k.WF) (part : EncAsRepPart) (crealm : List Char) (cname : PrincipalName)
    (ticket : Ticket) (kvno : Option UInt32) :
    (∀ et kb padata, IsCipherKey k et kb → ∃ ct, Issued P g k ⟨5, 11, padata, crealm, cname, ticket, ⟨et, kvno, ct⟩⟩ part) ∧
    (∀ pw et salt, k = .secret pw → (et = 18 ∨ et = 17 ∨ et = 23) →
      (MsgType.build g .etypeInfo2 [⟨et, some salt, none⟩]).length < 2^64 →
      ∃ ct, Issued P g k ⟨5, 11, some [⟨19, MsgType.build g .etypeInfo2 [⟨et, some salt, none⟩]⟩], crealm, cname, ticket,
        ⟨et, kvno, ct⟩⟩ part) := by
  refine ⟨?_, ?_⟩
  · intro et kb padata hi
    obtain ⟨c, h1, h2, -⟩ := hi.cipher hk
    obtain ⟨ct, h3, -⟩ := Crypto.c26_cipher_roundtrip P hP c kb h2 3 (MsgType.build g .encAsRepPart part)
      (List.replicate c.preambleSize 0) (by simp)
    exact ⟨ct, c, kb, _, h1, by simp, h3, .inl hi⟩
  · rintro pw et salt rfl het hs
    obtain ⟨c, h1⟩ := (Crypto.c35_factory et).2.1.2 het
    obtain ⟨kb, h2, h3, -⟩ := Crypto.c33_generated_key_from_string P hP c pw (utf8 salt)
    obtain ⟨ct, h4, -⟩ := Crypto.c26_cipher_roundtrip P hP c kb h3 3 (MsgType.build g .encAsRepPart part)
      (List.replicate c.preambleSize 0) (by simp)
    exact ⟨ct, c, kb, _, h1, by simp, h4, .inr ⟨pw, rfl, .inl ⟨[], [], salt, none, rfl, (fun _ h => nomatch h), h2, hs⟩⟩⟩

/-! ### C51: replies are not bound to requests -/

include hP hg hk in
/-- C51 (violation). Against recorded answers the result is the same for every request: it depends neither on the nonce
nor on the user, realm, options or clock of the request. So a reply accepted once is accepted for every nonce and for
every requested name. -/
theorem c51_replay (answers : Nat → Option Bytes) {e1' e2' : Env} (username' : List Char) (o' : Options)
    (he1 : EnvOk e1) (he2 : EnvOk e2) (he1' : EnvOk e1') (he2' : EnvOk e2')
    (hne : (∃ pw, key = some (.secret pw)) → ∃ t ∈ [18, 17, 23], t ∈ o.etypes)
    (hne' : (∃ pw, key = some (.secret pw)) → ∃ t ∈ [18, 17, 23], t ∈ o'.etypes) :
    (tgtRequest P M g (fun sent => answers sent.length) e1 e2 username key o).1 =
    (tgtRequest P M g (fun sent => answers sent.length) e1' e2' username' key o').1 := by
  have decided : ∀ {e1 e2 : Env} (username : List Char) (o : Options), EnvOk e1 → EnvOk e2 →
      ((∃ pw, key = some (.secret pw)) → ∃ t ∈ [18, 17, 23], t ∈ o.etypes) →
      LastAnswer P g key (@ite _ (DemandsPreauth g (answers 1) ∧ key ≠ none) (Classical.dec _) (answers 2) (answers 1))
        (tgtRequest P M g (fun sent => answers sent.length) e1 e2 username key o).1 := by
    intro e1 e2 username o he1 he2 hne
    obtain ⟨a, ha⟩ := decides_exists hP M hg (fun sent => answers sent.length) username key hk o he1 he2 hne
    have hl := decides_last hP M hg _ username key hk o he1 ha
    obtain ⟨req1, -, ⟨h, rfl⟩ | ⟨h, k, req2, h', -, rfl⟩⟩ := ha
    · have h : ¬ (DemandsPreauth g (answers 1) ∧ key ≠ none) := h
      rw [if_neg h]; exact hl
    · have h : DemandsPreauth g (answers 1) ∧ key ≠ none := ⟨h, by rw [h']; exact fun h => nomatch h⟩
      rw [if_pos h]; exact hl
  exact c48_determined hP hg key hk (decided username o he1 he2 hne) (decided username' o' he1' he2' hne')

include hP hg in
/-- C51 (violation). The honest reply to somebody else's request is accepted: whatever nonce and names it carries. -/
theorem c51_accepts_any_nonce (he1 : EnvOk e1) (k : Key) (hkw : k.WF) (r : AsRep) (part : EncAsRepPart)
    (hi : Issued P g k r part) (hw : MsgType.WF .asRep r) (hs : (MsgType.build g .asRep r).length < 2^64)
    (hw' : MsgType.WF .encAsRepPart part) (hs' : (MsgType.build g .encAsRepPart part).length < 2^64)
    (_foreign : part.nonce ≠ e1.nonce ∧ r.cname ≠ ⟨1, [username]⟩ ∧ r.crealm ≠ o.realm) :
    (tgtRequest P M g (fun _ => some (MsgType.build g .asRep r)) e1 e2 username (some k) o).1 =
      .ok ⟨r.crealm, r.cname, r.ticket, part⟩ := by
  refine c50_honest hP M hg _ username o he1 k hkw r part hi hw hs hw' hs' ?_
  obtain ⟨req1, h1⟩ := build_without_key P M g he1 username o
  refine ⟨req1, h1, .inl ⟨?_, rfl⟩⟩
  rintro ⟨⟨a, err, h2, ⟨rest, h3⟩, -⟩, -⟩
  injection h2 with h2
  subst h2
  obtain ⟨⟨x, h4⟩, -⟩ := readsReply_build g r hw hs
  rw [h4] at h3; cases h3

/-! ### C54: the type of a cipher key -/

/-- the same reply announcing another encryption type -/
def announcing (r : AsRep) (t : Int32) : AsRep := { r with enc_part := { r.enc_part with etype := t } }

include hP hg in
/-- C54. With a cipher key the announced type is irrelevant for opening a reply: the credential got is the same for every
announced type. -/
theorem c54_announced_ignored (k : Key) (hkw : k.WF) (et : Int32) (kb : Bytes) (hi : IsCipherKey k et kb) (r : AsRep)
    (t : Int32) (cred : Credential) :
    extractCredential P g (some k) (announcing r t) = .ok cred ↔ extractCredential P g (some k) r = .ok cred := by
  have hk : ∀ k', some k = some k' → k'.WF := by rintro k' h; injection h with h; subst h; exact hkw
  rw [extract_iff hP hg hk, extract_iff hP hg hk]
  have one : ∀ (r : AsRep) (t : Int32), ReplyOutcome P g (some k) r (.ok cred) →
      ReplyOutcome P g (some k) (announcing r t) (.ok cred) := by
    intro r t h
    cases h with
    | opened k _ c kb' plain rest part hk hd hp =>
      refine .opened k (announcing r t) c kb' plain rest part ?_ hd hp
      rcases hk with h | ⟨pw, salt, rfl, h⟩
      · exact .inl h
      · exact absurd hi (fun h => h.notSecret)
  refine ⟨fun h => ?_, one r t⟩
  have := one (announcing r t) r.enc_part.etype h
  exact this

include hP hg in
/-- C54. With a cipher key: if the key (with the key's own type) opens the reply the plaintext is used; if it does not,
the error is the decryption error when the announced type is the key's and otherwise names both types; if it opens but
holds no EncASRepPart the error is that of reading it. Nothing else is tried. -/
theorem c54_cipher_key (he1 : EnvOk e1) (k : Key) (hkw : k.WF) (et : Int32) (kb : Bytes) (c : Cipher)
    (hi : IsCipherKey k et kb) (hc : newKerberosCipher et = .ok c) (a : Bytes) (r : AsRep) (hr : ReadsReply g a r)
    (h : Decides P M g net e1 e2 username (some k) o (some a)) :
    (∀ plain part rest, c.decrypt P kb 3 r.enc_part.cipher = .ok plain → MsgType.parse g .encAsRepPart plain = .ok (part, rest) →
      (tgtRequest P M g net e1 e2 username (some k) o).1 = .ok ⟨r.crealm, r.cname, r.ticket, part⟩) ∧
    (∀ e, c.decrypt P kb 3 r.enc_part.cipher = .error e → r.enc_part.etype = et →
      (tgtRequest P M g net e1 e2 username (some k) o).1 = .error (.parseAsRep r (.crypto e))) ∧
    (∀ e, c.decrypt P kb 3 r.enc_part.cipher = .error e → r.enc_part.etype ≠ et →
      (tgtRequest P M g net e1 e2 username (some k) o).1 = .error (.parseAsRep r (.crypto (.decryption
        s!"Key etype = {et.toInt} doesn't match with message etype = {r.enc_part.etype.toInt}")))) ∧
    (∀ plain x, c.decrypt P kb 3 r.enc_part.cipher = .ok plain → MsgType.parse g .encAsRepPart plain = .error x →
      (tgtRequest P M g net e1 e2 username (some k) o).1 = .error (.parseAsRep r .asn1)) := by
  have hk : ∀ k', some k = some k' → k'.WF := by rintro k' h; injection h with h; subst h; exact hkw
  have hl := decides_last hP M hg net username (some k) hk o he1 h
  have det := fun res' h' => c48_determined hP hg (some k) hk (res' := res') hl (.reply a r res' hr h')
  have hrk : ReplyKey P g k r c kb := .inl ⟨et, hi, hc⟩
  refine ⟨?_, ?_, ?_, fun plain x h1 h2 => det _ (.badPart k r c kb plain x hrk h1 h2)⟩
  · intro plain part rest h1 h2
    exact det _ (.opened k r c kb plain rest part hrk h1 h2)
  · rintro e h1 rfl
    exact det _ (.badKey k r c kb e hi hrk h1)
  · intro e h1 h2
    exact det _ (.wrongType k r c et kb e hi (fun h => h2 h.symm) hrk h1)

end

/-! ### Examples: the hypotheses can be met -/

section
open Verif.Crypto (toyPrims toyPrims_lawful asciiCase)

def exEnv : Env := ⟨⟨1700000000, 5⟩, ⟨1700000001, 0⟩, ⟨1700000002, 123456789⟩, 0xfedcba98, fun n => List.replicate n 7⟩
theorem exEnv_ok : EnvOk exEnv := ⟨fun n => by simp [exEnv], by decide, by decide⟩
def exOptions : Options := Options.new "KINGDOM.HEARTS".toList
def exPassword : Key := .secret "pässword".toList
def exCipherKey : Key := .rc4Key [1, 2, 3, 4, 5, 6, 7, 8, 9, 10, 11, 12, 13, 14, 15, 16]
def exSalt : List Char := "KINGDOM.HEARTSmickey".toList

/-- key bytes of the two keys -/
def exKeyBytes (k : Key) : Bytes :=
  if k = exPassword then ((Cipher.rc4.generateKeyFromString toyPrims "pässword".toList (utf8 exSalt)).toOption.getD []) else k.asBytes

/-- a reply for one of the two keys -/
def exRep (k : Key) : AsRep :=
  ⟨5, 11, some [⟨11, [0]⟩, ⟨19, MsgType.build strictCfg .etypeInfo2 [⟨23, some exSalt, none⟩]⟩], "KINGDOM.HEARTS".toList,
    ⟨1, ["mickey".toList]⟩, exTicket, ⟨23, some 3, ((Cipher.rc4.encrypt toyPrims (exKeyBytes k) 3
      (MsgType.build strictCfg .encAsRepPart exPart) [1, 2, 3, 4, 5, 6, 7, 8]).toOption.getD [])⟩⟩

def exPreauth : KrbError where
  pvno := 5
  msg_type := 30
  ctime := none
  cusec := none
  stime := ⟨1700000003, 0⟩
  susec := 1
  error_code := 25
  crealm := none
  cname := none
  realm := "KINGDOM.HEARTS".toList
  sname := ⟨2, ["krbtgt".toList]⟩
  e_text := none
  e_data := none

/-- a KDC that demands pre-authentication, then replies -/
def exNet (k : Key) : Net := fun sent =>
  if sent.length = 1 then some (MsgType.build strictCfg .krbError exPreauth) else some (MsgType.build strictCfg .asRep (exRep k))

example : Issued toyPrims strictCfg exPassword (exRep exPassword) exPart :=
  ⟨.rc4, exKeyBytes exPassword, [1, 2, 3, 4, 5, 6, 7, 8], by decide +kernel, by decide +kernel, by decide +kernel,
    .inr ⟨"pässword".toList, rfl, .inl ⟨[⟨11, [0]⟩], [], exSalt, none, rfl, by decide, by decide +kernel, by decide +kernel⟩⟩⟩

example : Issued toyPrims strictCfg exCipherKey (exRep exCipherKey) exPart :=
  ⟨.rc4, exKeyBytes exCipherKey, [1, 2, 3, 4, 5, 6, 7, 8], by decide +kernel, by decide +kernel, by decide +kernel,
    .inl (.inl ⟨rfl, by decide +kernel⟩)⟩

/-- C47: requests of the example are built, with and without a key, and read back; its years are four digits -/
example : exCipherKey.WF ∧ (∀ t, t = exEnv.tillNow ∨ t = exEnv.rtimeNow → 0 ≤ (later t).date.year ∧ (later t).date.year ≤ 9999) ∧
    (∃ t ∈ [18, 17, 23], t ∈ exOptions.etypes) ∧
    [none, some exPassword, some exCipherKey].all (fun k =>
      match buildAsReq toyPrims asciiCase strictCfg exEnv "mickey".toList k exOptions,
          createAsReq toyPrims asciiCase strictCfg exEnv "mickey".toList k exOptions with
      | .ok raw, .ok r => decide (MsgType.parse strictCfg .asReq raw = .ok (truncReq r, []))
      | _, _ => false) = true := by
  refine ⟨rfl, ?_, ⟨18, by decide, by decide⟩, by decide +kernel⟩
  rintro t (rfl | rfl) <;> decide +kernel

/-- the whole dialogue, evaluated: two messages, and the issued credential -/
example : (tgtRequest toyPrims asciiCase strictCfg (exNet exCipherKey) exEnv exEnv "mickey".toList (some exCipherKey) exOptions).1
      = .ok ⟨"KINGDOM.HEARTS".toList, ⟨1, ["mickey".toList]⟩, exTicket, exPart⟩ ∧
    (tgtRequest toyPrims asciiCase strictCfg (exNet exCipherKey) exEnv exEnv "mickey".toList (some exCipherKey) exOptions).2.length
      = 2 := by
  constructor <;> decide +kernel

/-- and with a password and RC4 configured -/
example : (tgtRequest toyPrims asciiCase strictCfg (exNet exPassword) exEnv exEnv "mickey".toList (some exPassword)
      { exOptions with etypes := [23] }).1
      = .ok ⟨"KINGDOM.HEARTS".toList, ⟨1, ["mickey".toList]⟩, exTicket, exPart⟩ := by
  decide +kernel

/-- the crash of C52: a reply with ETYPE-INFO2 content that is no ASN.1 -/
example : (tgtRequest toyPrims asciiCase strictCfg
      (fun _ => some (MsgType.build strictCfg .asRep { exRep exPassword with padata := some [⟨19, [1, 2, 3]⟩] }))
      exEnv exEnv "mickey".toList (some exPassword) exOptions).1 = .error .panic := by decide +kernel

/-- the other crash of C52: no encryption type -/
example : (tgtRequest toyPrims asciiCase strictCfg (exNet exPassword) exEnv exEnv "mickey".toList (some exPassword)
      { exOptions with etypes := [] }).1 = .error .panic := by decide +kernel

/-- C53: three entries, the reply encrypted with the type of the last -/
example : asRepSalt strictCfg { exRep exPassword with padata := some [⟨11, [0]⟩, ⟨19, MsgType.build strictCfg .etypeInfo2
      [⟨18, none, none⟩, ⟨17, some "first".toList, none⟩, ⟨23, some "right".toList, none⟩]⟩] } = .ok (utf8 "first".toList) ∧
    (exRep exPassword).enc_part.etype = 23 := by constructor <;> decide +kernel

/-- C51: user minnie of another realm accepts mickey's reply although the nonces differ -/
example : (tgtRequest toyPrims asciiCase strictCfg (fun _ => some (MsgType.build strictCfg .asRep (exRep exCipherKey)))
      { exEnv with nonce := 1 } exEnv "minnie".toList (some exCipherKey) { exOptions with realm := "OTHER".toList }).1
      = .ok ⟨"KINGDOM.HEARTS".toList, ⟨1, ["mickey".toList]⟩, exTicket, exPart⟩ ∧ exPart.nonce ≠ 1 := by
  constructor <;> decide +kernel

/-- C54: announced type 18, key of type 23, encrypted with type 23 -/
example : (tgtRequest toyPrims asciiCase strictCfg (fun _ => some (MsgType.build strictCfg .asRep (announcing (exRep exCipherKey) 18)))
      exEnv exEnv "mickey".toList (some exCipherKey) exOptions).1
      = .ok ⟨"KINGDOM.HEARTS".toList, ⟨1, ["mickey".toList]⟩, exTicket, exPart⟩ := by
  decide +kernel

end

end Verif.Kb
