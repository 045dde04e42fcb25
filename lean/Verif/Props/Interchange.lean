import Verif.Props.Dialogue
/-
Property theorems C98: a password and the key derived from it are interchangeable.
-/
namespace Verif.Kb
open Verif.Asn1
open Verif.Crypto (CErr Prims Key Cipher CaseMap newKerberosCipher calculateAesSalt)

/-! ### Specification -/

/-- `k` is the key that string-to-key makes of the password `pw` and the salt, for the encryption type `et` -/
def DerivedKey (P : Prims) (pw : List Char) (salt : Bytes) (et : Int32) (k : Key) : Prop :=
  ∃ c kb, newKerberosCipher et = .ok c ∧ c.generateKeyFromString P pw salt = .ok kb ∧ IsCipherKey k et kb

/-- `et` is the strongest of the configured types -/
def Strongest (o : Options) (et : Int32) : Prop :=
  (et = 18 ∧ 18 ∈ o.etypes) ∨ (et = 17 ∧ 17 ∈ o.etypes ∧ 18 ∉ o.etypes) ∨
    (et = 23 ∧ 23 ∈ o.etypes ∧ 17 ∉ o.etypes ∧ 18 ∉ o.etypes)

/-- every AS-REP the network brings is encrypted with the type `et` and announces this salt -/
def Announces (g : Cfg) (net : Net) (et : Int32) (salt : Bytes) : Prop :=
  ∀ sent a r, net sent = some a → ReadsReply g a r → r.enc_part.etype = et ∧ SaltIs g (r.padata.getD []) salt

/-! ### Lemmas -/

theorem IsCipherKey.exists {et : Int32} {c : Cipher} (h : newKerberosCipher et = .ok c) (kb : Bytes) : ∃ k, IsCipherKey k et kb := by
  unfold newKerberosCipher at h
  split at h
  · exact ⟨_, .inr (.inr ⟨by assumption, rfl⟩)⟩
  · split at h
    · exact ⟨_, .inr (.inl ⟨by assumption, rfl⟩)⟩
    · split at h
      · exact ⟨_, .inl ⟨by assumption, rfl⟩⟩
      · cases h

theorem IsCipherKey.wf {k et kb c} (h : IsCipherKey k et kb) (hc : newKerberosCipher et = .ok c) (hk : kb.length = Crypto.keyLength c) : k.WF := by
  rcases h with ⟨rfl, rfl⟩ | ⟨rfl, rfl⟩ | ⟨rfl, rfl⟩
  · injection hc with hc; subst hc; exact hk
  · injection hc with hc; subst hc; exact hk
  · injection hc with hc; subst hc; exact hk

theorem strongest_find {o : Options} {et : Int32} (h : Strongest o et) :
    [18, 17, 23].find? (fun t => decide (t ∈ o.etypes)) = some et := by
  rcases h with ⟨rfl, h⟩ | ⟨rfl, h1, h2⟩ | ⟨rfl, h1, h2, h3⟩ <;> simp [List.find?, *]

theorem find_strongest {o : Options} {et : Int32}
    (h : [18, 17, 23].find? (fun t => decide (t ∈ o.etypes)) = some et) : Strongest o et := by
  rcases (find_sorted o et).1 h with ⟨b1, rfl⟩ | ⟨b1, b2, rfl⟩ | ⟨b1, b2, b3, rfl⟩
  · exact .inl ⟨rfl, b1⟩
  · exact .inr (.inl ⟨rfl, by assumption, by assumption⟩)
  · exact .inr (.inr ⟨rfl, by assumption, by assumption, by assumption⟩)

theorem IsCipherKey.preauth {P M o username k et kb} (h : IsCipherKey k et kb) : PreauthKey P M o username k et kb := by
  rcases h with ⟨rfl, rfl⟩ | ⟨rfl, rfl⟩ | ⟨rfl, rfl⟩ <;> exact ⟨rfl, rfl⟩

theorem build_congr {P M g} {e : Env} {username : List Char} {o : Options} {k k' : Key}
    (h : encryptedTimestamp P M g e o.realm username k o.sortedEtypes = encryptedTimestamp P M g e o.realm username k' o.sortedEtypes) :
    buildAsReq P M g e username (some k) o = buildAsReq P M g e username (some k') o := by
  unfold buildAsReq createAsReq
  dsimp only
  rw [h]

/-! ### C98 -/

section
variable (P : Prims) (hP : P.Lawful) (M : CaseMap) (g : Cfg)

include hP in
/-- C98. Every password has, for each of the three types and every salt, exactly one derived key, and its length fits. -/
theorem c98_exists (pw : List Char) (salt : Bytes) (et : Int32) (het : et = 18 ∨ et = 17 ∨ et = 23) :
    ∃ k, k.WF ∧ DerivedKey P pw salt et k ∧ ∀ k', DerivedKey P pw salt et k' → k' = k := by
  have ⟨c, hc⟩ : ∃ c, newKerberosCipher et = .ok c := by
    rcases het with rfl | rfl | rfl
    · exact ⟨_, rfl⟩
    · exact ⟨_, rfl⟩
    · exact ⟨_, rfl⟩
  obtain ⟨kb, h1, -, h2⟩ := Crypto.c33_generated_key_from_string P hP c pw salt
  obtain ⟨k, hk⟩ := IsCipherKey.exists hc kb
  refine ⟨k, hk.wf hc h2, ⟨c, kb, hc, h1, hk⟩, ?_⟩
  rintro k' ⟨c', kb', hc', h1', hk'⟩
  rw [hc] at hc'; injection hc' with hc'; subst hc'
  rw [h1] at h1'; injection h1' with h1'; subst h1'
  rcases hk with ⟨rfl, rfl⟩ | ⟨rfl, rfl⟩ | ⟨rfl, rfl⟩ <;> rcases hk' with ⟨h, rfl⟩ | ⟨h, rfl⟩ | ⟨h, rfl⟩ <;>
    first | rfl | exact absurd h (by decide)

/-- C98. Replies. A password and the key derived from it with the salt of the reply, for the type of the reply, make
the same of the reply: the same credential or the same error. -/
theorem c98_reply (pw : List Char) (salt : Bytes) (k : Key) (r : AsRep)
    (hs : SaltIs g (r.padata.getD []) salt) (hk : DerivedKey P pw salt r.enc_part.etype k) :
    extractCredential P g (some (.secret pw)) r = extractCredential P g (some k) r := by
  obtain ⟨c, kb, hc, hkb, hi⟩ := hk
  have h : decryptRep P g (.secret pw) r = decryptRep P g k r := by
    rw [decryptRep_password hc hs hkb, decryptRep_cipher hi]
    unfold decryptWithKey
    rw [tryDecrypt_eq hi hc, hi.parts.1]
    cases liftX (c.decrypt P kb 3 r.enc_part.cipher) with
    | ok b => rfl
    | error e => cases e <;> simp
  unfold extractCredential kdcRepToCredential
  dsimp only
  rw [h]

/-- C98. Requests. The pre-authenticated request made with a password is, bit by bit, the one made with the key that is
derived from it for the strongest configured type, with the salt made of realm and user (for RC4 no matter which). -/
theorem c98_request (e : Env) (username : List Char) (o : Options) (pw : List Char) (et : Int32) (salt : Bytes) (k : Key)
    (ho : Strongest o et) (hsalt : et = 23 ∨ salt = calculateAesSalt M o.realm username)
    (hk : DerivedKey P pw salt et k) :
    buildAsReq P M g e username (some (.secret pw)) o = buildAsReq P M g e username (some k) o := by
  obtain ⟨c, kb, hc, hkb, hi⟩ := hk
  apply build_congr
  have hp : PreauthKey P M o username (.secret pw) et kb := by
    refine ⟨strongest_find ho, c, hc, ?_⟩
    by_cases h23 : et = 23
    · subst h23
      injection hc with hc; subst hc
      exact hkb
    · rw [if_neg h23]
      rcases hsalt with h | h
      · exact absurd h h23
      · rw [← h]; exact hkb
  rw [encryptedTimestamp_preauth hp, encryptedTimestamp_preauth (hi.preauth (P := P) (M := M) (o := o) (username := username))]

/-- C98. The whole dialogue. Whatever KDC and network do, as long as the replies are encrypted with the strongest
configured type and announce the salt of the account (realm and user; for RC4 any salt): asking for a ticket with
a password or with the key derived from it sends the same messages and has the same result. -/
theorem c98_dialogue (hg : g.Total) (net : Net) (e1 e2 : Env) (username : List Char) (o : Options) (pw : List Char) (et : Int32)
    (salt : Bytes) (k : Key) (ho : Strongest o et) (hsalt : et = 23 ∨ salt = calculateAesSalt M o.realm username)
    (hk : DerivedKey P pw salt et k) (hn : Announces g net et salt) :
    tgtRequest P M g net e1 e2 username (some (.secret pw)) o = tgtRequest P M g net e1 e2 username (some k) o := by
  have hreq := fun e => c98_request P M g e username o pw et salt k ho hsalt hk
  have hrep : ∀ sent a r, net sent = some a → parseResponse g a = .ok (.asRep r) →
      extractCredential P g (some (.secret pw)) r = extractCredential P g (some k) r := by
    intro sent a r ha hp
    have hr : ReadsReply g a r := by
      rcases answer_cases g a with ⟨x, h⟩ | ⟨r', h⟩ | h
      · rw [parseResponse_error h] at hp; cases hp
      · rw [parseResponse_reply hg h] at hp; injection hp with hp; injection hp with hp; subst hp; exact h
      · rw [parseResponse_unreadable hg h] at hp; cases hp
    obtain ⟨h1, h2⟩ := hn sent a r ha hr
    exact c98_reply P g pw salt k r h2 (by rw [h1]; exact hk)
  have has : ∀ e key sent r s, asRequest P M g net e username key o sent = (.ok (.asRep r), s) →
      extractCredential P g (some (.secret pw)) r = extractCredential P g (some k) r := by
    intro e key sent r s h
    unfold asRequest at h
    split at h
    · cases h
    · split at h
      · cases h
      · rename_i a ha
        exact hrep _ a r ha (congrArg Prod.fst h)
  have hsec : ∀ s, secondRequest P M g net e2 username (.secret pw) o s = secondRequest P M g net e2 username k o s := by
    intro s
    have h : asRequest P M g net e2 username (some (.secret pw)) o s = asRequest P M g net e2 username (some k) o s := by
      unfold asRequest
      rw [hreq]
    unfold secondRequest
    rw [h]
    split
    · rfl
    · rfl
    · rename_i r s' heq
      rw [has _ _ _ _ _ heq]
  unfold tgtRequest
  split
  · rfl
  · split
    · rfl
    · exact hsec _
  · rename_i r s heq
    rw [has _ _ _ _ _ heq]

include hP in
/-- C98. The condition on the type is needed: with a derived key of a type that is not the strongest configured one,
the KDC reads another type in the request than with the password. -/
theorem c98_weaker (e : Env) (he : EnvOk e) (username : List Char) (o : Options) (pw : List Char) (et et' : Int32) (salt : Bytes)
    (k : Key) (ho : Strongest o et) (hne : et' ≠ et) (hk : DerivedKey P pw salt et' k) :
    ∃ r r', createAsReq P M g e username (some (.secret pw)) o = .ok r ∧ createAsReq P M g e username (some k) o = .ok r' ∧
      r.req_body.etypes = [et] ∧ r'.req_body.etypes = [et'] := by
  obtain ⟨c, kb, hc, hkb, hi⟩ := hk
  obtain ⟨kb', h1, -, h2⟩ := Crypto.c33_generated_key_from_string P hP c pw salt
  rw [hkb] at h1; injection h1 with h1; subst h1
  have hkne : ∀ p, k ≠ .secret p := fun p hp => by subst hp; exact hi.notSecret
  obtain ⟨r', t', b', c', d', a1, -, a2, -, a3, -⟩ := c47_with_key P hP M g e he username o k (hi.wf hc h2)
    (fun ⟨p, hp⟩ => absurd hp (hkne p))
  obtain ⟨r, t, b, c'', d, b1, -, b2, -, b3, -⟩ := c47_with_key P hP M g e he username o (.secret pw) trivial
    (fun _ => by
      rcases ho with ⟨-, h⟩ | ⟨-, h, -⟩ | ⟨-, h, -⟩
      · exact ⟨18, by simp, h⟩
      · exact ⟨17, by simp, h⟩
      · exact ⟨23, by simp, h⟩)
  have e1 : t = et := by
    have := b2.1
    rw [strongest_find ho] at this
    injection this with this; exact this.symm
  have e2 : t' = et' := by
    rcases hi with ⟨rfl, rfl⟩ | ⟨rfl, rfl⟩ | ⟨rfl, rfl⟩ <;> exact a2.1
  subst e1 e2
  exact ⟨r, r', b1, a1, b3, a3⟩

end

/-! ### Examples -/

section
open Verif.Crypto (toyPrims toyPrims_lawful asciiCase)

/-- the derived RC4 key of the example password -/
example : DerivedKey toyPrims "pässword".toList (utf8 exSalt) 23 (.rc4Key (exKeyBytes exPassword)) :=
  ⟨.rc4, exKeyBytes exPassword, rfl, by decide +kernel, .inl ⟨rfl, rfl⟩⟩

example : Strongest { exOptions with etypes := [23] } 23 := .inr (.inr ⟨rfl, by decide, by decide, by decide⟩)
example : Strongest exOptions 18 := .inl ⟨rfl, by decide⟩

/-- the KDC of the examples announces type and salt -/
theorem exNet_announces : Announces strictCfg (exNet exPassword) 23 (utf8 exSalt) := by
  intro sent a r ha hr
  have hrep : parseResponse strictCfg (MsgType.build strictCfg .asRep (exRep exPassword)) = .ok (.asRep (exRep exPassword)) := by
    decide +kernel
  have herr : parseResponse strictCfg (MsgType.build strictCfg .krbError exPreauth) = .ok (.krbError exPreauth) := by decide +kernel
  have hp := parseResponse_reply (⟨nofun, nofun, nofun, nofun⟩ : strictCfg.Total) hr
  unfold exNet at ha
  split at ha
  · injection ha with ha; subst ha
    rw [herr] at hp; cases hp
  · injection ha with ha; subst ha
    rw [hrep] at hp; injection hp with hp; injection hp with hp; subst hp
    refine ⟨rfl, ((c53_salt _ _ _).1).1 ?_⟩
    decide +kernel

/-- the theorem applied: two messages and the issued credential, with the password and with its key -/
example : tgtRequest toyPrims asciiCase strictCfg (exNet exPassword) exEnv exEnv "mickey".toList (some exPassword)
      { exOptions with etypes := [23] } =
    tgtRequest toyPrims asciiCase strictCfg (exNet exPassword) exEnv exEnv "mickey".toList (some (.rc4Key (exKeyBytes exPassword)))
      { exOptions with etypes := [23] } :=
  c98_dialogue toyPrims asciiCase strictCfg ⟨nofun, nofun, nofun, nofun⟩ _ _ _ _ _ _ 23 (utf8 exSalt) _
    (.inr (.inr ⟨rfl, by decide, by decide, by decide⟩)) (.inl rfl) ⟨.rc4, exKeyBytes exPassword, rfl, by decide +kernel, .inl ⟨rfl, rfl⟩⟩
    exNet_announces

/-- an AES account: the same request with the password and with the derived key -/
example : (∃ k, DerivedKey toyPrims "pässword".toList (calculateAesSalt asciiCase exOptions.realm "mickey".toList) 18 k ∧
    buildAsReq toyPrims asciiCase strictCfg exEnv "mickey".toList (some exPassword) exOptions =
      buildAsReq toyPrims asciiCase strictCfg exEnv "mickey".toList (some k) exOptions) := by
  obtain ⟨k, -, h, -⟩ := c98_exists toyPrims toyPrims_lawful "pässword".toList
    (calculateAesSalt asciiCase exOptions.realm "mickey".toList) 18 (.inl rfl)
  exact ⟨k, h, c98_request toyPrims asciiCase strictCfg exEnv "mickey".toList exOptions "pässword".toList 18 _ k (.inl ⟨rfl, by decide⟩)
    (.inr rfl) h⟩

/-- an answer of another type is where the two differ: the password opens it, the AES key does not -/
example : (extractCredential toyPrims strictCfg (some exPassword) (exRep exPassword)).toOption.isSome = true ∧
    (extractCredential toyPrims strictCfg (some (.aes128Key (List.replicate 16 1))) (exRep exPassword)).toOption.isSome = false := by
  constructor <;> decide +kernel

end

end Verif.Kb
