import Verif.Props.Kdc
import Verif.Props.EndToEnd
import Verif.Props.ClientGaps
/-
C73 (the hypotheses can be met: every KDC has answers that follow RFC 4120, and a concrete exchange), C74 and C75.
-/
set_option linter.unusedSimpArgs false
namespace Verif.Kb
open Verif.Asn1 Verif.Crypto Verif.Kdc

/-! ### C73: there are such KDCs -/

theorem ok_cipher {k : LongTermKey} (h : k.Ok) : ∃ c, newKerberosCipher k.etype = .ok c ∧ k.key.length = keyLength c ∧ c.keyOk k.key := by
  rcases h with ⟨h, h'⟩ | ⟨h, h'⟩ | ⟨h, h'⟩ <;> rw [h]
  · exact ⟨.aes .aes128, by decide, h', h'⟩
  · exact ⟨.aes .aes256, by decide, h', h'⟩
  · exact ⟨.rc4, by decide, h', trivial⟩

theorem encrypts_exists {k : LongTermKey} (h : k.Ok) {u : Int32} (hu : u ≠ 9 ∧ u ≠ 23) (plain : Bytes) :
    ∃ ct, Encrypts k.etype k.key u plain ct := by
  obtain ⟨c, hc, hl, hko⟩ := ok_cipher h
  obtain ⟨ct, h1, -⟩ := c26_cipher_roundtrip stdPrims stdPrims_lawful c k.key hko u plain (List.replicate c.preambleSize 0) (by simp)
  exact ⟨ct, (encrypts_iff hc hl hu plain ct).2 ⟨_, by simp, h1⟩⟩

/-- a reply part for any realm and nonce -/
def plainPart (realm : List Char) (nonce : UInt32) : EncAsRepPart :=
  { filePart with nonce := nonce, srealm := realm, sname := ⟨2, ["krbtgt".toList, realm]⟩ }

theorem plainPart_wf (realm nonce) : EncAsRepPart.WF (plainPart realm nonce) := by
  refine ⟨?_, ?_, ?_, ?_, ?_, ?_⟩
  · show (AllOf LastReqEntry.WF) exPart.last_req
    intro x hx
    rcases List.mem_cons.1 hx with rfl | hx
    · show TimeOk _; decide
    · rcases List.mem_cons.1 hx with rfl | hx
      · show TimeOk _; decide
      · cases hx
  · intro t ht; cases ht
  · show TimeOk ⟨1700000000, 0⟩; decide
  · intro t ht; cases ht
  · show TimeOk ⟨1999999999, 0⟩; decide
  · intro t ht
    have ht : some _ = some t := ht
    injection ht with ht
    subst ht; decide

theorem reply_exists (K : Kdc) (a : Account) (r : AsReq) (k : LongTermKey) (hc : chosen r.req_body.etypes a = some k) (hk : k.Ok) :
    ∃ answer, IsReply K a r answer := by
  obtain ⟨ct, hct⟩ := encrypts_exists hk (u := 3) (by decide) (EncAsRepPart.der rfc (plainPart K.realm r.req_body.nonce)).bytes
  refine ⟨_, ⟨5, 11, some [⟨19, (dSeqOf EtypeInfo2Entry.der [⟨k.etype, some k.salt, none⟩]).bytes⟩], K.realm, a.name,
    ⟨5, K.realm, K.service, ⟨18, none, [1, 2, 3]⟩⟩, ⟨k.etype, none, ct⟩⟩, plainPart K.realm r.req_body.nonce, k,
    ⟨⟨rfl, rfl⟩, ⟨rfl, rfl⟩, ⟨rfl, rfl, rfl, rfl⟩, rfl, hc, rfl, hct, ?_, ?_, plainPart_wf _ _, ?_⟩, rfl⟩
  · intro p hp _
    rw [List.mem_singleton.1 hp]
    exact ⟨some k.salt, none, rfl, fun _ => rfl⟩
  · exact fun _ => ⟨_, List.mem_singleton.2 rfl, rfl⟩
  · constructor <;> (intro x hx; cases hx)

theorem preauthError_exists : ∃ answer, IsPreauthError answer :=
  ⟨_, exPreauth, rfl, ⟨(fun _ h => nomatch h), by decide⟩, rfl⟩

/-- what is owed depends on the octets only -/
theorem isReply_same {K a r s answer} (h : SameRequest r s) (hr : IsReply K a r answer) : IsReply K a s answer := by
  obtain ⟨rep, part, k, h1, h2⟩ := hr
  exact ⟨rep, part, k, { h1 with nonce := by rw [← h.nonce]; exact h1.nonce, key := by rw [← h.etypes]; exact h1.key }, h2⟩

/-- it is enough to answer one request with these octets -/
theorem answers_intro {K : Kdc} {now : Int} {r : AsReq} {n : PrincipalName} {a : Account} {answer : Bytes}
    (h2 : (AsReq.der rfc r).bytes.length < 2^32) (h3 : r.req_body.cname = some n) (h4 : K.account n = some a)
    (hA : (¬ OffersTimestamp r → if a.needsPreauth then IsPreauthError answer else IsReply K a r answer) ∧
      (Preauthenticated a now r → IsReply K a r answer)) : Answers K now (AsReq.der rfc r).bytes answer := by
  intro r' n' a' k' g1 _ _ _ _ g3 g4 g5 _
  have hsame : SameRequest r r' := asReq_same (by omega) g1
  have e1 : n = n' := by
    have := hsame.cname
    rw [h3, g3] at this
    injection this
  subst e1
  rw [h4] at g4
  injection g4 with g4
  subst g4
  constructor
  · intro hno
    have := hA.1 (fun ho => hno (by unfold OffersTimestamp at ho ⊢; rwa [hsame.padata] at ho))
    split at this
    · rename_i hp; rw [if_pos hp]; exact this
    · rename_i hp; rw [if_neg hp]; exact isReply_same hsame this
  · intro hpre
    refine isReply_same hsame (hA.2 ?_)
    unfold Preauthenticated at hpre ⊢
    rwa [hsame.padata]

/-- C73. Every KDC whose users' keys are of a supported type and size has an answer that follows RFC 4120 for every
message at every time, so some network answers that way throughout. -/
theorem c73_kdc_exists (K : Kdc) (hK : ∀ n a, K.account n = some a → ∀ k ∈ a.keys, k.Ok) (now : Int) (request : Bytes) :
    ∃ answer, Answers K now request answer := by
  by_cases h : ∃ (r : AsReq) (n : PrincipalName) (a : Account) (k : LongTermKey), request = (AsReq.der rfc r).bytes ∧
      request.length < 2^32 ∧ r.req_body.cname = some n ∧ K.account n = some a ∧ chosen r.req_body.etypes a = some k
  · obtain ⟨r, n, a, k, h1, h2, h3, h4, h5⟩ := h
    have key := fun answer => answers_intro (K := K) (now := now) (r := r) (a := a) (answer := answer) (by rw [← h1]; exact h2) h3 h4
    rw [← h1] at key
    obtain ⟨rep, hrep⟩ := reply_exists K a r k h5 (hK n a h4 k (chosen_mem h5).1)
    by_cases ho : OffersTimestamp r
    · exact ⟨rep, key rep ⟨fun h => absurd ho h, fun _ => hrep⟩⟩
    · cases hp : a.needsPreauth with
      | false => exact ⟨rep, key rep ⟨fun _ => by rw [hp]; exact hrep, fun _ => hrep⟩⟩
      | true =>
        obtain ⟨err, herr⟩ := preauthError_exists
        refine ⟨err, key err ⟨fun _ => by rw [hp]; exact herr, ?_⟩⟩
        rintro ⟨p, h1, h2, -⟩
        exact absurd ⟨p, h1, h2⟩ ho
  · exact ⟨[], fun r n a k g1 _ _ _ _ g3 g4 g5 g6 => absurd ⟨r, n, a, k, g1, g6, g3, g4, g5⟩ h⟩

/-! ### C73: a concrete exchange -/

/-- a KDC with one user, who has an RC4 key from a password and must pre-authenticate -/
def exAccount : Account := ⟨⟨1, ["mickey".toList]⟩, [⟨23, [], Std.md4 (utf8 "pw".toList |>.flatMap fun b => [b, 0])⟩], true⟩
def exKdc : Kdc := ⟨"KINGDOM.HEARTS".toList, fun n => if n = ⟨1, ["mickey".toList]⟩ then some exAccount else none⟩
def kdcEnv : Env := { exEnv with nonce := 77 }
def kdcOptions : Options := { exOptions with etypes := [23] }
def kdcPart : EncAsRepPart := plainPart "KINGDOM.HEARTS".toList 77
def kdcRep : AsRep :=
  ⟨5, 11, none, "KINGDOM.HEARTS".toList, ⟨1, ["mickey".toList]⟩, exTicket, ⟨23, some 3,
    Rfc.rc4Ciphertext (Std.hmac Std.md5) Std.rc4 (Std.md4 (utf8 "pw".toList |>.flatMap fun b => [b, 0])) (Rfc.rc4MessageType 3)
      [1, 2, 3, 4, 5, 6, 7, 8] (EncAsRepPart.der rfc kdcPart).bytes⟩⟩
def kdcNet : Net := fun sent =>
  if sent.length = 1 then some (KrbError.der rfc exPreauth).bytes else some (AsRep.der rfc kdcRep).bytes

theorem kdcEnv_plain : EnvPlain kdcEnv :=
  ⟨⟨fun n => by simp [kdcEnv, exEnv], by decide, by decide⟩, by decide, by unfold YearOk; decide, by unfold YearOk; decide, by unfold YearOk; decide⟩

theorem kdcIssues {r : AsReq} (h1 : r.req_body.nonce = 77) (h2 : r.req_body.etypes = [23]) :
    Issues exKdc exAccount r kdcRep kdcPart ⟨23, [], Std.md4 (utf8 "pw".toList |>.flatMap fun b => [b, 0])⟩ where
  version := ⟨rfl, rfl⟩
  client := ⟨rfl, rfl⟩
  server := ⟨rfl, rfl, rfl, rfl⟩
  nonce := by rw [h1]; rfl
  key := by rw [h2]; rfl
  etype := rfl
  cipher := .inr (.inr ⟨rfl, by decide +kernel, _, by rfl, rfl⟩)
  info := fun p hp => nomatch hp
  hint := fun h => absurd rfl h
  times := plainPart_wf _ _
  kvno := ⟨fun x hx => by
      have hx : some (2 : UInt32) = some x := hx
      injection hx with hx; subst hx; show _ < _; decide,
    fun x hx => by
      have hx : some (3 : UInt32) = some x := hx
      injection hx with hx; subst hx; show _ < _; decide⟩

theorem kdcAnswered (key : Key) (hkw : key.WF)
    (hp : PreauthKey stdPrims asciiCase kdcOptions "mickey".toList key 23 (Std.md4 (utf8 "pw".toList |>.flatMap fun b => [b, 0])))
    (hm : ∀ m ∈ (tgtRequest stdPrims asciiCase strictCfg kdcNet kdcEnv kdcEnv "mickey".toList (some key) kdcOptions).2, m.length < 2^32) :
    AnsweredBy exKdc (fun _ => 1700000000) kdcNet
      (tgtRequest stdPrims asciiCase strictCfg kdcNet kdcEnv kdcEnv "mickey".toList (some key) kdcOptions).2 := by
  have hg : strictCfg.Total := ⟨nofun, nofun, nofun, nofun⟩
  have hkk : ∀ k', some key = some k' → k'.WF := by rintro k' h; injection h with h; subst h; exact hkw
  obtain ⟨req1, hb1, -, hd2⟩ := c48_dialogue stdPrims_lawful asciiCase hg kdcNet "mickey".toList (some key) hkk kdcOptions kdcEnv_plain.ok (e2 := kdcEnv)
  obtain ⟨r1, hr1, hr2, hr3, hr4⟩ := first_request asciiCase strictCfg kdcEnv_plain "mickey".toList kdcOptions
  rw [hb1] at hr1
  injection hr1 with hr1
  subst hr1
  have herr : IsPreauthError (KrbError.der rfc exPreauth).bytes := ⟨exPreauth, rfl, ⟨(fun _ h => nomatch h), by decide⟩, rfl⟩
  have hd : DemandsPreauth strictCfg (kdcNet [(AsReq.der rfc r1).bytes]) :=
    preauthError_read strictCfg herr (by decide +kernel)
  obtain ⟨r2, hb2, hq1, hq2, hq3⟩ := second_request asciiCase strictCfg kdcEnv_plain "mickey".toList kdcOptions key exAccount
    ⟨23, [], Std.md4 (utf8 "pw".toList |>.flatMap fun b => [b, 0])⟩ (List.mem_singleton.2 rfl)
    (.inr (.inr ⟨rfl, by decide +kernel⟩)) hp 1700000000 (by decide) (by decide)
  have hsent := ((hd2 key rfl hd).1 _ hb2).1
  rw [hsent] at hm ⊢
  have ha : exKdc.account ⟨1, ["mickey".toList]⟩ = some exAccount := by rfl
  have hm1 := hm _ List.mem_cons_self
  have hm2 := hm _ (List.mem_cons_of_mem _ List.mem_cons_self)
  intro pre m post h
  cases pre with
  | nil =>
    simp only [List.nil_append, List.cons.injEq] at h
    obtain ⟨rfl, -⟩ := h
    exact ⟨hm1, _, rfl, by decide +kernel, answers_intro hm1 hr2.client ha ⟨fun _ => herr, fun ⟨p, g1, g2, _⟩ => absurd ⟨p, g1, g2⟩ hr4⟩⟩
  | cons x pre =>
    cases pre with
    | nil =>
      simp only [List.cons_append, List.nil_append, List.cons.injEq] at h
      obtain ⟨rfl, rfl, -⟩ := h
      have : IsReply exKdc exAccount r2 (AsRep.der rfc kdcRep).bytes := ⟨kdcRep, kdcPart, _, kdcIssues hq1.nonce hq2, rfl⟩
      refine ⟨hm2, _, rfl, by decide +kernel, answers_intro hm2 hq1.client ha ⟨fun hno => ?_, fun _ => this⟩⟩
      obtain ⟨p, g1, g2, -⟩ := hq3
      exact absurd ⟨p, g1, g2⟩ hno
    | cons y pre => simp [List.cons_append] at h

/-- the premises of `c73_cipher_key` hold here -/
example : (Key.rc4Key (Std.md4 (utf8 "pw".toList |>.flatMap fun b => [b, 0]))).WF ∧ (23 : Int32) ∈ kdcOptions.etypes ∧
    AnsweredBy exKdc (fun _ => 1700000000) kdcNet (tgtRequest stdPrims asciiCase strictCfg kdcNet kdcEnv kdcEnv "mickey".toList
      (some (.rc4Key (Std.md4 (utf8 "pw".toList |>.flatMap fun b => [b, 0])))) kdcOptions).2 :=
  ⟨by show _ = 16; decide +kernel, by decide, kdcAnswered _ (by show _ = 16; decide +kernel) ⟨rfl, rfl⟩ (by decide +kernel)⟩

theorem kdcPassword : StringToKey 23 "pw".toList [] (Std.md4 (utf8 "pw".toList |>.flatMap fun b => [b, 0])) :=
  .inr (.inr ⟨rfl, _, .cons 'p' _ _ _ (.inl ⟨by decide, 112, rfl, by decide⟩) (.cons 'w' _ _ _ (.inl ⟨by decide, 119, rfl, by decide⟩) .nil), by decide +kernel⟩)

/-- the premises of `c73_password` hold here, with pre-authentication -/
example : exAccount.needsPreauth = true ∧ (∀ k ∈ exAccount.keys, StringToKey k.etype "pw".toList k.salt k.key) ∧
    asciiCase.upper exKdc.realm = exKdc.realm ∧ asciiCase.lower "mickey".toList = "mickey".toList ∧
    "mickey".toList.getLast? ≠ some '$' ∧
    (∃ k ∈ exAccount.keys, [18, 17, 23].find? (fun t => decide (t ∈ kdcOptions.etypes)) = some k.etype) ∧
    AnsweredBy exKdc (fun _ => 1700000000) kdcNet (tgtRequest stdPrims asciiCase strictCfg kdcNet kdcEnv kdcEnv "mickey".toList
      (some (.secret "pw".toList)) kdcOptions).2 := by
  refine ⟨rfl, fun k hk => by rw [List.mem_singleton.1 hk]; exact kdcPassword, by decide, by decide, by decide,
    ⟨_, List.mem_singleton.2 rfl, by decide⟩, kdcAnswered _ trivial ⟨by decide, .rc4, by decide, by decide +kernel⟩ (by decide +kernel)⟩

/-- and the exchange goes as stated -/
example : (tgtRequest stdPrims asciiCase strictCfg kdcNet kdcEnv kdcEnv "mickey".toList (some (.secret "pw".toList)) kdcOptions).1 =
    .ok ⟨"KINGDOM.HEARTS".toList, ⟨1, ["mickey".toList]⟩, exTicket, kdcPart⟩ := by decide +kernel

/-! ### C74 -/

/-- RFC 4120 section 4: the default salt is the realm and the components of the name, without separators -/
def defaultSalt (realm : List Char) (name : PrincipalName) : List Char := realm ++ name.name_string.flatten

/-- C74. The salt computed for pre-authentication is the default salt of RFC 4120 exactly if the realm is in upper case,
the user name in lower case and not that of a machine. (For a realm and name whose length does not change with case.) -/
theorem c74_default_salt_iff (M : CaseMap) (realm name : List Char) (hr : (M.upper realm).length = realm.length)
    (hn : (M.lower name).length = name.length) :
    calculateAesSalt M realm name = utf8 (defaultSalt realm ⟨1, [name]⟩) ↔
      M.upper realm = realm ∧ M.lower name = name ∧ name.getLast? ≠ some '$' := by
  have e : defaultSalt realm ⟨1, [name]⟩ = realm ++ name := by simp [defaultSalt]
  rw [e]
  unfold calculateAesSalt
  by_cases h : (M.lower name).getLast? = some '$'
  · simp only [h, if_true]
    constructor
    · intro hu
      have h1 := congrArg List.length (utf8_inj hu)
      have hne : M.lower name ≠ [] := by rintro h0; rw [h0] at h; cases h
      have hpos : 0 < (M.lower name).length := List.length_pos_iff.2 hne
      simp only [List.length_append, List.length_dropLast, hr] at h1
      have h4 : "host".toList.length = 4 := by decide
      omega
    · rintro ⟨-, h2, h3⟩
      rw [h2] at h
      exact absurd h h3
  · simp only [if_neg h]
    constructor
    · intro hu
      obtain ⟨h1, h2⟩ := List.append_inj (utf8_inj hu) hr
      exact ⟨h1, h2, by rwa [h2] at h⟩
    · rintro ⟨h1, h2, -⟩
      rw [h1, h2]

/-- C74 (violation). Whatever salt the KDC announces, the timestamp of a user who is no machine is encrypted with the key
of the password and the salt "upper-case realm, lower-case name". -/
theorem c74_salt_used (M : CaseMap) (g : Cfg) (hg : g.Total) (net : Net) (e1 e2 : Env) (he1 : EnvOk e1) (he2 : EnvOk e2)
    (username pw : List Char) (o : Options) (ht : ∃ t ∈ [18, 17], t ∈ o.etypes) (hd : ∀ req, DemandsPreauth g (net [req]))
    (hu : (M.lower username).getLast? ≠ some '$') :
    ∃ req1 r et kb c data, (tgtRequest stdPrims M g net e1 e2 username (some (.secret pw)) o).2 = [req1, MsgType.build g .asReq r] ∧
      [18, 17].find? (fun t => decide (t ∈ o.etypes)) = some et ∧
      StringToKey et pw (M.upper o.realm ++ M.lower username) kb ∧
      r.padata = some (pacRequest g o ++ [⟨2, MsgType.build g .encryptedData ⟨et, none, data⟩⟩]) ∧
      newKerberosCipher et = .ok c ∧
      c.decrypt stdPrims kb 1 data = .ok (MsgType.build g .paEncTsEnc (PaEncTsEnc.ofTime e2.stampNow)) := by
  obtain ⟨t, h1, h2⟩ := ht
  obtain ⟨req1, r, et, kb, c, data, k1, k2, k3, k4, -, k6, k7⟩ := c62_local_choice stdPrims_lawful M hg username o pw he1 he2
    ⟨t, by rcases List.mem_cons.1 h1 with rfl | h1
           · exact List.mem_cons_self
           · rw [List.mem_singleton.1 h1]; decide, h2⟩ net hd
  have hf : [18, 17].find? (fun t => decide (t ∈ o.etypes)) = some et ∧ (et = 18 ∨ et = 17) := by
    by_cases h18 : (18 : Int32) ∈ o.etypes
    · simp only [List.find?, h18, decide_true] at k2 ⊢
      exact ⟨k2, .inl (Option.some.inj k2).symm⟩
    · have h17 : (17 : Int32) ∈ o.etypes := by
        rcases List.mem_cons.1 h1 with rfl | h1
        · exact absurd h2 h18
        · rw [List.mem_singleton.1 h1] at h2; exact h2
      simp only [List.find?, h18, h17, decide_true, decide_false] at k2 ⊢
      exact ⟨k2, .inr (Option.some.inj k2).symm⟩
  refine ⟨req1, r, et, kb, c, data, k1, hf.1, ?_, k6, k3, k7⟩
  have hs : calculateAesSalt M o.realm username = utf8 (M.upper o.realm ++ M.lower username) := by
    unfold calculateAesSalt; simp only [if_neg hu]
  rcases hf.2 with rfl | rfl
  · have h : newKerberosCipher 18 = .ok (.aes .aes256) := by decide
    rw [h] at k3; injection k3 with k3; subst k3
    rw [if_neg (by decide), hs, (c69_string_to_key pw _).2.1] at k4
    injection k4 with k4
    exact .inr (.inl ⟨rfl, k4.symm⟩)
  · have h : newKerberosCipher 17 = .ok (.aes .aes128) := by decide
    rw [h] at k3; injection k3 with k3; subst k3
    rw [if_neg (by decide), hs, (c69_string_to_key pw _).1] at k4
    injection k4 with k4
    exact .inl ⟨rfl, k4.symm⟩

/-- the default salt for a lower-case user, another one for an administrator and for a machine -/
example : calculateAesSalt asciiCase "K.COM".toList "bob".toList = utf8 (defaultSalt "K.COM".toList ⟨1, ["bob".toList]⟩) ∧
    calculateAesSalt asciiCase "K.COM".toList "Administrator".toList ≠ utf8 (defaultSalt "K.COM".toList ⟨1, ["Administrator".toList]⟩) ∧
    calculateAesSalt asciiCase "K.COM".toList "pc$".toList ≠ utf8 (defaultSalt "K.COM".toList ⟨1, ["pc$".toList]⟩) ∧
    (∃ t ∈ [18, 17], t ∈ exOptions.etypes) ∧ (∀ req, DemandsPreauth strictCfg (kdcNet [req])) := by
  refine ⟨by decide +kernel, by decide +kernel, by decide +kernel, by decide +kernel, fun req => ?_⟩
  exact preauthError_read strictCfg ⟨exPreauth, rfl, ⟨(fun _ h => nomatch h), by decide⟩, rfl⟩ (by decide +kernel)

/-! ### C75 -/

/-- C75 (violation). The first message does not depend on the user's key or password: it offers every allowed type, also
those the key is useless for. -/
theorem c75_first_message (M : CaseMap) (g : Cfg) (hg : g.Total) (e1 : Env) (he1 : EnvOk e1) (username : List Char) (o : Options) :
    ∃ r, r.req_body.etypes = [18, 17, 23].filter (fun t => decide (t ∈ o.etypes)) ∧
      ∀ (key : Option Key), (∀ k, key = some k → k.WF) → ∀ (net : Net) (e2 : Env),
        ∃ later, (tgtRequest stdPrims M g net e1 e2 username key o).2 = MsgType.build g .asReq r :: later := by
  obtain ⟨r, h1, -, h3, -⟩ := c47_without_key stdPrims M g e1 he1 username o
  refine ⟨r, h3, fun key hkk net e2 => ?_⟩
  obtain ⟨req1, hb1, hd1, hd2⟩ := c48_dialogue stdPrims_lawful M hg net username key hkk o he1 (e2 := e2)
  rw [build_of_create h1] at hb1
  injection hb1 with hb1
  subst hb1
  by_cases hd : DemandsPreauth g (net [MsgType.build g .asReq r]) ∧ key ≠ none
  · obtain ⟨hd, hne⟩ := hd
    cases key with
    | none => exact absurd rfl hne
    | some key =>
      cases hb : buildAsReq stdPrims M g e2 username (some key) o with
      | ok req2 => exact ⟨[req2], ((hd2 key rfl hd).1 req2 hb).1⟩
      | error x => exact ⟨[], by rw [(hd2 key rfl hd).2 x hb]⟩
  · exact ⟨[], (hd1 hd).1⟩

/-- a user with an AES and an RC4 key, who need not pre-authenticate -/
def twoKeys : Account := ⟨⟨1, ["mickey".toList]⟩, [⟨18, [], List.range 32 |>.map UInt8.ofNat⟩, ⟨23, [], List.range 16 |>.map UInt8.ofNat⟩], false⟩
def twoKdc : Kdc := ⟨"KINGDOM.HEARTS".toList, fun n => if n = ⟨1, ["mickey".toList]⟩ then some twoKeys else none⟩
def twoCipher : Bytes :=
  (((Cipher.aes .aes256).encrypt stdPrims (List.range 32 |>.map UInt8.ofNat) 3 (EncAsRepPart.der rfc kdcPart).bytes (List.replicate 16 1)).toOption).getD []
def twoRep : AsRep :=
  ⟨5, 11, some [⟨19, (dSeqOf EtypeInfo2Entry.der [⟨18, some [], none⟩]).bytes⟩], "KINGDOM.HEARTS".toList, ⟨1, ["mickey".toList]⟩, exTicket,
    ⟨18, none, twoCipher⟩⟩


theorem twoIssues {r : AsReq} (h1 : r.req_body.nonce = 77) (h2 : r.req_body.etypes = [18, 17, 23]) :
    Issues twoKdc twoKeys r twoRep kdcPart ⟨18, [], List.range 32 |>.map UInt8.ofNat⟩ where
  version := ⟨rfl, rfl⟩
  client := ⟨rfl, rfl⟩
  server := ⟨rfl, rfl, rfl, rfl⟩
  nonce := by rw [h1]; rfl
  key := by rw [h2]; rfl
  etype := rfl
  cipher := by
    refine (encrypts_iff (c := .aes .aes256) (by decide) rfl (by decide) _ _).2 ⟨List.replicate 16 1, rfl, ?_⟩
    obtain ⟨ct, h, -⟩ := c26_cipher_roundtrip stdPrims stdPrims_lawful (.aes .aes256) (List.range 32 |>.map UInt8.ofNat) rfl 3
      (EncAsRepPart.der rfc kdcPart).bytes (List.replicate 16 1) rfl
    have : twoRep.enc_part.cipher = ct := by
      show twoCipher = ct
      unfold twoCipher
      rw [h]; rfl
    rw [this]; exact h
  info := fun p hp _ => by
    rw [List.mem_singleton.1 hp]
    exact ⟨some [], none, rfl, fun _ => rfl⟩
  hint := fun _ => ⟨_, List.mem_singleton.2 rfl, rfl⟩
  times := plainPart_wf _ _
  kvno := ⟨fun x hx => by
      have hx : some (2 : UInt32) = some x := hx
      injection hx with hx; subst hx; show _ < _; decide,
    fun x hx => nomatch hx⟩

/-- C75 (violation). So a KDC that follows RFC 4120 may choose a type the user has no key of, although it shares one with
the user and the client asked for nothing else but a ticket: here the user has the RC4 key of the account, the KDC answers
with the AES key of the account, and the request fails. -/
theorem c75_refused : ∃ (K : Kdc) (a : Account) (key : Bytes) (net : Net) (clock : Nat → Int) (e : Env) (o : Options)
    (rep : AsRep), K.account ⟨1, ["mickey".toList]⟩ = some a ∧ a.needsPreauth = false ∧ (Key.rc4Key key).WF ∧ EnvPlain e ∧ o.realm = K.realm ∧
    (∃ k ∈ a.keys, k.etype = 23 ∧ k.key = key) ∧ (∀ k ∈ a.keys, k.etype ∈ o.etypes) ∧
    AnsweredBy K clock net (tgtRequest stdPrims asciiCase strictCfg net e e "mickey".toList (some (.rc4Key key)) o).2 ∧
    (tgtRequest stdPrims asciiCase strictCfg net e e "mickey".toList (some (.rc4Key key)) o).1 =
      .error (.parseAsRep rep (.crypto (.decryption "Key etype = 23 doesn't match with message etype = 18"))) := by
  refine ⟨twoKdc, twoKeys, List.range 16 |>.map UInt8.ofNat, fun _ => some (AsRep.der rfc twoRep).bytes, fun _ => 1700000000, kdcEnv,
    exOptions, twoRep, rfl, rfl, rfl, kdcEnv_plain, rfl, ⟨_, List.mem_cons_of_mem _ List.mem_cons_self, rfl, rfl⟩, by decide, ?_, ?_⟩
  · have hkk : ∀ k', some (Key.rc4Key (List.range 16 |>.map UInt8.ofNat)) = some k' → k'.WF := by
      rintro k' h; injection h with h; subst h; rfl
    obtain ⟨req1, hb1, hd1, -⟩ := c48_dialogue (g := strictCfg) stdPrims_lawful asciiCase ⟨nofun, nofun, nofun, nofun⟩
      (fun _ => some (AsRep.der rfc twoRep).bytes) "mickey".toList _ hkk exOptions kdcEnv_plain.ok (e2 := kdcEnv)
    obtain ⟨r1, hr1, hr2, hr3, hr4⟩ := first_request asciiCase strictCfg kdcEnv_plain "mickey".toList exOptions
    have hraw : (match buildAsReq stdPrims asciiCase strictCfg kdcEnv "mickey".toList none exOptions with
      | .ok b => decide (b.length < 2^32) | .error _ => false) = true := by decide +kernel
    rw [hr1] at hraw
    have hm1 : (AsReq.der rfc r1).bytes.length < 2^32 := of_decide_eq_true hraw
    rw [hb1] at hr1
    injection hr1 with hr1
    subst hr1
    have hi := twoIssues hr2.nonce (hr3.trans (by decide))
    have hnd : ¬ (DemandsPreauth strictCfg (some (AsRep.der rfc twoRep).bytes) ∧
        some (Key.rc4Key (List.range 16 |>.map UInt8.ofNat)) ≠ none) := by
      rintro ⟨⟨b, err, hb, ⟨rest, hre⟩, -⟩, -⟩
      injection hb with hb
      subst hb
      have hrr := readsReply_build strictCfg twoRep trivial (by decide +kernel)
      rw [c59_wire_format strictCfg .asRep twoRep hi.kvno] at hrr
      obtain ⟨⟨x, hx⟩, -⟩ := hrr
      have hre : MsgType.parse strictCfg .krbError (MsgType.der rfc .asRep twoRep).bytes = .ok (err, rest) := hre
      rw [hx] at hre; cases hre
    rw [(hd1 hnd).1]
    intro pre m post h
    cases pre with
    | nil =>
      simp only [List.nil_append, List.cons.injEq] at h
      obtain ⟨rfl, -⟩ := h
      have hrep : IsReply twoKdc twoKeys r1 (AsRep.der rfc twoRep).bytes := ⟨_, _, _, hi, rfl⟩
      exact ⟨hm1, _, rfl, by decide +kernel, answers_intro hm1 hr2.client rfl ⟨fun _ => hrep, fun _ => hrep⟩⟩
    | cons x pre => simp [List.cons_append] at h
  · decide +kernel

/-- C75 (violation, for every KDC). Whenever the account needs no pre-authentication and the first allowed type that it has a
key of is not the type of the user's key, every KDC that follows RFC 4120 answers with that other key, and the request fails,
unless the keyed hash of the reply happens to be right also under the user's key. So the condition on the KDC's choice in
C73 is needed. -/
theorem c75_always_refused (M : CaseMap) (g : Cfg) (hg : g.Total) (K : Kdc) (clock : Nat → Int) (net : Net) (e1 e2 : Env) (he1 : EnvPlain e1)
    (username : List Char) (key : Key) (hkw : key.WF) (et : Int32) (kb : Bytes) (hck : IsCipherKey key et kb) (c : Cipher)
    (hc : newKerberosCipher et = .ok c) (o : Options) (a : Account) (ha : K.account ⟨1, [username]⟩ = some a)
    (hrealm : o.realm = K.realm) (hpa : a.needsPreauth = false) (k1 : LongTermKey)
    (hk1 : chosen ([18, 17, 23].filter fun t => decide (t ∈ o.etypes)) a = some k1) (hne : k1.etype ≠ et)
    (hans : AnsweredBy K clock net (tgtRequest stdPrims M g net e1 e2 username (some key) o).2) :
    ∃ r rep part, Issues K a r rep part k1 ∧ ((∃ plain, c.decrypt stdPrims kb 3 rep.enc_part.cipher = .ok plain) ∨
      (tgtRequest stdPrims M g net e1 e2 username (some key) o).1 = .error (.parseAsRep rep (.crypto (.decryption
        s!"Key etype = {et.toInt} doesn't match with message etype = {k1.etype.toInt}")))) := by
  have hkk : ∀ k', some key = some k' → k'.WF := by rintro k' h; injection h with h; subst h; exact hkw
  obtain ⟨req1, hb1, hd1, hd2⟩ := c48_dialogue stdPrims_lawful M hg net username (some key) hkk o he1.ok (e2 := e2)
  obtain ⟨r1, hr1, hr2, hr3, hr4⟩ := first_request M g he1 username o
  rw [hb1] at hr1
  injection hr1 with hr1
  subst hr1
  rw [← hr3] at hk1
  have hfirst : ∃ post, (tgtRequest stdPrims M g net e1 e2 username (some key) o).2 = (AsReq.der rfc r1).bytes :: post := by
    by_cases hd : DemandsPreauth g (net [(AsReq.der rfc r1).bytes])
    · cases hb : buildAsReq stdPrims M g e2 username (some key) o with
      | ok req2 => exact ⟨[req2], ((hd2 key rfl hd).1 req2 hb).1⟩
      | error x => exact ⟨[], by rw [(hd2 key rfl hd).2 x hb]⟩
    · exact ⟨[], (hd1 (fun h => hd h.1)).1⟩
  obtain ⟨post, hpost⟩ := hfirst
  obtain ⟨hs1, ans1, hn1, hs2, hA⟩ := hans [] _ post hpost
  rw [List.nil_append] at hn1
  have hA := (asks_answers hr2 hrealm ha hk1 hA hs1).1 hr4
  rw [hpa] at hA
  obtain ⟨rep, part, k, hi, rfl⟩ := hA
  have hkeq : k = k1 := by
    have := hi.key
    rw [hk1] at this
    injection this with this
    exact this.symm
  subst hkeq
  have hrr := readsReply_build g rep trivial (by
    rw [c59_wire_format g .asRep rep hi.kvno]; show (AsRep.der rfc rep).bytes.length < _; omega)
  rw [c59_wire_format g .asRep rep hi.kvno] at hrr
  have hnd : ¬ (DemandsPreauth g (net [(AsReq.der rfc r1).bytes]) ∧ some key ≠ none) := by
    rintro ⟨⟨b, err, hb, ⟨rest, hre⟩, -⟩, -⟩
    rw [hn1] at hb
    injection hb with hb
    subst hb
    obtain ⟨⟨x, hx⟩, -⟩ := hrr
    have hre : MsgType.parse g .krbError (MsgType.der rfc .asRep rep).bytes = .ok (err, rest) := hre
    rw [hx] at hre; cases hre
  refine ⟨r1, rep, part, hi, ?_⟩
  cases hd : c.decrypt stdPrims kb 3 rep.enc_part.cipher with
  | ok plain => exact .inl ⟨plain, rfl⟩
  | error x =>
    right
    have := (c54_cipher_key (e2 := e2) stdPrims_lawful M hg net username o he1.ok key hkw et kb c hck hc _ rep hrr
      ⟨_, hb1, .inl ⟨hnd, hn1.symm⟩⟩).2.2.1 x hd (by rw [hi.etype]; exact hne)
    rw [hi.etype] at this
    exact this

/-- the case of `c75_refused` meets the hypotheses -/
example : (chosen ([18, 17, 23].filter fun t => decide (t ∈ exOptions.etypes)) twoKeys).map (·.etype) = some 18 := by decide

end Verif.Kb
