import Verif.Props.KdcWrong
/-
C114: what the clocks of user and KDC must have in common.
-/
set_option linter.unusedSimpArgs false
namespace Verif.Kb
open Verif.Asn1 Verif.Crypto Verif.Kdc

theorem stamp_wire (g : Cfg) (t : DateTime) (p : Option Int32) (hy : YearOk t) (hs : (PaEncTsEnc.der rfc ⟨t, p⟩).bytes.length < 2^64) :
    MsgType.parse g .paEncTsEnc (PaEncTsEnc.der rfc ⟨t, p⟩).bytes = .ok (⟨⟨t.secs, 0⟩, p⟩, []) := by
  have e : (PaEncTsEnc.der rfc ⟨t, p⟩).bytes = (PaEncTsEnc.der rfc ⟨⟨t.secs, 0⟩, p⟩).bytes := rfl
  have hy' : YearOk ⟨t.secs, 0⟩ := hy
  have e' : (PaEncTsEnc.der rfc ⟨⟨t.secs, 0⟩, p⟩).bytes = MsgType.build g .paEncTsEnc ⟨⟨t.secs, 0⟩, p⟩ :=
    (c59_wire_format g .paEncTsEnc ⟨⟨t.secs, 0⟩, p⟩ hy').symm
  rw [e, e'] at hs ⊢
  have := c39_roundtrip g .paEncTsEnc ⟨⟨t.secs, 0⟩, p⟩ ⟨rfl, hy'⟩ hs []
  rw [List.append_nil] at this
  exact this

theorem parse_same {α : Type} {f : Bytes → Except PErr (α × Bytes)} {b b' : Bytes} {x y : α} (h : b = b') (hx : f b = .ok (x, [])) (hy : f b' = .ok (y, [])) :
    x = y := by
  subst h
  rw [hx] at hy
  injection hy with hy
  injection hy

/-- a timestamp can be told from its octets, to the second -/
theorem stamp_same' {t t' : DateTime} {p p' : Option Int32} (h1 : YearOk t) (h2 : YearOk t')
    (hs : (PaEncTsEnc.der rfc ⟨t, p⟩).bytes.length < 2^64) (h : (PaEncTsEnc.der rfc ⟨t, p⟩).bytes = (PaEncTsEnc.der rfc ⟨t', p'⟩).bytes) :
    t.secs = t'.secs :=
  congrArg (fun x : PaEncTsEnc => x.patimestamp.secs) (parse_same (f := MsgType.parse strictCfg .paEncTsEnc) h (stamp_wire strictCfg t p h1 hs) (stamp_wire strictCfg t' p' h2 (h ▸ hs)))

theorem stamp_same {ts ts' : PaEncTsEnc} (h1 : YearOk ts.patimestamp) (h2 : YearOk ts'.patimestamp)
    (hs : (PaEncTsEnc.der rfc ts).bytes.length < 2^64) (h : (PaEncTsEnc.der rfc ts).bytes = (PaEncTsEnc.der rfc ts').bytes) :
    ts.patimestamp.secs = ts'.patimestamp.secs := by
  cases ts with | mk t p => cases ts' with | mk t' p' => exact stamp_same' h1 h2 hs h

theorem encrypts_unique {et : Int32} {key : Bytes} {u : Int32} (hu : u ≠ 9 ∧ u ≠ 23) {plain plain' ct : Bytes} (h : Encrypts et key u plain ct)
    (h' : Encrypts et key u plain' ct) : plain = plain' := by
  obtain ⟨c, hc, hl, hko⟩ := encrypts_ok h
  obtain ⟨conf, h1, h2⟩ := (encrypts_iff hc hl hu _ _).1 h
  obtain ⟨conf', h3, h4⟩ := (encrypts_iff hc hl hu _ _).1 h'
  exact (c28_encrypt_injective stdPrims stdPrims_lawful c key hko u _ _ _ _ ct h1 h3 h2 h4).1

theorem stamp_short (t : DateTime) : (PaEncTsEnc.der rfc (PaEncTsEnc.ofTime t)).bytes.length < 2^64 := by
  refine Nat.lt_of_le_of_lt (Der.bytes_le _) ?_
  have h1 := derInt_le (clampI32 (UInt32.ofNat (t.nanos / 1000)).toInt32 0 999999).toInt
  simp only [PaEncTsEnc.ofTime, PaEncTsEnc.der, Der.bound, Der.listBound, req, opt, List.cons_append, List.nil_append, dTime_bound, dInt32]
  omega

/-- C114. Whoever opens an encrypted timestamp with the key it was made with reads the second of the clock it was made from, and
no other. -/
theorem c114_read (t : DateTime) (hy : YearOk t) (et : Int32) (kb ct : Bytes) (h : Encrypts et kb 1 (PaEncTsEnc.der rfc (PaEncTsEnc.ofTime t)).bytes ct)
    (ts : PaEncTsEnc) (hts : YearOk ts.patimestamp) (h' : Encrypts et kb 1 (PaEncTsEnc.der rfc ts).bytes ct) : ts.patimestamp.secs = t.secs :=
  (stamp_same (ts := PaEncTsEnc.ofTime t) hy hts (stamp_short _) (encrypts_unique (by decide) h h')).symm

/-- C114. A user with the account's own key whose clock differs from the KDC's by more than five minutes is refused, if the
account needs pre-authentication: the request ends with the KDC's error, after two messages. -/
theorem c114_refused (M : CaseMap) (g : Cfg) (hg : g.Total) (K : Kdc) (clock : Nat → Int) (net : Net) (e1 e2 : Env) (he1 : EnvPlain e1)
    (he2 : EnvPlain e2) (username : List Char) (key : Key) (hkw : key.WF) (o : Options) (a : Account)
    (ha : K.account ⟨1, [username]⟩ = some a) (hrealm : o.realm = K.realm) (hpa : a.needsPreauth = true)
    (hoffer : ∃ k ∈ a.keys, k.Ok ∧ k.etype ∈ o.etypes)
    (et : Int32) (kb : Bytes) (hp : PreauthKey stdPrims M o username key et kb) (hhas : ∃ k ∈ a.keys, k.etype = et)
    (hsame : ∀ k ∈ a.keys, k.etype = et → k.key = kb)
    (hans : AnsweredBy K clock net (tgtRequest stdPrims M g net e1 e2 username (some key) o).2)
    (href : RefusedBy K clock net (tgtRequest stdPrims M g net e1 e2 username (some key) o).2)
    (hskew : 300 < e2.stampNow.secs - clock 2 ∨ 300 < clock 2 - e2.stampNow.secs) :
    ∃ err, (err.error_code = 24 ∨ err.error_code = 37) ∧
      (tgtRequest stdPrims M g net e1 e2 username (some key) o).1 = .error (.krbErrorResponse err) ∧
      (tgtRequest stdPrims M g net e1 e2 username (some key) o).2.length = 2 := by
  obtain ⟨ct, h1, h2⟩ := c113_preauth M g hg K clock net e1 e2 he1 he2 username key hkw o a ha hrealm hpa hoffer et kb hp hhas hans href
  rcases h2 with ⟨k, hk, hke, ts, h3, h4, h5, h6⟩ | h2
  · exfalso
    rw [hsame k hk hke] at h3
    have := c114_read e2.stampNow he2.stamp et kb ct h1 ts h4 h3
    omega
  · exact h2

/-- C114. With the right password, at a KDC that demands pre-authentication: the request returns a ticket if and only if the
clocks differ by at most five minutes. (Conditions on salt and types as in C73.) -/
theorem c114_password (M : CaseMap) (g : Cfg) (hg : g.Total) (K : Kdc) (clock : Nat → Int) (net : Net) (e1 e2 : Env) (he1 : EnvPlain e1)
    (he2 : EnvPlain e2) (username pw : List Char) (o : Options) (a : Account) (ha : K.account ⟨1, [username]⟩ = some a)
    (hrealm : o.realm = K.realm) (hkeys : ∀ k ∈ a.keys, StringToKey k.etype pw k.salt k.key ∧ (k.etype ≠ 23 → k.salt = K.realm ++ username))
    (hpa : a.needsPreauth = true) (hu : M.upper K.realm = K.realm) (hl : M.lower username = username) (hd : username.getLast? ≠ some '$')
    (htype : ∃ k ∈ a.keys, [18, 17, 23].find? (fun t => decide (t ∈ o.etypes)) = some k.etype)
    (hans : AnsweredBy K clock net (tgtRequest stdPrims M g net e1 e2 username (some (.secret pw)) o).2)
    (href : RefusedBy K clock net (tgtRequest stdPrims M g net e1 e2 username (some (.secret pw)) o).2) :
    (∃ cred, (tgtRequest stdPrims M g net e1 e2 username (some (.secret pw)) o).1 = .ok cred) ↔
      e2.stampNow.secs - clock 2 ≤ 300 ∧ clock 2 - e2.stampNow.secs ≤ 300 := by
  obtain ⟨k, hk, hf⟩ := htype
  have hmem : k.etype ∈ o.etypes := by have := List.find?_some hf; simpa using this
  constructor
  · rintro ⟨cred, h⟩
    rcases Decidable.em (e2.stampNow.secs - clock 2 ≤ 300 ∧ clock 2 - e2.stampNow.secs ≤ 300) with hc | hc
    · exact hc
    · exfalso
      obtain ⟨c, hc1⟩ := (c35_factory k.etype).2.1.2 (stringToKey_type (hkeys k hk).1)
      have hsalt : k.etype ≠ 23 → calculateAesSalt M o.realm username = utf8 (K.realm ++ username) := fun _ => by
        unfold calculateAesSalt; simp only [hl, hu, hrealm, if_neg hd]
      have hgen : ∀ k' ∈ a.keys, k'.etype = k.etype →
          c.generateKeyFromString stdPrims pw (if k.etype = 23 then [] else calculateAesSalt M o.realm username) = .ok k'.key := by
        intro k' hk' he
        have h1 := hkeys k' hk'
        refine stringToKey_eq (by have := h1.1; rw [he] at this; exact this) hc1 _ (fun hne => ?_)
        rw [if_neg hne, hsalt hne, h1.2 (by rw [he]; exact hne)]
      have hp : PreauthKey stdPrims M o username (.secret pw) k.etype k.key := ⟨hf, c, hc1, hgen k hk rfl⟩
      obtain ⟨err, -, h2, -⟩ := c114_refused M g hg K clock net e1 e2 he1 he2 username (.secret pw) trivial o a ha hrealm hpa
        ⟨k, hk, stringToKey_ok (hkeys k hk).1, hmem⟩ k.etype k.key hp ⟨k, hk, rfl⟩
        (fun k' hk' he => by
          have h1 := hgen k' hk' he
          rw [hgen k hk rfl] at h1
          injection h1 with h1
          exact h1.symm) hans href (by omega)
      rw [h2] at h
      cases h
  · intro hc
    obtain ⟨r, rep, part, k', -, h, -⟩ := c73_password M g hg K clock net e1 e2 he1 he2 username pw o a ha hrealm (fun k hk => (hkeys k hk).1)
      ⟨k, hk, hmem⟩ (fun _ => ⟨hu, hl, hd, k, hk, hf, (hkeys k hk).2⟩) hc hans
    exact ⟨_, h⟩

/-- on some network, with the KDC's clock an hour ahead or not, the hypotheses of both hold for a user with an RC4 key -/
example (now : Int) : ∃ net : Net,
    AnsweredBy exKdc (fun _ => now) net (tgtRequest stdPrims asciiCase strictCfg net kdcEnv kdcEnv "mickey".toList (some (.secret "pw".toList)) kdcOptions).2 ∧
    RefusedBy exKdc (fun _ => now) net (tgtRequest stdPrims asciiCase strictCfg net kdcEnv kdcEnv "mickey".toList (some (.secret "pw".toList)) kdcOptions).2 ∧
    (∀ k ∈ exAccount.keys, StringToKey k.etype "pw".toList k.salt k.key ∧ (k.etype ≠ 23 → k.salt = exKdc.realm ++ "mickey".toList)) ∧
    exAccount.needsPreauth = true ∧ asciiCase.upper exKdc.realm = exKdc.realm ∧ asciiCase.lower "mickey".toList = "mickey".toList ∧
    "mickey".toList.getLast? ≠ some '$' ∧
    (∃ k ∈ exAccount.keys, [18, 17, 23].find? (fun t => decide (t ∈ kdcOptions.etypes)) = some k.etype) := by
  have hk1 : ∀ k ∈ exAccount.keys, StringToKey k.etype "pw".toList k.salt k.key := fun k hk => by rw [List.mem_singleton.1 hk]; exact kdcPassword
  obtain ⟨net, h⟩ := c113_kdc_exists exKdc (fun n a ha => by
    have ha : (if n = ⟨1, ["mickey".toList]⟩ then some exAccount else none) = some a := ha
    split at ha
    · injection ha with ha
      subst ha
      exact ⟨fun k hk => ⟨stringToKey_ok (hk1 k hk), by rw [List.mem_singleton.1 hk]; decide⟩, by decide +kernel⟩
    · cases ha) (by decide) (fun _ => now)
  have hm := c111_dialogue stdPrims stdPrims_lawful asciiCase strictCfg net kdcEnv kdcEnv kdcEnv_plain.ok kdcEnv_plain.ok kdcEnv_fourDigits kdcEnv_fourDigits
    "mickey".toList (some (.secret "pw".toList)) (by rintro k' h; injection h with h; subst h; trivial) kdcOptions (by decide)
  obtain ⟨h1, h2⟩ := h _ (fun m hm' => by have := (hm m hm').2.1; omega)
  refine ⟨net, h1, h2, fun k hk => ⟨hk1 k hk, fun h => ?_⟩, rfl, by decide, by decide, by decide, ⟨_, List.mem_singleton.2 rfl, by decide⟩⟩
  rw [List.mem_singleton.1 hk] at h
  exact absurd rfl h

end Verif.Kb
