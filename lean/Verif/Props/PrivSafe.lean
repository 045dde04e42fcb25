import Verif.Props.Tgs
/-
C129: messages under a session key, KRB-PRIV and KRB-SAFE.
-/
set_option linter.unusedSimpArgs false
namespace Verif.Kb
open Verif.Asn1 Verif.Map Verif.Crypto Verif.Kdc

/-! ### The program -/

/-- a program sends a private message: `EncKrbPrivPart::build`, `KerberosCipher::encrypt`, `KrbPriv::build`
(kerberos_asn1/src/enc_krb_priv_part.rs:16-31, krb_priv.rs:15-24, kerberos_constants/src/key_usages.rs:56) -/
def privMessage (P : Prims) (g : Cfg) (conf : Bytes) (key : EncryptionKey) (part : EncKrbPrivPart) : Except KErr Bytes :=
  match newKerberosCipher key.keytype with
  | .error e => .error (.crypto e)
  | .ok k => match k.encrypt P key.keyvalue 13 (MsgType.build g .encKrbPrivPart part) conf with
    | .error e => .error (.crypto e)
    | .ok ct => .ok (MsgType.build g .krbPriv ⟨5, 21, ⟨key.keytype, none, ct⟩⟩)

/-- a program reads one: `KrbPriv::parse`, `KerberosCipher::decrypt`, `EncKrbPrivPart::parse` -/
def readPriv (P : Prims) (g : Cfg) (key : EncryptionKey) (message : Bytes) : Except KErr EncKrbPrivPart :=
  match liftP (MsgType.parse g .krbPriv message) with
  | .error e => .error e
  | .ok m => match newKerberosCipher m.enc_part.etype with
    | .error e => .error (.crypto e)
    | .ok k => match k.decrypt P key.keyvalue 13 m.enc_part.cipher with
      | .error e => .error (.crypto e)
      | .ok plain => liftP (MsgType.parse g .encKrbPrivPart plain)

/-- a program sends a safe message: `KrbSafeBody::build`, the checksum functions, `KrbSafe::build`
(kerberos_asn1/src/krb_safe_body.rs:17-31, krb_safe.rs:15-26, kerberos_crypto/src/checksum.rs:3-33, key_usages.rs:64) -/
def safeMessage (P : Prims) (g : Cfg) (key : EncryptionKey) (body : KrbSafeBody) : Except KErr Bytes :=
  match messageChecksum P key 15 (MsgType.build g .krbSafeBody body) with
  | .error e => .error e
  | .ok ck => .ok (MsgType.build g .krbSafe ⟨5, 20, body, ck⟩)

/-- a program reads one: `KrbSafe::parse`, and compares the checksum; `none` if it differs -/
def readSafe (P : Prims) (g : Cfg) (key : EncryptionKey) (message : Bytes) : Except KErr (Option KrbSafeBody) :=
  match liftP (MsgType.parse g .krbSafe message) with
  | .error e => .error e
  | .ok m => match messageChecksum P key 15 (MsgType.build g .krbSafeBody m.safe_body) with
    | .error e => .error e
    | .ok ck => .ok (if ck = m.cksum then some m.safe_body else none)

/-! ### Private messages -/

/-- C129. A program that encrypts with a session key sends a private message of RFC 4120 with the content it was given. -/
theorem c129_priv_sent (g : Cfg) (key : EncryptionKey) (hk : (⟨key.keytype, [], key.keyvalue⟩ : LongTermKey).Ok) (part : EncKrbPrivPart)
    (hp : EncKrbPrivPart.Plain part) (conf : Bytes) (k : Cipher) (hc : newKerberosCipher key.keytype = .ok k)
    (hconf : conf.length = k.preambleSize) : ∃ message, privMessage stdPrims g conf key part = .ok message ∧ IsPriv key part message := by
  obtain ⟨k', hk', hl, hko⟩ := ok_cipher hk
  dsimp only at hk' hl hko
  rw [hc] at hk'
  injection hk' with hk'
  subst hk'
  obtain ⟨ct, h1, -⟩ := c26_cipher_roundtrip stdPrims stdPrims_lawful k key.keyvalue hko 13 (MsgType.build g .encKrbPrivPart part) conf hconf
  have hpl : KrbPriv.Plain ⟨5, 21, ⟨key.keytype, none, ct⟩⟩ := fun _ h => nomatch h
  have h2 := (encrypts_iff hc hl (u := 13) (by decide) _ _).2 ⟨conf, hconf, h1⟩
  rw [c59_wire_format g .encKrbPrivPart part hp] at h2
  refine ⟨MsgType.build g .krbPriv ⟨5, 21, ⟨key.keytype, none, ct⟩⟩, ?_, ⟨5, 21, ⟨key.keytype, none, ct⟩⟩, c59_wire_format g .krbPriv _ hpl, hpl, rfl, rfl, rfl, h2⟩
  unfold privMessage
  rw [hc]
  simp only [h1]

/-- C129. A program reads from every private message of RFC 4120 its content. -/
theorem c129_priv_read (g : Cfg) (key : EncryptionKey) (part : EncKrbPrivPart) (hw : EncKrbPrivPart.WF part) (hp : EncKrbPrivPart.Plain part)
    (message : Bytes) (h : IsPriv key part message) (hs : message.length < 2^64) (hs' : (EncKrbPrivPart.der rfc part).bytes.length < 2^64) :
    readPriv stdPrims g key message = .ok part := by
  obtain ⟨m, h1, h2, -, -, h3, h4⟩ := h
  obtain ⟨k, hk, hl, hko⟩ := encrypts_ok h4
  obtain ⟨conf, h5, h6⟩ := (encrypts_iff hk hl (by decide) _ _).1 h4
  have hd := (c28_accepts_iff stdPrims stdPrims_lawful k key.keyvalue hko 13 _ _).2 ⟨conf, h5, h6⟩
  have hb : message = MsgType.build g .krbPriv m := h1.trans (c59_wire_format g .krbPriv m h2).symm
  have hm : MsgType.parse g .krbPriv message = .ok (m, []) := by
    have := c39_roundtrip g .krbPriv m trivial (hb ▸ hs) []
    rwa [List.append_nil, ← hb] at this
  have hb' := c59_wire_format g .encKrbPrivPart part hp
  have hm' : MsgType.parse g .encKrbPrivPart (EncKrbPrivPart.der rfc part).bytes = .ok (part, []) := by
    have := c39_roundtrip g .encKrbPrivPart part hw (hb' ▸ hs') []
    rw [List.append_nil, hb'] at this
    exact this
  unfold readPriv
  rw [hm]
  simp only [liftP, h3, hk, hd, hm']

/-! ### Safe messages -/

/-- C129. A program that computes the checksum with a session key sends a safe message of RFC 4120 with the content it was given. -/
theorem c129_safe_sent (g : Cfg) (key : EncryptionKey) (hk : (⟨key.keytype, [], key.keyvalue⟩ : LongTermKey).Ok) (body : KrbSafeBody)
    (hp : KrbSafeBody.Plain body) : ∃ message, safeMessage stdPrims g key body = .ok message ∧ IsSafe key body message := by
  obtain ⟨ck, h1, h2⟩ := messageChecksum_ok hk 15 (MsgType.build g .krbSafeBody body)
  rw [c59_wire_format g .krbSafeBody body hp] at h2
  refine ⟨MsgType.build g .krbSafe ⟨5, 20, body, ck⟩, ?_, ⟨5, 20, body, ck⟩, c59_wire_format g .krbSafe _ hp, rfl, rfl, rfl, h2⟩
  unfold safeMessage
  rw [h1]

theorem checks_unique {key : EncryptionKey} {u : Int32} {msg : Bytes} {ck ck' : Checksum} (h : Checks key u msg ck) (h' : Checks key u msg ck') :
    ck = ck' := by
  cases ck with | mk a b => cases ck' with | mk c d =>
  rcases h with ⟨h1, -, h2, h3⟩ | ⟨h1, -, h2, h3⟩ | ⟨h1, -, h2, h3⟩ <;> rcases h' with ⟨g1, -, g2, g3⟩ | ⟨g1, -, g2, g3⟩ | ⟨g1, -, g2, g3⟩
  all_goals first
    | (rw [h1] at g1; exact absurd g1 (by decide))
    | (dsimp only at h2 h3 g2 g3; rw [h2, h3, g2, g3])

theorem checks_key {key : EncryptionKey} {u : Int32} {msg : Bytes} {ck : Checksum} (h : Checks key u msg ck) :
    (⟨key.keytype, [], key.keyvalue⟩ : LongTermKey).Ok := by
  rcases h with ⟨h1, h2, -⟩ | ⟨h1, h2, -⟩ | ⟨h1, h2, -⟩
  · exact .inl ⟨h1, h2⟩
  · exact .inr (.inl ⟨h1, h2⟩)
  · exact .inr (.inr ⟨h1, h2⟩)

/-- C129. A program takes every safe message of RFC 4120 and reads its content. -/
theorem c129_safe_read (g : Cfg) (key : EncryptionKey) (body : KrbSafeBody) (hw : KrbSafeBody.WF body) (hp : KrbSafeBody.Plain body)
    (message : Bytes) (h : IsSafe key body message) (hs : message.length < 2^64) : readSafe stdPrims g key message = .ok (some body) := by
  obtain ⟨m, h1, -, -, rfl, h2⟩ := h
  have hb : message = MsgType.build g .krbSafe m := h1.trans (c59_wire_format g .krbSafe m hp).symm
  have hm : MsgType.parse g .krbSafe message = .ok (m, []) := by
    have := c39_roundtrip g .krbSafe m hw (hb ▸ hs) []
    rwa [List.append_nil, ← hb] at this
  obtain ⟨ck, h3, h4⟩ := messageChecksum_ok (checks_key h2) 15 (MsgType.build g .krbSafeBody m.safe_body)
  rw [c59_wire_format g .krbSafeBody _ hp] at h4
  have e := checks_unique h4 h2
  unfold readSafe
  rw [hm]
  simp only [liftP, h3, e, if_true]

/-- C129. And it takes nothing whose checksum is not the one of RFC 3961 for the content that it reads (numbers below 2^31). -/
theorem c129_safe_only (g : Cfg) (key : EncryptionKey) (hk : (⟨key.keytype, [], key.keyvalue⟩ : LongTermKey).Ok) (message : Bytes)
    (body : KrbSafeBody) (hp : KrbSafeBody.Plain body) (h : readSafe stdPrims g key message = .ok (some body)) :
    ∃ m rest, MsgType.parse g .krbSafe message = .ok (m, rest) ∧ m.safe_body = body ∧
      Checks key 15 (KrbSafeBody.der rfc body).bytes m.cksum := by
  cases hm : MsgType.parse g .krbSafe message with
  | error e => unfold readSafe at h; rw [hm] at h; cases e <;> simp [liftP] at h
  | ok x =>
    obtain ⟨m, rest⟩ := x
    obtain ⟨ck, h3, h4⟩ := messageChecksum_ok hk 15 (MsgType.build g .krbSafeBody m.safe_body)
    unfold readSafe at h
    rw [hm] at h
    simp only [liftP, h3] at h
    split at h
    · rename_i e
      injection h with h
      injection h with h
      subst h
      rw [c59_wire_format g .krbSafeBody _ hp] at h4
      exact ⟨m, rest, rfl, rfl, e ▸ h4⟩
    · injection h with h
      cases h

/-! ### The violation -/

theorem privPart_tagged (w : WireForm) (v : EncKrbPrivPart) : (EncKrbPrivPart.der w v).Tagged := by
  refine ⟨by decide, ⟨⟨by decide, ?_⟩, trivial⟩⟩
  simp only [listTagged_append]
  exact ⟨req_tagged (by decide) (dOctets_tagged _), opt_tagged (by decide) (dTime_tagged _), opt_tagged (by decide) dInt32_tagged,
    opt_tagged (by decide) (dUInt32_tagged _), req_tagged (by decide) (hostAddress_tagged _), opt_tagged (by decide) hostAddress_tagged⟩

/-- C129 (violation). A private message with a sequence number of 2^31 or more, half of those RFC 4120 allows, is no private message of
the RFC, whatever the content. -/
theorem c129_sequence_negative (g : Cfg) (key : EncryptionKey) (hk : (⟨key.keytype, [], key.keyvalue⟩ : LongTermKey).Ok) (part : EncKrbPrivPart)
    (n : UInt32) (hn : part.seq_number = some n) (hb : 2^31 ≤ n.toNat) (conf : Bytes) (k : Cipher) (hc : newKerberosCipher key.keytype = .ok k)
    (hconf : conf.length = k.preambleSize) (message : Bytes) (h : privMessage stdPrims g conf key part = .ok message)
    (hs : message.length < 2^64) (hs' : (MsgType.build g .encKrbPrivPart part).length < 2^64) (part' : EncKrbPrivPart) : ¬ IsPriv key part' message := by
  rintro ⟨m, h1, h2, -, -, -, h3⟩
  obtain ⟨k', hk', hl, hko⟩ := ok_cipher hk
  dsimp only at hk' hl hko
  rw [hc] at hk'
  injection hk' with hk'
  subst hk'
  obtain ⟨ct, g1, -⟩ := c26_cipher_roundtrip stdPrims stdPrims_lawful k key.keyvalue hko 13 (MsgType.build g .encKrbPrivPart part) conf hconf
  unfold privMessage at h
  rw [hc] at h
  simp only [g1] at h
  injection h with h
  have hpl : KrbPriv.Plain ⟨5, 21, ⟨key.keytype, none, ct⟩⟩ := fun _ h => nomatch h
  have e1 : (⟨5, 21, ⟨key.keytype, none, ct⟩⟩ : KrbPriv) = m := by
    have hb := h.symm.trans (c59_wire_format g .krbPriv _ hpl)
    exact built_eq (g := strictCfg) (T := .krbPriv) trivial trivial hpl h2 (hb ▸ hs) (hb.symm.trans h1)
  subst e1
  have e2 := encrypts_unique (by decide) ((encrypts_iff hc hl (by decide) _ _).2 ⟨conf, hconf, g1⟩) h3
  obtain ⟨w, hw, h4, -⟩ := c59_wire_format_all g .encKrbPrivPart part
  have hw : MsgType.build g .encKrbPrivPart part = (EncKrbPrivPart.der w part).bytes := hw
  rw [hw] at e2 hs'
  have h5 := h4 n
  rw [if_neg (by omega)] at h5
  have h6 := n.toNat_lt
  have e3 := Der.bytes_eq (privPart_tagged w part) (privPart_tagged rfc part') hs' e2
  unfold EncKrbPrivPart.der at e3
  injection e3 with _ e3
  injection e3 with e3
  injection e3 with _ e3
  have e4 := congrArg (comp 0xa3) e3
  rw [comp_req, if_neg (by decide), comp_opt_ne (by decide), comp_opt_ne (by decide), comp_opt_eq (by decide) (by
      rw [comp_req, if_neg (by decide), comp_opt_end_ne (by decide)]),
    comp_req, if_neg (by decide), comp_opt_ne (by decide), comp_opt_ne (by decide), comp_opt_eq (by decide) (by
      rw [comp_req, if_neg (by decide), comp_opt_end_ne (by decide)]), hn] at e4
  cases hv' : part'.seq_number with
  | none => rw [hv'] at e4; simp only [Option.map_none, Option.map_some, reduceCtorEq] at e4
  | some n' =>
    rw [hv'] at e4
    have e5 := node1_inj e4
    injection e5 with _ e5
    have h7 := twosVal_derInt (w.u32 n) (by omega) (by omega)
    have h8 := twosVal_derInt (rfc.u32 n') (by show _ ≤ (n'.toNat : Int); omega) (by show (n'.toNat : Int) < _; have := n'.toNat_lt; omega)
    rw [e5, h8] at h7
    have : (n'.toNat : Int) = w.u32 n := h7
    omega

/-! a message -/

def exPriv : EncKrbPrivPart := ⟨[104, 105], some ⟨1700000100, 0⟩, some 5, some 77, ⟨2, [10, 0, 0, 1]⟩, none⟩

example : EncKrbPrivPart.Plain exPriv ∧ EncKrbPrivPart.WF exPriv ∧ ∃ message, IsPriv ⟨23, List.replicate 16 4⟩ exPriv message := by
  have hp : EncKrbPrivPart.Plain exPriv :=
    ⟨fun t h => by injection h with h; subst h; exact ⟨by decide +kernel, by decide +kernel⟩, fun n h => by injection h with h; subst h; show _ < _; decide⟩
  refine ⟨hp, fun t h => by injection h with h; subst h; decide +kernel, ?_⟩
  obtain ⟨m, -, h⟩ := c129_priv_sent strictCfg ⟨23, List.replicate 16 4⟩ (.inr (.inr ⟨rfl, rfl⟩)) exPriv hp [1, 2, 3, 4, 5, 6, 7, 8] .rc4 (by decide) rfl
  exact ⟨m, h⟩

example : ∃ body : KrbSafeBody, KrbSafeBody.Plain body ∧ KrbSafeBody.WF body ∧ ∃ message, IsSafe ⟨17, List.replicate 16 4⟩ body message := by
  have hp : KrbSafeBody.Plain ⟨[104, 105], none, none, some 77, ⟨2, [10, 0, 0, 1]⟩, none⟩ :=
    ⟨(fun _ h => nomatch h), fun n h => by injection h with h; subst h; show _ < _; decide⟩
  obtain ⟨m, -, h⟩ := c129_safe_sent strictCfg ⟨17, List.replicate 16 4⟩ (.inl ⟨rfl, rfl⟩) _ hp
  exact ⟨_, hp, (fun _ h => nomatch h), m, h⟩

end Verif.Kb
