import Verif.Props.Service
/-
C127: a ticket for a service from the ticket granting ticket.
-/
set_option linter.unusedSimpArgs false
namespace Verif.Kb
open Verif.Asn1 Verif.Map Verif.Crypto Verif.Kdc

/-! ### The program -/

/-- the checksum of a message with a session key: `checksum_sha_aes` and `checksum_hmac_md5` (kerberos_crypto/src/checksum.rs:3-33) with
the types of kerberos_constants/src/checksum_types.rs:5-8 -/
def messageChecksum (P : Prims) (key : EncryptionKey) (usage : Int32) (msg : Bytes) : Except KErr Checksum :=
  match newKerberosCipher key.keytype with
  | .error e => .error (.crypto e)
  | .ok (.aes .aes128) => match checksumShaAes P .aes128 key.keyvalue usage msg with
    | .error e => .error (.crypto e)
    | .ok ck => .ok ⟨15, ck⟩
  | .ok (.aes .aes256) => match checksumShaAes P .aes256 key.keyvalue usage msg with
    | .error e => .error (.crypto e)
    | .ok ck => .ok ⟨16, ck⟩
  | .ok .rc4 => .ok ⟨-138, checksumHmacMd5 P key.keyvalue usage msg⟩

/-- a program that asks for a service ticket with the ticket granting ticket `c`, written with the public functions: `KdcReqBody::build`,
the checksum (usage 6), `Authenticator`, `ApReq` (`apRequest`, usage 7), PA-TGS-REQ, `TgsReq::build`
(kerberos_asn1/src/kdc_req_body.rs:33-59, tgs_req.rs:19-30, kerberos_constants/src/key_usages.rs) -/
def tgsRequest (P : Prims) (g : Cfg) (conf : Bytes) (c : Credential) (ctime : DateTime) (cusec : Int32) (body : KdcReqBody)
    (subkey : Option EncryptionKey) : Except KErr Bytes :=
  match messageChecksum P c.client_part.key 6 (MsgType.build g .kdcReqBody body) with
  | .error e => .error e
  | .ok ck => match apRequest P g 7 conf c 0 ⟨5, c.crealm, c.cname, some ck, cusec, ctime, subkey, none, none⟩ with
    | .error e => .error e
    | .ok ap => .ok (MsgType.build g .tgsReq ⟨5, 12, some [⟨1, ap⟩], body⟩)

/-- the program reads the answer with this key and usage and makes a credential: `TgsRep::parse`, `KerberosCipher::decrypt`, `EncTgsRepPart::parse`,
`EncAsRepPart::from`, `Credential::new` (kerberos_asn1/src/tgs_rep.rs:22-39, enc_tgs_rep_part.rs:29-58, enc_as_rep_part.rs,
kerbeiros/src/credentials/credential.rs:31-43) -/
def readTgsReply (P : Prims) (g : Cfg) (key : EncryptionKey) (usage : Int32) (answer : Bytes) : Except KErr Credential :=
  match liftP (MsgType.parse g .tgsRep answer) with
  | .error e => .error e
  | .ok rep => match newKerberosCipher rep.enc_part.etype with
    | .error e => .error (.crypto e)
    | .ok k => match k.decrypt P key.keyvalue usage rep.enc_part.cipher with
      | .error e => .error (.crypto e)
      | .ok plain => match liftP (MsgType.parse g .encTgsRepPart plain) with
        | .error e => .error e
        | .ok ep => .ok ⟨rep.crealm, rep.cname, rep.ticket, EncAsRepPart.ofTgs ep⟩

/-! ### The request -/

theorem messageChecksum_ok {key : EncryptionKey} (hk : (⟨key.keytype, [], key.keyvalue⟩ : LongTermKey).Ok) (u : Int32) (msg : Bytes) :
    ∃ ck, messageChecksum stdPrims key u msg = .ok ck ∧ Checks key u msg ck := by
  obtain ⟨h1, h2⟩ := c68_checksums stdPrims stdPrims_lawful key.keyvalue u msg
  rcases hk with ⟨ht, hl⟩ | ⟨ht, hl⟩ | ⟨ht, hl⟩
  · have ht : key.keytype = 17 := ht
    have h3 : newKerberosCipher key.keytype = .ok (.aes .aes128) := by rw [ht]; decide
    refine ⟨⟨15, _⟩, ?_, .inl ⟨ht, hl, rfl, rfl⟩⟩
    unfold messageChecksum
    rw [h3]
    simp only [h1 .aes128 hl]
    rfl
  · have ht : key.keytype = 18 := ht
    have h3 : newKerberosCipher key.keytype = .ok (.aes .aes256) := by rw [ht]; decide
    refine ⟨⟨16, _⟩, ?_, .inr (.inl ⟨ht, hl, rfl, rfl⟩)⟩
    unfold messageChecksum
    rw [h3]
    simp only [h1 .aes256 hl]
    rfl
  · have ht : key.keytype = 23 := ht
    have h3 : newKerberosCipher key.keytype = .ok .rc4 := by rw [ht]; decide
    refine ⟨⟨-138, _⟩, ?_, .inr (.inr ⟨ht, hl, rfl, rfl⟩)⟩
    unfold messageChecksum
    rw [h3]
    simp only [h2]
    rfl

/-- C127. With a ticket granting ticket and what came with it, a program makes a request that the ticket granting service accepts: with
the body as it was given, authenticated by the client of the ticket, and the checksum right. Clocks must agree to five minutes,
the ticket be valid, the numbers of the body (the nonce) below 2^31. -/
theorem c127_request (g : Cfg) (T : Service) (c : Credential) (part : EncTicketPart) (h : Promised T c part) (body : KdcReqBody)
    (hb : KdcReqBody.Plain body) (ctime : DateTime) (cusec : Int32) (hy : YearOk ctime) (conf : Bytes) (k : Cipher)
    (hk : newKerberosCipher c.client_part.key.keytype = .ok k) (hconf : conf.length = k.preambleSize) (now : Int)
    (hnow : ctime.secs - now ≤ 300 ∧ now - ctime.secs ≤ 300)
    (hvalid : (part.starttime.getD part.authtime).secs - now ≤ 300 ∧ now - part.endtime.secs ≤ 300) (subkey : Option EncryptionKey) :
    ∃ request r auth, tgsRequest stdPrims g conf c ctime cusec body subkey = .ok request ∧ r.req_body = body ∧
      auth.ctime = ⟨ctime.secs, 0⟩ ∧ auth.cusec = cusec ∧ auth.subkey = subkey ∧ AsksTgs T now request r part auth := by
  obtain ⟨ck, h1, h2⟩ := messageChecksum_ok h.keyOk 6 (MsgType.build g .kdcReqBody body)
  have hm : MadeFrom c ⟨5, c.crealm, c.cname, some ck, cusec, ctime, subkey, none, none⟩ := ⟨rfl, ⟨rfl, rfl⟩, hy, nofun⟩
  obtain ⟨apb, ap, h3, -, -, h4⟩ := accepted (u := 7) (by decide) g T c part h _ hm 0 conf k hk hconf now hnow hvalid
  refine ⟨MsgType.build g .tgsReq ⟨5, 12, some [⟨1, apb⟩], body⟩, ⟨5, 12, some [⟨1, apb⟩], body⟩, _, ?_, rfl, rfl, rfl, rfl,
    ⟨c59_wire_format g .tgsReq _ hb, ⟨rfl, rfl⟩, ⟨_, List.mem_singleton.2 rfl, rfl, ap, h4⟩, ck, rfl, ?_⟩⟩
  · unfold tgsRequest
    rw [h.key, h1]
    simp only [h3]
  · have := c59_wire_format g .kdcReqBody body hb
    rw [this] at h2
    exact h2

/-- C127. The ticket granting service cannot have been given another body with the same authenticator, unless the two bodies have the
same checksum. -/
theorem c127_body (T : Service) (now now' : Int) (request request' : Bytes) (r r' : TgsReq) (part : EncTicketPart) (auth : Authenticator)
    (h : AsksTgs T now request r part auth) (h' : AsksTgs T now' request' r' part auth) :
    ∃ ck, Checks part.key 6 (KdcReqBody.der rfc r.req_body).bytes ck ∧ Checks part.key 6 (KdcReqBody.der rfc r'.req_body).bytes ck := by
  obtain ⟨ck, h1, h2⟩ := h.checksum
  obtain ⟨ck', h3, h4⟩ := h'.checksum
  rw [h1] at h3
  injection h3 with h3
  subst h3
  exact ⟨ck, h2, h4⟩

/-! ### The answer -/

theorem tgsPart_plain {ep : EncTgsRepPart} (h : EncTgsRepPart.WF ep) (hn : ep.nonce.toNat < 2^31) : EncTgsRepPart.Plain ep := by
  obtain ⟨a, b, c, d, e, f⟩ := h
  exact ⟨fun x hx => (a x hx).2, hn, fun t ht => (b t ht).2, c.2, fun t ht => (d t ht).2, e.2, fun t ht => (f t ht).2⟩

/-- ciphers other than RC4, any usage -/
theorem encrypts_iff_aes {et : Int32} (h23 : et ≠ 23) {c : Cipher} (hc : newKerberosCipher et = .ok c) {key : Bytes} (hk : key.length = keyLength c)
    (u : Int32) (plain ct : Bytes) :
    Encrypts et key u plain ct ↔ ∃ conf, conf.length = c.preambleSize ∧ c.encrypt stdPrims key u plain conf = .ok ct := by
  rcases (c35_factory et).2.1.1 ⟨c, hc⟩ with rfl | rfl | rfl
  · have : c = .aes .aes256 := by
      have : newKerberosCipher 18 = .ok (.aes .aes256) := by decide
      rw [this] at hc; injection hc with hc; exact hc.symm
    subst this
    have hk : key.length = 32 := hk
    constructor
    · rintro (⟨h, -⟩ | ⟨-, -, conf, h1, h2⟩ | ⟨h, -⟩)
      · cases h
      · exact ⟨conf, h1, (c69_aes_ciphertext .aes256 key hk u plain conf ct h1).2 h2⟩
      · cases h
    · rintro ⟨conf, h1, h2⟩
      exact .inr (.inl ⟨rfl, hk, conf, h1, (c69_aes_ciphertext .aes256 key hk u plain conf ct h1).1 h2⟩)
  · have : c = .aes .aes128 := by
      have : newKerberosCipher 17 = .ok (.aes .aes128) := by decide
      rw [this] at hc; injection hc with hc; exact hc.symm
    subst this
    have hk : key.length = 16 := hk
    constructor
    · rintro (⟨-, -, conf, h1, h2⟩ | ⟨h, -⟩ | ⟨h, -⟩)
      · exact ⟨conf, h1, (c69_aes_ciphertext .aes128 key hk u plain conf ct h1).2 h2⟩
      · cases h
      · cases h
    · rintro ⟨conf, h1, h2⟩
      exact .inl ⟨rfl, hk, conf, h1, (c69_aes_ciphertext .aes128 key hk u plain conf ct h1).1 h2⟩
  · exact absurd rfl h23

theorem reply_read (g : Cfg) (T S : Service) (c : Credential) (part : EncTicketPart) (h : Promised T c part) (r : TgsReq)
    (hn : r.req_body.nonce.toNat < 2^31) (tpart : EncTicketPart) (rep : TgsRep) (ep : EncTgsRepPart) (answer : Bytes)
    {key : EncryptionKey} {u : Int32} (hu : (u ≠ 9 ∧ u ≠ 23) ∨ key.keytype ≠ 23)
    (ha : IsTgsReplyWith key u S r part tpart rep ep answer) (hs : answer.length < 2^64) (hs' : (EncTgsRepPart.der rfc ep).bytes.length < 2^64) :
    ∃ c', readTgsReply stdPrims g key u answer = .ok c' ∧ Promised S c' tpart ∧ c'.crealm = c.crealm ∧ c'.cname = c.cname ∧
      c'.ticket = rep.ticket ∧ c'.client_part = EncAsRepPart.ofTgs ep ∧ c'.client_part.nonce = r.req_body.nonce := by
  have hb : answer = MsgType.build g .tgsRep rep := ha.octets.trans (c59_wire_format g .tgsRep rep ha.kvno).symm
  have hp : MsgType.parse g .tgsRep answer = .ok (rep, []) := by
    have := c39_roundtrip g .tgsRep rep trivial (hb ▸ hs) []
    rwa [List.append_nil, ← hb] at this
  have hpl := tgsPart_plain ha.wf (ha.nonce ▸ hn)
  have hb' := c59_wire_format g .encTgsRepPart ep hpl
  have hp' : MsgType.parse g .encTgsRepPart (EncTgsRepPart.der rfc ep).bytes = .ok (ep, []) := by
    have := c39_roundtrip g .encTgsRepPart ep ha.wf (hb' ▸ hs') []
    rw [List.append_nil, hb'] at this
    exact this
  obtain ⟨k, hk, hl, hko⟩ := encrypts_ok ha.cipher.2
  have hiff : ∀ plain ct, Encrypts key.keytype key.keyvalue u plain ct ↔
      ∃ conf, conf.length = k.preambleSize ∧ k.encrypt stdPrims key.keyvalue u plain conf = .ok ct := by
    rcases hu with hu | hu
    · exact encrypts_iff hk hl hu
    · exact encrypts_iff_aes hu hk hl u
  obtain ⟨conf, h5, h6⟩ := (hiff _ _).1 ha.cipher.2
  have hd := (c28_accepts_iff stdPrims stdPrims_lawful k key.keyvalue hko u _ _).2 ⟨conf, h5, h6⟩
  refine ⟨⟨rep.crealm, rep.cname, rep.ticket, EncAsRepPart.ofTgs ep⟩, ?_,
    ⟨ha.ticket, ha.kvno.1, ha.sessionKey.symm, ha.sessionKey ▸ ha.keyOk, ?_, ha.times⟩, ?_, ?_, rfl, rfl, ha.nonce⟩
  · unfold readTgsReply
    rw [hp]
    simp only [liftP, ha.cipher.1, hk, hd, hp']
  · exact ⟨ha.client.1.trans ha.client.2.2.1.symm, ha.client.2.1.trans ha.client.2.2.2.symm⟩
  · exact ha.client.1.trans h.client.1.symm
  · exact ha.client.2.1.trans h.client.2.symm

/-- C127. From the answer of a ticket granting service that follows RFC 4120 the program gets the ticket for the service with its session
key and the nonce of the request: a credential as good as the KDC promises, so that all of C126 holds of it. -/
theorem c127_reply (g : Cfg) (T S : Service) (c : Credential) (part : EncTicketPart) (h : Promised T c part) (r : TgsReq)
    (hn : r.req_body.nonce.toNat < 2^31) (tpart : EncTicketPart) (rep : TgsRep) (ep : EncTgsRepPart) (answer : Bytes)
    (ha : IsTgsReply S r part tpart rep ep answer) (hs : answer.length < 2^64) (hs' : (EncTgsRepPart.der rfc ep).bytes.length < 2^64) :
    ∃ c', readTgsReply stdPrims g c.client_part.key 8 answer = .ok c' ∧ Promised S c' tpart ∧ c'.crealm = c.crealm ∧ c'.cname = c.cname ∧
      c'.ticket = rep.ticket ∧ c'.client_part = EncAsRepPart.ofTgs ep ∧ c'.client_part.nonce = r.req_body.nonce := by
  rw [h.key]
  exact reply_read g T S c part h r hn tpart rep ep answer (.inl (by decide)) ha hs hs'

/-- C127. The same with an AES subkey of the program's choice, which the service then uses. -/
theorem c127_reply_subkey (g : Cfg) (T S : Service) (c : Credential) (part : EncTicketPart) (h : Promised T c part) (r : TgsReq)
    (hn : r.req_body.nonce.toNat < 2^31) (subkey : EncryptionKey) (haes : subkey.keytype ≠ 23) (tpart : EncTicketPart) (rep : TgsRep)
    (ep : EncTgsRepPart) (answer : Bytes)
    (ha : IsTgsReplySub subkey S r part tpart rep ep answer) (hs : answer.length < 2^64) (hs' : (EncTgsRepPart.der rfc ep).bytes.length < 2^64) :
    ∃ c', readTgsReply stdPrims g subkey 9 answer = .ok c' ∧ Promised S c' tpart ∧ c'.crealm = c.crealm ∧ c'.cname = c.cname ∧
      c'.ticket = rep.ticket ∧ c'.client_part = EncAsRepPart.ofTgs ep ∧ c'.client_part.nonce = r.req_body.nonce :=
  reply_read g T S c part h r hn tpart rep ep answer (.inr haes) ha hs hs'

/-- C127. With an RC4 subkey the program must know that RFC 4757 merges the usages 8 and 9, and ask for 8: see the violation below. -/
theorem c127_reply_rc4_subkey (g : Cfg) (T S : Service) (c : Credential) (part : EncTicketPart) (h : Promised T c part) (r : TgsReq)
    (hn : r.req_body.nonce.toNat < 2^31) (subkey : EncryptionKey) (hrc4 : subkey.keytype = 23) (tpart : EncTicketPart) (rep : TgsRep)
    (ep : EncTgsRepPart) (answer : Bytes)
    (ha : IsTgsReplySub subkey S r part tpart rep ep answer) (hs : answer.length < 2^64) (hs' : (EncTgsRepPart.der rfc ep).bytes.length < 2^64) :
    ∃ c', readTgsReply stdPrims g subkey 8 answer = .ok c' ∧ Promised S c' tpart ∧ c'.crealm = c.crealm ∧ c'.cname = c.cname ∧
      c'.ticket = rep.ticket ∧ c'.client_part = EncAsRepPart.ofTgs ep ∧ c'.client_part.nonce = r.req_body.nonce := by
  refine reply_read g T S c part h r hn tpart rep ep answer (u := 8) (.inl (by decide)) { ha with cipher := ⟨ha.cipher.1, ?_⟩ } hs hs'
  rcases ha.cipher.2 with ⟨h1, -⟩ | ⟨h1, -⟩ | h1
  · rw [hrc4] at h1; exact absurd h1 (by decide)
  · rw [hrc4] at h1; exact absurd h1 (by decide)
  · exact .inr (.inr h1)

/-- C127. With the credential from the answer the service accepts the program (C126): the whole way from the ticket granting ticket. -/
theorem c127_then_service (g : Cfg) (T S : Service) (c : Credential) (part : EncTicketPart) (h : Promised T c part) (r : TgsReq)
    (hn : r.req_body.nonce.toNat < 2^31) (tpart : EncTicketPart) (rep : TgsRep) (ep : EncTgsRepPart) (answer : Bytes)
    (ha : IsTgsReply S r part tpart rep ep answer) (hs : answer.length < 2^64) (hs' : (EncTgsRepPart.der rfc ep).bytes.length < 2^64)
    (ctime : DateTime) (cusec : Int32) (hy : YearOk ctime) (options : UInt32) (conf : Bytes) (k : Cipher)
    (hk : newKerberosCipher ep.key.keytype = .ok k) (hconf : conf.length = k.preambleSize) (now : Int)
    (hnow : ctime.secs - now ≤ 300 ∧ now - ctime.secs ≤ 300)
    (hvalid : (ep.starttime.getD ep.authtime).secs - now ≤ 300 ∧ now - ep.endtime.secs ≤ 300) :
    ∃ c' request ap auth, readTgsReply stdPrims g c.client_part.key 8 answer = .ok c' ∧
      apRequest stdPrims g 11 conf c' options ⟨5, c.crealm, c.cname, none, cusec, ctime, none, none, none⟩ = .ok request ∧
      auth.crealm = c.crealm ∧ auth.cname = c.cname ∧ Accepts S 11 now request ap tpart auth := by
  obtain ⟨c', h1, h2, h3, h4, h5, h6, -⟩ := c127_reply g T S c part h r hn tpart rep ep answer ha hs hs'
  have hkey : c'.client_part.key = ep.key := by rw [h6]; rfl
  obtain ⟨request, ap, h7, -, -, h8⟩ := accepted (u := 11) (by decide) g S c' tpart h2 ⟨5, c.crealm, c.cname, none, cusec, ctime, none, none, none⟩
    ⟨rfl, ⟨h3.symm, h4.symm⟩, hy, nofun⟩ options conf k (hkey ▸ hk) hconf now hnow
    (by rw [← ha.times.1, ← ha.times.2.1, ← ha.times.2.2]; exact hvalid)
  exact ⟨c', request, ap, _, h1, h7, rfl, rfl, h8⟩

/-- octets of a request with a negative number for the nonce are those of no request of the RFC -/
theorem tgsReq_negative_nonce {w : WireForm} {r : TgsReq} (hn : -2^31 ≤ w.u32 r.req_body.nonce ∧ w.u32 r.req_body.nonce < 0)
    (hs : (TgsReq.der w r).bytes.length < 2^64) (s : TgsReq) : (TgsReq.der w r).bytes ≠ (TgsReq.der rfc s).bytes := by
  intro h
  have t (w : WireForm) (r : TgsReq) : (TgsReq.der w r).Tagged :=
    ⟨by decide, asReq_tagged w ⟨r.pvno, r.msg_type, r.padata, r.req_body⟩ |>.2⟩
  have h := Der.bytes_eq (t w r) (t rfc s) hs h
  have e : AsReq.der w ⟨r.pvno, r.msg_type, r.padata, r.req_body⟩ = AsReq.der rfc ⟨s.pvno, s.msg_type, s.padata, s.req_body⟩ := by
    unfold TgsReq.der at h
    unfold AsReq.der
    injection h with _ h
    rw [h]
  have h5 := body_nonce rfc s.req_body _ (asReq_body w rfc _ _ e).2.2.2.symm
  rw [body_nonce w r.req_body _ rfl] at h5
  have h6 := node1_inj h5
  injection h6 with _ h6
  have h7 := twosVal_derInt (w.u32 r.req_body.nonce) hn.1 (by omega)
  have h8 := twosVal_derInt (rfc.u32 s.req_body.nonce) (by show _ ≤ (s.req_body.nonce.toNat : Int); omega)
    (by show (s.req_body.nonce.toNat : Int) < _; have := s.req_body.nonce.toNat_lt; omega)
  rw [h6, h8] at h7
  have : (s.req_body.nonce.toNat : Int) = w.u32 r.req_body.nonce := h7
  omega

/-- C127 (violation). With a nonce of 2^31 or more, half of those RFC 4120 allows, the request is no request of the RFC: no ticket
granting service that follows it accepts the message, whatever else is in it. -/
theorem c127_nonce_negative (g : Cfg) (T : Service) (c : Credential) (body : KdcReqBody) (hn : 2^31 ≤ body.nonce.toNat) (ctime : DateTime)
    (cusec : Int32) (subkey : Option EncryptionKey) (conf request : Bytes)
    (hr : tgsRequest stdPrims g conf c ctime cusec body subkey = .ok request) (hs : request.length < 2^64)
    (now : Int) (r : TgsReq) (part : EncTicketPart) (auth : Authenticator) : ¬ AsksTgs T now request r part auth := by
  intro ha
  unfold tgsRequest at hr
  split at hr
  · cases hr
  · split at hr
    · cases hr
    · rename_i ck _ apb _
      injection hr with hr
      obtain ⟨w, hw, h1, -⟩ := c59_wire_format_all g .tgsReq ⟨5, 12, some [⟨1, apb⟩], body⟩
      have hw : MsgType.build g .tgsReq ⟨5, 12, some [⟨1, apb⟩], body⟩ = (TgsReq.der w ⟨5, 12, some [⟨1, apb⟩], body⟩).bytes := hw
      have h2 := h1 body.nonce
      rw [if_neg (by omega)] at h2
      have h3 := body.nonce.toNat_lt
      have hq := ha.octets
      rw [← hr, hw] at hs hq
      exact tgsReq_negative_nonce (by show _ ∧ w.u32 body.nonce < 0; rw [h2]; omega) hs r hq

/-! ### The hypotheses can be met -/

/-- C127. A ticket granting service can always answer: for every service whose key fits its encryption type and every ticket it grants. -/
theorem c127_answer_exists (S : Service) (hS : (⟨S.etype, [], S.key⟩ : LongTermKey).Ok) (r : TgsReq) (part : EncTicketPart)
    (hp : (⟨part.key.keytype, [], part.key.keyvalue⟩ : LongTermKey).Ok) (tpart : EncTicketPart) (hw : EncTicketPart.WF tpart)
    (hk : (⟨tpart.key.keytype, [], tpart.key.keyvalue⟩ : LongTermKey).Ok) (hc : tpart.crealm = part.crealm ∧ tpart.cname = part.cname) :
    ∃ rep ep answer, IsTgsReply S r part tpart rep ep answer := by
  obtain ⟨ct, hct⟩ := encrypts_exists hS (u := 2) (by decide) (EncTicketPart.der rfc tpart).bytes
  let ep : EncTgsRepPart := ⟨tpart.key, [], r.req_body.nonce, none, tpart.flags, tpart.authtime, tpart.starttime, tpart.endtime, tpart.renew_till,
    S.realm, ⟨2, S.name⟩, none, none⟩
  obtain ⟨ct', hct'⟩ := encrypts_exists hp (u := 8) (by decide) (EncTgsRepPart.der rfc ep).bytes
  refine ⟨⟨5, 13, none, part.crealm, part.cname, ⟨5, S.realm, ⟨2, S.name⟩, ⟨S.etype, none, ct⟩⟩, ⟨part.key.keytype, none, ct'⟩⟩, ep, _,
    ⟨rfl, ⟨rfl, rfl⟩, ⟨rfl, rfl, hc.1, hc.2⟩, ⟨rfl, ⟨rfl, rfl⟩, rfl, hct, hw⟩, rfl, hk, ⟨rfl, rfl, rfl⟩, ⟨rfl, rfl⟩, rfl, ?_,
     ⟨(fun _ h => nomatch h), (fun _ h => nomatch h)⟩, rfl, hct'⟩⟩
  exact ⟨(fun _ h => nomatch h), (fun _ h => nomatch h), hw.1, hw.2.1, hw.2.2.1, hw.2.2.2⟩

/-! a ticket granting service, a ticket granting ticket for it and the request for the http server of C126 -/

def exTgs : Service := ⟨"KINGDOM.HEARTS".toList, ["krbtgt".toList, "KINGDOM.HEARTS".toList], 18, List.replicate 32 7⟩

def exBody : KdcReqBody :=
  { kdc_options := 0x40800000, cname := none, realm := "KINGDOM.HEARTS".toList, sname := some ⟨2, exService.name⟩, «from» := none,
    till := ⟨1700600000, 0⟩, rtime := none, nonce := 12345678, etypes := [18, 17, 23], addresses := none, enc_authorization_data := none,
    additional_tickets := none }

example : KdcReqBody.Plain exBody ∧ exBody.nonce.toNat < 2^31 ∧ YearOk ⟨1700000100, 5⟩ ∧
    ∃ c, Promised exTgs c exTicketPart ∧ newKerberosCipher c.client_part.key.keytype = .ok .rc4 ∧
    ∃ rep ep answer, IsTgsReply exService ⟨5, 12, none, exBody⟩ exTicketPart { exTicketPart with key := ⟨17, List.replicate 16 8⟩ } rep ep answer := by
  have hw : EncTicketPart.WF exTicketPart :=
    ⟨by decide +kernel, (fun _ h => nomatch h), by decide +kernel, fun t h => by injection h with h; subst h; decide +kernel⟩
  obtain ⟨t, ht⟩ := c126_ticket_exists exTgs (.inr (.inl ⟨rfl, rfl⟩)) exTicketPart hw (.inr (.inr ⟨rfl, rfl⟩)) exPart
  refine ⟨?_, by decide, ⟨by decide +kernel, by decide +kernel⟩, _, ht, ?_, ?_⟩
  · exact ⟨(fun _ h => nomatch h), ⟨by decide +kernel, by decide +kernel⟩, (fun _ h => nomatch h), by show _ < _; decide, (fun _ h => nomatch h), (fun _ h => nomatch h)⟩
  · show newKerberosCipher 23 = _
    decide
  · exact c127_answer_exists exService (.inr (.inl ⟨rfl, rfl⟩)) _ exTicketPart (.inr (.inr ⟨rfl, rfl⟩)) _ hw (.inl ⟨rfl, rfl⟩) ⟨rfl, rfl⟩

end Verif.Kb
