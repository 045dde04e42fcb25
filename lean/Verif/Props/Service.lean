import Verif.ApSpec
import Verif.Props.Skew
/-
C126: tickets and the services they are for.
-/
set_option linter.unusedSimpArgs false
namespace Verif.Kb
open Verif.Asn1 Verif.Map Verif.Crypto Verif.Kdc

/-! ### The client -/

/-- a program that uses a ticket, written with the public functions: `new_kerberos_cipher` (kerberos_crypto/src/ciphers/factory.rs:11-24),
`KerberosCipher::encrypt` with KEY_USAGE_AP_REQ_AUTHEN (kerberos_constants/src/key_usages.rs:47), `Authenticator` and `ApReq` built
(kerberos_asn1/src/authenticator.rs:25-46, ap_req.rs:18-43). `usage` is 11 there (7 for
the ticket granting service, C127), `conf` the random confounder of `encrypt`. -/
def apRequest (P : Prims) (g : Cfg) (usage : Int32) (conf : Bytes) (c : Credential) (options : UInt32) (auth : Authenticator) : Except KErr Bytes :=
  match newKerberosCipher c.client_part.key.keytype with
  | .error e => .error (.crypto e)
  | .ok k => match k.encrypt P c.client_part.key.keyvalue usage (MsgType.build g .authenticator auth) conf with
    | .error e => .error (.crypto e)
    | .ok ct => .ok (MsgType.build g .apReq ⟨5, 14, options, c.ticket, ⟨c.client_part.key.keytype, none, ct⟩⟩)

/-- the same program reads the answer: `ApRep::parse`, `KerberosCipher::decrypt` with KEY_USAGE_AP_REP_ENC_PART
(key_usages.rs:51), `EncApRepPart::parse` (kerberos_asn1/src/ap_rep.rs:14-23, enc_ap_rep_part.rs:15-26) -/
def readApReply (P : Prims) (g : Cfg) (c : Credential) (answer : Bytes) : Except KErr EncApRepPart :=
  match liftP (MsgType.parse g .apRep answer) with
  | .error e => .error e
  | .ok rep => match newKerberosCipher rep.enc_part.etype with
    | .error e => .error (.crypto e)
    | .ok k => match k.decrypt P c.client_part.key.keyvalue 12 rep.enc_part.cipher with
      | .error e => .error (.crypto e)
      | .ok plain => liftP (MsgType.parse g .encApRepPart plain)

/-! ### What the KDC promises of a credential -/

/-- the ticket of the credential is one for the service, with the session key, names and times that the client was told, and a
session key of a supported type and its size -/
structure Promised (S : Service) (c : Credential) (part : EncTicketPart) : Prop where
  ticket : TicketFor S c.ticket part
  kvno : Ticket.Plain c.ticket
  key : c.client_part.key = part.key
  keyOk : (⟨part.key.keytype, [], part.key.keyvalue⟩ : LongTermKey).Ok
  client : c.crealm = part.crealm ∧ c.cname = part.cname
  times : c.client_part.authtime = part.authtime ∧ c.client_part.starttime = part.starttime ∧ c.client_part.endtime = part.endtime

/-- an authenticator made from the credential: any clock, checksum, subkey, data, and a sequence number below 2^31 -/
structure MadeFrom (c : Credential) (auth : Authenticator) : Prop where
  version : auth.authenticator_vno = 5
  client : auth.crealm = c.crealm ∧ auth.cname = c.cname
  year : YearOk auth.ctime
  seq : ∀ n, auth.seq_number = some n → n.toNat < 2^31

/-- what is left of it on the wire: the fraction of the second is in `cusec` only -/
def wholeSecond (auth : Authenticator) : Authenticator := { auth with ctime := ⟨auth.ctime.secs, 0⟩ }

theorem authenticator_wire (g : Cfg) {c : Credential} {auth : Authenticator} (h : MadeFrom c auth) :
    MsgType.build g .authenticator auth = (Authenticator.der rfc (wholeSecond auth)).bytes := by
  rw [c59_wire_format g .authenticator auth ⟨h.year, h.seq⟩]
  rfl

theorem accepted {u : Int32} (hu : u ≠ 9 ∧ u ≠ 23) (g : Cfg) (S : Service) (c : Credential) (part : EncTicketPart) (h : Promised S c part) (auth : Authenticator)
    (ha : MadeFrom c auth) (options : UInt32) (conf : Bytes) (k : Cipher) (hk : newKerberosCipher c.client_part.key.keytype = .ok k)
    (hconf : conf.length = k.preambleSize) (now : Int) (hnow : auth.ctime.secs - now ≤ 300 ∧ now - auth.ctime.secs ≤ 300)
    (hvalid : (part.starttime.getD part.authtime).secs - now ≤ 300 ∧ now - part.endtime.secs ≤ 300) :
    ∃ request ap, apRequest stdPrims g u conf c options auth = .ok request ∧ ap.ticket = c.ticket ∧ ap.ap_options = options ∧
      Accepts S u now request ap part (wholeSecond auth) := by
  obtain ⟨k', hk', hl, hko⟩ := ok_cipher h.keyOk
  dsimp only at hk' hl hko
  have hke := h.key
  rw [hke, hk'] at hk
  injection hk with hk
  subst hk
  obtain ⟨ct, h1, -⟩ := c26_cipher_roundtrip stdPrims stdPrims_lawful k' part.key.keyvalue hko u
    (MsgType.build g .authenticator auth) conf hconf
  refine ⟨MsgType.build g .apReq ⟨5, 14, options, c.ticket, ⟨part.key.keytype, none, ct⟩⟩,
    ⟨5, 14, options, c.ticket, ⟨part.key.keytype, none, ct⟩⟩, ?_, rfl, rfl, ?_⟩
  · unfold apRequest
    rw [hke, hk']
    simp only [h1]
  · refine ⟨c59_wire_format g .apReq _ ⟨h.kvno, fun _ h0 => nomatch h0⟩, ⟨rfl, rfl⟩, h.ticket, ⟨rfl, ?_⟩, ha.version, ⟨rfl, ha.year⟩, ?_, hnow, hvalid⟩
    · rw [← authenticator_wire g ha]
      exact (encrypts_iff hk' hl hu _ _).2 ⟨conf, hconf, h1⟩
    · exact ⟨ha.client.1.trans h.client.1, congrArg _ (ha.client.2.trans h.client.2)⟩

/-- C126. With a ticket for a service, and the session key and names that came with it, a program makes a message that the service
accepts: it reads the client's name and session key that the KDC put into the ticket, and the authenticator as it was made,
to the second. The clocks must agree to five minutes and the ticket be valid. -/
theorem c126_accepted (g : Cfg) (S : Service) (c : Credential) (part : EncTicketPart) (h : Promised S c part) (auth : Authenticator)
    (ha : MadeFrom c auth) (options : UInt32) (conf : Bytes) (k : Cipher) (hk : newKerberosCipher c.client_part.key.keytype = .ok k)
    (hconf : conf.length = k.preambleSize) (now : Int) (hnow : auth.ctime.secs - now ≤ 300 ∧ now - auth.ctime.secs ≤ 300)
    (hvalid : (part.starttime.getD part.authtime).secs - now ≤ 300 ∧ now - part.endtime.secs ≤ 300) :
    ∃ request ap, apRequest stdPrims g 11 conf c options auth = .ok request ∧ ap.ticket = c.ticket ∧ ap.ap_options = options ∧
      Accepts S 11 now request ap part (wholeSecond auth) :=
  accepted (by decide) g S c part h auth ha options conf k hk hconf now hnow hvalid

/-- C126. The same after the ticket has been saved in a cache file and loaded again, if it has a form there. -/
theorem c126_from_file (X : Ext) (g : Cfg) (S : Service) (w : Warehouse) (hw : (w.toCCache X g).Fits) (hn : w.client.name_string ≠ [])
    (hc : ∀ c ∈ w.credentials, Cacheable c) (i : Nat) (c : Credential) (hi : w.credentials[i]? = some c) (part : EncTicketPart)
    (h : Promised S c part) :
    ∃ w' c', loadCCache g (w.toCCache X g).build = .ok w' ∧ w'.credentials[i]? = some c' ∧
      ∀ (auth : Authenticator), MadeFrom c' auth → ∀ (options : UInt32) (conf : Bytes) (k : Cipher),
        newKerberosCipher c'.client_part.key.keytype = .ok k → conf.length = k.preambleSize → ∀ now : Int,
        auth.ctime.secs - now ≤ 300 ∧ now - auth.ctime.secs ≤ 300 →
        (part.starttime.getD part.authtime).secs - now ≤ 300 ∧ now - part.endtime.secs ≤ 300 →
        ∃ request ap, apRequest stdPrims g 11 conf c' options auth = .ok request ∧ ap.ticket = c.ticket ∧
          Accepts S 11 now request ap part (wholeSecond auth) := by
  refine ⟨_, reset c, c25_reload_identity X g w hw hn hc, ?_, ?_⟩
  · show (w.credentials.map reset)[i]? = _
    rw [List.getElem?_map, hi]
    rfl
  · intro auth ha options conf k hk hconf now hnow hvalid
    have h1 : MadeFrom c auth := ⟨ha.version, ha.client, ha.year, ha.seq⟩
    obtain ⟨request, ap, h2, h3, -, h4⟩ := c126_accepted g S c part h auth h1 options conf k hk hconf now hnow hvalid
    exact ⟨request, ap, h2, h3, h4⟩

theorem built_eq {g : Cfg} {T : MsgType} {v w : T.Value} (hv : T.WF v) (hw : T.WF w) (hp : T.Plain v) (hp' : T.Plain w)
    (hs : (T.der rfc v).bytes.length < 2^64) (h : (T.der rfc v).bytes = (T.der rfc w).bytes) : v = w := by
  have hs' := h ▸ hs
  rw [← c59_wire_format g T v hp] at h hs
  rw [← c59_wire_format g T w hp'] at h hs'
  exact (c39_unambiguous g T v w hv hw hs hs' [] [] (by rw [h])).1

theorem one_reading {u : Int32} (hu : u ≠ 9 ∧ u ≠ 23) (S : Service) (now now' : Int) (request : Bytes) (ap ap' : ApReq) (part part' : EncTicketPart)
    (auth auth' : Authenticator) (h : Accepts S u now request ap part auth) (h' : Accepts S u now' request ap' part' auth')
    (hs : request.length < 2^64) (hsp : (EncTicketPart.der rfc part).bytes.length < 2^64)
    (hsa : (Authenticator.der rfc auth).bytes.length < 2^64) (hp : ApReq.Plain ap) (hp' : ApReq.Plain ap')
    (hq : ∀ n, auth.seq_number = some n → n.toNat < 2^31) (hq' : ∀ n, auth'.seq_number = some n → n.toNat < 2^31) :
    ap = ap' ∧ part = part' ∧ auth = auth' := by
  have e1 : ap = ap' := built_eq (g := strictCfg) (T := .apReq) trivial trivial hp hp' (h.octets ▸ hs) (h.octets.symm.trans h'.octets)
  subst e1
  have years : ∀ {p : EncTicketPart}, EncTicketPart.WF p → EncTicketPart.Plain p := fun ⟨a, b, c, d⟩ =>
    ⟨a.2, fun t ht => (b t ht).2, c.2, fun t ht => (d t ht).2⟩
  have e2 : part = part' := built_eq (g := strictCfg) (T := .encTicketPart) h.ticket.times h'.ticket.times (years h.ticket.times)
    (years h'.ticket.times) hsp (encrypts_unique (by decide) h.ticket.cipher h'.ticket.cipher)
  subst e2
  exact ⟨rfl, rfl, built_eq (g := strictCfg) (T := .authenticator) h.authTime h'.authTime ⟨h.authTime.2, hq⟩ ⟨h'.authTime.2, hq'⟩ hsa
    (encrypts_unique hu h.authenticator.2 h'.authenticator.2)⟩

/-- C126. A service reads one thing in a message only: whatever clock it has, whenever it accepts the message it has read the same
ticket, the same client and session key and the same authenticator (messages below 2^64 octets, numbers below 2^31). -/
theorem c126_one_reading (S : Service) (now now' : Int) (request : Bytes) (ap ap' : ApReq) (part part' : EncTicketPart)
    (auth auth' : Authenticator) (h : Accepts S 11 now request ap part auth) (h' : Accepts S 11 now' request ap' part' auth')
    (hs : request.length < 2^64) (hsp : (EncTicketPart.der rfc part).bytes.length < 2^64)
    (hsa : (Authenticator.der rfc auth).bytes.length < 2^64) (hp : ApReq.Plain ap) (hp' : ApReq.Plain ap')
    (hq : ∀ n, auth.seq_number = some n → n.toNat < 2^31) (hq' : ∀ n, auth'.seq_number = some n → n.toNat < 2^31) :
    ap = ap' ∧ part = part' ∧ auth = auth' :=
  one_reading (by decide) S now now' request ap ap' part part' auth auth' h h' hs hsp hsa hp hp' hq hq'

theorem checksum_tagged (v : Checksum) : (Checksum.der v).Tagged :=
  ⟨by decide, listTagged_append.2 ⟨req_tagged (by omega) (dInt32_tagged _), req_tagged (by omega) (dOctets_tagged _)⟩⟩

theorem encryptionKey_tagged (v : EncryptionKey) : (EncryptionKey.der v).Tagged :=
  ⟨by decide, listTagged_append.2 ⟨req_tagged (by omega) (dInt32_tagged _), req_tagged (by omega) (dOctets_tagged _)⟩⟩

theorem authDataEntry_tagged (v : AuthorizationDataEntry) : (AuthorizationDataEntry.der v).Tagged :=
  ⟨by decide, listTagged_append.2 ⟨req_tagged (by omega) (dInt32_tagged _), req_tagged (by omega) (dOctets_tagged _)⟩⟩

theorem authenticator_tagged (w : WireForm) (v : Authenticator) : (Authenticator.der w v).Tagged := by
  refine ⟨by decide, ⟨⟨by decide, ?_⟩, trivial⟩⟩
  simp only [listTagged_append]
  exact ⟨req_tagged (by decide) (dInt32_tagged _), req_tagged (by decide) (dString_tagged _),
    req_tagged (by decide) (principalName_tagged _), opt_tagged (by decide) checksum_tagged, req_tagged (by decide) (dInt32_tagged _),
    req_tagged (by decide) (dTime_tagged _ _), opt_tagged (by decide) encryptionKey_tagged,
    opt_tagged (by decide) (dUInt32_tagged _), opt_tagged (by decide) (seqOf_tagged authDataEntry_tagged)⟩

/-- the components of an authenticator -/
def authenticatorParts (w : WireForm) (v : Authenticator) : List Der :=
  req 0 dInt32 v.authenticator_vno ++ (
  req 1 dString v.crealm ++ (
  req 2 PrincipalName.der v.cname ++ (
  opt 3 Checksum.der v.cksum ++ (
  req 4 dInt32 v.cusec ++ (
  req 5 (dTime w) v.ctime ++ (
  opt 6 EncryptionKey.der v.subkey ++ (
  opt 7 (dUInt32 w) v.seq_number ++ (
  opt 8 (dSeqOf AuthorizationDataEntry.der) v.authorization_data))))))))

theorem authenticator_seq (w : WireForm) (v : Authenticator) :
    comp 0xa7 (authenticatorParts w v) = v.seq_number.map fun n => .node 0xa7 [dUInt32 w n] := by
  unfold authenticatorParts
  rw [comp_req, if_neg (by decide), comp_req, if_neg (by decide), comp_req, if_neg (by decide), comp_opt_ne (by decide), comp_req,
    if_neg (by decide), comp_req, if_neg (by decide), comp_opt_ne (by decide), comp_opt_eq (by decide) (comp_opt_end_ne (by decide))]

/-- octets written with a negative sequence number are those of no authenticator of the RFC -/
theorem authenticator_negative {w : WireForm} {v : Authenticator} {n : UInt32} (hv : v.seq_number = some n)
    (hn : -2^31 ≤ w.u32 n ∧ w.u32 n < 0) (hs : (Authenticator.der w v).bytes.length < 2^64) (v' : Authenticator) :
    (Authenticator.der w v).bytes ≠ (Authenticator.der rfc v').bytes := by
  intro h
  have h := Der.bytes_eq (authenticator_tagged w v) (authenticator_tagged rfc v') hs h
  have h1 : authenticatorParts w v = authenticatorParts rfc v' := by
    have h : Der.node 0x62 [.node 0x30 (authenticatorParts w v)] = Der.node 0x62 [.node 0x30 (authenticatorParts rfc v')] := h
    injection h with _ h
    injection h with h
    injection h with _ h
  have h2 := authenticator_seq w v
  rw [h1, authenticator_seq rfc v', hv] at h2
  cases hv' : v'.seq_number with
  | none => rw [hv'] at h2; simp only [Option.map_none, Option.map_some, reduceCtorEq] at h2
  | some m =>
    rw [hv'] at h2
    have h2 : some (Der.node 0xa7 [dUInt32 rfc m]) = some (Der.node 0xa7 [dUInt32 w n]) := h2
    injection h2 with h2
    injection h2 with _ h2
    injection h2 with h2
    injection h2 with _ h6
    have h7 := twosVal_derInt (w.u32 n) hn.1 (by omega)
    have h8 := twosVal_derInt (rfc.u32 m) (by show _ ≤ (m.toNat : Int); omega) (by show (m.toNat : Int) < _; have := m.toNat_lt; omega)
    rw [← h6, h8] at h7
    have : (m.toNat : Int) = w.u32 n := h7
    omega

/-- C126 (violation). An authenticator with a sequence number of 2^31 or more, half of those RFC 4120 allows, is written with a
negative number: no service that follows the RFC accepts the message. -/
theorem c126_sequence_negative (g : Cfg) (S : Service) (c : Credential) (part : EncTicketPart) (h : Promised S c part)
    (auth : Authenticator) (n : UInt32) (ha : auth.seq_number = some n) (hn : 2^31 ≤ n.toNat) (options : UInt32) (conf : Bytes)
    (hconf : ∀ k, newKerberosCipher c.client_part.key.keytype = .ok k → conf.length = k.preambleSize) (request : Bytes)
    (hr : apRequest stdPrims g 11 conf c options auth = .ok request) (hs : request.length < 2^64)
    (hsa : (MsgType.build g .authenticator auth).length < 2^64) (hsp : (EncTicketPart.der rfc part).bytes.length < 2^64)
    (now : Int) (ap : ApReq) (hp : ApReq.Plain ap) (part' : EncTicketPart) (auth' : Authenticator) :
    ¬ Accepts S 11 now request ap part' auth' := by
  intro hacc
  obtain ⟨k, hk, hl, hko⟩ := ok_cipher h.keyOk
  dsimp only at hk hl hko
  have hke := h.key
  unfold apRequest at hr
  rw [hke] at hr hconf
  rw [hk] at hr
  dsimp only at hr
  cases he : k.encrypt stdPrims part.key.keyvalue 11 (MsgType.build g .authenticator auth) conf with
  | error e => rw [he] at hr; cases hr
  | ok ct =>
    rw [he] at hr
    injection hr with hr
    have hpl : ApReq.Plain ⟨5, 14, options, c.ticket, ⟨part.key.keytype, none, ct⟩⟩ := ⟨h.kvno, fun _ h0 => nomatch h0⟩
    have e1 : (⟨5, 14, options, c.ticket, ⟨part.key.keytype, none, ct⟩⟩ : ApReq) = ap := by
      have hb := hr.symm.trans (c59_wire_format g .apReq _ hpl)
      exact built_eq (g := strictCfg) (T := .apReq) trivial trivial hpl hp (hb ▸ hs) (hb.symm.trans hacc.octets)
    subst e1
    have years : ∀ {p : EncTicketPart}, EncTicketPart.WF p → EncTicketPart.Plain p := fun ⟨a, b, c, d⟩ =>
      ⟨a.2, fun t ht => (b t ht).2, c.2, fun t ht => (d t ht).2⟩
    have e2 : part = part' := built_eq (g := strictCfg) (T := .encTicketPart) h.ticket.times hacc.ticket.times (years h.ticket.times)
      (years hacc.ticket.times) hsp (encrypts_unique (by decide) h.ticket.cipher hacc.ticket.cipher)
    subst e2
    have e3 := encrypts_unique (by decide) ((encrypts_iff hk hl (by decide) _ _).2 ⟨conf, hconf k hk, he⟩) hacc.authenticator.2
    obtain ⟨w, hw, h1, -⟩ := c59_wire_format_all g .authenticator auth
    have hw : MsgType.build g .authenticator auth = (Authenticator.der w auth).bytes := hw
    have h2 := h1 n
    rw [if_neg (by omega)] at h2
    have h3 := n.toNat_lt
    rw [hw] at e3 hsa
    exact authenticator_negative ha (by rw [h2]; omega) hsa auth' e3

theorem readApReply_plain (g : Cfg) (c : Credential) (auth : Authenticator) (subkey : Option EncryptionKey) (seq : Option UInt32)
    (answer : Bytes) (h : IsApReply c.client_part.key auth subkey seq answer) (hs : answer.length < 2^64) :
    readApReply stdPrims g c answer
      = liftP (MsgType.parse g .encApRepPart (apRepPart auth.ctime auth.cusec subkey seq).bytes) := by
  obtain ⟨rep, h1, h2, -, -, h3, h4⟩ := h
  obtain ⟨k, hk, hl, hko⟩ := encrypts_ok h4
  obtain ⟨conf, h5, h6⟩ := (encrypts_iff hk hl (by decide) _ _).1 h4
  have hd := (c28_accepts_iff stdPrims stdPrims_lawful k c.client_part.key.keyvalue hko 12 _ _).2 ⟨conf, h5, h6⟩
  have hb : answer = MsgType.build g .apRep rep := h1.trans (c59_wire_format g .apRep rep h2).symm
  have hp : MsgType.parse g .apRep answer = .ok (rep, []) := by
    have := c39_roundtrip g .apRep rep trivial (hb ▸ hs) []
    rwa [List.append_nil, ← hb] at this
  unfold readApReply
  rw [hp]
  simp only [liftP, h3, hk, hd]

/-- C126. Mutual authentication with a service that chooses a subkey and a sequence number (below 2^31): the program reads in the
answer the clock of its own authenticator, and the subkey and number of the service. -/
theorem c126_mutual (g : Cfg) (c : Credential) (auth : Authenticator) (ht : TimeOk auth.ctime) (key : EncryptionKey) (n : UInt32)
    (hn : n.toNat < 2^31) (answer : Bytes) (h : IsApReply c.client_part.key auth (some key) (some n) answer) (hs : answer.length < 2^64)
    (hs' : (apRepPart auth.ctime auth.cusec (some key) (some n)).bytes.length < 2^64) :
    readApReply stdPrims g c answer = .ok ⟨auth.ctime, auth.cusec, key, n⟩ := by
  rw [readApReply_plain g c auth _ _ answer h hs]
  have := (c60_ap_rep_part g auth.ctime auth.cusec (some key) (some n) ht hs' []).2 key n rfl rfl hn
  rw [List.append_nil] at this
  rw [show (apRepPart auth.ctime auth.cusec (some key) (some n)).bytes = (encApRepPartRfc auth.ctime auth.cusec (some key) (some n)).bytes from rfl, this]
  rfl

/-- C126 (violation). The answer of a service that leaves out the subkey or the sequence number, as RFC 4120 allows, cannot be read:
mutual authentication with it fails though everything is right. -/
theorem c126_mutual_refused (g : Cfg) (c : Credential) (auth : Authenticator) (ht : TimeOk auth.ctime) (subkey : Option EncryptionKey)
    (seq : Option UInt32) (hm : subkey = none ∨ seq = none) (answer : Bytes) (h : IsApReply c.client_part.key auth subkey seq answer)
    (hs : answer.length < 2^64) (hs' : (apRepPart auth.ctime auth.cusec subkey seq).bytes.length < 2^64) :
    readApReply stdPrims g c answer = .error .asn1 := by
  rw [readApReply_plain g c auth _ _ answer h hs]
  have := (c60_ap_rep_part g auth.ctime auth.cusec subkey seq ht hs' []).1 hm
  rw [List.append_nil] at this
  rw [show (apRepPart auth.ctime auth.cusec subkey seq).bytes = (encApRepPartRfc auth.ctime auth.cusec subkey seq).bytes from rfl, this]
  rfl

/-- C126. Such tickets exist: for every service with a key of a supported type, every client and every encrypted part with
times in whole seconds and a session key of a supported type, and with the client's part of the reply to match. -/
theorem c126_ticket_exists (S : Service) (hS : (⟨S.etype, [], S.key⟩ : LongTermKey).Ok) (part : EncTicketPart) (hw : EncTicketPart.WF part)
    (hk : (⟨part.key.keytype, [], part.key.keyvalue⟩ : LongTermKey).Ok) (cp : EncAsRepPart) :
    ∃ ticket, Promised S ⟨part.crealm, part.cname, ticket,
      { cp with key := part.key, authtime := part.authtime, starttime := part.starttime, endtime := part.endtime }⟩ part := by
  obtain ⟨ct, hct⟩ := encrypts_exists hS (u := 2) (by decide) (EncTicketPart.der rfc part).bytes
  exact ⟨⟨5, S.realm, ⟨2, S.name⟩, ⟨S.etype, none, ct⟩⟩, ⟨rfl, ⟨rfl, rfl⟩, rfl, hct, hw⟩, (fun _ h => nomatch h), rfl, hk, ⟨rfl, rfl⟩, ⟨rfl, rfl, rfl⟩⟩

/-- C126. And a service can always answer, with or without the optional parts. -/
theorem c126_answer_exists (key : EncryptionKey) (hk : (⟨key.keytype, [], key.keyvalue⟩ : LongTermKey).Ok) (auth : Authenticator)
    (subkey : Option EncryptionKey) (seq : Option UInt32) : ∃ answer, IsApReply key auth subkey seq answer := by
  obtain ⟨ct, hct⟩ := encrypts_exists hk (u := 12) (by decide) (apRepPart auth.ctime auth.cusec subkey seq).bytes
  exact ⟨_, ⟨5, 15, ⟨key.keytype, none, ct⟩⟩, rfl, (fun _ h => nomatch h), rfl, rfl, rfl, hct⟩

/-! an http server, a ticket for it and an authenticator -/

def exService : Service := ⟨"KINGDOM.HEARTS".toList, ["http".toList, "castle".toList], 18, List.replicate 32 9⟩

def exTicketPart : EncTicketPart :=
  ⟨0x40e10000, ⟨23, List.replicate 16 4⟩, "KINGDOM.HEARTS".toList, ⟨1, ["mickey".toList]⟩, ⟨1, []⟩, ⟨1700000000, 0⟩, none,
    ⟨1700036000, 0⟩, some ⟨1700600000, 0⟩, none, none⟩

def exAuthenticator : Authenticator :=
  ⟨5, "KINGDOM.HEARTS".toList, ⟨1, ["mickey".toList]⟩, none, 123456, ⟨1700000100, 123456789⟩, none, some 77, none⟩

example : ∃ c, Promised exService c exTicketPart ∧ MadeFrom c exAuthenticator ∧
    (exAuthenticator.ctime.secs - 1700000000 ≤ 300 ∧ 1700000000 - exAuthenticator.ctime.secs ≤ 300) ∧
    (exTicketPart.starttime.getD exTicketPart.authtime).secs - 1700000000 ≤ 300 ∧ 1700000000 - exTicketPart.endtime.secs ≤ 300 := by
  obtain ⟨t, ht⟩ := c126_ticket_exists exService (.inr (.inl ⟨rfl, rfl⟩)) exTicketPart
    ⟨by decide +kernel, (fun _ h => nomatch h), by decide +kernel, fun t h => by injection h with h; subst h; decide +kernel⟩
    (.inr (.inr ⟨rfl, rfl⟩)) exPart
  refine ⟨_, ht, ⟨rfl, ⟨rfl, rfl⟩, ⟨by decide +kernel, by decide +kernel⟩, fun n h => ?_⟩, by decide +kernel, by decide +kernel⟩
  injection h with h
  subst h
  decide

end Verif.Kb
