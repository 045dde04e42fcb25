import Verif.KdcSpec
import Verif.Asn1Wf
/-
Specification of a service that uses Kerberos and of the ticket granting service, and of messages under a session key, written after RFC 4120 sections 3.2 to 3.5 and 5.4 to 5.7. It does not mention the client
program: messages are data, their octets are those of `Asn1Spec` in the form of the RFC, the cryptography is that of `RfcSpec`
with the algorithms of the standards.
-/
namespace Verif.Kdc
open Verif.Asn1

/-- a service: its realm, the components of its name, and a key it shares with the KDC -/
structure Service where
  realm : List Char
  name : List (List Char)
  etype : Int32
  key : Bytes

/-- RFC 4120 5.3: a ticket for the service with this encrypted part -/
structure TicketFor (S : Service) (t : Ticket) (part : EncTicketPart) : Prop where
  version : t.tkt_vno = 5
  server : t.realm = S.realm ∧ t.sname.name_string = S.name
  etype : t.enc_part.etype = S.etype
  cipher : Encrypts S.etype S.key 2 (EncTicketPart.der rfc part).bytes t.enc_part.cipher
  /-- times in whole seconds and four-digit years (RFC 4120 5.2.3) -/
  times : EncTicketPart.WF part

/-- RFC 4120 3.2.3: the service accepts the message `request`, which consists of `ap`, and has read `part` and `auth` in it; `u` is
the key usage of the authenticator: 11, or 7 if the service is the ticket granting service. (The checks of the address and of
replays, which do not depend on the message only, are left out.) -/
structure Accepts (S : Service) (u : Int32) (now : Int) (request : Bytes) (ap : ApReq) (part : EncTicketPart) (auth : Authenticator) : Prop where
  octets : request = (ApReq.der rfc ap).bytes
  version : ap.pvno = 5 ∧ ap.msg_type = 14
  ticket : TicketFor S ap.ticket part
  /-- the authenticator is encrypted with the session key of the ticket -/
  authenticator : ap.authenticator.etype = part.key.keytype ∧
    Encrypts part.key.keytype part.key.keyvalue u (Authenticator.der rfc auth).bytes ap.authenticator.cipher
  authVersion : auth.authenticator_vno = 5
  authTime : TimeOk auth.ctime
  /-- it is made by the client of the ticket -/
  client : auth.crealm = part.crealm ∧ auth.cname.name_string = part.cname.name_string
  /-- at most five minutes off the service's clock -/
  fresh : auth.ctime.secs - now ≤ 300 ∧ now - auth.ctime.secs ≤ 300
  /-- the ticket is valid, up to five minutes -/
  valid : (part.starttime.getD part.authtime).secs - now ≤ 300 ∧ now - part.endtime.secs ≤ 300

/-- RFC 4120 5.5.2: EncAPRepPart -/
def apRepPart (ctime : DateTime) (cusec : Int32) (subkey : Option EncryptionKey) (seq : Option UInt32) : Der :=
  .node 0x7b [.node 0x30 (
    req 0 (dTime rfc) ctime ++ (
    req 1 dInt32 cusec ++ (
    opt 2 EncryptionKey.der subkey ++
    opt 3 (dUInt32 rfc) seq)))]

/-- RFC 4120 3.2.4: the answer of a service that has accepted `auth` with a ticket of this session key, and chooses this subkey and
sequence number or none -/
def IsApReply (key : EncryptionKey) (auth : Authenticator) (subkey : Option EncryptionKey) (seq : Option UInt32) (answer : Bytes) : Prop :=
  ∃ rep : ApRep, answer = (ApRep.der rfc rep).bytes ∧ ApRep.Plain rep ∧ rep.pvno = 5 ∧ rep.msg_type = 15 ∧ rep.enc_part.etype = key.keytype ∧
    Encrypts key.keytype key.keyvalue 12 (apRepPart auth.ctime auth.cusec subkey seq).bytes rep.enc_part.cipher

/-! ### The ticket granting service -/

/-- RFC 4120 3.1.3: with this reply the KDC issued a ticket for the service `T` and put into it the session key, the client and the
times that it told the client. -/
structure Grants (T : Service) (rep : AsRep) (part : EncAsRepPart) (tpart : EncTicketPart) : Prop where
  ticket : TicketFor T rep.ticket tpart
  key : tpart.key = part.key
  keyOk : (⟨tpart.key.keytype, [], tpart.key.keyvalue⟩ : LongTermKey).Ok
  client : tpart.crealm = rep.crealm ∧ tpart.cname = rep.cname
  times : part.authtime = tpart.authtime ∧ part.starttime = tpart.starttime ∧ part.endtime = tpart.endtime

/-- RFC 4120 5.4.1, RFC 3961, RFC 4757: this is the checksum of the octets with the key, for this usage -/
def Checks (key : EncryptionKey) (u : Int32) (msg : Bytes) (ck : Checksum) : Prop :=
  (key.keytype = 17 ∧ key.keyvalue.length = 16 ∧ ck.cksumtype = 15 ∧ ck.checksum = Rfc.aesChecksum aes128 (Std.hmac Std.sha1) 16 key.keyvalue u msg) ∨
  (key.keytype = 18 ∧ key.keyvalue.length = 32 ∧ ck.cksumtype = 16 ∧ ck.checksum = Rfc.aesChecksum aes256 (Std.hmac Std.sha1) 32 key.keyvalue u msg) ∨
  (key.keytype = 23 ∧ key.keyvalue.length = 16 ∧ ck.cksumtype = -138 ∧ ck.checksum = Rfc.rc4Checksum (Std.hmac Std.md5) Std.md5 key.keyvalue u msg)

/-- RFC 4120 3.3.2: the message is a request `r` to the ticket granting service `S`, which has read the ticket granting ticket
`part` and `auth` in it; the authenticator (usage 7) carries the checksum (usage 6) of the body. -/
structure AsksTgs (S : Service) (now : Int) (request : Bytes) (r : TgsReq) (part : EncTicketPart) (auth : Authenticator) : Prop where
  octets : request = (TgsReq.der rfc r).bytes
  version : r.pvno = 5 ∧ r.msg_type = 12
  /-- PA-TGS-REQ -/
  proof : ∃ p ∈ r.padata.getD [], p.padata_type = 1 ∧ ∃ ap, Accepts S 7 now p.padata_value ap part auth
  checksum : ∃ ck, auth.cksum = some ck ∧ Checks part.key 6 (KdcReqBody.der rfc r.req_body).bytes ck

/-- RFC 4120 3.3.3: the answer of the ticket granting service with a ticket for the service `S` that has the encrypted part `tpart`,
to a request `r` made with the ticket granting ticket `part`; `ep` is the part for the client, encrypted with this key and usage. -/
structure IsTgsReplyWith (key : EncryptionKey) (u : Int32) (S : Service) (r : TgsReq) (part tpart : EncTicketPart) (rep : TgsRep) (ep : EncTgsRepPart) (answer : Bytes) : Prop where
  octets : answer = (TgsRep.der rfc rep).bytes
  version : rep.pvno = 5 ∧ rep.msg_type = 13
  client : rep.crealm = part.crealm ∧ rep.cname = part.cname ∧ tpart.crealm = part.crealm ∧ tpart.cname = part.cname
  ticket : TicketFor S rep.ticket tpart
  sessionKey : tpart.key = ep.key
  keyOk : (⟨ep.key.keytype, [], ep.key.keyvalue⟩ : LongTermKey).Ok
  times : ep.authtime = tpart.authtime ∧ ep.starttime = tpart.starttime ∧ ep.endtime = tpart.endtime
  server : ep.srealm = S.realm ∧ ep.sname.name_string = S.name
  nonce : ep.nonce = r.req_body.nonce
  wf : EncTgsRepPart.WF ep
  /-- key version numbers below 2^31 -/
  kvno : TgsRep.Plain rep
  cipher : rep.enc_part.etype = key.keytype ∧
    Encrypts key.keytype key.keyvalue u (EncTgsRepPart.der rfc ep).bytes rep.enc_part.cipher

/-- RFC 4120 3.3.3: without a subkey in the authenticator it is the session key of the ticket granting ticket and usage 8 -/
abbrev IsTgsReply (S : Service) (r : TgsReq) (part tpart : EncTicketPart) (rep : TgsRep) (ep : EncTgsRepPart) (answer : Bytes) : Prop :=
  IsTgsReplyWith part.key 8 S r part tpart rep ep answer

/-- RFC 4120 3.3.3: with a subkey it is this key and usage 9 -/
abbrev IsTgsReplySub (subkey : EncryptionKey) (S : Service) (r : TgsReq) (part tpart : EncTicketPart) (rep : TgsRep) (ep : EncTgsRepPart)
    (answer : Bytes) : Prop :=
  IsTgsReplyWith subkey 9 S r part tpart rep ep answer

/-! ### Messages under a session key -/

/-- RFC 4120 5.7.1: the message is a private message with this content, encrypted with the key (usage 13); key version numbers below 2^31 -/
def IsPriv (key : EncryptionKey) (part : EncKrbPrivPart) (message : Bytes) : Prop :=
  ∃ m : KrbPriv, message = (KrbPriv.der rfc m).bytes ∧ KrbPriv.Plain m ∧ m.pvno = 5 ∧ m.msg_type = 21 ∧ m.enc_part.etype = key.keytype ∧
    Encrypts key.keytype key.keyvalue 13 (EncKrbPrivPart.der rfc part).bytes m.enc_part.cipher

/-- RFC 4120 5.6.1: the message is a safe message with this content, and its checksum with the key (usage 15) is that of the content -/
def IsSafe (key : EncryptionKey) (body : KrbSafeBody) (message : Bytes) : Prop :=
  ∃ m : KrbSafe, message = (KrbSafe.der rfc m).bytes ∧ m.pvno = 5 ∧ m.msg_type = 20 ∧ m.safe_body = body ∧
    Checks key 15 (KrbSafeBody.der rfc body).bytes m.cksum

end Verif.Kdc
