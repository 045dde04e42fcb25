import Verif.Asn1Spec
/-
Specification of reading: which DER values are a spelling of a message. Like `Asn1Spec`, from the ASN.1 modules of RFC 4120,
MS-KILE and MS-SFU, but with what a reader must or may accept: an INTEGER of up to four octets in any length, a BIT STRING of
any length for flags (RFC 4120 5.2.8), any non-zero octet for TRUE. Where `Asn1Spec` says what is written, this says what is
read; no function of the parser is mentioned.
-/
namespace Verif.Asn1

/-- What is assumed of the external ASN.1 crate (its source is not in /repo): it accepts nothing beyond DER lengths and the plain forms of numbers and times -/
structure Cfg.Strict (g : Cfg) : Prop where
  seq : g.strictSeq = true
  wrap : g.strictWrap = true
  len : g.minimalLen = true
  emptyInt : ∀ x, g.emptyInt ≠ .ok x
  u32Ext : ∀ b x, g.u32Ext b ≠ .ok x
  boolExt : ∀ b x, g.boolExt b ≠ .ok x
  timeExt : ∀ b x, g.timeExt b ≠ .ok x

/-- X.690 8.3: the number an INTEGER content stands for, two's complement -/
def contentInt (c : Bytes) : Int := c.foldl (fun a x => a * 256 + x.toNat) (if 128 ≤ (c.headD 0).toNat then -1 else 0)

def rInt32 (x : Int32) (d : Der) : Prop := ∃ c, d = .prim 0x02 c ∧ 1 ≤ c.length ∧ c.length ≤ 4 ∧ contentInt c = x.toInt
/-- an unsigned number is read from at most four octets too, modulo 2^32 (see C59) -/
def rUInt32 (x : UInt32) (d : Der) : Prop :=
  ∃ c, d = .prim 0x02 c ∧ 1 ≤ c.length ∧ c.length ≤ 4 ∧ contentInt c % 2^32 = (x.toNat : Int)
def rBool (x : Bool) (d : Der) : Prop := ∃ o, d = .prim 0x01 [o] ∧ (x = true ↔ o ≠ 0)
def rOctets (x : Bytes) (d : Der) : Prop := d = .prim 0x04 x
def rString (x : List Char) (d : Der) : Prop := d = .prim 0x1b (utf8 x)
def rBits (x : BitString) (d : Der) : Prop := d = .prim 0x03 (x.padding :: x.bytes)
/-- the first 32 bits, those missing are zero -/
def rFlags (x : UInt32) (d : Der) : Prop :=
  ∃ unused bits, d = .prim 0x03 (unused :: bits) ∧ ∀ i, i < 4 → (be32 x)[i]? = some (bits.getD i 0)
/-- a time that exists, in whole seconds, written "YYYYMMDDhhmmssZ" -/
def rTime (x : DateTime) (d : Der) : Prop := TimeOk x ∧ d = dTime rfc x

/-- one value after another -/
inductive Each {α} (R : α → Der → Prop) : List α → List Der → Prop
  | nil : Each R [] []
  | cons {a d l ds} : R a d → Each R l ds → Each R (a :: l) (d :: ds)

def rSeqOf {α} (R : α → Der → Prop) (l : List α) (d : Der) : Prop := ∃ ds, d = .node 0x30 ds ∧ Each R l ds
/-- a component with explicit context tag `[n]` -/
def rReq {α} (n : Nat) (R : α → Der → Prop) (a : α) (l : List Der) : Prop := ∃ d, l = [.node (UInt8.ofNat (0xa0 + n)) [d]] ∧ R a d
/-- an OPTIONAL component with explicit context tag `[n]` -/
def rOpt {α} (n : Nat) (R : α → Der → Prop) (a : Option α) (l : List Der) : Prop :=
  match a with
  | some a => rReq n R a l
  | none => l = []
/-- components one after the other -/
def rThen (P Q : List Der → Prop) (l : List Der) : Prop := ∃ l1 l2, l = l1 ++ l2 ∧ P l1 ∧ Q l2
infixr:65 " +> " => rThen
def rSeq (P : List Der → Prop) (d : Der) : Prop := ∃ l, d = .node 0x30 l ∧ P l
/-- in an explicit application tag -/
def rApp (t : UInt8) (P : Der → Prop) (d : Der) : Prop := ∃ x, d = .node t [x] ∧ P x

/-- ASN.1 of EncryptedData, kerberos_asn1/src/encrypted_data.rs (doc comment) -/
def EncryptedData.Read (v : EncryptedData) : Der → Prop :=
  rSeq (
    rReq 0 rInt32 v.etype +> (
    rOpt 1 rUInt32 v.kvno +> (
    rReq 2 rOctets v.cipher)))

/-- ASN.1 of ApRep, kerberos_asn1/src/ap_rep.rs (doc comment) -/
def ApRep.Read (v : ApRep) : Der → Prop :=
  rApp 0x6f (rSeq (
    rReq 0 rInt32 v.pvno +> (
    rReq 1 rInt32 v.msg_type +> (
    rReq 2 EncryptedData.Read v.enc_part))))

/-- ASN.1 of PrincipalName, kerberos_asn1/src/principal_name.rs (doc comment) -/
def PrincipalName.Read (v : PrincipalName) : Der → Prop :=
  rSeq (
    rReq 0 rInt32 v.name_type +> (
    rReq 1 (rSeqOf rString) v.name_string))

/-- ASN.1 of Ticket, kerberos_asn1/src/ticket.rs (doc comment) -/
def Ticket.Read (v : Ticket) : Der → Prop :=
  rApp 0x61 (rSeq (
    rReq 0 rInt32 v.tkt_vno +> (
    rReq 1 rString v.realm +> (
    rReq 2 PrincipalName.Read v.sname +> (
    rReq 3 EncryptedData.Read v.enc_part)))))

/-- ASN.1 of ApReq, kerberos_asn1/src/ap_req.rs (doc comment) -/
def ApReq.Read (v : ApReq) : Der → Prop :=
  rApp 0x6e (rSeq (
    rReq 0 rInt32 v.pvno +> (
    rReq 1 rInt32 v.msg_type +> (
    rReq 2 rFlags v.ap_options +> (
    rReq 3 Ticket.Read v.ticket +> (
    rReq 4 EncryptedData.Read v.authenticator))))))

/-- ASN.1 of PaData, kerberos_asn1/src/pa_data/pa_data.rs (doc comment) -/
def PaData.Read (v : PaData) : Der → Prop :=
  rSeq (
    rReq 1 rInt32 v.padata_type +> (
    rReq 2 rOctets v.padata_value))

/-- ASN.1 of AsRep, kerberos_asn1/src/as_rep.rs (doc comment) -/
def AsRep.Read (v : AsRep) : Der → Prop :=
  rApp 0x6b (rSeq (
    rReq 0 rInt32 v.pvno +> (
    rReq 1 rInt32 v.msg_type +> (
    rOpt 2 (rSeqOf PaData.Read) v.padata +> (
    rReq 3 rString v.crealm +> (
    rReq 4 PrincipalName.Read v.cname +> (
    rReq 5 Ticket.Read v.ticket +> (
    rReq 6 EncryptedData.Read v.enc_part))))))))

/-- ASN.1 of HostAddress, kerberos_asn1/src/host_address.rs (doc comment) -/
def HostAddress.Read (v : HostAddress) : Der → Prop :=
  rSeq (
    rReq 0 rInt32 v.addr_type +> (
    rReq 1 rOctets v.address))

/-- ASN.1 of KdcReqBody, kerberos_asn1/src/kdc_req_body.rs (doc comment) -/
def KdcReqBody.Read (v : KdcReqBody) : Der → Prop :=
  rSeq (
    rReq 0 rFlags v.kdc_options +> (
    rOpt 1 PrincipalName.Read v.cname +> (
    rReq 2 rString v.realm +> (
    rOpt 3 PrincipalName.Read v.sname +> (
    rOpt 4 rTime v.«from» +> (
    rReq 5 rTime v.till +> (
    rOpt 6 rTime v.rtime +> (
    rReq 7 rUInt32 v.nonce +> (
    rReq 8 (rSeqOf rInt32) v.etypes +> (
    rOpt 9 (rSeqOf HostAddress.Read) v.addresses +> (
    rOpt 10 EncryptedData.Read v.enc_authorization_data +> (
    rOpt 11 (rSeqOf Ticket.Read) v.additional_tickets))))))))))))

/-- ASN.1 of AsReq, kerberos_asn1/src/as_req.rs (doc comment) -/
def AsReq.Read (v : AsReq) : Der → Prop :=
  rApp 0x6a (rSeq (
    rReq 1 rInt32 v.pvno +> (
    rReq 2 rInt32 v.msg_type +> (
    rOpt 3 (rSeqOf PaData.Read) v.padata +> (
    rReq 4 KdcReqBody.Read v.req_body)))))

/-- ASN.1 of Checksum, kerberos_asn1/src/checksum.rs (doc comment) -/
def Checksum.Read (v : Checksum) : Der → Prop :=
  rSeq (
    rReq 0 rInt32 v.cksumtype +> (
    rReq 1 rOctets v.checksum))

/-- ASN.1 of EncryptionKey, kerberos_asn1/src/encryption_key.rs (doc comment) -/
def EncryptionKey.Read (v : EncryptionKey) : Der → Prop :=
  rSeq (
    rReq 0 rInt32 v.keytype +> (
    rReq 1 rOctets v.keyvalue))

/-- ASN.1 of AuthorizationDataEntry, kerberos_asn1/src/authorization_data.rs (doc comment) -/
def AuthorizationDataEntry.Read (v : AuthorizationDataEntry) : Der → Prop :=
  rSeq (
    rReq 0 rInt32 v.ad_type +> (
    rReq 1 rOctets v.ad_data))

/-- ASN.1 of Authenticator, kerberos_asn1/src/authenticator.rs (doc comment) -/
def Authenticator.Read (v : Authenticator) : Der → Prop :=
  rApp 0x62 (rSeq (
    rReq 0 rInt32 v.authenticator_vno +> (
    rReq 1 rString v.crealm +> (
    rReq 2 PrincipalName.Read v.cname +> (
    rOpt 3 Checksum.Read v.cksum +> (
    rReq 4 rInt32 v.cusec +> (
    rReq 5 rTime v.ctime +> (
    rOpt 6 EncryptionKey.Read v.subkey +> (
    rOpt 7 rUInt32 v.seq_number +> (
    rOpt 8 (rSeqOf AuthorizationDataEntry.Read) v.authorization_data))))))))))

/-- ASN.1 of EncApRepPart, kerberos_asn1/src/enc_ap_rep_part.rs (doc comment) -/
def EncApRepPart.Read (v : EncApRepPart) : Der → Prop :=
  rApp 0x7b (rSeq (
    rReq 0 rTime v.ctime +> (
    rReq 1 rInt32 v.cusec +> (
    rReq 2 EncryptionKey.Read v.subkey +> (
    rReq 3 rUInt32 v.seq_number)))))

/-- ASN.1 of LastReqEntry, kerberos_asn1/src/last_req.rs (doc comment) -/
def LastReqEntry.Read (v : LastReqEntry) : Der → Prop :=
  rSeq (
    rReq 0 rInt32 v.lr_type +> (
    rReq 1 rTime v.lr_value))

/-- ASN.1 of EncAsRepPart, kerberos_asn1/src/enc_as_rep_part.rs (doc comment) -/
def EncAsRepPart.Read (v : EncAsRepPart) : Der → Prop :=
  rApp 0x79 (rSeq (
    rReq 0 EncryptionKey.Read v.key +> (
    rReq 1 (rSeqOf LastReqEntry.Read) v.last_req +> (
    rReq 2 rUInt32 v.nonce +> (
    rOpt 3 rTime v.key_expiration +> (
    rReq 4 rFlags v.flags +> (
    rReq 5 rTime v.authtime +> (
    rOpt 6 rTime v.starttime +> (
    rReq 7 rTime v.endtime +> (
    rOpt 8 rTime v.renew_till +> (
    rReq 9 rString v.srealm +> (
    rReq 10 PrincipalName.Read v.sname +> (
    rOpt 11 (rSeqOf HostAddress.Read) v.caddr +> (
    rOpt 12 (rSeqOf PaData.Read) v.encrypted_pa_data))))))))))))))

/-- ASN.1 of EncKdcRepPart, kerberos_asn1/src/enc_kdc_rep_part.rs (doc comment) -/
def EncKdcRepPart.Read (v : EncKdcRepPart) : Der → Prop :=
  rSeq (
    rReq 0 EncryptionKey.Read v.key +> (
    rReq 1 (rSeqOf LastReqEntry.Read) v.last_req +> (
    rReq 2 rUInt32 v.nonce +> (
    rOpt 3 rTime v.key_expiration +> (
    rReq 4 rFlags v.flags +> (
    rReq 5 rTime v.authtime +> (
    rOpt 6 rTime v.starttime +> (
    rReq 7 rTime v.endtime +> (
    rOpt 8 rTime v.renew_till +> (
    rReq 9 rString v.srealm +> (
    rReq 10 PrincipalName.Read v.sname +> (
    rOpt 11 (rSeqOf HostAddress.Read) v.caddr +> (
    rOpt 12 (rSeqOf PaData.Read) v.encrypted_pa_data)))))))))))))

/-- ASN.1 of KrbCredInfo, kerberos_asn1/src/krb_cred_info.rs (doc comment) -/
def KrbCredInfo.Read (v : KrbCredInfo) : Der → Prop :=
  rSeq (
    rReq 0 EncryptionKey.Read v.key +> (
    rOpt 1 rString v.prealm +> (
    rOpt 2 PrincipalName.Read v.pname +> (
    rOpt 3 rFlags v.flags +> (
    rOpt 4 rTime v.authtime +> (
    rOpt 5 rTime v.starttime +> (
    rOpt 6 rTime v.endtime +> (
    rOpt 7 rTime v.renew_till +> (
    rOpt 8 rString v.srealm +> (
    rOpt 9 PrincipalName.Read v.sname +> (
    rOpt 10 (rSeqOf HostAddress.Read) v.caddr)))))))))))

/-- ASN.1 of EncKrbCredPart, kerberos_asn1/src/enc_krb_cred_part.rs (doc comment) -/
def EncKrbCredPart.Read (v : EncKrbCredPart) : Der → Prop :=
  rApp 0x7d (rSeq (
    rReq 0 (rSeqOf KrbCredInfo.Read) v.ticket_info +> (
    rOpt 1 rUInt32 v.nonce +> (
    rOpt 2 rTime v.timestamp +> (
    rOpt 3 rInt32 v.usec +> (
    rOpt 4 HostAddress.Read v.s_address +> (
    rOpt 5 HostAddress.Read v.r_address)))))))

/-- ASN.1 of EncKrbPrivPart, kerberos_asn1/src/enc_krb_priv_part.rs (doc comment) -/
def EncKrbPrivPart.Read (v : EncKrbPrivPart) : Der → Prop :=
  rApp 0x7c (rSeq (
    rReq 0 rOctets v.user_data +> (
    rOpt 1 rTime v.timestamp +> (
    rOpt 2 rInt32 v.usec +> (
    rOpt 3 rUInt32 v.seq_number +> (
    rReq 4 HostAddress.Read v.s_address +> (
    rOpt 5 HostAddress.Read v.r_address)))))))

/-- ASN.1 of EncTgsRepPart, kerberos_asn1/src/enc_tgs_rep_part.rs (doc comment) -/
def EncTgsRepPart.Read (v : EncTgsRepPart) : Der → Prop :=
  rApp 0x7a (rSeq (
    rReq 0 EncryptionKey.Read v.key +> (
    rReq 1 (rSeqOf LastReqEntry.Read) v.last_req +> (
    rReq 2 rUInt32 v.nonce +> (
    rOpt 3 rTime v.key_expiration +> (
    rReq 4 rFlags v.flags +> (
    rReq 5 rTime v.authtime +> (
    rOpt 6 rTime v.starttime +> (
    rReq 7 rTime v.endtime +> (
    rOpt 8 rTime v.renew_till +> (
    rReq 9 rString v.srealm +> (
    rReq 10 PrincipalName.Read v.sname +> (
    rOpt 11 (rSeqOf HostAddress.Read) v.caddr +> (
    rOpt 12 (rSeqOf PaData.Read) v.encrypted_pa_data))))))))))))))

/-- ASN.1 of TransitedEncoding, kerberos_asn1/src/transited_encoding.rs (doc comment) -/
def TransitedEncoding.Read (v : TransitedEncoding) : Der → Prop :=
  rSeq (
    rReq 0 rInt32 v.tr_type +> (
    rReq 1 rOctets v.contents))

/-- ASN.1 of EncTicketPart, kerberos_asn1/src/enc_ticket_part.rs (doc comment) -/
def EncTicketPart.Read (v : EncTicketPart) : Der → Prop :=
  rApp 0x63 (rSeq (
    rReq 0 rFlags v.flags +> (
    rReq 1 EncryptionKey.Read v.key +> (
    rReq 2 rString v.crealm +> (
    rReq 3 PrincipalName.Read v.cname +> (
    rReq 4 TransitedEncoding.Read v.transited +> (
    rReq 5 rTime v.authtime +> (
    rOpt 6 rTime v.starttime +> (
    rReq 7 rTime v.endtime +> (
    rOpt 8 rTime v.renew_till +> (
    rOpt 9 (rSeqOf HostAddress.Read) v.caddr +> (
    rOpt 10 (rSeqOf AuthorizationDataEntry.Read) v.authorization_data))))))))))))

/-- ASN.1 of KdcReq, kerberos_asn1/src/kdc_req.rs (doc comment) -/
def KdcReq.Read (v : KdcReq) : Der → Prop :=
  rSeq (
    rReq 1 rInt32 v.pvno +> (
    rReq 2 rInt32 v.msg_type +> (
    rOpt 3 (rSeqOf PaData.Read) v.padata +> (
    rReq 4 KdcReqBody.Read v.req_body))))

/-- ASN.1 of KerbAdRestrictionEntry, kerberos_asn1/src/kerb_ad_restriction_entry.rs (doc comment) -/
def KerbAdRestrictionEntry.Read (v : KerbAdRestrictionEntry) : Der → Prop :=
  rSeq (
    rReq 0 rInt32 v.restriction_type +> (
    rReq 1 rOctets v.restriction))

/-- ASN.1 of KerbErrorData, kerberos_asn1/src/kerb_error_data.rs (doc comment) -/
def KerbErrorData.Read (v : KerbErrorData) : Der → Prop :=
  rSeq (
    rReq 1 rInt32 v.data_type +> (
    rOpt 2 rOctets v.data_value))

/-- ASN.1 of KrbCred, kerberos_asn1/src/krb_cred.rs (doc comment) -/
def KrbCred.Read (v : KrbCred) : Der → Prop :=
  rApp 0x76 (rSeq (
    rReq 0 rInt32 v.pvno +> (
    rReq 1 rInt32 v.msg_type +> (
    rReq 2 (rSeqOf Ticket.Read) v.tickets +> (
    rReq 3 EncryptedData.Read v.enc_part)))))

/-- ASN.1 of KrbError, kerberos_asn1/src/krb_error.rs (doc comment) -/
def KrbError.Read (v : KrbError) : Der → Prop :=
  rApp 0x7e (rSeq (
    rReq 0 rInt32 v.pvno +> (
    rReq 1 rInt32 v.msg_type +> (
    rOpt 2 rTime v.ctime +> (
    rOpt 3 rInt32 v.cusec +> (
    rReq 4 rTime v.stime +> (
    rReq 5 rInt32 v.susec +> (
    rReq 6 rInt32 v.error_code +> (
    rOpt 7 rString v.crealm +> (
    rOpt 8 PrincipalName.Read v.cname +> (
    rReq 9 rString v.realm +> (
    rReq 10 PrincipalName.Read v.sname +> (
    rOpt 11 rString v.e_text +> (
    rOpt 12 rOctets v.e_data))))))))))))))

/-- ASN.1 of KrbPriv, kerberos_asn1/src/krb_priv.rs (doc comment) -/
def KrbPriv.Read (v : KrbPriv) : Der → Prop :=
  rApp 0x75 (rSeq (
    rReq 0 rInt32 v.pvno +> (
    rReq 1 rInt32 v.msg_type +> (
    rReq 3 EncryptedData.Read v.enc_part))))

/-- ASN.1 of KrbSafeBody, kerberos_asn1/src/krb_safe_body.rs (doc comment) -/
def KrbSafeBody.Read (v : KrbSafeBody) : Der → Prop :=
  rSeq (
    rReq 0 rOctets v.user_data +> (
    rOpt 1 rTime v.timestamp +> (
    rOpt 2 rInt32 v.usec +> (
    rOpt 3 rUInt32 v.seq_number +> (
    rReq 4 HostAddress.Read v.s_address +> (
    rOpt 5 HostAddress.Read v.r_address))))))

/-- ASN.1 of KrbSafe, kerberos_asn1/src/krb_safe.rs (doc comment) -/
def KrbSafe.Read (v : KrbSafe) : Der → Prop :=
  rApp 0x74 (rSeq (
    rReq 0 rInt32 v.pvno +> (
    rReq 1 rInt32 v.msg_type +> (
    rReq 2 KrbSafeBody.Read v.safe_body +> (
    rReq 3 Checksum.Read v.cksum)))))

/-- ASN.1 of AdAndOr, kerberos_asn1/src/pa_data/ad_and_or.rs (doc comment) -/
def AdAndOr.Read (v : AdAndOr) : Der → Prop :=
  rSeq (
    rReq 0 rInt32 v.condition_count +> (
    rReq 1 (rSeqOf AuthorizationDataEntry.Read) v.elements))

/-- ASN.1 of AdKdcIssued, kerberos_asn1/src/pa_data/ad_kdcissued.rs (doc comment) -/
def AdKdcIssued.Read (v : AdKdcIssued) : Der → Prop :=
  rSeq (
    rReq 0 Checksum.Read v.ad_checksum +> (
    rOpt 1 rString v.i_realm +> (
    rOpt 2 PrincipalName.Read v.i_sname +> (
    rReq 3 (rSeqOf AuthorizationDataEntry.Read) v.elements))))

/-- ASN.1 of EtypeInfo2Entry, kerberos_asn1/src/pa_data/etype_info2_entry.rs (doc comment) -/
def EtypeInfo2Entry.Read (v : EtypeInfo2Entry) : Der → Prop :=
  rSeq (
    rReq 0 rInt32 v.etype +> (
    rOpt 1 rString v.salt +> (
    rOpt 2 rOctets v.s2kparams)))

/-- ASN.1 of EtypeInfoEntry, kerberos_asn1/src/pa_data/etype_info_entry.rs (doc comment) -/
def EtypeInfoEntry.Read (v : EtypeInfoEntry) : Der → Prop :=
  rSeq (
    rReq 0 rInt32 v.etype +> (
    rOpt 1 rOctets v.salt))

/-- ASN.1 of KerbPaPacRequest, kerberos_asn1/src/pa_data/kerb_pa_pac_request.rs (doc comment) -/
def KerbPaPacRequest.Read (v : KerbPaPacRequest) : Der → Prop :=
  rSeq (
    rReq 0 rBool v.include_pac)

/-- ASN.1 of PaEncTsEnc, kerberos_asn1/src/pa_data/pa_enc_ts_enc.rs (doc comment) -/
def PaEncTsEnc.Read (v : PaEncTsEnc) : Der → Prop :=
  rSeq (
    rReq 0 rTime v.patimestamp +> (
    rOpt 1 rInt32 v.pausec))

/-- ASN.1 of PaForUser, kerberos_asn1/src/pa_data/pa_for_user.rs (doc comment) -/
def PaForUser.Read (v : PaForUser) : Der → Prop :=
  rSeq (
    rReq 0 PrincipalName.Read v.username +> (
    rReq 1 rString v.userrealm +> (
    rReq 2 Checksum.Read v.cksum +> (
    rReq 3 rString v.auth_package))))

/-- ASN.1 of PaPacOptions, kerberos_asn1/src/pa_data/pa_pac_options.rs (doc comment) -/
def PaPacOptions.Read (v : PaPacOptions) : Der → Prop :=
  rSeq (
    rReq 0 rFlags v.kerberos_flags)

/-- ASN.1 of S4uUserId, kerberos_asn1/src/pa_data/s4userid.rs (doc comment) -/
def S4uUserId.Read (v : S4uUserId) : Der → Prop :=
  rSeq (
    rReq 0 rUInt32 v.nonce +> (
    rOpt 1 PrincipalName.Read v.cname +> (
    rReq 2 rString v.crealm +> (
    rOpt 3 rOctets v.subject_certificate +> (
    rOpt 4 rBits v.options)))))

/-- ASN.1 of PaS4uX509User, kerberos_asn1/src/pa_data/pa_s4u_x509_user.rs (doc comment) -/
def PaS4uX509User.Read (v : PaS4uX509User) : Der → Prop :=
  rSeq (
    rReq 0 S4uUserId.Read v.user_id +> (
    rReq 1 Checksum.Read v.checksum))

/-- ASN.1 of TgsRep, kerberos_asn1/src/tgs_rep.rs (doc comment) -/
def TgsRep.Read (v : TgsRep) : Der → Prop :=
  rApp 0x6d (rSeq (
    rReq 0 rInt32 v.pvno +> (
    rReq 1 rInt32 v.msg_type +> (
    rOpt 2 (rSeqOf PaData.Read) v.padata +> (
    rReq 3 rString v.crealm +> (
    rReq 4 PrincipalName.Read v.cname +> (
    rReq 5 Ticket.Read v.ticket +> (
    rReq 6 EncryptedData.Read v.enc_part))))))))

/-- ASN.1 of TgsReq, kerberos_asn1/src/tgs_req.rs (doc comment) -/
def TgsReq.Read (v : TgsReq) : Der → Prop :=
  rApp 0x6c (rSeq (
    rReq 1 rInt32 v.pvno +> (
    rReq 2 rInt32 v.msg_type +> (
    rOpt 3 (rSeqOf PaData.Read) v.padata +> (
    rReq 4 KdcReqBody.Read v.req_body)))))

/-- ASN.1 of TypedDataEntry, kerberos_asn1/src/typed_data.rs (doc comment) -/
def TypedDataEntry.Read (v : TypedDataEntry) : Der → Prop :=
  rSeq (
    rReq 0 rInt32 v.data_type +> (
    rOpt 1 rOctets v.data_value))


/-- the DER value is a spelling of the message -/
def MsgType.Read : (T : MsgType) → T.Value → Der → Prop
  | .encryptedData => EncryptedData.Read
  | .apRep => ApRep.Read
  | .principalName => PrincipalName.Read
  | .ticket => Ticket.Read
  | .apReq => ApReq.Read
  | .paData => PaData.Read
  | .asRep => AsRep.Read
  | .hostAddress => HostAddress.Read
  | .kdcReqBody => KdcReqBody.Read
  | .asReq => AsReq.Read
  | .checksum => Checksum.Read
  | .encryptionKey => EncryptionKey.Read
  | .authorizationDataEntry => AuthorizationDataEntry.Read
  | .authenticator => Authenticator.Read
  | .encApRepPart => EncApRepPart.Read
  | .lastReqEntry => LastReqEntry.Read
  | .encAsRepPart => EncAsRepPart.Read
  | .encKdcRepPart => EncKdcRepPart.Read
  | .krbCredInfo => KrbCredInfo.Read
  | .encKrbCredPart => EncKrbCredPart.Read
  | .encKrbPrivPart => EncKrbPrivPart.Read
  | .encTgsRepPart => EncTgsRepPart.Read
  | .transitedEncoding => TransitedEncoding.Read
  | .encTicketPart => EncTicketPart.Read
  | .kdcReq => KdcReq.Read
  | .kerbAdRestrictionEntry => KerbAdRestrictionEntry.Read
  | .kerbErrorData => KerbErrorData.Read
  | .krbCred => KrbCred.Read
  | .krbError => KrbError.Read
  | .krbPriv => KrbPriv.Read
  | .krbSafeBody => KrbSafeBody.Read
  | .krbSafe => KrbSafe.Read
  | .adAndOr => AdAndOr.Read
  | .adKdcIssued => AdKdcIssued.Read
  | .etypeInfo2Entry => EtypeInfo2Entry.Read
  | .etypeInfoEntry => EtypeInfoEntry.Read
  | .kerbPaPacRequest => KerbPaPacRequest.Read
  | .paEncTsEnc => PaEncTsEnc.Read
  | .paForUser => PaForUser.Read
  | .paPacOptions => PaPacOptions.Read
  | .s4uUserId => S4uUserId.Read
  | .paS4uX509User => PaS4uX509User.Read
  | .tgsRep => TgsRep.Read
  | .tgsReq => TgsReq.Read
  | .typedDataEntry => TypedDataEntry.Read
  | .hostAddresses => rSeqOf HostAddress.Read
  | .authorizationData => rSeqOf AuthorizationDataEntry.Read
  | .lastReq => rSeqOf LastReqEntry.Read
  | .typedData => rSeqOf TypedDataEntry.Read
  | .etypeInfo => rSeqOf EtypeInfoEntry.Read
  | .etypeInfo2 => rSeqOf EtypeInfo2Entry.Read
  | .methodData => rSeqOf PaData.Read
  | .kerbKeyListRep => rSeqOf EncryptionKey.Read
  | .kerbKeyListReq => rSeqOf rInt32
  | .kerbLocal => rOctets
  | .realm => rString
  | .int32 => rInt32
  | .kerberosFlags => rFlags
  | .kerberosTime => rTime
  | .uInt32 => rUInt32

end Verif.Asn1
