import Verif.Asn1Wf
/-
Specification of the wire format: DER (X.690) and the ASN.1 modules of RFC 4120, MS-KILE and MS-SFU as quoted in the
doc comments of kerberos_asn1/src. Written from these comments, not from the struct attributes.
-/
namespace Verif.Asn1

/-- a DER value: tag octet and content, or tag octet and component values -/
inductive Der where
  | prim (tag : UInt8) (content : Bytes)
  | node (tag : UInt8) (items : List Der)

/-- shortest big-endian form of a positive number -/
def base256 (n : Nat) : Bytes :=
  if n = 0 then [] else base256 (n / 256) ++ [UInt8.ofNat (n % 256)]
termination_by n
decreasing_by omega

/-- X.690 8.1.3 and 10.1: definite length, shortest form -/
def derLen (n : Nat) : Bytes :=
  if n < 128 then [UInt8.ofNat n] else UInt8.ofNat (128 + (base256 n).length) :: base256 n

mutual
/-- octets of a DER value -/
def Der.bytes : Der → Bytes
  | .prim t c => t :: derLen c.length ++ c
  | .node t l => t :: derLen (Der.listBytes l).length ++ Der.listBytes l
/-- octets of consecutive DER values -/
def Der.listBytes : List Der → Bytes
  | [] => []
  | d :: l => d.bytes ++ Der.listBytes l
end

/-- X.690 8.3: INTEGER content, two's complement with the least number of octets (values of at most 64 bits) -/
def derInt (v : Int) : Bytes :=
  let byte (i : Nat) : UInt8 := UInt8.ofNat (v / 256 ^ i % 256).toNat
  if -2^7 ≤ v ∧ v < 2^7 then [byte 0]
  else if -2^15 ≤ v ∧ v < 2^15 then [byte 1, byte 0]
  else if -2^23 ≤ v ∧ v < 2^23 then [byte 2, byte 1, byte 0]
  else if -2^31 ≤ v ∧ v < 2^31 then [byte 3, byte 2, byte 1, byte 0]
  else [byte 4, byte 3, byte 2, byte 1, byte 0]

def dInt32 (x : Int32) : Der := .prim 0x02 (derInt x.toInt)
/-- how unsigned numbers and years are written -/
structure WireForm where
  /-- INTEGER written for an unsigned number -/
  u32 : UInt32 → Int
  /-- characters written for a year -/
  year : Int → Bytes

/-- `width` decimal digits of a number -/
def decimal (width n : Nat) : Bytes :=
  (List.range width).reverse.map fun i => UInt8.ofNat (0x30 + n / 10 ^ i % 10)

/-- RFC 4120 5.2.4 (a UInt32 is the number itself) and 5.2.3 (four-digit year; other years have no form) -/
def rfc : WireForm := ⟨fun x => (x.toNat : Int), fun y => decimal 4 y.toNat⟩

def dUInt32 (w : WireForm) (x : UInt32) : Der := .prim 0x02 (derInt (w.u32 x))
def dBool (b : Bool) : Der := .prim 0x01 [if b then 0xff else 0x00]
def dOctets (b : Bytes) : Der := .prim 0x04 b
def dString (s : List Char) : Der := .prim 0x1b (utf8 s)
def dBits (b : BitString) : Der := .prim 0x03 (b.padding :: b.bytes)
def dFlags (w : UInt32) : Der := .prim 0x03 (0 :: be32 w)
/-- RFC 4120 5.2.3: "YYYYMMDDhhmmssZ", no fraction -/
def dTime (w : WireForm) (t : DateTime) : Der :=
  .prim 0x18 (w.year t.date.year ++ decimal 2 t.date.month ++ decimal 2 t.date.day ++ decimal 2 t.hour
    ++ decimal 2 t.minute ++ decimal 2 t.second ++ [0x5a])
def dSeqOf {α} (f : α → Der) (l : List α) : Der := .node 0x30 (l.map f)

/-- a component with explicit context tag `[n]` -/
def req {α} (n : Nat) (f : α → Der) (a : α) : List Der := [.node (UInt8.ofNat (0xa0 + n)) [f a]]
/-- an OPTIONAL component with explicit context tag `[n]` -/
def opt {α} (n : Nat) (f : α → Der) (a : Option α) : List Der :=
  match a with
  | some a => req n f a
  | none => []

/-- ASN.1 of EncryptedData, kerberos_asn1/src/encrypted_data.rs (doc comment) -/
def EncryptedData.der (w : WireForm) (v : EncryptedData) : Der :=
  .node 0x30 (
    req 0 dInt32 v.etype ++ (
    opt 1 (dUInt32 w) v.kvno ++ (
    req 2 dOctets v.cipher)))

/-- ASN.1 of ApRep, kerberos_asn1/src/ap_rep.rs (doc comment) -/
def ApRep.der (w : WireForm) (v : ApRep) : Der :=
  .node 0x6f [.node 0x30 (
    req 0 dInt32 v.pvno ++ (
    req 1 dInt32 v.msg_type ++ (
    req 2 (EncryptedData.der w) v.enc_part)))]

/-- ASN.1 of PrincipalName, kerberos_asn1/src/principal_name.rs (doc comment) -/
def PrincipalName.der  (v : PrincipalName) : Der :=
  .node 0x30 (
    req 0 dInt32 v.name_type ++ (
    req 1 (dSeqOf dString) v.name_string))

/-- ASN.1 of Ticket, kerberos_asn1/src/ticket.rs (doc comment) -/
def Ticket.der (w : WireForm) (v : Ticket) : Der :=
  .node 0x61 [.node 0x30 (
    req 0 dInt32 v.tkt_vno ++ (
    req 1 dString v.realm ++ (
    req 2 PrincipalName.der v.sname ++ (
    req 3 (EncryptedData.der w) v.enc_part))))]

/-- ASN.1 of ApReq, kerberos_asn1/src/ap_req.rs (doc comment) -/
def ApReq.der (w : WireForm) (v : ApReq) : Der :=
  .node 0x6e [.node 0x30 (
    req 0 dInt32 v.pvno ++ (
    req 1 dInt32 v.msg_type ++ (
    req 2 dFlags v.ap_options ++ (
    req 3 (Ticket.der w) v.ticket ++ (
    req 4 (EncryptedData.der w) v.authenticator)))))]

/-- ASN.1 of PaData, kerberos_asn1/src/pa_data/pa_data.rs (doc comment) -/
def PaData.der  (v : PaData) : Der :=
  .node 0x30 (
    req 1 dInt32 v.padata_type ++ (
    req 2 dOctets v.padata_value))

/-- ASN.1 of AsRep, kerberos_asn1/src/as_rep.rs (doc comment) -/
def AsRep.der (w : WireForm) (v : AsRep) : Der :=
  .node 0x6b [.node 0x30 (
    req 0 dInt32 v.pvno ++ (
    req 1 dInt32 v.msg_type ++ (
    opt 2 (dSeqOf PaData.der) v.padata ++ (
    req 3 dString v.crealm ++ (
    req 4 PrincipalName.der v.cname ++ (
    req 5 (Ticket.der w) v.ticket ++ (
    req 6 (EncryptedData.der w) v.enc_part)))))))]

/-- ASN.1 of HostAddress, kerberos_asn1/src/host_address.rs (doc comment) -/
def HostAddress.der  (v : HostAddress) : Der :=
  .node 0x30 (
    req 0 dInt32 v.addr_type ++ (
    req 1 dOctets v.address))

/-- ASN.1 of KdcReqBody, kerberos_asn1/src/kdc_req_body.rs (doc comment) -/
def KdcReqBody.der (w : WireForm) (v : KdcReqBody) : Der :=
  .node 0x30 (
    req 0 dFlags v.kdc_options ++ (
    opt 1 PrincipalName.der v.cname ++ (
    req 2 dString v.realm ++ (
    opt 3 PrincipalName.der v.sname ++ (
    opt 4 (dTime w) v.«from» ++ (
    req 5 (dTime w) v.till ++ (
    opt 6 (dTime w) v.rtime ++ (
    req 7 (dUInt32 w) v.nonce ++ (
    req 8 (dSeqOf dInt32) v.etypes ++ (
    opt 9 (dSeqOf HostAddress.der) v.addresses ++ (
    opt 10 (EncryptedData.der w) v.enc_authorization_data ++ (
    opt 11 (dSeqOf (Ticket.der w)) v.additional_tickets))))))))))))

/-- ASN.1 of AsReq, kerberos_asn1/src/as_req.rs (doc comment) -/
def AsReq.der (w : WireForm) (v : AsReq) : Der :=
  .node 0x6a [.node 0x30 (
    req 1 dInt32 v.pvno ++ (
    req 2 dInt32 v.msg_type ++ (
    opt 3 (dSeqOf PaData.der) v.padata ++ (
    req 4 (KdcReqBody.der w) v.req_body))))]

/-- ASN.1 of Checksum, kerberos_asn1/src/checksum.rs (doc comment) -/
def Checksum.der  (v : Checksum) : Der :=
  .node 0x30 (
    req 0 dInt32 v.cksumtype ++ (
    req 1 dOctets v.checksum))

/-- ASN.1 of EncryptionKey, kerberos_asn1/src/encryption_key.rs (doc comment) -/
def EncryptionKey.der  (v : EncryptionKey) : Der :=
  .node 0x30 (
    req 0 dInt32 v.keytype ++ (
    req 1 dOctets v.keyvalue))

/-- ASN.1 of AuthorizationDataEntry, kerberos_asn1/src/authorization_data.rs (doc comment) -/
def AuthorizationDataEntry.der  (v : AuthorizationDataEntry) : Der :=
  .node 0x30 (
    req 0 dInt32 v.ad_type ++ (
    req 1 dOctets v.ad_data))

/-- ASN.1 of Authenticator, kerberos_asn1/src/authenticator.rs (doc comment) -/
def Authenticator.der (w : WireForm) (v : Authenticator) : Der :=
  .node 0x62 [.node 0x30 (
    req 0 dInt32 v.authenticator_vno ++ (
    req 1 dString v.crealm ++ (
    req 2 PrincipalName.der v.cname ++ (
    opt 3 Checksum.der v.cksum ++ (
    req 4 dInt32 v.cusec ++ (
    req 5 (dTime w) v.ctime ++ (
    opt 6 EncryptionKey.der v.subkey ++ (
    opt 7 (dUInt32 w) v.seq_number ++ (
    opt 8 (dSeqOf AuthorizationDataEntry.der) v.authorization_data)))))))))]

/-- ASN.1 of EncApRepPart, kerberos_asn1/src/enc_ap_rep_part.rs (doc comment) -/
def EncApRepPart.der (w : WireForm) (v : EncApRepPart) : Der :=
  .node 0x7b [.node 0x30 (
    req 0 (dTime w) v.ctime ++ (
    req 1 dInt32 v.cusec ++ (
    req 2 EncryptionKey.der v.subkey ++ (
    req 3 (dUInt32 w) v.seq_number))))]

/-- ASN.1 of LastReqEntry, kerberos_asn1/src/last_req.rs (doc comment) -/
def LastReqEntry.der (w : WireForm) (v : LastReqEntry) : Der :=
  .node 0x30 (
    req 0 dInt32 v.lr_type ++ (
    req 1 (dTime w) v.lr_value))

/-- ASN.1 of EncAsRepPart, kerberos_asn1/src/enc_as_rep_part.rs (doc comment) -/
def EncAsRepPart.der (w : WireForm) (v : EncAsRepPart) : Der :=
  .node 0x79 [.node 0x30 (
    req 0 EncryptionKey.der v.key ++ (
    req 1 (dSeqOf (LastReqEntry.der w)) v.last_req ++ (
    req 2 (dUInt32 w) v.nonce ++ (
    opt 3 (dTime w) v.key_expiration ++ (
    req 4 dFlags v.flags ++ (
    req 5 (dTime w) v.authtime ++ (
    opt 6 (dTime w) v.starttime ++ (
    req 7 (dTime w) v.endtime ++ (
    opt 8 (dTime w) v.renew_till ++ (
    req 9 dString v.srealm ++ (
    req 10 PrincipalName.der v.sname ++ (
    opt 11 (dSeqOf HostAddress.der) v.caddr ++ (
    opt 12 (dSeqOf PaData.der) v.encrypted_pa_data)))))))))))))]

/-- ASN.1 of EncKdcRepPart, kerberos_asn1/src/enc_kdc_rep_part.rs (doc comment) -/
def EncKdcRepPart.der (w : WireForm) (v : EncKdcRepPart) : Der :=
  .node 0x30 (
    req 0 EncryptionKey.der v.key ++ (
    req 1 (dSeqOf (LastReqEntry.der w)) v.last_req ++ (
    req 2 (dUInt32 w) v.nonce ++ (
    opt 3 (dTime w) v.key_expiration ++ (
    req 4 dFlags v.flags ++ (
    req 5 (dTime w) v.authtime ++ (
    opt 6 (dTime w) v.starttime ++ (
    req 7 (dTime w) v.endtime ++ (
    opt 8 (dTime w) v.renew_till ++ (
    req 9 dString v.srealm ++ (
    req 10 PrincipalName.der v.sname ++ (
    opt 11 (dSeqOf HostAddress.der) v.caddr ++ (
    opt 12 (dSeqOf PaData.der) v.encrypted_pa_data)))))))))))))

/-- ASN.1 of KrbCredInfo, kerberos_asn1/src/krb_cred_info.rs (doc comment) -/
def KrbCredInfo.der (w : WireForm) (v : KrbCredInfo) : Der :=
  .node 0x30 (
    req 0 EncryptionKey.der v.key ++ (
    opt 1 dString v.prealm ++ (
    opt 2 PrincipalName.der v.pname ++ (
    opt 3 dFlags v.flags ++ (
    opt 4 (dTime w) v.authtime ++ (
    opt 5 (dTime w) v.starttime ++ (
    opt 6 (dTime w) v.endtime ++ (
    opt 7 (dTime w) v.renew_till ++ (
    opt 8 dString v.srealm ++ (
    opt 9 PrincipalName.der v.sname ++ (
    opt 10 (dSeqOf HostAddress.der) v.caddr)))))))))))

/-- ASN.1 of EncKrbCredPart, kerberos_asn1/src/enc_krb_cred_part.rs (doc comment) -/
def EncKrbCredPart.der (w : WireForm) (v : EncKrbCredPart) : Der :=
  .node 0x7d [.node 0x30 (
    req 0 (dSeqOf (KrbCredInfo.der w)) v.ticket_info ++ (
    opt 1 (dUInt32 w) v.nonce ++ (
    opt 2 (dTime w) v.timestamp ++ (
    opt 3 dInt32 v.usec ++ (
    opt 4 HostAddress.der v.s_address ++ (
    opt 5 HostAddress.der v.r_address))))))]

/-- ASN.1 of EncKrbPrivPart, kerberos_asn1/src/enc_krb_priv_part.rs (doc comment) -/
def EncKrbPrivPart.der (w : WireForm) (v : EncKrbPrivPart) : Der :=
  .node 0x7c [.node 0x30 (
    req 0 dOctets v.user_data ++ (
    opt 1 (dTime w) v.timestamp ++ (
    opt 2 dInt32 v.usec ++ (
    opt 3 (dUInt32 w) v.seq_number ++ (
    req 4 HostAddress.der v.s_address ++ (
    opt 5 HostAddress.der v.r_address))))))]

/-- ASN.1 of EncTgsRepPart, kerberos_asn1/src/enc_tgs_rep_part.rs (doc comment) -/
def EncTgsRepPart.der (w : WireForm) (v : EncTgsRepPart) : Der :=
  .node 0x7a [.node 0x30 (
    req 0 EncryptionKey.der v.key ++ (
    req 1 (dSeqOf (LastReqEntry.der w)) v.last_req ++ (
    req 2 (dUInt32 w) v.nonce ++ (
    opt 3 (dTime w) v.key_expiration ++ (
    req 4 dFlags v.flags ++ (
    req 5 (dTime w) v.authtime ++ (
    opt 6 (dTime w) v.starttime ++ (
    req 7 (dTime w) v.endtime ++ (
    opt 8 (dTime w) v.renew_till ++ (
    req 9 dString v.srealm ++ (
    req 10 PrincipalName.der v.sname ++ (
    opt 11 (dSeqOf HostAddress.der) v.caddr ++ (
    opt 12 (dSeqOf PaData.der) v.encrypted_pa_data)))))))))))))]

/-- ASN.1 of TransitedEncoding, kerberos_asn1/src/transited_encoding.rs (doc comment) -/
def TransitedEncoding.der  (v : TransitedEncoding) : Der :=
  .node 0x30 (
    req 0 dInt32 v.tr_type ++ (
    req 1 dOctets v.contents))

/-- ASN.1 of EncTicketPart, kerberos_asn1/src/enc_ticket_part.rs (doc comment) -/
def EncTicketPart.der (w : WireForm) (v : EncTicketPart) : Der :=
  .node 0x63 [.node 0x30 (
    req 0 dFlags v.flags ++ (
    req 1 EncryptionKey.der v.key ++ (
    req 2 dString v.crealm ++ (
    req 3 PrincipalName.der v.cname ++ (
    req 4 TransitedEncoding.der v.transited ++ (
    req 5 (dTime w) v.authtime ++ (
    opt 6 (dTime w) v.starttime ++ (
    req 7 (dTime w) v.endtime ++ (
    opt 8 (dTime w) v.renew_till ++ (
    opt 9 (dSeqOf HostAddress.der) v.caddr ++ (
    opt 10 (dSeqOf AuthorizationDataEntry.der) v.authorization_data)))))))))))]

/-- ASN.1 of KdcReq, kerberos_asn1/src/kdc_req.rs (doc comment) -/
def KdcReq.der (w : WireForm) (v : KdcReq) : Der :=
  .node 0x30 (
    req 1 dInt32 v.pvno ++ (
    req 2 dInt32 v.msg_type ++ (
    opt 3 (dSeqOf PaData.der) v.padata ++ (
    req 4 (KdcReqBody.der w) v.req_body))))

/-- ASN.1 of KerbAdRestrictionEntry, kerberos_asn1/src/kerb_ad_restriction_entry.rs (doc comment) -/
def KerbAdRestrictionEntry.der  (v : KerbAdRestrictionEntry) : Der :=
  .node 0x30 (
    req 0 dInt32 v.restriction_type ++ (
    req 1 dOctets v.restriction))

/-- ASN.1 of KerbErrorData, kerberos_asn1/src/kerb_error_data.rs (doc comment) -/
def KerbErrorData.der  (v : KerbErrorData) : Der :=
  .node 0x30 (
    req 1 dInt32 v.data_type ++ (
    opt 2 dOctets v.data_value))

/-- ASN.1 of KrbCred, kerberos_asn1/src/krb_cred.rs (doc comment) -/
def KrbCred.der (w : WireForm) (v : KrbCred) : Der :=
  .node 0x76 [.node 0x30 (
    req 0 dInt32 v.pvno ++ (
    req 1 dInt32 v.msg_type ++ (
    req 2 (dSeqOf (Ticket.der w)) v.tickets ++ (
    req 3 (EncryptedData.der w) v.enc_part))))]

/-- ASN.1 of KrbError, kerberos_asn1/src/krb_error.rs (doc comment) -/
def KrbError.der (w : WireForm) (v : KrbError) : Der :=
  .node 0x7e [.node 0x30 (
    req 0 dInt32 v.pvno ++ (
    req 1 dInt32 v.msg_type ++ (
    opt 2 (dTime w) v.ctime ++ (
    opt 3 dInt32 v.cusec ++ (
    req 4 (dTime w) v.stime ++ (
    req 5 dInt32 v.susec ++ (
    req 6 dInt32 v.error_code ++ (
    opt 7 dString v.crealm ++ (
    opt 8 PrincipalName.der v.cname ++ (
    req 9 dString v.realm ++ (
    req 10 PrincipalName.der v.sname ++ (
    opt 11 dString v.e_text ++ (
    opt 12 dOctets v.e_data)))))))))))))]

/-- ASN.1 of KrbPriv, kerberos_asn1/src/krb_priv.rs (doc comment) -/
def KrbPriv.der (w : WireForm) (v : KrbPriv) : Der :=
  .node 0x75 [.node 0x30 (
    req 0 dInt32 v.pvno ++ (
    req 1 dInt32 v.msg_type ++ (
    req 3 (EncryptedData.der w) v.enc_part)))]

/-- ASN.1 of KrbSafeBody, kerberos_asn1/src/krb_safe_body.rs (doc comment) -/
def KrbSafeBody.der (w : WireForm) (v : KrbSafeBody) : Der :=
  .node 0x30 (
    req 0 dOctets v.user_data ++ (
    opt 1 (dTime w) v.timestamp ++ (
    opt 2 dInt32 v.usec ++ (
    opt 3 (dUInt32 w) v.seq_number ++ (
    req 4 HostAddress.der v.s_address ++ (
    opt 5 HostAddress.der v.r_address))))))

/-- ASN.1 of KrbSafe, kerberos_asn1/src/krb_safe.rs (doc comment) -/
def KrbSafe.der (w : WireForm) (v : KrbSafe) : Der :=
  .node 0x74 [.node 0x30 (
    req 0 dInt32 v.pvno ++ (
    req 1 dInt32 v.msg_type ++ (
    req 2 (KrbSafeBody.der w) v.safe_body ++ (
    req 3 Checksum.der v.cksum))))]

/-- ASN.1 of AdAndOr, kerberos_asn1/src/pa_data/ad_and_or.rs (doc comment) -/
def AdAndOr.der  (v : AdAndOr) : Der :=
  .node 0x30 (
    req 0 dInt32 v.condition_count ++ (
    req 1 (dSeqOf AuthorizationDataEntry.der) v.elements))

/-- ASN.1 of AdKdcIssued, kerberos_asn1/src/pa_data/ad_kdcissued.rs (doc comment) -/
def AdKdcIssued.der  (v : AdKdcIssued) : Der :=
  .node 0x30 (
    req 0 Checksum.der v.ad_checksum ++ (
    opt 1 dString v.i_realm ++ (
    opt 2 PrincipalName.der v.i_sname ++ (
    req 3 (dSeqOf AuthorizationDataEntry.der) v.elements))))

/-- ASN.1 of EtypeInfo2Entry, kerberos_asn1/src/pa_data/etype_info2_entry.rs (doc comment) -/
def EtypeInfo2Entry.der  (v : EtypeInfo2Entry) : Der :=
  .node 0x30 (
    req 0 dInt32 v.etype ++ (
    opt 1 dString v.salt ++ (
    opt 2 dOctets v.s2kparams)))

/-- ASN.1 of EtypeInfoEntry, kerberos_asn1/src/pa_data/etype_info_entry.rs (doc comment) -/
def EtypeInfoEntry.der  (v : EtypeInfoEntry) : Der :=
  .node 0x30 (
    req 0 dInt32 v.etype ++ (
    opt 1 dOctets v.salt))

/-- ASN.1 of KerbPaPacRequest, kerberos_asn1/src/pa_data/kerb_pa_pac_request.rs (doc comment) -/
def KerbPaPacRequest.der  (v : KerbPaPacRequest) : Der :=
  .node 0x30 (
    req 0 dBool v.include_pac)

/-- ASN.1 of PaEncTsEnc, kerberos_asn1/src/pa_data/pa_enc_ts_enc.rs (doc comment) -/
def PaEncTsEnc.der (w : WireForm) (v : PaEncTsEnc) : Der :=
  .node 0x30 (
    req 0 (dTime w) v.patimestamp ++ (
    opt 1 dInt32 v.pausec))

/-- ASN.1 of PaForUser, kerberos_asn1/src/pa_data/pa_for_user.rs (doc comment) -/
def PaForUser.der  (v : PaForUser) : Der :=
  .node 0x30 (
    req 0 PrincipalName.der v.username ++ (
    req 1 dString v.userrealm ++ (
    req 2 Checksum.der v.cksum ++ (
    req 3 dString v.auth_package))))

/-- ASN.1 of PaPacOptions, kerberos_asn1/src/pa_data/pa_pac_options.rs (doc comment) -/
def PaPacOptions.der  (v : PaPacOptions) : Der :=
  .node 0x30 (
    req 0 dFlags v.kerberos_flags)

/-- ASN.1 of S4uUserId, kerberos_asn1/src/pa_data/s4userid.rs (doc comment) -/
def S4uUserId.der (w : WireForm) (v : S4uUserId) : Der :=
  .node 0x30 (
    req 0 (dUInt32 w) v.nonce ++ (
    opt 1 PrincipalName.der v.cname ++ (
    req 2 dString v.crealm ++ (
    opt 3 dOctets v.subject_certificate ++ (
    opt 4 dBits v.options)))))

/-- ASN.1 of PaS4uX509User, kerberos_asn1/src/pa_data/pa_s4u_x509_user.rs (doc comment) -/
def PaS4uX509User.der (w : WireForm) (v : PaS4uX509User) : Der :=
  .node 0x30 (
    req 0 (S4uUserId.der w) v.user_id ++ (
    req 1 Checksum.der v.checksum))

/-- ASN.1 of TgsRep, kerberos_asn1/src/tgs_rep.rs (doc comment) -/
def TgsRep.der (w : WireForm) (v : TgsRep) : Der :=
  .node 0x6d [.node 0x30 (
    req 0 dInt32 v.pvno ++ (
    req 1 dInt32 v.msg_type ++ (
    opt 2 (dSeqOf PaData.der) v.padata ++ (
    req 3 dString v.crealm ++ (
    req 4 PrincipalName.der v.cname ++ (
    req 5 (Ticket.der w) v.ticket ++ (
    req 6 (EncryptedData.der w) v.enc_part)))))))]

/-- ASN.1 of TgsReq, kerberos_asn1/src/tgs_req.rs (doc comment) -/
def TgsReq.der (w : WireForm) (v : TgsReq) : Der :=
  .node 0x6c [.node 0x30 (
    req 1 dInt32 v.pvno ++ (
    req 2 dInt32 v.msg_type ++ (
    opt 3 (dSeqOf PaData.der) v.padata ++ (
    req 4 (KdcReqBody.der w) v.req_body))))]

/-- ASN.1 of TypedDataEntry, kerberos_asn1/src/typed_data.rs (doc comment) -/
def TypedDataEntry.der  (v : TypedDataEntry) : Der :=
  .node 0x30 (
    req 0 dInt32 v.data_type ++ (
    opt 1 dOctets v.data_value))

/-- the DER value of a message -/
def MsgType.der (w : WireForm) : (T : MsgType) → T.Value → Der
  | .encryptedData => EncryptedData.der w
  | .apRep => ApRep.der w
  | .principalName => PrincipalName.der
  | .ticket => Ticket.der w
  | .apReq => ApReq.der w
  | .paData => PaData.der
  | .asRep => AsRep.der w
  | .hostAddress => HostAddress.der
  | .kdcReqBody => KdcReqBody.der w
  | .asReq => AsReq.der w
  | .checksum => Checksum.der
  | .encryptionKey => EncryptionKey.der
  | .authorizationDataEntry => AuthorizationDataEntry.der
  | .authenticator => Authenticator.der w
  | .encApRepPart => EncApRepPart.der w
  | .lastReqEntry => LastReqEntry.der w
  | .encAsRepPart => EncAsRepPart.der w
  | .encKdcRepPart => EncKdcRepPart.der w
  | .krbCredInfo => KrbCredInfo.der w
  | .encKrbCredPart => EncKrbCredPart.der w
  | .encKrbPrivPart => EncKrbPrivPart.der w
  | .encTgsRepPart => EncTgsRepPart.der w
  | .transitedEncoding => TransitedEncoding.der
  | .encTicketPart => EncTicketPart.der w
  | .kdcReq => KdcReq.der w
  | .kerbAdRestrictionEntry => KerbAdRestrictionEntry.der
  | .kerbErrorData => KerbErrorData.der
  | .krbCred => KrbCred.der w
  | .krbError => KrbError.der w
  | .krbPriv => KrbPriv.der w
  | .krbSafeBody => KrbSafeBody.der w
  | .krbSafe => KrbSafe.der w
  | .adAndOr => AdAndOr.der
  | .adKdcIssued => AdKdcIssued.der
  | .etypeInfo2Entry => EtypeInfo2Entry.der
  | .etypeInfoEntry => EtypeInfoEntry.der
  | .kerbPaPacRequest => KerbPaPacRequest.der
  | .paEncTsEnc => PaEncTsEnc.der w
  | .paForUser => PaForUser.der
  | .paPacOptions => PaPacOptions.der
  | .s4uUserId => S4uUserId.der w
  | .paS4uX509User => PaS4uX509User.der w
  | .tgsRep => TgsRep.der w
  | .tgsReq => TgsReq.der w
  | .typedDataEntry => TypedDataEntry.der
  | .hostAddresses => dSeqOf HostAddress.der
  | .authorizationData => dSeqOf AuthorizationDataEntry.der
  | .lastReq => dSeqOf (LastReqEntry.der w)
  | .typedData => dSeqOf TypedDataEntry.der
  | .etypeInfo => dSeqOf EtypeInfoEntry.der
  | .etypeInfo2 => dSeqOf EtypeInfo2Entry.der
  | .methodData => dSeqOf PaData.der
  | .kerbKeyListRep => dSeqOf EncryptionKey.der
  | .kerbKeyListReq => dSeqOf dInt32
  | .kerbLocal => dOctets
  | .realm => dString
  | .int32 => dInt32
  | .kerberosFlags => dFlags
  | .kerberosTime => dTime w
  | .uInt32 => dUInt32 w

/-! ### Messages whose numbers and dates have a form in the RFC that the library writes -/

def U32Ok (x : UInt32) : Prop := x.toNat < 2^31
def YearOk (t : DateTime) : Prop := 0 ≤ t.date.year ∧ t.date.year ≤ 9999

/-- its numbers are below 2^31 and its times in years 0 to 9999 -/
def EncryptedData.Plain (v : EncryptedData) : Prop :=
  OptOf U32Ok v.kvno

/-- its numbers are below 2^31 and its times in years 0 to 9999 -/
def ApRep.Plain (v : ApRep) : Prop :=
  EncryptedData.Plain v.enc_part

/-- no condition -/
def PrincipalName.Plain (_ : PrincipalName) : Prop := True

/-- its numbers are below 2^31 and its times in years 0 to 9999 -/
def Ticket.Plain (v : Ticket) : Prop :=
  EncryptedData.Plain v.enc_part

/-- its numbers are below 2^31 and its times in years 0 to 9999 -/
def ApReq.Plain (v : ApReq) : Prop :=
  Ticket.Plain v.ticket ∧ EncryptedData.Plain v.authenticator

/-- no condition -/
def PaData.Plain (_ : PaData) : Prop := True

/-- its numbers are below 2^31 and its times in years 0 to 9999 -/
def AsRep.Plain (v : AsRep) : Prop :=
  Ticket.Plain v.ticket ∧ EncryptedData.Plain v.enc_part

/-- no condition -/
def HostAddress.Plain (_ : HostAddress) : Prop := True

/-- its numbers are below 2^31 and its times in years 0 to 9999 -/
def KdcReqBody.Plain (v : KdcReqBody) : Prop :=
  OptOf YearOk v.«from» ∧ YearOk v.till ∧ OptOf YearOk v.rtime ∧ U32Ok v.nonce ∧ OptOf EncryptedData.Plain v.enc_authorization_data ∧ OptOf (AllOf Ticket.Plain) v.additional_tickets

/-- its numbers are below 2^31 and its times in years 0 to 9999 -/
def AsReq.Plain (v : AsReq) : Prop :=
  KdcReqBody.Plain v.req_body

/-- no condition -/
def Checksum.Plain (_ : Checksum) : Prop := True

/-- no condition -/
def EncryptionKey.Plain (_ : EncryptionKey) : Prop := True

/-- no condition -/
def AuthorizationDataEntry.Plain (_ : AuthorizationDataEntry) : Prop := True

/-- its numbers are below 2^31 and its times in years 0 to 9999 -/
def Authenticator.Plain (v : Authenticator) : Prop :=
  YearOk v.ctime ∧ OptOf U32Ok v.seq_number

/-- its numbers are below 2^31 and its times in years 0 to 9999 -/
def EncApRepPart.Plain (v : EncApRepPart) : Prop :=
  YearOk v.ctime ∧ U32Ok v.seq_number

/-- its numbers are below 2^31 and its times in years 0 to 9999 -/
def LastReqEntry.Plain (v : LastReqEntry) : Prop :=
  YearOk v.lr_value

/-- its numbers are below 2^31 and its times in years 0 to 9999 -/
def EncAsRepPart.Plain (v : EncAsRepPart) : Prop :=
  (AllOf LastReqEntry.Plain) v.last_req ∧ U32Ok v.nonce ∧ OptOf YearOk v.key_expiration ∧ YearOk v.authtime ∧ OptOf YearOk v.starttime ∧ YearOk v.endtime ∧ OptOf YearOk v.renew_till

/-- its numbers are below 2^31 and its times in years 0 to 9999 -/
def EncKdcRepPart.Plain (v : EncKdcRepPart) : Prop :=
  (AllOf LastReqEntry.Plain) v.last_req ∧ U32Ok v.nonce ∧ OptOf YearOk v.key_expiration ∧ YearOk v.authtime ∧ OptOf YearOk v.starttime ∧ YearOk v.endtime ∧ OptOf YearOk v.renew_till

/-- its numbers are below 2^31 and its times in years 0 to 9999 -/
def KrbCredInfo.Plain (v : KrbCredInfo) : Prop :=
  OptOf YearOk v.authtime ∧ OptOf YearOk v.starttime ∧ OptOf YearOk v.endtime ∧ OptOf YearOk v.renew_till

/-- its numbers are below 2^31 and its times in years 0 to 9999 -/
def EncKrbCredPart.Plain (v : EncKrbCredPart) : Prop :=
  (AllOf KrbCredInfo.Plain) v.ticket_info ∧ OptOf U32Ok v.nonce ∧ OptOf YearOk v.timestamp

/-- its numbers are below 2^31 and its times in years 0 to 9999 -/
def EncKrbPrivPart.Plain (v : EncKrbPrivPart) : Prop :=
  OptOf YearOk v.timestamp ∧ OptOf U32Ok v.seq_number

/-- its numbers are below 2^31 and its times in years 0 to 9999 -/
def EncTgsRepPart.Plain (v : EncTgsRepPart) : Prop :=
  (AllOf LastReqEntry.Plain) v.last_req ∧ U32Ok v.nonce ∧ OptOf YearOk v.key_expiration ∧ YearOk v.authtime ∧ OptOf YearOk v.starttime ∧ YearOk v.endtime ∧ OptOf YearOk v.renew_till

/-- no condition -/
def TransitedEncoding.Plain (_ : TransitedEncoding) : Prop := True

/-- its numbers are below 2^31 and its times in years 0 to 9999 -/
def EncTicketPart.Plain (v : EncTicketPart) : Prop :=
  YearOk v.authtime ∧ OptOf YearOk v.starttime ∧ YearOk v.endtime ∧ OptOf YearOk v.renew_till

/-- its numbers are below 2^31 and its times in years 0 to 9999 -/
def KdcReq.Plain (v : KdcReq) : Prop :=
  KdcReqBody.Plain v.req_body

/-- no condition -/
def KerbAdRestrictionEntry.Plain (_ : KerbAdRestrictionEntry) : Prop := True

/-- no condition -/
def KerbErrorData.Plain (_ : KerbErrorData) : Prop := True

/-- its numbers are below 2^31 and its times in years 0 to 9999 -/
def KrbCred.Plain (v : KrbCred) : Prop :=
  (AllOf Ticket.Plain) v.tickets ∧ EncryptedData.Plain v.enc_part

/-- its numbers are below 2^31 and its times in years 0 to 9999 -/
def KrbError.Plain (v : KrbError) : Prop :=
  OptOf YearOk v.ctime ∧ YearOk v.stime

/-- its numbers are below 2^31 and its times in years 0 to 9999 -/
def KrbPriv.Plain (v : KrbPriv) : Prop :=
  EncryptedData.Plain v.enc_part

/-- its numbers are below 2^31 and its times in years 0 to 9999 -/
def KrbSafeBody.Plain (v : KrbSafeBody) : Prop :=
  OptOf YearOk v.timestamp ∧ OptOf U32Ok v.seq_number

/-- its numbers are below 2^31 and its times in years 0 to 9999 -/
def KrbSafe.Plain (v : KrbSafe) : Prop :=
  KrbSafeBody.Plain v.safe_body

/-- no condition -/
def AdAndOr.Plain (_ : AdAndOr) : Prop := True

/-- no condition -/
def AdKdcIssued.Plain (_ : AdKdcIssued) : Prop := True

/-- no condition -/
def EtypeInfo2Entry.Plain (_ : EtypeInfo2Entry) : Prop := True

/-- no condition -/
def EtypeInfoEntry.Plain (_ : EtypeInfoEntry) : Prop := True

/-- no condition -/
def KerbPaPacRequest.Plain (_ : KerbPaPacRequest) : Prop := True

/-- its numbers are below 2^31 and its times in years 0 to 9999 -/
def PaEncTsEnc.Plain (v : PaEncTsEnc) : Prop :=
  YearOk v.patimestamp

/-- no condition -/
def PaForUser.Plain (_ : PaForUser) : Prop := True

/-- no condition -/
def PaPacOptions.Plain (_ : PaPacOptions) : Prop := True

/-- its numbers are below 2^31 and its times in years 0 to 9999 -/
def S4uUserId.Plain (v : S4uUserId) : Prop :=
  U32Ok v.nonce

/-- its numbers are below 2^31 and its times in years 0 to 9999 -/
def PaS4uX509User.Plain (v : PaS4uX509User) : Prop :=
  S4uUserId.Plain v.user_id

/-- its numbers are below 2^31 and its times in years 0 to 9999 -/
def TgsRep.Plain (v : TgsRep) : Prop :=
  Ticket.Plain v.ticket ∧ EncryptedData.Plain v.enc_part

/-- its numbers are below 2^31 and its times in years 0 to 9999 -/
def TgsReq.Plain (v : TgsReq) : Prop :=
  KdcReqBody.Plain v.req_body

/-- no condition -/
def TypedDataEntry.Plain (_ : TypedDataEntry) : Prop := True

/-- its numbers are below 2^31 and its times in years 0 to 9999 -/
def MsgType.Plain : (T : MsgType) → T.Value → Prop
  | .encryptedData => EncryptedData.Plain
  | .apRep => ApRep.Plain
  | .principalName => fun _ => True
  | .ticket => Ticket.Plain
  | .apReq => ApReq.Plain
  | .paData => fun _ => True
  | .asRep => AsRep.Plain
  | .hostAddress => fun _ => True
  | .kdcReqBody => KdcReqBody.Plain
  | .asReq => AsReq.Plain
  | .checksum => fun _ => True
  | .encryptionKey => fun _ => True
  | .authorizationDataEntry => fun _ => True
  | .authenticator => Authenticator.Plain
  | .encApRepPart => EncApRepPart.Plain
  | .lastReqEntry => LastReqEntry.Plain
  | .encAsRepPart => EncAsRepPart.Plain
  | .encKdcRepPart => EncKdcRepPart.Plain
  | .krbCredInfo => KrbCredInfo.Plain
  | .encKrbCredPart => EncKrbCredPart.Plain
  | .encKrbPrivPart => EncKrbPrivPart.Plain
  | .encTgsRepPart => EncTgsRepPart.Plain
  | .transitedEncoding => fun _ => True
  | .encTicketPart => EncTicketPart.Plain
  | .kdcReq => KdcReq.Plain
  | .kerbAdRestrictionEntry => fun _ => True
  | .kerbErrorData => fun _ => True
  | .krbCred => KrbCred.Plain
  | .krbError => KrbError.Plain
  | .krbPriv => KrbPriv.Plain
  | .krbSafeBody => KrbSafeBody.Plain
  | .krbSafe => KrbSafe.Plain
  | .adAndOr => fun _ => True
  | .adKdcIssued => fun _ => True
  | .etypeInfo2Entry => fun _ => True
  | .etypeInfoEntry => fun _ => True
  | .kerbPaPacRequest => fun _ => True
  | .paEncTsEnc => PaEncTsEnc.Plain
  | .paForUser => fun _ => True
  | .paPacOptions => fun _ => True
  | .s4uUserId => S4uUserId.Plain
  | .paS4uX509User => PaS4uX509User.Plain
  | .tgsRep => TgsRep.Plain
  | .tgsReq => TgsReq.Plain
  | .typedDataEntry => fun _ => True
  | .hostAddresses => fun _ => True
  | .authorizationData => fun _ => True
  | .lastReq => (AllOf LastReqEntry.Plain)
  | .typedData => fun _ => True
  | .etypeInfo => fun _ => True
  | .etypeInfo2 => fun _ => True
  | .methodData => fun _ => True
  | .kerbKeyListRep => fun _ => True
  | .kerbKeyListReq => fun _ => True
  | .kerbLocal => fun _ => True
  | .realm => fun _ => True
  | .int32 => fun _ => True
  | .kerberosFlags => fun _ => True
  | .kerberosTime => YearOk
  | .uInt32 => U32Ok

end Verif.Asn1
