import Verif.Asn1Misc
import Verif.WarehouseModel
/-
`==` on the messages of kerberos_asn1: every message type has `#[derive(PartialEq)]`, which compares field by field with
`==`; fields of type `PrincipalName` are compared by the hand-written comparison that ignores case
(principal_name.rs:43-62), so `==` on every message with a principal name in it does too. Generated from `Asn1Messages`.
Types without a principal name in them are compared by equality.
-/
namespace Verif.Asn1
open Verif.Crypto (CaseMap)

/-- derived `PartialEq` of `Option` (standard library) -/
def optEq {α} (f : α → α → Bool) : Option α → Option α → Bool
  | none, none => true
  | some a, some b => f a b
  | _, _ => false

/-- `PartialEq` of `Vec` (standard library) -/
def vecEq {α} (f : α → α → Bool) : List α → List α → Bool
  | [], [] => true
  | a :: l, b :: m => f a b && vecEq f l m
  | _, _ => false

/-- kerberos_asn1/src/ticket.rs:15-26, derived `PartialEq` -/
def Ticket.eq (M : CaseMap) (a b : Ticket) : Bool :=
  decide (a.tkt_vno = b.tkt_vno) &&
  decide (a.realm = b.realm) &&
  (PrincipalName.eq M) a.sname b.sname &&
  decide (a.enc_part = b.enc_part)

/-- kerberos_asn1/src/ap_req.rs:18-31, derived `PartialEq` -/
def ApReq.eq (M : CaseMap) (a b : ApReq) : Bool :=
  decide (a.pvno = b.pvno) &&
  decide (a.msg_type = b.msg_type) &&
  decide (a.ap_options = b.ap_options) &&
  (Ticket.eq M) a.ticket b.ticket &&
  decide (a.authenticator = b.authenticator)

/-- kerberos_asn1/src/as_rep.rs:22-39, derived `PartialEq` -/
def AsRep.eq (M : CaseMap) (a b : AsRep) : Bool :=
  decide (a.pvno = b.pvno) &&
  decide (a.msg_type = b.msg_type) &&
  decide (a.padata = b.padata) &&
  decide (a.crealm = b.crealm) &&
  (PrincipalName.eq M) a.cname b.cname &&
  (Ticket.eq M) a.ticket b.ticket &&
  decide (a.enc_part = b.enc_part)

/-- kerberos_asn1/src/kdc_req_body.rs:33-59, derived `PartialEq` -/
def KdcReqBody.eq (M : CaseMap) (a b : KdcReqBody) : Bool :=
  decide (a.kdc_options = b.kdc_options) &&
  (optEq (PrincipalName.eq M)) a.cname b.cname &&
  decide (a.realm = b.realm) &&
  (optEq (PrincipalName.eq M)) a.sname b.sname &&
  decide (a.«from» = b.«from») &&
  decide (a.till = b.till) &&
  decide (a.rtime = b.rtime) &&
  decide (a.nonce = b.nonce) &&
  decide (a.etypes = b.etypes) &&
  decide (a.addresses = b.addresses) &&
  decide (a.enc_authorization_data = b.enc_authorization_data) &&
  (optEq (vecEq (Ticket.eq M))) a.additional_tickets b.additional_tickets

/-- kerberos_asn1/src/as_req.rs:19-30, derived `PartialEq` -/
def AsReq.eq (M : CaseMap) (a b : AsReq) : Bool :=
  decide (a.pvno = b.pvno) &&
  decide (a.msg_type = b.msg_type) &&
  decide (a.padata = b.padata) &&
  (KdcReqBody.eq M) a.req_body b.req_body

/-- kerberos_asn1/src/authenticator.rs:25-46, derived `PartialEq` -/
def Authenticator.eq (M : CaseMap) (a b : Authenticator) : Bool :=
  decide (a.authenticator_vno = b.authenticator_vno) &&
  decide (a.crealm = b.crealm) &&
  (PrincipalName.eq M) a.cname b.cname &&
  decide (a.cksum = b.cksum) &&
  decide (a.cusec = b.cusec) &&
  decide (a.ctime = b.ctime) &&
  decide (a.subkey = b.subkey) &&
  decide (a.seq_number = b.seq_number) &&
  decide (a.authorization_data = b.authorization_data)

/-- kerberos_asn1/src/enc_as_rep_part.rs:29-58, derived `PartialEq` -/
def EncAsRepPart.eq (M : CaseMap) (a b : EncAsRepPart) : Bool :=
  decide (a.key = b.key) &&
  decide (a.last_req = b.last_req) &&
  decide (a.nonce = b.nonce) &&
  decide (a.key_expiration = b.key_expiration) &&
  decide (a.flags = b.flags) &&
  decide (a.authtime = b.authtime) &&
  decide (a.starttime = b.starttime) &&
  decide (a.endtime = b.endtime) &&
  decide (a.renew_till = b.renew_till) &&
  decide (a.srealm = b.srealm) &&
  (PrincipalName.eq M) a.sname b.sname &&
  decide (a.caddr = b.caddr) &&
  decide (a.encrypted_pa_data = b.encrypted_pa_data)

/-- kerberos_asn1/src/enc_kdc_rep_part.rs:28-56, derived `PartialEq` -/
def EncKdcRepPart.eq (M : CaseMap) (a b : EncKdcRepPart) : Bool :=
  decide (a.key = b.key) &&
  decide (a.last_req = b.last_req) &&
  decide (a.nonce = b.nonce) &&
  decide (a.key_expiration = b.key_expiration) &&
  decide (a.flags = b.flags) &&
  decide (a.authtime = b.authtime) &&
  decide (a.starttime = b.starttime) &&
  decide (a.endtime = b.endtime) &&
  decide (a.renew_till = b.renew_till) &&
  decide (a.srealm = b.srealm) &&
  (PrincipalName.eq M) a.sname b.sname &&
  decide (a.caddr = b.caddr) &&
  decide (a.encrypted_pa_data = b.encrypted_pa_data)

/-- kerberos_asn1/src/krb_cred_info.rs:25-49, derived `PartialEq` -/
def KrbCredInfo.eq (M : CaseMap) (a b : KrbCredInfo) : Bool :=
  decide (a.key = b.key) &&
  decide (a.prealm = b.prealm) &&
  (optEq (PrincipalName.eq M)) a.pname b.pname &&
  decide (a.flags = b.flags) &&
  decide (a.authtime = b.authtime) &&
  decide (a.starttime = b.starttime) &&
  decide (a.endtime = b.endtime) &&
  decide (a.renew_till = b.renew_till) &&
  decide (a.srealm = b.srealm) &&
  (optEq (PrincipalName.eq M)) a.sname b.sname &&
  decide (a.caddr = b.caddr)

/-- kerberos_asn1/src/enc_krb_cred_part.rs:16-31, derived `PartialEq` -/
def EncKrbCredPart.eq (M : CaseMap) (a b : EncKrbCredPart) : Bool :=
  (vecEq (KrbCredInfo.eq M)) a.ticket_info b.ticket_info &&
  decide (a.nonce = b.nonce) &&
  decide (a.timestamp = b.timestamp) &&
  decide (a.usec = b.usec) &&
  decide (a.s_address = b.s_address) &&
  decide (a.r_address = b.r_address)

/-- kerberos_asn1/src/enc_tgs_rep_part.rs:29-58, derived `PartialEq` -/
def EncTgsRepPart.eq (M : CaseMap) (a b : EncTgsRepPart) : Bool :=
  decide (a.key = b.key) &&
  decide (a.last_req = b.last_req) &&
  decide (a.nonce = b.nonce) &&
  decide (a.key_expiration = b.key_expiration) &&
  decide (a.flags = b.flags) &&
  decide (a.authtime = b.authtime) &&
  decide (a.starttime = b.starttime) &&
  decide (a.endtime = b.endtime) &&
  decide (a.renew_till = b.renew_till) &&
  decide (a.srealm = b.srealm) &&
  (PrincipalName.eq M) a.sname b.sname &&
  decide (a.caddr = b.caddr) &&
  decide (a.encrypted_pa_data = b.encrypted_pa_data)

/-- kerberos_asn1/src/enc_ticket_part.rs:26-51, derived `PartialEq` -/
def EncTicketPart.eq (M : CaseMap) (a b : EncTicketPart) : Bool :=
  decide (a.flags = b.flags) &&
  decide (a.key = b.key) &&
  decide (a.crealm = b.crealm) &&
  (PrincipalName.eq M) a.cname b.cname &&
  decide (a.transited = b.transited) &&
  decide (a.authtime = b.authtime) &&
  decide (a.starttime = b.starttime) &&
  decide (a.endtime = b.endtime) &&
  decide (a.renew_till = b.renew_till) &&
  decide (a.caddr = b.caddr) &&
  decide (a.authorization_data = b.authorization_data)

/-- kerberos_asn1/src/kdc_req.rs:19-29, derived `PartialEq` -/
def KdcReq.eq (M : CaseMap) (a b : KdcReq) : Bool :=
  decide (a.pvno = b.pvno) &&
  decide (a.msg_type = b.msg_type) &&
  decide (a.padata = b.padata) &&
  (KdcReqBody.eq M) a.req_body b.req_body

/-- kerberos_asn1/src/krb_cred.rs:15-26, derived `PartialEq` -/
def KrbCred.eq (M : CaseMap) (a b : KrbCred) : Bool :=
  decide (a.pvno = b.pvno) &&
  decide (a.msg_type = b.msg_type) &&
  (vecEq (Ticket.eq M)) a.tickets b.tickets &&
  decide (a.enc_part = b.enc_part)

/-- kerberos_asn1/src/krb_error.rs:26-55, derived `PartialEq` -/
def KrbError.eq (M : CaseMap) (a b : KrbError) : Bool :=
  decide (a.pvno = b.pvno) &&
  decide (a.msg_type = b.msg_type) &&
  decide (a.ctime = b.ctime) &&
  decide (a.cusec = b.cusec) &&
  decide (a.stime = b.stime) &&
  decide (a.susec = b.susec) &&
  decide (a.error_code = b.error_code) &&
  decide (a.crealm = b.crealm) &&
  (optEq (PrincipalName.eq M)) a.cname b.cname &&
  decide (a.realm = b.realm) &&
  (PrincipalName.eq M) a.sname b.sname &&
  decide (a.e_text = b.e_text) &&
  decide (a.e_data = b.e_data)

/-- kerberos_asn1/src/pa_data/ad_kdcissued.rs:15-25, derived `PartialEq` -/
def AdKdcIssued.eq (M : CaseMap) (a b : AdKdcIssued) : Bool :=
  decide (a.ad_checksum = b.ad_checksum) &&
  decide (a.i_realm = b.i_realm) &&
  (optEq (PrincipalName.eq M)) a.i_sname b.i_sname &&
  decide (a.elements = b.elements)

/-- kerberos_asn1/src/pa_data/pa_for_user.rs:16-26, derived `PartialEq` -/
def PaForUser.eq (M : CaseMap) (a b : PaForUser) : Bool :=
  (PrincipalName.eq M) a.username b.username &&
  decide (a.userrealm = b.userrealm) &&
  decide (a.cksum = b.cksum) &&
  decide (a.auth_package = b.auth_package)

/-- kerberos_asn1/src/pa_data/s4userid.rs:18-30, derived `PartialEq` -/
def S4uUserId.eq (M : CaseMap) (a b : S4uUserId) : Bool :=
  decide (a.nonce = b.nonce) &&
  (optEq (PrincipalName.eq M)) a.cname b.cname &&
  decide (a.crealm = b.crealm) &&
  decide (a.subject_certificate = b.subject_certificate) &&
  decide (a.options = b.options)

/-- kerberos_asn1/src/pa_data/pa_s4u_x509_user.rs:13-19, derived `PartialEq` -/
def PaS4uX509User.eq (M : CaseMap) (a b : PaS4uX509User) : Bool :=
  (S4uUserId.eq M) a.user_id b.user_id &&
  decide (a.checksum = b.checksum)

/-- kerberos_asn1/src/tgs_rep.rs:22-39, derived `PartialEq` -/
def TgsRep.eq (M : CaseMap) (a b : TgsRep) : Bool :=
  decide (a.pvno = b.pvno) &&
  decide (a.msg_type = b.msg_type) &&
  decide (a.padata = b.padata) &&
  decide (a.crealm = b.crealm) &&
  (PrincipalName.eq M) a.cname b.cname &&
  (Ticket.eq M) a.ticket b.ticket &&
  decide (a.enc_part = b.enc_part)

/-- kerberos_asn1/src/tgs_req.rs:19-30, derived `PartialEq` -/
def TgsReq.eq (M : CaseMap) (a b : TgsReq) : Bool :=
  decide (a.pvno = b.pvno) &&
  decide (a.msg_type = b.msg_type) &&
  decide (a.padata = b.padata) &&
  (KdcReqBody.eq M) a.req_body b.req_body

/-- `==` -/
def MsgType.eq (M : CaseMap) : (T : MsgType) → T.Value → T.Value → Bool
  | .encryptedData => fun (a b : EncryptedData) => decide (a = b)
  | .apRep => fun (a b : ApRep) => decide (a = b)
  | .principalName => PrincipalName.eq M
  | .ticket => Ticket.eq M
  | .apReq => ApReq.eq M
  | .paData => fun (a b : PaData) => decide (a = b)
  | .asRep => AsRep.eq M
  | .hostAddress => fun (a b : HostAddress) => decide (a = b)
  | .kdcReqBody => KdcReqBody.eq M
  | .asReq => AsReq.eq M
  | .checksum => fun (a b : Checksum) => decide (a = b)
  | .encryptionKey => fun (a b : EncryptionKey) => decide (a = b)
  | .authorizationDataEntry => fun (a b : AuthorizationDataEntry) => decide (a = b)
  | .authenticator => Authenticator.eq M
  | .encApRepPart => fun (a b : EncApRepPart) => decide (a = b)
  | .lastReqEntry => fun (a b : LastReqEntry) => decide (a = b)
  | .encAsRepPart => EncAsRepPart.eq M
  | .encKdcRepPart => EncKdcRepPart.eq M
  | .krbCredInfo => KrbCredInfo.eq M
  | .encKrbCredPart => EncKrbCredPart.eq M
  | .encKrbPrivPart => fun (a b : EncKrbPrivPart) => decide (a = b)
  | .encTgsRepPart => EncTgsRepPart.eq M
  | .transitedEncoding => fun (a b : TransitedEncoding) => decide (a = b)
  | .encTicketPart => EncTicketPart.eq M
  | .kdcReq => KdcReq.eq M
  | .kerbAdRestrictionEntry => fun (a b : KerbAdRestrictionEntry) => decide (a = b)
  | .kerbErrorData => fun (a b : KerbErrorData) => decide (a = b)
  | .krbCred => KrbCred.eq M
  | .krbError => KrbError.eq M
  | .krbPriv => fun (a b : KrbPriv) => decide (a = b)
  | .krbSafeBody => fun (a b : KrbSafeBody) => decide (a = b)
  | .krbSafe => fun (a b : KrbSafe) => decide (a = b)
  | .adAndOr => fun (a b : AdAndOr) => decide (a = b)
  | .adKdcIssued => AdKdcIssued.eq M
  | .etypeInfo2Entry => fun (a b : EtypeInfo2Entry) => decide (a = b)
  | .etypeInfoEntry => fun (a b : EtypeInfoEntry) => decide (a = b)
  | .kerbPaPacRequest => fun (a b : KerbPaPacRequest) => decide (a = b)
  | .paEncTsEnc => fun (a b : PaEncTsEnc) => decide (a = b)
  | .paForUser => PaForUser.eq M
  | .paPacOptions => fun (a b : PaPacOptions) => decide (a = b)
  | .s4uUserId => S4uUserId.eq M
  | .paS4uX509User => PaS4uX509User.eq M
  | .tgsRep => TgsRep.eq M
  | .tgsReq => TgsReq.eq M
  | .typedDataEntry => fun (a b : TypedDataEntry) => decide (a = b)
  | .hostAddresses => fun (a b : List HostAddress) => decide (a = b)
  | .authorizationData => fun (a b : List AuthorizationDataEntry) => decide (a = b)
  | .lastReq => fun (a b : List LastReqEntry) => decide (a = b)
  | .typedData => fun (a b : List TypedDataEntry) => decide (a = b)
  | .etypeInfo => fun (a b : List EtypeInfoEntry) => decide (a = b)
  | .etypeInfo2 => fun (a b : List EtypeInfo2Entry) => decide (a = b)
  | .methodData => fun (a b : List PaData) => decide (a = b)
  | .kerbKeyListRep => fun (a b : List EncryptionKey) => decide (a = b)
  | .kerbKeyListReq => fun (a b : List Int32) => decide (a = b)
  | .kerbLocal => fun (a b : Bytes) => decide (a = b)
  | .realm => fun (a b : List Char) => decide (a = b)
  | .int32 => fun (a b : Int32) => decide (a = b)
  | .kerberosFlags => fun (a b : UInt32) => decide (a = b)
  | .kerberosTime => fun (a b : DateTime) => decide (a = b)
  | .uInt32 => fun (a b : UInt32) => decide (a = b)

end Verif.Asn1

namespace Verif.Kb
open Verif.Asn1
open Verif.Crypto (CaseMap)

/-- kerbeiros/src/credentials/credential.rs:23-29, derived `PartialEq` -/
def Credential.eq (M : CaseMap) (a b : Credential) : Bool :=
  decide (a.crealm = b.crealm) && PrincipalName.eq M a.cname b.cname && Ticket.eq M a.ticket b.ticket &&
  EncAsRepPart.eq M a.client_part b.client_part

/-- kerbeiros/src/credentials/credential_warehouse.rs:26-32, derived `PartialEq` -/
def Warehouse.eq (M : CaseMap) (a b : Warehouse) : Bool :=
  vecEq (Credential.eq M) a.credentials b.credentials && decide (a.realm = b.realm) && PrincipalName.eq M a.client b.client

end Verif.Kb
