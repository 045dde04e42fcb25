import Verif.Asn1Core
/-
The message types of kerberos_asn1: every struct with `#[derive(Sequence)]`, its fields, context tags and
application tag, read off the sources (kerberos_asn1/src, one file per type).
Type aliases (Realm = KerberosString = String, KdcOptions = TicketFlags = ApOptions = KerberosFlags,
Microseconds = i32, HostAddresses, LastReq, AuthorizationData = vectors, ..) are expanded.
-/
namespace Verif.Asn1

/-- kerberos_asn1/src/encrypted_data.rs:13-21 -/
structure EncryptedData where
  etype : Int32
  kvno : Option UInt32
  cipher : Bytes
deriving DecidableEq, Repr

/-- kerberos_asn1/src/encrypted_data.rs:13-21, derived `Sequence` -/
def EncryptedData.fields (g : Cfg) : Fields EncryptedData :=
  (reqField g 0 (int32C g) <|
    optField g 1 (uint32C g) <|
    reqField g 2 octetsC <|
    noFields).imap
    (fun (x0, x1, x2, _) => ⟨x0, x1, x2⟩)
    (fun v => (v.etype, v.kvno, v.cipher, ()))

/-- kerberos_asn1/src/encrypted_data.rs:13-21 `impl Asn1Object for EncryptedData` -/
def encryptedDataC (g : Cfg) : Codec EncryptedData := seqC g (EncryptedData.fields g)

/-- kerberos_asn1/src/ap_rep.rs:14-23 -/
structure ApRep where
  pvno : Int32
  msg_type : Int32
  enc_part : EncryptedData
deriving DecidableEq, Repr

/-- kerberos_asn1/src/ap_rep.rs:14-23, derived `Sequence` -/
def ApRep.fields (g : Cfg) : Fields ApRep :=
  (reqField g 0 (int32C g) <|
    reqField g 1 (int32C g) <|
    reqField g 2 (encryptedDataC g) <|
    noFields).imap
    (fun (x0, x1, x2, _) => ⟨x0, x1, x2⟩)
    (fun v => (v.pvno, v.msg_type, v.enc_part, ()))

/-- kerberos_asn1/src/ap_rep.rs:14-23 `impl Asn1Object for ApRep` -/
def apRepC (g : Cfg) : Codec ApRep := appC g 15 (ApRep.fields g)

/-- kerberos_asn1/src/principal_name.rs:15-21 -/
structure PrincipalName where
  name_type : Int32
  name_string : List (List Char)
deriving DecidableEq, Repr

/-- kerberos_asn1/src/principal_name.rs:15-21, derived `Sequence` -/
def PrincipalName.fields (g : Cfg) : Fields PrincipalName :=
  (reqField g 0 (int32C g) <|
    reqField g 1 (seqOfC g stringC) <|
    noFields).imap
    (fun (x0, x1, _) => ⟨x0, x1⟩)
    (fun v => (v.name_type, v.name_string, ()))

/-- kerberos_asn1/src/principal_name.rs:15-21 `impl Asn1Object for PrincipalName` -/
def principalNameC (g : Cfg) : Codec PrincipalName := seqC g (PrincipalName.fields g)

/-- kerberos_asn1/src/ticket.rs:15-26 -/
structure Ticket where
  tkt_vno : Int32
  realm : List Char
  sname : PrincipalName
  enc_part : EncryptedData
deriving DecidableEq, Repr

/-- kerberos_asn1/src/ticket.rs:15-26, derived `Sequence` -/
def Ticket.fields (g : Cfg) : Fields Ticket :=
  (reqField g 0 (int32C g) <|
    reqField g 1 stringC <|
    reqField g 2 (principalNameC g) <|
    reqField g 3 (encryptedDataC g) <|
    noFields).imap
    (fun (x0, x1, x2, x3, _) => ⟨x0, x1, x2, x3⟩)
    (fun v => (v.tkt_vno, v.realm, v.sname, v.enc_part, ()))

/-- kerberos_asn1/src/ticket.rs:15-26 `impl Asn1Object for Ticket` -/
def ticketC (g : Cfg) : Codec Ticket := appC g 1 (Ticket.fields g)

/-- kerberos_asn1/src/ap_req.rs:18-31 -/
structure ApReq where
  pvno : Int32
  msg_type : Int32
  ap_options : UInt32
  ticket : Ticket
  authenticator : EncryptedData
deriving DecidableEq, Repr

/-- kerberos_asn1/src/ap_req.rs:18-31, derived `Sequence` -/
def ApReq.fields (g : Cfg) : Fields ApReq :=
  (reqField g 0 (int32C g) <|
    reqField g 1 (int32C g) <|
    reqField g 2 flagsC <|
    reqField g 3 (ticketC g) <|
    reqField g 4 (encryptedDataC g) <|
    noFields).imap
    (fun (x0, x1, x2, x3, x4, _) => ⟨x0, x1, x2, x3, x4⟩)
    (fun v => (v.pvno, v.msg_type, v.ap_options, v.ticket, v.authenticator, ()))

/-- kerberos_asn1/src/ap_req.rs:18-31 `impl Asn1Object for ApReq` -/
def apReqC (g : Cfg) : Codec ApReq := appC g 14 (ApReq.fields g)

/-- kerberos_asn1/src/pa_data/pa_data.rs:13-19 -/
structure PaData where
  padata_type : Int32
  padata_value : Bytes
deriving DecidableEq, Repr

/-- kerberos_asn1/src/pa_data/pa_data.rs:13-19, derived `Sequence` -/
def PaData.fields (g : Cfg) : Fields PaData :=
  (reqField g 1 (int32C g) <|
    reqField g 2 octetsC <|
    noFields).imap
    (fun (x0, x1, _) => ⟨x0, x1⟩)
    (fun v => (v.padata_type, v.padata_value, ()))

/-- kerberos_asn1/src/pa_data/pa_data.rs:13-19 `impl Asn1Object for PaData` -/
def paDataC (g : Cfg) : Codec PaData := seqC g (PaData.fields g)

/-- kerberos_asn1/src/as_rep.rs:22-39 -/
structure AsRep where
  pvno : Int32
  msg_type : Int32
  padata : Option (List PaData)
  crealm : List Char
  cname : PrincipalName
  ticket : Ticket
  enc_part : EncryptedData
deriving DecidableEq, Repr

/-- kerberos_asn1/src/as_rep.rs:22-39, derived `Sequence` -/
def AsRep.fields (g : Cfg) : Fields AsRep :=
  (reqField g 0 (int32C g) <|
    reqField g 1 (int32C g) <|
    optField g 2 (seqOfC g (paDataC g)) <|
    reqField g 3 stringC <|
    reqField g 4 (principalNameC g) <|
    reqField g 5 (ticketC g) <|
    reqField g 6 (encryptedDataC g) <|
    noFields).imap
    (fun (x0, x1, x2, x3, x4, x5, x6, _) => ⟨x0, x1, x2, x3, x4, x5, x6⟩)
    (fun v => (v.pvno, v.msg_type, v.padata, v.crealm, v.cname, v.ticket, v.enc_part, ()))

/-- kerberos_asn1/src/as_rep.rs:22-39 `impl Asn1Object for AsRep` -/
def asRepC (g : Cfg) : Codec AsRep := appC g 11 (AsRep.fields g)

/-- kerberos_asn1/src/host_address.rs:15-21 -/
structure HostAddress where
  addr_type : Int32
  address : Bytes
deriving DecidableEq, Repr

/-- kerberos_asn1/src/host_address.rs:15-21, derived `Sequence` -/
def HostAddress.fields (g : Cfg) : Fields HostAddress :=
  (reqField g 0 (int32C g) <|
    reqField g 1 octetsC <|
    noFields).imap
    (fun (x0, x1, _) => ⟨x0, x1⟩)
    (fun v => (v.addr_type, v.address, ()))

/-- kerberos_asn1/src/host_address.rs:15-21 `impl Asn1Object for HostAddress` -/
def hostAddressC (g : Cfg) : Codec HostAddress := seqC g (HostAddress.fields g)

/-- kerberos_asn1/src/kdc_req_body.rs:33-59 -/
structure KdcReqBody where
  kdc_options : UInt32
  cname : Option PrincipalName
  realm : List Char
  sname : Option PrincipalName
  «from» : Option DateTime
  till : DateTime
  rtime : Option DateTime
  nonce : UInt32
  etypes : List Int32
  addresses : Option (List HostAddress)
  enc_authorization_data : Option EncryptedData
  additional_tickets : Option (List Ticket)
deriving DecidableEq, Repr

/-- kerberos_asn1/src/kdc_req_body.rs:33-59, derived `Sequence` -/
def KdcReqBody.fields (g : Cfg) : Fields KdcReqBody :=
  (reqField g 0 flagsC <|
    optField g 1 (principalNameC g) <|
    reqField g 2 stringC <|
    optField g 3 (principalNameC g) <|
    optField g 4 (kerberosTimeC g) <|
    reqField g 5 (kerberosTimeC g) <|
    optField g 6 (kerberosTimeC g) <|
    reqField g 7 (uint32C g) <|
    reqField g 8 (seqOfC g (int32C g)) <|
    optField g 9 (seqOfC g (hostAddressC g)) <|
    optField g 10 (encryptedDataC g) <|
    optField g 11 (seqOfC g (ticketC g)) <|
    noFields).imap
    (fun (x0, x1, x2, x3, x4, x5, x6, x7, x8, x9, x10, x11, _) => ⟨x0, x1, x2, x3, x4, x5, x6, x7, x8, x9, x10, x11⟩)
    (fun v => (v.kdc_options, v.cname, v.realm, v.sname, v.«from», v.till, v.rtime, v.nonce, v.etypes, v.addresses, v.enc_authorization_data, v.additional_tickets, ()))

/-- kerberos_asn1/src/kdc_req_body.rs:33-59 `impl Asn1Object for KdcReqBody` -/
def kdcReqBodyC (g : Cfg) : Codec KdcReqBody := seqC g (KdcReqBody.fields g)

/-- kerberos_asn1/src/as_req.rs:19-30 -/
structure AsReq where
  pvno : Int32
  msg_type : Int32
  padata : Option (List PaData)
  req_body : KdcReqBody
deriving DecidableEq, Repr

/-- kerberos_asn1/src/as_req.rs:19-30, derived `Sequence` -/
def AsReq.fields (g : Cfg) : Fields AsReq :=
  (reqField g 1 (int32C g) <|
    reqField g 2 (int32C g) <|
    optField g 3 (seqOfC g (paDataC g)) <|
    reqField g 4 (kdcReqBodyC g) <|
    noFields).imap
    (fun (x0, x1, x2, x3, _) => ⟨x0, x1, x2, x3⟩)
    (fun v => (v.pvno, v.msg_type, v.padata, v.req_body, ()))

/-- kerberos_asn1/src/as_req.rs:19-30 `impl Asn1Object for AsReq` -/
def asReqC (g : Cfg) : Codec AsReq := appC g 10 (AsReq.fields g)

/-- kerberos_asn1/src/checksum.rs:13-19 -/
structure Checksum where
  cksumtype : Int32
  checksum : Bytes
deriving DecidableEq, Repr

/-- kerberos_asn1/src/checksum.rs:13-19, derived `Sequence` -/
def Checksum.fields (g : Cfg) : Fields Checksum :=
  (reqField g 0 (int32C g) <|
    reqField g 1 octetsC <|
    noFields).imap
    (fun (x0, x1, _) => ⟨x0, x1⟩)
    (fun v => (v.cksumtype, v.checksum, ()))

/-- kerberos_asn1/src/checksum.rs:13-19 `impl Asn1Object for Checksum` -/
def checksumC (g : Cfg) : Codec Checksum := seqC g (Checksum.fields g)

/-- kerberos_asn1/src/encryption_key.rs:14-20 -/
structure EncryptionKey where
  keytype : Int32
  keyvalue : Bytes
deriving DecidableEq, Repr

/-- kerberos_asn1/src/encryption_key.rs:14-20, derived `Sequence` -/
def EncryptionKey.fields (g : Cfg) : Fields EncryptionKey :=
  (reqField g 0 (int32C g) <|
    reqField g 1 octetsC <|
    noFields).imap
    (fun (x0, x1, _) => ⟨x0, x1⟩)
    (fun v => (v.keytype, v.keyvalue, ()))

/-- kerberos_asn1/src/encryption_key.rs:14-20 `impl Asn1Object for EncryptionKey` -/
def encryptionKeyC (g : Cfg) : Codec EncryptionKey := seqC g (EncryptionKey.fields g)

/-- kerberos_asn1/src/authorization_data.rs:17-23 -/
structure AuthorizationDataEntry where
  ad_type : Int32
  ad_data : Bytes
deriving DecidableEq, Repr

/-- kerberos_asn1/src/authorization_data.rs:17-23, derived `Sequence` -/
def AuthorizationDataEntry.fields (g : Cfg) : Fields AuthorizationDataEntry :=
  (reqField g 0 (int32C g) <|
    reqField g 1 octetsC <|
    noFields).imap
    (fun (x0, x1, _) => ⟨x0, x1⟩)
    (fun v => (v.ad_type, v.ad_data, ()))

/-- kerberos_asn1/src/authorization_data.rs:17-23 `impl Asn1Object for AuthorizationDataEntry` -/
def authorizationDataEntryC (g : Cfg) : Codec AuthorizationDataEntry := seqC g (AuthorizationDataEntry.fields g)

/-- kerberos_asn1/src/authenticator.rs:25-46 -/
structure Authenticator where
  authenticator_vno : Int32
  crealm : List Char
  cname : PrincipalName
  cksum : Option Checksum
  cusec : Int32
  ctime : DateTime
  subkey : Option EncryptionKey
  seq_number : Option UInt32
  authorization_data : Option (List AuthorizationDataEntry)
deriving DecidableEq, Repr

/-- kerberos_asn1/src/authenticator.rs:25-46, derived `Sequence` -/
def Authenticator.fields (g : Cfg) : Fields Authenticator :=
  (reqField g 0 (int32C g) <|
    reqField g 1 stringC <|
    reqField g 2 (principalNameC g) <|
    optField g 3 (checksumC g) <|
    reqField g 4 (int32C g) <|
    reqField g 5 (kerberosTimeC g) <|
    optField g 6 (encryptionKeyC g) <|
    optField g 7 (uint32C g) <|
    optField g 8 (seqOfC g (authorizationDataEntryC g)) <|
    noFields).imap
    (fun (x0, x1, x2, x3, x4, x5, x6, x7, x8, _) => ⟨x0, x1, x2, x3, x4, x5, x6, x7, x8⟩)
    (fun v => (v.authenticator_vno, v.crealm, v.cname, v.cksum, v.cusec, v.ctime, v.subkey, v.seq_number, v.authorization_data, ()))

/-- kerberos_asn1/src/authenticator.rs:25-46 `impl Asn1Object for Authenticator` -/
def authenticatorC (g : Cfg) : Codec Authenticator := appC g 2 (Authenticator.fields g)

/-- kerberos_asn1/src/enc_ap_rep_part.rs:15-26 -/
structure EncApRepPart where
  ctime : DateTime
  cusec : Int32
  subkey : EncryptionKey
  seq_number : UInt32
deriving DecidableEq, Repr

/-- kerberos_asn1/src/enc_ap_rep_part.rs:15-26, derived `Sequence` -/
def EncApRepPart.fields (g : Cfg) : Fields EncApRepPart :=
  (reqField g 0 (kerberosTimeC g) <|
    reqField g 1 (int32C g) <|
    reqField g 2 (encryptionKeyC g) <|
    reqField g 3 (uint32C g) <|
    noFields).imap
    (fun (x0, x1, x2, x3, _) => ⟨x0, x1, x2, x3⟩)
    (fun v => (v.ctime, v.cusec, v.subkey, v.seq_number, ()))

/-- kerberos_asn1/src/enc_ap_rep_part.rs:15-26 `impl Asn1Object for EncApRepPart` -/
def encApRepPartC (g : Cfg) : Codec EncApRepPart := appC g 27 (EncApRepPart.fields g)

/-- kerberos_asn1/src/last_req.rs:24-30 -/
structure LastReqEntry where
  lr_type : Int32
  lr_value : DateTime
deriving DecidableEq, Repr

/-- kerberos_asn1/src/last_req.rs:24-30, derived `Sequence` -/
def LastReqEntry.fields (g : Cfg) : Fields LastReqEntry :=
  (reqField g 0 (int32C g) <|
    reqField g 1 (kerberosTimeC g) <|
    noFields).imap
    (fun (x0, x1, _) => ⟨x0, x1⟩)
    (fun v => (v.lr_type, v.lr_value, ()))

/-- kerberos_asn1/src/last_req.rs:24-30 `impl Asn1Object for LastReqEntry` -/
def lastReqEntryC (g : Cfg) : Codec LastReqEntry := seqC g (LastReqEntry.fields g)

/-- kerberos_asn1/src/enc_as_rep_part.rs:29-58 -/
structure EncAsRepPart where
  key : EncryptionKey
  last_req : List LastReqEntry
  nonce : UInt32
  key_expiration : Option DateTime
  flags : UInt32
  authtime : DateTime
  starttime : Option DateTime
  endtime : DateTime
  renew_till : Option DateTime
  srealm : List Char
  sname : PrincipalName
  caddr : Option (List HostAddress)
  encrypted_pa_data : Option (List PaData)
deriving DecidableEq, Repr

/-- kerberos_asn1/src/enc_as_rep_part.rs:29-58, derived `Sequence` -/
def EncAsRepPart.fields (g : Cfg) : Fields EncAsRepPart :=
  (reqField g 0 (encryptionKeyC g) <|
    reqField g 1 (seqOfC g (lastReqEntryC g)) <|
    reqField g 2 (uint32C g) <|
    optField g 3 (kerberosTimeC g) <|
    reqField g 4 flagsC <|
    reqField g 5 (kerberosTimeC g) <|
    optField g 6 (kerberosTimeC g) <|
    reqField g 7 (kerberosTimeC g) <|
    optField g 8 (kerberosTimeC g) <|
    reqField g 9 stringC <|
    reqField g 10 (principalNameC g) <|
    optField g 11 (seqOfC g (hostAddressC g)) <|
    optField g 12 (seqOfC g (paDataC g)) <|
    noFields).imap
    (fun (x0, x1, x2, x3, x4, x5, x6, x7, x8, x9, x10, x11, x12, _) => ⟨x0, x1, x2, x3, x4, x5, x6, x7, x8, x9, x10, x11, x12⟩)
    (fun v => (v.key, v.last_req, v.nonce, v.key_expiration, v.flags, v.authtime, v.starttime, v.endtime, v.renew_till, v.srealm, v.sname, v.caddr, v.encrypted_pa_data, ()))

/-- kerberos_asn1/src/enc_as_rep_part.rs:29-58 `impl Asn1Object for EncAsRepPart` -/
def encAsRepPartC (g : Cfg) : Codec EncAsRepPart := appC g 25 (EncAsRepPart.fields g)

/-- kerberos_asn1/src/enc_kdc_rep_part.rs:28-56 -/
structure EncKdcRepPart where
  key : EncryptionKey
  last_req : List LastReqEntry
  nonce : UInt32
  key_expiration : Option DateTime
  flags : UInt32
  authtime : DateTime
  starttime : Option DateTime
  endtime : DateTime
  renew_till : Option DateTime
  srealm : List Char
  sname : PrincipalName
  caddr : Option (List HostAddress)
  encrypted_pa_data : Option (List PaData)
deriving DecidableEq, Repr

/-- kerberos_asn1/src/enc_kdc_rep_part.rs:28-56, derived `Sequence` -/
def EncKdcRepPart.fields (g : Cfg) : Fields EncKdcRepPart :=
  (reqField g 0 (encryptionKeyC g) <|
    reqField g 1 (seqOfC g (lastReqEntryC g)) <|
    reqField g 2 (uint32C g) <|
    optField g 3 (kerberosTimeC g) <|
    reqField g 4 flagsC <|
    reqField g 5 (kerberosTimeC g) <|
    optField g 6 (kerberosTimeC g) <|
    reqField g 7 (kerberosTimeC g) <|
    optField g 8 (kerberosTimeC g) <|
    reqField g 9 stringC <|
    reqField g 10 (principalNameC g) <|
    optField g 11 (seqOfC g (hostAddressC g)) <|
    optField g 12 (seqOfC g (paDataC g)) <|
    noFields).imap
    (fun (x0, x1, x2, x3, x4, x5, x6, x7, x8, x9, x10, x11, x12, _) => ⟨x0, x1, x2, x3, x4, x5, x6, x7, x8, x9, x10, x11, x12⟩)
    (fun v => (v.key, v.last_req, v.nonce, v.key_expiration, v.flags, v.authtime, v.starttime, v.endtime, v.renew_till, v.srealm, v.sname, v.caddr, v.encrypted_pa_data, ()))

/-- kerberos_asn1/src/enc_kdc_rep_part.rs:28-56 `impl Asn1Object for EncKdcRepPart` -/
def encKdcRepPartC (g : Cfg) : Codec EncKdcRepPart := seqC g (EncKdcRepPart.fields g)

/-- kerberos_asn1/src/krb_cred_info.rs:25-49 -/
structure KrbCredInfo where
  key : EncryptionKey
  prealm : Option (List Char)
  pname : Option PrincipalName
  flags : Option UInt32
  authtime : Option DateTime
  starttime : Option DateTime
  endtime : Option DateTime
  renew_till : Option DateTime
  srealm : Option (List Char)
  sname : Option PrincipalName
  caddr : Option (List HostAddress)
deriving DecidableEq, Repr

/-- kerberos_asn1/src/krb_cred_info.rs:25-49, derived `Sequence` -/
def KrbCredInfo.fields (g : Cfg) : Fields KrbCredInfo :=
  (reqField g 0 (encryptionKeyC g) <|
    optField g 1 stringC <|
    optField g 2 (principalNameC g) <|
    optField g 3 flagsC <|
    optField g 4 (kerberosTimeC g) <|
    optField g 5 (kerberosTimeC g) <|
    optField g 6 (kerberosTimeC g) <|
    optField g 7 (kerberosTimeC g) <|
    optField g 8 stringC <|
    optField g 9 (principalNameC g) <|
    optField g 10 (seqOfC g (hostAddressC g)) <|
    noFields).imap
    (fun (x0, x1, x2, x3, x4, x5, x6, x7, x8, x9, x10, _) => ⟨x0, x1, x2, x3, x4, x5, x6, x7, x8, x9, x10⟩)
    (fun v => (v.key, v.prealm, v.pname, v.flags, v.authtime, v.starttime, v.endtime, v.renew_till, v.srealm, v.sname, v.caddr, ()))

/-- kerberos_asn1/src/krb_cred_info.rs:25-49 `impl Asn1Object for KrbCredInfo` -/
def krbCredInfoC (g : Cfg) : Codec KrbCredInfo := seqC g (KrbCredInfo.fields g)

/-- kerberos_asn1/src/enc_krb_cred_part.rs:16-31 -/
structure EncKrbCredPart where
  ticket_info : List KrbCredInfo
  nonce : Option UInt32
  timestamp : Option DateTime
  usec : Option Int32
  s_address : Option HostAddress
  r_address : Option HostAddress
deriving DecidableEq, Repr

/-- kerberos_asn1/src/enc_krb_cred_part.rs:16-31, derived `Sequence` -/
def EncKrbCredPart.fields (g : Cfg) : Fields EncKrbCredPart :=
  (reqField g 0 (seqOfC g (krbCredInfoC g)) <|
    optField g 1 (uint32C g) <|
    optField g 2 (kerberosTimeC g) <|
    optField g 3 (int32C g) <|
    optField g 4 (hostAddressC g) <|
    optField g 5 (hostAddressC g) <|
    noFields).imap
    (fun (x0, x1, x2, x3, x4, x5, _) => ⟨x0, x1, x2, x3, x4, x5⟩)
    (fun v => (v.ticket_info, v.nonce, v.timestamp, v.usec, v.s_address, v.r_address, ()))

/-- kerberos_asn1/src/enc_krb_cred_part.rs:16-31 `impl Asn1Object for EncKrbCredPart` -/
def encKrbCredPartC (g : Cfg) : Codec EncKrbCredPart := appC g 29 (EncKrbCredPart.fields g)

/-- kerberos_asn1/src/enc_krb_priv_part.rs:16-31 -/
structure EncKrbPrivPart where
  user_data : Bytes
  timestamp : Option DateTime
  usec : Option Int32
  seq_number : Option UInt32
  s_address : HostAddress
  r_address : Option HostAddress
deriving DecidableEq, Repr

/-- kerberos_asn1/src/enc_krb_priv_part.rs:16-31, derived `Sequence` -/
def EncKrbPrivPart.fields (g : Cfg) : Fields EncKrbPrivPart :=
  (reqField g 0 octetsC <|
    optField g 1 (kerberosTimeC g) <|
    optField g 2 (int32C g) <|
    optField g 3 (uint32C g) <|
    reqField g 4 (hostAddressC g) <|
    optField g 5 (hostAddressC g) <|
    noFields).imap
    (fun (x0, x1, x2, x3, x4, x5, _) => ⟨x0, x1, x2, x3, x4, x5⟩)
    (fun v => (v.user_data, v.timestamp, v.usec, v.seq_number, v.s_address, v.r_address, ()))

/-- kerberos_asn1/src/enc_krb_priv_part.rs:16-31 `impl Asn1Object for EncKrbPrivPart` -/
def encKrbPrivPartC (g : Cfg) : Codec EncKrbPrivPart := appC g 28 (EncKrbPrivPart.fields g)

/-- kerberos_asn1/src/enc_tgs_rep_part.rs:29-58 -/
structure EncTgsRepPart where
  key : EncryptionKey
  last_req : List LastReqEntry
  nonce : UInt32
  key_expiration : Option DateTime
  flags : UInt32
  authtime : DateTime
  starttime : Option DateTime
  endtime : DateTime
  renew_till : Option DateTime
  srealm : List Char
  sname : PrincipalName
  caddr : Option (List HostAddress)
  encrypted_pa_data : Option (List PaData)
deriving DecidableEq, Repr

/-- kerberos_asn1/src/enc_tgs_rep_part.rs:29-58, derived `Sequence` -/
def EncTgsRepPart.fields (g : Cfg) : Fields EncTgsRepPart :=
  (reqField g 0 (encryptionKeyC g) <|
    reqField g 1 (seqOfC g (lastReqEntryC g)) <|
    reqField g 2 (uint32C g) <|
    optField g 3 (kerberosTimeC g) <|
    reqField g 4 flagsC <|
    reqField g 5 (kerberosTimeC g) <|
    optField g 6 (kerberosTimeC g) <|
    reqField g 7 (kerberosTimeC g) <|
    optField g 8 (kerberosTimeC g) <|
    reqField g 9 stringC <|
    reqField g 10 (principalNameC g) <|
    optField g 11 (seqOfC g (hostAddressC g)) <|
    optField g 12 (seqOfC g (paDataC g)) <|
    noFields).imap
    (fun (x0, x1, x2, x3, x4, x5, x6, x7, x8, x9, x10, x11, x12, _) => ⟨x0, x1, x2, x3, x4, x5, x6, x7, x8, x9, x10, x11, x12⟩)
    (fun v => (v.key, v.last_req, v.nonce, v.key_expiration, v.flags, v.authtime, v.starttime, v.endtime, v.renew_till, v.srealm, v.sname, v.caddr, v.encrypted_pa_data, ()))

/-- kerberos_asn1/src/enc_tgs_rep_part.rs:29-58 `impl Asn1Object for EncTgsRepPart` -/
def encTgsRepPartC (g : Cfg) : Codec EncTgsRepPart := appC g 26 (EncTgsRepPart.fields g)

/-- kerberos_asn1/src/transited_encoding.rs:14-20 -/
structure TransitedEncoding where
  tr_type : Int32
  contents : Bytes
deriving DecidableEq, Repr

/-- kerberos_asn1/src/transited_encoding.rs:14-20, derived `Sequence` -/
def TransitedEncoding.fields (g : Cfg) : Fields TransitedEncoding :=
  (reqField g 0 (int32C g) <|
    reqField g 1 octetsC <|
    noFields).imap
    (fun (x0, x1, _) => ⟨x0, x1⟩)
    (fun v => (v.tr_type, v.contents, ()))

/-- kerberos_asn1/src/transited_encoding.rs:14-20 `impl Asn1Object for TransitedEncoding` -/
def transitedEncodingC (g : Cfg) : Codec TransitedEncoding := seqC g (TransitedEncoding.fields g)

/-- kerberos_asn1/src/enc_ticket_part.rs:26-51 -/
structure EncTicketPart where
  flags : UInt32
  key : EncryptionKey
  crealm : List Char
  cname : PrincipalName
  transited : TransitedEncoding
  authtime : DateTime
  starttime : Option DateTime
  endtime : DateTime
  renew_till : Option DateTime
  caddr : Option (List HostAddress)
  authorization_data : Option (List AuthorizationDataEntry)
deriving DecidableEq, Repr

/-- kerberos_asn1/src/enc_ticket_part.rs:26-51, derived `Sequence` -/
def EncTicketPart.fields (g : Cfg) : Fields EncTicketPart :=
  (reqField g 0 flagsC <|
    reqField g 1 (encryptionKeyC g) <|
    reqField g 2 stringC <|
    reqField g 3 (principalNameC g) <|
    reqField g 4 (transitedEncodingC g) <|
    reqField g 5 (kerberosTimeC g) <|
    optField g 6 (kerberosTimeC g) <|
    reqField g 7 (kerberosTimeC g) <|
    optField g 8 (kerberosTimeC g) <|
    optField g 9 (seqOfC g (hostAddressC g)) <|
    optField g 10 (seqOfC g (authorizationDataEntryC g)) <|
    noFields).imap
    (fun (x0, x1, x2, x3, x4, x5, x6, x7, x8, x9, x10, _) => ⟨x0, x1, x2, x3, x4, x5, x6, x7, x8, x9, x10⟩)
    (fun v => (v.flags, v.key, v.crealm, v.cname, v.transited, v.authtime, v.starttime, v.endtime, v.renew_till, v.caddr, v.authorization_data, ()))

/-- kerberos_asn1/src/enc_ticket_part.rs:26-51 `impl Asn1Object for EncTicketPart` -/
def encTicketPartC (g : Cfg) : Codec EncTicketPart := appC g 3 (EncTicketPart.fields g)

/-- kerberos_asn1/src/kdc_req.rs:19-29 -/
structure KdcReq where
  pvno : Int32
  msg_type : Int32
  padata : Option (List PaData)
  req_body : KdcReqBody
deriving DecidableEq, Repr

/-- kerberos_asn1/src/kdc_req.rs:19-29, derived `Sequence` -/
def KdcReq.fields (g : Cfg) : Fields KdcReq :=
  (reqField g 1 (int32C g) <|
    reqField g 2 (int32C g) <|
    optField g 3 (seqOfC g (paDataC g)) <|
    reqField g 4 (kdcReqBodyC g) <|
    noFields).imap
    (fun (x0, x1, x2, x3, _) => ⟨x0, x1, x2, x3⟩)
    (fun v => (v.pvno, v.msg_type, v.padata, v.req_body, ()))

/-- kerberos_asn1/src/kdc_req.rs:19-29 `impl Asn1Object for KdcReq` -/
def kdcReqC (g : Cfg) : Codec KdcReq := seqC g (KdcReq.fields g)

/-- kerberos_asn1/src/kerb_ad_restriction_entry.rs:13-19 -/
structure KerbAdRestrictionEntry where
  restriction_type : Int32
  restriction : Bytes
deriving DecidableEq, Repr

/-- kerberos_asn1/src/kerb_ad_restriction_entry.rs:13-19, derived `Sequence` -/
def KerbAdRestrictionEntry.fields (g : Cfg) : Fields KerbAdRestrictionEntry :=
  (reqField g 0 (int32C g) <|
    reqField g 1 octetsC <|
    noFields).imap
    (fun (x0, x1, _) => ⟨x0, x1⟩)
    (fun v => (v.restriction_type, v.restriction, ()))

/-- kerberos_asn1/src/kerb_ad_restriction_entry.rs:13-19 `impl Asn1Object for KerbAdRestrictionEntry` -/
def kerbAdRestrictionEntryC (g : Cfg) : Codec KerbAdRestrictionEntry := seqC g (KerbAdRestrictionEntry.fields g)

/-- kerberos_asn1/src/kerb_error_data.rs:13-19 -/
structure KerbErrorData where
  data_type : Int32
  data_value : Option Bytes
deriving DecidableEq, Repr

/-- kerberos_asn1/src/kerb_error_data.rs:13-19, derived `Sequence` -/
def KerbErrorData.fields (g : Cfg) : Fields KerbErrorData :=
  (reqField g 1 (int32C g) <|
    optField g 2 octetsC <|
    noFields).imap
    (fun (x0, x1, _) => ⟨x0, x1⟩)
    (fun v => (v.data_type, v.data_value, ()))

/-- kerberos_asn1/src/kerb_error_data.rs:13-19 `impl Asn1Object for KerbErrorData` -/
def kerbErrorDataC (g : Cfg) : Codec KerbErrorData := seqC g (KerbErrorData.fields g)

/-- kerberos_asn1/src/krb_cred.rs:15-26 -/
structure KrbCred where
  pvno : Int32
  msg_type : Int32
  tickets : List Ticket
  enc_part : EncryptedData
deriving DecidableEq, Repr

/-- kerberos_asn1/src/krb_cred.rs:15-26, derived `Sequence` -/
def KrbCred.fields (g : Cfg) : Fields KrbCred :=
  (reqField g 0 (int32C g) <|
    reqField g 1 (int32C g) <|
    reqField g 2 (seqOfC g (ticketC g)) <|
    reqField g 3 (encryptedDataC g) <|
    noFields).imap
    (fun (x0, x1, x2, x3, _) => ⟨x0, x1, x2, x3⟩)
    (fun v => (v.pvno, v.msg_type, v.tickets, v.enc_part, ()))

/-- kerberos_asn1/src/krb_cred.rs:15-26 `impl Asn1Object for KrbCred` -/
def krbCredC (g : Cfg) : Codec KrbCred := appC g 22 (KrbCred.fields g)

/-- kerberos_asn1/src/krb_error.rs:26-55 -/
structure KrbError where
  pvno : Int32
  msg_type : Int32
  ctime : Option DateTime
  cusec : Option Int32
  stime : DateTime
  susec : Int32
  error_code : Int32
  crealm : Option (List Char)
  cname : Option PrincipalName
  realm : List Char
  sname : PrincipalName
  e_text : Option (List Char)
  e_data : Option Bytes
deriving DecidableEq, Repr

/-- kerberos_asn1/src/krb_error.rs:26-55, derived `Sequence` -/
def KrbError.fields (g : Cfg) : Fields KrbError :=
  (reqField g 0 (int32C g) <|
    reqField g 1 (int32C g) <|
    optField g 2 (kerberosTimeC g) <|
    optField g 3 (int32C g) <|
    reqField g 4 (kerberosTimeC g) <|
    reqField g 5 (int32C g) <|
    reqField g 6 (int32C g) <|
    optField g 7 stringC <|
    optField g 8 (principalNameC g) <|
    reqField g 9 stringC <|
    reqField g 10 (principalNameC g) <|
    optField g 11 stringC <|
    optField g 12 octetsC <|
    noFields).imap
    (fun (x0, x1, x2, x3, x4, x5, x6, x7, x8, x9, x10, x11, x12, _) => ⟨x0, x1, x2, x3, x4, x5, x6, x7, x8, x9, x10, x11, x12⟩)
    (fun v => (v.pvno, v.msg_type, v.ctime, v.cusec, v.stime, v.susec, v.error_code, v.crealm, v.cname, v.realm, v.sname, v.e_text, v.e_data, ()))

/-- kerberos_asn1/src/krb_error.rs:26-55 `impl Asn1Object for KrbError` -/
def krbErrorC (g : Cfg) : Codec KrbError := appC g 30 (KrbError.fields g)

/-- kerberos_asn1/src/krb_priv.rs:15-24 -/
structure KrbPriv where
  pvno : Int32
  msg_type : Int32
  enc_part : EncryptedData
deriving DecidableEq, Repr

/-- kerberos_asn1/src/krb_priv.rs:15-24, derived `Sequence` -/
def KrbPriv.fields (g : Cfg) : Fields KrbPriv :=
  (reqField g 0 (int32C g) <|
    reqField g 1 (int32C g) <|
    reqField g 3 (encryptedDataC g) <|
    noFields).imap
    (fun (x0, x1, x2, _) => ⟨x0, x1, x2⟩)
    (fun v => (v.pvno, v.msg_type, v.enc_part, ()))

/-- kerberos_asn1/src/krb_priv.rs:15-24 `impl Asn1Object for KrbPriv` -/
def krbPrivC (g : Cfg) : Codec KrbPriv := appC g 21 (KrbPriv.fields g)

/-- kerberos_asn1/src/krb_safe_body.rs:17-31 -/
structure KrbSafeBody where
  user_data : Bytes
  timestamp : Option DateTime
  usec : Option Int32
  seq_number : Option UInt32
  s_address : HostAddress
  r_address : Option HostAddress
deriving DecidableEq, Repr

/-- kerberos_asn1/src/krb_safe_body.rs:17-31, derived `Sequence` -/
def KrbSafeBody.fields (g : Cfg) : Fields KrbSafeBody :=
  (reqField g 0 octetsC <|
    optField g 1 (kerberosTimeC g) <|
    optField g 2 (int32C g) <|
    optField g 3 (uint32C g) <|
    reqField g 4 (hostAddressC g) <|
    optField g 5 (hostAddressC g) <|
    noFields).imap
    (fun (x0, x1, x2, x3, x4, x5, _) => ⟨x0, x1, x2, x3, x4, x5⟩)
    (fun v => (v.user_data, v.timestamp, v.usec, v.seq_number, v.s_address, v.r_address, ()))

/-- kerberos_asn1/src/krb_safe_body.rs:17-31 `impl Asn1Object for KrbSafeBody` -/
def krbSafeBodyC (g : Cfg) : Codec KrbSafeBody := seqC g (KrbSafeBody.fields g)

/-- kerberos_asn1/src/krb_safe.rs:15-26 -/
structure KrbSafe where
  pvno : Int32
  msg_type : Int32
  safe_body : KrbSafeBody
  cksum : Checksum
deriving DecidableEq, Repr

/-- kerberos_asn1/src/krb_safe.rs:15-26, derived `Sequence` -/
def KrbSafe.fields (g : Cfg) : Fields KrbSafe :=
  (reqField g 0 (int32C g) <|
    reqField g 1 (int32C g) <|
    reqField g 2 (krbSafeBodyC g) <|
    reqField g 3 (checksumC g) <|
    noFields).imap
    (fun (x0, x1, x2, x3, _) => ⟨x0, x1, x2, x3⟩)
    (fun v => (v.pvno, v.msg_type, v.safe_body, v.cksum, ()))

/-- kerberos_asn1/src/krb_safe.rs:15-26 `impl Asn1Object for KrbSafe` -/
def krbSafeC (g : Cfg) : Codec KrbSafe := appC g 20 (KrbSafe.fields g)

/-- kerberos_asn1/src/pa_data/ad_and_or.rs:13-19 -/
structure AdAndOr where
  condition_count : Int32
  elements : List AuthorizationDataEntry
deriving DecidableEq, Repr

/-- kerberos_asn1/src/pa_data/ad_and_or.rs:13-19, derived `Sequence` -/
def AdAndOr.fields (g : Cfg) : Fields AdAndOr :=
  (reqField g 0 (int32C g) <|
    reqField g 1 (seqOfC g (authorizationDataEntryC g)) <|
    noFields).imap
    (fun (x0, x1, _) => ⟨x0, x1⟩)
    (fun v => (v.condition_count, v.elements, ()))

/-- kerberos_asn1/src/pa_data/ad_and_or.rs:13-19 `impl Asn1Object for AdAndOr` -/
def adAndOrC (g : Cfg) : Codec AdAndOr := seqC g (AdAndOr.fields g)

/-- kerberos_asn1/src/pa_data/ad_kdcissued.rs:15-25 -/
structure AdKdcIssued where
  ad_checksum : Checksum
  i_realm : Option (List Char)
  i_sname : Option PrincipalName
  elements : List AuthorizationDataEntry
deriving DecidableEq, Repr

/-- kerberos_asn1/src/pa_data/ad_kdcissued.rs:15-25, derived `Sequence` -/
def AdKdcIssued.fields (g : Cfg) : Fields AdKdcIssued :=
  (reqField g 0 (checksumC g) <|
    optField g 1 stringC <|
    optField g 2 (principalNameC g) <|
    reqField g 3 (seqOfC g (authorizationDataEntryC g)) <|
    noFields).imap
    (fun (x0, x1, x2, x3, _) => ⟨x0, x1, x2, x3⟩)
    (fun v => (v.ad_checksum, v.i_realm, v.i_sname, v.elements, ()))

/-- kerberos_asn1/src/pa_data/ad_kdcissued.rs:15-25 `impl Asn1Object for AdKdcIssued` -/
def adKdcIssuedC (g : Cfg) : Codec AdKdcIssued := seqC g (AdKdcIssued.fields g)

/-- kerberos_asn1/src/pa_data/etype_info2_entry.rs:14-22 -/
structure EtypeInfo2Entry where
  etype : Int32
  salt : Option (List Char)
  s2kparams : Option Bytes
deriving DecidableEq, Repr

/-- kerberos_asn1/src/pa_data/etype_info2_entry.rs:14-22, derived `Sequence` -/
def EtypeInfo2Entry.fields (g : Cfg) : Fields EtypeInfo2Entry :=
  (reqField g 0 (int32C g) <|
    optField g 1 stringC <|
    optField g 2 octetsC <|
    noFields).imap
    (fun (x0, x1, x2, _) => ⟨x0, x1, x2⟩)
    (fun v => (v.etype, v.salt, v.s2kparams, ()))

/-- kerberos_asn1/src/pa_data/etype_info2_entry.rs:14-22 `impl Asn1Object for EtypeInfo2Entry` -/
def etypeInfo2EntryC (g : Cfg) : Codec EtypeInfo2Entry := seqC g (EtypeInfo2Entry.fields g)

/-- kerberos_asn1/src/pa_data/etype_info_entry.rs:13-19 -/
structure EtypeInfoEntry where
  etype : Int32
  salt : Option Bytes
deriving DecidableEq, Repr

/-- kerberos_asn1/src/pa_data/etype_info_entry.rs:13-19, derived `Sequence` -/
def EtypeInfoEntry.fields (g : Cfg) : Fields EtypeInfoEntry :=
  (reqField g 0 (int32C g) <|
    optField g 1 octetsC <|
    noFields).imap
    (fun (x0, x1, _) => ⟨x0, x1⟩)
    (fun v => (v.etype, v.salt, ()))

/-- kerberos_asn1/src/pa_data/etype_info_entry.rs:13-19 `impl Asn1Object for EtypeInfoEntry` -/
def etypeInfoEntryC (g : Cfg) : Codec EtypeInfoEntry := seqC g (EtypeInfoEntry.fields g)

/-- kerberos_asn1/src/pa_data/kerb_pa_pac_request.rs:12-16 -/
structure KerbPaPacRequest where
  include_pac : Bool
deriving DecidableEq, Repr

/-- kerberos_asn1/src/pa_data/kerb_pa_pac_request.rs:12-16, derived `Sequence` -/
def KerbPaPacRequest.fields (g : Cfg) : Fields KerbPaPacRequest :=
  (reqField g 0 (boolC g) <|
    noFields).imap
    (fun (x0, _) => ⟨x0⟩)
    (fun v => (v.include_pac, ()))

/-- kerberos_asn1/src/pa_data/kerb_pa_pac_request.rs:12-16 `impl Asn1Object for KerbPaPacRequest` -/
def kerbPaPacRequestC (g : Cfg) : Codec KerbPaPacRequest := seqC g (KerbPaPacRequest.fields g)

/-- kerberos_asn1/src/pa_data/pa_enc_ts_enc.rs:13-19 -/
structure PaEncTsEnc where
  patimestamp : DateTime
  pausec : Option Int32
deriving DecidableEq, Repr

/-- kerberos_asn1/src/pa_data/pa_enc_ts_enc.rs:13-19, derived `Sequence` -/
def PaEncTsEnc.fields (g : Cfg) : Fields PaEncTsEnc :=
  (reqField g 0 (kerberosTimeC g) <|
    optField g 1 (int32C g) <|
    noFields).imap
    (fun (x0, x1, _) => ⟨x0, x1⟩)
    (fun v => (v.patimestamp, v.pausec, ()))

/-- kerberos_asn1/src/pa_data/pa_enc_ts_enc.rs:13-19 `impl Asn1Object for PaEncTsEnc` -/
def paEncTsEncC (g : Cfg) : Codec PaEncTsEnc := seqC g (PaEncTsEnc.fields g)

/-- kerberos_asn1/src/pa_data/pa_for_user.rs:16-26 -/
structure PaForUser where
  username : PrincipalName
  userrealm : List Char
  cksum : Checksum
  auth_package : List Char
deriving DecidableEq, Repr

/-- kerberos_asn1/src/pa_data/pa_for_user.rs:16-26, derived `Sequence` -/
def PaForUser.fields (g : Cfg) : Fields PaForUser :=
  (reqField g 0 (principalNameC g) <|
    reqField g 1 stringC <|
    reqField g 2 (checksumC g) <|
    reqField g 3 stringC <|
    noFields).imap
    (fun (x0, x1, x2, x3, _) => ⟨x0, x1, x2, x3⟩)
    (fun v => (v.username, v.userrealm, v.cksum, v.auth_package, ()))

/-- kerberos_asn1/src/pa_data/pa_for_user.rs:16-26 `impl Asn1Object for PaForUser` -/
def paForUserC (g : Cfg) : Codec PaForUser := seqC g (PaForUser.fields g)

/-- kerberos_asn1/src/pa_data/pa_pac_options.rs:16-20 -/
structure PaPacOptions where
  kerberos_flags : UInt32
deriving DecidableEq, Repr

/-- kerberos_asn1/src/pa_data/pa_pac_options.rs:16-20, derived `Sequence` -/
def PaPacOptions.fields (g : Cfg) : Fields PaPacOptions :=
  (reqField g 0 flagsC <|
    noFields).imap
    (fun (x0, _) => ⟨x0⟩)
    (fun v => (v.kerberos_flags, ()))

/-- kerberos_asn1/src/pa_data/pa_pac_options.rs:16-20 `impl Asn1Object for PaPacOptions` -/
def paPacOptionsC (g : Cfg) : Codec PaPacOptions := seqC g (PaPacOptions.fields g)

/-- kerberos_asn1/src/pa_data/s4userid.rs:18-30 -/
structure S4uUserId where
  nonce : UInt32
  cname : Option PrincipalName
  crealm : List Char
  subject_certificate : Option Bytes
  options : Option BitString
deriving DecidableEq, Repr

/-- kerberos_asn1/src/pa_data/s4userid.rs:18-30, derived `Sequence` -/
def S4uUserId.fields (g : Cfg) : Fields S4uUserId :=
  (reqField g 0 (uint32C g) <|
    optField g 1 (principalNameC g) <|
    reqField g 2 stringC <|
    optField g 3 octetsC <|
    optField g 4 bitStringC <|
    noFields).imap
    (fun (x0, x1, x2, x3, x4, _) => ⟨x0, x1, x2, x3, x4⟩)
    (fun v => (v.nonce, v.cname, v.crealm, v.subject_certificate, v.options, ()))

/-- kerberos_asn1/src/pa_data/s4userid.rs:18-30 `impl Asn1Object for S4uUserId` -/
def s4uUserIdC (g : Cfg) : Codec S4uUserId := seqC g (S4uUserId.fields g)

/-- kerberos_asn1/src/pa_data/pa_s4u_x509_user.rs:13-19 -/
structure PaS4uX509User where
  user_id : S4uUserId
  checksum : Checksum
deriving DecidableEq, Repr

/-- kerberos_asn1/src/pa_data/pa_s4u_x509_user.rs:13-19, derived `Sequence` -/
def PaS4uX509User.fields (g : Cfg) : Fields PaS4uX509User :=
  (reqField g 0 (s4uUserIdC g) <|
    reqField g 1 (checksumC g) <|
    noFields).imap
    (fun (x0, x1, _) => ⟨x0, x1⟩)
    (fun v => (v.user_id, v.checksum, ()))

/-- kerberos_asn1/src/pa_data/pa_s4u_x509_user.rs:13-19 `impl Asn1Object for PaS4uX509User` -/
def paS4uX509UserC (g : Cfg) : Codec PaS4uX509User := seqC g (PaS4uX509User.fields g)

/-- kerberos_asn1/src/tgs_rep.rs:22-39 -/
structure TgsRep where
  pvno : Int32
  msg_type : Int32
  padata : Option (List PaData)
  crealm : List Char
  cname : PrincipalName
  ticket : Ticket
  enc_part : EncryptedData
deriving DecidableEq, Repr

/-- kerberos_asn1/src/tgs_rep.rs:22-39, derived `Sequence` -/
def TgsRep.fields (g : Cfg) : Fields TgsRep :=
  (reqField g 0 (int32C g) <|
    reqField g 1 (int32C g) <|
    optField g 2 (seqOfC g (paDataC g)) <|
    reqField g 3 stringC <|
    reqField g 4 (principalNameC g) <|
    reqField g 5 (ticketC g) <|
    reqField g 6 (encryptedDataC g) <|
    noFields).imap
    (fun (x0, x1, x2, x3, x4, x5, x6, _) => ⟨x0, x1, x2, x3, x4, x5, x6⟩)
    (fun v => (v.pvno, v.msg_type, v.padata, v.crealm, v.cname, v.ticket, v.enc_part, ()))

/-- kerberos_asn1/src/tgs_rep.rs:22-39 `impl Asn1Object for TgsRep` -/
def tgsRepC (g : Cfg) : Codec TgsRep := appC g 13 (TgsRep.fields g)

/-- kerberos_asn1/src/tgs_req.rs:19-30 -/
structure TgsReq where
  pvno : Int32
  msg_type : Int32
  padata : Option (List PaData)
  req_body : KdcReqBody
deriving DecidableEq, Repr

/-- kerberos_asn1/src/tgs_req.rs:19-30, derived `Sequence` -/
def TgsReq.fields (g : Cfg) : Fields TgsReq :=
  (reqField g 1 (int32C g) <|
    reqField g 2 (int32C g) <|
    optField g 3 (seqOfC g (paDataC g)) <|
    reqField g 4 (kdcReqBodyC g) <|
    noFields).imap
    (fun (x0, x1, x2, x3, _) => ⟨x0, x1, x2, x3⟩)
    (fun v => (v.pvno, v.msg_type, v.padata, v.req_body, ()))

/-- kerberos_asn1/src/tgs_req.rs:19-30 `impl Asn1Object for TgsReq` -/
def tgsReqC (g : Cfg) : Codec TgsReq := appC g 12 (TgsReq.fields g)

/-- kerberos_asn1/src/typed_data.rs:22-28 -/
structure TypedDataEntry where
  data_type : Int32
  data_value : Option Bytes
deriving DecidableEq, Repr

/-- kerberos_asn1/src/typed_data.rs:22-28, derived `Sequence` -/
def TypedDataEntry.fields (g : Cfg) : Fields TypedDataEntry :=
  (reqField g 0 (int32C g) <|
    optField g 1 octetsC <|
    noFields).imap
    (fun (x0, x1, _) => ⟨x0, x1⟩)
    (fun v => (v.data_type, v.data_value, ()))

/-- kerberos_asn1/src/typed_data.rs:22-28 `impl Asn1Object for TypedDataEntry` -/
def typedDataEntryC (g : Cfg) : Codec TypedDataEntry := seqC g (TypedDataEntry.fields g)

/-- The message types: every struct above, and the vectors and basic types used as messages of their own
(EtypeInfo2, MethodData, HostAddresses, ..). -/
inductive MsgType where
  | encryptedData
  | apRep
  | principalName
  | ticket
  | apReq
  | paData
  | asRep
  | hostAddress
  | kdcReqBody
  | asReq
  | checksum
  | encryptionKey
  | authorizationDataEntry
  | authenticator
  | encApRepPart
  | lastReqEntry
  | encAsRepPart
  | encKdcRepPart
  | krbCredInfo
  | encKrbCredPart
  | encKrbPrivPart
  | encTgsRepPart
  | transitedEncoding
  | encTicketPart
  | kdcReq
  | kerbAdRestrictionEntry
  | kerbErrorData
  | krbCred
  | krbError
  | krbPriv
  | krbSafeBody
  | krbSafe
  | adAndOr
  | adKdcIssued
  | etypeInfo2Entry
  | etypeInfoEntry
  | kerbPaPacRequest
  | paEncTsEnc
  | paForUser
  | paPacOptions
  | s4uUserId
  | paS4uX509User
  | tgsRep
  | tgsReq
  | typedDataEntry
  | hostAddresses
  | authorizationData
  | lastReq
  | typedData
  | etypeInfo
  | etypeInfo2
  | methodData
  | kerbKeyListRep
  | kerbKeyListReq
  | kerbLocal
  | realm
  | int32
  | kerberosFlags
  | kerberosTime
  | uInt32

/-- the Rust type -/
abbrev MsgType.Value : MsgType → Type
  | .encryptedData => EncryptedData
  | .apRep => ApRep
  | .principalName => PrincipalName
  | .ticket => Ticket
  | .apReq => ApReq
  | .paData => PaData
  | .asRep => AsRep
  | .hostAddress => HostAddress
  | .kdcReqBody => KdcReqBody
  | .asReq => AsReq
  | .checksum => Checksum
  | .encryptionKey => EncryptionKey
  | .authorizationDataEntry => AuthorizationDataEntry
  | .authenticator => Authenticator
  | .encApRepPart => EncApRepPart
  | .lastReqEntry => LastReqEntry
  | .encAsRepPart => EncAsRepPart
  | .encKdcRepPart => EncKdcRepPart
  | .krbCredInfo => KrbCredInfo
  | .encKrbCredPart => EncKrbCredPart
  | .encKrbPrivPart => EncKrbPrivPart
  | .encTgsRepPart => EncTgsRepPart
  | .transitedEncoding => TransitedEncoding
  | .encTicketPart => EncTicketPart
  | .kdcReq => KdcReq
  | .kerbAdRestrictionEntry => KerbAdRestrictionEntry
  | .kerbErrorData => KerbErrorData
  | .krbCred => KrbCred
  | .krbError => KrbError
  | .krbPriv => KrbPriv
  | .krbSafeBody => KrbSafeBody
  | .krbSafe => KrbSafe
  | .adAndOr => AdAndOr
  | .adKdcIssued => AdKdcIssued
  | .etypeInfo2Entry => EtypeInfo2Entry
  | .etypeInfoEntry => EtypeInfoEntry
  | .kerbPaPacRequest => KerbPaPacRequest
  | .paEncTsEnc => PaEncTsEnc
  | .paForUser => PaForUser
  | .paPacOptions => PaPacOptions
  | .s4uUserId => S4uUserId
  | .paS4uX509User => PaS4uX509User
  | .tgsRep => TgsRep
  | .tgsReq => TgsReq
  | .typedDataEntry => TypedDataEntry
  | .hostAddresses => List HostAddress
  | .authorizationData => List AuthorizationDataEntry
  | .lastReq => List LastReqEntry
  | .typedData => List TypedDataEntry
  | .etypeInfo => List EtypeInfoEntry
  | .etypeInfo2 => List EtypeInfo2Entry
  | .methodData => List PaData
  | .kerbKeyListRep => List EncryptionKey
  | .kerbKeyListReq => List Int32
  | .kerbLocal => Bytes
  | .realm => List Char
  | .int32 => Int32
  | .kerberosFlags => UInt32
  | .kerberosTime => DateTime
  | .uInt32 => UInt32

/-- its `Asn1Object` implementation -/
def MsgType.codec (g : Cfg) : (T : MsgType) → Codec T.Value
  | .encryptedData => (encryptedDataC g)
  | .apRep => (apRepC g)
  | .principalName => (principalNameC g)
  | .ticket => (ticketC g)
  | .apReq => (apReqC g)
  | .paData => (paDataC g)
  | .asRep => (asRepC g)
  | .hostAddress => (hostAddressC g)
  | .kdcReqBody => (kdcReqBodyC g)
  | .asReq => (asReqC g)
  | .checksum => (checksumC g)
  | .encryptionKey => (encryptionKeyC g)
  | .authorizationDataEntry => (authorizationDataEntryC g)
  | .authenticator => (authenticatorC g)
  | .encApRepPart => (encApRepPartC g)
  | .lastReqEntry => (lastReqEntryC g)
  | .encAsRepPart => (encAsRepPartC g)
  | .encKdcRepPart => (encKdcRepPartC g)
  | .krbCredInfo => (krbCredInfoC g)
  | .encKrbCredPart => (encKrbCredPartC g)
  | .encKrbPrivPart => (encKrbPrivPartC g)
  | .encTgsRepPart => (encTgsRepPartC g)
  | .transitedEncoding => (transitedEncodingC g)
  | .encTicketPart => (encTicketPartC g)
  | .kdcReq => (kdcReqC g)
  | .kerbAdRestrictionEntry => (kerbAdRestrictionEntryC g)
  | .kerbErrorData => (kerbErrorDataC g)
  | .krbCred => (krbCredC g)
  | .krbError => (krbErrorC g)
  | .krbPriv => (krbPrivC g)
  | .krbSafeBody => (krbSafeBodyC g)
  | .krbSafe => (krbSafeC g)
  | .adAndOr => (adAndOrC g)
  | .adKdcIssued => (adKdcIssuedC g)
  | .etypeInfo2Entry => (etypeInfo2EntryC g)
  | .etypeInfoEntry => (etypeInfoEntryC g)
  | .kerbPaPacRequest => (kerbPaPacRequestC g)
  | .paEncTsEnc => (paEncTsEncC g)
  | .paForUser => (paForUserC g)
  | .paPacOptions => (paPacOptionsC g)
  | .s4uUserId => (s4uUserIdC g)
  | .paS4uX509User => (paS4uX509UserC g)
  | .tgsRep => (tgsRepC g)
  | .tgsReq => (tgsReqC g)
  | .typedDataEntry => (typedDataEntryC g)
  | .hostAddresses => (seqOfC g (hostAddressC g))
  | .authorizationData => (seqOfC g (authorizationDataEntryC g))
  | .lastReq => (seqOfC g (lastReqEntryC g))
  | .typedData => (seqOfC g (typedDataEntryC g))
  | .etypeInfo => (seqOfC g (etypeInfoEntryC g))
  | .etypeInfo2 => (seqOfC g (etypeInfo2EntryC g))
  | .methodData => (seqOfC g (paDataC g))
  | .kerbKeyListRep => (seqOfC g (encryptionKeyC g))
  | .kerbKeyListReq => (seqOfC g (int32C g))
  | .kerbLocal => octetsC
  | .realm => stringC
  | .int32 => (int32C g)
  | .kerberosFlags => flagsC
  | .kerberosTime => (kerberosTimeC g)
  | .uInt32 => (uint32C g)

/-- `T::build` -/
def MsgType.build (g : Cfg) (T : MsgType) (v : T.Value) : Bytes := (T.codec g).enc v
/-- `T::parse` -/
def MsgType.parse (g : Cfg) (T : MsgType) : Parser T.Value := (T.codec g).dec g

end Verif.Asn1
