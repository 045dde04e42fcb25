import Verif.Asn1Misc
/-
`Default::default()` of the message types of kerberos_asn1 whose `Default` is derived (the hand-written ones are in
`Asn1Misc`): numbers are 0, texts, byte strings and lists are empty, options are absent, flags are clear and times are the
default time `t0` of the external red_asn1 crate. Generated from `Asn1Messages`.
-/
namespace Verif.Asn1

/-- kerberos_asn1/src/ap_rep.rs:14-23, derived `Default` -/
def ApRep.default : ApRep :=
  ⟨0, 0, EncryptedData.default⟩

/-- kerberos_asn1/src/pa_data/pa_data.rs:13-19, derived `Default` -/
def PaData.default : PaData :=
  ⟨0, []⟩

/-- kerberos_asn1/src/host_address.rs:15-21, derived `Default` -/
def HostAddress.default : HostAddress :=
  ⟨0, []⟩

/-- kerberos_asn1/src/checksum.rs:13-19, derived `Default` -/
def Checksum.default : Checksum :=
  ⟨0, []⟩

/-- kerberos_asn1/src/encryption_key.rs:14-20, derived `Default` -/
def EncryptionKey.default : EncryptionKey :=
  ⟨0, []⟩

/-- kerberos_asn1/src/authorization_data.rs:17-23, derived `Default` -/
def AuthorizationDataEntry.default : AuthorizationDataEntry :=
  ⟨0, []⟩

/-- kerberos_asn1/src/enc_ap_rep_part.rs:15-26, derived `Default` -/
def EncApRepPart.default (t0 : DateTime) : EncApRepPart :=
  ⟨t0, 0, EncryptionKey.default, 0⟩

/-- kerberos_asn1/src/last_req.rs:24-30, derived `Default` -/
def LastReqEntry.default (t0 : DateTime) : LastReqEntry :=
  ⟨0, t0⟩

/-- kerberos_asn1/src/enc_as_rep_part.rs:29-58, derived `Default` -/
def EncAsRepPart.default (t0 : DateTime) : EncAsRepPart :=
  ⟨EncryptionKey.default, [], 0, none, 0, t0, none, t0, none, [], PrincipalName.default, none, none⟩

/-- kerberos_asn1/src/enc_kdc_rep_part.rs:28-56, derived `Default` -/
def EncKdcRepPart.default (t0 : DateTime) : EncKdcRepPart :=
  ⟨EncryptionKey.default, [], 0, none, 0, t0, none, t0, none, [], PrincipalName.default, none, none⟩

/-- kerberos_asn1/src/krb_cred_info.rs:25-49, derived `Default` -/
def KrbCredInfo.default : KrbCredInfo :=
  ⟨EncryptionKey.default, none, none, none, none, none, none, none, none, none, none⟩

/-- kerberos_asn1/src/enc_krb_priv_part.rs:16-31, derived `Default` -/
def EncKrbPrivPart.default : EncKrbPrivPart :=
  ⟨[], none, none, none, HostAddress.default, none⟩

/-- kerberos_asn1/src/enc_tgs_rep_part.rs:29-58, derived `Default` -/
def EncTgsRepPart.default (t0 : DateTime) : EncTgsRepPart :=
  ⟨EncryptionKey.default, [], 0, none, 0, t0, none, t0, none, [], PrincipalName.default, none, none⟩

/-- kerberos_asn1/src/transited_encoding.rs:14-20, derived `Default` -/
def TransitedEncoding.default : TransitedEncoding :=
  ⟨0, []⟩

/-- kerberos_asn1/src/enc_ticket_part.rs:26-51, derived `Default` -/
def EncTicketPart.default (t0 : DateTime) : EncTicketPart :=
  ⟨0, EncryptionKey.default, [], PrincipalName.default, TransitedEncoding.default, t0, none, t0, none, none, none⟩

/-- kerberos_asn1/src/kerb_ad_restriction_entry.rs:13-19, derived `Default` -/
def KerbAdRestrictionEntry.default : KerbAdRestrictionEntry :=
  ⟨0, []⟩

/-- kerberos_asn1/src/kerb_error_data.rs:13-19, derived `Default` -/
def KerbErrorData.default : KerbErrorData :=
  ⟨0, none⟩

/-- kerberos_asn1/src/krb_error.rs:26-55, derived `Default` -/
def KrbError.default (t0 : DateTime) : KrbError :=
  ⟨0, 0, none, none, t0, 0, 0, none, none, [], PrincipalName.default, none, none⟩

/-- kerberos_asn1/src/krb_priv.rs:15-24, derived `Default` -/
def KrbPriv.default : KrbPriv :=
  ⟨0, 0, EncryptedData.default⟩

/-- kerberos_asn1/src/krb_safe_body.rs:17-31, derived `Default` -/
def KrbSafeBody.default : KrbSafeBody :=
  ⟨[], none, none, none, HostAddress.default, none⟩

/-- kerberos_asn1/src/krb_safe.rs:15-26, derived `Default` -/
def KrbSafe.default : KrbSafe :=
  ⟨0, 0, KrbSafeBody.default, Checksum.default⟩

/-- kerberos_asn1/src/pa_data/ad_and_or.rs:13-19, derived `Default` -/
def AdAndOr.default : AdAndOr :=
  ⟨0, []⟩

/-- kerberos_asn1/src/pa_data/ad_kdcissued.rs:15-25, derived `Default` -/
def AdKdcIssued.default : AdKdcIssued :=
  ⟨Checksum.default, none, none, []⟩

/-- kerberos_asn1/src/pa_data/etype_info2_entry.rs:14-22, derived `Default` -/
def EtypeInfo2Entry.default : EtypeInfo2Entry :=
  ⟨0, none, none⟩

/-- kerberos_asn1/src/pa_data/etype_info_entry.rs:13-19, derived `Default` -/
def EtypeInfoEntry.default : EtypeInfoEntry :=
  ⟨0, none⟩

/-- kerberos_asn1/src/pa_data/kerb_pa_pac_request.rs:12-16, derived `Default` -/
def KerbPaPacRequest.default : KerbPaPacRequest :=
  ⟨false⟩

/-- kerberos_asn1/src/pa_data/pa_enc_ts_enc.rs:13-19, derived `Default` -/
def PaEncTsEnc.default (t0 : DateTime) : PaEncTsEnc :=
  ⟨t0, none⟩

/-- kerberos_asn1/src/pa_data/pa_for_user.rs:16-26, derived `Default` -/
def PaForUser.default : PaForUser :=
  ⟨PrincipalName.default, [], Checksum.default, []⟩

/-- kerberos_asn1/src/pa_data/pa_pac_options.rs:16-20, derived `Default` -/
def PaPacOptions.default : PaPacOptions :=
  ⟨0⟩

/-- kerberos_asn1/src/pa_data/s4userid.rs:18-30, derived `Default` -/
def S4uUserId.default : S4uUserId :=
  ⟨0, none, [], none, none⟩

/-- kerberos_asn1/src/pa_data/pa_s4u_x509_user.rs:13-19, derived `Default` -/
def PaS4uX509User.default : PaS4uX509User :=
  ⟨S4uUserId.default, Checksum.default⟩

/-- kerberos_asn1/src/typed_data.rs:22-28, derived `Default` -/
def TypedDataEntry.default : TypedDataEntry :=
  ⟨0, none⟩

/-- `T::default()`; `t0` is the default time, `now` the time of the call (used for authenticators). The types that are
lists, numbers or texts have the default of the standard library (last_req.rs, kerberos_flags.rs:11 and so on). -/
def MsgType.default (t0 now : DateTime) : (T : MsgType) → T.Value
  | .encryptedData => EncryptedData.default
  | .apRep => ApRep.default
  | .principalName => PrincipalName.default
  | .ticket => Ticket.default
  | .apReq => ApReq.default
  | .paData => PaData.default
  | .asRep => AsRep.default
  | .hostAddress => HostAddress.default
  | .kdcReqBody => KdcReqBody.default t0
  | .asReq => AsReq.default t0
  | .checksum => Checksum.default
  | .encryptionKey => EncryptionKey.default
  | .authorizationDataEntry => AuthorizationDataEntry.default
  | .authenticator => Authenticator.default now
  | .encApRepPart => EncApRepPart.default t0
  | .lastReqEntry => LastReqEntry.default t0
  | .encAsRepPart => EncAsRepPart.default t0
  | .encKdcRepPart => EncKdcRepPart.default t0
  | .krbCredInfo => KrbCredInfo.default
  | .encKrbCredPart => EncKrbCredPart.default
  | .encKrbPrivPart => EncKrbPrivPart.default
  | .encTgsRepPart => EncTgsRepPart.default t0
  | .transitedEncoding => TransitedEncoding.default
  | .encTicketPart => EncTicketPart.default t0
  | .kdcReq => KdcReq.default t0
  | .kerbAdRestrictionEntry => KerbAdRestrictionEntry.default
  | .kerbErrorData => KerbErrorData.default
  | .krbCred => KrbCred.default
  | .krbError => KrbError.default t0
  | .krbPriv => KrbPriv.default
  | .krbSafeBody => KrbSafeBody.default
  | .krbSafe => KrbSafe.default
  | .adAndOr => AdAndOr.default
  | .adKdcIssued => AdKdcIssued.default
  | .etypeInfo2Entry => EtypeInfo2Entry.default
  | .etypeInfoEntry => EtypeInfoEntry.default
  | .kerbPaPacRequest => KerbPaPacRequest.default
  | .paEncTsEnc => PaEncTsEnc.default t0
  | .paForUser => PaForUser.default
  | .paPacOptions => PaPacOptions.default
  | .s4uUserId => S4uUserId.default
  | .paS4uX509User => PaS4uX509User.default
  | .tgsRep => TgsRep.default
  | .tgsReq => TgsReq.default t0
  | .typedDataEntry => TypedDataEntry.default
  | .hostAddresses => ([] : List HostAddress)
  | .authorizationData => ([] : List AuthorizationDataEntry)
  | .lastReq => ([] : List LastReqEntry)
  | .typedData => ([] : List TypedDataEntry)
  | .etypeInfo => ([] : List EtypeInfoEntry)
  | .etypeInfo2 => ([] : List EtypeInfo2Entry)
  | .methodData => ([] : List PaData)
  | .kerbKeyListRep => ([] : List EncryptionKey)
  | .kerbKeyListReq => ([] : List Int32)
  | .kerbLocal => ([] : Bytes)
  | .realm => ([] : List Char)
  | .int32 => (0 : Int32)
  | .kerberosFlags => (0 : UInt32)
  | .kerberosTime => t0
  | .uInt32 => (0 : UInt32)

end Verif.Asn1
