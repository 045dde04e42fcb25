import Verif.Asn1Messages
/-
Well-formedness of messages: the conditions under which a message is read back as it was built.
Only times carry a condition.
-/
namespace Verif.Asn1

/-- sizes that fit a `usize` -/
def Fits (b : Bytes) : Prop := b.length < 2^64

/-- no condition -/
def Any {α : Type} (_ : α) : Prop := True

/-- times that have a KerberosTime form: no fraction, four-digit year -/
def TimeOk (t : DateTime) : Prop := t.nanos = 0 ∧ 0 ≤ t.date.year ∧ t.date.year ≤ 9999

instance (t : DateTime) : Decidable (TimeOk t) := by unfold TimeOk; infer_instance

/-- every element satisfies -/
def AllOf {α} (wf : α → Prop) (l : List α) : Prop := ∀ a ∈ l, wf a

/-- an optional value satisfies, if present -/
def OptOf {α} (wf : α → Prop) (o : Option α) : Prop := ∀ a, o = some a → wf a

/-- no condition -/
def EncryptedData.WF (_ : EncryptedData) : Prop := True

/-- no condition -/
def ApRep.WF (_ : ApRep) : Prop := True

/-- no condition -/
def PrincipalName.WF (_ : PrincipalName) : Prop := True

/-- no condition -/
def Ticket.WF (_ : Ticket) : Prop := True

/-- no condition -/
def ApReq.WF (_ : ApReq) : Prop := True

/-- no condition -/
def PaData.WF (_ : PaData) : Prop := True

/-- no condition -/
def AsRep.WF (_ : AsRep) : Prop := True

/-- no condition -/
def HostAddress.WF (_ : HostAddress) : Prop := True

/-- all times in it are whole seconds in years 0 to 9999 -/
def KdcReqBody.WF (v : KdcReqBody) : Prop :=
  OptOf TimeOk v.«from» ∧ TimeOk v.till ∧ OptOf TimeOk v.rtime

/-- all times in it are whole seconds in years 0 to 9999 -/
def AsReq.WF (v : AsReq) : Prop :=
  KdcReqBody.WF v.req_body

/-- no condition -/
def Checksum.WF (_ : Checksum) : Prop := True

/-- no condition -/
def EncryptionKey.WF (_ : EncryptionKey) : Prop := True

/-- no condition -/
def AuthorizationDataEntry.WF (_ : AuthorizationDataEntry) : Prop := True

/-- all times in it are whole seconds in years 0 to 9999 -/
def Authenticator.WF (v : Authenticator) : Prop :=
  TimeOk v.ctime

/-- all times in it are whole seconds in years 0 to 9999 -/
def EncApRepPart.WF (v : EncApRepPart) : Prop :=
  TimeOk v.ctime

/-- all times in it are whole seconds in years 0 to 9999 -/
def LastReqEntry.WF (v : LastReqEntry) : Prop :=
  TimeOk v.lr_value

/-- all times in it are whole seconds in years 0 to 9999 -/
def EncAsRepPart.WF (v : EncAsRepPart) : Prop :=
  (AllOf LastReqEntry.WF) v.last_req ∧ OptOf TimeOk v.key_expiration ∧ TimeOk v.authtime ∧ OptOf TimeOk v.starttime ∧ TimeOk v.endtime ∧ OptOf TimeOk v.renew_till

/-- all times in it are whole seconds in years 0 to 9999 -/
def EncKdcRepPart.WF (v : EncKdcRepPart) : Prop :=
  (AllOf LastReqEntry.WF) v.last_req ∧ OptOf TimeOk v.key_expiration ∧ TimeOk v.authtime ∧ OptOf TimeOk v.starttime ∧ TimeOk v.endtime ∧ OptOf TimeOk v.renew_till

/-- all times in it are whole seconds in years 0 to 9999 -/
def KrbCredInfo.WF (v : KrbCredInfo) : Prop :=
  OptOf TimeOk v.authtime ∧ OptOf TimeOk v.starttime ∧ OptOf TimeOk v.endtime ∧ OptOf TimeOk v.renew_till

/-- all times in it are whole seconds in years 0 to 9999 -/
def EncKrbCredPart.WF (v : EncKrbCredPart) : Prop :=
  (AllOf KrbCredInfo.WF) v.ticket_info ∧ OptOf TimeOk v.timestamp

/-- all times in it are whole seconds in years 0 to 9999 -/
def EncKrbPrivPart.WF (v : EncKrbPrivPart) : Prop :=
  OptOf TimeOk v.timestamp

/-- all times in it are whole seconds in years 0 to 9999 -/
def EncTgsRepPart.WF (v : EncTgsRepPart) : Prop :=
  (AllOf LastReqEntry.WF) v.last_req ∧ OptOf TimeOk v.key_expiration ∧ TimeOk v.authtime ∧ OptOf TimeOk v.starttime ∧ TimeOk v.endtime ∧ OptOf TimeOk v.renew_till

/-- no condition -/
def TransitedEncoding.WF (_ : TransitedEncoding) : Prop := True

/-- all times in it are whole seconds in years 0 to 9999 -/
def EncTicketPart.WF (v : EncTicketPart) : Prop :=
  TimeOk v.authtime ∧ OptOf TimeOk v.starttime ∧ TimeOk v.endtime ∧ OptOf TimeOk v.renew_till

/-- all times in it are whole seconds in years 0 to 9999 -/
def KdcReq.WF (v : KdcReq) : Prop :=
  KdcReqBody.WF v.req_body

/-- no condition -/
def KerbAdRestrictionEntry.WF (_ : KerbAdRestrictionEntry) : Prop := True

/-- no condition -/
def KerbErrorData.WF (_ : KerbErrorData) : Prop := True

/-- no condition -/
def KrbCred.WF (_ : KrbCred) : Prop := True

/-- all times in it are whole seconds in years 0 to 9999 -/
def KrbError.WF (v : KrbError) : Prop :=
  OptOf TimeOk v.ctime ∧ TimeOk v.stime

/-- no condition -/
def KrbPriv.WF (_ : KrbPriv) : Prop := True

/-- all times in it are whole seconds in years 0 to 9999 -/
def KrbSafeBody.WF (v : KrbSafeBody) : Prop :=
  OptOf TimeOk v.timestamp

/-- all times in it are whole seconds in years 0 to 9999 -/
def KrbSafe.WF (v : KrbSafe) : Prop :=
  KrbSafeBody.WF v.safe_body

/-- no condition -/
def AdAndOr.WF (_ : AdAndOr) : Prop := True

/-- no condition -/
def AdKdcIssued.WF (_ : AdKdcIssued) : Prop := True

/-- no condition -/
def EtypeInfo2Entry.WF (_ : EtypeInfo2Entry) : Prop := True

/-- no condition -/
def EtypeInfoEntry.WF (_ : EtypeInfoEntry) : Prop := True

/-- no condition -/
def KerbPaPacRequest.WF (_ : KerbPaPacRequest) : Prop := True

/-- all times in it are whole seconds in years 0 to 9999 -/
def PaEncTsEnc.WF (v : PaEncTsEnc) : Prop :=
  TimeOk v.patimestamp

/-- no condition -/
def PaForUser.WF (_ : PaForUser) : Prop := True

/-- no condition -/
def PaPacOptions.WF (_ : PaPacOptions) : Prop := True

/-- no condition -/
def S4uUserId.WF (_ : S4uUserId) : Prop := True

/-- no condition -/
def PaS4uX509User.WF (_ : PaS4uX509User) : Prop := True

/-- no condition -/
def TgsRep.WF (_ : TgsRep) : Prop := True

/-- all times in it are whole seconds in years 0 to 9999 -/
def TgsReq.WF (v : TgsReq) : Prop :=
  KdcReqBody.WF v.req_body

/-- no condition -/
def TypedDataEntry.WF (_ : TypedDataEntry) : Prop := True

/-- conditions on a message under which it is read back -/
def MsgType.WF : (T : MsgType) → T.Value → Prop
  | .encryptedData => EncryptedData.WF
  | .apRep => ApRep.WF
  | .principalName => PrincipalName.WF
  | .ticket => Ticket.WF
  | .apReq => ApReq.WF
  | .paData => PaData.WF
  | .asRep => AsRep.WF
  | .hostAddress => HostAddress.WF
  | .kdcReqBody => KdcReqBody.WF
  | .asReq => AsReq.WF
  | .checksum => Checksum.WF
  | .encryptionKey => EncryptionKey.WF
  | .authorizationDataEntry => AuthorizationDataEntry.WF
  | .authenticator => Authenticator.WF
  | .encApRepPart => EncApRepPart.WF
  | .lastReqEntry => LastReqEntry.WF
  | .encAsRepPart => EncAsRepPart.WF
  | .encKdcRepPart => EncKdcRepPart.WF
  | .krbCredInfo => KrbCredInfo.WF
  | .encKrbCredPart => EncKrbCredPart.WF
  | .encKrbPrivPart => EncKrbPrivPart.WF
  | .encTgsRepPart => EncTgsRepPart.WF
  | .transitedEncoding => TransitedEncoding.WF
  | .encTicketPart => EncTicketPart.WF
  | .kdcReq => KdcReq.WF
  | .kerbAdRestrictionEntry => KerbAdRestrictionEntry.WF
  | .kerbErrorData => KerbErrorData.WF
  | .krbCred => KrbCred.WF
  | .krbError => KrbError.WF
  | .krbPriv => KrbPriv.WF
  | .krbSafeBody => KrbSafeBody.WF
  | .krbSafe => KrbSafe.WF
  | .adAndOr => AdAndOr.WF
  | .adKdcIssued => AdKdcIssued.WF
  | .etypeInfo2Entry => EtypeInfo2Entry.WF
  | .etypeInfoEntry => EtypeInfoEntry.WF
  | .kerbPaPacRequest => KerbPaPacRequest.WF
  | .paEncTsEnc => PaEncTsEnc.WF
  | .paForUser => PaForUser.WF
  | .paPacOptions => PaPacOptions.WF
  | .s4uUserId => S4uUserId.WF
  | .paS4uX509User => PaS4uX509User.WF
  | .tgsRep => TgsRep.WF
  | .tgsReq => TgsReq.WF
  | .typedDataEntry => TypedDataEntry.WF
  | .hostAddresses => (AllOf HostAddress.WF)
  | .authorizationData => (AllOf AuthorizationDataEntry.WF)
  | .lastReq => (AllOf LastReqEntry.WF)
  | .typedData => (AllOf TypedDataEntry.WF)
  | .etypeInfo => (AllOf EtypeInfoEntry.WF)
  | .etypeInfo2 => (AllOf EtypeInfo2Entry.WF)
  | .methodData => (AllOf PaData.WF)
  | .kerbKeyListRep => (AllOf EncryptionKey.WF)
  | .kerbKeyListReq => (AllOf Any)
  | .kerbLocal => Any
  | .realm => Any
  | .int32 => Any
  | .kerberosFlags => Any
  | .kerberosTime => TimeOk
  | .uInt32 => Any

end Verif.Asn1
