import Verif.DefaultModel
import Verif.Props.Asn1
/-
Property theorems C81: the messages `Default::default()` gives. Generated with the table of their octets.
-/
set_option linter.unusedSimpArgs false
namespace Verif.Asn1
set_option maxRecDepth 100000

/-! ### Specification: the octets of the default messages -/

/-- The octets of the default value of every message type; `t` are the octets of the default time. Authenticators are
dealt with in `c81_authenticator`. Zero is `2, 1, 0`, an empty text `27, 0`, an empty octet string `4, 0`, an empty list `48, 0`. -/
def defaultWire (t : Bytes) : MsgType → Bytes
  | .encryptedData => [48, 9, 160, 3, 2, 1, 0, 162, 2, 4, 0]
  | .apRep => [111, 25, 48, 23, 160, 3, 2, 1, 0, 161, 3, 2, 1, 0, 162, 11, 48, 9, 160, 3, 2, 1, 0, 162, 2, 4, 0]
  | .principalName => [48, 9, 160, 3, 2, 1, 0, 161, 2, 48, 0]
  | .ticket => [97, 37, 48, 35, 160, 3, 2, 1, 0, 161, 2, 27, 0, 162, 11, 48, 9, 160, 3, 2, 1, 0, 161, 2, 48, 0, 163, 11, 48, 9, 160, 3, 2, 1, 0, 162, 2, 4, 0]
  | .apReq => [110, 75, 48, 73, 160, 3, 2, 1, 5, 161, 3, 2, 1, 14, 162, 7, 3, 5, 0, 0, 0, 0, 0, 163, 39, 97, 37, 48, 35, 160, 3, 2, 1, 0, 161, 2, 27, 0, 162, 11, 48, 9, 160, 3, 2, 1, 0, 161, 2, 48, 0, 163, 11, 48, 9, 160, 3, 2, 1, 0, 162, 2, 4, 0, 164, 11, 48, 9, 160, 3, 2, 1, 0, 162, 2, 4, 0]
  | .paData => [48, 9, 161, 3, 2, 1, 0, 162, 2, 4, 0]
  | .asRep => [107, 83, 48, 81, 160, 3, 2, 1, 5, 161, 3, 2, 1, 11, 163, 2, 27, 0, 164, 11, 48, 9, 160, 3, 2, 1, 0, 161, 2, 48, 0, 165, 39, 97, 37, 48, 35, 160, 3, 2, 1, 0, 161, 2, 27, 0, 162, 11, 48, 9, 160, 3, 2, 1, 0, 161, 2, 48, 0, 163, 11, 48, 9, 160, 3, 2, 1, 0, 162, 2, 4, 0, 166, 11, 48, 9, 160, 3, 2, 1, 0, 162, 2, 4, 0]
  | .hostAddress => [48, 9, 160, 3, 2, 1, 0, 161, 2, 4, 0]
  | .kdcReqBody => [48, 41, 160, 7, 3, 5, 0, 0, 0, 0, 0, 162, 2, 27, 0, 165, 17] ++ t ++ [167, 3, 2, 1, 0, 168, 2, 48, 0]
  | .asReq => [106, 57, 48, 55, 161, 3, 2, 1, 5, 162, 3, 2, 1, 10, 164, 43, 48, 41, 160, 7, 3, 5, 0, 0, 0, 0, 0, 162, 2, 27, 0, 165, 17] ++ t ++ [167, 3, 2, 1, 0, 168, 2, 48, 0]
  | .checksum => [48, 9, 160, 3, 2, 1, 0, 161, 2, 4, 0]
  | .encryptionKey => [48, 9, 160, 3, 2, 1, 0, 161, 2, 4, 0]
  | .authorizationDataEntry => [48, 9, 160, 3, 2, 1, 0, 161, 2, 4, 0]
  | .encApRepPart => [123, 44, 48, 42, 160, 17] ++ t ++ [161, 3, 2, 1, 0, 162, 11, 48, 9, 160, 3, 2, 1, 0, 161, 2, 4, 0, 163, 3, 2, 1, 0]
  | .lastReqEntry => [48, 24, 160, 3, 2, 1, 0, 161, 17] ++ t
  | .encAsRepPart => [121, 88, 48, 86, 160, 11, 48, 9, 160, 3, 2, 1, 0, 161, 2, 4, 0, 161, 2, 48, 0, 162, 3, 2, 1, 0, 164, 7, 3, 5, 0, 0, 0, 0, 0, 165, 17] ++ t ++ [167, 17] ++ t ++ [169, 2, 27, 0, 170, 11, 48, 9, 160, 3, 2, 1, 0, 161, 2, 48, 0]
  | .encKdcRepPart => [48, 86, 160, 11, 48, 9, 160, 3, 2, 1, 0, 161, 2, 4, 0, 161, 2, 48, 0, 162, 3, 2, 1, 0, 164, 7, 3, 5, 0, 0, 0, 0, 0, 165, 17] ++ t ++ [167, 17] ++ t ++ [169, 2, 27, 0, 170, 11, 48, 9, 160, 3, 2, 1, 0, 161, 2, 48, 0]
  | .krbCredInfo => [48, 13, 160, 11, 48, 9, 160, 3, 2, 1, 0, 161, 2, 4, 0]
  | .encKrbCredPart => [125, 6, 48, 4, 160, 2, 48, 0]
  | .encKrbPrivPart => [124, 19, 48, 17, 160, 2, 4, 0, 164, 11, 48, 9, 160, 3, 2, 1, 0, 161, 2, 4, 0]
  | .encTgsRepPart => [122, 88, 48, 86, 160, 11, 48, 9, 160, 3, 2, 1, 0, 161, 2, 4, 0, 161, 2, 48, 0, 162, 3, 2, 1, 0, 164, 7, 3, 5, 0, 0, 0, 0, 0, 165, 17] ++ t ++ [167, 17] ++ t ++ [169, 2, 27, 0, 170, 11, 48, 9, 160, 3, 2, 1, 0, 161, 2, 48, 0]
  | .transitedEncoding => [48, 9, 160, 3, 2, 1, 0, 161, 2, 4, 0]
  | .encTicketPart => [99, 92, 48, 90, 160, 7, 3, 5, 0, 0, 0, 0, 0, 161, 11, 48, 9, 160, 3, 2, 1, 0, 161, 2, 4, 0, 162, 2, 27, 0, 163, 11, 48, 9, 160, 3, 2, 1, 0, 161, 2, 48, 0, 164, 11, 48, 9, 160, 3, 2, 1, 0, 161, 2, 4, 0, 165, 17] ++ t ++ [167, 17] ++ t
  | .kdcReq => [48, 55, 161, 3, 2, 1, 5, 162, 3, 2, 1, 0, 164, 43, 48, 41, 160, 7, 3, 5, 0, 0, 0, 0, 0, 162, 2, 27, 0, 165, 17] ++ t ++ [167, 3, 2, 1, 0, 168, 2, 48, 0]
  | .kerbAdRestrictionEntry => [48, 9, 160, 3, 2, 1, 0, 161, 2, 4, 0]
  | .kerbErrorData => [48, 5, 161, 3, 2, 1, 0]
  | .krbCred => [118, 29, 48, 27, 160, 3, 2, 1, 5, 161, 3, 2, 1, 22, 162, 2, 48, 0, 163, 11, 48, 9, 160, 3, 2, 1, 0, 162, 2, 4, 0]
  | .krbError => [126, 58, 48, 56, 160, 3, 2, 1, 0, 161, 3, 2, 1, 0, 164, 17] ++ t ++ [165, 3, 2, 1, 0, 166, 3, 2, 1, 0, 169, 2, 27, 0, 170, 11, 48, 9, 160, 3, 2, 1, 0, 161, 2, 48, 0]
  | .krbPriv => [117, 25, 48, 23, 160, 3, 2, 1, 0, 161, 3, 2, 1, 0, 163, 11, 48, 9, 160, 3, 2, 1, 0, 162, 2, 4, 0]
  | .krbSafeBody => [48, 17, 160, 2, 4, 0, 164, 11, 48, 9, 160, 3, 2, 1, 0, 161, 2, 4, 0]
  | .krbSafe => [116, 46, 48, 44, 160, 3, 2, 1, 0, 161, 3, 2, 1, 0, 162, 19, 48, 17, 160, 2, 4, 0, 164, 11, 48, 9, 160, 3, 2, 1, 0, 161, 2, 4, 0, 163, 11, 48, 9, 160, 3, 2, 1, 0, 161, 2, 4, 0]
  | .adAndOr => [48, 9, 160, 3, 2, 1, 0, 161, 2, 48, 0]
  | .adKdcIssued => [48, 17, 160, 11, 48, 9, 160, 3, 2, 1, 0, 161, 2, 4, 0, 163, 2, 48, 0]
  | .etypeInfo2Entry => [48, 5, 160, 3, 2, 1, 0]
  | .etypeInfoEntry => [48, 5, 160, 3, 2, 1, 0]
  | .kerbPaPacRequest => [48, 5, 160, 3, 1, 1, 0]
  | .paEncTsEnc => [48, 19, 160, 17] ++ t
  | .paForUser => [48, 34, 160, 11, 48, 9, 160, 3, 2, 1, 0, 161, 2, 48, 0, 161, 2, 27, 0, 162, 11, 48, 9, 160, 3, 2, 1, 0, 161, 2, 4, 0, 163, 2, 27, 0]
  | .paPacOptions => [48, 9, 160, 7, 3, 5, 0, 0, 0, 0, 0]
  | .s4uUserId => [48, 9, 160, 3, 2, 1, 0, 162, 2, 27, 0]
  | .paS4uX509User => [48, 26, 160, 11, 48, 9, 160, 3, 2, 1, 0, 162, 2, 27, 0, 161, 11, 48, 9, 160, 3, 2, 1, 0, 161, 2, 4, 0]
  | .tgsRep => [109, 83, 48, 81, 160, 3, 2, 1, 5, 161, 3, 2, 1, 13, 163, 2, 27, 0, 164, 11, 48, 9, 160, 3, 2, 1, 0, 161, 2, 48, 0, 165, 39, 97, 37, 48, 35, 160, 3, 2, 1, 0, 161, 2, 27, 0, 162, 11, 48, 9, 160, 3, 2, 1, 0, 161, 2, 48, 0, 163, 11, 48, 9, 160, 3, 2, 1, 0, 162, 2, 4, 0, 166, 11, 48, 9, 160, 3, 2, 1, 0, 162, 2, 4, 0]
  | .tgsReq => [108, 57, 48, 55, 161, 3, 2, 1, 5, 162, 3, 2, 1, 12, 164, 43, 48, 41, 160, 7, 3, 5, 0, 0, 0, 0, 0, 162, 2, 27, 0, 165, 17] ++ t ++ [167, 3, 2, 1, 0, 168, 2, 48, 0]
  | .typedDataEntry => [48, 5, 160, 3, 2, 1, 0]
  | .hostAddresses => [48, 0]
  | .authorizationData => [48, 0]
  | .lastReq => [48, 0]
  | .typedData => [48, 0]
  | .etypeInfo => [48, 0]
  | .etypeInfo2 => [48, 0]
  | .methodData => [48, 0]
  | .kerbKeyListRep => [48, 0]
  | .kerbKeyListReq => [48, 0]
  | .kerbLocal => [4, 0]
  | .realm => [27, 0]
  | .int32 => [2, 1, 0]
  | .kerberosFlags => [3, 5, 0, 0, 0, 0, 0]
  | .kerberosTime => t
  | .uInt32 => [2, 1, 0]
  | .authenticator => []

/-! ### Theorems -/

theorem dTime_digits (t : DateTime) : ∃ b0 b1 b2 b3 b4 b5 b6 b7 b8 b9 b10 b11 b12 b13,
    dTime rfc t = .prim 0x18 [b0, b1, b2, b3, b4, b5, b6, b7, b8, b9, b10, b11, b12, b13, 0x5a] :=
  ⟨_, _, _, _, _, _, _, _, _, _, _, _, _, _, rfl⟩
theorem dInt32_zero : dInt32 0 = .prim 2 [0] := rfl
theorem dInt32_five : dInt32 5 = .prim 2 [5] := rfl
theorem dInt32_10 : dInt32 10 = .prim 2 [10] := rfl
theorem dInt32_11 : dInt32 11 = .prim 2 [11] := rfl
theorem dInt32_12 : dInt32 12 = .prim 2 [12] := rfl
theorem dInt32_13 : dInt32 13 = .prim 2 [13] := rfl
theorem dInt32_14 : dInt32 14 = .prim 2 [14] := rfl
theorem dInt32_22 : dInt32 22 = .prim 2 [22] := rfl
theorem dUInt32_zero : dUInt32 rfc 0 = .prim 2 [0] := rfl
theorem dFlags_zero : dFlags 0 = .prim 3 [0, 0, 0, 0, 0] := rfl
theorem dString_nil : dString [] = .prim 27 [] := rfl
theorem dOctets_nil : dOctets [] = .prim 4 [] := rfl
theorem dSeqOf_nil {α} (f : α → Der) : dSeqOf f [] = .node 48 [] := rfl
theorem dBool_false : dBool false = .prim 1 [0] := rfl


theorem default_der (t0 now : DateTime) (T : MsgType) (hT : T ≠ .authenticator) :
    (T.der rfc (T.default t0 now)).bytes = defaultWire (dTime rfc t0).bytes T := by
  obtain ⟨b0, b1, b2, b3, b4, b5, b6, b7, b8, b9, b10, b11, b12, b13, h⟩ := dTime_digits t0
  cases T
  case authenticator => exact absurd rfl hT
  all_goals simp [MsgType.der, MsgType.default, defaultWire, req, opt, h, Der.bytes, Der.listBytes, derLen, dInt32_zero, dInt32_five,
    dInt32_10, dInt32_11, dInt32_12, dInt32_13, dInt32_14, dInt32_22, dUInt32_zero, dFlags_zero, dString_nil, dOctets_nil, dSeqOf_nil,
    dBool_false, EncryptedData.der, ApRep.der, PrincipalName.der, Ticket.der, ApReq.der, PaData.der, AsRep.der, HostAddress.der, KdcReqBody.der, AsReq.der, Checksum.der, EncryptionKey.der, AuthorizationDataEntry.der, Authenticator.der, EncApRepPart.der, LastReqEntry.der, EncAsRepPart.der, EncKdcRepPart.der, KrbCredInfo.der, EncKrbCredPart.der, EncKrbPrivPart.der, EncTgsRepPart.der, TransitedEncoding.der, EncTicketPart.der, KdcReq.der, KerbAdRestrictionEntry.der, KerbErrorData.der, KrbCred.der, KrbError.der, KrbPriv.der, KrbSafeBody.der, KrbSafe.der, AdAndOr.der, AdKdcIssued.der, EtypeInfo2Entry.der, EtypeInfoEntry.der, KerbPaPacRequest.der, PaEncTsEnc.der, PaForUser.der, PaPacOptions.der, S4uUserId.der, PaS4uX509User.der, TgsRep.der, TgsReq.der, TypedDataEntry.der, EncryptedData.default, ApRep.default, PrincipalName.default, Ticket.default, ApReq.default, PaData.default, AsRep.default, HostAddress.default, KdcReqBody.default, AsReq.default, Checksum.default, EncryptionKey.default, AuthorizationDataEntry.default, Authenticator.default, EncApRepPart.default, LastReqEntry.default, EncAsRepPart.default, EncKdcRepPart.default, KrbCredInfo.default, EncKrbCredPart.default, EncKrbPrivPart.default, EncTgsRepPart.default, TransitedEncoding.default, EncTicketPart.default, KdcReq.default, KerbAdRestrictionEntry.default, KerbErrorData.default, KrbCred.default, KrbError.default, KrbPriv.default, KrbSafeBody.default, KrbSafe.default, AdAndOr.default, AdKdcIssued.default, EtypeInfo2Entry.default, EtypeInfoEntry.default, KerbPaPacRequest.default, PaEncTsEnc.default, PaForUser.default, PaPacOptions.default, S4uUserId.default, PaS4uX509User.default, TgsRep.default, TgsReq.default, TypedDataEntry.default]

theorem optOf_none {α} (p : α → Prop) : OptOf p none := nofun
theorem allOf_nil {α} (p : α → Prop) : AllOf p [] := nofun

theorem default_plain (t0 now : DateTime) (h : YearOk t0) (hn : YearOk now) (T : MsgType) :
    T.Plain (T.default t0 now) := by
  have hu : U32Ok 0 := by show (0 : UInt32).toNat < 2^31; decide
  cases T <;> simp [MsgType.Plain, MsgType.default, h, hn, hu, optOf_none, allOf_nil, Any, EncryptedData.Plain, ApRep.Plain, PrincipalName.Plain, Ticket.Plain, ApReq.Plain, PaData.Plain, AsRep.Plain, HostAddress.Plain, KdcReqBody.Plain, AsReq.Plain, Checksum.Plain, EncryptionKey.Plain, AuthorizationDataEntry.Plain, Authenticator.Plain, EncApRepPart.Plain, LastReqEntry.Plain, EncAsRepPart.Plain, EncKdcRepPart.Plain, KrbCredInfo.Plain, EncKrbCredPart.Plain, EncKrbPrivPart.Plain, EncTgsRepPart.Plain, TransitedEncoding.Plain, EncTicketPart.Plain, KdcReq.Plain, KerbAdRestrictionEntry.Plain, KerbErrorData.Plain, KrbCred.Plain, KrbError.Plain, KrbPriv.Plain, KrbSafeBody.Plain, KrbSafe.Plain, AdAndOr.Plain, AdKdcIssued.Plain, EtypeInfo2Entry.Plain, EtypeInfoEntry.Plain, KerbPaPacRequest.Plain, PaEncTsEnc.Plain, PaForUser.Plain, PaPacOptions.Plain, S4uUserId.Plain, PaS4uX509User.Plain, TgsRep.Plain, TgsReq.Plain, TypedDataEntry.Plain, EncryptedData.default, ApRep.default, PrincipalName.default, Ticket.default, ApReq.default, PaData.default, AsRep.default, HostAddress.default, KdcReqBody.default, AsReq.default, Checksum.default, EncryptionKey.default, AuthorizationDataEntry.default, Authenticator.default, EncApRepPart.default, LastReqEntry.default, EncAsRepPart.default, EncKdcRepPart.default, KrbCredInfo.default, EncKrbCredPart.default, EncKrbPrivPart.default, EncTgsRepPart.default, TransitedEncoding.default, EncTicketPart.default, KdcReq.default, KerbAdRestrictionEntry.default, KerbErrorData.default, KrbCred.default, KrbError.default, KrbPriv.default, KrbSafeBody.default, KrbSafe.default, AdAndOr.default, AdKdcIssued.default, EtypeInfo2Entry.default, EtypeInfoEntry.default, KerbPaPacRequest.default, PaEncTsEnc.default, PaForUser.default, PaPacOptions.default, S4uUserId.default, PaS4uX509User.default, TgsRep.default, TgsReq.default, TypedDataEntry.default]

theorem default_wf (t0 now : DateTime) (h : TimeOk t0) (hn : TimeOk now) (T : MsgType) : T.WF (T.default t0 now) := by
  cases T <;> simp [MsgType.WF, MsgType.default, h, hn, optOf_none, allOf_nil, Any, EncryptedData.WF, ApRep.WF, PrincipalName.WF, Ticket.WF, ApReq.WF, PaData.WF, AsRep.WF, HostAddress.WF, KdcReqBody.WF, AsReq.WF, Checksum.WF, EncryptionKey.WF, AuthorizationDataEntry.WF, Authenticator.WF, EncApRepPart.WF, LastReqEntry.WF, EncAsRepPart.WF, EncKdcRepPart.WF, KrbCredInfo.WF, EncKrbCredPart.WF, EncKrbPrivPart.WF, EncTgsRepPart.WF, TransitedEncoding.WF, EncTicketPart.WF, KdcReq.WF, KerbAdRestrictionEntry.WF, KerbErrorData.WF, KrbCred.WF, KrbError.WF, KrbPriv.WF, KrbSafeBody.WF, KrbSafe.WF, AdAndOr.WF, AdKdcIssued.WF, EtypeInfo2Entry.WF, EtypeInfoEntry.WF, KerbPaPacRequest.WF, PaEncTsEnc.WF, PaForUser.WF, PaPacOptions.WF, S4uUserId.WF, PaS4uX509User.WF, TgsRep.WF, TgsReq.WF, TypedDataEntry.WF, EncryptedData.default, ApRep.default, PrincipalName.default, Ticket.default, ApReq.default, PaData.default, AsRep.default, HostAddress.default, KdcReqBody.default, AsReq.default, Checksum.default, EncryptionKey.default, AuthorizationDataEntry.default, Authenticator.default, EncApRepPart.default, LastReqEntry.default, EncAsRepPart.default, EncKdcRepPart.default, KrbCredInfo.default, EncKrbCredPart.default, EncKrbPrivPart.default, EncTgsRepPart.default, TransitedEncoding.default, EncTicketPart.default, KdcReq.default, KerbAdRestrictionEntry.default, KerbErrorData.default, KrbCred.default, KrbError.default, KrbPriv.default, KrbSafeBody.default, KrbSafe.default, AdAndOr.default, AdKdcIssued.default, EtypeInfo2Entry.default, EtypeInfoEntry.default, KerbPaPacRequest.default, PaEncTsEnc.default, PaForUser.default, PaPacOptions.default, S4uUserId.default, PaS4uX509User.default, TgsRep.default, TgsReq.default, TypedDataEntry.default]

/-- C81. The octets of the default value of every message type (but authenticators) are those of the table. -/
theorem c81_wire (g : Cfg) (t0 now : DateTime) (h : YearOk t0) (hn : YearOk now) (T : MsgType) (hT : T ≠ .authenticator) :
    T.build g (T.default t0 now) = defaultWire (dTime rfc t0).bytes T := by
  rw [c59_wire_format g T _ (default_plain t0 now h hn T), default_der t0 now T hT]

/-- C81. The octets of a default authenticator: version 5, no realm, no name, the time of the call in microseconds and
seconds. -/
theorem c81_authenticator (g : Cfg) (t0 now : DateTime) (hn : YearOk now) :
    MsgType.build g .authenticator (MsgType.default t0 now .authenticator) =
      (Der.node 98 [.node 48 [.node 160 [.prim 2 [5]], .node 161 [.prim 27 []],
        .node 162 [.node 48 [.node 160 [.prim 2 [0]], .node 161 [.node 48 []]]],
        .node 164 [dInt32 (Int32.ofNat (now.nanos / 1000))], .node 165 [dTime rfc now]]]).bytes := by
  rw [show MsgType.default t0 now .authenticator = MsgType.default now now .authenticator from rfl,
    c59_wire_format g .authenticator _ (default_plain now now hn hn .authenticator)]
  refine congrArg Der.bytes ?_
  simp only [MsgType.der, MsgType.default, Authenticator.der, Authenticator.default, req, opt, PrincipalName.der,
    PrincipalName.default, dInt32_zero, dInt32_five, dString_nil, dSeqOf_nil]
  rfl

theorem defaultWire_length (t : Bytes) (h : t.length = 17) (T : MsgType) : (defaultWire t T).length < 2^64 := by
  cases T <;> simp [defaultWire, h]

/-- C81. Default values are read back: for every message type, if the default time and the time of the call are whole
seconds in years 0 to 9999. -/
theorem c81_roundtrip (g : Cfg) (t0 now : DateTime) (h : TimeOk t0) (hn : TimeOk now) (T : MsgType) (rest : Bytes) :
    T.parse g (T.build g (T.default t0 now) ++ rest) = .ok (T.default t0 now, rest) := by
  refine c39_roundtrip g T _ (default_wf t0 now h hn T) ?_ rest
  by_cases hT : T = .authenticator
  · subst hT
    obtain ⟨c0, c1, c2, c3, c4, c5, c6, c7, c8, c9, c10, c11, c12, c13, hd⟩ := dTime_digits now
    have hz : now.nanos / 1000 = 0 := by rw [hn.1]
    rw [c81_authenticator g t0 now hn.2, hd, hz, show Int32.ofNat 0 = 0 from rfl, dInt32_zero]
    simp [Der.bytes, Der.listBytes, derLen]
  · obtain ⟨c0, c1, c2, c3, c4, c5, c6, c7, c8, c9, c10, c11, c12, c13, hd⟩ := dTime_digits t0
    rw [c81_wire g t0 now h.2 hn.2 T hT]
    exact defaultWire_length _ (by rw [hd]; simp [Der.bytes, derLen]) T

/-- RFC 4120 5.4 to 5.10: protocol version and message type, for the messages that have them -/
def rfcVersion : (T : MsgType) → Option Int32
  | .ticket | .authenticator | .apReq | .apRep | .asReq | .asRep | .tgsReq | .tgsRep | .kdcReq | .krbCred | .krbError
  | .krbPriv | .krbSafe => some 5
  | _ => none

/-- the version number in a message -/
def MsgType.version : (T : MsgType) → T.Value → Option Int32
  | .ticket, (v : Ticket) => some v.tkt_vno
  | .authenticator, (v : Authenticator) => some v.authenticator_vno
  | .apReq, (v : ApReq) => some v.pvno
  | .apRep, (v : ApRep) => some v.pvno
  | .asReq, (v : AsReq) => some v.pvno
  | .asRep, (v : AsRep) => some v.pvno
  | .tgsReq, (v : TgsReq) => some v.pvno
  | .tgsRep, (v : TgsRep) => some v.pvno
  | .kdcReq, (v : KdcReq) => some v.pvno
  | .krbCred, (v : KrbCred) => some v.pvno
  | .krbError, (v : KrbError) => some v.pvno
  | .krbPriv, (v : KrbPriv) => some v.pvno
  | .krbSafe, (v : KrbSafe) => some v.pvno
  | _, _ => none

/-- the message type number in a message -/
def MsgType.number : (T : MsgType) → T.Value → Option Int32
  | .apReq, (v : ApReq) => some v.msg_type
  | .apRep, (v : ApRep) => some v.msg_type
  | .asReq, (v : AsReq) => some v.msg_type
  | .asRep, (v : AsRep) => some v.msg_type
  | .tgsReq, (v : TgsReq) => some v.msg_type
  | .tgsRep, (v : TgsRep) => some v.msg_type
  | .krbCred, (v : KrbCred) => some v.msg_type
  | .krbError, (v : KrbError) => some v.msg_type
  | .krbPriv, (v : KrbPriv) => some v.msg_type
  | .krbSafe, (v : KrbSafe) => some v.msg_type
  | _, _ => none

/-- RFC 4120 7.5.7: message type numbers -/
def rfcNumber : (T : MsgType) → Option Int32
  | .asReq => some 10 | .asRep => some 11 | .tgsReq => some 12 | .tgsRep => some 13 | .apReq => some 14
  | .apRep => some 15 | .krbSafe => some 20 | .krbPriv => some 21 | .krbCred => some 22 | .krbError => some 30
  | _ => none

/-- C81. Expected: a default message carries the protocol version and the message type of RFC 4120. Violated: exactly
tickets, AP-REP, KRB-SAFE, KRB-PRIV and KRB-ERROR carry version 0 (and, but for the ticket, type 0). -/
theorem c81_versions (t0 now : DateTime) (T : MsgType) :
    ((T.version (T.default t0 now) = rfcVersion T ∧ T.number (T.default t0 now) = rfcNumber T) ↔
      T ∉ [.ticket, .apRep, .krbSafe, .krbPriv, .krbError]) ∧
    (T ∈ [.ticket, .apRep, .krbSafe, .krbPriv, .krbError] →
      T.version (T.default t0 now) = some 0 ∧ (T ≠ .ticket → T.number (T.default t0 now) = some 0)) := by
  cases T <;> refine ⟨?_, ?_⟩ <;>
    simp [MsgType.version, MsgType.number, rfcVersion, rfcNumber, MsgType.default, Ticket.default, Authenticator.default, ApReq.default, ApRep.default, AsReq.default, AsRep.default, TgsReq.default, TgsRep.default, KdcReq.default, KrbCred.default, KrbError.default, KrbPriv.default, KrbSafe.default]

/-- C81. So a KRB-ERROR made by filling in a default message is written, and read back by anyone, with version 0 and type
0 unless the caller sets both. -/
theorem c81_error_version (g : Cfg) (t0 : DateTime) (h : TimeOk t0) (code : Int32) (realm : List Char) (sname : PrincipalName)
    (rest : Bytes)
    (hs : (MsgType.build g .krbError { KrbError.default t0 with error_code := code, realm, sname }).length < 2^64) :
    ∃ m : KrbError, MsgType.parse g .krbError
        (MsgType.build g .krbError { KrbError.default t0 with error_code := code, realm, sname } ++ rest) = .ok (m, rest) ∧
      m.pvno = 0 ∧ m.msg_type = 0 ∧ m.error_code = code :=
  ⟨_, c39_roundtrip g .krbError { KrbError.default t0 with error_code := code, realm, sname } ⟨nofun, h⟩ hs rest, rfl, rfl, rfl⟩

example : TimeOk ⟨0, 0⟩ ∧ (MsgType.build strictCfg .krbError
    { KrbError.default ⟨0, 0⟩ with error_code := 6, realm := "R".toList, sname := ⟨2, [['k']]⟩ }).length < 100 := by
  decide +kernel

end Verif.Asn1
