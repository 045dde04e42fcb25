import Verif.Asn1ReadSpec
/-
Specification for leaving out components of a message: which components the ASN.1 modules of RFC 4120 (section 5 and appendix A),
MS-KILE and MS-SFU call OPTIONAL and which they do not, by the number of their context tag. Written from the standards.
-/
namespace Verif.Asn1

/-- the number of a component: its context tag -/
def Der.number? : Der → Option Nat
  | .prim _ _ => none
  | .node t _ => if 0xa0 ≤ t.toNat ∧ t.toNat < 0xc0 then some (t.toNat - 0xa0) else none

/-- components without those whose number is marked as gone -/
def leave (gone : Nat → Bool) (l : List Der) : List Der :=
  l.filter fun d => match d.number? with
    | some n => !gone n
    | none => true

/-- a SEQUENCE without some of its components -/
def Der.seqWithout (gone : Nat → Bool) : Der → Der
  | .prim t c => .prim t c
  | .node t l => if t = 0x30 then .node t (leave gone l) else .node t l

/-- a message without some of its components: of the SEQUENCE in its application tag, or of itself -/
def Der.without (gone : Nat → Bool) : Der → Der
  | .prim t c => .prim t c
  | .node t l => if 0x60 ≤ t.toNat ∧ t.toNat < 0x80 then .node t (l.map (Der.seqWithout gone)) else Der.seqWithout gone (.node t l)

/-- the components of a SEQUENCE -/
def Der.seqComponents : Der → List Der
  | .prim _ _ => []
  | .node t l => if t = 0x30 then l else []

/-- the components of a message -/
def Der.components : Der → List Der
  | .prim _ _ => []
  | .node t l => if 0x60 ≤ t.toNat ∧ t.toNat < 0x80 then l.flatMap Der.seqComponents else Der.seqComponents (.node t l)

/-- components that may be missing -/
def optionalComponents : MsgType → List Nat
  | .encryptedData => [1]
  | .asRep | .tgsRep => [2]
  | .asReq | .tgsReq | .kdcReq => [3]
  | .kdcReqBody => [1, 3, 4, 6, 9, 10, 11]
  | .authenticator => [3, 6, 7, 8]
  | .encApRepPart => [2, 3]
  | .encAsRepPart | .encTgsRepPart | .encKdcRepPart => [3, 6, 8, 11, 12]
  | .krbCredInfo => [1, 2, 3, 4, 5, 6, 7, 8, 9, 10]
  | .encKrbCredPart => [1, 2, 3, 4, 5]
  | .encKrbPrivPart | .krbSafeBody => [1, 2, 3, 5]
  | .encTicketPart => [6, 8, 9, 10]
  | .krbError => [2, 3, 7, 8, 11, 12]
  | .adKdcIssued => [1, 2]
  | .etypeInfo2Entry => [1, 2]
  | .etypeInfoEntry | .paEncTsEnc | .typedDataEntry => [1]
  | .kerbErrorData => [2]
  | .s4uUserId => [1, 3, 4]
  | _ => []

/-- components that may not be missing -/
def requiredComponents : MsgType → List Nat
  | .encryptedData => [0, 2]
  | .apRep => [0, 1, 2]
  | .ticket => [0, 1, 2, 3]
  | .apReq => [0, 1, 2, 3, 4]
  | .paData => [1, 2]
  | .asRep | .tgsRep => [0, 1, 3, 4, 5, 6]
  | .asReq | .tgsReq | .kdcReq => [1, 2, 4]
  | .kdcReqBody => [0, 2, 5, 7, 8]
  | .authenticator => [0, 1, 2, 4, 5]
  | .encApRepPart => [0, 1]
  | .encAsRepPart | .encTgsRepPart | .encKdcRepPart => [0, 1, 2, 4, 5, 7, 9, 10]
  | .krbCredInfo | .encKrbCredPart => [0]
  | .encKrbPrivPart | .krbSafeBody => [0, 4]
  | .encTicketPart => [0, 1, 2, 3, 4, 5, 7]
  | .kerbErrorData => [1]
  | .krbCred | .krbSafe => [0, 1, 2, 3]
  | .krbError => [0, 1, 4, 5, 6, 9, 10]
  | .krbPriv => [0, 1, 3]
  | .adKdcIssued => [0, 3]
  | .etypeInfo2Entry | .etypeInfoEntry | .kerbPaPacRequest | .paEncTsEnc | .paPacOptions | .typedDataEntry => [0]
  | .paForUser => [0, 1, 2, 3]
  | .s4uUserId => [0, 2]
  | .principalName | .hostAddress | .checksum | .encryptionKey | .authorizationDataEntry | .lastReqEntry | .transitedEncoding
  | .kerbAdRestrictionEntry | .adAndOr | .paS4uX509User => [0, 1]
  | .hostAddresses | .authorizationData | .lastReq | .typedData | .etypeInfo | .etypeInfo2 | .methodData | .kerbKeyListRep
  | .kerbKeyListReq | .kerbLocal | .realm | .int32 | .kerberosFlags | .kerberosTime | .uInt32 => []

end Verif.Asn1
