import Verif.EqModel
import Verif.Props.Asn1
import Verif.Props.Warehouse
import Verif.Props.Keys
/-
Property theorems C78: what `==` between messages (and between credentials) means. Lowering and lemmas generated from
`Asn1Messages`.
-/
set_option linter.unusedSimpArgs false
namespace Verif.Asn1
open Verif.Crypto (CaseMap)

/-! ### Specification: a value with all its principal names in lower case -/

def PrincipalName.lowered (M : CaseMap) (p : PrincipalName) : PrincipalName := { p with name_string := p.name_string.map M.lower }

def Ticket.lowered (M : CaseMap) (a : Ticket) : Ticket :=
  { a with sname := PrincipalName.lowered M a.sname }

def ApReq.lowered (M : CaseMap) (a : ApReq) : ApReq :=
  { a with ticket := Ticket.lowered M a.ticket }

def AsRep.lowered (M : CaseMap) (a : AsRep) : AsRep :=
  { a with cname := PrincipalName.lowered M a.cname, ticket := Ticket.lowered M a.ticket }

def KdcReqBody.lowered (M : CaseMap) (a : KdcReqBody) : KdcReqBody :=
  { a with cname := (Option.map (PrincipalName.lowered M)) a.cname, sname := (Option.map (PrincipalName.lowered M)) a.sname, additional_tickets := (Option.map (List.map (Ticket.lowered M))) a.additional_tickets }

def AsReq.lowered (M : CaseMap) (a : AsReq) : AsReq :=
  { a with req_body := KdcReqBody.lowered M a.req_body }

def Authenticator.lowered (M : CaseMap) (a : Authenticator) : Authenticator :=
  { a with cname := PrincipalName.lowered M a.cname }

def EncAsRepPart.lowered (M : CaseMap) (a : EncAsRepPart) : EncAsRepPart :=
  { a with sname := PrincipalName.lowered M a.sname }

def EncKdcRepPart.lowered (M : CaseMap) (a : EncKdcRepPart) : EncKdcRepPart :=
  { a with sname := PrincipalName.lowered M a.sname }

def KrbCredInfo.lowered (M : CaseMap) (a : KrbCredInfo) : KrbCredInfo :=
  { a with pname := (Option.map (PrincipalName.lowered M)) a.pname, sname := (Option.map (PrincipalName.lowered M)) a.sname }

def EncKrbCredPart.lowered (M : CaseMap) (a : EncKrbCredPart) : EncKrbCredPart :=
  { a with ticket_info := (List.map (KrbCredInfo.lowered M)) a.ticket_info }

def EncTgsRepPart.lowered (M : CaseMap) (a : EncTgsRepPart) : EncTgsRepPart :=
  { a with sname := PrincipalName.lowered M a.sname }

def EncTicketPart.lowered (M : CaseMap) (a : EncTicketPart) : EncTicketPart :=
  { a with cname := PrincipalName.lowered M a.cname }

def KdcReq.lowered (M : CaseMap) (a : KdcReq) : KdcReq :=
  { a with req_body := KdcReqBody.lowered M a.req_body }

def KrbCred.lowered (M : CaseMap) (a : KrbCred) : KrbCred :=
  { a with tickets := (List.map (Ticket.lowered M)) a.tickets }

def KrbError.lowered (M : CaseMap) (a : KrbError) : KrbError :=
  { a with cname := (Option.map (PrincipalName.lowered M)) a.cname, sname := PrincipalName.lowered M a.sname }

def AdKdcIssued.lowered (M : CaseMap) (a : AdKdcIssued) : AdKdcIssued :=
  { a with i_sname := (Option.map (PrincipalName.lowered M)) a.i_sname }

def PaForUser.lowered (M : CaseMap) (a : PaForUser) : PaForUser :=
  { a with username := PrincipalName.lowered M a.username }

def S4uUserId.lowered (M : CaseMap) (a : S4uUserId) : S4uUserId :=
  { a with cname := (Option.map (PrincipalName.lowered M)) a.cname }

def PaS4uX509User.lowered (M : CaseMap) (a : PaS4uX509User) : PaS4uX509User :=
  { a with user_id := S4uUserId.lowered M a.user_id }

def TgsRep.lowered (M : CaseMap) (a : TgsRep) : TgsRep :=
  { a with cname := PrincipalName.lowered M a.cname, ticket := Ticket.lowered M a.ticket }

def TgsReq.lowered (M : CaseMap) (a : TgsReq) : TgsReq :=
  { a with req_body := KdcReqBody.lowered M a.req_body }

/-- the value with all principal names in it in lower case -/
def MsgType.lowered (M : CaseMap) : (T : MsgType) → T.Value → T.Value
  | .encryptedData => id
  | .apRep => id
  | .principalName => PrincipalName.lowered M
  | .ticket => Ticket.lowered M
  | .apReq => ApReq.lowered M
  | .paData => id
  | .asRep => AsRep.lowered M
  | .hostAddress => id
  | .kdcReqBody => KdcReqBody.lowered M
  | .asReq => AsReq.lowered M
  | .checksum => id
  | .encryptionKey => id
  | .authorizationDataEntry => id
  | .authenticator => Authenticator.lowered M
  | .encApRepPart => id
  | .lastReqEntry => id
  | .encAsRepPart => EncAsRepPart.lowered M
  | .encKdcRepPart => EncKdcRepPart.lowered M
  | .krbCredInfo => KrbCredInfo.lowered M
  | .encKrbCredPart => EncKrbCredPart.lowered M
  | .encKrbPrivPart => id
  | .encTgsRepPart => EncTgsRepPart.lowered M
  | .transitedEncoding => id
  | .encTicketPart => EncTicketPart.lowered M
  | .kdcReq => KdcReq.lowered M
  | .kerbAdRestrictionEntry => id
  | .kerbErrorData => id
  | .krbCred => KrbCred.lowered M
  | .krbError => KrbError.lowered M
  | .krbPriv => id
  | .krbSafeBody => id
  | .krbSafe => id
  | .adAndOr => id
  | .adKdcIssued => AdKdcIssued.lowered M
  | .etypeInfo2Entry => id
  | .etypeInfoEntry => id
  | .kerbPaPacRequest => id
  | .paEncTsEnc => id
  | .paForUser => PaForUser.lowered M
  | .paPacOptions => id
  | .s4uUserId => S4uUserId.lowered M
  | .paS4uX509User => PaS4uX509User.lowered M
  | .tgsRep => TgsRep.lowered M
  | .tgsReq => TgsReq.lowered M
  | .typedDataEntry => id
  | .hostAddresses => id
  | .authorizationData => id
  | .lastReq => id
  | .typedData => id
  | .etypeInfo => id
  | .etypeInfo2 => id
  | .methodData => id
  | .kerbKeyListRep => id
  | .kerbKeyListReq => id
  | .kerbLocal => id
  | .realm => id
  | .int32 => id
  | .kerberosFlags => id
  | .kerberosTime => id
  | .uInt32 => id

/-- the message types with a principal name in them -/
def MsgType.named : MsgType → Bool
  | .principalName
  | .ticket
  | .apReq
  | .asRep
  | .kdcReqBody
  | .asReq
  | .authenticator
  | .encAsRepPart
  | .encKdcRepPart
  | .krbCredInfo
  | .encKrbCredPart
  | .encTgsRepPart
  | .encTicketPart
  | .kdcReq
  | .krbCred
  | .krbError
  | .adKdcIssued
  | .paForUser
  | .s4uUserId
  | .paS4uX509User
  | .tgsRep
  | .tgsReq => true
  | _ => false

/-! ### Lemmas -/

theorem optEq_iff {α} {f : α → α → Bool} {l : α → α} (h : ∀ a b, f a b = true ↔ l a = l b) (a b : Option α) :
    optEq f a b = true ↔ Option.map l a = Option.map l b := by
  cases a <;> cases b <;> simp [optEq, h]

theorem vecEq_iff {α} {f : α → α → Bool} {l : α → α} (h : ∀ a b, f a b = true ↔ l a = l b) (a b : List α) :
    vecEq f a b = true ↔ List.map l a = List.map l b := by
  induction a generalizing b with
  | nil => cases b <;> simp [vecEq]
  | cons x a ih => cases b <;> simp [vecEq, h, ih]

theorem PrincipalName.eq_iff (M : CaseMap) (a b : PrincipalName) : a.eq M b = true ↔ a.lowered M = b.lowered M := by
  rw [c42_eq_iff]
  unfold SameName PrincipalName.lowered
  simp

theorem Ticket.eq_iff (M : CaseMap) (a b : Ticket) : a.eq M b = true ↔ a.lowered M = b.lowered M := by
  unfold Ticket.eq Ticket.lowered
  simp only [Bool.and_eq_true, decide_eq_true_eq, Ticket.mk.injEq, and_assoc, PrincipalName.eq_iff M]

theorem ApReq.eq_iff (M : CaseMap) (a b : ApReq) : a.eq M b = true ↔ a.lowered M = b.lowered M := by
  unfold ApReq.eq ApReq.lowered
  simp only [Bool.and_eq_true, decide_eq_true_eq, ApReq.mk.injEq, and_assoc, Ticket.eq_iff M]

theorem AsRep.eq_iff (M : CaseMap) (a b : AsRep) : a.eq M b = true ↔ a.lowered M = b.lowered M := by
  unfold AsRep.eq AsRep.lowered
  simp only [Bool.and_eq_true, decide_eq_true_eq, AsRep.mk.injEq, and_assoc, PrincipalName.eq_iff M, Ticket.eq_iff M]

theorem KdcReqBody.eq_iff (M : CaseMap) (a b : KdcReqBody) : a.eq M b = true ↔ a.lowered M = b.lowered M := by
  unfold KdcReqBody.eq KdcReqBody.lowered
  simp only [Bool.and_eq_true, decide_eq_true_eq, KdcReqBody.mk.injEq, and_assoc, optEq_iff (PrincipalName.eq_iff M), optEq_iff (vecEq_iff (Ticket.eq_iff M))]

theorem AsReq.eq_iff (M : CaseMap) (a b : AsReq) : a.eq M b = true ↔ a.lowered M = b.lowered M := by
  unfold AsReq.eq AsReq.lowered
  simp only [Bool.and_eq_true, decide_eq_true_eq, AsReq.mk.injEq, and_assoc, KdcReqBody.eq_iff M]

theorem Authenticator.eq_iff (M : CaseMap) (a b : Authenticator) : a.eq M b = true ↔ a.lowered M = b.lowered M := by
  unfold Authenticator.eq Authenticator.lowered
  simp only [Bool.and_eq_true, decide_eq_true_eq, Authenticator.mk.injEq, and_assoc, PrincipalName.eq_iff M]

theorem EncAsRepPart.eq_iff (M : CaseMap) (a b : EncAsRepPart) : a.eq M b = true ↔ a.lowered M = b.lowered M := by
  unfold EncAsRepPart.eq EncAsRepPart.lowered
  simp only [Bool.and_eq_true, decide_eq_true_eq, EncAsRepPart.mk.injEq, and_assoc, PrincipalName.eq_iff M]

theorem EncKdcRepPart.eq_iff (M : CaseMap) (a b : EncKdcRepPart) : a.eq M b = true ↔ a.lowered M = b.lowered M := by
  unfold EncKdcRepPart.eq EncKdcRepPart.lowered
  simp only [Bool.and_eq_true, decide_eq_true_eq, EncKdcRepPart.mk.injEq, and_assoc, PrincipalName.eq_iff M]

theorem KrbCredInfo.eq_iff (M : CaseMap) (a b : KrbCredInfo) : a.eq M b = true ↔ a.lowered M = b.lowered M := by
  unfold KrbCredInfo.eq KrbCredInfo.lowered
  simp only [Bool.and_eq_true, decide_eq_true_eq, KrbCredInfo.mk.injEq, and_assoc, optEq_iff (PrincipalName.eq_iff M)]

theorem EncKrbCredPart.eq_iff (M : CaseMap) (a b : EncKrbCredPart) : a.eq M b = true ↔ a.lowered M = b.lowered M := by
  unfold EncKrbCredPart.eq EncKrbCredPart.lowered
  simp only [Bool.and_eq_true, decide_eq_true_eq, EncKrbCredPart.mk.injEq, and_assoc, vecEq_iff (KrbCredInfo.eq_iff M)]

theorem EncTgsRepPart.eq_iff (M : CaseMap) (a b : EncTgsRepPart) : a.eq M b = true ↔ a.lowered M = b.lowered M := by
  unfold EncTgsRepPart.eq EncTgsRepPart.lowered
  simp only [Bool.and_eq_true, decide_eq_true_eq, EncTgsRepPart.mk.injEq, and_assoc, PrincipalName.eq_iff M]

theorem EncTicketPart.eq_iff (M : CaseMap) (a b : EncTicketPart) : a.eq M b = true ↔ a.lowered M = b.lowered M := by
  unfold EncTicketPart.eq EncTicketPart.lowered
  simp only [Bool.and_eq_true, decide_eq_true_eq, EncTicketPart.mk.injEq, and_assoc, PrincipalName.eq_iff M]

theorem KdcReq.eq_iff (M : CaseMap) (a b : KdcReq) : a.eq M b = true ↔ a.lowered M = b.lowered M := by
  unfold KdcReq.eq KdcReq.lowered
  simp only [Bool.and_eq_true, decide_eq_true_eq, KdcReq.mk.injEq, and_assoc, KdcReqBody.eq_iff M]

theorem KrbCred.eq_iff (M : CaseMap) (a b : KrbCred) : a.eq M b = true ↔ a.lowered M = b.lowered M := by
  unfold KrbCred.eq KrbCred.lowered
  simp only [Bool.and_eq_true, decide_eq_true_eq, KrbCred.mk.injEq, and_assoc, vecEq_iff (Ticket.eq_iff M)]

theorem KrbError.eq_iff (M : CaseMap) (a b : KrbError) : a.eq M b = true ↔ a.lowered M = b.lowered M := by
  unfold KrbError.eq KrbError.lowered
  simp only [Bool.and_eq_true, decide_eq_true_eq, KrbError.mk.injEq, and_assoc, PrincipalName.eq_iff M, optEq_iff (PrincipalName.eq_iff M)]

theorem AdKdcIssued.eq_iff (M : CaseMap) (a b : AdKdcIssued) : a.eq M b = true ↔ a.lowered M = b.lowered M := by
  unfold AdKdcIssued.eq AdKdcIssued.lowered
  simp only [Bool.and_eq_true, decide_eq_true_eq, AdKdcIssued.mk.injEq, and_assoc, optEq_iff (PrincipalName.eq_iff M)]

theorem PaForUser.eq_iff (M : CaseMap) (a b : PaForUser) : a.eq M b = true ↔ a.lowered M = b.lowered M := by
  unfold PaForUser.eq PaForUser.lowered
  simp only [Bool.and_eq_true, decide_eq_true_eq, PaForUser.mk.injEq, and_assoc, PrincipalName.eq_iff M]

theorem S4uUserId.eq_iff (M : CaseMap) (a b : S4uUserId) : a.eq M b = true ↔ a.lowered M = b.lowered M := by
  unfold S4uUserId.eq S4uUserId.lowered
  simp only [Bool.and_eq_true, decide_eq_true_eq, S4uUserId.mk.injEq, and_assoc, optEq_iff (PrincipalName.eq_iff M)]

theorem PaS4uX509User.eq_iff (M : CaseMap) (a b : PaS4uX509User) : a.eq M b = true ↔ a.lowered M = b.lowered M := by
  unfold PaS4uX509User.eq PaS4uX509User.lowered
  simp only [Bool.and_eq_true, decide_eq_true_eq, PaS4uX509User.mk.injEq, and_assoc, S4uUserId.eq_iff M]

theorem TgsRep.eq_iff (M : CaseMap) (a b : TgsRep) : a.eq M b = true ↔ a.lowered M = b.lowered M := by
  unfold TgsRep.eq TgsRep.lowered
  simp only [Bool.and_eq_true, decide_eq_true_eq, TgsRep.mk.injEq, and_assoc, PrincipalName.eq_iff M, Ticket.eq_iff M]

theorem TgsReq.eq_iff (M : CaseMap) (a b : TgsReq) : a.eq M b = true ↔ a.lowered M = b.lowered M := by
  unfold TgsReq.eq TgsReq.lowered
  simp only [Bool.and_eq_true, decide_eq_true_eq, TgsReq.mk.injEq, and_assoc, KdcReqBody.eq_iff M]

/-! ### C78 -/

/-- C78. `==` on any two messages of one type says that they are the same after putting the principal names in lower
case: the number and type of names, realms, texts and everything else are compared exactly. -/
theorem c78_eq_iff (M : CaseMap) (T : MsgType) (a b : T.Value) : T.eq M a b = true ↔ T.lowered M a = T.lowered M b := by
  cases T
  case principalName => exact PrincipalName.eq_iff M a b
  case ticket => exact Ticket.eq_iff M a b
  case apReq => exact ApReq.eq_iff M a b
  case asRep => exact AsRep.eq_iff M a b
  case kdcReqBody => exact KdcReqBody.eq_iff M a b
  case asReq => exact AsReq.eq_iff M a b
  case authenticator => exact Authenticator.eq_iff M a b
  case encAsRepPart => exact EncAsRepPart.eq_iff M a b
  case encKdcRepPart => exact EncKdcRepPart.eq_iff M a b
  case krbCredInfo => exact KrbCredInfo.eq_iff M a b
  case encKrbCredPart => exact EncKrbCredPart.eq_iff M a b
  case encTgsRepPart => exact EncTgsRepPart.eq_iff M a b
  case encTicketPart => exact EncTicketPart.eq_iff M a b
  case kdcReq => exact KdcReq.eq_iff M a b
  case krbCred => exact KrbCred.eq_iff M a b
  case krbError => exact KrbError.eq_iff M a b
  case adKdcIssued => exact AdKdcIssued.eq_iff M a b
  case paForUser => exact PaForUser.eq_iff M a b
  case s4uUserId => exact S4uUserId.eq_iff M a b
  case paS4uX509User => exact PaS4uX509User.eq_iff M a b
  case tgsRep => exact TgsRep.eq_iff M a b
  case tgsReq => exact TgsReq.eq_iff M a b
  all_goals exact decide_eq_true_iff

/-- C78. `==` is reflexive, symmetric and transitive on every message type. -/
theorem c78_equivalence (M : CaseMap) (T : MsgType) : Equivalence (fun a b => T.eq M a b = true) where
  refl a := (c78_eq_iff M T a a).2 rfl
  symm h := (c78_eq_iff M T _ _).2 ((c78_eq_iff M T _ _).1 h).symm
  trans h h' := (c78_eq_iff M T _ _).2 (((c78_eq_iff M T _ _).1 h).trans ((c78_eq_iff M T _ _).1 h'))

theorem named_pair (M : CaseMap) (T : MsgType) (h : T.named = true) :
    ∃ f : PrincipalName → T.Value, (∀ p q, f p = f q → p = q) ∧
      ∀ p q, p.lowered M = q.lowered M → T.lowered M (f p) = T.lowered M (f q) := by
  cases T
  case principalName => exact ⟨id, fun _ _ h => h, fun _ _ h => h⟩
  case ticket =>
    refine ⟨fun p => (⟨0, [], p, ⟨0, none, []⟩⟩ : Ticket), fun p q h => ?_, fun p q h => ?_⟩
    · simpa using h
    · simp only [MsgType.lowered, Ticket.lowered, ApReq.lowered, AsRep.lowered, KdcReqBody.lowered, AsReq.lowered, Authenticator.lowered, EncAsRepPart.lowered, EncKdcRepPart.lowered, KrbCredInfo.lowered, EncKrbCredPart.lowered, EncTgsRepPart.lowered, EncTicketPart.lowered, KdcReq.lowered, KrbCred.lowered, KrbError.lowered, AdKdcIssued.lowered, PaForUser.lowered, S4uUserId.lowered, PaS4uX509User.lowered, TgsRep.lowered, TgsReq.lowered, Option.map, List.map, h]
  case apReq =>
    refine ⟨fun p => (⟨0, 0, 0, ⟨0, [], p, ⟨0, none, []⟩⟩, ⟨0, none, []⟩⟩ : ApReq), fun p q h => ?_, fun p q h => ?_⟩
    · simpa using h
    · simp only [MsgType.lowered, Ticket.lowered, ApReq.lowered, AsRep.lowered, KdcReqBody.lowered, AsReq.lowered, Authenticator.lowered, EncAsRepPart.lowered, EncKdcRepPart.lowered, KrbCredInfo.lowered, EncKrbCredPart.lowered, EncTgsRepPart.lowered, EncTicketPart.lowered, KdcReq.lowered, KrbCred.lowered, KrbError.lowered, AdKdcIssued.lowered, PaForUser.lowered, S4uUserId.lowered, PaS4uX509User.lowered, TgsRep.lowered, TgsReq.lowered, Option.map, List.map, h]
  case asRep =>
    refine ⟨fun p => (⟨0, 0, none, [], p, ⟨0, [], ⟨0, []⟩, ⟨0, none, []⟩⟩, ⟨0, none, []⟩⟩ : AsRep), fun p q h => ?_, fun p q h => ?_⟩
    · simpa using h
    · simp only [MsgType.lowered, Ticket.lowered, ApReq.lowered, AsRep.lowered, KdcReqBody.lowered, AsReq.lowered, Authenticator.lowered, EncAsRepPart.lowered, EncKdcRepPart.lowered, KrbCredInfo.lowered, EncKrbCredPart.lowered, EncTgsRepPart.lowered, EncTicketPart.lowered, KdcReq.lowered, KrbCred.lowered, KrbError.lowered, AdKdcIssued.lowered, PaForUser.lowered, S4uUserId.lowered, PaS4uX509User.lowered, TgsRep.lowered, TgsReq.lowered, Option.map, List.map, h]
  case kdcReqBody =>
    refine ⟨fun p => (⟨0, some p, [], none, none, ⟨0, 0⟩, none, 0, [], none, none, none⟩ : KdcReqBody), fun p q h => ?_, fun p q h => ?_⟩
    · simpa using h
    · simp only [MsgType.lowered, Ticket.lowered, ApReq.lowered, AsRep.lowered, KdcReqBody.lowered, AsReq.lowered, Authenticator.lowered, EncAsRepPart.lowered, EncKdcRepPart.lowered, KrbCredInfo.lowered, EncKrbCredPart.lowered, EncTgsRepPart.lowered, EncTicketPart.lowered, KdcReq.lowered, KrbCred.lowered, KrbError.lowered, AdKdcIssued.lowered, PaForUser.lowered, S4uUserId.lowered, PaS4uX509User.lowered, TgsRep.lowered, TgsReq.lowered, Option.map, List.map, h]
  case asReq =>
    refine ⟨fun p => (⟨0, 0, none, ⟨0, some p, [], none, none, ⟨0, 0⟩, none, 0, [], none, none, none⟩⟩ : AsReq), fun p q h => ?_, fun p q h => ?_⟩
    · simpa using h
    · simp only [MsgType.lowered, Ticket.lowered, ApReq.lowered, AsRep.lowered, KdcReqBody.lowered, AsReq.lowered, Authenticator.lowered, EncAsRepPart.lowered, EncKdcRepPart.lowered, KrbCredInfo.lowered, EncKrbCredPart.lowered, EncTgsRepPart.lowered, EncTicketPart.lowered, KdcReq.lowered, KrbCred.lowered, KrbError.lowered, AdKdcIssued.lowered, PaForUser.lowered, S4uUserId.lowered, PaS4uX509User.lowered, TgsRep.lowered, TgsReq.lowered, Option.map, List.map, h]
  case authenticator =>
    refine ⟨fun p => (⟨0, [], p, none, 0, ⟨0, 0⟩, none, none, none⟩ : Authenticator), fun p q h => ?_, fun p q h => ?_⟩
    · simpa using h
    · simp only [MsgType.lowered, Ticket.lowered, ApReq.lowered, AsRep.lowered, KdcReqBody.lowered, AsReq.lowered, Authenticator.lowered, EncAsRepPart.lowered, EncKdcRepPart.lowered, KrbCredInfo.lowered, EncKrbCredPart.lowered, EncTgsRepPart.lowered, EncTicketPart.lowered, KdcReq.lowered, KrbCred.lowered, KrbError.lowered, AdKdcIssued.lowered, PaForUser.lowered, S4uUserId.lowered, PaS4uX509User.lowered, TgsRep.lowered, TgsReq.lowered, Option.map, List.map, h]
  case encAsRepPart =>
    refine ⟨fun p => (⟨⟨0, []⟩, [], 0, none, 0, ⟨0, 0⟩, none, ⟨0, 0⟩, none, [], p, none, none⟩ : EncAsRepPart), fun p q h => ?_, fun p q h => ?_⟩
    · simpa using h
    · simp only [MsgType.lowered, Ticket.lowered, ApReq.lowered, AsRep.lowered, KdcReqBody.lowered, AsReq.lowered, Authenticator.lowered, EncAsRepPart.lowered, EncKdcRepPart.lowered, KrbCredInfo.lowered, EncKrbCredPart.lowered, EncTgsRepPart.lowered, EncTicketPart.lowered, KdcReq.lowered, KrbCred.lowered, KrbError.lowered, AdKdcIssued.lowered, PaForUser.lowered, S4uUserId.lowered, PaS4uX509User.lowered, TgsRep.lowered, TgsReq.lowered, Option.map, List.map, h]
  case encKdcRepPart =>
    refine ⟨fun p => (⟨⟨0, []⟩, [], 0, none, 0, ⟨0, 0⟩, none, ⟨0, 0⟩, none, [], p, none, none⟩ : EncKdcRepPart), fun p q h => ?_, fun p q h => ?_⟩
    · simpa using h
    · simp only [MsgType.lowered, Ticket.lowered, ApReq.lowered, AsRep.lowered, KdcReqBody.lowered, AsReq.lowered, Authenticator.lowered, EncAsRepPart.lowered, EncKdcRepPart.lowered, KrbCredInfo.lowered, EncKrbCredPart.lowered, EncTgsRepPart.lowered, EncTicketPart.lowered, KdcReq.lowered, KrbCred.lowered, KrbError.lowered, AdKdcIssued.lowered, PaForUser.lowered, S4uUserId.lowered, PaS4uX509User.lowered, TgsRep.lowered, TgsReq.lowered, Option.map, List.map, h]
  case krbCredInfo =>
    refine ⟨fun p => (⟨⟨0, []⟩, none, some p, none, none, none, none, none, none, none, none⟩ : KrbCredInfo), fun p q h => ?_, fun p q h => ?_⟩
    · simpa using h
    · simp only [MsgType.lowered, Ticket.lowered, ApReq.lowered, AsRep.lowered, KdcReqBody.lowered, AsReq.lowered, Authenticator.lowered, EncAsRepPart.lowered, EncKdcRepPart.lowered, KrbCredInfo.lowered, EncKrbCredPart.lowered, EncTgsRepPart.lowered, EncTicketPart.lowered, KdcReq.lowered, KrbCred.lowered, KrbError.lowered, AdKdcIssued.lowered, PaForUser.lowered, S4uUserId.lowered, PaS4uX509User.lowered, TgsRep.lowered, TgsReq.lowered, Option.map, List.map, h]
  case encKrbCredPart =>
    refine ⟨fun p => (⟨[⟨⟨0, []⟩, none, some p, none, none, none, none, none, none, none, none⟩], none, none, none, none, none⟩ : EncKrbCredPart), fun p q h => ?_, fun p q h => ?_⟩
    · simpa using h
    · simp only [MsgType.lowered, Ticket.lowered, ApReq.lowered, AsRep.lowered, KdcReqBody.lowered, AsReq.lowered, Authenticator.lowered, EncAsRepPart.lowered, EncKdcRepPart.lowered, KrbCredInfo.lowered, EncKrbCredPart.lowered, EncTgsRepPart.lowered, EncTicketPart.lowered, KdcReq.lowered, KrbCred.lowered, KrbError.lowered, AdKdcIssued.lowered, PaForUser.lowered, S4uUserId.lowered, PaS4uX509User.lowered, TgsRep.lowered, TgsReq.lowered, Option.map, List.map, h]
  case encTgsRepPart =>
    refine ⟨fun p => (⟨⟨0, []⟩, [], 0, none, 0, ⟨0, 0⟩, none, ⟨0, 0⟩, none, [], p, none, none⟩ : EncTgsRepPart), fun p q h => ?_, fun p q h => ?_⟩
    · simpa using h
    · simp only [MsgType.lowered, Ticket.lowered, ApReq.lowered, AsRep.lowered, KdcReqBody.lowered, AsReq.lowered, Authenticator.lowered, EncAsRepPart.lowered, EncKdcRepPart.lowered, KrbCredInfo.lowered, EncKrbCredPart.lowered, EncTgsRepPart.lowered, EncTicketPart.lowered, KdcReq.lowered, KrbCred.lowered, KrbError.lowered, AdKdcIssued.lowered, PaForUser.lowered, S4uUserId.lowered, PaS4uX509User.lowered, TgsRep.lowered, TgsReq.lowered, Option.map, List.map, h]
  case encTicketPart =>
    refine ⟨fun p => (⟨0, ⟨0, []⟩, [], p, ⟨0, []⟩, ⟨0, 0⟩, none, ⟨0, 0⟩, none, none, none⟩ : EncTicketPart), fun p q h => ?_, fun p q h => ?_⟩
    · simpa using h
    · simp only [MsgType.lowered, Ticket.lowered, ApReq.lowered, AsRep.lowered, KdcReqBody.lowered, AsReq.lowered, Authenticator.lowered, EncAsRepPart.lowered, EncKdcRepPart.lowered, KrbCredInfo.lowered, EncKrbCredPart.lowered, EncTgsRepPart.lowered, EncTicketPart.lowered, KdcReq.lowered, KrbCred.lowered, KrbError.lowered, AdKdcIssued.lowered, PaForUser.lowered, S4uUserId.lowered, PaS4uX509User.lowered, TgsRep.lowered, TgsReq.lowered, Option.map, List.map, h]
  case kdcReq =>
    refine ⟨fun p => (⟨0, 0, none, ⟨0, some p, [], none, none, ⟨0, 0⟩, none, 0, [], none, none, none⟩⟩ : KdcReq), fun p q h => ?_, fun p q h => ?_⟩
    · simpa using h
    · simp only [MsgType.lowered, Ticket.lowered, ApReq.lowered, AsRep.lowered, KdcReqBody.lowered, AsReq.lowered, Authenticator.lowered, EncAsRepPart.lowered, EncKdcRepPart.lowered, KrbCredInfo.lowered, EncKrbCredPart.lowered, EncTgsRepPart.lowered, EncTicketPart.lowered, KdcReq.lowered, KrbCred.lowered, KrbError.lowered, AdKdcIssued.lowered, PaForUser.lowered, S4uUserId.lowered, PaS4uX509User.lowered, TgsRep.lowered, TgsReq.lowered, Option.map, List.map, h]
  case krbCred =>
    refine ⟨fun p => (⟨0, 0, [⟨0, [], p, ⟨0, none, []⟩⟩], ⟨0, none, []⟩⟩ : KrbCred), fun p q h => ?_, fun p q h => ?_⟩
    · simpa using h
    · simp only [MsgType.lowered, Ticket.lowered, ApReq.lowered, AsRep.lowered, KdcReqBody.lowered, AsReq.lowered, Authenticator.lowered, EncAsRepPart.lowered, EncKdcRepPart.lowered, KrbCredInfo.lowered, EncKrbCredPart.lowered, EncTgsRepPart.lowered, EncTicketPart.lowered, KdcReq.lowered, KrbCred.lowered, KrbError.lowered, AdKdcIssued.lowered, PaForUser.lowered, S4uUserId.lowered, PaS4uX509User.lowered, TgsRep.lowered, TgsReq.lowered, Option.map, List.map, h]
  case krbError =>
    refine ⟨fun p => (⟨0, 0, none, none, ⟨0, 0⟩, 0, 0, none, some p, [], ⟨0, []⟩, none, none⟩ : KrbError), fun p q h => ?_, fun p q h => ?_⟩
    · simpa using h
    · simp only [MsgType.lowered, Ticket.lowered, ApReq.lowered, AsRep.lowered, KdcReqBody.lowered, AsReq.lowered, Authenticator.lowered, EncAsRepPart.lowered, EncKdcRepPart.lowered, KrbCredInfo.lowered, EncKrbCredPart.lowered, EncTgsRepPart.lowered, EncTicketPart.lowered, KdcReq.lowered, KrbCred.lowered, KrbError.lowered, AdKdcIssued.lowered, PaForUser.lowered, S4uUserId.lowered, PaS4uX509User.lowered, TgsRep.lowered, TgsReq.lowered, Option.map, List.map, h]
  case adKdcIssued =>
    refine ⟨fun p => (⟨⟨0, []⟩, none, some p, []⟩ : AdKdcIssued), fun p q h => ?_, fun p q h => ?_⟩
    · simpa using h
    · simp only [MsgType.lowered, Ticket.lowered, ApReq.lowered, AsRep.lowered, KdcReqBody.lowered, AsReq.lowered, Authenticator.lowered, EncAsRepPart.lowered, EncKdcRepPart.lowered, KrbCredInfo.lowered, EncKrbCredPart.lowered, EncTgsRepPart.lowered, EncTicketPart.lowered, KdcReq.lowered, KrbCred.lowered, KrbError.lowered, AdKdcIssued.lowered, PaForUser.lowered, S4uUserId.lowered, PaS4uX509User.lowered, TgsRep.lowered, TgsReq.lowered, Option.map, List.map, h]
  case paForUser =>
    refine ⟨fun p => (⟨p, [], ⟨0, []⟩, []⟩ : PaForUser), fun p q h => ?_, fun p q h => ?_⟩
    · simpa using h
    · simp only [MsgType.lowered, Ticket.lowered, ApReq.lowered, AsRep.lowered, KdcReqBody.lowered, AsReq.lowered, Authenticator.lowered, EncAsRepPart.lowered, EncKdcRepPart.lowered, KrbCredInfo.lowered, EncKrbCredPart.lowered, EncTgsRepPart.lowered, EncTicketPart.lowered, KdcReq.lowered, KrbCred.lowered, KrbError.lowered, AdKdcIssued.lowered, PaForUser.lowered, S4uUserId.lowered, PaS4uX509User.lowered, TgsRep.lowered, TgsReq.lowered, Option.map, List.map, h]
  case s4uUserId =>
    refine ⟨fun p => (⟨0, some p, [], none, none⟩ : S4uUserId), fun p q h => ?_, fun p q h => ?_⟩
    · simpa using h
    · simp only [MsgType.lowered, Ticket.lowered, ApReq.lowered, AsRep.lowered, KdcReqBody.lowered, AsReq.lowered, Authenticator.lowered, EncAsRepPart.lowered, EncKdcRepPart.lowered, KrbCredInfo.lowered, EncKrbCredPart.lowered, EncTgsRepPart.lowered, EncTicketPart.lowered, KdcReq.lowered, KrbCred.lowered, KrbError.lowered, AdKdcIssued.lowered, PaForUser.lowered, S4uUserId.lowered, PaS4uX509User.lowered, TgsRep.lowered, TgsReq.lowered, Option.map, List.map, h]
  case paS4uX509User =>
    refine ⟨fun p => (⟨⟨0, some p, [], none, none⟩, ⟨0, []⟩⟩ : PaS4uX509User), fun p q h => ?_, fun p q h => ?_⟩
    · simpa using h
    · simp only [MsgType.lowered, Ticket.lowered, ApReq.lowered, AsRep.lowered, KdcReqBody.lowered, AsReq.lowered, Authenticator.lowered, EncAsRepPart.lowered, EncKdcRepPart.lowered, KrbCredInfo.lowered, EncKrbCredPart.lowered, EncTgsRepPart.lowered, EncTicketPart.lowered, KdcReq.lowered, KrbCred.lowered, KrbError.lowered, AdKdcIssued.lowered, PaForUser.lowered, S4uUserId.lowered, PaS4uX509User.lowered, TgsRep.lowered, TgsReq.lowered, Option.map, List.map, h]
  case tgsRep =>
    refine ⟨fun p => (⟨0, 0, none, [], p, ⟨0, [], ⟨0, []⟩, ⟨0, none, []⟩⟩, ⟨0, none, []⟩⟩ : TgsRep), fun p q h => ?_, fun p q h => ?_⟩
    · simpa using h
    · simp only [MsgType.lowered, Ticket.lowered, ApReq.lowered, AsRep.lowered, KdcReqBody.lowered, AsReq.lowered, Authenticator.lowered, EncAsRepPart.lowered, EncKdcRepPart.lowered, KrbCredInfo.lowered, EncKrbCredPart.lowered, EncTgsRepPart.lowered, EncTicketPart.lowered, KdcReq.lowered, KrbCred.lowered, KrbError.lowered, AdKdcIssued.lowered, PaForUser.lowered, S4uUserId.lowered, PaS4uX509User.lowered, TgsRep.lowered, TgsReq.lowered, Option.map, List.map, h]
  case tgsReq =>
    refine ⟨fun p => (⟨0, 0, none, ⟨0, some p, [], none, none, ⟨0, 0⟩, none, 0, [], none, none, none⟩⟩ : TgsReq), fun p q h => ?_, fun p q h => ?_⟩
    · simpa using h
    · simp only [MsgType.lowered, Ticket.lowered, ApReq.lowered, AsRep.lowered, KdcReqBody.lowered, AsReq.lowered, Authenticator.lowered, EncAsRepPart.lowered, EncKdcRepPart.lowered, KrbCredInfo.lowered, EncKrbCredPart.lowered, EncTgsRepPart.lowered, EncTicketPart.lowered, KdcReq.lowered, KrbCred.lowered, KrbError.lowered, AdKdcIssued.lowered, PaForUser.lowered, S4uUserId.lowered, PaS4uX509User.lowered, TgsRep.lowered, TgsReq.lowered, Option.map, List.map, h]
  all_goals cases h

/-- C78. Expected: messages that compare equal are the same, so they have the same bytes. Violated: this holds exactly for
the message types without a principal name in them (if there are two different texts with the same lower case). -/
theorem c78_identical_iff (M : CaseMap) (x y : List Char) (hne : x ≠ y) (hl : M.lower x = M.lower y) (T : MsgType) :
    (∀ a b : T.Value, T.eq M a b = true → a = b) ↔ T.named = false := by
  constructor
  · intro h
    cases hn : T.named with
    | false => rfl
    | true =>
      obtain ⟨f, hi, hf⟩ := named_pair M T hn
      have e := h (f ⟨1, [x]⟩) (f ⟨1, [y]⟩) ((c78_eq_iff M T _ _).2 (hf _ _ (by simp [PrincipalName.lowered, hl])))
      have e := hi _ _ e
      simp only [PrincipalName.mk.injEq, List.cons.injEq, and_true, true_and] at e
      exact absurd e hne
  · intro hn a b h
    cases T
    case principalName => cases hn
    case ticket => cases hn
    case apReq => cases hn
    case asRep => cases hn
    case kdcReqBody => cases hn
    case asReq => cases hn
    case authenticator => cases hn
    case encAsRepPart => cases hn
    case encKdcRepPart => cases hn
    case krbCredInfo => cases hn
    case encKrbCredPart => cases hn
    case encTgsRepPart => cases hn
    case encTicketPart => cases hn
    case kdcReq => cases hn
    case krbCred => cases hn
    case krbError => cases hn
    case adKdcIssued => cases hn
    case paForUser => cases hn
    case s4uUserId => cases hn
    case paS4uX509User => cases hn
    case tgsRep => cases hn
    case tgsReq => cases hn
    all_goals exact decide_eq_true_iff.1 h

/-- C78. In any case different messages have different bytes, whether they compare equal or not. -/
theorem c78_bytes (M : CaseMap) (g : Cfg) (T : MsgType) (a b : T.Value) (ha : T.WF a) (hb : T.WF b)
    (hs : (T.build g a).length < 2^64) (hs' : (T.build g b).length < 2^64) :
    T.eq M a b = true ∧ T.build g a ≠ T.build g b ↔ T.eq M a b = true ∧ a ≠ b := by
  constructor
  · rintro ⟨h, hn⟩
    exact ⟨h, fun e => hn (by rw [e])⟩
  · rintro ⟨h, hn⟩
    exact ⟨h, fun e => hn (c39_unambiguous g T a b ha hb hs hs' [] [] (by rw [e])).1⟩

end Verif.Asn1

namespace Verif.Kb
open Verif.Asn1
open Verif.Crypto (CaseMap asciiCase)

/-- the credential with all its names in lower case -/
def Credential.lowered (M : CaseMap) (c : Credential) : Credential :=
  { c with cname := c.cname.lowered M, ticket := c.ticket.lowered M, client_part := c.client_part.lowered M }

theorem Credential.eq_iff (M : CaseMap) (a b : Credential) : a.eq M b = true ↔ a.lowered M = b.lowered M := by
  unfold Credential.eq Credential.lowered
  simp only [Bool.and_eq_true, decide_eq_true_eq, Credential.mk.injEq, and_assoc, PrincipalName.eq_iff M, Ticket.eq_iff M,
    EncAsRepPart.eq_iff M]

/-- C78. Credentials and collections of credentials compare in the same way. -/
theorem c78_credentials (M : CaseMap) (a b : Warehouse) : a.eq M b = true ↔
    a.credentials.map (Credential.lowered M) = b.credentials.map (Credential.lowered M) ∧ a.realm = b.realm ∧
      a.client.lowered M = b.client.lowered M := by
  unfold Warehouse.eq
  simp only [Bool.and_eq_true, decide_eq_true_eq, and_assoc, vecEq_iff (Credential.eq_iff M), PrincipalName.eq_iff M]

/-! ### Examples -/

-- C78: two tickets for different services that compare equal; different realms do not
example : MsgType.eq asciiCase .ticket exTicket { exTicket with sname := ⟨2, ["KRBTGT".toList, "kingdom.hearts".toList]⟩ } = true ∧
    exTicket ≠ { exTicket with sname := ⟨2, ["KRBTGT".toList, "kingdom.hearts".toList]⟩ } ∧
    MsgType.eq asciiCase .ticket exTicket { exTicket with realm := "kingdom.hearts".toList } = false := by decide +kernel
example : "a".toList ≠ "A".toList ∧ asciiCase.lower "a".toList = asciiCase.lower "A".toList := by decide +kernel
example : MsgType.WF .ticket exTicket ∧
    (MsgType.build strictCfg .ticket { exTicket with sname := ⟨2, ["KRBTGT".toList, "kingdom.hearts".toList]⟩ }).length < 2^64 ∧ (MsgType.build strictCfg .ticket exTicket).length < 2^64 := ⟨trivial, by decide +kernel, by decide +kernel⟩
example : Warehouse.eq asciiCase exWarehouse { exWarehouse with client := ⟨1, ["Mickey".toList]⟩ } = true := by decide +kernel

end Verif.Kb
