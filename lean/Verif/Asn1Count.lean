import Verif.Asn1Messages
import Verif.LoadModel
/-
Work done to read a message: the parsers of `Asn1Core` and `Asn1Messages` once more, with a count of steps. A step is an attempt to
read a tag, an octet of a tag or of a length, reading the next component of a SEQUENCE or the next element of a SEQUENCE OF (present
or not), the end of a SEQUENCE, or taking one octet of the content of a basic type. Everything else the parsers do is a bounded amount
of work for each step; for the external crate `red_asn1`, whose source is not part of /repo, this is assumed.
-/
namespace Verif.Asn1

/-! ### Counting parsers -/

/-- `Asn1Object` with a count: `tag()` and `parse_value` -/
structure Counted (α : Type) where
  tag : UInt8
  parse : Bytes → Except PErr α × Nat

/-- red_asn1 `parse_length` with the number of octets looked at -/
def countLen (g : Cfg) : Metered Nat := fun i =>
  (parseLen g i, match i with
    | [] => 0
    | b :: r => if b.toNat < 128 then 1 else if r.length < b.toNat - 128 then 1 else 1 + (b.toNat - 128))

/-- `Asn1Object::parse`, the part before `parse_value`: one step, one for the octet of the tag, those of the length -/
def countTlv (g : Cfg) (tag : UInt8) : Metered Bytes
  | [] => (.error .error, 1)
  | t :: i =>
    if t ≠ tag then (.error .error, 2)
    else match countLen g i with
      | (.error e, c) => (.error e, 2 + c)
      | (.ok (n, r), c) => if r.length < n then (.error .error, 2 + c) else (.ok (r.take n, r.drop n), 2 + c)

/-- `Asn1Object::parse` -/
def Counted.dec {α} (g : Cfg) (w : Counted α) : Metered α := fun i =>
  match countTlv g w.tag i with
  | (.error e, c) => (.error e, c)
  | (.ok (v, r), c) => match w.parse v with
    | (.error e, c') => (.error e, c + c')
    | (.ok a, c') => (.ok (a, r), c + c')

/-- a basic type takes its content octet by octet (numbers, texts and their UTF-8, times, `to_vec`) -/
def countLeaf {α} (c : Codec α) : Counted α := ⟨c.tag, fun b => (c.parse b, 1 + b.length)⟩

/-- loop of `SequenceOf::parse_value`, as `seqOfLoop` -/
def countLoop {α} (g : Cfg) (w : Counted α) : Nat → Bytes → Except PErr (List α) × Nat
  | _, [] => (.ok [], 1)
  | 0, _ => (.error .panic, 1)
  | n + 1, b => match w.dec g b with
    | (.error e, c) => (.error e, 1 + c)
    | (.ok (a, r), c) => match countLoop g w n r with
      | (.error e, c') => (.error e, 1 + c + c')
      | (.ok as, c') => (.ok (a :: as), 1 + c + c')

/-- red_asn1 `SequenceOf<T>` -/
def countSeqOf {α} (g : Cfg) (w : Counted α) : Counted (List α) := ⟨0x30, fun b => countLoop g w b.length b⟩

/-- value in an explicit tag, as `parseWrapped` -/
def countWrapped {α} (g : Cfg) (tag : UInt8) (w : Counted α) : Metered α := fun i =>
  match countTlv g tag i with
  | (.error e, c) => (.error e, c)
  | (.ok (v, r), c) => match w.dec g v with
    | (.error e, c') => (.error e, c + c')
    | (.ok (a, left), c') => (if g.strictWrap && !left.isEmpty then .error .error else .ok (a, r), c + c')

/-- end of the field list -/
def countNone : Metered Unit := fun i => (.ok ((), i), 0)

/-- a field of type `T` -/
def countReq {α β} (g : Cfg) (n : Nat) (w : Counted α) (rest : Metered β) : Metered (α × β) := fun i =>
  match countWrapped g (ctxTag n) w i with
  | (.error e, c) => (.error e, 1 + c)
  | (.ok (a, r), c) => match rest r with
    | (.error e, c') => (.error e, 1 + c + c')
    | (.ok (b, r'), c') => (.ok ((a, b), r'), 1 + c + c')

/-- a field of type `Option<T>`: present iff the next tag is its tag -/
def countOpt {α β} (g : Cfg) (n : Nat) (w : Counted α) (rest : Metered β) : Metered (Option α × β) := fun i =>
  if i.head? = some (ctxTag n) then
    match countWrapped g (ctxTag n) w i with
    | (.error e, c) => (.error e, 1 + c)
    | (.ok (a, r), c) => match rest r with
      | (.error e, c') => (.error e, 1 + c + c')
      | (.ok (b, r'), c') => (.ok ((some a, b), r'), 1 + c + c')
  else match rest i with
    | (.error e, c') => (.error e, 1 + c')
    | (.ok (b, r'), c') => (.ok ((none, b), r'), 1 + c')

/-- the derived struct -/
def countMap {α β} (f : Metered α) (mk : α → β) : Metered β := fun i =>
  match f i with
  | (.error e, c) => (.error e, c)
  | (.ok (a, r), c) => (.ok (mk a, r), c)

/-- SEQUENCE of fields; a step for its end -/
def countSeq {α} (g : Cfg) (f : Metered α) : Counted α := ⟨0x30, fun b =>
  match f b with
  | (.error e, c) => (.error e, 1 + c)
  | (.ok (a, left), c) => (if g.strictSeq && !left.isEmpty then .error .error else .ok a, 1 + c)⟩

/-- `#[seq(application_tag = n)]` around a SEQUENCE -/
def countApp {α} (g : Cfg) (n : Nat) (f : Metered α) : Counted α := ⟨appTag n, fun b =>
  match (countSeq g f).dec g b with
  | (.error e, c) => (.error e, c)
  | (.ok (a, left), c) => (if g.strictWrap && !left.isEmpty then .error .error else .ok a, c)⟩

/-! ### The message types -/

/-- kerberos_asn1/src/encrypted_data.rs:13-21 -/
def countEncryptedData (g : Cfg) : Counted EncryptedData :=
  countSeq g (countMap (countReq g 0 (countLeaf (int32C g)) <|
    countOpt g 1 (countLeaf (uint32C g)) <|
    countReq g 2 (countLeaf octetsC) <|
    countNone)
    (fun (x0, x1, x2, _) => ⟨x0, x1, x2⟩))

/-- kerberos_asn1/src/ap_rep.rs:14-23 -/
def countApRep (g : Cfg) : Counted ApRep :=
  countApp g 15 (countMap (countReq g 0 (countLeaf (int32C g)) <|
    countReq g 1 (countLeaf (int32C g)) <|
    countReq g 2 (countEncryptedData g) <|
    countNone)
    (fun (x0, x1, x2, _) => ⟨x0, x1, x2⟩))

/-- kerberos_asn1/src/principal_name.rs:15-21 -/
def countPrincipalName (g : Cfg) : Counted PrincipalName :=
  countSeq g (countMap (countReq g 0 (countLeaf (int32C g)) <|
    countReq g 1 (countSeqOf g (countLeaf stringC)) <|
    countNone)
    (fun (x0, x1, _) => ⟨x0, x1⟩))

/-- kerberos_asn1/src/ticket.rs:15-26 -/
def countTicket (g : Cfg) : Counted Ticket :=
  countApp g 1 (countMap (countReq g 0 (countLeaf (int32C g)) <|
    countReq g 1 (countLeaf stringC) <|
    countReq g 2 (countPrincipalName g) <|
    countReq g 3 (countEncryptedData g) <|
    countNone)
    (fun (x0, x1, x2, x3, _) => ⟨x0, x1, x2, x3⟩))

/-- kerberos_asn1/src/ap_req.rs:18-31 -/
def countApReq (g : Cfg) : Counted ApReq :=
  countApp g 14 (countMap (countReq g 0 (countLeaf (int32C g)) <|
    countReq g 1 (countLeaf (int32C g)) <|
    countReq g 2 (countLeaf flagsC) <|
    countReq g 3 (countTicket g) <|
    countReq g 4 (countEncryptedData g) <|
    countNone)
    (fun (x0, x1, x2, x3, x4, _) => ⟨x0, x1, x2, x3, x4⟩))

/-- kerberos_asn1/src/pa_data/pa_data.rs:13-19 -/
def countPaData (g : Cfg) : Counted PaData :=
  countSeq g (countMap (countReq g 1 (countLeaf (int32C g)) <|
    countReq g 2 (countLeaf octetsC) <|
    countNone)
    (fun (x0, x1, _) => ⟨x0, x1⟩))

/-- kerberos_asn1/src/as_rep.rs:22-39 -/
def countAsRep (g : Cfg) : Counted AsRep :=
  countApp g 11 (countMap (countReq g 0 (countLeaf (int32C g)) <|
    countReq g 1 (countLeaf (int32C g)) <|
    countOpt g 2 (countSeqOf g (countPaData g)) <|
    countReq g 3 (countLeaf stringC) <|
    countReq g 4 (countPrincipalName g) <|
    countReq g 5 (countTicket g) <|
    countReq g 6 (countEncryptedData g) <|
    countNone)
    (fun (x0, x1, x2, x3, x4, x5, x6, _) => ⟨x0, x1, x2, x3, x4, x5, x6⟩))

/-- kerberos_asn1/src/host_address.rs:15-21 -/
def countHostAddress (g : Cfg) : Counted HostAddress :=
  countSeq g (countMap (countReq g 0 (countLeaf (int32C g)) <|
    countReq g 1 (countLeaf octetsC) <|
    countNone)
    (fun (x0, x1, _) => ⟨x0, x1⟩))

/-- kerberos_asn1/src/kdc_req_body.rs:33-59 -/
def countKdcReqBody (g : Cfg) : Counted KdcReqBody :=
  countSeq g (countMap (countReq g 0 (countLeaf flagsC) <|
    countOpt g 1 (countPrincipalName g) <|
    countReq g 2 (countLeaf stringC) <|
    countOpt g 3 (countPrincipalName g) <|
    countOpt g 4 (countLeaf (kerberosTimeC g)) <|
    countReq g 5 (countLeaf (kerberosTimeC g)) <|
    countOpt g 6 (countLeaf (kerberosTimeC g)) <|
    countReq g 7 (countLeaf (uint32C g)) <|
    countReq g 8 (countSeqOf g (countLeaf (int32C g))) <|
    countOpt g 9 (countSeqOf g (countHostAddress g)) <|
    countOpt g 10 (countEncryptedData g) <|
    countOpt g 11 (countSeqOf g (countTicket g)) <|
    countNone)
    (fun (x0, x1, x2, x3, x4, x5, x6, x7, x8, x9, x10, x11, _) => ⟨x0, x1, x2, x3, x4, x5, x6, x7, x8, x9, x10, x11⟩))

/-- kerberos_asn1/src/as_req.rs:19-30 -/
def countAsReq (g : Cfg) : Counted AsReq :=
  countApp g 10 (countMap (countReq g 1 (countLeaf (int32C g)) <|
    countReq g 2 (countLeaf (int32C g)) <|
    countOpt g 3 (countSeqOf g (countPaData g)) <|
    countReq g 4 (countKdcReqBody g) <|
    countNone)
    (fun (x0, x1, x2, x3, _) => ⟨x0, x1, x2, x3⟩))

/-- kerberos_asn1/src/checksum.rs:13-19 -/
def countChecksum (g : Cfg) : Counted Checksum :=
  countSeq g (countMap (countReq g 0 (countLeaf (int32C g)) <|
    countReq g 1 (countLeaf octetsC) <|
    countNone)
    (fun (x0, x1, _) => ⟨x0, x1⟩))

/-- kerberos_asn1/src/encryption_key.rs:14-20 -/
def countEncryptionKey (g : Cfg) : Counted EncryptionKey :=
  countSeq g (countMap (countReq g 0 (countLeaf (int32C g)) <|
    countReq g 1 (countLeaf octetsC) <|
    countNone)
    (fun (x0, x1, _) => ⟨x0, x1⟩))

/-- kerberos_asn1/src/authorization_data.rs:17-23 -/
def countAuthorizationDataEntry (g : Cfg) : Counted AuthorizationDataEntry :=
  countSeq g (countMap (countReq g 0 (countLeaf (int32C g)) <|
    countReq g 1 (countLeaf octetsC) <|
    countNone)
    (fun (x0, x1, _) => ⟨x0, x1⟩))

/-- kerberos_asn1/src/authenticator.rs:25-46 -/
def countAuthenticator (g : Cfg) : Counted Authenticator :=
  countApp g 2 (countMap (countReq g 0 (countLeaf (int32C g)) <|
    countReq g 1 (countLeaf stringC) <|
    countReq g 2 (countPrincipalName g) <|
    countOpt g 3 (countChecksum g) <|
    countReq g 4 (countLeaf (int32C g)) <|
    countReq g 5 (countLeaf (kerberosTimeC g)) <|
    countOpt g 6 (countEncryptionKey g) <|
    countOpt g 7 (countLeaf (uint32C g)) <|
    countOpt g 8 (countSeqOf g (countAuthorizationDataEntry g)) <|
    countNone)
    (fun (x0, x1, x2, x3, x4, x5, x6, x7, x8, _) => ⟨x0, x1, x2, x3, x4, x5, x6, x7, x8⟩))

/-- kerberos_asn1/src/enc_ap_rep_part.rs:15-26 -/
def countEncApRepPart (g : Cfg) : Counted EncApRepPart :=
  countApp g 27 (countMap (countReq g 0 (countLeaf (kerberosTimeC g)) <|
    countReq g 1 (countLeaf (int32C g)) <|
    countReq g 2 (countEncryptionKey g) <|
    countReq g 3 (countLeaf (uint32C g)) <|
    countNone)
    (fun (x0, x1, x2, x3, _) => ⟨x0, x1, x2, x3⟩))

/-- kerberos_asn1/src/last_req.rs:24-30 -/
def countLastReqEntry (g : Cfg) : Counted LastReqEntry :=
  countSeq g (countMap (countReq g 0 (countLeaf (int32C g)) <|
    countReq g 1 (countLeaf (kerberosTimeC g)) <|
    countNone)
    (fun (x0, x1, _) => ⟨x0, x1⟩))

/-- kerberos_asn1/src/enc_as_rep_part.rs:29-58 -/
def countEncAsRepPart (g : Cfg) : Counted EncAsRepPart :=
  countApp g 25 (countMap (countReq g 0 (countEncryptionKey g) <|
    countReq g 1 (countSeqOf g (countLastReqEntry g)) <|
    countReq g 2 (countLeaf (uint32C g)) <|
    countOpt g 3 (countLeaf (kerberosTimeC g)) <|
    countReq g 4 (countLeaf flagsC) <|
    countReq g 5 (countLeaf (kerberosTimeC g)) <|
    countOpt g 6 (countLeaf (kerberosTimeC g)) <|
    countReq g 7 (countLeaf (kerberosTimeC g)) <|
    countOpt g 8 (countLeaf (kerberosTimeC g)) <|
    countReq g 9 (countLeaf stringC) <|
    countReq g 10 (countPrincipalName g) <|
    countOpt g 11 (countSeqOf g (countHostAddress g)) <|
    countOpt g 12 (countSeqOf g (countPaData g)) <|
    countNone)
    (fun (x0, x1, x2, x3, x4, x5, x6, x7, x8, x9, x10, x11, x12, _) => ⟨x0, x1, x2, x3, x4, x5, x6, x7, x8, x9, x10, x11, x12⟩))

/-- kerberos_asn1/src/enc_kdc_rep_part.rs:28-56 -/
def countEncKdcRepPart (g : Cfg) : Counted EncKdcRepPart :=
  countSeq g (countMap (countReq g 0 (countEncryptionKey g) <|
    countReq g 1 (countSeqOf g (countLastReqEntry g)) <|
    countReq g 2 (countLeaf (uint32C g)) <|
    countOpt g 3 (countLeaf (kerberosTimeC g)) <|
    countReq g 4 (countLeaf flagsC) <|
    countReq g 5 (countLeaf (kerberosTimeC g)) <|
    countOpt g 6 (countLeaf (kerberosTimeC g)) <|
    countReq g 7 (countLeaf (kerberosTimeC g)) <|
    countOpt g 8 (countLeaf (kerberosTimeC g)) <|
    countReq g 9 (countLeaf stringC) <|
    countReq g 10 (countPrincipalName g) <|
    countOpt g 11 (countSeqOf g (countHostAddress g)) <|
    countOpt g 12 (countSeqOf g (countPaData g)) <|
    countNone)
    (fun (x0, x1, x2, x3, x4, x5, x6, x7, x8, x9, x10, x11, x12, _) => ⟨x0, x1, x2, x3, x4, x5, x6, x7, x8, x9, x10, x11, x12⟩))

/-- kerberos_asn1/src/krb_cred_info.rs:25-49 -/
def countKrbCredInfo (g : Cfg) : Counted KrbCredInfo :=
  countSeq g (countMap (countReq g 0 (countEncryptionKey g) <|
    countOpt g 1 (countLeaf stringC) <|
    countOpt g 2 (countPrincipalName g) <|
    countOpt g 3 (countLeaf flagsC) <|
    countOpt g 4 (countLeaf (kerberosTimeC g)) <|
    countOpt g 5 (countLeaf (kerberosTimeC g)) <|
    countOpt g 6 (countLeaf (kerberosTimeC g)) <|
    countOpt g 7 (countLeaf (kerberosTimeC g)) <|
    countOpt g 8 (countLeaf stringC) <|
    countOpt g 9 (countPrincipalName g) <|
    countOpt g 10 (countSeqOf g (countHostAddress g)) <|
    countNone)
    (fun (x0, x1, x2, x3, x4, x5, x6, x7, x8, x9, x10, _) => ⟨x0, x1, x2, x3, x4, x5, x6, x7, x8, x9, x10⟩))

/-- kerberos_asn1/src/enc_krb_cred_part.rs:16-31 -/
def countEncKrbCredPart (g : Cfg) : Counted EncKrbCredPart :=
  countApp g 29 (countMap (countReq g 0 (countSeqOf g (countKrbCredInfo g)) <|
    countOpt g 1 (countLeaf (uint32C g)) <|
    countOpt g 2 (countLeaf (kerberosTimeC g)) <|
    countOpt g 3 (countLeaf (int32C g)) <|
    countOpt g 4 (countHostAddress g) <|
    countOpt g 5 (countHostAddress g) <|
    countNone)
    (fun (x0, x1, x2, x3, x4, x5, _) => ⟨x0, x1, x2, x3, x4, x5⟩))

/-- kerberos_asn1/src/enc_krb_priv_part.rs:16-31 -/
def countEncKrbPrivPart (g : Cfg) : Counted EncKrbPrivPart :=
  countApp g 28 (countMap (countReq g 0 (countLeaf octetsC) <|
    countOpt g 1 (countLeaf (kerberosTimeC g)) <|
    countOpt g 2 (countLeaf (int32C g)) <|
    countOpt g 3 (countLeaf (uint32C g)) <|
    countReq g 4 (countHostAddress g) <|
    countOpt g 5 (countHostAddress g) <|
    countNone)
    (fun (x0, x1, x2, x3, x4, x5, _) => ⟨x0, x1, x2, x3, x4, x5⟩))

/-- kerberos_asn1/src/enc_tgs_rep_part.rs:29-58 -/
def countEncTgsRepPart (g : Cfg) : Counted EncTgsRepPart :=
  countApp g 26 (countMap (countReq g 0 (countEncryptionKey g) <|
    countReq g 1 (countSeqOf g (countLastReqEntry g)) <|
    countReq g 2 (countLeaf (uint32C g)) <|
    countOpt g 3 (countLeaf (kerberosTimeC g)) <|
    countReq g 4 (countLeaf flagsC) <|
    countReq g 5 (countLeaf (kerberosTimeC g)) <|
    countOpt g 6 (countLeaf (kerberosTimeC g)) <|
    countReq g 7 (countLeaf (kerberosTimeC g)) <|
    countOpt g 8 (countLeaf (kerberosTimeC g)) <|
    countReq g 9 (countLeaf stringC) <|
    countReq g 10 (countPrincipalName g) <|
    countOpt g 11 (countSeqOf g (countHostAddress g)) <|
    countOpt g 12 (countSeqOf g (countPaData g)) <|
    countNone)
    (fun (x0, x1, x2, x3, x4, x5, x6, x7, x8, x9, x10, x11, x12, _) => ⟨x0, x1, x2, x3, x4, x5, x6, x7, x8, x9, x10, x11, x12⟩))

/-- kerberos_asn1/src/transited_encoding.rs:14-20 -/
def countTransitedEncoding (g : Cfg) : Counted TransitedEncoding :=
  countSeq g (countMap (countReq g 0 (countLeaf (int32C g)) <|
    countReq g 1 (countLeaf octetsC) <|
    countNone)
    (fun (x0, x1, _) => ⟨x0, x1⟩))

/-- kerberos_asn1/src/enc_ticket_part.rs:26-51 -/
def countEncTicketPart (g : Cfg) : Counted EncTicketPart :=
  countApp g 3 (countMap (countReq g 0 (countLeaf flagsC) <|
    countReq g 1 (countEncryptionKey g) <|
    countReq g 2 (countLeaf stringC) <|
    countReq g 3 (countPrincipalName g) <|
    countReq g 4 (countTransitedEncoding g) <|
    countReq g 5 (countLeaf (kerberosTimeC g)) <|
    countOpt g 6 (countLeaf (kerberosTimeC g)) <|
    countReq g 7 (countLeaf (kerberosTimeC g)) <|
    countOpt g 8 (countLeaf (kerberosTimeC g)) <|
    countOpt g 9 (countSeqOf g (countHostAddress g)) <|
    countOpt g 10 (countSeqOf g (countAuthorizationDataEntry g)) <|
    countNone)
    (fun (x0, x1, x2, x3, x4, x5, x6, x7, x8, x9, x10, _) => ⟨x0, x1, x2, x3, x4, x5, x6, x7, x8, x9, x10⟩))

/-- kerberos_asn1/src/kdc_req.rs:19-29 -/
def countKdcReq (g : Cfg) : Counted KdcReq :=
  countSeq g (countMap (countReq g 1 (countLeaf (int32C g)) <|
    countReq g 2 (countLeaf (int32C g)) <|
    countOpt g 3 (countSeqOf g (countPaData g)) <|
    countReq g 4 (countKdcReqBody g) <|
    countNone)
    (fun (x0, x1, x2, x3, _) => ⟨x0, x1, x2, x3⟩))

/-- kerberos_asn1/src/kerb_ad_restriction_entry.rs:13-19 -/
def countKerbAdRestrictionEntry (g : Cfg) : Counted KerbAdRestrictionEntry :=
  countSeq g (countMap (countReq g 0 (countLeaf (int32C g)) <|
    countReq g 1 (countLeaf octetsC) <|
    countNone)
    (fun (x0, x1, _) => ⟨x0, x1⟩))

/-- kerberos_asn1/src/kerb_error_data.rs:13-19 -/
def countKerbErrorData (g : Cfg) : Counted KerbErrorData :=
  countSeq g (countMap (countReq g 1 (countLeaf (int32C g)) <|
    countOpt g 2 (countLeaf octetsC) <|
    countNone)
    (fun (x0, x1, _) => ⟨x0, x1⟩))

/-- kerberos_asn1/src/krb_cred.rs:15-26 -/
def countKrbCred (g : Cfg) : Counted KrbCred :=
  countApp g 22 (countMap (countReq g 0 (countLeaf (int32C g)) <|
    countReq g 1 (countLeaf (int32C g)) <|
    countReq g 2 (countSeqOf g (countTicket g)) <|
    countReq g 3 (countEncryptedData g) <|
    countNone)
    (fun (x0, x1, x2, x3, _) => ⟨x0, x1, x2, x3⟩))

/-- kerberos_asn1/src/krb_error.rs:26-55 -/
def countKrbError (g : Cfg) : Counted KrbError :=
  countApp g 30 (countMap (countReq g 0 (countLeaf (int32C g)) <|
    countReq g 1 (countLeaf (int32C g)) <|
    countOpt g 2 (countLeaf (kerberosTimeC g)) <|
    countOpt g 3 (countLeaf (int32C g)) <|
    countReq g 4 (countLeaf (kerberosTimeC g)) <|
    countReq g 5 (countLeaf (int32C g)) <|
    countReq g 6 (countLeaf (int32C g)) <|
    countOpt g 7 (countLeaf stringC) <|
    countOpt g 8 (countPrincipalName g) <|
    countReq g 9 (countLeaf stringC) <|
    countReq g 10 (countPrincipalName g) <|
    countOpt g 11 (countLeaf stringC) <|
    countOpt g 12 (countLeaf octetsC) <|
    countNone)
    (fun (x0, x1, x2, x3, x4, x5, x6, x7, x8, x9, x10, x11, x12, _) => ⟨x0, x1, x2, x3, x4, x5, x6, x7, x8, x9, x10, x11, x12⟩))

/-- kerberos_asn1/src/krb_priv.rs:15-24 -/
def countKrbPriv (g : Cfg) : Counted KrbPriv :=
  countApp g 21 (countMap (countReq g 0 (countLeaf (int32C g)) <|
    countReq g 1 (countLeaf (int32C g)) <|
    countReq g 3 (countEncryptedData g) <|
    countNone)
    (fun (x0, x1, x2, _) => ⟨x0, x1, x2⟩))

/-- kerberos_asn1/src/krb_safe_body.rs:17-31 -/
def countKrbSafeBody (g : Cfg) : Counted KrbSafeBody :=
  countSeq g (countMap (countReq g 0 (countLeaf octetsC) <|
    countOpt g 1 (countLeaf (kerberosTimeC g)) <|
    countOpt g 2 (countLeaf (int32C g)) <|
    countOpt g 3 (countLeaf (uint32C g)) <|
    countReq g 4 (countHostAddress g) <|
    countOpt g 5 (countHostAddress g) <|
    countNone)
    (fun (x0, x1, x2, x3, x4, x5, _) => ⟨x0, x1, x2, x3, x4, x5⟩))

/-- kerberos_asn1/src/krb_safe.rs:15-26 -/
def countKrbSafe (g : Cfg) : Counted KrbSafe :=
  countApp g 20 (countMap (countReq g 0 (countLeaf (int32C g)) <|
    countReq g 1 (countLeaf (int32C g)) <|
    countReq g 2 (countKrbSafeBody g) <|
    countReq g 3 (countChecksum g) <|
    countNone)
    (fun (x0, x1, x2, x3, _) => ⟨x0, x1, x2, x3⟩))

/-- kerberos_asn1/src/pa_data/ad_and_or.rs:13-19 -/
def countAdAndOr (g : Cfg) : Counted AdAndOr :=
  countSeq g (countMap (countReq g 0 (countLeaf (int32C g)) <|
    countReq g 1 (countSeqOf g (countAuthorizationDataEntry g)) <|
    countNone)
    (fun (x0, x1, _) => ⟨x0, x1⟩))

/-- kerberos_asn1/src/pa_data/ad_kdcissued.rs:15-25 -/
def countAdKdcIssued (g : Cfg) : Counted AdKdcIssued :=
  countSeq g (countMap (countReq g 0 (countChecksum g) <|
    countOpt g 1 (countLeaf stringC) <|
    countOpt g 2 (countPrincipalName g) <|
    countReq g 3 (countSeqOf g (countAuthorizationDataEntry g)) <|
    countNone)
    (fun (x0, x1, x2, x3, _) => ⟨x0, x1, x2, x3⟩))

/-- kerberos_asn1/src/pa_data/etype_info2_entry.rs:14-22 -/
def countEtypeInfo2Entry (g : Cfg) : Counted EtypeInfo2Entry :=
  countSeq g (countMap (countReq g 0 (countLeaf (int32C g)) <|
    countOpt g 1 (countLeaf stringC) <|
    countOpt g 2 (countLeaf octetsC) <|
    countNone)
    (fun (x0, x1, x2, _) => ⟨x0, x1, x2⟩))

/-- kerberos_asn1/src/pa_data/etype_info_entry.rs:13-19 -/
def countEtypeInfoEntry (g : Cfg) : Counted EtypeInfoEntry :=
  countSeq g (countMap (countReq g 0 (countLeaf (int32C g)) <|
    countOpt g 1 (countLeaf octetsC) <|
    countNone)
    (fun (x0, x1, _) => ⟨x0, x1⟩))

/-- kerberos_asn1/src/pa_data/kerb_pa_pac_request.rs:12-16 -/
def countKerbPaPacRequest (g : Cfg) : Counted KerbPaPacRequest :=
  countSeq g (countMap (countReq g 0 (countLeaf (boolC g)) <|
    countNone)
    (fun (x0, _) => ⟨x0⟩))

/-- kerberos_asn1/src/pa_data/pa_enc_ts_enc.rs:13-19 -/
def countPaEncTsEnc (g : Cfg) : Counted PaEncTsEnc :=
  countSeq g (countMap (countReq g 0 (countLeaf (kerberosTimeC g)) <|
    countOpt g 1 (countLeaf (int32C g)) <|
    countNone)
    (fun (x0, x1, _) => ⟨x0, x1⟩))

/-- kerberos_asn1/src/pa_data/pa_for_user.rs:16-26 -/
def countPaForUser (g : Cfg) : Counted PaForUser :=
  countSeq g (countMap (countReq g 0 (countPrincipalName g) <|
    countReq g 1 (countLeaf stringC) <|
    countReq g 2 (countChecksum g) <|
    countReq g 3 (countLeaf stringC) <|
    countNone)
    (fun (x0, x1, x2, x3, _) => ⟨x0, x1, x2, x3⟩))

/-- kerberos_asn1/src/pa_data/pa_pac_options.rs:16-20 -/
def countPaPacOptions (g : Cfg) : Counted PaPacOptions :=
  countSeq g (countMap (countReq g 0 (countLeaf flagsC) <|
    countNone)
    (fun (x0, _) => ⟨x0⟩))

/-- kerberos_asn1/src/pa_data/s4userid.rs:18-30 -/
def countS4uUserId (g : Cfg) : Counted S4uUserId :=
  countSeq g (countMap (countReq g 0 (countLeaf (uint32C g)) <|
    countOpt g 1 (countPrincipalName g) <|
    countReq g 2 (countLeaf stringC) <|
    countOpt g 3 (countLeaf octetsC) <|
    countOpt g 4 (countLeaf bitStringC) <|
    countNone)
    (fun (x0, x1, x2, x3, x4, _) => ⟨x0, x1, x2, x3, x4⟩))

/-- kerberos_asn1/src/pa_data/pa_s4u_x509_user.rs:13-19 -/
def countPaS4uX509User (g : Cfg) : Counted PaS4uX509User :=
  countSeq g (countMap (countReq g 0 (countS4uUserId g) <|
    countReq g 1 (countChecksum g) <|
    countNone)
    (fun (x0, x1, _) => ⟨x0, x1⟩))

/-- kerberos_asn1/src/tgs_rep.rs:22-39 -/
def countTgsRep (g : Cfg) : Counted TgsRep :=
  countApp g 13 (countMap (countReq g 0 (countLeaf (int32C g)) <|
    countReq g 1 (countLeaf (int32C g)) <|
    countOpt g 2 (countSeqOf g (countPaData g)) <|
    countReq g 3 (countLeaf stringC) <|
    countReq g 4 (countPrincipalName g) <|
    countReq g 5 (countTicket g) <|
    countReq g 6 (countEncryptedData g) <|
    countNone)
    (fun (x0, x1, x2, x3, x4, x5, x6, _) => ⟨x0, x1, x2, x3, x4, x5, x6⟩))

/-- kerberos_asn1/src/tgs_req.rs:19-30 -/
def countTgsReq (g : Cfg) : Counted TgsReq :=
  countApp g 12 (countMap (countReq g 1 (countLeaf (int32C g)) <|
    countReq g 2 (countLeaf (int32C g)) <|
    countOpt g 3 (countSeqOf g (countPaData g)) <|
    countReq g 4 (countKdcReqBody g) <|
    countNone)
    (fun (x0, x1, x2, x3, _) => ⟨x0, x1, x2, x3⟩))

/-- kerberos_asn1/src/typed_data.rs:22-28 -/
def countTypedDataEntry (g : Cfg) : Counted TypedDataEntry :=
  countSeq g (countMap (countReq g 0 (countLeaf (int32C g)) <|
    countOpt g 1 (countLeaf octetsC) <|
    countNone)
    (fun (x0, x1, _) => ⟨x0, x1⟩))

/-- the types of `MsgType.codec` -/
def MsgType.counted (g : Cfg) : (T : MsgType) → Counted T.Value
  | .encryptedData => (countEncryptedData g)
  | .apRep => (countApRep g)
  | .principalName => (countPrincipalName g)
  | .ticket => (countTicket g)
  | .apReq => (countApReq g)
  | .paData => (countPaData g)
  | .asRep => (countAsRep g)
  | .hostAddress => (countHostAddress g)
  | .kdcReqBody => (countKdcReqBody g)
  | .asReq => (countAsReq g)
  | .checksum => (countChecksum g)
  | .encryptionKey => (countEncryptionKey g)
  | .authorizationDataEntry => (countAuthorizationDataEntry g)
  | .authenticator => (countAuthenticator g)
  | .encApRepPart => (countEncApRepPart g)
  | .lastReqEntry => (countLastReqEntry g)
  | .encAsRepPart => (countEncAsRepPart g)
  | .encKdcRepPart => (countEncKdcRepPart g)
  | .krbCredInfo => (countKrbCredInfo g)
  | .encKrbCredPart => (countEncKrbCredPart g)
  | .encKrbPrivPart => (countEncKrbPrivPart g)
  | .encTgsRepPart => (countEncTgsRepPart g)
  | .transitedEncoding => (countTransitedEncoding g)
  | .encTicketPart => (countEncTicketPart g)
  | .kdcReq => (countKdcReq g)
  | .kerbAdRestrictionEntry => (countKerbAdRestrictionEntry g)
  | .kerbErrorData => (countKerbErrorData g)
  | .krbCred => (countKrbCred g)
  | .krbError => (countKrbError g)
  | .krbPriv => (countKrbPriv g)
  | .krbSafeBody => (countKrbSafeBody g)
  | .krbSafe => (countKrbSafe g)
  | .adAndOr => (countAdAndOr g)
  | .adKdcIssued => (countAdKdcIssued g)
  | .etypeInfo2Entry => (countEtypeInfo2Entry g)
  | .etypeInfoEntry => (countEtypeInfoEntry g)
  | .kerbPaPacRequest => (countKerbPaPacRequest g)
  | .paEncTsEnc => (countPaEncTsEnc g)
  | .paForUser => (countPaForUser g)
  | .paPacOptions => (countPaPacOptions g)
  | .s4uUserId => (countS4uUserId g)
  | .paS4uX509User => (countPaS4uX509User g)
  | .tgsRep => (countTgsRep g)
  | .tgsReq => (countTgsReq g)
  | .typedDataEntry => (countTypedDataEntry g)
  | .hostAddresses => (countSeqOf g (countHostAddress g))
  | .authorizationData => (countSeqOf g (countAuthorizationDataEntry g))
  | .lastReq => (countSeqOf g (countLastReqEntry g))
  | .typedData => (countSeqOf g (countTypedDataEntry g))
  | .etypeInfo => (countSeqOf g (countEtypeInfoEntry g))
  | .etypeInfo2 => (countSeqOf g (countEtypeInfo2Entry g))
  | .methodData => (countSeqOf g (countPaData g))
  | .kerbKeyListRep => (countSeqOf g (countEncryptionKey g))
  | .kerbKeyListReq => (countSeqOf g (countLeaf (int32C g)))
  | .kerbLocal => (countLeaf octetsC)
  | .realm => (countLeaf stringC)
  | .int32 => (countLeaf (int32C g))
  | .kerberosFlags => (countLeaf flagsC)
  | .kerberosTime => (countLeaf (kerberosTimeC g))
  | .uInt32 => (countLeaf (uint32C g))

/-- `T::parse` with the steps it takes -/
def MsgType.count (g : Cfg) (T : MsgType) : Metered T.Value := (T.counted g).dec g

end Verif.Asn1
