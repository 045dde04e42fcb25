import Verif.Asn1Messages
import Verif.CryptoModel
/-
The hand-written functions of kerberos_asn1: constructors, defaults, conversions between message types, principal
name comparison and printing, NetBIOS padding.
-/
namespace Verif.Asn1
open Verif.Crypto (CaseMap)

/-! ### Principal names -/

/-- kerberos_asn1/src/principal_name.rs:24-33 `PrincipalName::new` -/
def PrincipalName.new (name_type : Int32) (string : List Char) : PrincipalName := ⟨name_type, [] ++ [string]⟩

/-- principal_name.rs:38-40 `push` -/
def PrincipalName.push (p : PrincipalName) (string : List Char) : PrincipalName :=
  { p with name_string := p.name_string ++ [string] }

/-- principal_name.rs:35-37 `main_name`; indexing an empty vector panics -/
def PrincipalName.mainName (p : PrincipalName) : Except PErr (List Char) :=
  match p.name_string with
  | [] => .error .panic
  | s :: _ => .ok s

/-- principal_name.rs:54-58, the loop of `eq` -/
def nameLoop (M : CaseMap) : List (List Char × List Char) → Bool
  | [] => true
  | (s1, s2) :: r => if M.lower s1 ≠ M.lower s2 then false else nameLoop M r

/-- principal_name.rs:43-62 `impl PartialEq`; `to_lowercase` of the standard library is `M.lower`. -/
def PrincipalName.eq (M : CaseMap) (a b : PrincipalName) : Bool :=
  if a.name_type ≠ b.name_type then false
  else if a.name_string.length ≠ b.name_string.length then false
  else nameLoop M (a.name_string.zip b.name_string)

/-- principal_name.rs:64-74 `impl Display` -/
def PrincipalName.display (p : PrincipalName) : Except PErr (List Char) := do
  let names ← p.mainName
  return p.name_string.tail.foldl (fun names name => names ++ ('/' :: name)) names

/-! ### Host addresses -/

/-- kerberos_asn1/src/host_address.rs:30-42 `padd_netbios_string`. `len()` is the number of UTF-8 bytes. -/
def paddNetbiosString (s : List Char) : List Char :=
  let paddedLen := (utf8 s).length % 16
  if paddedLen > 0 then s ++ List.replicate (16 - paddedLen) ' ' else s

/-! ### Constructors and defaults -/

/-- The default value of the parameter `t0` below: the epoch. `t0` is `GeneralizedTime::default()` of the external
red_asn1 crate; the requests of kerbeiros start from a default message but overwrite its time, and C81 holds for every
`t0`. -/
def DateTime.default : DateTime := ⟨0, 0⟩

/-- kerberos_asn1/src/encrypted_data.rs:13, derived `Default` -/
def EncryptedData.default : EncryptedData := ⟨0, none, []⟩
/-- kerberos_asn1/src/encrypted_data.rs:24-35 `EncryptedData::new` -/
def EncryptedData.new (etype : Int32) (kvno : Option UInt32) (cipher : Bytes) : EncryptedData := ⟨etype, kvno, cipher⟩
/-- kerberos_asn1/src/encryption_key.rs:23-25 `EncryptionKey::new` -/
def EncryptionKey.new (keytype : Int32) (keyvalue : Bytes) : EncryptionKey :=
  { keytype := keytype, keyvalue := keyvalue }
/-- kerberos_asn1/src/host_address.rs:24-26 `HostAddress::new` -/
def HostAddress.new (addr_type : Int32) (address : Bytes) : HostAddress := { addr_type := addr_type, address := address }
/-- kerberos_asn1/src/pa_data/pa_data.rs:22-27 `PaData::new` -/
def PaData.new (padata_type : Int32) (padata_value : Bytes) : PaData :=
  { padata_type := padata_type, padata_value := padata_value }
/-- kerberos_asn1/src/last_req.rs:33-35 `LastReqEntry::new` -/
def LastReqEntry.new (lr_type : Int32) (lr_value : DateTime) : LastReqEntry := { lr_type := lr_type, lr_value := lr_value }
/-- kerberos_asn1/src/pa_data/etype_info2_entry.rs:25-35 `EtypeInfo2Entry::new` -/
def EtypeInfo2Entry.new (etype : Int32) (salt : Option (List Char)) (s2kparams : Option Bytes) : EtypeInfo2Entry :=
  { etype := etype, salt := salt, s2kparams := s2kparams }
/-- kerberos_asn1/src/pa_data/kerb_pa_pac_request.rs:19-21 `KerbPaPacRequest::new` -/
def KerbPaPacRequest.new (include_pac : Bool) : KerbPaPacRequest := { include_pac := include_pac }
/-- kerberos_asn1/src/pa_data/pa_enc_ts_enc.rs:22-30 `PaEncTsEnc::new` -/
def PaEncTsEnc.new (patimestamp : DateTime) (pausec : Option Int32) : PaEncTsEnc :=
  { patimestamp := patimestamp, pausec := pausec }
/-- kerberos_asn1/src/principal_name.rs:15, derived `Default` -/
def PrincipalName.default : PrincipalName := ⟨0, []⟩
/-- kerberos_asn1/src/ticket.rs:15, derived `Default` -/
def Ticket.default : Ticket := ⟨0, [], PrincipalName.default, EncryptedData.default⟩
/-- kerberos_asn1/src/ticket.rs:29-40 `Ticket::new` -/
def Ticket.new (realm : List Char) (sname : PrincipalName) (enc_part : EncryptedData) : Ticket :=
  ⟨5, realm, sname, enc_part⟩
/-- kerberos_asn1/src/kdc_req_body.rs:33, derived `Default` -/
def KdcReqBody.default (t0 : DateTime := DateTime.default) : KdcReqBody :=
  ⟨0, none, [], none, none, t0, none, 0, [], none, none, none⟩
/-- kerberos_asn1/src/kdc_req.rs:31-40 -/
def KdcReq.default (t0 : DateTime := DateTime.default) : KdcReq := ⟨5, 0, none, KdcReqBody.default t0⟩
/-- kerberos_asn1/src/as_req.rs:32-41 -/
def AsReq.default (t0 : DateTime := DateTime.default) : AsReq := ⟨5, 10, none, KdcReqBody.default t0⟩
/-- kerberos_asn1/src/tgs_req.rs:32-41 -/
def TgsReq.default (t0 : DateTime := DateTime.default) : TgsReq := ⟨5, 12, none, KdcReqBody.default t0⟩
/-- kerberos_asn1/src/as_rep.rs:41-53 -/
def AsRep.default : AsRep := ⟨5, 11, none, [], PrincipalName.default, Ticket.default, EncryptedData.default⟩
/-- kerberos_asn1/src/as_rep.rs:56-75 `AsRep::new` -/
def AsRep.new (padata : Option (List PaData)) (crealm : List Char) (cname : PrincipalName) (ticket : Ticket)
    (enc_part : EncryptedData) : AsRep :=
  ⟨5, 11, padata, crealm, cname, ticket, enc_part⟩
/-- kerberos_asn1/src/tgs_rep.rs:41-53 -/
def TgsRep.default : TgsRep := ⟨5, 13, none, [], PrincipalName.default, Ticket.default, EncryptedData.default⟩
/-- kerberos_asn1/src/ap_req.rs:33-43 (PVNO = 5, KRB_AP_REQ = 14, kerberos_constants) -/
def ApReq.default : ApReq := ⟨5, 14, 0, Ticket.default, EncryptedData.default⟩
/-- kerberos_asn1/src/krb_cred.rs:38-47 -/
def KrbCred.default : KrbCred := ⟨5, 22, [], EncryptedData.default⟩
/-- kerberos_asn1/src/krb_cred.rs:29-35 `KrbCred::new` -/
def KrbCred.new (tickets : List Ticket) (enc_part : EncryptedData) : KrbCred :=
  { KrbCred.default with tickets := tickets, enc_part := enc_part }
/-- kerberos_asn1/src/authenticator.rs:48-63; `now` is `Utc::now()` -/
def Authenticator.default (now : DateTime) : Authenticator :=
  ⟨5, [], PrincipalName.default, none, Int32.ofNat (now.nanos / 1000), now, none, none, none⟩
/-- kerberos_asn1/src/enc_krb_cred_part.rs:16, derived `Default` -/
def EncKrbCredPart.default : EncKrbCredPart := ⟨[], none, none, none, none, none⟩

/-! ### Conversions -/

/-- kerberos_asn1/src/kdc_req.rs:42-51 -/
def KdcReq.ofAsReq (r : AsReq) : KdcReq := ⟨r.pvno, r.msg_type, r.padata, r.req_body⟩
/-- kerberos_asn1/src/kdc_req.rs:53-62 -/
def KdcReq.ofTgsReq (r : TgsReq) : KdcReq := ⟨r.pvno, r.msg_type, r.padata, r.req_body⟩
/-- kerberos_asn1/src/as_req.rs:43-52 -/
def AsReq.ofKdcReq (r : KdcReq) : AsReq := ⟨r.pvno, 10, r.padata, r.req_body⟩
/-- kerberos_asn1/src/tgs_req.rs:43-52 -/
def TgsReq.ofKdcReq (r : KdcReq) : TgsReq := ⟨r.pvno, 12, r.padata, r.req_body⟩

/-- kerberos_asn1/src/enc_as_rep_part.rs:60-78 -/
def EncAsRepPart.ofKdc (p : EncKdcRepPart) : EncAsRepPart where
  key := p.key
  last_req := p.last_req
  nonce := p.nonce
  key_expiration := p.key_expiration
  flags := p.flags
  authtime := p.authtime
  starttime := p.starttime
  endtime := p.endtime
  renew_till := p.renew_till
  srealm := p.srealm
  sname := p.sname
  caddr := p.caddr
  encrypted_pa_data := p.encrypted_pa_data
/-- kerberos_asn1/src/enc_as_rep_part.rs:80-98 -/
def EncAsRepPart.ofTgs (p : EncTgsRepPart) : EncAsRepPart where
  key := p.key
  last_req := p.last_req
  nonce := p.nonce
  key_expiration := p.key_expiration
  flags := p.flags
  authtime := p.authtime
  starttime := p.starttime
  endtime := p.endtime
  renew_till := p.renew_till
  srealm := p.srealm
  sname := p.sname
  caddr := p.caddr
  encrypted_pa_data := p.encrypted_pa_data
/-- kerberos_asn1/src/enc_tgs_rep_part.rs:60-78 -/
def EncTgsRepPart.ofKdc (p : EncKdcRepPart) : EncTgsRepPart where
  key := p.key
  last_req := p.last_req
  nonce := p.nonce
  key_expiration := p.key_expiration
  flags := p.flags
  authtime := p.authtime
  starttime := p.starttime
  endtime := p.endtime
  renew_till := p.renew_till
  srealm := p.srealm
  sname := p.sname
  caddr := p.caddr
  encrypted_pa_data := p.encrypted_pa_data
/-- kerberos_asn1/src/enc_tgs_rep_part.rs:80-98 -/
def EncTgsRepPart.ofAs (p : EncAsRepPart) : EncTgsRepPart where
  key := p.key
  last_req := p.last_req
  nonce := p.nonce
  key_expiration := p.key_expiration
  flags := p.flags
  authtime := p.authtime
  starttime := p.starttime
  endtime := p.endtime
  renew_till := p.renew_till
  srealm := p.srealm
  sname := p.sname
  caddr := p.caddr
  encrypted_pa_data := p.encrypted_pa_data
/-- kerberos_asn1/src/enc_kdc_rep_part.rs:58-76 -/
def EncKdcRepPart.ofAs (p : EncAsRepPart) : EncKdcRepPart where
  key := p.key
  last_req := p.last_req
  nonce := p.nonce
  key_expiration := p.key_expiration
  flags := p.flags
  authtime := p.authtime
  starttime := p.starttime
  endtime := p.endtime
  renew_till := p.renew_till
  srealm := p.srealm
  sname := p.sname
  caddr := p.caddr
  encrypted_pa_data := p.encrypted_pa_data
/-- kerberos_asn1/src/enc_kdc_rep_part.rs:78-96 -/
def EncKdcRepPart.ofTgs (p : EncTgsRepPart) : EncKdcRepPart where
  key := p.key
  last_req := p.last_req
  nonce := p.nonce
  key_expiration := p.key_expiration
  flags := p.flags
  authtime := p.authtime
  starttime := p.starttime
  endtime := p.endtime
  renew_till := p.renew_till
  srealm := p.srealm
  sname := p.sname
  caddr := p.caddr
  encrypted_pa_data := p.encrypted_pa_data

/-! ### Pre-authentication timestamp -/

/-- `i32::clamp`. Used at pa_data/pa_enc_ts_enc.rs:36. -/
def clampI32 (x lo hi : Int32) : Int32 := if x < lo then lo else if hi < x then hi else x

/-- kerberos_asn1/src/pa_data/pa_enc_ts_enc.rs:33-40 `From<DateTime<Utc>>`. `timestamp_subsec_micros` is nanoseconds
divided by 1000 as `u32`, then `as i32`. microseconds.rs:10-11 are the limits. -/
def PaEncTsEnc.ofTime (t : DateTime) : PaEncTsEnc :=
  ⟨t, some (clampI32 (UInt32.ofNat (t.nanos / 1000)).toInt32 0 999999)⟩

end Verif.Asn1
