import Verif.CCacheModel
import Verif.Asn1Misc
import Verif.Utf8Lossy
/-
Conversions between credential caches and KRB-CRED messages: kerberos_ccache/src/mappers, and the copies of the small
mappers in kerbeiros/src/mappers (same code; `Error` instead of `ConvertError`).
-/
namespace Verif.Map
open Verif.Asn1

/-- `String::from_utf8_lossy` as far as the theorems need it: the identity on valid UTF-8. Used at address_mapper.rs:11. -/
structure Ext where
  lossy : Bytes → List Char
  lossy_utf8 : ∀ s, lossy (utf8 s) = s

/-- the function of the standard library. Used at address_mapper.rs:11. -/
def stdExt : Ext := ⟨utf8Lossy, utf8Lossy_utf8⟩

/-- kerberos_ccache/src/error.rs:12-44; `panic` is a Rust panic. The payload of `Asn1Error` is not modelled. -/
inductive ConvertError where
  | asn1
  | fromUtf8
  | noPrincipalName
  | noAddress
  | missingField (name : String)
  | krbCred (msg : String)
  | panic
deriving DecidableEq, Repr

/-- `?` on a parse result -/
def ofParse {α} : Except PErr (α × Bytes) → Except ConvertError α
  | .ok (a, _) => .ok a
  | .error .panic => .error .panic
  | .error _ => .error .asn1

/-! ### Strings and principals -/

/-- kerberos_ccache/src/mappers/octet_string_mapper.rs:5-9; kerbeiros/src/mappers/octet_string_mapper.rs:8-12 -/
def stringToCos (s : List Char) : Bytes := utf8 s

/-- octet_string_mapper.rs:11-15; kerbeiros/src/mappers/octet_string_mapper.rs:14-18 -/
def cosToString (b : Bytes) : Except ConvertError (List Char) :=
  match utf8Dec b with
  | some s => .ok s
  | none => .error .fromUtf8

/-- kerberos_ccache/src/mappers/principal_mapper.rs:9-24; kerbeiros/src/mappers/principal_mapper.rs:9-28.
`name_type as u32` keeps the bits. -/
def toPrincipal (realm : List Char) (name : PrincipalName) : CC.Principal :=
  ⟨name.name_type.toUInt32, stringToCos realm, name.name_string.map stringToCos⟩

/-- the loop at principal_mapper.rs:31-33 -/
def decodeNames : List Bytes → Except ConvertError (List (List Char))
  | [] => .ok []
  | c :: cs => do
    let n ← cosToString c
    let ns ← decodeNames cs
    return n :: ns

/-- principal_mapper.rs:26-50; kerbeiros/src/mappers/principal_mapper.rs:30-59 -/
def fromPrincipal (p : CC.Principal) : Except ConvertError (List Char × PrincipalName) := do
  let names ← decodeNames p.components
  match names with
  | [] => .error .noPrincipalName
  | main :: more =>
    let name := more.foldl PrincipalName.push (PrincipalName.new p.name_type.toInt32 main)
    let realm ← cosToString p.realm
    return (realm, name)

/-! ### Keys, flags, authorization data -/

/-- `x as u16` of an `i32`. key_block_mapper.rs:6, auth_data_mapper.rs:6, address_mapper.rs:20. -/
def i32AsU16 (x : Int32) : UInt16 := x.toUInt32.toUInt16
/-- `x as i32` of a `u16` -/
def u16AsI32 (x : UInt16) : Int32 := x.toUInt32.toInt32

/-- kerberos_ccache/src/mappers/key_block_mapper.rs:4-9; kerbeiros/src/mappers/key_block_mapper.rs:7-14 -/
def toKeyBlock (k : EncryptionKey) : CC.KeyBlock := CC.KeyBlock.new (i32AsU16 k.keytype) k.keyvalue
/-- key_block_mapper.rs:11-13; kerbeiros/src/mappers/key_block_mapper.rs:16-21 -/
def fromKeyBlock (k : CC.KeyBlock) : EncryptionKey := ⟨u16AsI32 k.keytype, k.keyvalue⟩

/-- kerberos_ccache/src/mappers/ticket_flags_mapper.rs:3-5; kerbeiros/src/mappers/ticket_flags_mapper.rs:6-8 -/
def toTktFlags (f : UInt32) : UInt32 := f
/-- ticket_flags_mapper.rs:6-8; kerbeiros/src/mappers/ticket_flags_mapper.rs:9-11 -/
def fromTktFlags (f : UInt32) : UInt32 := f

/-- kerberos_ccache/src/mappers/auth_data_mapper.rs:4-9; kerbeiros/src/mappers/auth_data_mapper.rs:7-12 -/
def toAuthData (p : PaData) : CC.Address := ⟨i32AsU16 p.padata_type, p.padata_value⟩
/-- auth_data_mapper.rs:11-19; kerbeiros/src/mappers/auth_data_mapper.rs:14-22 -/
def toAuthDatas (l : List PaData) : List CC.Address := l.map toAuthData
/-- auth_data_mapper.rs:21-23; kerbeiros/src/mappers/auth_data_mapper.rs:24-26 -/
def fromAuthData (a : CC.Address) : PaData := ⟨u16AsI32 a.addrtype, a.addrdata⟩
/-- auth_data_mapper.rs:25-29; kerbeiros/src/mappers/auth_data_mapper.rs:28-35 -/
def fromAuthDatas (l : List CC.Address) : List PaData := l.map fromAuthData

/-! ### Addresses -/

/-- `char::is_whitespace` (Unicode White_Space). Used at address_mapper.rs:12. -/
def isWhitespace (c : Char) : Bool :=
  let n := c.toNat
  (0x9 ≤ n && n ≤ 0xd) || n == 0x20 || n == 0x85 || n == 0xa0 || n == 0x1680 || (0x2000 ≤ n && n ≤ 0x200a)
    || n == 0x2028 || n == 0x2029 || n == 0x202f || n == 0x205f || n == 0x3000

/-- `str::trim_end`. Used at address_mapper.rs:12. -/
def trimEnd (s : List Char) : List Char := (s.reverse.dropWhile isWhitespace).reverse

/-- kerberos_constants/src/address_types.rs:13 `NETBIOS` -/
def netbios : Int32 := 20

/-- kerberos_ccache/src/mappers/address_mapper.rs:9-23; kerbeiros/src/mappers/address_mapper.rs:12-26 -/
def toAddress (X : Ext) (h : HostAddress) : CC.Address :=
  let address := if h.addr_type = netbios then utf8 (trimEnd (X.lossy h.address)) else h.address
  ⟨i32AsU16 h.addr_type, address⟩

/-- address_mapper.rs:25-33; kerbeiros/src/mappers/address_mapper.rs:28-36 -/
def toAddresses (X : Ext) (l : List HostAddress) : List CC.Address := l.map (toAddress X)

/-- address_mapper.rs:35-48; kerbeiros/src/mappers/address_mapper.rs:38-55 -/
def fromAddress (a : CC.Address) : Except ConvertError HostAddress :=
  let t := u16AsI32 a.addrtype
  if t = netbios then do
    let s ← cosToString a.addrdata
    return ⟨netbios, utf8 (paddNetbiosString s)⟩
  else .ok ⟨t, a.addrdata⟩

/-- the loop at address_mapper.rs:60-62 -/
def fromAddressLoop : List CC.Address → Except ConvertError (List HostAddress)
  | [] => .ok []
  | a :: l => do
    let h ← fromAddress a
    let hs ← fromAddressLoop l
    return h :: hs

/-- address_mapper.rs:50-65; kerbeiros/src/mappers/address_mapper.rs:57-74 -/
def fromAddresses : List CC.Address → Except ConvertError (List HostAddress)
  | [] => .error .noAddress
  | a :: l => do
    let h ← fromAddress a
    let hs ← fromAddressLoop l
    return h :: hs

/-! ### Times -/

/-- `timestamp() as u32`. times_mapper.rs:12,18,24,30. -/
def timestampU32 (t : DateTime) : UInt32 := UInt32.ofNat (t.secs % 2^32).toNat

/-- the repeated block at kerberos_ccache/src/mappers/times_mapper.rs:11-15 -/
def toTime (t : Option DateTime) : UInt32 :=
  match t with
  | some t => timestampU32 t
  | none => 0

/-- times_mapper.rs:5-41 -/
def toTimes (authtime starttime endtime renew_till : Option DateTime) : CC.Times :=
  ⟨toTime authtime, toTime starttime, toTime endtime, toTime renew_till⟩

/-- the repeated block at times_mapper.rs:51-56; `Utc.timestamp_opt(n, 0).unwrap()` of a 32-bit number is never a panic -/
def fromTime (n : UInt32) : Option DateTime := if n = 0 then none else some ⟨n.toNat, 0⟩

/-- times_mapper.rs:43-80 -/
def fromTimes (t : CC.Times) : Option DateTime × Option DateTime × Option DateTime × Option DateTime :=
  (fromTime t.authtime, fromTime t.starttime, fromTime t.endtime, fromTime t.renew_till)

/-! ### Credentials -/

/-- kerberos_ccache/src/mappers/credential_mapper.rs:13-53 -/
def fromCredential (g : Cfg) (c : CC.Credential) : Except ConvertError (KrbCredInfo × Ticket) := do
  let (authtime, starttime, endtime, renew_till) := fromTimes c.time
  let flags := fromTktFlags c.tktflags
  let key := fromKeyBlock c.key
  let (crealm, cname) ← fromPrincipal c.client
  let (srealm, sname) ← fromPrincipal c.server
  let caddr := (fromAddresses c.addrs).toOption
  let ticket ← ofParse ((ticketC g).dec g c.ticket)
  return ({ key := key, prealm := some crealm, pname := some cname, flags := some flags, authtime := authtime,
            starttime := starttime, endtime := endtime, renew_till := renew_till, srealm := some srealm,
            sname := some sname, caddr := caddr }, ticket)

/-- `ok_or(ConvertError::MissingField(name))`. ccache_mapper.rs:62,67, credential_mapper.rs:61-90. -/
def need {α} (name : String) : Option α → Except ConvertError α
  | some a => .ok a
  | none => .error (.missingField name)

/-- credential_mapper.rs:55-112 -/
def toCredential (X : Ext) (g : Cfg) (info : KrbCredInfo) (ticket : Ticket) : Except ConvertError CC.Credential := do
  let prealm ← need "prealm" info.prealm
  let pname ← need "pname" info.pname
  let client := toPrincipal prealm pname
  let srealm ← need "srealm" info.srealm
  let sname ← need "sname" info.sname
  let server := toPrincipal srealm sname
  let key := toKeyBlock info.key
  let time := toTimes info.authtime info.starttime info.endtime info.renew_till
  let flags ← need "flags" info.flags
  let tktflags := toTktFlags flags
  let addrs := match info.caddr with
    | some l => toAddresses X l
    | none => []
  return { client := client, server := server, key := key, time := time, is_skey := 0, tktflags := tktflags,
           addrs := addrs, authdata := [], ticket := (ticketC g).enc ticket, second_ticket := [] }

/-! ### Caches -/

/-- the loop at kerberos_ccache/src/mappers/ccache_mapper.rs:17-23 -/
def fromCredentials (g : Cfg) : List CC.Credential → Except ConvertError (List KrbCredInfo × List Ticket)
  | [] => .ok ([], [])
  | c :: cs => do
    let (i, t) ← fromCredential g c
    let (is, ts) ← fromCredentials g cs
    return (i :: is, t :: ts)

/-- kerberos_constants/src/etypes.rs:3 `NO_ENCRYPTION` -/
def noEncryption : Int32 := 0

/-- ccache_mapper.rs:13-39 `ccache_to_krb_cred` (`TryFrom<CCache> for KrbCred`) -/
def ccacheToKrbCred (g : Cfg) (c : CC.CCache) : Except ConvertError KrbCred := do
  let (infos, tickets) ← fromCredentials g c.credentials
  let part := { EncKrbCredPart.default with ticket_info := infos }
  return { KrbCred.default with
    tickets := tickets
    enc_part := ⟨noEncryption, none, (encKrbCredPartC g).enc part⟩ }

/-- the loop at ccache_mapper.rs:76-83 -/
def toCredentials (X : Ext) (g : Cfg) : List (KrbCredInfo × Ticket) → Except ConvertError (List CC.Credential)
  | [] => .ok []
  | (i, t) :: r => do
    let c ← toCredential X g i t
    let cs ← toCredentials X g r
    return c :: cs

/-- ccache_mapper.rs:41-90 `krb_cred_to_ccache` (`TryFrom<KrbCred> for CCache`) -/
def krbCredToCcache (X : Ext) (g : Cfg) (k : KrbCred) : Except ConvertError CC.CCache := do
  if k.enc_part.etype ≠ noEncryption then .error (.krbCred "User part is encrypted")
  else
    let part ← ofParse ((encKrbCredPartC g).dec g k.enc_part.cipher)
    match k.tickets, part.ticket_info with
    | [], _ => .error (.krbCred "No credentials contained")
    | _, [] => .error (.krbCred "No credentials contained")
    | tickets, info0 :: infos =>
      let realm ← need "prealm" info0.prealm
      let name ← need "pname" info0.pname
      let primary := toPrincipal realm name
      let credentials ← toCredentials X g ((info0 :: infos).zip tickets)
      return CC.CCache.new CC.Header.dflt primary credentials

end Verif.Map
