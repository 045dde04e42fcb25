import Verif.MappersModel
import Verif.CryptoModel
/-
kerbeiros/src/credentials: credentials, credential warehouses, their conversions and files. Errors of kerbeiros.
-/
namespace Verif.Kb
open Verif.Asn1 Verif.Map
open Verif.Crypto (CErr)

/-- kerbeiros/src/error.rs:13-92, without the variants no modelled function produces (`InvalidAscii`,
`InvalidMicroseconds`, `InvalidKeyCharset`, `InvalidKeyLength`, `NotAvailableData`, `PrincipalNameTypeUndefined`);
the payload of `Asn1Error` is not modelled; `panic` is a Rust panic. -/
inductive KErr where
  | asn1
  | crypto (e : CErr)
  | invalidUtf8
  | io
  | krbErrorResponse (e : KrbError)
  | nameResolution (realm : List Char)
  | network
  | noKeyProvided
  | noProvidedSupportedCipherAlgorithm
  | parseAsRep (rep : AsRep) (e : KErr)
  | noPrincipalName
  | noAddress
  | binaryParse
  | panic
deriving DecidableEq, Repr

/-- error.rs:112-122: the mappers of kerbeiros are the mappers of kerberos_ccache with these errors (they have no
missing-field and no KRB-CRED error) -/
def KErr.ofConvert : ConvertError → KErr
  | .asn1 => .asn1
  | .fromUtf8 => .invalidUtf8
  | .noPrincipalName => .noPrincipalName
  | .noAddress => .noAddress
  | .missingField _ => .panic
  | .krbCred _ => .panic
  | .panic => .panic

/-- `?` on a result of the shared mappers -/
def liftC {α} : Except ConvertError α → Except KErr α
  | .ok a => .ok a
  | .error e => .error (.ofConvert e)

/-- `?` on a parse result (error.rs:118-122) -/
def liftP {α} : Except PErr (α × Bytes) → Except KErr α
  | .ok (a, _) => .ok a
  | .error .panic => .error .panic
  | .error _ => .error .asn1

/-! ### Times -/

/-- kerbeiros/src/mappers/times_mapper.rs:8-37 -/
def toTimes (authtime : DateTime) (starttime : Option DateTime) (endtime : DateTime) (renew_till : Option DateTime) :
    CC.Times :=
  let authtime_timestamp := timestampU32 authtime
  let endtime_timestamp := timestampU32 endtime
  let starttime_timestamp := match starttime with
    | some t => timestampU32 t
    | none => authtime_timestamp
  let renew_till_timestamp := match renew_till with
    | some t => timestampU32 t
    | none => 0
  ⟨authtime_timestamp, starttime_timestamp, endtime_timestamp, renew_till_timestamp⟩

/-- `Utc.timestamp_opt(n as i64, 0).unwrap()`, never a panic for a 32-bit number. kerbeiros/src/mappers/times_mapper.rs:48-60. -/
def ofU32 (n : UInt32) : DateTime := ⟨n.toNat, 0⟩

/-- times_mapper.rs:39-65 -/
def fromTimes (t : CC.Times) : DateTime × DateTime × DateTime × Option DateTime :=
  (ofU32 t.authtime, ofU32 t.starttime, ofU32 t.endtime, if t.renew_till = 0 then none else some (ofU32 t.renew_till))

/-! ### Credentials -/

/-- kerbeiros/src/credentials/credential.rs:24-29 -/
structure Credential where
  crealm : List Char
  cname : PrincipalName
  ticket : Ticket
  client_part : EncAsRepPart
deriving DecidableEq, Repr

/-- credential.rs:109-176 `TryFrom<CredentialEntry> for Credential` -/
def Credential.ofEntry (g : Cfg) (e : CC.Credential) : Except KErr Credential := do
  let (authtime, starttime, endtime, renew_till) := fromTimes e.time
  let (crealm, cname) ← liftC (fromPrincipal e.client)
  let (srealm, sname) ← liftC (fromPrincipal e.server)
  let caddr := (fromAddresses e.addrs).toOption
  let method_data := fromAuthDatas e.authdata
  let ticket ← liftP ((ticketC g).dec g e.ticket)
  return {
    crealm := crealm
    cname := cname
    ticket := ticket
    client_part := {
      key := fromKeyBlock e.key
      last_req := []
      nonce := 0
      key_expiration := none
      flags := fromTktFlags e.tktflags
      authtime := authtime
      starttime := some starttime
      endtime := endtime
      renew_till := renew_till
      srealm := srealm
      sname := sname
      caddr := caddr
      encrypted_pa_data := if method_data.isEmpty then none else some method_data } }

/-- credential.rs:178-223 `From<Credential> for CredentialEntry` -/
def Credential.toEntry (X : Ext) (g : Cfg) (c : Credential) : CC.Credential :=
  let p := c.client_part
  let e := CC.Credential.new (toPrincipal c.crealm c.cname) (toPrincipal p.srealm p.sname) (toKeyBlock p.key)
    (toTimes p.authtime p.starttime p.endtime p.renew_till) 0 (toTktFlags p.flags) ((ticketC g).enc c.ticket)
  { e with
    addrs := match p.caddr with
      | some caddr => toAddresses X caddr
      | none => []
    authdata := match p.encrypted_pa_data with
      | some pa => toAuthDatas pa
      | none => [] }

/-- kerbeiros/src/credentials/credential_warehouse.rs:26-32 -/
structure Warehouse where
  credentials : List Credential
  realm : List Char
  client : PrincipalName
deriving DecidableEq, Repr

/-- credential_warehouse.rs:63-71 `From<Credential>` -/
def Warehouse.ofCredential (c : Credential) : Warehouse := ⟨[c], c.crealm, c.cname⟩

/-- the loop at credential_warehouse.rs:85-88 -/
def ofEntries (g : Cfg) : List CC.Credential → Except KErr (List Credential)
  | [] => .ok []
  | e :: es => do
    let c ← Credential.ofEntry g e
    let cs ← ofEntries g es
    return c :: cs

/-- credential_warehouse.rs:73-92 `TryFrom<CCache>` -/
def Warehouse.ofCCache (g : Cfg) (c : CC.CCache) : Except KErr Warehouse := do
  let (realm, client) ← liftC (fromPrincipal c.primary_principal)
  let credentials ← ofEntries g c.credentials
  return ⟨credentials, realm, client⟩

/-- credential_warehouse.rs:94-115 `From<CredentialWarehouse> for CCache` -/
def Warehouse.toCCache (X : Ext) (g : Cfg) (w : Warehouse) : CC.CCache :=
  CC.CCache.new CC.Header.dflt (toPrincipal w.realm w.client) (w.credentials.map (Credential.toEntry X g))

/-- kerbeiros/src/credentials/mappers/credential_krb_info.rs:14-44 -/
def Credential.toInfo (c : Credential) : KrbCredInfo × Ticket :=
  let p := c.client_part
  ({ key := p.key, prealm := some c.crealm, pname := some c.cname, flags := some p.flags,
     authtime := some p.authtime, starttime := p.starttime, endtime := some p.endtime, renew_till := p.renew_till,
     srealm := some p.srealm, sname := some p.sname, caddr := p.caddr }, c.ticket)

/-- kerbeiros/src/credentials/mappers/credential_warehouse_krb_cred.rs:11-44 -/
def Warehouse.toKrbCred (g : Cfg) (w : Warehouse) : KrbCred :=
  let both := w.credentials.map Credential.toInfo
  KrbCred.new (both.map (·.2))
    ⟨noEncryption, none, (encKrbCredPartC g).enc ⟨both.map (·.1), none, none, none, none, none⟩⟩

/-! ### Files -/

/-- result of one `write` call of the operating system. kerbeiros/src/credentials/file.rs:39. -/
inductive WriteEvent where
  /-- `Ok(n)`: that many bytes were taken (at most what was offered) -/
  | accept (n : Nat)
  /-- `Err(Interrupted)` -/
  | interrupted
  /-- any other error -/
  | fail
deriving DecidableEq, Repr

/-- how a sequence of system calls ended: normally, with an error, or not at all (the list of results ended first:
the process was stopped there) -/
inductive Ended where
  | done
  | failed
  | cut
deriving DecidableEq, Repr

/-- `std::io::Write::write_all`: how it ended and the bytes the operating system took. Used at kerbeiros/src/credentials/file.rs:39. -/
def writeAll : List WriteEvent → Bytes → Ended × Bytes
  | _, [] => (.done, [])
  | [], _ :: _ => (.cut, [])
  | .interrupted :: es, b => writeAll es b
  | .fail :: _, _ :: _ => (.failed, [])
  | .accept n :: es, b :: bs =>
    if n = 0 then (.failed, [])
    else
      let r := writeAll es ((b :: bs).drop n)
      (r.1, (b :: bs).take n ++ r.2)

/-- what happens to the result of `File::create`: refused, or the process stops right after it, or it goes on. kerbeiros/src/credentials/file.rs:37. -/
structure Disk where
  create : Ended
  writes : List WriteEvent

/-- kerbeiros/src/credentials/file.rs:36-42 `save_data_to_file`: result (`none`: never returned) and the content of the
file afterwards, given its content before (`none`: no file). `File::create` empties an existing file. There is no flush
to the device: contents are those seen by other processes. -/
def saveData (d : Disk) (before : Option Bytes) (data : Bytes) : Option (Except KErr Unit) × Option Bytes :=
  match d.create with
  | .failed => (some (.error .io), before)
  | .cut => (none, before)
  | .done =>
    match writeAll d.writes data with
    | (.done, b) => (some (.ok ()), some b)
    | (.failed, b) => (some (.error .io), some b)
    | (.cut, b) => (none, some b)

/-- file.rs:23-30,48-51 `save_into_ccache_file` -/
def Warehouse.saveCCache (X : Ext) (g : Cfg) (w : Warehouse) (d : Disk) (before : Option Bytes) :=
  saveData d before (w.toCCache X g).build

/-- file.rs:14-21,44-46 `save_into_krb_cred_file` -/
def Warehouse.saveKrbCred (g : Cfg) (w : Warehouse) (d : Disk) (before : Option Bytes) :=
  saveData d before ((krbCredC g).enc (w.toKrbCred g))

/-- loading as documented at credential_warehouse.rs:19-22 (`CCache::parse` then `CredentialWarehouse::try_from`) -/
def loadCCache (g : Cfg) (data : Bytes) : Except KErr Warehouse :=
  match CC.CCache.parse data with
  | .error .panic => .error .panic
  | .error _ => .error .binaryParse
  | .ok (c, _) => Warehouse.ofCCache g c

end Verif.Kb
