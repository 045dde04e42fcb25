import Verif.CCacheModel
import Verif.KeytabModel
import Verif.WarehouseModel
/-
Debug output (`{:?}`) of the types that hold keys, by `#[derive(Debug)]`: the name of the type, then the fields in order of
declaration between braces; vectors between brackets; numbers in decimal.
-/
namespace Verif.Dbg

/-- Rust `String`: a list of characters -/
abbrev Text := List Char

/-- a number in decimal -/
def num (n : Nat) : Text := Nat.toDigits 10 n

/-- a comma and a space between the texts -/
def commas : List Text → Text
  | [] => []
  | [t] => t
  | t :: ts => t ++ (", ".toList ++ commas ts)

/-- `Debug` of `Vec<T>` -/
def vec {α} (f : α → Text) (l : List α) : Text := '[' :: (commas (l.map f) ++ [']'])

/-- `Debug` of `Vec<u8>` -/
def bytes (b : Bytes) : Text := vec (fun x : UInt8 => num x.toNat) b

/-- `Debug` of `Option<T>` -/
def opt {α} (f : α → Text) : Option α → Text
  | none => "None".toList
  | some a => "Some(".toList ++ (f a ++ ")".toList)

/-- one field -/
def field (name : String) (t : Text) : Text := name.toList ++ (": ".toList ++ t)

/-- derived `Debug` of a struct with fields -/
def struct (name : String) (fields : List Text) : Text := name.toList ++ (" { ".toList ++ (commas fields ++ " }".toList))

/-! ### kerberos_ccache -/

/-- kerberos_ccache/src/counted_octet_string.rs:22-26 -/
def cos (b : Bytes) : Text := struct "CountedOctetString" [field "data" (bytes b)]

/-- kerberos_ccache/src/key_block.rs:20-25 -/
def ccKeyBlock (k : CC.KeyBlock) : Text :=
  struct "KeyBlock" [field "keytype" (num k.keytype.toNat), field "etype" (num k.etype.toNat), field "keyvalue" (bytes k.keyvalue)]

/-- kerberos_ccache/src/address.rs:13-17 (`AuthData` is the same type) -/
def ccAddress (a : CC.Address) : Text :=
  struct "Address" [field "addrtype" (num a.addrtype.toNat), field "addrdata" (cos a.addrdata)]

/-- kerberos_ccache/src/times.rs:16-22 -/
def ccTimes (t : CC.Times) : Text :=
  struct "Times" [field "authtime" (num t.authtime.toNat), field "starttime" (num t.starttime.toNat),
    field "endtime" (num t.endtime.toNat), field "renew_till" (num t.renew_till.toNat)]

/-- kerberos_ccache/src/principal.rs:17-22 -/
def ccPrincipal (p : CC.Principal) : Text :=
  struct "Principal" [field "name_type" (num p.name_type.toNat), field "realm" (cos p.realm),
    field "components" (vec cos p.components)]

/-- kerberos_ccache/src/header/header.rs:20-24 -/
def ccHeader (h : CC.Header) : Text := struct "Header" [field "tag" (num h.tag.toNat), field "tagdata" (bytes h.tagdata)]

/-- kerberos_ccache/src/credential.rs:30-42 -/
def ccCredential (c : CC.Credential) : Text :=
  struct "Credential" [field "client" (ccPrincipal c.client), field "server" (ccPrincipal c.server),
    field "key" (ccKeyBlock c.key), field "time" (ccTimes c.time), field "is_skey" (num c.is_skey.toNat),
    field "tktflags" (num c.tktflags.toNat), field "addrs" (vec ccAddress c.addrs),
    field "authdata" (vec ccAddress c.authdata), field "ticket" (cos c.ticket), field "second_ticket" (cos c.second_ticket)]

/-- kerberos_ccache/src/ccache.rs:32-38 -/
def ccache (c : CC.CCache) : Text :=
  struct "CCache" [field "file_format_version" (num c.file_format_version.toNat), field "header" (ccHeader c.header),
    field "primary_principal" (ccPrincipal c.primary_principal), field "credentials" (vec ccCredential c.credentials)]

/-! ### kerberos_keytab -/

/-- kerberos_keytab/src/key_block.rs:19-23 -/
def ktKeyBlock (k : KT.KeyBlock) : Text :=
  struct "KeyBlock" [field "keytype" (num k.keytype.toNat), field "keyvalue" (bytes k.keyvalue)]

/-- kerberos_keytab/src/keytab_entry.rs:23-32; kerberos_keytab/src/counted_octet_string.rs:24-29 prints like the one of the cache -/
def ktEntry (e : KT.KeytabEntry) : Text :=
  struct "KeytabEntry" [field "realm" (cos e.realm), field "components" (vec cos e.components),
    field "name_type" (num e.name_type.toNat), field "timestamp" (num e.timestamp.toNat), field "vno8" (num e.vno8.toNat),
    field "key" (ktKeyBlock e.key), field "vno" (opt (fun v : UInt32 => num v.toNat) e.vno)]

/-- kerberos_keytab/src/keytab.rs:13-18 -/
def keytab (k : KT.Keytab) : Text :=
  struct "Keytab" [field "kversion" (num k.kversion.toNat), field "version" (num k.version.toNat),
    field "entries" (vec ktEntry k.entries)]

/-! ### kerberos_asn1, kerbeiros -/

/-- `Debug` of an `i32` -/
def int (x : Int) : Text := if 0 ≤ x then num x.toNat else '-' :: num (-x).toNat

/-- kerberos_asn1/src/encryption_key.rs:14-20 -/
def encryptionKey (k : Asn1.EncryptionKey) : Text :=
  struct "EncryptionKey" [field "keytype" (int k.keytype.toInt), field "keyvalue" (bytes k.keyvalue)]

/-- what is printed of the parts that hold no key (strings, times, principals, flags: not modelled, any texts) -/
structure Other where
  realm : List Char → Text
  name : Asn1.PrincipalName → Text
  ticket : Asn1.Ticket → Text
  lastReq : List Asn1.LastReqEntry → Text
  time : DateTime → Text
  flags : UInt32 → Text
  addresses : List Asn1.HostAddress → Text
  padata : List Asn1.PaData → Text

/-- kerberos_asn1/src/enc_as_rep_part.rs:29-59 -/
def encAsRepPart (O : Other) (p : Asn1.EncAsRepPart) : Text :=
  struct "EncAsRepPart" [field "key" (encryptionKey p.key), field "last_req" (O.lastReq p.last_req),
    field "nonce" (num p.nonce.toNat), field "key_expiration" (opt O.time p.key_expiration), field "flags" (O.flags p.flags),
    field "authtime" (O.time p.authtime), field "starttime" (opt O.time p.starttime), field "endtime" (O.time p.endtime),
    field "renew_till" (opt O.time p.renew_till), field "srealm" (O.realm p.srealm), field "sname" (O.name p.sname),
    field "caddr" (opt O.addresses p.caddr), field "encrypted_pa_data" (opt O.padata p.encrypted_pa_data)]

/-- kerbeiros/src/credentials/credential.rs:23-29 -/
def credential (O : Other) (c : Kb.Credential) : Text :=
  struct "Credential" [field "crealm" (O.realm c.crealm), field "cname" (O.name c.cname), field "ticket" (O.ticket c.ticket),
    field "client_part" (encAsRepPart O c.client_part)]

/-- kerbeiros/src/credentials/credential_warehouse.rs:26-32 -/
def warehouse (O : Other) (w : Kb.Warehouse) : Text :=
  struct "CredentialWarehouse" [field "credentials" (vec (credential O) w.credentials), field "realm" (O.realm w.realm),
    field "client" (O.name w.client)]

end Verif.Dbg
