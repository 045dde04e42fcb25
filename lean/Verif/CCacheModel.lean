import Verif.Nom
/-
Model of the credential cache file format, crate kerberos_ccache (file format part; the conversions to
ASN.1 are in `Verif.MappersModel`).

A `CountedOctetString { data }` is modelled by its `data` (newtype removed).
-/
namespace Verif.CC

/-- kerberos_ccache/src/counted_octet_string.rs:36-41 `CountedOctetString::build`
(`len() as u32` wraps modulo 2^32). -/
def buildCos (d : Bytes) : Bytes := be32 (UInt32.ofNat d.length) ++ d

/-- kerberos_ccache/src/counted_octet_string.rs:7-9,46-49 `CountedOctetString::parse`. -/
def parseCos : Parser Bytes := lengthData32

/-- kerberos_ccache/src/key_block.rs:21-25. -/
structure KeyBlock where
  keytype : UInt16
  etype : UInt16
  keyvalue : Bytes
deriving DecidableEq, Repr

/-- kerberos_ccache/src/key_block.rs:28-34 `KeyBlock::new`. -/
def KeyBlock.new (keytype : UInt16) (keyvalue : Bytes) : KeyBlock := ⟨keytype, 0, keyvalue⟩

/-- kerberos_ccache/src/key_block.rs:37-45 `KeyBlock::build` (`len() as u16` wraps). -/
def KeyBlock.build (k : KeyBlock) : Bytes :=
  be16 k.keytype ++ be16 k.etype ++ be16 (UInt16.ofNat k.keyvalue.length) ++ k.keyvalue

/-- kerberos_ccache/src/key_block.rs:5-7,50-59 `KeyBlock::parse`. -/
def KeyBlock.parse : Parser KeyBlock := do
  let keytype ← beU16
  let etype ← beU16
  let keyvalue ← lengthData16
  return { KeyBlock.new keytype keyvalue with etype := etype }

/-- kerberos_ccache/src/address.rs:14-17; the same shape is `AuthData`,
kerberos_ccache/src/auth_data.rs (a re-export of `Address`). -/
structure Address where
  addrtype : UInt16
  addrdata : Bytes
deriving DecidableEq, Repr

/-- kerberos_ccache/src/address.rs:25-29 `Address::build`. -/
def Address.build (a : Address) : Bytes := be16 a.addrtype ++ buildCos a.addrdata

/-- kerberos_ccache/src/address.rs:34-39 `Address::parse`. -/
def Address.parse : Parser Address := do
  let addrtype ← beU16
  let addrdata ← parseCos
  return ⟨addrtype, addrdata⟩

/-- kerberos_ccache/src/times.rs:17-22. -/
structure Times where
  authtime : UInt32
  starttime : UInt32
  endtime : UInt32
  renew_till : UInt32
deriving DecidableEq, Repr

/-- kerberos_ccache/src/times.rs:40-47 `Times::build`. -/
def Times.build (t : Times) : Bytes :=
  be32 t.authtime ++ be32 t.starttime ++ be32 t.endtime ++ be32 t.renew_till

/-- kerberos_ccache/src/times.rs:52-59 `Times::parse`. -/
def Times.parse : Parser Times := do
  let authtime ← beU32
  let starttime ← beU32
  let endtime ← beU32
  let renew_till ← beU32
  return ⟨authtime, starttime, endtime, renew_till⟩

/-- kerberos_ccache/src/principal.rs:18-22. -/
structure Principal where
  name_type : UInt32
  realm : Bytes
  components : List Bytes
deriving DecidableEq, Repr

/-- kerberos_ccache/src/principal.rs:38-50 `Principal::build`. -/
def Principal.build (p : Principal) : Bytes :=
  be32 p.name_type ++ be32 (UInt32.ofNat p.components.length) ++ buildCos p.realm
    ++ p.components.flatMap buildCos

/-- kerberos_ccache/src/principal.rs:55-66 `Principal::parse`. -/
def Principal.parse : Parser Principal := do
  let name_type ← beU32
  let components_len ← beU32
  let realm ← parseCos
  let components ← manyN parseCos components_len.toNat
  return ⟨name_type, realm, components⟩

/-- kerberos_ccache/src/header/delta_time.rs:14-17. -/
structure DeltaTime where
  time_offset : UInt32
  usec_offset : UInt32
deriving DecidableEq, Repr

/-- kerberos_ccache/src/header/delta_time.rs:28-33 `DeltaTime::build`. -/
def DeltaTime.build (t : DeltaTime) : Bytes := be32 t.time_offset ++ be32 t.usec_offset

/-- kerberos_ccache/src/header/delta_time.rs:40-45 `DeltaTime::parse`. -/
def DeltaTime.parse : Parser DeltaTime := do
  let time_offset ← beU32
  let usec_offset ← beU32
  return ⟨time_offset, usec_offset⟩

/-- kerberos_ccache/src/header/delta_time.rs:48-52 `DeltaTime::default`. -/
def DeltaTime.dflt : DeltaTime := ⟨0xffffffff, 0⟩

/-- kerberos_ccache/src/header/header.rs:21-24. -/
structure Header where
  tag : UInt16
  tagdata : Bytes
deriving DecidableEq, Repr

/-- kerberos_ccache/src/header/header.rs:34-40 `Header::build` (`len() as u16` wraps). -/
def Header.build (h : Header) : Bytes :=
  be16 h.tag ++ be16 (UInt16.ofNat h.tagdata.length) ++ h.tagdata

/-- kerberos_ccache/src/header/header.rs:45-49 `Header::parse`. -/
def Header.parse : Parser Header := do
  let tag ← beU16
  let tagdata ← lengthData16
  return ⟨tag, tagdata⟩

/-- kerberos_ccache/src/header/header.rs:27,52-56 `Header::default`. -/
def Header.dflt : Header := ⟨1, DeltaTime.dflt.build⟩

/-- kerberos_ccache/src/credential.rs:31-42. -/
structure Credential where
  client : Principal
  server : Principal
  key : KeyBlock
  time : Times
  is_skey : UInt8
  tktflags : UInt32
  addrs : List Address
  authdata : List Address
  ticket : Bytes
  second_ticket : Bytes
deriving DecidableEq, Repr

/-- kerberos_ccache/src/credential.rs:45-66 `Credential::new`. -/
def Credential.new (client server : Principal) (key : KeyBlock) (time : Times) (is_skey : UInt8)
    (tktflags : UInt32) (ticket : Bytes) : Credential :=
  ⟨client, server, key, time, is_skey, tktflags, [], [], ticket, []⟩

/-- kerberos_ccache/src/credential.rs:69-97 `Credential::build`. -/
def Credential.build (c : Credential) : Bytes :=
  c.client.build ++ c.server.build ++ c.key.build ++ c.time.build ++ [c.is_skey]
    ++ be32 c.tktflags
    ++ be32 (UInt32.ofNat c.addrs.length) ++ c.addrs.flatMap Address.build
    ++ be32 (UInt32.ofNat c.authdata.length) ++ c.authdata.flatMap Address.build
    ++ buildCos c.ticket ++ buildCos c.second_ticket

/-- kerberos_ccache/src/credential.rs:102-134 `Credential::parse`. -/
def Credential.parse : Parser Credential := do
  let client ← Principal.parse
  let server ← Principal.parse
  let key ← KeyBlock.parse
  let time ← Times.parse
  let is_skey ← beU8
  let tktflags ← beU32
  let num_address ← beU32
  let addrs ← manyN Address.parse num_address.toNat
  let num_authdata ← beU32
  let authdata ← manyN Address.parse num_authdata.toNat
  let ticket ← parseCos
  let second_ticket ← parseCos
  return { Credential.new client server key time is_skey tktflags ticket with
    addrs := addrs, authdata := authdata, second_ticket := second_ticket }

/-- kerberos_ccache/src/ccache.rs:33-38. -/
structure CCache where
  file_format_version : UInt16
  header : Header
  primary_principal : Principal
  credentials : List Credential
deriving DecidableEq, Repr

/-- kerberos_ccache/src/ccache.rs:41-54 `CCache::new`. -/
def CCache.new (header : Header) (primary_principal : Principal) (credentials : List Credential) :
    CCache := ⟨0x0504, header, primary_principal, credentials⟩

/-- kerberos_ccache/src/ccache.rs:57-72 `CCache::build`. -/
def CCache.build (c : CCache) : Bytes :=
  be16 c.file_format_version ++ be16 (UInt16.ofNat c.header.build.length) ++ c.header.build
    ++ c.primary_principal.build ++ c.credentials.flatMap Credential.build

/-- kerberos_ccache/src/ccache.rs:13-19,77-86 `CCache::parse`; the header length is read and ignored,
exactly one header field is parsed. -/
def CCache.parse : Parser CCache := do
  let _ ← tagC [0x05, 0x04]
  let _ ← beU16
  let header ← Header.parse
  let primary_principal ← Principal.parse
  let credentials ← many0 Credential.parse
  return CCache.new header primary_principal credentials

end Verif.CC
