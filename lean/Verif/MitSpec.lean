import Verif.RfcSpec
/-
Specification of the two MIT Kerberos file formats, written after the MIT documentation ("Credential cache file
format", version 4; "Keytab file format", version 2, with the 16-bit component count and key length that MIT's and
Heimdal's implementations use) and independently of the model of the code: numbers are natural numbers, all integers
big endian.
-/
namespace Verif.Mit
open Verif.Rfc (bytesOf)

/-! ### credential cache, version 4 -/

/-- data ::= length (32 bits), value -/
def data32 (b : Bytes) : Bytes := bytesOf 4 b.length ++ b

/-- principal of a credential cache -/
structure Principal where
  nameType : Nat
  realm : Bytes
  components : List Bytes
deriving DecidableEq

/-- principal ::= name type (32 bits), count of components (32 bits), realm (data), components (data) -/
def Principal.bytes (p : Principal) : Bytes :=
  bytesOf 4 p.nameType ++ bytesOf 4 p.components.length ++ data32 p.realm ++ p.components.flatMap data32

def Principal.Valid (p : Principal) : Prop :=
  p.nameType < 2 ^ 32 ∧ p.realm.length < 2 ^ 32 ∧ p.components.length < 2 ^ 32 ∧
    ∀ c ∈ p.components, c.length < 2 ^ 32

/-- a typed datum: address or authorization data element -/
structure Typed where
  type : Nat
  data : Bytes
deriving DecidableEq

/-- addresstype (16 bits), address (data); the same for authdata -/
def Typed.bytes (t : Typed) : Bytes := bytesOf 2 t.type ++ data32 t.data

def Typed.Valid (t : Typed) : Prop := t.type < 2 ^ 16 ∧ t.data.length < 2 ^ 32

structure Credential where
  client : Principal
  server : Principal
  enctype : Nat
  key : Bytes
  authtime : Nat
  starttime : Nat
  endtime : Nat
  renewTill : Nat
  isSkey : Nat
  ticketFlags : Nat
  addresses : List Typed
  authdata : List Typed
  ticket : Bytes
  secondTicket : Bytes
deriving DecidableEq

/-- credential ::= client, server, keyblock (enctype 16 bits, data), authtime, starttime, endtime, renew_till (32 bits
each), is_skey (1 byte), ticket_flags (32 bits), addresses (count 32 bits, ...), authdata (count 32 bits, ...),
ticket (data), second_ticket (data) -/
def Credential.bytes (c : Credential) : Bytes :=
  c.client.bytes ++ c.server.bytes ++ (bytesOf 2 c.enctype ++ data32 c.key)
    ++ (bytesOf 4 c.authtime ++ bytesOf 4 c.starttime ++ bytesOf 4 c.endtime ++ bytesOf 4 c.renewTill)
    ++ bytesOf 1 c.isSkey ++ bytesOf 4 c.ticketFlags
    ++ (bytesOf 4 c.addresses.length ++ c.addresses.flatMap Typed.bytes)
    ++ (bytesOf 4 c.authdata.length ++ c.authdata.flatMap Typed.bytes)
    ++ data32 c.ticket ++ data32 c.secondTicket

def Credential.Valid (c : Credential) : Prop :=
  c.client.Valid ∧ c.server.Valid ∧ c.enctype < 2 ^ 16 ∧ c.key.length < 2 ^ 32 ∧
  c.authtime < 2 ^ 32 ∧ c.starttime < 2 ^ 32 ∧ c.endtime < 2 ^ 32 ∧ c.renewTill < 2 ^ 32 ∧
  c.isSkey < 2 ^ 8 ∧ c.ticketFlags < 2 ^ 32 ∧
  c.addresses.length < 2 ^ 32 ∧ (∀ a ∈ c.addresses, a.Valid) ∧
  c.authdata.length < 2 ^ 32 ∧ (∀ a ∈ c.authdata, a.Valid) ∧
  c.ticket.length < 2 ^ 32 ∧ c.secondTicket.length < 2 ^ 32

/-- a header field: tag (16 bits), length (16 bits), value -/
structure Field where
  tag : Nat
  value : Bytes
deriving DecidableEq

def Field.bytes (f : Field) : Bytes := bytesOf 2 f.tag ++ (bytesOf 2 f.value.length ++ f.value)

def Field.Valid (f : Field) : Prop := f.tag < 2 ^ 16 ∧ f.value.length < 2 ^ 16

/-- content of a cache file -/
structure Cache where
  fields : List Field
  principal : Principal
  credentials : List Credential
deriving DecidableEq

/-- ccache ::= 05 04, header length in bytes (16 bits), header fields, default principal, credentials up to the end -/
def Cache.bytes (c : Cache) : Bytes :=
  [5, 4] ++ bytesOf 2 (c.fields.flatMap Field.bytes).length ++ c.fields.flatMap Field.bytes
    ++ c.principal.bytes ++ c.credentials.flatMap Credential.bytes

def Cache.Valid (c : Cache) : Prop :=
  (c.fields.flatMap Field.bytes).length < 2 ^ 16 ∧ (∀ f ∈ c.fields, f.Valid) ∧ c.principal.Valid ∧
    ∀ x ∈ c.credentials, x.Valid

/-! ### keytab, version 2 -/

/-- data ::= length (16 bits), value -/
def data16 (b : Bytes) : Bytes := bytesOf 2 b.length ++ b

structure Entry where
  realm : Bytes
  components : List Bytes
  nameType : Nat
  timestamp : Nat
  vno8 : Nat
  enctype : Nat
  key : Bytes
  /-- 32-bit key version, present if at least four bytes follow the key -/
  vno32 : Option Nat
deriving DecidableEq

/-- entry ::= count of components (16 bits), realm (data), components (data), name type (32 bits), timestamp (32 bits),
key version (8 bits), enctype (16 bits), key (data), key version (32 bits, optional) -/
def Entry.bytes (e : Entry) : Bytes :=
  bytesOf 2 e.components.length ++ data16 e.realm ++ e.components.flatMap data16
    ++ bytesOf 4 e.nameType ++ bytesOf 4 e.timestamp ++ bytesOf 1 e.vno8
    ++ (bytesOf 2 e.enctype ++ data16 e.key)
    ++ (match e.vno32 with | some v => bytesOf 4 v | none => [])

def Entry.Valid (e : Entry) : Prop :=
  e.realm.length < 2 ^ 16 ∧ e.components.length < 2 ^ 16 ∧ (∀ c ∈ e.components, c.length < 2 ^ 16) ∧
  e.nameType < 2 ^ 32 ∧ e.timestamp < 2 ^ 32 ∧ e.vno8 < 2 ^ 8 ∧ e.enctype < 2 ^ 16 ∧ e.key.length < 2 ^ 16 ∧
  (∀ v ∈ e.vno32, v < 2 ^ 32)

/-- A record: an entry followed by filler (a new entry may be stored in a larger deleted slot), or a deleted slot. -/
inductive Record
  | entry (e : Entry) (filler : Bytes)
  | hole (content : Bytes)

/-- record ::= size (signed, 32 bits): positive before an entry, negative before a deleted slot -/
def Record.bytes : Record → Bytes
  | .entry e filler => bytesOf 4 (e.bytes ++ filler).length ++ (e.bytes ++ filler)
  | .hole content => bytesOf 4 (2 ^ 32 - content.length) ++ content

/-- Without a 32-bit version fewer than four bytes of filler are possible: four would be read as the version. -/
def Record.Valid : Record → Prop
  | .entry e filler => e.Valid ∧ (e.bytes ++ filler).length < 2 ^ 31 ∧ (e.vno32 = none → filler.length < 4)
  | .hole content => 0 < content.length ∧ content.length < 2 ^ 31

/-- the entries in a list of records: deleted slots do not count -/
def entries : List Record → List Entry
  | [] => []
  | .entry e _ :: rs => e :: entries rs
  | .hole _ :: rs => entries rs

/-- the optional end of a keytab: a record of size zero marks the end of the file, whatever follows it -/
def endMark : Option Bytes → Bytes
  | none => []
  | some t => bytesOf 4 0 ++ t

/-- keytab ::= 05 02, records, optional end mark -/
def keytabBytes (rs : List Record) (tail : Option Bytes) : Bytes :=
  [5, 2] ++ rs.flatMap Record.bytes ++ endMark tail

end Verif.Mit
