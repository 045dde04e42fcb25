import Verif.Nom
/-
Model of crate kerberos_keytab. A `CountedOctetString { data }` is modelled by its `data`.
The parser takes the build profile: `dbg = true` means integer overflow checks are on (Rust's debug
profile), which matters for `-size` on `i32::MIN`.
-/
namespace Verif.KT

/-- kerberos_keytab/src/counted_octet_string.rs:38-43 `build` (`len() as u16` wraps). -/
def buildCos (d : Bytes) : Bytes := be16 (UInt16.ofNat d.length) ++ d

/-- kerberos_keytab/src/counted_octet_string.rs:7-9,48-51 `parse`. -/
def parseCos : Parser Bytes := lengthData16

/-- kerberos_keytab/src/key_block.rs:20-23. -/
structure KeyBlock where
  keytype : UInt16
  keyvalue : Bytes
deriving DecidableEq, Repr

/-- kerberos_keytab/src/key_block.rs:31-39 `KeyBlock::build`. -/
def KeyBlock.build (k : KeyBlock) : Bytes :=
  be16 k.keytype ++ be16 (UInt16.ofNat k.keyvalue.length) ++ k.keyvalue

/-- kerberos_keytab/src/key_block.rs:5-7,44-51 `KeyBlock::parse`. -/
def KeyBlock.parse : Parser KeyBlock := do
  let keytype ← beU16
  let keyvalue ← lengthData16
  return ⟨keytype, keyvalue⟩

/-- kerberos_keytab/src/keytab_entry.rs:24-32. -/
structure KeytabEntry where
  realm : Bytes
  components : List Bytes
  name_type : UInt32
  timestamp : UInt32
  vno8 : UInt8
  key : KeyBlock
  vno : Option UInt32
deriving DecidableEq, Repr

/-- kerberos_keytab/src/keytab_entry.rs:127-139 `KeytabEntry::default`. -/
def KeytabEntry.dflt : KeytabEntry := ⟨[], [], 0, 0, 0, ⟨0, []⟩, some 0⟩

/-- kerberos_keytab/src/keytab_entry.rs:97-116, the record body before the size is prepended. -/
def KeytabEntry.body (e : KeytabEntry) : Bytes :=
  be16 (UInt16.ofNat e.components.length) ++ buildCos e.realm ++ e.components.flatMap buildCos
    ++ be32 e.name_type ++ be32 e.timestamp ++ [e.vno8] ++ e.key.build
    ++ (match e.vno with | some v => be32 v | none => [])

/-- kerberos_keytab/src/keytab_entry.rs:118-124 `KeytabEntry::build`: `len() as i32` (wrapping), the
same four bytes as `len() as u32`. -/
def KeytabEntry.build (e : KeytabEntry) : Bytes := be32 (UInt32.ofNat e.body.length) ++ e.body

/-- kerberos_keytab/src/keytab_entry.rs:83-88: the optional 32-bit key version. -/
def parseVno (raw_entry : Bytes) : Except PErr (Option UInt32) :=
  if !raw_entry.isEmpty then
    match beU32 raw_entry with
    | .error e => .error e
    | .ok (v, _) => .ok (some v)
  else .ok none

/-- kerberos_keytab/src/keytab_entry.rs:69-93: parsing of the bytes of one record; the bytes left
after the key version are dropped. -/
def parseBody (raw_entry : Bytes) : Except PErr KeytabEntry := do
  let (num_components, raw_entry) ← beU16 raw_entry
  let (realm, raw_entry) ← parseCos raw_entry
  let (components, raw_entry) ← manyN parseCos num_components.toNat raw_entry
  let (name_type, raw_entry) ← beU32 raw_entry
  let (timestamp, raw_entry) ← beU32 raw_entry
  let (vno8, raw_entry) ← beU8 raw_entry
  let (key, raw_entry) ← KeyBlock.parse raw_entry
  let vno ← parseVno raw_entry
  return ⟨realm, components, name_type, timestamp, vno8, key, vno⟩

/-- Rust `x as usize` for `x : i32` on a 64-bit target (sign extension). keytab_entry.rs:63,67. -/
def asUsize (x : Int32) : Nat := (x.toInt % 2^64).toNat

/-- kerberos_keytab/src/keytab_entry.rs:58-94 `KeytabEntry::parse`. `-size` panics on `i32::MIN` when
overflow checks are on and wraps otherwise. -/
def KeytabEntry.parse (dbg : Bool) : Parser KeytabEntry := fun raw => do
  let (size, raw) ← beI32 raw
  if size < 0 then
    if dbg = true ∧ size = Int32.minValue then
      .error .panic
    else do
      let (_, raw) ← takeC (asUsize (-size)) raw
      return (KeytabEntry.dflt, raw)
  else do
    let (raw_entry, raw) ← takeC (asUsize size) raw
    let e ← parseBody raw_entry
    return (e, raw)

/-- kerberos_keytab/src/keytab.rs:14-18. -/
structure Keytab where
  kversion : UInt8
  version : UInt8
  entries : List KeytabEntry
deriving DecidableEq, Repr

/-- kerberos_keytab/src/keytab.rs:29-39 `Keytab::build`. -/
def Keytab.build (k : Keytab) : Bytes :=
  [k.kversion] ++ [k.version] ++ k.entries.flatMap KeytabEntry.build

/-- kerberos_keytab/src/keytab.rs:41-47 `Keytab::parse`. -/
def Keytab.parse (dbg : Bool) : Parser Keytab := do
  let kversion ← beU8
  let version ← beU8
  let entries ← many0 (KeytabEntry.parse dbg)
  return ⟨kversion, version, entries⟩

end Verif.KT
