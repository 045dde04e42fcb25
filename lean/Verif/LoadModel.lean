import Verif.CCacheModel
import Verif.KeytabModel
/-
Memory taken by loading a cache or keytab file: the parsers of `CCacheModel` and `KeytabModel` again, this time with the number of
bytes asked from the allocator. Every request is added up and nothing is ever given back, so the number is an upper bound of the
memory in use at any moment. Not counted: the input itself and the constant-size values on the stack.
-/
namespace Verif

/-- a parser together with the bytes it asked for -/
def Metered (α : Type) := Bytes → Except PErr (α × Bytes) × Nat

namespace Metered

/-- `Ok((input, a))` -/
def pure {α} (a : α) : Metered α := fun i => (.ok (a, i), 0)

/-- `let (rest, a) = p(raw)?; f(a)(rest)` -/
def bind {α β} (p : Metered α) (f : α → Metered β) : Metered β := fun i =>
  match p i with
  | (.error e, c) => (.error e, c)
  | (.ok (a, r), c) => ((f a r).1, c + (f a r).2)

/-- Sequencing in `do` notation is Rust's `?`. -/
instance : Monad Metered where
  pure := pure
  bind := bind

end Metered

/-- a parser that asks for no memory (numbers, and slices of the input) -/
def free {α} (p : Parser α) : Metered α := fun i => (p i, 0)

/-- a parser of a slice followed by `to_vec()` -/
def copied (p : Parser Bytes) : Metered Bytes := fun i =>
  match p i with
  | .ok (d, r) => (.ok (d, r), d.length)
  | .error e => (.error e, 0)

/-- `Vec::push` of the standard library (`RawVec::grow_amortized`, elements of at most 1024 bytes): capacity afterwards. A full vector
gets a new buffer of twice the capacity, at least four elements. -/
def grown (len cap : Nat) : Nat := if len = cap then max (2 * cap) 4 else cap

/-- bytes asked for by that push -/
def growth (size len cap : Nat) : Nat := if len = cap then size * max (2 * cap) 4 else 0

/-- the loop of nom's `many_m_n(n, n, p)` with a vector of `len` elements and capacity `cap`; the elements have `size` bytes -/
def manyLoop {α} (p : Metered α) (size : Nat) : Nat → Nat → Nat → Metered (List α)
  | 0, _, _ => fun i => (.ok ([], i), 0)
  | n + 1, len, cap => fun i =>
    match p i with
    | (.error e, c) => (.error e, c)
    | (.ok (a, r), c) =>
      if r.length = i.length then (.error .error, c)
      else match manyLoop p size n (len + 1) (grown len cap) r with
        | (.error e, c') => (.error e, c + growth size len cap + c')
        | (.ok (as, r'), c') => (.ok (a :: as, r'), c + growth size len cap + c')

/-- capacity `many_m_n` starts with: the number of elements wanted, from nom 7.1.2 on at most as many as fit in 64 KiB
(`limit`); `none`: nom before 7.1.2. Cargo.toml of both crates asks for nom "7". -/
def startCapacity (limit : Option Nat) (size n : Nat) : Nat :=
  match limit with
  | none => n
  | some l => min n (l / size)

/-- nom `multi::many_m_n(n, n, p)` -/
def metManyN {α} (limit : Option Nat) (size : Nat) (p : Metered α) (n : Nat) : Metered (List α) := fun i =>
  ((manyLoop p size n 0 (startCapacity limit size n) i).1,
    size * startCapacity limit size n + (manyLoop p size n 0 (startCapacity limit size n) i).2)

/-- the loop of nom's `many0(p)`, see `many0Fuel` -/
def met0Loop {α} (p : Metered α) (size : Nat) : Nat → Nat → Nat → Metered (List α)
  | 0, _, _ => fun _ => (.error .panic, 0)
  | n + 1, len, cap => fun i =>
    match p i with
    | (.error .error, c) => (.ok ([], i), c)
    | (.error e, c) => (.error e, c)
    | (.ok (a, r), c) =>
      if r.length = i.length then (.error .error, c)
      else match met0Loop p size n (len + 1) (grown len cap) r with
        | (.error e, c') => (.error e, c + growth size len cap + c')
        | (.ok (as, r'), c') => (.ok (a :: as, r'), c + growth size len cap + c')

/-- nom `multi::many0(p)`: the vector starts with room for four elements -/
def metMany0 {α} (size : Nat) (p : Metered α) : Metered (List α) := fun i =>
  ((met0Loop p size (i.length + 1) 0 4 i).1, size * 4 + (met0Loop p size (i.length + 1) 0 4 i).2)

namespace CC

/-- `size_of::<CountedOctetString>()` on 64-bit targets: one `Vec<u8>`. kerberos_ccache/src/counted_octet_string.rs:24-27. -/
def stringSize : Nat := 24
/-- `size_of::<Address>()`: a `Vec<u8>` and a `u16`. kerberos_ccache/src/address.rs:14-17. -/
def addressSize : Nat := 32
/-- `size_of::<Credential>()`: two principals of 56 bytes, a key of 32, times of 16, two vectors and two strings of 24, flags. kerberos_ccache/src/credential.rs:31-43. -/
def credentialSize : Nat := 264

/-- counted_octet_string.rs:46-49 -/
def metCos : Metered Bytes := copied lengthData32

/-- key_block.rs:50-59 -/
def metKeyBlock : Metered KeyBlock := do
  let keytype ← free beU16
  let etype ← free beU16
  let keyvalue ← copied lengthData16
  return { KeyBlock.new keytype keyvalue with etype := etype }

/-- address.rs:34-39 -/
def metAddress : Metered Address := do
  let addrtype ← free beU16
  let addrdata ← metCos
  return ⟨addrtype, addrdata⟩

/-- principal.rs:55-66 -/
def metPrincipal (limit : Option Nat) : Metered Principal := do
  let name_type ← free beU32
  let components_len ← free beU32
  let realm ← metCos
  let components ← metManyN limit stringSize metCos components_len.toNat
  return ⟨name_type, realm, components⟩

/-- header/header.rs:45-49 -/
def metHeader : Metered Header := do
  let tag ← free beU16
  let tagdata ← copied lengthData16
  return ⟨tag, tagdata⟩

/-- credential.rs:102-134 -/
def metCredential (limit : Option Nat) : Metered Credential := do
  let client ← metPrincipal limit
  let server ← metPrincipal limit
  let key ← metKeyBlock
  let time ← free Times.parse
  let is_skey ← free beU8
  let tktflags ← free beU32
  let num_address ← free beU32
  let addrs ← metManyN limit addressSize metAddress num_address.toNat
  let num_authdata ← free beU32
  let authdata ← metManyN limit addressSize metAddress num_authdata.toNat
  let ticket ← metCos
  let second_ticket ← metCos
  return { Credential.new client server key time is_skey tktflags ticket with
    addrs := addrs, authdata := authdata, second_ticket := second_ticket }

/-- ccache.rs:13-19,77-86 -/
def metCCache (limit : Option Nat) : Metered CCache := do
  let _ ← free (tagC [0x05, 0x04])
  let _ ← free beU16
  let header ← metHeader
  let primary_principal ← metPrincipal limit
  let credentials ← metMany0 credentialSize (metCredential limit)
  return CCache.new header primary_principal credentials

end CC

namespace KT

/-- `size_of::<KeytabEntry>()` on 64-bit targets: a string and a vector of 24 bytes, a key of 32, numbers. kerberos_keytab/src/keytab_entry.rs:24-32. -/
def entrySize : Nat := 104

/-- kerberos_keytab/src/counted_octet_string.rs:48-51 `parse` -/
def metCos : Metered Bytes := copied lengthData16

/-- kerberos_keytab/src/key_block.rs:44-51 `parse` -/
def metKeyBlock : Metered KeyBlock := do
  let keytype ← free beU16
  let keyvalue ← metCos
  return ⟨keytype, keyvalue⟩

/-- keytab_entry.rs:83-88; the bytes it leaves are not used -/
def vnoParser : Parser (Option UInt32) := fun rest =>
  match parseVno rest with
  | .ok v => .ok (v, rest)
  | .error e => .error e

/-- keytab_entry.rs:69-93 -/
def metBody (limit : Option Nat) : Metered KeytabEntry := do
  let num_components ← free beU16
  let realm ← metCos
  let components ← metManyN limit CC.stringSize metCos num_components.toNat
  let name_type ← free beU32
  let timestamp ← free beU32
  let vno8 ← free beU8
  let key ← metKeyBlock
  let vno ← free vnoParser
  return ⟨realm, components, name_type, timestamp, vno8, key, vno⟩

/-- keytab_entry.rs:69-94: the bytes of the record, while the input continues after it -/
def metRecord (limit : Option Nat) (raw_entry : Bytes) : Metered KeytabEntry := fun rest =>
  match metBody limit raw_entry with
  | (.ok (e, _), c) => (.ok (e, rest), c)
  | (.error e, c) => (.error e, c)

/-- the panic of `-size`. keytab_entry.rs:63. -/
def metPanic : Metered KeytabEntry := fun _ => (.error .panic, 0)

/-- keytab_entry.rs:58-94 -/
def metEntry (limit : Option Nat) (dbg : Bool) : Metered KeytabEntry := do
  let size ← free beI32
  if size < 0 then
    if dbg = true ∧ size = Int32.minValue then
      metPanic
    else do
      let _ ← free (takeC (asUsize (-size)))
      return KeytabEntry.dflt
  else do
    let raw_entry ← free (takeC (asUsize size))
    metRecord limit raw_entry

/-- keytab.rs:41-47 -/
def metKeytab (limit : Option Nat) (dbg : Bool) : Metered Keytab := do
  let kversion ← free beU8
  let version ← free beU8
  let entries ← metMany0 entrySize (metEntry limit dbg)
  return ⟨kversion, version, entries⟩

end KT
end Verif
