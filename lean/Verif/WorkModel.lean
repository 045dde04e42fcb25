import Verif.LoadModel
/-
Work done to load a cache or keytab file: the parsers once more, with the number of calls of nom's reading functions and of bytes
copied (`to_vec`, and the contents of a vector when it moves to a bigger buffer). Everything else a parser does is a bounded amount
of work for each of these calls.
-/
namespace Verif

/-- a parser made of `n` reading functions of nom -/
def ticks {α} (n : Nat) (p : Parser α) : Metered α := fun i => (p i, n)

/-- nom's `length_data` (a number, a slice) followed by `to_vec()` -/
def copying (p : Parser Bytes) : Metered Bytes := fun i =>
  match p i with
  | .ok (d, r) => (.ok (d, r), 2 + d.length)
  | .error e => (.error e, 2)

/-- bytes moved by a push to a vector of `len` elements and capacity `cap`: all of them if it is full -/
def moved (size len cap : Nat) : Nat := if len = cap then size * len else 0

/-- the loop of nom's `many_m_n(n, n, p)`, as `manyLoop` -/
def workLoop {α} (p : Metered α) (size : Nat) : Nat → Nat → Nat → Metered (List α)
  | 0, _, _ => fun i => (.ok ([], i), 0)
  | n + 1, len, cap => fun i =>
    match p i with
    | (.error e, c) => (.error e, c)
    | (.ok (a, r), c) =>
      if r.length = i.length then (.error .error, c)
      else match workLoop p size n (len + 1) (grown len cap) r with
        | (.error e, c') => (.error e, c + moved size len cap + c')
        | (.ok (as, r'), c') => (.ok (a :: as, r'), c + moved size len cap + c')

/-- nom `multi::many_m_n(n, n, p)` -/
def workManyN {α} (limit : Option Nat) (size : Nat) (p : Metered α) (n : Nat) : Metered (List α) :=
  workLoop p size n 0 (startCapacity limit size n)

/-- the loop of nom's `many0(p)`, as `met0Loop` -/
def work0Loop {α} (p : Metered α) (size : Nat) : Nat → Nat → Nat → Metered (List α)
  | 0, _, _ => fun _ => (.error .panic, 0)
  | n + 1, len, cap => fun i =>
    match p i with
    | (.error .error, c) => (.ok ([], i), c)
    | (.error e, c) => (.error e, c)
    | (.ok (a, r), c) =>
      if r.length = i.length then (.error .error, c)
      else match work0Loop p size n (len + 1) (grown len cap) r with
        | (.error e, c') => (.error e, c + moved size len cap + c')
        | (.ok (as, r'), c') => (.ok (a :: as, r'), c + moved size len cap + c')

/-- nom `multi::many0(p)` -/
def workMany0 {α} (size : Nat) (p : Metered α) : Metered (List α) := fun i => work0Loop p size (i.length + 1) 0 4 i

namespace CC


/-- counted_octet_string.rs:46-49 -/
def workCos : Metered Bytes := copying lengthData32

/-- key_block.rs:50-59 -/
def workKeyBlock : Metered KeyBlock := do
  let keytype ← ticks 1 beU16
  let etype ← ticks 1 beU16
  let keyvalue ← copying lengthData16
  return { KeyBlock.new keytype keyvalue with etype := etype }

/-- address.rs:34-39 -/
def workAddress : Metered Address := do
  let addrtype ← ticks 1 beU16
  let addrdata ← workCos
  return ⟨addrtype, addrdata⟩

/-- principal.rs:55-66 -/
def workPrincipal (limit : Option Nat) : Metered Principal := do
  let name_type ← ticks 1 beU32
  let components_len ← ticks 1 beU32
  let realm ← workCos
  let components ← workManyN limit stringSize workCos components_len.toNat
  return ⟨name_type, realm, components⟩

/-- header/header.rs:45-49 -/
def workHeader : Metered Header := do
  let tag ← ticks 1 beU16
  let tagdata ← copying lengthData16
  return ⟨tag, tagdata⟩

/-- credential.rs:102-134 -/
def workCredential (limit : Option Nat) : Metered Credential := do
  let client ← workPrincipal limit
  let server ← workPrincipal limit
  let key ← workKeyBlock
  let time ← ticks 4 Times.parse
  let is_skey ← ticks 1 beU8
  let tktflags ← ticks 1 beU32
  let num_address ← ticks 1 beU32
  let addrs ← workManyN limit addressSize workAddress num_address.toNat
  let num_authdata ← ticks 1 beU32
  let authdata ← workManyN limit addressSize workAddress num_authdata.toNat
  let ticket ← workCos
  let second_ticket ← workCos
  return { Credential.new client server key time is_skey tktflags ticket with
    addrs := addrs, authdata := authdata, second_ticket := second_ticket }

/-- ccache.rs:13-19,77-86 -/
def workCCache (limit : Option Nat) : Metered CCache := do
  let _ ← ticks 1 (tagC [0x05, 0x04])
  let _ ← ticks 1 beU16
  let header ← workHeader
  let primary_principal ← workPrincipal limit
  let credentials ← workMany0 credentialSize (workCredential limit)
  return CCache.new header primary_principal credentials

end CC

namespace KT


/-- kerberos_keytab/src/counted_octet_string.rs:48-51 `parse` -/
def workCos : Metered Bytes := copying lengthData16

/-- kerberos_keytab/src/key_block.rs:44-51 `parse` -/
def workKeyBlock : Metered KeyBlock := do
  let keytype ← ticks 1 beU16
  let keyvalue ← workCos
  return ⟨keytype, keyvalue⟩

/-- keytab_entry.rs:69-93 -/
def workBody (limit : Option Nat) : Metered KeytabEntry := do
  let num_components ← ticks 1 beU16
  let realm ← workCos
  let components ← workManyN limit CC.stringSize workCos num_components.toNat
  let name_type ← ticks 1 beU32
  let timestamp ← ticks 1 beU32
  let vno8 ← ticks 1 beU8
  let key ← workKeyBlock
  let vno ← ticks 1 vnoParser
  return ⟨realm, components, name_type, timestamp, vno8, key, vno⟩

/-- keytab_entry.rs:69-94: the bytes of the record, while the input continues after it -/
def workRecord (limit : Option Nat) (raw_entry : Bytes) : Metered KeytabEntry := fun rest =>
  match workBody limit raw_entry with
  | (.ok (e, _), c) => (.ok (e, rest), c)
  | (.error e, c) => (.error e, c)

/-- the panic of `-size`. keytab_entry.rs:63. -/
def workPanic : Metered KeytabEntry := fun _ => (.error .panic, 0)

/-- keytab_entry.rs:58-94 -/
def workEntry (limit : Option Nat) (dbg : Bool) : Metered KeytabEntry := do
  let size ← ticks 1 beI32
  if size < 0 then
    if dbg = true ∧ size = Int32.minValue then
      workPanic
    else do
      let _ ← ticks 1 (takeC (asUsize (-size)))
      return KeytabEntry.dflt
  else do
    let raw_entry ← ticks 1 (takeC (asUsize size))
    workRecord limit raw_entry

/-- keytab.rs:41-47 -/
def workKeytab (limit : Option Nat) (dbg : Bool) : Metered Keytab := do
  let kversion ← ticks 1 beU8
  let version ← ticks 1 beU8
  let entries ← workMany0 entrySize (workEntry limit dbg)
  return ⟨kversion, version, entries⟩

end KT
end Verif
