import Verif.Nom
import Verif.Utf8
import Verif.Time
/-
The ASN.1 DER layer under kerberos_asn1: the external crates `himmelblau_red_asn1` 0.3 (trait `Asn1Object`,
basic types) and `himmelblau_red_asn1_derive` 0.2 (`#[derive(Sequence)]`), plus the two types kerberos_asn1
implements itself (KerberosFlags, KerberosTime).

The source of the two crates is not part of /repo. What they do is taken from the byte strings in the unit tests
of /repo; where these leave the behaviour open (BER leniencies) it is a parameter of the model, `Cfg`, and every
theorem holds for every value of it. Errors of the crate (`red_asn1::Error`) are not distinguished: `PErr.error`.
-/
namespace Verif.Asn1

/-- Behaviour of the external ASN.1 crates not determined by /repo. -/
structure Cfg where
  /-- data left over at the end of a SEQUENCE is an error -/
  strictSeq : Bool
  /-- data left over inside an explicit tag is an error -/
  strictWrap : Bool
  /-- a length not in its shortest form is an error -/
  minimalLen : Bool
  /-- INTEGER with empty content read as `i32` -/
  emptyInt : Except PErr Int32
  /-- INTEGER whose content has no or more than four bytes read as `u32` -/
  u32Ext : Bytes → Except PErr UInt32
  /-- BOOLEAN whose content is not one byte -/
  boolExt : Bytes → Except PErr Bool
  /-- GeneralizedTime content not of the form "YYYYMMDDhhmmssZ", or naming a date or time that does not exist -/
  timeExt : Bytes → Except PErr DateTime
  /-- printed form of a year that does not have four digits -/
  yearFmt : Int → Bytes

/-- The external crate itself does not panic on any input. -/
structure Cfg.Total (g : Cfg) : Prop where
  emptyInt : g.emptyInt ≠ .error .panic
  u32Ext : ∀ b, g.u32Ext b ≠ .error .panic
  boolExt : ∀ b, g.boolExt b ≠ .error .panic
  timeExt : ∀ b, g.timeExt b ≠ .error .panic

/-! ### Lengths -/

/-- shortest big-endian bytes of a number (none for 0); `fuel` bounds the number of bytes, `n` is enough -/
def natBytes : Nat → Nat → Bytes
  | 0, _ => []
  | fuel + 1, n => if n = 0 then [] else natBytes fuel (n / 256) ++ [UInt8.ofNat n]

/-- value of big-endian bytes -/
def beNat (b : Bytes) : Nat := b.foldl (fun a x => a * 256 + x.toNat) 0

/-- red_asn1 `build_length`: DER length octets. A `usize` is below 2^64; larger numbers do not occur. -/
def buildLen (n : Nat) : Bytes :=
  if n < 128 then [UInt8.ofNat n]
  else UInt8.ofNat (128 + (natBytes n n).length) :: natBytes n n

/-- red_asn1 `parse_length`. The value is accumulated in a `usize` (modulo 2^64). -/
def parseLen (g : Cfg) : Parser Nat
  | [] => .error .error
  | b :: r =>
    if b.toNat < 128 then .ok (b.toNat, r)
    else
      let k := b.toNat - 128
      if r.length < k then .error .error
      else
        let n := beNat (r.take k) % 2^64
        if g.minimalLen && decide (b :: r.take k ≠ buildLen n) then .error .error
        else .ok (n, r.drop k)

/-! ### Tag-length-value -/

/-- red_asn1 `Asn1Object::build`: tag, length, value. All tags used are one byte long. -/
def tlv (tag : UInt8) (v : Bytes) : Bytes := tag :: (buildLen v.length ++ v)

/-- red_asn1 `Asn1Object::parse`, the part before `parse_value`: the expected tag, the length, that many bytes. -/
def parseTlv (g : Cfg) (tag : UInt8) : Parser Bytes
  | [] => .error .error
  | t :: i =>
    if t ≠ tag then .error .error
    else match parseLen g i with
      | .error e => .error e
      | .ok (n, r) => if r.length < n then .error .error else .ok (r.take n, r.drop n)

/-- An implementation of red_asn1's trait `Asn1Object`: `tag()`, `build_value`, `parse_value`. -/
structure Codec (α : Type) where
  tag : UInt8
  build : α → Bytes
  parse : Bytes → Except PErr α

/-- `Asn1Object::build` -/
def Codec.enc {α} (c : Codec α) (a : α) : Bytes := tlv c.tag (c.build a)

/-- `Asn1Object::parse` -/
def Codec.dec {α} (g : Cfg) (c : Codec α) : Parser α := fun i =>
  match parseTlv g c.tag i with
  | .error e => .error e
  | .ok (v, r) => match c.parse v with
    | .error e => .error e
    | .ok a => .ok (a, r)

/-! ### Basic types -/

/-- red_asn1 INTEGER of an `i32`: shortest two's complement form (int32.rs:17-19 `test_encode_int32`). -/
def intBytes (x : Int32) : Bytes :=
  let v := x.toInt
  let b := be32 x.toUInt32
  if -128 ≤ v ∧ v < 128 then b.drop 3
  else if -32768 ≤ v ∧ v < 32768 then b.drop 2
  else if -8388608 ≤ v ∧ v < 8388608 then b.drop 1
  else b

/-- two's complement value of a non-empty content -/
def twosVal (b : Bytes) : Int :=
  match b with
  | [] => 0
  | x :: _ => if x.toNat < 128 then (beNat b : Int) else (beNat b : Int) - 256 ^ b.length

/-- Int32, kerberos_asn1/src/int32.rs:7 (tag 2; more than four bytes: `IncorrectValue`, int32.rs:28-38). -/
def int32C (g : Cfg) : Codec Int32 where
  tag := 0x02
  build := intBytes
  parse b :=
    if b.length = 0 then g.emptyInt
    else if 4 < b.length then .error .error
    else .ok (Int32.ofInt (twosVal b))

/-- UInt32, kerberos_asn1/src/uint32.rs:7: encoded like the `i32` with the same bits (uint32.rs:15-40). -/
def uint32C (g : Cfg) : Codec UInt32 where
  tag := 0x02
  build x := intBytes x.toInt32
  parse b :=
    if b.length = 0 ∨ 4 < b.length then g.u32Ext b
    else .ok (Int32.ofInt (twosVal b)).toUInt32

/-- red_asn1 BOOLEAN (tag 1) -/
def boolC (g : Cfg) : Codec Bool where
  tag := 0x01
  build x := [if x then 0xff else 0]
  parse b := match b with
    | [x] => .ok (decide (x ≠ 0))
    | _ => g.boolExt b

/-- red_asn1 OCTET STRING (tag 4), `Vec<u8>` -/
def octetsC : Codec Bytes := ⟨0x04, id, .ok⟩

/-- red_asn1 GeneralString (tag 0x1b), `String`; kerberos_asn1/src/kerberos_string.rs:8, realm.rs. -/
def stringC : Codec (List Char) where
  tag := 0x1b
  build := utf8
  parse b := match utf8Dec b with
    | some s => .ok s
    | none => .error .error

/-- red_asn1 `BitString { bytes, padding_length }` -/
structure BitString where
  bytes : Bytes
  padding : UInt8
deriving DecidableEq, Repr

/-- red_asn1 BIT STRING (tag 3): number of unused bits, then the bytes; empty content is an error. -/
def bitStringC : Codec BitString where
  tag := 0x03
  build x := x.padding :: x.bytes
  parse b := match b with
    | [] => .error .error
    | p :: r => .ok ⟨r, p⟩

/-- kerberos_asn1/src/kerberos_flags.rs:34-59 `KerberosFlags`: four bytes are written; a received value is
filled up with zeros to four bytes and the first four are used (a slice of fewer than four bytes would panic). -/
def flagsC : Codec UInt32 where
  tag := 0x03
  build x := bitStringC.build ⟨be32 x, 0⟩
  parse b := match bitStringC.parse b with
    | .error e => .error e
    | .ok bs => match bs.bytes ++ List.replicate (4 - bs.bytes.length) 0 with
      | w :: x :: y :: z :: _ => .ok (ofBe32 w x y z)
      | _ => .error .panic

/-- decimal digit -/
def dig (n : Nat) : UInt8 := UInt8.ofNat (0x30 + n % 10)

/-- value of a decimal digit -/
def digVal (b : UInt8) : Option Nat :=
  if 0x30 ≤ b.toNat ∧ b.toNat ≤ 0x39 then some (b.toNat - 0x30) else none

/-- `{:04}` of a year -/
def yearBytes (g : Cfg) (y : Int) : Bytes :=
  if 0 ≤ y ∧ y ≤ 9999 then
    let n := y.toNat
    [dig (n / 1000), dig (n / 100), dig (n / 10), dig n]
  else g.yearFmt y

/-- `{:02}` of a month, day, hour, minute, second -/
def twoDigits (n : Nat) : Bytes := [dig (n / 10), dig n]

/-- red_asn1 GeneralizedTime `build_value` of an instant without fraction: "YYYYMMDDhhmmssZ". -/
def genTimeBytes (g : Cfg) (t : DateTime) : Bytes :=
  yearBytes g t.date.year ++ twoDigits t.date.month ++ twoDigits t.date.day
    ++ twoDigits t.hour ++ twoDigits t.minute ++ twoDigits t.second ++ [0x5a]

/-- red_asn1 GeneralizedTime `parse_value` of "YYYYMMDDhhmmssZ", `none` for everything else -/
def genTimePlain (b : Bytes) : Option DateTime :=
  match b with
  | [y1, y2, y3, y4, mo1, mo2, d1, d2, h1, h2, mi1, mi2, s1, s2, z] =>
    if z ≠ 0x5a then none
    else do
      let y1 ← digVal y1
      let y2 ← digVal y2
      let y3 ← digVal y3
      let y4 ← digVal y4
      let mo1 ← digVal mo1
      let mo2 ← digVal mo2
      let d1 ← digVal d1
      let d2 ← digVal d2
      let h1 ← digVal h1
      let h2 ← digVal h2
      let mi1 ← digVal mi1
      let mi2 ← digVal mi2
      let s1 ← digVal s1
      let s2 ← digVal s2
      withYmdHms ⟨((y1 * 1000 + y2 * 100 + y3 * 10 + y4 : Nat) : Int), mo1 * 10 + mo2, d1 * 10 + d2⟩
        (h1 * 10 + h2) (mi1 * 10 + mi2) (s1 * 10 + s2)
  | _ => none

/-- kerberos_asn1/src/kerberos_time.rs:28-53 `KerberosTime` (tag 0x18). Building goes through
`Utc.with_ymd_and_hms(year, .., second).unwrap()`, which drops the nanoseconds; the `unwrap` is modelled by
`none` (never happens: `withYmdHms_fields`). -/
def kerberosTimeC (g : Cfg) : Codec DateTime where
  tag := 0x18
  build t := match withYmdHms t.date t.hour t.minute t.second with
    | some t' => genTimeBytes g t'
    | none => []
  parse b := match genTimePlain b with
    | some t => .ok t
    | none => g.timeExt b

/-! ### SEQUENCE OF -/

/-- loop of `SequenceOf::parse_value`: elements until the content is used up. Every element takes at least one
byte, so `length` rounds are enough (`seqOfLoop` never runs out of rounds). -/
def seqOfLoop {α} (g : Cfg) (c : Codec α) : Nat → Bytes → Except PErr (List α)
  | _, [] => .ok []
  | 0, _ => .error .panic
  | n + 1, b => match c.dec g b with
    | .error e => .error e
    | .ok (a, r) => match seqOfLoop g c n r with
      | .error e => .error e
      | .ok as => .ok (a :: as)

/-- red_asn1 `SequenceOf<T>` = `Vec<T>` (tag 0x30) -/
def seqOfC {α} (g : Cfg) (c : Codec α) : Codec (List α) where
  tag := 0x30
  build as := as.flatMap c.enc
  parse b := seqOfLoop g c b.length b

/-! ### SEQUENCE with context tags (`#[derive(Sequence)]`) -/

/-- the fields of a derived sequence -/
structure Fields (α : Type) where
  build : α → Bytes
  parse : Parser α

/-- context tag of `#[seq_field(context_tag = n)]` -/
def ctxTag (n : Nat) : UInt8 := UInt8.ofNat (0xa0 + n)
/-- application tag of `#[seq(application_tag = n)]` -/
def appTag (n : Nat) : UInt8 := UInt8.ofNat (0x60 + n)

/-- value in an explicit tag -/
def parseWrapped {α} (g : Cfg) (tag : UInt8) (c : Codec α) : Parser α := fun i =>
  match parseTlv g tag i with
  | .error e => .error e
  | .ok (v, r) => match c.dec g v with
    | .error e => .error e
    | .ok (a, left) => if g.strictWrap && !left.isEmpty then .error .error else .ok (a, r)

/-- end of the field list -/
def noFields : Fields Unit := ⟨fun _ => [], fun i => .ok ((), i)⟩

/-- a field of type `T` -/
def reqField {α β} (g : Cfg) (n : Nat) (c : Codec α) (rest : Fields β) : Fields (α × β) where
  build v := tlv (ctxTag n) (c.enc v.1) ++ rest.build v.2
  parse i := match parseWrapped g (ctxTag n) c i with
    | .error e => .error e
    | .ok (a, r) => match rest.parse r with
      | .error e => .error e
      | .ok (b, r') => .ok ((a, b), r')

/-- a field of type `Option<T>`: present iff the next tag is its tag -/
def optField {α β} (g : Cfg) (n : Nat) (c : Codec α) (rest : Fields β) : Fields (Option α × β) where
  build v := (match v.1 with
    | some a => tlv (ctxTag n) (c.enc a)
    | none => []) ++ rest.build v.2
  parse i :=
    if i.head? = some (ctxTag n) then
      match parseWrapped g (ctxTag n) c i with
      | .error e => .error e
      | .ok (a, r) => match rest.parse r with
        | .error e => .error e
        | .ok (b, r') => .ok ((some a, b), r')
    else match rest.parse i with
      | .error e => .error e
      | .ok (b, r') => .ok ((none, b), r')

/-- the derived struct: field list to and from a structure -/
def Fields.imap {α β} (f : Fields α) (mk : α → β) (un : β → α) : Fields β where
  build b := f.build (un b)
  parse i := match f.parse i with
    | .error e => .error e
    | .ok (a, r) => .ok (mk a, r)

/-- SEQUENCE (tag 0x30) of fields -/
def seqC {α} (g : Cfg) (f : Fields α) : Codec α where
  tag := 0x30
  build := f.build
  parse b := match f.parse b with
    | .error e => .error e
    | .ok (a, left) => if g.strictSeq && !left.isEmpty then .error .error else .ok a

/-- `#[seq(application_tag = n)]` around a SEQUENCE -/
def appC {α} (g : Cfg) (n : Nat) (f : Fields α) : Codec α where
  tag := appTag n
  build a := (seqC g f).enc a
  parse b := match (seqC g f).dec g b with
    | .error e => .error e
    | .ok (a, left) => if g.strictWrap && !left.isEmpty then .error .error else .ok a

end Verif.Asn1
