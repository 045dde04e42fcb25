import Verif.CryptoModel
/-
Model of kerberos_crypto/src/key.rs (user keys and hexadecimal key strings) and of the salt computed in
kerbeiros/src/messages/asreq/timestamp_cipher.rs.
-/
namespace Verif.Crypto

/-- key.rs:13-29. Fixed-size arrays are byte strings here; every constructor function below produces the right
length (theorem `c34_key_length`). -/
inductive Key where
  | secret (s : List Char)
  | rc4Key (k : Bytes)
  | aes128Key (k : Bytes)
  | aes256Key (k : Bytes)
deriving DecidableEq, Repr

/-- The array types `[u8; N]` of the `Key` variants. -/
def Key.WF : Key → Prop
  | .secret _ => True
  | .rc4Key k => k.length = 16
  | .aes128Key k => k.length = 16
  | .aes256Key k => k.length = 32

/-- key.rs:71-80 -/
def Key.etypes : Key → List Int32
  | .secret _ => [18, 17, 23]
  | .rc4Key _ => [23]
  | .aes128Key _ => [17]
  | .aes256Key _ => [18]

/-- key.rs:93-100 -/
def Key.asBytes : Key → Bytes
  | .secret s => utf8 s
  | .rc4Key k => k
  | .aes128Key k => k
  | .aes256Key k => k

/-- key.rs:35-48 `Key::random`; `rnd` are the random bytes drawn (of the requested size). -/
def Key.random (etype : Int32) (rnd : Nat → Bytes) : Except CErr Key :=
  if etype = 23 then .ok (.rc4Key (rnd 16))
  else if etype = 17 then .ok (.aes128Key (rnd 16))
  else if etype = 18 then .ok (.aes256Key (rnd 32))
  else .error (.unsupported etype)

/-- `char::to_digit(16)` on one byte, as used by `u8::from_str_radix`. Used at key.rs:197. -/
def hexDigit (b : UInt8) : Option Nat :=
  let n := b.toNat
  if 0x30 ≤ n ∧ n ≤ 0x39 then some (n - 0x30)
  else if 0x61 ≤ n ∧ n ≤ 0x66 then some (n - 0x61 + 10)
  else if 0x41 ≤ n ∧ n ≤ 0x46 then some (n - 0x41 + 10)
  else none

/-- `u8::from_str_radix(s, 16)` for a string of exactly two bytes: an optional leading `+` is accepted
(std semantics), a `-` is not for unsigned types. Used at key.rs:197. -/
def parseHex2 (a b : UInt8) : Option UInt8 :=
  if a = 0x2b then (hexDigit b).map UInt8.ofNat
  else match hexDigit a, hexDigit b with
    | some x, some y => some (UInt8.ofNat (16 * x + y))
    | _, _ => none

/-- a UTF-8 continuation byte: position is not a char boundary (`str::is_char_boundary`). Used at key.rs:197-200 (slicing a string). -/
def isCont (b : UInt8) : Bool := 0x80 ≤ b.toNat ∧ b.toNat < 0xc0

/-- the end of the slice is not a char boundary. Used at key.rs:197-200 (slicing a string). -/
def startsCont : Bytes → Bool
  | c :: _ => isCont c
  | [] => false

/-- key.rs:190-204, the loop over two-byte slices of the UTF-8 bytes of the string. Slicing off a char
boundary panics; a parse failure stops with an error (mapped to `InvalidKeyCharset` by line 187). -/
def convertHex : Bytes → Except CErr Bytes
  | a :: b :: rest =>
    if isCont a || startsCont rest then .error .panic
    else match parseHex2 a b with
      | none => .error .invalidKeyCharset
      | some x => match convertHex rest with
        | .error e => .error e
        | .ok xs => .ok (x :: xs)
  | _ => .ok []

/-- key.rs:178-188 `check_size_and_convert_in_byte_array` (`str::len` is the number of UTF-8 bytes). -/
def checkSizeAndConvert (hex : List Char) (size : Nat) : Except CErr Bytes :=
  if (utf8 hex).length ≠ size * 2 then .error (.invalidKeyLength (size * 2))
  else convertHex (utf8 hex)

/-- key.rs:115-123 -/
def Key.fromRc4String (hex : List Char) : Except CErr Key :=
  match checkSizeAndConvert hex 16 with
  | .error e => .error e
  | .ok b => if b.length < 16 then .error .panic else .ok (.rc4Key (b.take 16))
/-- key.rs:138-148 -/
def Key.fromAes128String (hex : List Char) : Except CErr Key :=
  match checkSizeAndConvert hex 16 with
  | .error e => .error e
  | .ok b => if b.length < 16 then .error .panic else .ok (.aes128Key (b.take 16))
/-- key.rs:166-176 -/
def Key.fromAes256String (hex : List Char) : Except CErr Key :=
  match checkSizeAndConvert hex 32 with
  | .error e => .error e
  | .ok b => if b.length < 32 then .error .panic else .ok (.aes256Key (b.take 32))

/-- kerbeiros/src/messages/asreq/timestamp_cipher.rs:135-146 `calculate_aes_salt` -/
def calculateAesSalt (M : CaseMap) (realm username : List Char) : Bytes :=
  let name := M.lower username
  if name.getLast? = some '$' then utf8 (M.upper realm ++ "host".toList ++ name.dropLast)
  else utf8 (M.upper realm ++ name)

end Verif.Crypto
