import Verif.ClientModel
/-
What the errors of kerberos_crypto and kerbeiros say (`Display`), and what a key says in debug output.
-/
namespace Verif.Crypto

/-- `Display` of an `i32` -/
def decimal (n : Int32) : List Char := (toString n.toInt).toList

/-- kerberos_crypto/src/error.rs:8-27, `Display` by `thiserror`. A panic and the loop that does not end are no errors. -/
def CErr.text : CErr → Option (List Char)
  | .decryption m => some ("DecryptionError: ".toList ++ m.toList)
  | .unsupported e => some ("UnsupportedAlgorithm: ".toList ++ decimal e)
  | .invalidKeyCharset => some "Invalid key: Only hexadecimal characters are allowed [1234567890abcdefABCDEF]".toList
  | .invalidKeyLength n => some ("Invalid key: Length should be ".toList ++ (toString n).toList)
  | .panic => none
  | .diverge => none

/-- key.rs:13-31, derived `Debug`: the variant's name, then in parentheses the password in quotation marks or the bytes of the
array in decimal. `esc` is std's escaping of a character in a quoted string. -/
def Key.debug (esc : Char → List Char) : Key → List Char
  | .secret s => "Secret(\"".toList ++ s.flatMap esc ++ "\")".toList
  | .rc4Key k => "RC4Key([".toList ++ listDebug k ++ "])".toList
  | .aes128Key k => "AES128Key([".toList ++ listDebug k ++ "])".toList
  | .aes256Key k => "AES256Key([".toList ++ listDebug k ++ "])".toList
where
  /-- numbers with a comma and a space between them -/
  listDebug : Bytes → List Char
    | [] => []
    | [b] => (toString b.toNat).toList
    | b :: bs => (toString b.toNat).toList ++ [',', ' '] ++ listDebug bs

end Verif.Crypto

namespace Verif.Kb
open Verif.Asn1

/-- the texts of values of other crates: an error of the ASN.1 crate (one text stands for all of them), a KRB-ERROR in debug
form -/
structure Outside where
  asn1 : List Char
  krbError : KrbError → List Char

/-- kerbeiros/src/error.rs:12-92, `Display` by `thiserror` -/
def KErr.text (A : Outside) : KErr → Option (List Char)
  | .asn1 => some ("Asn1 error: ".toList ++ A.asn1)
  | .crypto e => e.text.map ("Cryptography error: ".toList ++ ·)
  | .invalidUtf8 => some "Invalid utf-8 string".toList
  | .io => some "Error in i/o operation".toList
  | .krbErrorResponse e => some ("Received ".toList ++ A.krbError e)
  | .nameResolution realm => some ("Error resolving name: ".toList ++ realm)
  | .network => some "Network error".toList
  | .noKeyProvided => some "No key was provided".toList
  | .noProvidedSupportedCipherAlgorithm => some "None cipher algorithm supported was specified".toList
  | .parseAsRep _ e => (e.text A).map ("Error parsing AsRep: ".toList ++ ·)
  | .noPrincipalName => some "No principal name found".toList
  | .noAddress => some "No address found".toList
  | .binaryParse => some "Error parsing binary data".toList
  | .panic => none

end Verif.Kb
