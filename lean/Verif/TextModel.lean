import Verif.CCacheModel
import Verif.KeytabModel
import Verif.Utf8
/-
Texts in counted strings, of both file formats. The conversions are those of the standard library: `str::as_bytes`
(`utf8`) and `String::from_utf8` (`utf8Dec`).
-/
namespace Verif

/-- kerberos_ccache/src/counted_octet_string.rs:58-62 `From<&str> for CountedOctetString` -/
def CC.cosOfStr (s : List Char) : Bytes := utf8 s

/-- kerberos_ccache/src/counted_octet_string.rs:64-70 `TryInto<String> for CountedOctetString`; `none` is
`FromUtf8Error` -/
def CC.cosToStr (d : Bytes) : Option (List Char) := utf8Dec d

/-- kerberos_keytab/src/counted_octet_string.rs:60-64 `From<&str> for CountedOctetString` -/
def KT.cosOfStr (s : List Char) : Bytes := utf8 s

/-- kerberos_keytab/src/counted_octet_string.rs:66-72 `TryInto<String> for CountedOctetString` -/
def KT.cosToStr (d : Bytes) : Option (List Char) := utf8Dec d

end Verif
