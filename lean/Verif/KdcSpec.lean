import Verif.RfcSpec
import Verif.StdHash
import Verif.StdAes
import Verif.Asn1Spec
/-
Specification of a KDC's authentication service, written after RFC 4120 sections 3.1, 5.2.7 and 5.4 with the encryption of
RFC 3962 and RFC 4757. It does not mention the client program: messages are data, their octets are those of `Asn1Spec` in
the form of the RFC, the cryptography is that of `RfcSpec` with the algorithms of the standards.
-/
namespace Verif.Kdc
open Verif.Asn1

/-! ### Encryption -/

/-- AES of FIPS 197 -/
def aes128 (key : Bytes) : Bytes → Bytes := Std.encBlock (Std.roundKeys 4 10 key)
def aes256 (key : Bytes) : Bytes → Bytes := Std.encBlock (Std.roundKeys 8 14 key)

/-- `ct` is an encryption of `plain` with this type, key and usage (with some confounder) -/
def Encrypts (etype : Int32) (key : Bytes) (usage : Int32) (plain ct : Bytes) : Prop :=
  (etype = 17 ∧ key.length = 16 ∧ ∃ conf, conf.length = 16 ∧
    Rfc.AesCiphertext aes128 (Std.hmac Std.sha1) 16 key usage conf plain ct) ∨
  (etype = 18 ∧ key.length = 32 ∧ ∃ conf, conf.length = 16 ∧
    Rfc.AesCiphertext aes256 (Std.hmac Std.sha1) 32 key usage conf plain ct) ∨
  (etype = 23 ∧ key.length = 16 ∧ ∃ conf, conf.length = 8 ∧
    ct = Rfc.rc4Ciphertext (Std.hmac Std.md5) Std.rc4 key (Rfc.rc4MessageType usage) conf plain)

/-- RFC 3962 section 4, RFC 4757 section 2: the key of a password -/
def StringToKey (etype : Int32) (password salt : List Char) (key : Bytes) : Prop :=
  (etype = 17 ∧ key = Rfc.DK (aes128 (Std.pbkdf2HmacSha1 (utf8 password) (utf8 salt) 4096 16)) 16 (utf8 "kerberos".toList)) ∨
  (etype = 18 ∧ key = Rfc.DK (aes256 (Std.pbkdf2HmacSha1 (utf8 password) (utf8 salt) 4096 32)) 32 (utf8 "kerberos".toList)) ∨
  (etype = 23 ∧ ∃ u, Rfc.Utf16LE password u ∧ key = Std.md4 u)

/-! ### Database -/

/-- a key the KDC shares with a user, and the salt it was made with -/
structure LongTermKey where
  etype : Int32
  salt : List Char
  key : Bytes
deriving DecidableEq, Repr

/-- a supported type and a key of its size -/
def LongTermKey.Ok (k : LongTermKey) : Prop :=
  (k.etype = 17 ∧ k.key.length = 16) ∨ (k.etype = 18 ∧ k.key.length = 32) ∨ (k.etype = 23 ∧ k.key.length = 16)

/-- a user -/
structure Account where
  /-- the name in replies -/
  name : PrincipalName
  keys : List LongTermKey
  needsPreauth : Bool

structure Kdc where
  realm : List Char
  /-- the user with this name -/
  account : PrincipalName → Option Account

/-- the ticket granting service -/
def Kdc.service (K : Kdc) : PrincipalName := ⟨2, ["krbtgt".toList, K.realm]⟩

/-! ### Answers -/

/-- RFC 4120 3.1.3: the key for the reply is that of the first requested type for which the user has one -/
def chosen (etypes : List Int32) (a : Account) : Option LongTermKey :=
  etypes.findSome? fun t => a.keys.find? fun k => k.etype = t

/-- RFC 4120 5.2.7.2: a timestamp encrypted with a key of the user (usage 1), at most five minutes off the KDC's clock -/
def Preauthenticated (a : Account) (now : Int) (r : AsReq) : Prop :=
  ∃ p ∈ r.padata.getD [], p.padata_type = 2 ∧ ∃ (d : EncryptedData) (k : LongTermKey) (ts : PaEncTsEnc),
    p.padata_value = (EncryptedData.der rfc d).bytes ∧ k ∈ a.keys ∧ k.etype = d.etype ∧
    Encrypts k.etype k.key 1 (PaEncTsEnc.der rfc ts).bytes d.cipher ∧
    (∀ u, ts.pausec = some u → 0 ≤ u.toInt ∧ u.toInt ≤ 999999) ∧ YearOk ts.patimestamp ∧
    ts.patimestamp.secs - now ≤ 300 ∧ now - ts.patimestamp.secs ≤ 300

/-- the request offers a timestamp -/
def OffersTimestamp (r : AsReq) : Prop := ∃ p ∈ r.padata.getD [], p.padata_type = 2

/-- RFC 4120 3.1.3 and 5.4.2: this reply with this client part answers the request -/
structure Issues (K : Kdc) (a : Account) (r : AsReq) (rep : AsRep) (part : EncAsRepPart) (k : LongTermKey) : Prop where
  version : rep.pvno = 5 ∧ rep.msg_type = 11
  client : rep.crealm = K.realm ∧ rep.cname = a.name
  server : rep.ticket.realm = K.realm ∧ rep.ticket.sname = K.service ∧ part.srealm = K.realm ∧ part.sname = K.service
  nonce : part.nonce = r.req_body.nonce
  key : chosen r.req_body.etypes a = some k
  etype : rep.enc_part.etype = k.etype
  cipher : Encrypts k.etype k.key 3 (EncAsRepPart.der rfc part).bytes rep.enc_part.cipher
  /-- RFC 4120 5.2.7.5: ETYPE-INFO2 in a reply has one entry, for the type used; it is needed for types with a salt -/
  info : ∀ p ∈ rep.padata.getD [], p.padata_type = 19 → ∃ salt params,
    p.padata_value = (dSeqOf EtypeInfo2Entry.der [⟨k.etype, salt, params⟩]).bytes ∧ (k.etype ≠ 23 → salt = some k.salt)
  hint : k.etype ≠ 23 → ∃ p ∈ rep.padata.getD [], p.padata_type = 19
  /-- times in whole seconds and four-digit years (RFC 4120 5.2.3) -/
  times : EncAsRepPart.WF part
  /-- key version numbers below 2^31 -/
  kvno : AsRep.Plain rep

/-- the octets of such a reply -/
def IsReply (K : Kdc) (a : Account) (r : AsReq) (answer : Bytes) : Prop :=
  ∃ rep part k, Issues K a r rep part k ∧ answer = (AsRep.der rfc rep).bytes

/-- the octets of an error 25 (pre-authentication required), with any hints -/
def IsPreauthError (answer : Bytes) : Prop :=
  ∃ e : KrbError, e.error_code = 25 ∧ KrbError.WF e ∧ answer = (KrbError.der rfc e).bytes

/-- RFC 4120 3.1.2, 3.1.3: the KDC answers a ticket granting request of a user it knows, for a type it has a key of: with a
reply if pre-authentication is good or not needed and not tried; with a demand for it if it is needed and not tried. For
other requests nothing is said. -/
def Answers (K : Kdc) (now : Int) (request answer : Bytes) : Prop :=
  ∀ (r : AsReq) (n : PrincipalName) (a : Account) (k : LongTermKey), request = (AsReq.der rfc r).bytes → r.pvno = 5 →
    r.msg_type = 10 → r.req_body.realm = K.realm → r.req_body.sname = some K.service → r.req_body.cname = some n →
    K.account n = some a → chosen r.req_body.etypes a = some k → request.length < 2^32 →
    (¬ OffersTimestamp r → if a.needsPreauth then IsPreauthError answer else IsReply K a r answer) ∧
    (Preauthenticated a now r → IsReply K a r answer)

/-- the octets of a refusal: error 24 (pre-authentication failed) or 37 (clock skew) -/
def IsRefusal (answer : Bytes) : Prop :=
  ∃ e : KrbError, (e.error_code = 24 ∨ e.error_code = 37) ∧ KrbError.WF e ∧ answer = (KrbError.der rfc e).bytes

/-- RFC 4120 3.1.3: the KDC refuses such a request when it offers a timestamp that does not pre-authenticate the user -/
def Refuses (K : Kdc) (now : Int) (request answer : Bytes) : Prop :=
  ∀ (r : AsReq) (n : PrincipalName) (a : Account) (k : LongTermKey), request = (AsReq.der rfc r).bytes → r.pvno = 5 →
    r.msg_type = 10 → r.req_body.realm = K.realm → r.req_body.sname = some K.service → r.req_body.cname = some n →
    K.account n = some a → chosen r.req_body.etypes a = some k → request.length < 2^32 →
    OffersTimestamp r → ¬ Preauthenticated a now r → IsRefusal answer

end Verif.Kdc
