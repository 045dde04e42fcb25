import Verif.ClientModel
/-
Specification used by the dialogue theorems (C48 to C57): how an answer reads, which salt and key open a reply, what
the outcomes are. It mentions only message parsing and building, the ciphers and the key generation.
-/
namespace Verif.Kb
open Verif.Asn1
open Verif.Crypto (CErr Prims Key Cipher CaseMap newKerberosCipher)

/-- the answer is a KRB-ERROR (possibly followed by more data) -/
def ReadsError (g : Cfg) (raw : Bytes) (e : KrbError) : Prop := ∃ rest, MsgType.parse g .krbError raw = .ok (e, rest)

/-- the answer is an AS-REP (possibly followed by more data), not a KRB-ERROR -/
def ReadsReply (g : Cfg) (raw : Bytes) (r : AsRep) : Prop :=
  (∃ x, MsgType.parse g .krbError raw = .error x) ∧ ∃ rest, MsgType.parse g .asRep raw = .ok (r, rest)

/-- the answer is neither -/
def Unreadable (g : Cfg) (raw : Bytes) : Prop :=
  (∃ x, MsgType.parse g .krbError raw = .error x) ∧ ∃ x, MsgType.parse g .asRep raw = .error x

/-- no ETYPE-INFO2 (type 19) among these is malformed or has a salt -/
def NoSalt (g : Cfg) (l : List PaData) : Prop :=
  ∀ p ∈ l, p.padata_type = 19 → ∃ info rest, MsgType.parse g .etypeInfo2 p.padata_value = .ok (info, rest) ∧
    ∀ x : EtypeInfo2Entry, x ∈ (info : List EtypeInfo2Entry) → x.salt = none

/-- the first salt in any ETYPE-INFO2, whatever the type it is meant for; empty if there is none -/
def SaltIs (g : Cfg) (l : List PaData) (salt : Bytes) : Prop :=
  (∃ pre p post info rest before x after s, l = pre ++ p :: post ∧ NoSalt g pre ∧ p.padata_type = 19 ∧
    MsgType.parse g .etypeInfo2 p.padata_value = .ok (info, rest) ∧ info = before ++ x :: after ∧
    (∀ y : EtypeInfo2Entry, y ∈ before → y.salt = none) ∧ x.salt = some s ∧ salt = utf8 s) ∨
  (NoSalt g l ∧ salt = [])

/-- an ETYPE-INFO2 that does not parse comes before any salt -/
def SaltBroken (g : Cfg) (l : List PaData) : Prop :=
  ∃ pre p post x, l = pre ++ p :: post ∧ NoSalt g pre ∧ p.padata_type = 19 ∧
    MsgType.parse g .etypeInfo2 p.padata_value = .error x

/-- a cipher key, its type number and its bytes -/
def IsCipherKey (k : Key) (et : Int32) (kb : Bytes) : Prop :=
  (et = 23 ∧ k = .rc4Key kb) ∨ (et = 17 ∧ k = .aes128Key kb) ∨ (et = 18 ∧ k = .aes256Key kb)

/-- cipher and key bytes with which the user's key opens a reply: a cipher key with its own type, a password with the
type announced by the reply and the salt in the reply -/
def ReplyKey (P : Prims) (g : Cfg) (k : Key) (r : AsRep) (c : Cipher) (kb : Bytes) : Prop :=
  (∃ et, IsCipherKey k et kb ∧ newKerberosCipher et = .ok c) ∨
  (∃ pw salt, k = .secret pw ∧ newKerberosCipher r.enc_part.etype = .ok c ∧ SaltIs g (r.padata.getD []) salt ∧
    c.generateKeyFromString P pw salt = .ok kb)

/-- what a reply leads to -/
inductive ReplyOutcome (P : Prims) (g : Cfg) : Option Key → AsRep → Except KErr Credential → Prop
  /-- no key to open it with -/
  | noKey (r) : ReplyOutcome P g none r (.error (.parseAsRep r .noKeyProvided))
  /-- password: the announced type is not supported -/
  | unsupported (pw r) (h : r.enc_part.etype ≠ 18 ∧ r.enc_part.etype ≠ 17 ∧ r.enc_part.etype ≠ 23) :
      ReplyOutcome P g (some (.secret pw)) r (.error (.parseAsRep r (.crypto (.unsupported r.enc_part.etype))))
  /-- password: malformed ETYPE-INFO2 -/
  | crash (pw r) (h : r.enc_part.etype = 18 ∨ r.enc_part.etype = 17 ∨ r.enc_part.etype = 23)
      (hs : SaltBroken g (r.padata.getD [])) : ReplyOutcome P g (some (.secret pw)) r (.error .panic)
  /-- password: the ciphertext does not open -/
  | badPassword (pw r c kb e) (hk : ReplyKey P g (.secret pw) r c kb) (hd : c.decrypt P kb 3 r.enc_part.cipher = .error e) :
      ReplyOutcome P g (some (.secret pw)) r (.error (.parseAsRep r (.crypto e)))
  /-- cipher key: the ciphertext does not open, the announced type is the key's -/
  | badKey (k r c kb e) (hi : IsCipherKey k r.enc_part.etype kb) (hk : ReplyKey P g k r c kb)
      (hd : c.decrypt P kb 3 r.enc_part.cipher = .error e) : ReplyOutcome P g (some k) r (.error (.parseAsRep r (.crypto e)))
  /-- cipher key: the ciphertext does not open, the announced type is another one -/
  | wrongType (k r c et kb e) (hi : IsCipherKey k et kb) (hne : et ≠ r.enc_part.etype) (hk : ReplyKey P g k r c kb)
      (hd : c.decrypt P kb 3 r.enc_part.cipher = .error e) :
      ReplyOutcome P g (some k) r (.error (.parseAsRep r (.crypto (.decryption
        s!"Key etype = {et.toInt} doesn't match with message etype = {r.enc_part.etype.toInt}"))))
  /-- what was decrypted is no EncASRepPart -/
  | badPart (k r c kb plain x) (hk : ReplyKey P g k r c kb) (hd : c.decrypt P kb 3 r.enc_part.cipher = .ok plain)
      (hp : MsgType.parse g .encAsRepPart plain = .error x) : ReplyOutcome P g (some k) r (.error (.parseAsRep r .asn1))
  /-- the reply opens -/
  | opened (k r c kb plain rest) (part : EncAsRepPart) (hk : ReplyKey P g k r c kb)
      (hd : c.decrypt P kb 3 r.enc_part.cipher = .ok plain)
      (hp : MsgType.parse g .encAsRepPart plain = .ok (part, rest)) :
      ReplyOutcome P g (some k) r (.ok ⟨r.crealm, r.cname, r.ticket, part⟩)

/-- what one answer (or transport failure) leads to when it ends the dialogue -/
inductive LastAnswer (P : Prims) (g : Cfg) (key : Option Key) : Option Bytes → Except KErr Credential → Prop
  | noAnswer : LastAnswer P g key none (.error .network)
  | unreadable (a) (h : Unreadable g a) : LastAnswer P g key (some a) (.error .asn1)
  | refused (a err) (h : ReadsError g a err) : LastAnswer P g key (some a) (.error (.krbErrorResponse err))
  | reply (a r res) (h : ReadsReply g a r) (ho : ReplyOutcome P g key r res) : LastAnswer P g key (some a) res

/-- the KDC demands pre-authentication -/
def DemandsPreauth (g : Cfg) (answer : Option Bytes) : Prop :=
  ∃ a err, answer = some a ∧ ReadsError g a err ∧ err.error_code = 25

/-- the answer that decides a run: the first, or the second if the KDC demands pre-authentication and it can be sent -/
def Decides (P : Prims) (M : CaseMap) (g : Cfg) (net : Net) (e1 e2 : Env) (username : List Char) (key : Option Key)
    (o : Options) (a : Option Bytes) : Prop :=
  ∃ req1, buildAsReq P M g e1 username none o = .ok req1 ∧
    ((¬ (DemandsPreauth g (net [req1]) ∧ key ≠ none) ∧ a = net [req1]) ∨
      (DemandsPreauth g (net [req1]) ∧ ∃ k req2, key = some k ∧ buildAsReq P M g e2 username (some k) o = .ok req2 ∧
        a = net [req1, req2]))

/-- KDC side: the encrypted part of the reply `r` is `part`, encrypted (usage 3) for the user's key. A password is used
with a supported type and a salt that the reply names in its only ETYPE-INFO2, or with the empty salt if it has none. -/
def Issued (P : Prims) (g : Cfg) (k : Key) (r : AsRep) (part : EncAsRepPart) : Prop :=
  ∃ c kb conf, newKerberosCipher r.enc_part.etype = .ok c ∧ conf.length = c.preambleSize ∧
    c.encrypt P kb 3 (MsgType.build g .encAsRepPart part) conf = .ok r.enc_part.cipher ∧
    (IsCipherKey k r.enc_part.etype kb ∨
      ∃ pw, k = .secret pw ∧
        ((∃ pre post salt params, r.padata = some (pre ++ ⟨19, MsgType.build g .etypeInfo2
              [⟨r.enc_part.etype, some salt, params⟩]⟩ :: post) ∧
            (∀ p ∈ pre ++ post, p.padata_type ≠ 19) ∧ c.generateKeyFromString P pw (utf8 salt) = .ok kb ∧
            (MsgType.build g .etypeInfo2 [⟨r.enc_part.etype, some salt, params⟩]).length < 2^64) ∨
          ((∀ p ∈ r.padata.getD [], p.padata_type ≠ 19) ∧ c.generateKeyFromString P pw [] = .ok kb)))

end Verif.Kb
