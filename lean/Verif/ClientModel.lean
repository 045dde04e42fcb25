import Verif.WarehouseModel
import Verif.KeyModel
/-
kerbeiros/src/messages and kerbeiros/src/requesters: options, AS-REQ building, reading of replies, the TGT dialogue.

Clock readings, random numbers and the network are explicit arguments.
-/
namespace Verif.Kb
open Verif.Asn1
open Verif.Crypto (CErr Prims Key Cipher CaseMap newKerberosCipher isSupportedEtype calculateAesSalt)

/-- `?` on a result of kerberos_crypto (error.rs:94-98); a panic stays a panic (`diverge` is proved unreachable in the
crypto part) -/
def liftX {α} : Except CErr α → Except KErr α
  | .ok a => .ok a
  | .error .panic => .error .panic
  | .error e => .error (.crypto e)

/-! ### Options -/

/-- kerbeiros/src/messages/asreq/options.rs:12-18. The hash set is the list of its elements in iteration order (any
order, duplicates harmless). -/
structure Options where
  realm : List Char
  etypes : List Int32
  kdc_options : UInt32
  pac : Bool
deriving DecidableEq, Repr

/-- kerberos_constants/src/kdc_options.rs:4 -/
def FORWARDABLE : UInt32 := 0x40000000
/-- kdc_options.rs:10 -/
def RENEWABLE : UInt32 := 0x00800000
/-- kdc_options.rs:13 -/
def CANONICALIZE : UInt32 := 0x00010000
/-- kdc_options.rs:16 -/
def RENEWABLE_OK : UInt32 := 0x10

/-- options.rs:21-35 -/
def Options.new (realm : List Char) : Options :=
  ⟨realm, [18, 17, 23], FORWARDABLE ||| RENEWABLE ||| CANONICALIZE ||| RENEWABLE_OK, true⟩

/-- options.rs:55-69: the first unsupported type in iteration order is reported -/
def errorIfUnsupported : List Int32 → Except KErr Unit
  | [] => .ok ()
  | e :: es => if isSupportedEtype e = false then .error (.crypto (.unsupported e)) else errorIfUnsupported es

/-- options.rs:49-53: result and the options afterwards -/
def Options.setEtypes (o : Options) (etypes : List Int32) : Except KErr Unit × Options :=
  match errorIfUnsupported etypes with
  | .error e => (.error e, o)
  | .ok () => (.ok (), { o with etypes := etypes })

/-- options.rs:45-47 -/
def Options.setEtype (o : Options) (etype : Int32) : Except KErr Unit × Options := o.setEtypes [etype]

/-- options.rs:71-87 -/
def Options.sortedEtypes (o : Options) : List Int32 :=
  let v := []
  let v := if o.etypes.contains 18 then v ++ [18] else v
  let v := if o.etypes.contains 17 then v ++ [17] else v
  let v := if o.etypes.contains 23 then v ++ [23] else v
  v

/-! ### Requester objects -/

/-- kerbeiros/src/transporter/mod.rs:19-23 -/
inductive Protocol where
  | tcp
  | udp
deriving DecidableEq, Repr

/-- kerbeiros/src/requesters/as_requester.rs:52-56 and tgt_requester.rs:39-41: options, and the destination (octets of the
IP address and port) and protocol inside the transporter -/
structure Requester where
  options : Options
  kdc : Bytes
  destination : Bytes × UInt16
  protocol : Protocol
deriving DecidableEq, Repr

/-- transporter/mod.rs:16,26-40 `new_transporter` -/
def newTransporter (kdc : Bytes) (p : Protocol) : (Bytes × UInt16) × Protocol := ((kdc, 88), p)

/-- as_requester.rs:59-65, tgt_requester.rs:44-48 -/
def Requester.new (realm : List Char) (kdc : Bytes) : Requester :=
  let t := newTransporter kdc .tcp
  ⟨Options.new realm, kdc, t.1, t.2⟩

/-- a call that changes a requester -/
inductive Call where
  | setEtype (e : Int32)
  | setEtypes (l : List Int32)
  | setTransportProtocol (p : Protocol)
deriving DecidableEq, Repr

/-- as_requester.rs:84-106, tgt_requester.rs:62-83 -/
def Requester.call (r : Requester) : Call → Except KErr Unit × Requester
  | .setEtype e => let x := r.options.setEtype e; (x.1, { r with options := x.2 })
  | .setEtypes l => let x := r.options.setEtypes l; (x.1, { r with options := x.2 })
  | .setTransportProtocol p => let t := newTransporter r.kdc p; (.ok (), { r with destination := t.1, protocol := t.2 })

/-- a history of calls -/
def Requester.calls (r : Requester) : List Call → Requester
  | [] => r
  | c :: cs => (r.call c).2.calls cs

/-! ### AS-REQ -/

/-- what building a request takes from its environment: three clock readings, random bytes and a random number -/
structure Env where
  rtimeNow : DateTime
  tillNow : DateTime
  stampNow : DateTime
  nonce : UInt32
  confounder : Nat → Bytes

/-- last second a chrono `DateTime<Utc>` can hold (262142-12-31T23:59:59) -/
def chronoMax : Int := 8210266876799

/-- `Duration::weeks(20 * 52)` in seconds. messages/asreq/builder.rs:67,73. -/
def twentyYears : Int := 20 * 52 * 7 * 86400

/-- `checked_add_signed(Duration::weeks(20 * 52)).unwrap()`. messages/asreq/builder.rs:66-68,72-74. -/
def addTwentyYears (t : DateTime) : Except KErr DateTime :=
  if t.secs + twentyYears ≤ chronoMax then .ok ⟨t.secs + twentyYears, t.nanos⟩ else .error .panic

/-- kerbeiros/src/messages/asreq/timestamp_cipher.rs:46-49 -/
def rawTimestamp (g : Cfg) (e : Env) : Bytes := (paEncTsEncC g).enc (PaEncTsEnc.ofTime e.stampNow)

/-- timestamp_cipher.rs:101-115 -/
def encryptTimestampWithKey (P : Prims) (g : Cfg) (e : Env) (etype : Int32) (key : Bytes) : Except KErr (Int32 × Bytes) := do
  let cipher ← liftX (newKerberosCipher etype)
  let data ← liftX (cipher.encrypt P key 1 (rawTimestamp g e) (e.confounder cipher.preambleSize))
  return (etype, data)

/-- timestamp_cipher.rs:117-133 -/
def encryptTimestampWithPassword (P : Prims) (g : Cfg) (e : Env) (etype : Int32) (password : List Char) (salt : Bytes) :
    Except KErr (Int32 × Bytes) := do
  let cipher ← liftX (newKerberosCipher etype)
  let data ← liftX (cipher.generateKeyFromStringAndEncrypt P password salt 1 (rawTimestamp g e)
    (e.confounder cipher.preambleSize))
  return (etype, data)

/-- timestamp_cipher.rs:21-29,51-99 -/
def encryptedTimestamp (P : Prims) (M : CaseMap) (g : Cfg) (e : Env) (realm username : List Char) (key : Key)
    (etypes : List Int32) : Except KErr (Int32 × Bytes) :=
  match key with
  | .secret password =>
    if etypes.contains 18 then encryptTimestampWithPassword P g e 18 password (calculateAesSalt M realm username)
    else if etypes.contains 17 then encryptTimestampWithPassword P g e 17 password (calculateAesSalt M realm username)
    else if etypes.contains 23 then encryptTimestampWithPassword P g e 23 password []
    else .error .noProvidedSupportedCipherAlgorithm
  | .rc4Key k => encryptTimestampWithKey P g e 23 k
  | .aes128Key k => encryptTimestampWithKey P g e 17 k
  | .aes256Key k => encryptTimestampWithKey P g e 18 k

/-- kerbeiros/src/messages/asreq/builder.rs:48-108 -/
def createAsReq (P : Prims) (M : CaseMap) (g : Cfg) (e : Env) (username : List Char) (key : Option Key) (o : Options) :
    Except KErr AsReq := do
  let req := AsReq.default
  let body := { req.req_body with
    cname := some (PrincipalName.new 1 username)
    realm := o.realm
    kdc_options := o.kdc_options
    sname := some ⟨2, ["krbtgt".toList, o.realm]⟩ }
  let rtime ← addTwentyYears e.rtimeNow
  let till ← addTwentyYears e.tillNow
  let body := { body with rtime := some rtime, till := till, nonce := e.nonce }
  let padata := if o.pac then some [⟨128, (kerbPaPacRequestC g).enc ⟨true⟩⟩] else req.padata
  match key with
  | some k =>
    let (etype, data) ← encryptedTimestamp P M g e o.realm username k o.sortedEtypes
    let pa : PaData := ⟨2, (encryptedDataC g).enc (EncryptedData.new etype none data)⟩
    let padata := match padata with
      | some l => some (l ++ [pa])
      | none => some [pa]
    return { req with padata := padata, req_body := { body with etypes := body.etypes ++ [etype] } }
  | none =>
    return { req with padata := padata, req_body := { body with etypes := body.etypes ++ o.sortedEtypes } }

/-- builder.rs:38-46 -/
def buildAsReq (P : Prims) (M : CaseMap) (g : Cfg) (e : Env) (username : List Char) (key : Option Key) (o : Options) :
    Except KErr Bytes := do
  let req ← createAsReq P M g e username key o
  return (asReqC g).enc req

/-! ### Replies -/

/-- as_requester.rs:12-15 -/
inductive AsReqResponse where
  | krbError (e : KrbError)
  | asRep (r : AsRep)
deriving DecidableEq, Repr

/-- as_requester.rs:130-140 -/
def parseResponse (g : Cfg) (raw : Bytes) : Except KErr AsReqResponse :=
  match (krbErrorC g).dec g raw with
  | .ok (e, _) => .ok (.krbError e)
  | .error .panic => .error .panic
  | .error _ => do
    let r ← liftP ((asRepC g).dec g raw)
    return .asRep r

/-- kerbeiros/src/credentials/mappers/credential_krb_info.rs:91-95: first salt of the entries -/
def firstSalt : List EtypeInfo2Entry → Option (List Char)
  | [] => none
  | e :: es => match e.salt with
    | some s => some s
    | none => firstSalt es

/-- credential_krb_info.rs:86-98; `unwrap` panics on a malformed ETYPE-INFO2 -/
def saltLoop (g : Cfg) : List PaData → Except KErr Bytes
  | [] => .ok []
  | p :: ps =>
    if p.padata_type = 19 then
      match (seqOfC g (etypeInfo2EntryC g)).dec g p.padata_value with
      | .error _ => .error .panic
      | .ok (info, _) => match firstSalt info with
        | some s => .ok (utf8 s)
        | none => saltLoop g ps
    else saltLoop g ps

/-- credential_krb_info.rs:84-101 -/
def asRepSalt (g : Cfg) (r : AsRep) : Except KErr Bytes :=
  match r.padata with
  | some l => saltLoop g l
  | none => .ok []

/-- credential_krb_info.rs:71-82 -/
def decryptWithPassword (P : Prims) (g : Cfg) (password : List Char) (r : AsRep) : Except KErr Bytes := do
  let cipher ← liftX (newKerberosCipher r.enc_part.etype)
  let salt ← asRepSalt g r
  liftX (cipher.generateKeyFromStringAndDecrypt P password salt 3 r.enc_part.cipher)

/-- `key.etypes()[0]`. credentials/mappers/credential_krb_info.rs:109-131. -/
def firstEtype (k : Key) : Int32 := k.etypes.headD 0

/-- credential_krb_info.rs:127-137 -/
def tryDecryptWithKey (P : Prims) (k : Key) (r : AsRep) : Except KErr Bytes :=
  match newKerberosCipher (firstEtype k) with
  | .error _ => .error .panic
  | .ok cipher => liftX (cipher.decrypt P k.asBytes 3 r.enc_part.cipher)

/-- credential_krb_info.rs:103-125 -/
def decryptWithKey (P : Prims) (k : Key) (r : AsRep) : Except KErr Bytes :=
  match tryDecryptWithKey P k r with
  | .ok b => .ok b
  | .error .panic => .error .panic
  | .error e =>
    if firstEtype k ≠ r.enc_part.etype then
      .error (.crypto (.decryption
        s!"Key etype = {(firstEtype k).toInt} doesn't match with message etype = {r.enc_part.etype.toInt}"))
    else .error e

/-- credential_krb_info.rs:50-59 -/
def decryptRep (P : Prims) (g : Cfg) (k : Key) (r : AsRep) : Except KErr Bytes :=
  match k with
  | .secret password => decryptWithPassword P g password r
  | k => decryptWithKey P k r

/-- credential_krb_info.rs:46-69 -/
def kdcRepToCredential (P : Prims) (g : Cfg) (k : Key) (r : AsRep) : Except KErr Credential := do
  let plaintext ← decryptRep P g k r
  let part ← liftP ((encAsRepPartC g).dec g plaintext)
  return ⟨r.crealm, r.cname, r.ticket, part⟩

/-! ### The dialogue -/

/-- A KDC and the network to it: the answer to the last of the requests sent so far; `none` is any transport failure. -/
def Net := List Bytes → Option Bytes

/-- as_requester.rs:118-128, given the requests already sent; result and the requests sent afterwards.
`.unwrap()` of the building result makes every building error a panic. -/
def asRequest (P : Prims) (M : CaseMap) (g : Cfg) (net : Net) (e : Env) (username : List Char) (key : Option Key)
    (o : Options) (sent : List Bytes) : Except KErr AsReqResponse × List Bytes :=
  match buildAsReq P M g e username key o with
  | .error _ => (.error .panic, sent)
  | .ok raw =>
    match net (sent ++ [raw]) with
    | none => (.error .network, sent ++ [raw])
    | some answer => (parseResponse g answer, sent ++ [raw])

/-- kerbeiros/src/requesters/tgt_requester.rs:145-174 -/
def extractCredential (P : Prims) (g : Cfg) (key : Option Key) (r : AsRep) : Except KErr Credential :=
  match key with
  | none => .error (.parseAsRep r .noKeyProvided)
  | some k => match kdcRepToCredential P g k r with
    | .ok c => .ok c
    | .error .panic => .error .panic
    | .error e => .error (.parseAsRep r e)

/-- tgt_requester.rs:134-143 -/
def secondRequest (P : Prims) (M : CaseMap) (g : Cfg) (net : Net) (e : Env) (username : List Char) (key : Key)
    (o : Options) (sent : List Bytes) : Except KErr Credential × List Bytes :=
  match asRequest P M g net e username (some key) o sent with
  | (.error err, s) => (.error err, s)
  | (.ok (.krbError err), s) => (.error (.krbErrorResponse err), s)
  | (.ok (.asRep r), s) => (extractCredential P g (some key) r, s)

/-- tgt_requester.rs:98-132 -/
def tgtRequest (P : Prims) (M : CaseMap) (g : Cfg) (net : Net) (e1 e2 : Env) (username : List Char) (key : Option Key)
    (o : Options) : Except KErr Credential × List Bytes :=
  match asRequest P M g net e1 username none o [] with
  | (.error err, s) => (.error err, s)
  | (.ok (.krbError err), s) =>
    if err.error_code ≠ 25 then (.error (.krbErrorResponse err), s)
    else match key with
      | some k => secondRequest P M g net e2 username k o s
      | none => (.error (.krbErrorResponse err), s)
  | (.ok (.asRep r), s) => (extractCredential P g key r, s)

end Verif.Kb
