import Verif.Asn1Count
import Verif.ClientModel
/-
Work done to read the answers while a ticket is asked for: the functions of `ClientModel` that parse a message once more, with the
steps of the counting parsers (`Asn1Count`). Building requests and the cryptographic operations are not counted here (C112).
-/
namespace Verif.Kb
open Verif.Asn1
open Verif.Crypto (Prims Key CaseMap newKerberosCipher)

/-- as_requester.rs:130-140, as `parseResponse` -/
def countResponse (g : Cfg) (raw : Bytes) : Except KErr AsReqResponse × Nat :=
  match (countKrbError g).dec g raw with
  | (.ok (e, _), c) => (.ok (.krbError e), c)
  | (.error .panic, c) => (.error .panic, c)
  | (.error _, c) => match (countAsRep g).dec g raw with
    | (x, c') => (do let r ← liftP x; return .asRep r, c + c')

/-- credentials/mappers/credential_krb_info.rs:86-98, as `saltLoop`: a step for each element of the padata, and for each entry of an
ETYPE-INFO2 -/
def countSaltLoop (g : Cfg) : List PaData → Except KErr Bytes × Nat
  | [] => (.ok [], 0)
  | p :: ps =>
    if p.padata_type = 19 then
      match (countSeqOf g (countEtypeInfo2Entry g)).dec g p.padata_value with
      | (.error _, c) => (.error .panic, 1 + c)
      | (.ok (info, _), c) => match firstSalt info with
        | some s => (.ok (utf8 s), 1 + c + info.length)
        | none => match countSaltLoop g ps with
          | (x, c') => (x, 1 + c + info.length + c')
    else match countSaltLoop g ps with
      | (x, c') => (x, 1 + c')

/-- credential_krb_info.rs:84-101, as `asRepSalt` -/
def countSalt (g : Cfg) (r : AsRep) : Except KErr Bytes × Nat :=
  match r.padata with
  | some l => countSaltLoop g l
  | none => (.ok [], 0)

/-- credential_krb_info.rs:71-82, as `decryptWithPassword` -/
def countDecryptWithPassword (P : Prims) (g : Cfg) (password : List Char) (r : AsRep) : Except KErr Bytes × Nat :=
  match liftX (newKerberosCipher r.enc_part.etype) with
  | .error e => (.error e, 0)
  | .ok cipher => match countSalt g r with
    | (.error e, c) => (.error e, c)
    | (.ok salt, c) => (liftX (cipher.generateKeyFromStringAndDecrypt P password salt 3 r.enc_part.cipher), c)

/-- credential_krb_info.rs:50-59, as `decryptRep`; with a key nothing is read -/
def countDecryptRep (P : Prims) (g : Cfg) (k : Key) (r : AsRep) : Except KErr Bytes × Nat :=
  match k with
  | .secret password => countDecryptWithPassword P g password r
  | k => (decryptWithKey P k r, 0)

/-- credential_krb_info.rs:46-69, as `kdcRepToCredential` -/
def countKdcRep (P : Prims) (g : Cfg) (k : Key) (r : AsRep) : Except KErr Credential × Nat :=
  match countDecryptRep P g k r with
  | (.error e, c) => (.error e, c)
  | (.ok plaintext, c) => match (countEncAsRepPart g).dec g plaintext with
    | (x, c') => (do let part ← liftP x; return ⟨r.crealm, r.cname, r.ticket, part⟩, c + c')

/-- requesters/as_requester.rs:118-128, as `asRequest` -/
def countAsRequest (P : Prims) (M : CaseMap) (g : Cfg) (net : Net) (e : Env) (username : List Char) (key : Option Key)
    (o : Options) (sent : List Bytes) : (Except KErr AsReqResponse × Nat) × List Bytes :=
  match buildAsReq P M g e username key o with
  | .error _ => ((.error .panic, 0), sent)
  | .ok raw =>
    match net (sent ++ [raw]) with
    | none => ((.error .network, 0), sent ++ [raw])
    | some answer => (countResponse g answer, sent ++ [raw])

/-- requesters/tgt_requester.rs:145-174, as `extractCredential` -/
def countExtract (P : Prims) (g : Cfg) (key : Option Key) (r : AsRep) : Except KErr Credential × Nat :=
  match key with
  | none => (.error (.parseAsRep r .noKeyProvided), 0)
  | some k => match countKdcRep P g k r with
    | (.ok c, n) => (.ok c, n)
    | (.error .panic, n) => (.error .panic, n)
    | (.error e, n) => (.error (.parseAsRep r e), n)

/-- tgt_requester.rs:134-143, as `secondRequest` -/
def countSecondRequest (P : Prims) (M : CaseMap) (g : Cfg) (net : Net) (e : Env) (username : List Char) (key : Key)
    (o : Options) (sent : List Bytes) : (Except KErr Credential × Nat) × List Bytes :=
  match countAsRequest P M g net e username (some key) o sent with
  | ((.error err, n), s) => ((.error err, n), s)
  | ((.ok (.krbError err), n), s) => ((.error (.krbErrorResponse err), n), s)
  | ((.ok (.asRep r), n), s) => (((countExtract P g (some key) r).1, n + (countExtract P g (some key) r).2), s)

/-- tgt_requester.rs:98-132, as `tgtRequest` -/
def countTgtRequest (P : Prims) (M : CaseMap) (g : Cfg) (net : Net) (e1 e2 : Env) (username : List Char) (key : Option Key)
    (o : Options) : (Except KErr Credential × Nat) × List Bytes :=
  match countAsRequest P M g net e1 username none o [] with
  | ((.error err, n), s) => ((.error err, n), s)
  | ((.ok (.krbError err), n), s) =>
    if err.error_code ≠ 25 then ((.error (.krbErrorResponse err), n), s)
    else match key with
      | some k =>
        let x := countSecondRequest P M g net e2 username k o s
        ((x.1.1, n + x.1.2), x.2)
      | none => ((.error (.krbErrorResponse err), n), s)
  | ((.ok (.asRep r), n), s) => (((countExtract P g key r).1, n + (countExtract P g key r).2), s)

end Verif.Kb
