import Verif.Props.Dialogue
import Verif.Props.Transport
/-
Property theorems C62 to C65: what the client does with pre-authentication hints, key derivation parameters, silent
peers and errors other than "pre-authentication required". All four are properties the standard or a user would expect
and that the code does not have; the theorems describe what it does instead, for every KDC and network.
-/
set_option linter.unusedSimpArgs false
namespace Verif.Kb
open Verif.Asn1
open Verif.Crypto (CErr Prims Key Cipher CaseMap newKerberosCipher isSupportedEtype calculateAesSalt)

/-! ### C62: the hint in the KDC's error is not used -/

section
variable {P : Prims} (hP : P.Lawful) (M : CaseMap) {g : Cfg} (hg : g.Total)
  {e1 e2 : Env} (username : List Char) (o : Options)

include hP hg in
/-- C62. Whatever the KDC puts into its demand for pre-authentication (encryption types, salts, parameters in e-data),
the messages of the client are the same. -/
theorem c62_hint_ignored (key : Option Key) (hk : ∀ k, key = some k → k.WF) (he1 : EnvOk e1) (he2 : EnvOk e2)
    (hne : (∃ pw, key = some (.secret pw)) → ∃ t ∈ [18, 17, 23], t ∈ o.etypes) (net net' : Net)
    (hd : ∀ req, DemandsPreauth g (net [req])) (hd' : ∀ req, DemandsPreauth g (net' [req])) :
    (tgtRequest P M g net e1 e2 username key o).2 = (tgtRequest P M g net' e1 e2 username key o).2 := by
  obtain ⟨req1, h1, h2, h3⟩ := c48_dialogue hP M hg net username key hk o he1 (e2 := e2)
  obtain ⟨req1', h1', h2', h3'⟩ := c48_dialogue hP M hg net' username key hk o he1 (e2 := e2)
  rw [h1] at h1'
  injection h1' with h1'
  subst h1'
  cases key with
  | none => rw [(h2 (fun h => h.2 rfl)).1, (h2' (fun h => h.2 rfl)).1]
  | some k =>
    have hne' : (∃ pw, k = .secret pw) → ∃ t ∈ [18, 17, 23], t ∈ o.etypes := by
      rintro ⟨pw, rfl⟩; exact hne ⟨pw, rfl⟩
    obtain ⟨r, et, kb, c, data, hr, -⟩ := c47_with_key P hP M g e2 he2 username o k (hk k rfl) hne'
    have hb : buildAsReq P M g e2 username (some k) o = .ok (MsgType.build g .asReq r) := by
      unfold buildAsReq; rw [hr]; rfl
    rw [((h3 k rfl (hd _)).1 _ hb).1, ((h3' k rfl (hd' _)).1 _ hb).1]

include hP hg in
/-- C62. With a password the timestamp is encrypted with the first of 18, 17, 23 the user allows and the salt computed
from realm and user name (none for 23), whatever salt and types the KDC named. -/
theorem c62_local_choice (pw : List Char) (he1 : EnvOk e1) (he2 : EnvOk e2)
    (hne : ∃ t ∈ [18, 17, 23], t ∈ o.etypes) (net : Net) (hd : ∀ req, DemandsPreauth g (net [req])) :
    ∃ req1 r et kb c data, (tgtRequest P M g net e1 e2 username (some (.secret pw)) o).2 = [req1, MsgType.build g .asReq r] ∧
      [18, 17, 23].find? (fun t => decide (t ∈ o.etypes)) = some et ∧ newKerberosCipher et = .ok c ∧
      c.generateKeyFromString P pw (if et = 23 then [] else calculateAesSalt M o.realm username) = .ok kb ∧
      r.req_body.etypes = [et] ∧
      r.padata = some (pacRequest g o ++ [⟨2, MsgType.build g .encryptedData ⟨et, none, data⟩⟩]) ∧
      c.decrypt P kb 1 data = .ok (MsgType.build g .paEncTsEnc (PaEncTsEnc.ofTime e2.stampNow)) := by
  have hk : ∀ k, some (Key.secret pw) = some k → k.WF := by rintro k h; injection h with h; subst h; trivial
  obtain ⟨req1, h1, h2, h3⟩ := c48_dialogue hP M hg net username (some (.secret pw)) hk o he1 (e2 := e2)
  obtain ⟨r, et, kb, c, data, hr, -, hp, hc, h4, h5, h6⟩ :=
    c47_with_key P hP M g e2 he2 username o (.secret pw) trivial (fun _ => hne)
  have hb : buildAsReq P M g e2 username (some (.secret pw)) o = .ok (MsgType.build g .asReq r) := by
    unfold buildAsReq; rw [hr]; rfl
  obtain ⟨hf, c', hc', hkb⟩ := hp
  rw [hc] at hc'
  injection hc' with hc'
  subst hc'
  exact ⟨req1, r, et, kb, c, data, ((h3 _ rfl (hd _)).1 _ hb).1, hf, hc, hkb, h4, h5, h6⟩

/-! ### C63: key derivation parameters are not used -/

/-- C63. Two replies that differ only in the parameters of their (only) ETYPE-INFO2 entry, e.g. the number of PBKDF2
iterations, open to the same credentials: the parameters are never used. -/
theorem c63_params_ignored (key : Option Key) (r r' : AsRep) (pre post : List PaData) (t : Int32) (salt : Option (List Char))
    (params params' : Option Bytes)
    (hr : r.padata = some (pre ++ ⟨19, MsgType.build g .etypeInfo2 [⟨t, salt, params⟩]⟩ :: post))
    (hr' : r' = { r with padata := some (pre ++ ⟨19, MsgType.build g .etypeInfo2 [⟨t, salt, params'⟩]⟩ :: post) })
    (hpre : ∀ p ∈ pre, p.padata_type ≠ 19) (hpost : ∀ p ∈ post, p.padata_type ≠ 19)
    (hs : (MsgType.build g .etypeInfo2 [⟨t, salt, params⟩]).length < 2^64)
    (hs' : (MsgType.build g .etypeInfo2 [⟨t, salt, params'⟩]).length < 2^64) (cred : Credential) :
    extractCredential P g key r = .ok cred ↔ extractCredential P g key r' = .ok cred := by
  have h1 := c53_single g r pre post _ hr hpre hpost hs
  have h2 := c53_single g r' pre post ⟨t, salt, params'⟩ (by rw [hr']) hpre hpost hs'
  have he : asRepSalt g r' = asRepSalt g r := h2.trans h1.symm
  have hc : r'.crealm = r.crealm := by rw [hr']
  have hn : r'.cname = r.cname := by rw [hr']
  have ht : r'.ticket = r.ticket := by rw [hr']
  have hp : r'.enc_part = r.enc_part := by rw [hr']
  cases key with
  | none =>
    unfold extractCredential
    exact ⟨(fun h => nomatch h), (fun h => nomatch h)⟩
  | some k =>
    have hk : kdcRepToCredential P g k r' = kdcRepToCredential P g k r := by
      have hd : decryptRep P g k r' = decryptRep P g k r := by
        cases k with
        | secret pw =>
          show decryptWithPassword P g pw r' = decryptWithPassword P g pw r
          unfold decryptWithPassword
          rw [he, hp]
        | rc4Key _ => show decryptWithKey P _ r' = decryptWithKey P _ r; unfold decryptWithKey tryDecryptWithKey; rw [hp]
        | aes128Key _ => show decryptWithKey P _ r' = decryptWithKey P _ r; unfold decryptWithKey tryDecryptWithKey; rw [hp]
        | aes256Key _ => show decryptWithKey P _ r' = decryptWithKey P _ r; unfold decryptWithKey tryDecryptWithKey; rw [hp]
      unfold kdcRepToCredential
      rw [hd, hc, hn, ht]
    have one : ∀ r, extractCredential P g (some k) r = .ok cred ↔ kdcRepToCredential P g k r = .ok cred := by
      intro r
      unfold extractCredential
      dsimp only
      rcases kdcRepToCredential P g k r with x | c
      · cases x <;> (constructor <;> intro h <;> cases h)
      · exact Iff.rfl
    rw [one, one, hk]

/-! ### C65: every other error is final -/

include hP hg in
/-- C65. An error other than 25 in the first answer, and any error in the second, is handed to the caller as it is; no
further message is sent (in particular error 52, "response too big", over UDP is not followed by a request over TCP, and
a clock skew is not corrected). -/
theorem c65_final (key : Option Key) (hk : ∀ k, key = some k → k.WF) (he1 : EnvOk e1) (net : Net) :
    ∃ req1, buildAsReq P M g e1 username none o = .ok req1 ∧
      (∀ a err, net [req1] = some a → ReadsError g a err → err.error_code ≠ 25 →
        tgtRequest P M g net e1 e2 username key o = (.error (.krbErrorResponse err), [req1])) ∧
      (∀ k req2 a err, key = some k → DemandsPreauth g (net [req1]) → buildAsReq P M g e2 username key o = .ok req2 →
        net [req1, req2] = some a → ReadsError g a err →
        tgtRequest P M g net e1 e2 username key o = (.error (.krbErrorResponse err), [req1, req2])) := by
  obtain ⟨req1, h1, h2, h3⟩ := c48_dialogue hP M hg net username key hk o he1 (e2 := e2)
  refine ⟨req1, h1, ?_, ?_⟩
  · intro a err ha hr hne
    have hnd : ¬ (DemandsPreauth g (net [req1]) ∧ key ≠ none) := by
      rintro ⟨⟨a', err', h4, ⟨rest', h5⟩, h6⟩, -⟩
      obtain ⟨rest, h7⟩ := hr
      rw [ha] at h4
      injection h4 with h4
      subst h4
      rw [h7] at h5
      injection h5 with h5
      injection h5 with h5
      subst h5
      exact hne h6
    obtain ⟨h4, h5⟩ := h2 hnd
    rw [ha] at h5
    exact Prod.ext (c48_determined hP hg key hk h5 (.refused a err hr)) h4
  · intro k req2 a err hkey hd hb ha hr
    subst hkey
    obtain ⟨h4, h5⟩ := (h3 k rfl hd).1 req2 hb
    rw [ha] at h5
    exact Prod.ext (c48_determined hP hg (some k) hk h5 (.refused a err hr)) h4

end

/-! ### C64: a silent peer blocks the client -/

/-- the operating system stops taking bytes of the request without reporting an error -/
def Stalled (t : TcpRun) (request : Bytes) : Prop :=
  t.connect = true ∧ (writeAll t.writes (setSizeHeader request)).1 = .cut

/-- C64. Exactly when an exchange does not return: over TCP, when the peer stops taking the request, or stops sending
before the announced answer is complete but keeps the connection; over UDP, when the request went out and no datagram
comes (a lost datagram is enough). -/
theorem c64_blocks_iff (request : Bytes) :
    (∀ t, (Run.tcp t).exchange request = none ↔
      Stalled t request ∨ (RequestOut t request ∧ ¬ HasAnswer (delivered t.reads) ∧ Silent t.reads)) ∧
    (∀ u, (Run.udp u).exchange request = none ↔
      u.bind = true ∧ u.connect = true ∧ u.send = true ∧ u.datagram = none ∧ u.peek 0 = true) := by
  refine ⟨fun t => ?_, fun u => ?_⟩
  · show (tcpExchange t request).1 = none ↔ _
    by_cases ho : RequestOut t request
    · obtain ⟨h1, h2, h3⟩ := c55_answer t request ho
      refine ⟨fun h => .inr ⟨ho, ?_, ?_⟩, ?_⟩
      · intro ha; rw [h1 ha] at h; cases h
      · by_cases ha : HasAnswer (delivered t.reads)
        · rw [h1 ha] at h; cases h
        · by_cases hs : Silent t.reads
          · exact hs
          · rw [h2 ha hs] at h; cases h
      · rintro (⟨-, hs⟩ | ⟨-, ha, hs⟩)
        · rw [ho.2] at hs; cases hs
        · exact h3 ha hs
    · have hn : (tcpExchange t request).1 = none ↔ Stalled t request := by
        unfold tcpExchange Stalled
        cases hc : t.connect with
        | false =>
          rw [if_pos rfl]
          exact ⟨(fun h => nomatch h), (fun h => nomatch h.1)⟩
        | true =>
          rw [if_neg (fun h => nomatch h)]
          have hd : (writeAll t.writes (setSizeHeader request)).1 ≠ .done := fun h => ho ⟨hc, h⟩
          revert hd
          rcases writeAll t.writes (setSizeHeader request) with ⟨x, w⟩
          intro hd
          cases x with
          | done => exact absurd rfl hd
          | failed => exact ⟨(fun h => nomatch h), fun h => (nomatch h.2)⟩
          | cut => exact ⟨fun _ => ⟨rfl, rfl⟩, fun _ => rfl⟩
      rw [hn]
      exact ⟨.inl, fun h => h.elim id (fun h => absurd h.1 ho)⟩
  · show (udpExchange u request).1 = none ↔ _
    unfold udpExchange
    cases hb : u.bind with
    | false => rw [if_pos rfl]; exact ⟨(fun h => nomatch h), fun h => (nomatch h.1)⟩
    | true =>
      rw [if_neg (fun h => nomatch h)]
      cases hc : u.connect with
      | false => rw [if_pos rfl]; exact ⟨(fun h => nomatch h), fun h => (nomatch h.2.1)⟩
      | true =>
        rw [if_neg (fun h => nomatch h)]
        cases hs : u.send with
        | false => rw [if_pos rfl]; exact ⟨(fun h => nomatch h), fun h => (nomatch h.2.2.1)⟩
        | true =>
          rw [if_neg (fun h => nomatch h)]
          cases hd : u.datagram with
          | none =>
            cases hp : u.peek 0 with
            | false => exact ⟨(fun h => nomatch h), fun h => (nomatch h.2.2.2.2)⟩
            | true => exact ⟨fun _ => ⟨rfl, rfl, rfl, rfl, rfl⟩, fun _ => rfl⟩
          | some d =>
            simp only
            refine ⟨?_, fun h => (nomatch h.2.2.2.1)⟩
            cases (peekLoop u.peek d.length 0 2048 (by omega)).1 with
            | none => exact fun h => (nomatch h)
            | some n => cases u.recv <;> exact fun h => (nomatch h)

/-- C64 at work: the peer announces an answer of five bytes, sends four and goes quiet -/
example : (Run.tcp ⟨true, [.accept 100], [.data [0, 0, 0, 5, 1, 2, 3, 4]]⟩).exchange [1] = none := by decide +kernel

section
open Verif.Crypto (toyPrims toyPrims_lawful asciiCase)

/-- the KDC names type 17 and a salt of its own in the error -/
def exHinted : KrbError := { exPreauth with e_data := some (MsgType.build strictCfg .methodData
  [⟨19, MsgType.build strictCfg .etypeInfo2 [⟨17, some "OTHERsalt".toList, none⟩]⟩]) }

/-- C62 at work: the KDC offers only AES-128 with its salt, the client answers with the same message as without a hint -/
example :
    (tgtRequest toyPrims asciiCase strictCfg (fun _ => some (MsgType.build strictCfg .krbError exHinted)) exEnv exEnv
      "mickey".toList (some exCipherKey) exOptions).2 =
    (tgtRequest toyPrims asciiCase strictCfg (exNet exCipherKey) exEnv exEnv "mickey".toList (some exCipherKey) exOptions).2 := by
  decide +kernel

/-- C65 at work: error 52 -/
example : (tgtRequest toyPrims asciiCase strictCfg (fun _ => some (MsgType.build strictCfg .krbError
      { exPreauth with error_code := 52 })) exEnv exEnv "mickey".toList (some exCipherKey) exOptions).1 =
    .error (.krbErrorResponse { exPreauth with error_code := 52 }) := by
  decide +kernel

/-- C63 at work: 4096 and 100000 iterations -/
example : (extractCredential toyPrims strictCfg (some exPassword) { exRep exPassword with
      padata := some [⟨19, MsgType.build strictCfg .etypeInfo2 [⟨23, some exSalt, some [0, 0, 16, 0]⟩]⟩] }) =
    (extractCredential toyPrims strictCfg (some exPassword) { exRep exPassword with
      padata := some [⟨19, MsgType.build strictCfg .etypeInfo2 [⟨23, some exSalt, some [0, 1, 0x86, 0xa0]⟩]⟩] }) := by
  decide +kernel

end

end Verif.Kb
