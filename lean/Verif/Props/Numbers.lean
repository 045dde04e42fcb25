import Verif.ConstantsModel
import Verif.Props.Kinds
/-
C84: protocol numbers are those the standards assign.
-/
namespace Verif.Const
open Verif.Asn1

/-- a name of a standard as a Rust constant: capitals, with `_` for hyphens and spaces -/
def spelled (s : String) : String :=
  String.ofList (s.toList.map fun c => if c = '-' ∨ c = ' ' then '_' else if 'a' ≤ c ∧ c ≤ 'z' then Char.ofNat (c.toNat - 32) else c)

/-- RFC 3961 section 8 and RFC 3962 section 7, RFC 4757 section 6: encryption types -/
def stdEncryptionTypes : List (String × Int) := [
  ("no encryption", 0), ("des-cbc-crc", 1), ("des-cbc-md4", 2), ("des-cbc-md5", 3), ("des3-cbc-md5", 5), ("des3-cbc-sha1", 7),
  ("des3-cbc-sha1-kd", 16), ("aes128-cts-hmac-sha1-96", 17), ("aes256-cts-hmac-sha1-96", 18), ("rc4-hmac", 23),
  ("rc4-hmac-exp", 24), ("rc4-hmac-old", -133), ("rc4-hmac-old-exp", -135)]

/-- RFC 3961 section 8, RFC 3962 section 7, RFC 4757 section 4: checksum types -/
def stdChecksumTypes : List (String × Int) := [
  ("crc32", 1), ("rsa-md4", 2), ("rsa-md4-des", 3), ("des-mac", 4), ("des-mac-k", 5), ("rsa-md4-des-k", 6), ("rsa-md5", 7),
  ("rsa-md5-des", 8), ("rsa-md5-des3", 9), ("hmac-sha1-des3-kd", 12), ("hmac-sha1-des3", 13), ("hmac-sha1-96-aes128", 15),
  ("hmac-sha1-96-aes256", 16), ("hmac-md5", -138)]

/-- RFC 4120 section 7.5.3: address types -/
def stdAddressTypes : List (String × Int) := [
  ("IPv4", 2), ("Directional", 3), ("ChaosNet", 5), ("XNS", 6), ("ISO", 7), ("DECNET Phase IV", 12), ("AppleTalk DDP", 16),
  ("NetBios", 20), ("IPv6", 24)]

/-- RFC 4120 section 7.5.4 (and MS-KILE 3.3.5 for AD-ETYPE-NEGOTIATION, RFC 4537): authorization data types -/
def stdAdTypes : List (String × Int) := [
  ("AD-IF-RELEVANT", 1), ("AD-INTENDED-FOR-SERVER", 2), ("AD-INTENDED-FOR-APPLICATION-CLASS", 3), ("AD-KDCIssued", 4),
  ("AD-AND-OR", 5), ("AD-MANDATORY-TICKET-EXTENSIONS", 6), ("AD-IN-TICKET-EXTENSIONS", 7), ("AD-MANDATORY-FOR-KDC", 8),
  ("OSF-DCE", 64), ("SESAME", 65), ("AD-OSF-DCE-PKI-CERTID", 66), ("AD-WIN2K-PAC", 128), ("AD-ETYPE-NEGOTIATION", 129)]

/-- RFC 4120 section 7.5.2, MS-KILE 2.2 and 3.1.5.1, MS-SFU 2.2.1, RFC 6113: pre-authentication and typed data types -/
def stdPaDataTypes : List (String × Int) := [
  ("PA-TGS-REQ", 1), ("PA-ENC-TIMESTAMP", 2), ("PA-PW-SALT", 3), ("PA-ENC-UNIX-TIME", 5), ("PA-SANDIA-SECUREID", 6),
  ("PA-SESAME", 7), ("PA-OSF-DCE", 8), ("PA-CYBERSAFE-SECUREID", 9), ("PA-AFS3-SALT", 10), ("PA-ETYPE-INFO", 11),
  ("PA-SAM-CHALLENGE", 12), ("PA-SAM-RESPONSE", 13), ("PA-PK-AS-REQ_OLD", 14), ("PA-PK-AS-REP_OLD", 15),
  ("PA-PK-AS-REQ", 16), ("PA-PK-AS-REP", 17), ("PA-ETYPE-INFO2", 19), ("PA-USE-SPECIFIED-KVNO", 20),
  ("PA-SVR-REFERRAL-INFO", 20), ("PA-SAM-REDIRECT", 21), ("PA-GET-FROM-TYPED-DATA", 22), ("TD-PADATA", 22),
  ("PA-SAM-ETYPE-INFO", 23), ("PA-ALT-PRINC", 24), ("PA-SAM-CHALLENGE2", 30), ("PA-SAM-RESPONSE2", 31),
  ("PA-EXTRA-TGT", 41), ("TD-PKINIT-CMS-CERTIFICATES", 101), ("TD-KRB-PRINCIPAL", 102), ("TD-KRB-REALM", 103),
  ("TD-TRUSTED-CERTIFIERS", 104), ("TD-CERTIFICATE-INDEX", 105), ("TD-APP-DEFINED-ERROR", 106), ("TD-REQ-NONCE", 107),
  ("TD-REQ-SEQ", 108), ("PA-PAC-REQUEST", 128), ("PA-FOR-USER", 129), ("PA-FX-COOKIE", 133), ("PA-FX-FAST", 136),
  ("PA-FX-ERROR", 137), ("PA-ENCRYPTED-CHALLENGE", 138), ("KERB-KEY-LIST-REQ", 161), ("KERB-KEY-LIST-REP", 162),
  ("PA-SUPPORTED-ENCTYPES", 165), ("PA-PAC-OPTIONS", 167)]

/-- RFC 4120 section 6.2 (and 7.5.8), MS-KILE (negative ones): name types -/
def stdNameTypes : List (String × Int) := [
  ("NT-UNKNOWN", 0), ("NT-PRINCIPAL", 1), ("NT-SRV-INST", 2), ("NT-SRV-HST", 3), ("NT-SRV-XHST", 4), ("NT-UID", 5),
  ("NT-X500-PRINCIPAL", 6), ("NT-SMTP-NAME", 7), ("NT-ENTERPRISE", 10), ("NT-MS-PRINCIPAL", -128),
  ("NT-MS-PRINCIPAL-AND-ID", -129), ("NT-ENT-PRINCIPAL-AND-ID", -130)]

/-- a constant of this name has the number some standard gives to that name -/
def Assigned (std : List (String × Int)) (p : String × Int32) : Prop := ∃ q ∈ std, spelled q.1 = p.1 ∧ q.2 = p.2.toInt

instance (std p) : Decidable (Assigned std p) := by unfold Assigned; infer_instance

/-- C84. Every constant for an encryption, address, pre-authentication or name type has the number of the standard; so have
all for checksum types but one, and all for authorization data (the PAC's is spelled AD_WIN2K_PACK). -/
theorem c84_assigned :
    (∀ p ∈ encryptionTypes, Assigned stdEncryptionTypes p) ∧
    (∀ p ∈ addressTypes, Assigned stdAddressTypes p) ∧
    (∀ p ∈ paDataTypes, Assigned stdPaDataTypes p) ∧
    (∀ p ∈ nameTypes, Assigned stdNameTypes p) ∧
    (∀ p ∈ checksumTypes, p.1 ≠ "RSA_MD4_DES" → Assigned stdChecksumTypes p) ∧
    (∀ p ∈ adTypes, Assigned stdAdTypes p ∨ p.1 = "AD_WIN2K_PACK" ∧ ("AD-WIN2K-PAC", p.2.toInt) ∈ stdAdTypes) := by
  decide +kernel

/-- C84, the violation. The checksum constant RSA_MD4_DES has the number of another checksum, des-mac, so a checksum
labelled with it is taken for that by any other implementation. -/
theorem c84_wrong_checksum :
    ∃ v, ("RSA_MD4_DES", v) ∈ checksumTypes ∧ ¬ Assigned stdChecksumTypes ("RSA_MD4_DES", v) ∧
      ("des-mac", v.toInt) ∈ stdChecksumTypes := ⟨4, by decide, by decide +kernel, by decide⟩

/-- RFC 4120 section 7.5.1 and MS-KILE section 3.1.5.9: key usages; first the name of the constant, then the wording of the
standard -/
def stdKeyUsages : List (String × String × Int) := [
  ("KEY_USAGE_AS_REQ_TIMESTAMP", "AS-REQ PA-ENC-TIMESTAMP padata timestamp, encrypted with the client key", 1),
  ("KEY_USAGE_AS_REP_TICKET", "AS-REP Ticket and TGS-REP Ticket, encrypted with the service key", 2),
  ("KEY_USAGE_AS_REP_ENC_PART", "AS-REP encrypted part, encrypted with the client key", 3),
  ("KEY_USAGE_TGS_REQ_AUTH_DATA_SESSION_KEY", "TGS-REQ KDC-REQ-BODY AuthorizationData, encrypted with the TGS session key", 4),
  ("KEY_USAGE_TGS_REQ_AUTH_DATA_AUTHEN_SUBKEY",
    "TGS-REQ KDC-REQ-BODY AuthorizationData, encrypted with the TGS authenticator subkey", 5),
  ("KEY_USAGE_TGS_REQ_AUTHEN_CKSUM", "TGS-REQ PA-TGS-REQ padata AP-REQ Authenticator cksum, keyed with the TGS session key", 6),
  ("KEY_USAGE_TGS_REQ_AUTHEN", "TGS-REQ PA-TGS-REQ padata AP-REQ Authenticator, encrypted with the TGS session key", 7),
  ("KEY_USAGE_TGS_REP_ENC_PART_SESSION_KEY", "TGS-REP encrypted part, encrypted with the TGS session key", 8),
  ("KEY_USAGE_TGS_REP_ENC_PART_AUTHEN_SUBKEY", "TGS-REP encrypted part, encrypted with the TGS authenticator subkey", 9),
  ("KEY_USAGE_AP_REQ_AUTHEN_CKSUM", "AP-REQ Authenticator cksum, keyed with the application session key", 10),
  ("KEY_USAGE_AP_REQ_AUTHEN", "AP-REQ Authenticator, encrypted with the application session key", 11),
  ("KEY_USAGE_AP_REP_ENC_PART", "AP-REP encrypted part, encrypted with the application session key", 12),
  ("KEY_USAGE_KRB_PRIV_ENC_PART", "KRB-PRIV encrypted part, encrypted with a key chosen by the application", 13),
  ("KEY_USAGE_KRB_CRED_ENC_PART", "KRB-CRED encrypted part, encrypted with a key chosen by the application", 14),
  ("KEY_USAGE_KRB_SAFE_CKSUM", "KRB-SAFE cksum, keyed with a key chosen by the application", 15),
  ("KEY_USAGE_KERB_NON_KERB_SALT", "KERB_NON_KERB_SALT", 16),
  ("KEY_USAGE_KERB_NON_KERB_CKSUM_SALT", "KERB_NON_KERB_CKSUM_SALT", 17)]

/-- MS-KILE section 2.2.2: types of KERB-ERROR-DATA -/
def stdErrorDataTypes : List (String × Int) := [("KERB_AP_ERR_TYPE_NTSTATUS", 1), ("KERB_AP_ERR_TYPE_SKEW_RECOVERY", 2),
  ("KERB_ERR_TYPE_EXTENDED", 3)]

/-- RFC 4120 section 7.5.5: transited encoding types -/
def stdTransitedTypes : List (String × Int) := [("DOMAIN-X500-COMPRESS", 1)]

/-- RFC 4120 section 7.5.7: message types -/
def stdMessageTypes : List (String × Int) := [
  ("KRB-AS-REQ", 10), ("KRB-AS-REP", 11), ("KRB-TGS-REQ", 12), ("KRB-TGS-REP", 13), ("KRB-AP-REQ", 14), ("KRB-AP-REP", 15),
  ("KRB-RESERVED16", 16), ("KRB-RESERVED17", 17), ("KRB-SAFE", 20), ("KRB-PRIV", 21), ("KRB-CRED", 22), ("KRB-ERROR", 30)]

/-- C84. Key usages, types of error data, transited encodings and messages: every constant has the number of the standard,
and every number of the standard (but KERB_AP_ERR_TYPE_NTSTATUS) has its constant. -/
theorem c84_usages :
    (∀ p, p ∈ keyUsages ↔ ∃ q ∈ stdKeyUsages, p = (q.1, Int32.ofInt q.2.2)) ∧
    (∀ p ∈ errorDataTypes, Assigned stdErrorDataTypes p) ∧ (∀ q ∈ stdErrorDataTypes, q.2 = 1 ∨ (q.1, Int32.ofInt q.2) ∈ errorDataTypes) ∧
    (∀ p ∈ transitedTypes, Assigned stdTransitedTypes p) ∧ transitedTypes ≠ [] ∧
    (∀ p ∈ messageTypes, Assigned stdMessageTypes p) ∧
    (∀ q ∈ stdMessageTypes, (spelled q.1, Int32.ofInt q.2) ∈ messageTypes) := by
  refine ⟨?_, by decide +kernel, by decide +kernel, by decide +kernel, by decide, by decide +kernel, by decide +kernel⟩
  intro p
  have h : keyUsages = stdKeyUsages.map fun q => (q.1, Int32.ofInt q.2.2) := by decide +kernel
  rw [h, List.mem_map]
  exact ⟨fun ⟨q, h1, h2⟩ => ⟨q, h1, h2.symm⟩, fun ⟨q, h1, h2⟩ => ⟨q, h1, h2.symm⟩⟩

/-- C84. Numbers tell constants of one kind apart, except where the standard itself uses a number twice (20 and 22 of
the pre-authentication types). -/
theorem c84_distinct :
    (∀ t ∈ [encryptionTypes, checksumTypes, addressTypes, adTypes, nameTypes, keyUsages, messageTypes], ∀ p ∈ t, ∀ q ∈ t,
      p.2 = q.2 → p.1 = q.1) ∧
    (∀ p ∈ paDataTypes, ∀ q ∈ paDataTypes, p.2 = q.2 → p.1 = q.1 ∨ p.2 = 20 ∨ p.2 = 22) := by
  decide +kernel

/-- the message type constant of a message -/
def typeConstant : MsgType → Option String
  | .asReq => some "KRB_AS_REQ" | .asRep => some "KRB_AS_REP" | .tgsReq => some "KRB_TGS_REQ" | .tgsRep => some "KRB_TGS_REP"
  | .apReq => some "KRB_AP_REQ" | .apRep => some "KRB_AP_REP" | .krbSafe => some "KRB_SAFE" | .krbPriv => some "KRB_PRIV"
  | .krbCred => some "KRB_CRED" | .krbError => some "KRB_ERROR" | _ => none

/-- C84. The constants for message types are the application tags of the messages on the wire (RFC 4120 section 5.10 and
7.5.7), for every message of that type; the constant for the protocol version is 5. -/
theorem c84_message_types (g : Cfg) (T : MsgType) (v : T.Value) (name : String) (h : typeConstant T = some name) :
    (∃ n : Int32, (name, n) ∈ messageTypes ∧ (T.build g v).head? = some (UInt8.ofNat (0x60 + n.toInt.toNat))) ∧
    protocolVersions = [("PVNO", 5)] := by
  refine ⟨?_, rfl⟩
  have hb := c83_first_byte g T v
  cases T <;> simp only [typeConstant, Option.some.injEq, reduceCtorEq] at h <;> subst h
  · exact ⟨15, by decide, hb⟩
  · exact ⟨14, by decide, hb⟩
  · exact ⟨11, by decide, hb⟩
  · exact ⟨10, by decide, hb⟩
  · exact ⟨22, by decide, hb⟩
  · exact ⟨30, by decide, hb⟩
  · exact ⟨21, by decide, hb⟩
  · exact ⟨20, by decide, hb⟩
  · exact ⟨13, by decide, hb⟩
  · exact ⟨12, by decide, hb⟩

example : Assigned stdEncryptionTypes ("AES256_CTS_HMAC_SHA1_96", 18) ∧ ¬ Assigned stdEncryptionTypes ("RC4_HMAC", 24) := by
  decide +kernel
example : typeConstant .asReq = some "KRB_AS_REQ" := rfl

end Verif.Const
