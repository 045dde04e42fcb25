import Verif.Asn1Misc
/-
kerberos_constants: error codes and their names, and the flag words. (The other constants of this crate appear where
they are used.)
-/
namespace Verif.Const

/-- kerberos_constants/src/error_codes.rs:6-182, the constants: name and value -/
def errorConstants : List (String × Int32) := [
  ("KDC_ERR_NONE", 0), ("KDC_ERR_NAME_EXP", 1), ("KDC_ERR_SERVICE_EXP", 2), ("KDC_ERR_BAD_PVNO", 3),
   ("KDC_ERR_C_OLD_MAST_KVNO", 4), ("KDC_ERR_S_OLD_MAST_KVNO", 5), ("KDC_ERR_C_PRINCIPAL_UNKNOWN", 6),
   ("KDC_ERR_S_PRINCIPAL_UNKNOWN", 7), ("KDC_ERR_PRINCIPAL_NOT_UNIQUE", 8), ("KDC_ERR_NULL_KEY", 9),
   ("KDC_ERR_CANNOT_POSTDATE", 10), ("KDC_ERR_NEVER_VALID", 11), ("KDC_ERR_POLICY", 12),
   ("KDC_ERR_BADOPTION", 13), ("KDC_ERR_ETYPE_NOSUPP", 14), ("KDC_ERR_SUMTYPE_NOSUPP", 15),
   ("KDC_ERR_PADATA_TYPE_NOSUPP", 16), ("KDC_ERR_TRTYPE_NOSUPP", 17), ("KDC_ERR_CLIENT_REVOKED", 18),
   ("KDC_ERR_SERVICE_REVOKED", 19), ("KDC_ERR_TGT_REVOKED", 20), ("KDC_ERR_CLIENT_NOTYET", 21),
   ("KDC_ERR_SERVICE_NOTYET", 22), ("KDC_ERR_KEY_EXPIRED", 23), ("KDC_ERR_PREAUTH_FAILED", 24),
   ("KDC_ERR_PREAUTH_REQUIRED", 25), ("KDC_ERR_SERVER_NOMATCH", 26), ("KDC_ERR_MUST_USE_USER2USER", 27),
   ("KDC_ERR_PATH_NOT_ACCEPTED", 28), ("KDC_ERR_SVC_UNAVAILABLE", 29), ("KRB_AP_ERR_BAD_INTEGRITY", 31),
   ("KRB_AP_ERR_TKT_EXPIRED", 32), ("KRB_AP_ERR_TKT_NYV", 33), ("KRB_AP_ERR_REPEAT", 34),
   ("KRB_AP_ERR_NOT_US", 35), ("KRB_AP_ERR_BADMATCH", 36), ("KRB_AP_ERR_SKEW", 37),
   ("KRB_AP_ERR_BADADDR", 38), ("KRB_AP_ERR_BADVERSION", 39), ("KRB_AP_ERR_MSG_TYPE", 40),
   ("KRB_AP_ERR_MODIFIED", 41), ("KRB_AP_ERR_BADORDER", 42), ("KRB_AP_ERR_BADKEYVER", 44),
   ("KRB_AP_ERR_NOKEY", 45), ("KRB_AP_ERR_MUT_FAIL", 46), ("KRB_AP_ERR_BADDIRECTION", 47),
   ("KRB_AP_ERR_METHOD", 48), ("KRB_AP_ERR_BADSEQ", 49), ("KRB_AP_ERR_INAPP_CKSUM", 50),
   ("KRB_AP_PATH_NOT_ACCEPTED", 51), ("KRB_ERR_RESPONSE_TOO_BIG", 52), ("KRB_ERR_GENERIC", 60),
   ("KRB_ERR_FIELD_TOOLONG", 61), ("KDC_ERROR_CLIENT_NOT_TRUSTED", 62), ("KDC_ERROR_KDC_NOT_TRUSTED", 63),
   ("KDC_ERROR_INVALID_SIG", 64), ("KDC_ERR_KEY_TOO_WEAK", 65), ("KDC_ERR_CERTIFICATE_MISMATCH", 66),
   ("KRB_AP_ERR_NO_TGT", 67), ("KDC_ERR_WRONG_REALM", 68), ("KRB_AP_ERR_USER_TO_USER_REQUIRED", 69),
   ("KDC_ERR_CANT_VERIFY_CERTIFICATE", 70), ("KDC_ERR_INVALID_CERTIFICATE", 71),
   ("KDC_ERR_REVOKED_CERTIFICATE", 72), ("KDC_ERR_REVOCATION_STATUS_UNKNOWN", 73),
   ("KDC_ERR_REVOCATION_STATUS_UNAVAILABLE", 74), ("KDC_ERR_CLIENT_NAME_MISMATCH", 75),
   ("KDC_ERR_KDC_NAME_MISMATCH", 76)]

/-- error_codes.rs:184-256 `error_code_to_string` -/
def errorCodeToString (code : Int32) : String :=
  if code = 0 then "KDC_ERR_NONE" else
  if code = 1 then "KDC_ERR_NAME_EXP" else
  if code = 2 then "KDC_ERR_SERVICE_EXP" else
  if code = 3 then "KDC_ERR_BAD_PVNO" else
  if code = 4 then "KDC_ERR_C_OLD_MAST_KVNO" else
  if code = 5 then "KDC_ERR_S_OLD_MAST_KVNO" else
  if code = 6 then "KDC_ERR_C_PRINCIPAL_UNKNOWN" else
  if code = 7 then "KDC_ERR_S_PRINCIPAL_UNKNOWN" else
  if code = 8 then "KDC_ERR_PRINCIPAL_NOT_UNIQUE" else
  if code = 9 then "KDC_ERR_NULL_KEY" else
  if code = 10 then "KDC_ERR_CANNOT_POSTDATE" else
  if code = 11 then "KDC_ERR_NEVER_VALID" else
  if code = 12 then "KDC_ERR_POLICY" else
  if code = 13 then "KDC_ERR_BADOPTION" else
  if code = 14 then "KDC_ERR_ETYPE_NOSUPP" else
  if code = 15 then "KDC_ERR_SUMTYPE_NOSUPP" else
  if code = 16 then "KDC_ERR_PADATA_TYPE_NOSUPP" else
  if code = 17 then "KDC_ERR_TRTYPE_NOSUPP" else
  if code = 18 then "KDC_ERR_CLIENT_REVOKED" else
  if code = 19 then "KDC_ERR_SERVICE_REVOKED" else
  if code = 20 then "KDC_ERR_TGT_REVOKED" else
  if code = 21 then "KDC_ERR_CLIENT_NOTYET" else
  if code = 22 then "KDC_ERR_SERVICE_NOTYET" else
  if code = 23 then "KDC_ERR_KEY_EXPIRED" else
  if code = 24 then "KDC_ERR_PREAUTH_FAILED" else
  if code = 25 then "KDC_ERR_PREAUTH_REQUIRED" else
  if code = 26 then "KDC_ERR_SERVER_NOMATCH" else
  if code = 27 then "KDC_ERR_MUST_USE_USER2USER" else
  if code = 28 then "KDC_ERR_PATH_NOT_ACCEPTED" else
  if code = 29 then "KDC_ERR_SVC_UNAVAILABLE" else
  if code = 31 then "KRB_AP_ERR_BAD_INTEGRITY" else
  if code = 32 then "KRB_AP_ERR_TKT_EXPIRED" else
  if code = 33 then "KRB_AP_ERR_TKT_NYV" else
  if code = 34 then "KRB_AP_ERR_REPEAT" else
  if code = 35 then "KRB_AP_ERR_NOT_US" else
  if code = 36 then "KRB_AP_ERR_BADMATCH" else
  if code = 37 then "KRB_AP_ERR_SKEW" else
  if code = 38 then "KRB_AP_ERR_BADADDR" else
  if code = 39 then "KRB_AP_ERR_BADVERSION" else
  if code = 40 then "KRB_AP_ERR_MSG_TYPE" else
  if code = 41 then "KRB_AP_ERR_MODIFIED" else
  if code = 42 then "KRB_AP_ERR_BADORDER" else
  if code = 44 then "KRB_AP_ERR_BADKEYVER" else
  if code = 45 then "KRB_AP_ERR_NOKEY" else
  if code = 46 then "KRB_AP_ERR_MUT_FAIL" else
  if code = 47 then "KRB_AP_ERR_BADDIRECTION" else
  if code = 48 then "KRB_AP_ERR_METHOD" else
  if code = 49 then "KRB_AP_ERR_BADSEQ" else
  if code = 50 then "KRB_AP_ERR_INAPP_CKSUM" else
  if code = 51 then "KRB_AP_PATH_NOT_ACCEPTED" else
  if code = 52 then "KRB_ERR_RESPONSE_TOO_BIG" else
  if code = 60 then "KRB_ERR_GENERIC" else
  if code = 61 then "KRB_ERR_FIELD_TOOLONG" else
  if code = 62 then "KDC_ERROR_CLIENT_NOT_TRUSTED" else
  if code = 63 then "KDC_ERROR_KDC_NOT_TRUSTED" else
  if code = 64 then "KDC_ERROR_INVALID_SIG" else
  if code = 65 then "KDC_ERR_KEY_TOO_WEAK" else
  if code = 66 then "KDC_ERR_CERTIFICATE_MISMATCH" else
  if code = 67 then "KRB_AP_ERR_NO_TGT" else
  if code = 68 then "KDC_ERR_WRONG_REALM" else
  if code = 69 then "KRB_AP_ERR_USER_TO_USER_REQUIRED" else
  if code = 70 then "KDC_ERR_CANT_VERIFY_CERTIFICATE" else
  if code = 71 then "KDC_ERR_INVALID_CERTIFICATE" else
  if code = 72 then "KDC_ERR_REVOKED_CERTIFICATE" else
  if code = 73 then "KDC_ERR_REVOCATION_STATUS_UNKNOWN" else
  if code = 74 then "KDC_ERR_REVOCATION_STATUS_UNAVAILABLE" else
  if code = 75 then "KDC_ERR_CLIENT_NAME_MISMATCH" else
  if code = 76 then "KDC_ERR_KDC_NAME_MISMATCH" else
  ""

/-- kerberos_constants/src/kdc_options.rs:3-19: name and value -/
def kdcOptions : List (String × UInt32) := [
  ("NO_OPTION", 0x00000000), ("FORWARDABLE", 0x40000000), ("FORWARDED", 0x20000000),
   ("PROXIABLE", 0x10000000), ("PROXY", 0x08000000), ("ALLOW_POSTDATE", 0x04000000),
   ("POSTDATED", 0x02000000), ("RENEWABLE", 0x00800000), ("OPT_HARDWARE_AUTH", 0x00100000),
   ("CONSTRAINED_DELEGATION", 0x00020000), ("CANONICALIZE", 0x00010000), ("REQUEST_ANONYMOUS", 0x8000),
   ("DISABLE_TRANSITED_CHECK", 0x20), ("RENEWABLE_OK", 0x10), ("ENC_TKT_IN_SKEY", 0x08), ("RENEW", 0x02),
   ("VALIDATE", 0x01)]

/-- kerberos_constants/src/ticket_flags.rs:7-23: name and value -/
def ticketFlags : List (String × UInt32) := [
  ("RESERVED", 0x80000000), ("FORWARDABLE", 0x40000000), ("FORWARDED", 0x20000000),
   ("PROXIABLE", 0x10000000), ("PROXY", 0x08000000), ("MAY_POSTDATE", 0x04000000), ("POSTDATE", 0x02000000),
   ("INVALID", 0x01000000), ("RENEWABLE", 0x00800000), ("INITIAL", 0x00400000), ("PRE_AUTHENT", 0x00200000),
   ("HW_AUTHENT", 0x00100000), ("TRANSITED_POLICY_CHECKED", 0x00080000), ("OK_AS_DELEGATE", 0x00040000),
   ("REQUEST_ANONYMOUS", 0x00020000), ("NAME_CANONICALIZE", 0x00010000)]

/-- kerberos_constants/src/pa_pac_options.rs:7-10: name and value -/
def paPacOptions : List (String × UInt32) := [
  ("CLAIMS", 0x80000000), ("BRANCH_AWARE", 0x40000000), ("FORWARD_TO_FULL_DC", 0x20000000),
   ("RESOURCE_BASED_CONSTRAINED_DELEGATION", 0x10000000)]

/-- kerberos_constants/src/ap_options.rs:1-3: name and value -/
def apOptions : List (String × UInt32) := [
  ("RESERVED", 0), ("USE_SESSION_KEY", 1), ("MUTUAL_REQUIRED", 2)]

/-- kerberos_constants/src/ad_types.rs:4-16: name and value -/
def adTypes : List (String × Int32) := [
  ("AD_IF_RELEVANT", 1), ("AD_INTENDED_FOR_SERVER", 2), ("AD_INTENDED_FOR_APPLICATION_CLASS", 3),
  ("AD_KDCISSUED", 4), ("AD_AND_OR", 5), ("AD_MANDATORY_TICKET_EXTENSIONS", 6), ("AD_IN_TICKET_EXTENSIONS",
  7), ("AD_MANDATORY_FOR_KDC", 8), ("OSF_DCE", 64), ("SESAME", 65), ("AD_OSF_DCE_PKI_CERTID", 66),
  ("AD_WIN2K_PACK", 128), ("AD_ETYPE_NEGOTIATION", 129)]

/-- kerberos_constants/src/address_types.rs:6-14: name and value -/
def addressTypes : List (String × Int32) := [
  ("IPV4", 2), ("DIRECTIONAL", 3), ("CHAOSNET", 5), ("XNS", 6), ("ISO", 7), ("DECNET_PHASE_IV", 12),
  ("APPLETALK_DDP", 16), ("NETBIOS", 20), ("IPV6", 24)]

/-- kerberos_constants/src/checksum_types.rs:3-8: name and value -/
def checksumTypes : List (String × Int32) := [
  ("RSA_MD5_DES", 8), ("RSA_MD4_DES", 4), ("HMAC_MD5", -138), ("HMAC_SHA1_DES3_KD", 12),
  ("HMAC_SHA1_96_AES128", 15), ("HMAC_SHA1_96_AES256", 16)]

/-- kerberos_constants/src/etypes.rs:3-10: name and value -/
def encryptionTypes : List (String × Int32) := [
  ("NO_ENCRYPTION", 0), ("DES_CBC_CRC", 1), ("DES_CBC_MD5", 3), ("AES256_CTS_HMAC_SHA1_96", 18),
  ("AES128_CTS_HMAC_SHA1_96", 17), ("RC4_HMAC", 23), ("RC4_HMAC_EXP", 24), ("RC4_HMAC_OLD_EXP", -135)]

/-- kerberos_constants/src/kerb_error_data_type.rs:7-11: name and value -/
def errorDataTypes : List (String × Int32) := [
  ("KERB_AP_ERR_TYPE_SKEW_RECOVERY", 2), ("KERB_ERR_TYPE_EXTENDED", 3)]

/-- kerberos_constants/src/key_usages.rs:8-67: name and value -/
def keyUsages : List (String × Int32) := [
  ("KEY_USAGE_AS_REQ_TIMESTAMP", 1), ("KEY_USAGE_AS_REP_TICKET", 2), ("KEY_USAGE_AS_REP_ENC_PART", 3),
  ("KEY_USAGE_TGS_REQ_AUTH_DATA_SESSION_KEY", 4), ("KEY_USAGE_TGS_REQ_AUTH_DATA_AUTHEN_SUBKEY", 5),
  ("KEY_USAGE_TGS_REQ_AUTHEN_CKSUM", 6), ("KEY_USAGE_TGS_REQ_AUTHEN", 7),
  ("KEY_USAGE_TGS_REP_ENC_PART_SESSION_KEY", 8), ("KEY_USAGE_TGS_REP_ENC_PART_AUTHEN_SUBKEY", 9),
  ("KEY_USAGE_AP_REQ_AUTHEN_CKSUM", 10), ("KEY_USAGE_AP_REQ_AUTHEN", 11), ("KEY_USAGE_AP_REP_ENC_PART", 12),
  ("KEY_USAGE_KRB_PRIV_ENC_PART", 13), ("KEY_USAGE_KRB_CRED_ENC_PART", 14), ("KEY_USAGE_KRB_SAFE_CKSUM", 15),
  ("KEY_USAGE_KERB_NON_KERB_SALT", 16), ("KEY_USAGE_KERB_NON_KERB_CKSUM_SALT", 17)]

/-- kerberos_constants/src/message_types.rs:3-14: name and value -/
def messageTypes : List (String × Int32) := [
  ("KRB_AS_REQ", 10), ("KRB_AS_REP", 11), ("KRB_TGS_REQ", 12), ("KRB_TGS_REP", 13), ("KRB_AP_REQ", 14),
  ("KRB_AP_REP", 15), ("KRB_RESERVED16", 16), ("KRB_RESERVED17", 17), ("KRB_SAFE", 20), ("KRB_PRIV", 21),
  ("KRB_CRED", 22), ("KRB_ERROR", 30)]

/-- kerberos_constants/src/pa_data_types.rs:7-51: name and value -/
def paDataTypes : List (String × Int32) := [
  ("PA_TGS_REQ", 1), ("PA_ENC_TIMESTAMP", 2), ("PA_PW_SALT", 3), ("PA_ENC_UNIX_TIME", 5),
  ("PA_SANDIA_SECUREID", 6), ("PA_SESAME", 7), ("PA_OSF_DCE", 8), ("PA_CYBERSAFE_SECUREID", 9),
  ("PA_AFS3_SALT", 10), ("PA_ETYPE_INFO", 11), ("PA_SAM_CHALLENGE", 12), ("PA_SAM_RESPONSE", 13),
  ("PA_PK_AS_REQ_OLD", 14), ("PA_PK_AS_REP_OLD", 15), ("PA_PK_AS_REQ", 16), ("PA_PK_AS_REP", 17),
  ("PA_ETYPE_INFO2", 19), ("PA_SVR_REFERRAL_INFO", 20), ("PA_USE_SPECIFIED_KVNO", 20), ("PA_SAM_REDIRECT",
  21), ("PA_GET_FROM_TYPED_DATA", 22), ("TD_PADATA", 22), ("PA_SAM_ETYPE_INFO", 23), ("PA_ALT_PRINC", 24),
  ("PA_SAM_CHALLENGE2", 30), ("PA_SAM_RESPONSE2", 31), ("PA_EXTRA_TGT", 41), ("TD_PKINIT_CMS_CERTIFICATES",
  101), ("TD_KRB_PRINCIPAL", 102), ("TD_KRB_REALM", 103), ("TD_TRUSTED_CERTIFIERS", 104),
  ("TD_CERTIFICATE_INDEX", 105), ("TD_APP_DEFINED_ERROR", 106), ("TD_REQ_NONCE", 107), ("TD_REQ_SEQ", 108),
  ("PA_PAC_REQUEST", 128), ("PA_FOR_USER", 129), ("PA_FX_COOKIE", 133), ("PA_FX_FAST", 136), ("PA_FX_ERROR",
  137), ("PA_ENCRYPTED_CHALLENGE", 138), ("KERB_KEY_LIST_REQ", 161), ("KERB_KEY_LIST_REP", 162),
  ("PA_SUPPORTED_ENCTYPES", 165), ("PA_PAC_OPTIONS", 167)]

/-- kerberos_constants/src/principal_names.rs:7-37: name and value -/
def nameTypes : List (String × Int32) := [
  ("NT_UNKNOWN", 0), ("NT_PRINCIPAL", 1), ("NT_SRV_INST", 2), ("NT_SRV_HST", 3), ("NT_SRV_XHST", 4),
  ("NT_UID", 5), ("NT_X500_PRINCIPAL", 6), ("NT_SMTP_NAME", 7), ("NT_ENTERPRISE", 10), ("NT_MS_PRINCIPAL",
  -128), ("NT_MS_PRINCIPAL_AND_ID", -129), ("NT_ENT_PRINCIPAL_AND_ID", -130)]

/-- kerberos_constants/src/protocol_version.rs:6-6: name and value -/
def protocolVersions : List (String × Int32) := [
  ("PVNO", 5)]

/-- kerberos_constants/src/tr_types.rs:4-4: name and value -/
def transitedTypes : List (String × Int32) := [
  ("DOMAIN_X500_COMPRESS", 1)]

end Verif.Const
