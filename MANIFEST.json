{
 "claims": [
  {
   "property": "C01",
   "status": "proved",
   "theorems": [
    "Verif.CC.c01_ccache_roundtrip",
    "Verif.CC.c01_build_injective"
   ],
   "note": ""
  },
  {
   "property": "C02",
   "status": "proved",
   "theorems": [
    "Verif.CC.c02_counted_string",
    "Verif.CC.c02_key_block",
    "Verif.CC.c02_address",
    "Verif.CC.c02_times",
    "Verif.CC.c02_principal",
    "Verif.CC.c02_delta_time",
    "Verif.CC.c02_header",
    "Verif.CC.c02_credential"
   ],
   "note": ""
  },
  {
   "property": "C03",
   "status": "proved",
   "theorems": [
    "Verif.CC.c03_parse_exact",
    "Verif.CC.c03_no_alias",
    "Verif.CC.c03_resave"
   ],
   "note": ""
  },
  {
   "property": "C04",
   "status": "proved",
   "theorems": [
    "Verif.CC.c04_truncated_file",
    "Verif.CC.c04_cut_at_record_boundary",
    "Verif.CC.c04_silent_loss"
   ],
   "note": ""
  },
  {
   "property": "C05",
   "status": "proved",
   "theorems": [
    "Verif.CC.c05_build_append",
    "Verif.CC.c05_parse_append"
   ],
   "note": ""
  },
  {
   "property": "C06",
   "status": "proved",
   "theorems": [
    "Verif.CC.c06_counted_string_result",
    "Verif.CC.c06_counted_string_limit",
    "Verif.CC.c06_key_block_result",
    "Verif.CC.c06_key_block_limit",
    "Verif.CC.c06_header_limit",
    "Verif.CC.c06_ccache_limit",
    "Verif.KT.c06_keytab_entry_limit",
    "Verif.KT.c06_keytab_string_limit"
   ],
   "note": ""
  },
  {
   "property": "C07",
   "status": "proved",
   "theorems": [
    "Verif.CC.c07_header_length_ignored",
    "Verif.CC.c07_only_single_field",
    "Verif.CC.c07_misread_witness",
    "Verif.CC.c07_zero_field_refused"
   ],
   "note": "First sentence proved in full; the consequence (multi-/zero-field headers refused or misread) proved with witnesses."
  },
  {
   "property": "C08",
   "status": "proved",
   "theorems": [
    "Verif.CC.c08_ccache_no_panic",
    "Verif.CC.c08_ccache_suffix",
    "Verif.KT.c08_keytab_no_panic",
    "Verif.KT.c08_keytab_suffix"
   ],
   "note": ""
  },
  {
   "property": "C09",
   "status": "proved",
   "theorems": [
    "Verif.CC.c09_bad_version",
    "Verif.CC.c09_reported_version"
   ],
   "note": ""
  },
  {
   "property": "C10",
   "status": "proved",
   "theorems": [
    "Verif.KT.c10_keytab_roundtrip",
    "Verif.KT.c10_entry_roundtrip"
   ],
   "note": ""
  },
  {
   "property": "C11",
   "status": "proved",
   "theorems": [
    "Verif.KT.c11_hole_entry",
    "Verif.KT.c11_keytab_with_holes",
    "Verif.KT.c11_hole_resurrected"
   ],
   "note": "Includes the disagreement: a hole comes back as a blank entry and is turned into a live record when saved (c11_hole_resurrected)."
  },
  {
   "property": "C12",
   "status": "proved",
   "theorems": [
    "Verif.KT.c12_panic_iff",
    "Verif.KT.c12_panic_witness",
    "Verif.KT.c12_profiles_agree"
   ],
   "note": "Profile with overflow checks modelled separately; exact panic condition."
  },
  {
   "property": "C13",
   "status": "proved",
   "theorems": [
    "Verif.KT.c13_record_isolation",
    "Verif.KT.c13_surplus_ignored",
    "Verif.KT.c13_short_surplus_unreadable",
    "Verif.KT.c13_entries_lost"
   ],
   "note": ""
  },
  {
   "property": "C14",
   "status": "proved",
   "theorems": [
    "Verif.KT.c14_truncated_keytab",
    "Verif.KT.c14_truncated_version"
   ],
   "note": ""
  },
  {
   "property": "C15",
   "status": "proved",
   "theorems": [
    "Verif.KT.c15_resave"
   ],
   "note": ""
  },
  {
   "property": "C16",
   "status": "proved",
   "theorems": [
    "Verif.Map.c16_roundtrip",
    "Verif.Map.c16_identity"
   ],
   "note": ""
  },
  {
   "property": "C17",
   "status": "proved",
   "theorems": [
    "Verif.Map.c17_converts_iff",
    "Verif.Map.c17_roundtrip",
    "Verif.Map.c17_empty",
    "Verif.Map.c17_ticket_unchanged"
   ],
   "note": ""
  },
  {
   "property": "C18",
   "status": "proved",
   "theorems": [
    "Verif.Map.c18_encrypted",
    "Verif.Map.c18_unreadable",
    "Verif.Map.c18_empty",
    "Verif.Map.c18_missing",
    "Verif.Map.c18_converts_iff"
   ],
   "note": ""
  },
  {
   "property": "C19",
   "status": "proved",
   "theorems": [
    "Verif.Map.c19_pairing",
    "Verif.Map.c19_pairing_back"
   ],
   "note": ""
  },
  {
   "property": "C20",
   "status": "proved",
   "theorems": [
    "Verif.Map.c20_primary"
   ],
   "note": ""
  },
  {
   "property": "C21",
   "status": "proved",
   "theorems": [
    "Verif.Map.c21_unchanged_iff",
    "Verif.Map.c21_comes_back",
    "Verif.Map.c21_absent_and_cache",
    "Verif.Map.c21_all_four"
   ],
   "note": ""
  },
  {
   "property": "C22",
   "status": "proved",
   "theorems": [
    "Verif.Map.c22_trim_spec",
    "Verif.Map.c22_padding",
    "Verif.Map.c22_idempotent",
    "Verif.Map.c22_trim_undoes",
    "Verif.Map.c22_netbios_conversion",
    "Verif.Map.c22_netbios_unchanged",
    "Verif.Map.c22_survives_iff",
    "Verif.Map.c22_any_bytes",
    "Verif.Map.c22_any_bytes_exists"
   ],
   "note": ""
  },
  {
   "property": "C23",
   "status": "proved",
   "theorems": [
    "Verif.Map.c23_address",
    "Verif.Map.c23_key",
    "Verif.Map.c23_authdata",
    "Verif.Map.c23_negative",
    "Verif.Map.c23_from_cache"
   ],
   "note": ""
  },
  {
   "property": "C24",
   "status": "proved",
   "theorems": [
    "Verif.Map.c24_roundtrip",
    "Verif.Map.c24_principal",
    "Verif.Map.c24_fails_iff",
    "Verif.Map.c24_reverse",
    "Verif.Map.c24_error"
   ],
   "note": ""
  },
  {
   "property": "C25",
   "status": "proved",
   "theorems": [
    "Verif.Kb.c25_getters",
    "Verif.Kb.c25_reload",
    "Verif.Kb.c25_reload_identity",
    "Verif.Kb.c25_reload_stable",
    "Verif.Kb.c25_unnamed",
    "Verif.Kb.c25_save",
    "Verif.Kb.c25_save_succeeds",
    "Verif.Kb.c25_crash",
    "Verif.Kb.c25_save_then_load",
    "Verif.Kb.c25_krb_cred",
    "Verif.Kb.c25_krb_cred_crash",
    "Verif.Kb.c25_load_no_panic"
   ],
   "note": ""
  },
  {
   "property": "C26",
   "status": "proved",
   "theorems": [
    "Verif.Crypto.c26_aes_roundtrip",
    "Verif.Crypto.c26_cipher_roundtrip",
    "Verif.Crypto.c26_password_roundtrip"
   ],
   "note": ""
  },
  {
   "property": "C27",
   "status": "proved",
   "theorems": [
    "Verif.Crypto.c27_encrypt_size",
    "Verif.Crypto.c27_decrypt_size"
   ],
   "note": ""
  },
  {
   "property": "C28",
   "status": "proved",
   "theorems": [
    "Verif.Crypto.c28_accepts_iff",
    "Verif.Crypto.c28_confounder",
    "Verif.Crypto.c28_refused",
    "Verif.Crypto.c28_encrypt_injective"
   ],
   "note": ""
  },
  {
   "property": "C29",
   "status": "proved",
   "theorems": [
    "Verif.Crypto.c29_no_panic",
    "Verif.Crypto.c29_wrong_key_panics"
   ],
   "note": ""
  },
  {
   "property": "C30",
   "status": "proved",
   "theorems": [
    "Verif.Crypto.c30_rc4_roundtrip",
    "Verif.Crypto.c30_usage"
   ],
   "note": ""
  },
  {
   "property": "C31",
   "status": "proved",
   "theorems": [
    "Verif.Crypto.c31_nfold",
    "Verif.Crypto.c31_nfold_unique",
    "Verif.Crypto.c31_nfold_panics_iff"
   ],
   "note": ""
  },
  {
   "property": "C32",
   "status": "proved",
   "theorems": [
    "Verif.Crypto.c32_rotation",
    "Verif.Crypto.c32_rotation_add",
    "Verif.Crypto.c32_rotation_full"
   ],
   "note": ""
  },
  {
   "property": "C33",
   "status": "proved",
   "theorems": [
    "Verif.Crypto.c33_generated_key",
    "Verif.Crypto.c33_generated_key_from_string",
    "Verif.Crypto.c33_dk"
   ],
   "note": ""
  },
  {
   "property": "C34",
   "status": "proved",
   "theorems": [
    "Verif.Crypto.c34_hex_roundtrip",
    "Verif.Crypto.c34_wrong_length",
    "Verif.Crypto.c34_key_length",
    "Verif.Crypto.c34_accepted_iff",
    "Verif.Crypto.c34_ascii_no_panic",
    "Verif.Crypto.c34_plus_accepted",
    "Verif.Crypto.c34_panics_iff",
    "Verif.Crypto.c34_non_ascii_panics"
   ],
   "note": "The property is violated by the code: the negations are proved (c34_plus_accepted, c34_non_ascii_panics) next to the exact acceptance condition."
  },
  {
   "property": "C35",
   "status": "proved",
   "theorems": [
    "Verif.Crypto.c35_factory",
    "Verif.Crypto.c35_factory_complete",
    "Verif.Crypto.c35_random_key",
    "Verif.Crypto.c35_key_etypes"
   ],
   "note": ""
  },
  {
   "property": "C36",
   "status": "proved",
   "theorems": [
    "Verif.Crypto.c36_user_salt",
    "Verif.Crypto.c36_machine_salt_differs"
   ],
   "note": "Agreement for users, difference for machine accounts (violation) proved."
  },
  {
   "property": "C37",
   "status": "proved",
   "theorems": [
    "Verif.Crypto.c37_checksum_sizes",
    "Verif.Crypto.c37_hmac_md5_construction",
    "Verif.Crypto.c37_aes_construction"
   ],
   "note": ""
  },
  {
   "property": "C38",
   "status": "proved",
   "theorems": [
    "Verif.Crypto.c38_constants_injective",
    "Verif.Crypto.c38_cross_usage",
    "Verif.Crypto.c38_cross_usage_rc4"
   ],
   "note": ""
  },
  {
   "property": "C39",
   "status": "proved",
   "theorems": [
    "Verif.Asn1.c39_roundtrip",
    "Verif.Asn1.c39_unambiguous"
   ],
   "note": ""
  },
  {
   "property": "C40",
   "status": "proved",
   "theorems": [
    "Verif.Asn1.c40_roundtrip",
    "Verif.Asn1.c40_normalise",
    "Verif.Asn1.c40_wire_bits"
   ],
   "note": ""
  },
  {
   "property": "C41",
   "status": "proved",
   "theorems": [
    "Verif.Asn1.c41_no_fraction",
    "Verif.Asn1.c41_truncates",
    "Verif.Asn1.c41_wire"
   ],
   "note": ""
  },
  {
   "property": "C42",
   "status": "proved",
   "theorems": [
    "Verif.Asn1.c42_eq_iff",
    "Verif.Asn1.c42_equivalence",
    "Verif.Asn1.c42_same_length",
    "Verif.Asn1.c42_display",
    "Verif.Asn1.c42_main_name",
    "Verif.Asn1.c42_new_push"
   ],
   "note": ""
  },
  {
   "property": "C43",
   "status": "proved",
   "theorems": [
    "Verif.Asn1.c43_requests",
    "Verif.Asn1.c43_request_wire",
    "Verif.Asn1.c43_parts_compose",
    "Verif.Asn1.c43_chain",
    "Verif.Asn1.c43_fields"
   ],
   "note": ""
  },
  {
   "property": "C44",
   "status": "proved",
   "theorems": [
    "Verif.Asn1.c44_microseconds",
    "Verif.Asn1.c44_wire",
    "Verif.Asn1.c44_authenticator"
   ],
   "note": "Proved for the pre-authentication timestamp; the default authenticator is out of range in leap seconds (c44_authenticator)."
  },
  {
   "property": "C45",
   "status": "proved",
   "theorems": [
    "Verif.Asn1.c45_local",
    "Verif.Asn1.c45_no_panic",
    "Verif.Asn1.c45_truncated"
   ],
   "note": "Panic-freedom is relative to the external ASN.1 crate not panicking itself (Cfg.Total)."
  },
  {
   "property": "C46",
   "status": "proved",
   "theorems": [
    "Verif.Kb.c46_succeeds_iff",
    "Verif.Kb.c46_failed_call",
    "Verif.Kb.c46_successful_call",
    "Verif.Kb.c46_history",
    "Verif.Kb.c46_last_wins",
    "Verif.Kb.c46_order"
   ],
   "note": ""
  },
  {
   "property": "C47",
   "status": "proved",
   "theorems": [
    "Verif.Kb.c47_without_key",
    "Verif.Kb.c47_clock",
    "Verif.Kb.c47_clock_ok",
    "Verif.Kb.c47_with_key",
    "Verif.Kb.c47_no_etype",
    "Verif.Kb.c47_wire"
   ],
   "note": ""
  },
  {
   "property": "C48",
   "status": "proved",
   "theorems": [
    "Verif.Kb.c48_determined",
    "Verif.Kb.c48_dialogue",
    "Verif.Kb.c48_messages"
   ],
   "note": "External ASN.1 crate as Cfg, cryptographic primitives as a lawful Prims; the outcome relation is an independent inductive spec (ClientSpec.lean) that c48_determined shows functional."
  },
  {
   "property": "C49",
   "status": "proved",
   "theorems": [
    "Verif.Kb.c49_independent"
   ],
   "note": ""
  },
  {
   "property": "C50",
   "status": "proved",
   "theorems": [
    "Verif.Kb.c50_honest",
    "Verif.Kb.c50_exists",
    "Verif.Kb.c50_getters"
   ],
   "note": ""
  },
  {
   "property": "C51",
   "status": "proved",
   "theorems": [
    "Verif.Kb.c51_replay",
    "Verif.Kb.c51_accepts_any_nonce"
   ],
   "note": "Violated by the code; the negation is proved: the outcome does not depend on nonce, user or realm of the request (c51_replay), and every reply with foreign nonce, client and realm is accepted (c51_accepts_any_nonce)."
  },
  {
   "property": "C52",
   "status": "proved",
   "theorems": [
    "Verif.Kb.c52_panics_iff"
   ],
   "note": "Violated by the code; c52_panics_iff characterises exactly the answers and options that crash it."
  },
  {
   "property": "C53",
   "status": "proved",
   "theorems": [
    "Verif.Kb.c53_salt",
    "Verif.Kb.c53_single",
    "Verif.Kb.c53_first_entry_wins"
   ],
   "note": "Exact salt and exact failure; c53_first_entry_wins is the violation."
  },
  {
   "property": "C54",
   "status": "proved",
   "theorems": [
    "Verif.Kb.c54_announced_ignored",
    "Verif.Kb.c54_cipher_key"
   ],
   "note": "Exact outcome for every cipher key and reply."
  },
  {
   "property": "C55",
   "status": "proved",
   "theorems": [
    "Verif.Kb.c55_request",
    "Verif.Kb.c55_framing",
    "Verif.Kb.c55_answer",
    "Verif.Kb.c55_segmentation",
    "Verif.Kb.c55_roundtrip"
   ],
   "note": "Model of the byte stream: reads may return any cut, interrupt, end or fail. Requests of 2^32 bytes or more announce their length modulo 2^32 (stated)."
  },
  {
   "property": "C56",
   "status": "proved",
   "theorems": [
    "Verif.Kb.c56_whole",
    "Verif.Kb.c56_buffer",
    "Verif.Kb.c56_results",
    "Verif.Kb.c56_request",
    "Verif.Kb.c56_waits_iff"
   ],
   "note": "Linux peek semantics (a peek returns at most the buffer and truncates)."
  },
  {
   "property": "C57",
   "status": "proved",
   "theorems": [
    "Verif.Kb.c57_sources",
    "Verif.Kb.c57_exchange",
    "Verif.Kb.c57_transport"
   ],
   "note": "c57_sources on the dialogue, c57_exchange/c57_transport down to the socket runs."
  },
  {
   "property": "C58",
   "status": "proved",
   "theorems": [
    "Verif.Kb.c58_first"
   ],
   "note": ""
  },
  {
   "property": "C59",
   "status": "proved",
   "theorems": [
    "Verif.Asn1.c59_wire_format",
    "Verif.Asn1.c59_wire_format_all",
    "Verif.Asn1.c59_uint32_large"
   ],
   "note": "Full equality below 2^31 (c59_wire_format) and the exact deviation above (violation, c59_uint32_large)."
  },
  {
   "property": "C60",
   "status": "proved",
   "theorems": [
    "Verif.Asn1.c60_ap_rep_part",
    "Verif.Asn1.c60_may_be_missing",
    "Verif.Asn1.c60_must_be_there",
    "Verif.Asn1.c60_ap_rep_strict",
    "Verif.Asn1.c60_components"
   ],
   "note": "Positive part for every type, encoding and set of optional components (any external-crate configuration); refusal of missing mandatory components for a crate without leniencies of its own. The violation (AP-REP part) is proved for every configuration (c60_ap_rep_part) and every encoding (c60_ap_rep_strict). Components are those of the message itself; components of nested messages are covered by C76."
  },
  {
   "property": "C61",
   "status": "proved",
   "theorems": [
    "Verif.Asn1.c61_defaults",
    "Verif.Asn1.c61_arguments"
   ],
   "note": ""
  },
  {
   "property": "C62",
   "status": "proved",
   "theorems": [
    "Verif.Kb.c62_hint_ignored",
    "Verif.Kb.c62_local_choice"
   ],
   "note": "Violation proved for every pair of KDCs and every key (c62_hint_ignored) with the exact local choice (c62_local_choice)."
  },
  {
   "property": "C63",
   "status": "proved",
   "theorems": [
    "Verif.Kb.c63_params_ignored"
   ],
   "note": "Violation proved for every reply and key."
  },
  {
   "property": "C64",
   "status": "proved",
   "theorems": [
    "Verif.Kb.c64_blocks_iff"
   ],
   "note": "Violation; exact characterisation of the blocking runs. The model has no clock: the code sets no read or write timeout."
  },
  {
   "property": "C65",
   "status": "proved",
   "theorems": [
    "Verif.Kb.c65_final"
   ],
   "note": ""
  },
  {
   "property": "C66",
   "status": "proved",
   "theorems": [
    "Verif.Const.c66_name",
    "Verif.Const.c66_injective"
   ],
   "note": ""
  },
  {
   "property": "C67",
   "status": "proved",
   "theorems": [
    "Verif.Const.c67_standard_bits",
    "Verif.Const.c67_covered",
    "Verif.Const.c67_wrong_bits"
   ],
   "note": "Agreement (c67_standard_bits, c67_covered) and the violations (c67_wrong_bits)."
  },
  {
   "property": "C68",
   "status": "proved",
   "theorems": [
    "Verif.Crypto.c68_dk",
    "Verif.Crypto.c68_aes_ciphertext",
    "Verif.Crypto.c68_rc4_ciphertext",
    "Verif.Crypto.c68_rc4_untranslated",
    "Verif.Crypto.c68_checksums",
    "Verif.Crypto.c68_string_to_key",
    "Verif.Crypto.c68_utf16_exists"
   ],
   "note": "Agreement with the specification in Verif/RfcSpec.lean; violation for usages 9 and 23 in c68_rc4_untranslated. The primitives are those of Prims.Lawful."
  },
  {
   "property": "C69",
   "status": "proved",
   "theorems": [
    "Verif.Crypto.c69_fips197",
    "Verif.Crypto.c69_fips197_decrypt",
    "Verif.Crypto.c69_hmac_sha1",
    "Verif.Crypto.c69_md4",
    "Verif.Crypto.c69_md5",
    "Verif.Crypto.c69_hmac_md5",
    "Verif.Crypto.c69_pbkdf2",
    "Verif.Crypto.c69_rc4",
    "Verif.Crypto.c69_password_key",
    "Verif.Crypto.c69_aes",
    "Verif.Crypto.c69_roundtrip",
    "Verif.Crypto.c69_password_roundtrip",
    "Verif.Crypto.c69_decrypt",
    "Verif.Crypto.c69_string_to_key",
    "Verif.Crypto.c69_aes_ciphertext",
    "Verif.Crypto.c69_rc4_ciphertext"
   ],
   "note": "The instance stdPrims of Verif/StdPrims.lean; its AES is proved to be the FIPS 197 cipher of Verif/AesSpec.lean (c69_fips197), its hashes, HMAC, PBKDF2 and RC4 those of Verif/HashSpec.lean, all of it validated against published vectors and /repo unit tests in Verif/StdVectors.lean."
  },
  {
   "property": "C70",
   "status": "proved",
   "theorems": [
    "Verif.CC.c70_writes_format",
    "Verif.CC.c70_etype_not_format",
    "Verif.CC.c70_reads_format",
    "Verif.CC.c70_no_header_field_misread"
   ],
   "note": "Specification Verif/MitSpec.lean. Writing and exact reading condition proved; the violation is c70_no_header_field_misread."
  },
  {
   "property": "C71",
   "status": "proved",
   "theorems": [
    "Verif.KT.c71_writes_format",
    "Verif.KT.c71_shown_entries",
    "Verif.KT.c71_reads_format",
    "Verif.KT.c71_version_unchecked",
    "Verif.KT.c71_sample_read"
   ],
   "note": "Specification Verif/MitSpec.lean. c71_shown_entries is the exact result for every file of records; violations c71_version_unchecked and c71_sample_read."
  },
  {
   "property": "C72",
   "status": "proved",
   "theorems": [
    "Verif.Kb.c72_kdc_to_file"
   ],
   "note": "Composes C50, C22, C70 with stdPrims; examples show an actual reply meeting all hypotheses."
  },
  {
   "property": "C73",
   "status": "proved",
   "theorems": [
    "Verif.Kb.c73_password",
    "Verif.Kb.c73_cipher_key",
    "Verif.Kb.c73_transport",
    "Verif.Kb.c73_nonce_negative",
    "Verif.Kb.c73_kdc_exists"
   ],
   "note": "Specification of the KDC in Verif/KdcSpec.lean, independent of the client. c73_kdc_exists and the examples show the hypotheses can be met; c73_nonce_negative is the violation (nonces of 2^31 and more)."
  },
  {
   "property": "C74",
   "status": "proved",
   "theorems": [
    "Verif.Kb.c74_default_salt_iff",
    "Verif.Kb.c74_salt_used",
    "Verif.Kb.c74_locked_out"
   ],
   "note": "c74_default_salt_iff is the exact condition; c74_salt_used is the violation."
  },
  {
   "property": "C75",
   "status": "proved",
   "theorems": [
    "Verif.Kb.c75_first_message",
    "Verif.Kb.c75_refused",
    "Verif.Kb.c75_always_refused"
   ],
   "note": "c75_first_message and the concrete failing exchange c75_refused with a KDC that follows the RFC."
  },
  {
   "property": "C76",
   "status": "proved",
   "theorems": [
    "Verif.Asn1.c76_reads",
    "Verif.Asn1.c76_exact",
    "Verif.Asn1.c76_one_value",
    "Verif.Asn1.c76_written"
   ],
   "note": "c76_reads (every spelling is read) holds for every behaviour of the external ASN.1 crate; c76_exact (nothing else is read) for a crate without leniencies of its own (Cfg.Strict), because the crate's source is not in /repo."
  },
  {
   "property": "C77",
   "status": "proved",
   "theorems": [
    "Verif.Kb.c77_windows_to_linux",
    "Verif.Kb.c77_agree_iff",
    "Verif.Kb.c77_empty",
    "Verif.Kb.c77_linux_to_windows",
    "Verif.Kb.c77_back_agree_iff"
   ],
   "note": "The exact differences between the two kinds of file, as equivalences; starttime: times_mapper of kerbeiros fills in the authentication time, the one of kerberos_ccache writes 0."
  },
  {
   "property": "C78",
   "status": "proved",
   "theorems": [
    "Verif.Asn1.c78_eq_iff",
    "Verif.Asn1.c78_equivalence",
    "Verif.Asn1.c78_identical_iff",
    "Verif.Asn1.c78_bytes",
    "Verif.Kb.c78_credentials"
   ],
   "note": "Model and lemmas generated from the message definitions. The standard library's to_lowercase is a parameter; the violation assumes only that two different texts have the same lower case."
  },
  {
   "property": "C79",
   "status": "proved",
   "theorems": [
    "Verif.c79_utf8",
    "Verif.c79_text",
    "Verif.c79_cache_file",
    "Verif.c79_keytab_file"
   ],
   "note": "UTF-8 is Lean's own definition (String.toUTF8, ByteArray.IsValidUTF8), to which the model of the standard library is tied."
  },
  {
   "property": "C80",
   "status": "proved",
   "theorems": [
    "Verif.Kb.c80_tcp",
    "Verif.Kb.c80_tcp_before",
    "Verif.Kb.c80_tcp_violated",
    "Verif.Kb.c80_udp"
   ],
   "note": "The buffers for the answer are modelled; allocation failure is not."
  },
  {
   "property": "C81",
   "status": "proved",
   "theorems": [
    "Verif.Asn1.c81_wire",
    "Verif.Asn1.c81_authenticator",
    "Verif.Asn1.c81_roundtrip",
    "Verif.Asn1.c81_versions",
    "Verif.Asn1.c81_error_version"
   ],
   "note": "c81_wire: the octets of all default messages, as a table, for every default time; c81_authenticator: the default authenticator; c81_roundtrip; c81_versions: exactly which types have the wrong version and type; c81_error_version: consequence on the wire. `GeneralizedTime::default()` is a parameter."
  },
  {
   "property": "C82",
   "status": "proved",
   "theorems": [
    "Verif.Kb.c82_saves",
    "Verif.Kb.c82_loads_iff",
    "Verif.Kb.c82_load_save",
    "Verif.Kb.c82_fits",
    "Verif.Kb.c82_stable",
    "Verif.Kb.c82_identity"
   ],
   "note": "c82_loads_iff, c82_load_save (entry by entry), c82_stable (second save is byte-identical), c82_identity, c82_fits. The tickets are assumed below 4 GiB in the form the library writes."
  },
  {
   "property": "C83",
   "status": "proved",
   "theorems": [
    "Verif.Asn1.c83_first_byte",
    "Verif.Asn1.c83_not_confused",
    "Verif.Asn1.c83_one_kind",
    "Verif.Asn1.c83_parts",
    "Verif.Asn1.c83_untagged",
    "Verif.Kb.c83_answers",
    "Verif.Kb.c83_tgs_part_refused"
   ],
   "note": "c83_first_byte, c83_not_confused, c83_one_kind for all types against a table of RFC 4120 application numbers; c83_answers, c83_tgs_part_refused for the client; c83_parts, c83_untagged."
  },
  {
   "property": "C84",
   "status": "proved",
   "theorems": [
    "Verif.Const.c84_assigned",
    "Verif.Const.c84_wrong_checksum",
    "Verif.Const.c84_usages",
    "Verif.Const.c84_distinct",
    "Verif.Const.c84_message_types"
   ],
   "note": "c84_assigned, c84_distinct for the complete tables; c84_message_types for every message; c84_wrong_checksum is the violation. The numbers of the standards are transcribed in Props/Numbers.lean."
  },
  {
   "property": "C85",
   "status": "proved",
   "theorems": [
    "Verif.Kb.c85_bytes",
    "Verif.Kb.c85_same",
    "Verif.Kb.c85_alone",
    "Verif.Kb.c85_last_alone",
    "Verif.Kb.c85_mixture",
    "Verif.Kb.c85_mixture_neither",
    "Verif.Kb.c85_hole",
    "Verif.Kb.c85_mixed_cache"
   ],
   "note": "c85_bytes, c85_same, c85_alone, c85_last_alone over all schedules of any number of processes; c85_mixture, c85_mixture_neither, c85_hole, c85_mixed_cache are the violation. POSIX semantics of create (truncation) and write (own offset, atomic calls) are the model of the file system."
  },
  {
   "property": "C86",
   "status": "proved",
   "theorems": [
    "Verif.Kb.c86_bytes",
    "Verif.Kb.c86_undisturbed",
    "Verif.Kb.c86_single",
    "Verif.Kb.c86_torn",
    "Verif.Kb.c86_wrong_pair"
   ],
   "note": "c86_bytes, c86_undisturbed, c86_single over all schedules; c86_torn and c86_wrong_pair are the violation. The reader is std fs::read as in the documentation of the library."
  },
  {
   "property": "C87",
   "status": "proved",
   "theorems": [
    "Verif.Kb.c87_protocol",
    "Verif.Kb.c87_destination",
    "Verif.Kb.c87_only_kdc",
    "Verif.Kb.c87_either_transport",
    "Verif.Kb.c87_ipv6",
    "Verif.Kb.c87_ipv6_first",
    "Verif.Kb.c87_by_name"
   ],
   "note": "The family rule of sockets (Os.Families) is an assumption about the operating system, shown satisfiable; c87_ipv6 and c87_ipv6_first are the violation, the other theorems hold for every operating system."
  },
  {
   "property": "C88",
   "status": "proved",
   "theorems": [
    "Verif.Kb.c88_too_big",
    "Verif.Kb.c88_too_big_second",
    "Verif.Kb.c88_by_hand"
   ],
   "note": "c88_too_big (first answer), c88_too_big_second (after pre-authentication) are the violation; c88_by_hand the way around it."
  },
  {
   "property": "C89",
   "status": "proved",
   "theorems": [
    "Verif.Kb.c89_mode",
    "Verif.Kb.c89_private_iff",
    "Verif.Kb.c89_exposed",
    "Verif.Kb.c89_exposed_krb_cred"
   ],
   "note": "Expected property stated and its violation characterised exactly (private iff umask or old mode make it so); exposure proved for both formats. POSIX permission bits only."
  },
  {
   "property": "C90",
   "status": "proved",
   "theorems": [
    "Verif.Kb.c90_no_secret",
    "Verif.Kb.c90_tells"
   ],
   "note": "c90_tells, c90_no_secret; a panic is not an error text. One text stands for all errors of the ASN.1 crate, debug text of a KRB-ERROR is a parameter (`Outside`)."
  },
  {
   "property": "C91",
   "status": "proved",
   "theorems": [
    "Verif.Crypto.c91_password_shown",
    "Verif.Crypto.c91_password_determined",
    "Verif.Crypto.c91_key_shown"
   ],
   "note": "Expected property stated; violated for every key (c91_password_shown, c91_key_shown)."
  },
  {
   "property": "C92",
   "status": "proved",
   "theorems": [
    "Verif.Kb.c92_from_key_holder",
    "Verif.Kb.c92_forgeable"
   ],
   "note": "c92_from_key_holder holds; c92_forgeable is the violation (the attacker function is chosen before key, user and KDC)."
  },
  {
   "property": "C93",
   "status": "proved",
   "theorems": [
    "Verif.Kb.c93_offered",
    "Verif.Kb.c93_cipher_key",
    "Verif.Kb.c93_reply_type"
   ],
   "note": "c93_offered holds; c93_cipher_key and c93_reply_type are the violations."
  },
  {
   "property": "C94",
   "status": "proved",
   "theorems": [
    "Verif.Kb.c94_refused",
    "Verif.Kb.c94_without"
   ],
   "note": "c94_refused is the violation; c94_without: without the configuration entries the file loads."
  },
  {
   "property": "C95",
   "status": "proved",
   "theorems": [
    "Verif.Asn1.c95_not_longer",
    "Verif.Asn1.c95_five_times",
    "Verif.Asn1.c95_flags_grow",
    "Verif.Asn1.c95_five_reached"
   ],
   "note": "c95_not_longer and c95_five_times hold; c95_flags_grow is the violation, c95_five_reached shows the bound is reached. c82_saves uses it."
  },
  {
   "property": "C96",
   "status": "proved",
   "theorems": [
    "Verif.Kb.c96_without_key",
    "Verif.Kb.c96_with_key",
    "Verif.Kb.c96_crash",
    "Verif.Kb.c96_unverified",
    "Verif.Kb.c96_only_kdc",
    "Verif.Kb.c96_either_transport"
   ],
   "note": "c96_crash is the crash (unwrap in as_requester.rs); c96_unverified shows that nothing about a reply is checked."
  },
  {
   "property": "C97",
   "status": "proved",
   "theorems": [
    "Verif.Kb.c97_settings",
    "Verif.Kb.c97_as_new",
    "Verif.Kb.c97_messages",
    "Verif.Kb.c97_starts_anew",
    "Verif.Kb.c97_no_trace",
    "Verif.Kb.c97_recovers"
   ],
   "note": "The operating system and the KDC behind it see all messages since the requester was made (Os.after)."
  },
  {
   "property": "C98",
   "status": "proved",
   "theorems": [
    "Verif.Kb.c98_exists",
    "Verif.Kb.c98_reply",
    "Verif.Kb.c98_request",
    "Verif.Kb.c98_dialogue",
    "Verif.Kb.c98_weaker"
   ],
   "note": "The two are compared for equal clock readings and random values. Replies of another type, or with a malformed ETYPE-INFO2, are where they differ (C52, C54)."
  },
  {
   "property": "C99",
   "status": "proved",
   "theorems": [
    "Verif.Map.c99_once",
    "Verif.Map.c99_any_number",
    "Verif.Map.c99_message"
   ],
   "note": "Sizes below 2^64 are assumed (InMemory)."
  },
  {
   "property": "C100",
   "status": "proved",
   "theorems": [
    "Verif.Crypto.c100_nfold",
    "Verif.Crypto.c100_rfc",
    "Verif.Crypto.c100_derived",
    "Verif.Crypto.c100_ciphertexts",
    "Verif.Crypto.c100_checksums",
    "Verif.Crypto.c100_real",
    "Verif.Crypto.c100_rc4_shared"
   ],
   "note": "n-fold of 5 bytes to 16 is proved injective for all 2^40 inputs (with the end-around carry, so not just linear algebra) by a lattice argument whose certificate the kernel checks; AES block encryption is injective by lawfulness (proved for the concrete AES in c100_real). Different derived keys are what is proved; that different keys are computationally independent is not expressible."
  },
  {
   "property": "C101",
   "status": "proved",
   "theorems": [
    "Verif.c101_same",
    "Verif.c101_cache",
    "Verif.c101_keytab",
    "Verif.c101_keytab_old",
    "Verif.c101_cache_old",
    "Verif.c101_kept"
   ],
   "note": "All requests to the allocator are added up and frees ignored, so the bound also holds for the peak. Growth of Vec and the reservation of many_m_n are modelled from the standard library and nom; element sizes are those of 64-bit targets. c101_same proves the metered parsers to be the parsers of the other properties."
  },
  {
   "property": "C102",
   "status": "proved",
   "theorems": [
    "Verif.Asn1.c102_identifies",
    "Verif.Asn1.c102_ambiguous",
    "Verif.Asn1.c102_empty",
    "Verif.Kb.c102_poison"
   ],
   "note": "c102_identifies is the property where it holds; c102_ambiguous, c102_empty and c102_poison are the violations."
  },
  {
   "property": "C103",
   "status": "proved",
   "theorems": [
    "Verif.Kb.c103_request",
    "Verif.Kb.c103_exchange"
   ],
   "note": "A statement about pairs of runs (non-interference). The ciphers are any lawful primitives; that ciphertexts under unknown keys look alike is an assumption of cryptography and not claimed."
  },
  {
   "property": "C104",
   "status": "proved",
   "theorems": [
    "Verif.Crypto.c104_one_realm",
    "Verif.Crypto.c104_one_realm_library",
    "Verif.Crypto.c104_realms",
    "Verif.Crypto.c104_boundary",
    "Verif.Kb.c104_shared",
    "Verif.Kb.c104_rc4"
   ],
   "note": "Exact characterisation of salt sharing, with the exceptions stated as theorems. Equal keys from different salts would be a collision of PBKDF2, which is cryptography and not claimed."
  },
  {
   "property": "C105",
   "status": "proved",
   "theorems": [
    "Verif.Kb.c105_what_matters",
    "Verif.Kb.c105_contents",
    "Verif.Kb.c105_version_not_checked",
    "Verif.Kb.c105_error_version_not_checked"
   ],
   "note": "The property is violated; the theorems say exactly what matters (for all pairs of networks) and that version and type do not."
  },
  {
   "property": "C106",
   "status": "proved",
   "theorems": [
    "Verif.CC.c106_delta_time",
    "Verif.Kb.c106_saved",
    "Verif.Kb.c106_not_used",
    "Verif.Kb.c106_lost"
   ],
   "note": "Violated as expected; the theorems state exactly what happens instead (always -1 s, 0 us; offsets of loaded files ignored)."
  },
  {
   "property": "C107",
   "status": "proved",
   "theorems": [
    "Verif.Dbg.c107_cache",
    "Verif.Dbg.c107_keytab",
    "Verif.Dbg.c107_credentials",
    "Verif.Dbg.c107_key_block"
   ],
   "note": "Violated; the theorems state what is shown. Texts of parts without keys in kerbeiros types are parameters."
  },
  {
   "property": "C108",
   "status": "proved",
   "theorems": [
    "Verif.Kb.c108_without_key",
    "Verif.Kb.c108_with_key",
    "Verif.Kb.c108_kinds",
    "Verif.Kb.c108_history"
   ],
   "note": ""
  },
  {
   "property": "C109",
   "status": "proved",
   "theorems": [
    "Verif.Kb.c109_as_alone",
    "Verif.Kb.c109_no_waiting",
    "Verif.Kb.c109_any_order"
   ],
   "note": "That the code shares no mutable state (request takes &self, no mutable statics, thread_rng per thread) is read off the source, not proved."
  },
  {
   "property": "C110",
   "status": "proved",
   "theorems": [
    "Verif.c110_counted",
    "Verif.c110_same",
    "Verif.c110_cache",
    "Verif.c110_keytab"
   ],
   "note": "A step is a call of a nom reading function, a byte copied out of the input or a byte moved when a vector grows."
  },
  {
   "property": "C111",
   "status": "proved",
   "theorems": [
    "Verif.Kb.c111_request",
    "Verif.Kb.c111_dialogue"
   ],
   "note": "Over the laws of the primitives (`Prims.Lawful`), as in C48; years of four digits hold until 9999."
  },
  {
   "property": "C112",
   "status": "proved",
   "theorems": [
    "Verif.Crypto.c112_same",
    "Verif.Crypto.c112_decrypt",
    "Verif.Crypto.c112_encrypt",
    "Verif.Crypto.c112_key",
    "Verif.Crypto.c112_password",
    "Verif.Crypto.c112_checksum",
    "Verif.Crypto.c112_alike",
    "Verif.Crypto.c112_linear",
    "Verif.Kb.c112_same_request",
    "Verif.Kb.c112_reply_key",
    "Verif.Kb.c112_reply_password",
    "Verif.Kb.c112_timestamp",
    "Verif.Kb.c112_request",
    "Verif.Kb.c112_no_key",
    "Verif.Kb.c112_first_answer"
   ],
   "note": "Work is counted in calls of primitives with the lengths of their arguments; the time one call takes, in particular of comparing two MACs with != (decrypt.rs, encrypt.rs), which is not constant, is outside the model. The bounds for a ticket request are over ASN.1 leniencies other than numbers without content and short times (`Cfg.NoShort`) and clocks in years of four digits."
  },
  {
   "property": "C113",
   "status": "proved",
   "theorems": [
    "Verif.Kb.c113_preauth",
    "Verif.Kb.c113_no_preauth",
    "Verif.Kb.c113_kdc_exists"
   ],
   "note": "The remaining alternative, a ciphertext that is valid under two different keys, cannot be excluded without assuming more about the keyed hash; it is spelled out in the statement in terms of RFC 3962 and RFC 4757 with the algorithms of the standards."
  },
  {
   "property": "C114",
   "status": "proved",
   "theorems": [
    "Verif.Kb.c114_read",
    "Verif.Kb.c114_refused",
    "Verif.Kb.c114_password"
   ],
   "note": "For passwords with the conditions on salt and types of C73 (they are needed: C74). The refusal for keys of any kind is c114_refused, the ticket within five minutes for keys of any kind C73."
  },
  {
   "property": "C115",
   "status": "proved",
   "theorems": [
    "Verif.Asn1.c115_same",
    "Verif.Asn1.c115_message",
    "Verif.Asn1.c115_accepted",
    "Verif.Asn1.c115_counted",
    "Verif.Kb.c115_answer",
    "Verif.Kb.c115_same_request",
    "Verif.Kb.c115_request"
   ],
   "note": "The counting parsers give the results of the parsers of C39 and C76 (c115_same), the counting request that of C48 (c115_same_request). Assumed of the external crate red_asn1, whose source is not in /repo: a bounded amount of work for each step."
  },
  {
   "property": "C116",
   "status": "proved",
   "theorems": [
    "Verif.Kb.c116_same",
    "Verif.Kb.c116_ordered",
    "Verif.Kb.c116_ordered_load",
    "Verif.Kb.c116_success_not_durable",
    "Verif.Kb.c116_flush_is_enough",
    "Verif.Kb.c116_zero_block",
    "Verif.Kb.c116_zero_block_differs"
   ],
   "note": "c116_ordered is exact; c116_success_not_durable and c116_zero_block prove the violation, c116_flush_is_enough shows that the property can be had (for a program that is not that of /repo). The two kinds of device are specifications in Props/Power; the removal of a directory entry not flushed is not distinguished from an unchanged file."
  },
  {
   "property": "C117",
   "status": "proved",
   "theorems": [
    "Verif.Kb.c117_unknown_ignored",
    "Verif.Kb.c117_same_ticket"
   ],
   "note": "Two runs of the model of C48. An error that quotes the reply quotes the reply received. What does matter is in C53 (the first salt), C52 (an unreadable ETYPE-INFO2)."
  },
  {
   "property": "C118",
   "status": "proved",
   "theorems": [
    "Verif.Kb.c118_kept_iff",
    "Verif.Kb.c118_full_disk",
    "Verif.Kb.c118_nearly_full_disk",
    "Verif.Kb.c118_history",
    "Verif.Kb.c118_retry",
    "Verif.Kb.c118_never_mixed"
   ],
   "note": "c118_full_disk and c118_nearly_full_disk prove the violation. Saves one after the other; interleaved ones are C85."
  },
  {
   "property": "C119",
   "status": "proved",
   "theorems": [
    "Verif.Kb.c119_damage_shows",
    "Verif.Kb.c119_key",
    "Verif.Kb.c119_ticket",
    "Verif.Kb.c119_keytab"
   ],
   "note": "c119_key, c119_ticket and c119_keytab prove the violation, c119_damage_shows what holds instead."
  },
  {
   "property": "C120",
   "status": "proved",
   "theorems": [
    "Verif.Kb.c120_readme",
    "Verif.Kb.c120_capital",
    "Verif.Kb.c120_exists"
   ],
   "note": "c120_readme is what holds, c120_capital the violation (it follows from C74), c120_exists shows that such networks exist for every controller. What the controller issues must have a form in both files (Storable: sizes, times 1970-2106, type numbers 0-65535)."
  },
  {
   "property": "C121",
   "status": "proved",
   "theorems": [
    "Verif.Kb.c121_kept",
    "Verif.Kb.c121_aes",
    "Verif.Kb.c121_aes_distinct",
    "Verif.Kb.c121_nul",
    "Verif.Kb.c121_long",
    "Verif.Kb.c121_nul_dialogue",
    "Verif.Kb.c121_rc4"
   ],
   "note": "c121_nul, c121_nul_dialogue and c121_long prove the violation (RFC 3962 prescribes the same, through HMAC of RFC 2104); c121_aes, c121_aes_distinct and c121_rc4 what holds. c121_kept says it of the program with the hash functions left open: for every pair of passwords there are primitives with which the keys differ. Collisions of SHA-1 or MD4 themselves are not excluded by a proof."
  },
  {
   "property": "C122",
   "status": "proved",
   "theorems": [
    "Verif.KT.c122_loads",
    "Verif.KT.c122_saved",
    "Verif.KT.c122_removed",
    "Verif.KT.c122_added_in_order",
    "Verif.KT.c122_slots_become_entries"
   ],
   "note": "c122_loads, c122_removed and c122_added_in_order by induction over histories; c122_saved that the library's file is the one the history continues with; c122_slots_become_entries is the violation. The MIT tools are modelled by what they do to the records of the file (addition with the 32-bit key version, as they always write it); files with entries of 1 to 3 octets of filler, which they do not write, are the subject of C71."
  },
  {
   "property": "C123",
   "status": "proved",
   "theorems": [
    "Verif.CC.c123_loads",
    "Verif.CC.c123_saved",
    "Verif.CC.c123_stored_in_order",
    "Verif.Kb.c123_removed_shown"
   ],
   "note": "c123_loads, c123_saved, c123_stored_in_order by induction over histories; c123_removed_shown is the violation. The MIT tools are modelled by what they do to the file: appending, and overwriting the times (authtime -1, endtime 0) and for configuration entries the realm of the server. Files without header field are C70, configuration entries C94."
  },
  {
   "property": "C124",
   "status": "proved",
   "theorems": [
    "Verif.Kb.c124_content",
    "Verif.Kb.c124_others",
    "Verif.Kb.c124_success",
    "Verif.Kb.c124_other_name",
    "Verif.Kb.c124_lost",
    "Verif.Kb.c124_lost_ok"
   ],
   "note": "c124_content, c124_others and c124_success prove what holds; c124_other_name, c124_lost and c124_lost_ok the violations. The file system is POSIX with symbolic and hard links, at most 40 links in a path; several savers of one file are C85, permissions C89."
  },
  {
   "property": "C125",
   "status": "proved",
   "theorems": [
    "Verif.Kb.c125_whole",
    "Verif.Kb.c125_renames_only",
    "Verif.Kb.c125_nothing"
   ],
   "note": "c125_whole, c125_renames_only and c125_nothing over all schedules; the file system is that of C124, the reader that of C86."
  },
  {
   "property": "C126",
   "status": "proved",
   "theorems": [
    "Verif.Kb.c126_accepted",
    "Verif.Kb.c126_from_file",
    "Verif.Kb.c126_one_reading",
    "Verif.Kb.c126_sequence_negative",
    "Verif.Kb.c126_mutual",
    "Verif.Kb.c126_mutual_refused",
    "Verif.Kb.c126_ticket_exists",
    "Verif.Kb.c126_answer_exists"
   ],
   "note": "c126_accepted, c126_from_file, c126_one_reading and c126_mutual prove what holds (ApSpec is the service, independent of the program); c126_sequence_negative and c126_mutual_refused the violations; c126_ticket_exists and c126_answer_exists that the hypotheses can be met. Real algorithms. Replays and addresses are not checked by the specified service."
  },
  {
   "property": "C127",
   "status": "proved",
   "theorems": [
    "Verif.Kb.c127_request",
    "Verif.Kb.c127_body",
    "Verif.Kb.c127_reply",
    "Verif.Kb.c127_reply_subkey",
    "Verif.Kb.c127_reply_rc4_subkey",
    "Verif.Kb.c127_then_service",
    "Verif.Kb.c127_nonce_negative",
    "Verif.Kb.c127_answer_exists",
    "Verif.Kb.c127_rc4_subkey_refused",
    "Verif.Kb.c127_rc4_subkey_collision"
   ],
   "note": "c127_request, c127_body, c127_reply and c127_then_service prove what holds (ApSpec is the ticket granting service, independent of the program); c127_reply_subkey and c127_reply_rc4_subkey the answers to requests with a subkey; c127_nonce_negative, c127_rc4_subkey_refused and c127_rc4_subkey_collision the violations; c127_answer_exists that the hypotheses can be met. Real algorithms. The policy of the service is left out."
  },
  {
   "property": "C128",
   "status": "proved",
   "theorems": [
    "Verif.Kb.c128_password_to_service",
    "Verif.Kb.c128_reply_exists",
    "Verif.Kb.c128_kdc_exists"
   ],
   "note": "c128_password_to_service; c128_kdc_exists and c128_reply_exists show that KDCs, networks and replies as assumed exist. Real algorithms. The conditions on clocks and validity are those of RFC 4120; nonces of 2^31 and more are left out (violations of C73 and C127)."
  },
  {
   "property": "C129",
   "status": "proved",
   "theorems": [
    "Verif.Kb.c129_priv_sent",
    "Verif.Kb.c129_priv_read",
    "Verif.Kb.c129_safe_sent",
    "Verif.Kb.c129_safe_read",
    "Verif.Kb.c129_safe_only",
    "Verif.Kb.c129_sequence_negative"
   ],
   "note": "c129_priv_sent, c129_priv_read, c129_safe_sent, c129_safe_read and c129_safe_only prove what holds; c129_sequence_negative the violation. Real algorithms. Checks of time, address and sequence are the program's own and not part of it."
  }
 ]
}