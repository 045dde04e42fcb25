{"id": "C01", "title": "A built credential cache reads back identically", "statement": "Building any credential cache value to bytes and parsing those bytes returns the same cache (same primary principal, same credentials in the same order, same header) with nothing left over, provided every counted field fits its on-disk length prefix and the version is 0x0504.", "quantifier": "every cache value whose components satisfy the stated size limits, any number of credentials, addresses, authdata and name components", "why_tests_cant": "Round-trip tests only compare a handful of literal values; the claim ranges over unbounded lists and byte strings.", "anchors": ["kerberos_ccache/src/ccache.rs: CCache::build, CCache::parse", "kerberos_ccache/src/credential.rs: Credential::build/parse"]}
{"id": "C02", "title": "Every cache record type is self-delimiting", "statement": "For each record type of the cache format (counted string, key block, address, authdata, times, principal, delta time, header, credential), parsing its encoding followed by arbitrary other bytes returns exactly the record and exactly the other bytes.", "quantifier": "every value within the length limits and every trailing byte string", "why_tests_cant": "Tests parse isolated records with an empty remainder; framing bugs only show for particular trailing bytes.", "anchors": ["kerberos_ccache/src/counted_octet_string.rs", "kerberos_ccache/src/key_block.rs", "kerberos_ccache/src/principal.rs", "kerberos_ccache/src/credential.rs", "kerberos_ccache/src/times.rs", "kerberos_ccache/src/address.rs", "kerberos_ccache/src/header"]}
{"id": "C03", "title": "A parsed cache re-serialises to the bytes it was read from", "statement": "If a byte string parses as a credential cache with some remainder, then building the parsed value gives back exactly the consumed bytes, except for the two header-length bytes, which the parser ignores; distinct byte strings therefore never alias to the same cache except through these two bytes.", "quantifier": "every byte string the parser accepts", "why_tests_cant": "Needs all accepted inputs, not samples produced by the serialiser itself.", "anchors": ["kerberos_ccache/src/ccache.rs: CCache::parse/build"]}
{"id": "C04", "title": "A truncated cache file never yields a wrong credential", "statement": "Parsing any prefix of a well-formed cache file (any crash point of the write) either fails or returns a cache with the same principal and a prefix of the original credentials; it never returns an invented, reordered or altered credential. The dropped tail is always visible in the returned remainder when it is non-empty.", "quantifier": "every well-formed cache and every cut position", "why_tests_cant": "There are as many crash points as bytes, times all caches.", "anchors": ["kerberos_ccache/src/ccache.rs: CCache::parse (many0)", "kerbeiros/src/credentials/file.rs: save_data_to_file"]}
{"id": "C05", "title": "Appending a credential to a cache file is the same as adding it to the cache", "statement": "The bytes of a cache with one more credential are the bytes of the cache followed by the bytes of the credential, and parsing a cache file with further encoded credentials appended returns the original credentials followed by the appended ones.", "quantifier": "every cache, every list of appended credentials", "why_tests_cant": "Round-trip tests only compare a handful of literal values; the claim ranges over unbounded lists and byte strings.", "anchors": ["kerberos_ccache/src/ccache.rs"]}
{"id": "C06", "title": "Length prefixes are exact up to their limit and wrap above it", "statement": "A counted string with fewer than 2^32 bytes (cache) or 2^16 bytes (key values, header data, keytab strings) is preserved by a build/parse round-trip; for every longer one the round-trip does not return the original, i.e. the limit is exact and oversize data is silently corrupted rather than rejected.", "quantifier": "every byte-string length, both sides of the limit", "why_tests_cant": "A test cannot enumerate 2^32 lengths nor allocate oversize values.", "anchors": ["kerberos_ccache/src/counted_octet_string.rs: build", "kerberos_keytab/src/counted_octet_string.rs: build", "kerberos_ccache/src/key_block.rs", "kerberos_ccache/src/header/header.rs"]}
{"id": "C07", "title": "The declared header length of a cache file does not influence parsing", "statement": "The parse result of a cache file does not depend on the two header-length bytes: any value there gives the same cache. Consequently files whose header section has zero or several fields, which MIT Kerberos can write, are not read as such: the parser always reads exactly one header field, and a zero-field or two-field file is refused or misread.", "quantifier": "every cache file and every header-length value", "why_tests_cant": "Needs all 65536 header lengths for all files; the violation needs a specific file shape the tests never use.", "anchors": ["kerberos_ccache/src/ccache.rs: CCache::parse"]}
{"id": "C08", "title": "Cache and keytab parsers are total and only consume from the front", "statement": "For every byte string the cache and keytab parsers terminate with a value or an error, never panic (release profile), and on success the remainder is a suffix of the input.", "quantifier": "every byte string", "why_tests_cant": "Termination and absence of panics on all inputs is not testable.", "anchors": ["kerberos_ccache/src", "kerberos_keytab/src"]}
{"id": "C09", "title": "Only version 5.4 caches are accepted", "statement": "Every byte string that does not start with 05 04 is rejected by the cache parser and every accepted cache reports version 0x0504.", "quantifier": "every byte string", "why_tests_cant": "All inputs.", "anchors": ["kerberos_ccache/src/ccache.rs: CCache::parse"]}
{"id": "C10", "title": "A built keytab reads back identically", "statement": "Building a keytab and parsing the bytes returns the same keytab with no remainder, for every keytab whose entries fit the 16-bit counted fields and the 31-bit record size and carry a key version extension or none.", "quantifier": "every keytab value within limits, any number of entries and components", "why_tests_cant": "Round-trip tests only compare a handful of literal values; the claim ranges over unbounded lists and byte strings.", "anchors": ["kerberos_keytab/src/keytab.rs", "kerberos_keytab/src/keytab_entry.rs"]}
{"id": "C11", "title": "A deleted keytab slot is skipped byte-exactly and appears as a blank entry", "statement": "A record with negative size -n consumes exactly n bytes of arbitrary content, leaves the following entries intact, and shows up in the result as the blank default entry (not skipped): a user iterating over the keytab sees one blank entry per hole, and rebuilding the keytab turns the hole into a real blank record.", "quantifier": "every hole size, hole content and surrounding entries", "why_tests_cant": "The content of holes is arbitrary garbage of arbitrary size.", "anchors": ["kerberos_keytab/src/keytab_entry.rs: KeytabEntry::parse"]}
{"id": "C12", "title": "Only the hole size -2^31 can crash the keytab parser, and only with overflow checks", "statement": "Without overflow checks no byte string makes the keytab parser panic; with overflow checks it panics only if some record the parser reaches has size field 80 00 00 00, and a 6-byte file 05 02 80 00 00 00 does panic.", "quantifier": "every byte string, both build profiles", "why_tests_cant": "Exhaustive over inputs; the only failing value is one of 2^32.", "anchors": ["kerberos_keytab/src/keytab_entry.rs: KeytabEntry::parse"]}
{"id": "C13", "title": "A keytab record never reads beyond its declared size", "statement": "Whatever the content of a record with non-negative size n, the parser's result for that record depends only on its n bytes, and the following record starts exactly n bytes later; surplus bytes after the key version are ignored, and a surplus of one to three bytes after the key makes the whole record unreadable.", "quantifier": "every record content, size and following data", "why_tests_cant": "Isolation must hold for hostile counted lengths inside the record.", "anchors": ["kerberos_keytab/src/keytab_entry.rs: KeytabEntry::parse"]}
{"id": "C14", "title": "A truncated keytab yields a prefix of its entries", "statement": "Parsing any prefix (at least the two version bytes) of a well-formed keytab succeeds and returns a prefix of its entries with the cut record left in the remainder, or fails; no altered entry is ever returned.", "quantifier": "every keytab and every cut position", "why_tests_cant": "All crash points.", "anchors": ["kerberos_keytab/src/keytab.rs: Keytab::parse"]}
{"id": "C15", "title": "Re-saving a parsed keytab preserves its entries", "statement": "If bytes parse as a keytab, building the result and parsing again returns an equal keytab with empty remainder (normalisation is idempotent).", "quantifier": "every byte string the keytab parser accepts", "why_tests_cant": "All accepted inputs, including non-canonical ones.", "anchors": ["kerberos_keytab/src/keytab.rs", "kerberos_keytab/src/keytab_entry.rs"]}
{"id": "C16", "title": "Converting a ticket message to a cache and back preserves it", "statement": "Converting a plain KRB-CRED with equally many tickets and infos, all mandatory info fields present and representable (16-bit key and address types, 32-bit times, non-empty names) to a cache and back yields the same tickets and infos.", "quantifier": "every such KRB-CRED", "why_tests_cant": "Unbounded lists and optional-field combinations.", "anchors": ["kerberos_ccache/src/mappers/ccache_mapper.rs", "kerberos_ccache/src/mappers/credential_mapper.rs"]}
{"id": "C17", "title": "Converting a cache to a ticket message and back loses only the documented fields", "statement": "Converting a cache to KRB-CRED and back returns the same credentials except: key etype field, is_skey, authdata and second ticket are reset, the header becomes the default one, the primary principal becomes the client of the first credential, NetBIOS addresses lose trailing white space, all addresses of a credential disappear if one of its NetBIOS addresses is not UTF-8, and the ticket is re-encoded (unchanged when it is in the form the library writes); everything else is unchanged. A cache without credentials gives a message that is refused on the way back.", "quantifier": "every cache whose strings are UTF-8, names non-empty and tickets are DER tickets", "why_tests_cant": "Same.", "anchors": ["kerberos_ccache/src/mappers/ccache_mapper.rs", "kerberos_ccache/src/mappers/credential_mapper.rs"]}
{"id": "C18", "title": "Malformed or encrypted ticket messages are refused, never half-converted", "statement": "KRB-CRED to cache conversion fails with the error naming the cause whenever: the encrypted part uses an encryption type other than 0; its content is not a valid inner part; there is no ticket or no info; or a converted info lacks prealm, pname, srealm, sname or flags (first missing in that order is named).", "quantifier": "every KRB-CRED", "why_tests_cant": "All combinations of missing fields in any position.", "anchors": ["kerberos_ccache/src/mappers/ccache_mapper.rs: krb_cred_to_ccache", "kerberos_ccache/src/mappers/credential_mapper.rs"]}
{"id": "C19", "title": "Tickets stay paired with their own session info", "statement": "A successful KRB-CRED to cache conversion produces exactly min(#tickets,#infos) credentials, the i-th made from the i-th ticket and the i-th info; the opposite conversion produces as many tickets and infos as credentials, in order.", "quantifier": "every KRB-CRED / cache", "why_tests_cant": "List lengths unbounded, mismatched lists.", "anchors": ["kerberos_ccache/src/mappers/ccache_mapper.rs"]}
{"id": "C20", "title": "The cache's primary principal is the first ticket's client", "statement": "After converting KRB-CRED to a cache the primary principal is the realm and name of the first info, and equals the client of the first credential.", "quantifier": "every successfully converted KRB-CRED", "why_tests_cant": "All inputs.", "anchors": ["kerberos_ccache/src/mappers/ccache_mapper.rs: krb_cred_to_ccache"]}
{"id": "C21", "title": "Ticket times survive conversion exactly when they fit 32 bits and are not zero", "statement": "A time converted to the cache and back is unchanged iff its epoch second is in 1..2^32-1 and it carries no fraction (sub-second part is dropped); absent times map to 0 and back; times outside the range come back as a different time (wrap modulo 2^32) and the epoch itself comes back absent.", "quantifier": "every time value", "why_tests_cant": "2^32 boundary, negative times.", "anchors": ["kerberos_ccache/src/mappers/times_mapper.rs", "kerbeiros/src/mappers/times_mapper.rs"]}
{"id": "C22", "title": "NetBIOS address padding", "statement": "Padding a NetBIOS name yields a string whose length is a multiple of 16, that has the name as prefix followed by fewer than 16 spaces, is idempotent, and is undone by trimming for names without trailing white space; a NetBIOS name with non-multiple length survives cache conversion up to padding. A NetBIOS address survives conversion to the cache and back exactly if it is a padded UTF-8 name without other trailing white space; of other bytes each maximal ill-formed part is replaced by U+FFFD.", "quantifier": "every string and every byte string", "why_tests_cant": "All lengths.", "anchors": ["kerberos_asn1/src/host_address.rs: padd_netbios_string", "kerberos_ccache/src/mappers/address_mapper.rs"]}
{"id": "C23", "title": "16-bit narrowing of encryption/address/authdata types is exact only for 0..65535", "statement": "Key, address and authdata types survive conversion to the cache and back iff they lie in 0..65535; every negative type (legal in Kerberos, e.g. Microsoft authdata types) comes back as a different positive number.", "quantifier": "every 32-bit type value", "why_tests_cant": "2^32 values.", "anchors": ["kerberos_ccache/src/mappers/key_block_mapper.rs", "kerberos_ccache/src/mappers/address_mapper.rs", "kerberos_ccache/src/mappers/auth_data_mapper.rs"]}
{"id": "C24", "title": "Principal names survive cache conversion", "statement": "Realm and name of every principal with at least one component convert to the cache principal and back unchanged (name types over the whole signed 32-bit range); the reverse conversion fails iff the realm or a component is not UTF-8 or there is no component.", "quantifier": "every principal", "why_tests_cant": "All strings and byte strings.", "anchors": ["kerberos_ccache/src/mappers/principal_mapper.rs", "kerbeiros/src/mappers/principal_mapper.rs"]}
{"id": "C25", "title": "Saving and loading a credential warehouse is faithful at every crash point", "statement": "A warehouse of credentials saved to a cache file and loaded again gives the same warehouse up to the documented losses (nonce, last-req, key expiration, absent start time replaced by auth time...), and loading the file left by a crash at any byte of the write gives an error or a warehouse whose credentials are a prefix of the saved ones.", "quantifier": "every warehouse, every crash point", "why_tests_cant": "All crash points.", "anchors": ["kerbeiros/src/credentials/credential_warehouse.rs", "kerbeiros/src/credentials/credential.rs", "kerbeiros/src/credentials/file.rs"]}
{"id": "C26", "title": "AES encryption round-trips", "statement": "For both AES ciphers, every key of the right size, every key usage, every 16-byte confounder and every plaintext (including empty and non-block-multiple), decrypting the encryption returns exactly the plaintext.", "quantifier": "every plaintext length, key, usage and confounder", "why_tests_cant": "Ciphertext stealing has separate code paths per length class; lengths are unbounded.", "anchors": ["kerberos_crypto/src/algorithms/aes_hmac_sha1/decrypt.rs: encrypt, decrypt"]}
{"id": "C27", "title": "Ciphertext sizes are exact", "statement": "AES ciphertexts are exactly 28 bytes and RC4 ciphertexts exactly 24 bytes longer than the plaintext, and a decrypted plaintext is exactly that much shorter than the ciphertext.", "quantifier": "every plaintext/ciphertext", "why_tests_cant": "All lengths.", "anchors": ["kerberos_crypto/src/algorithms"]}
{"id": "C28", "title": "Decryption accepts exactly what encryption produces", "statement": "A byte string is accepted by decryption under a key and usage iff it is the encryption of the returned plaintext under that key and usage for some confounder; every other byte string of at least the minimum size is refused with a decryption error. In particular two different ciphertexts accepted with the same result plaintext differ in confounder.", "quantifier": "every byte string, key, usage", "why_tests_cant": "Forgery classes such as malleable last block need all ciphertexts.", "anchors": ["kerberos_crypto/src/algorithms/aes_hmac_sha1/decrypt.rs: decrypt", "kerberos_crypto/src/algorithms/rc4_hmac_md5/encrypt.rs: decrypt"]}
{"id": "C29", "title": "Decryption never panics on attacker-supplied ciphertext", "statement": "For a right-sized key, decryption of every byte string of any length returns a plaintext or a decryption error; strings below the minimum size always give an error. A wrong-sized AES key panics.", "quantifier": "every ciphertext and key size", "why_tests_cant": "All lengths, including slicing edge cases.", "anchors": ["kerberos_crypto/src/algorithms/aes_hmac_sha1/decrypt.rs", "kerberos_crypto/src/ciphers/aes.rs"]}
{"id": "C30", "title": "RC4-HMAC encryption round-trips", "statement": "For every key, every usage, every 8-byte confounder and every plaintext, RC4-HMAC decryption of the encryption returns the plaintext; key usage 3 behaves as usage 8 on both sides, and all other usages are kept distinct.", "quantifier": "every input", "why_tests_cant": "All lengths and usages.", "anchors": ["kerberos_crypto/src/ciphers/rc4.rs", "kerberos_crypto/src/algorithms/rc4_hmac_md5/encrypt.rs"]}
{"id": "C31", "title": "n-fold terminates and equals the RFC 3961 ones-complement definition", "statement": "For every non-empty byte string and every positive output size, n-fold terminates and returns the big-endian ones-complement sum (modulo 2^(8n)-1) of the 13-bit-rotated copies of the input cut into n-byte pieces; an empty input panics.", "quantifier": "every input string and output size", "why_tests_cant": "The end-around carry loop has no obvious bound; tests use the RFC vectors only.", "anchors": ["kerberos_crypto/src/cryptography/nfold_dk.rs: n_fold"]}
{"id": "C32", "title": "Bit rotation used by n-fold is a true rotation", "statement": "Rotating a byte string right by k bits moves bit i to position (i+k) modulo the bit length, for every string and every k; successive rotations add up and a rotation by the full bit length is the identity.", "quantifier": "every string and shift", "why_tests_cant": "All lengths \u00d7 shifts.", "anchors": ["kerberos_crypto/src/cryptography/nfold_dk.rs: rotate_rigth_n_bits"]}
{"id": "C33", "title": "Derived keys have the right length", "statement": "AES key generation returns exactly 16/32 bytes for every password and salt; key derivation returns at least the requested bytes and never loops forever; RC4 keys are 16 bytes.", "quantifier": "every password/salt/usage", "why_tests_cant": "All strings.", "anchors": ["kerberos_crypto/src/algorithms/aes_hmac_sha1/keys.rs", "kerberos_crypto/src/cryptography/nfold_dk.rs: dk"]}
{"id": "C34", "title": "Hexadecimal key strings", "statement": "Printing a key in hexadecimal (either case) and parsing it returns the key; a string of the wrong byte length is refused with the length error; a string is accepted only if each two-character piece is two hex digits \u2014 violated: a '+' followed by one hex digit is accepted, and a non-ASCII string of the right byte length can crash instead of returning an error.", "quantifier": "every string", "why_tests_cant": "All strings.", "anchors": ["kerberos_crypto/src/key.rs: from_rc4_key_string, from_aes_128_key_string, from_aes_256_key_string"]}
{"id": "C35", "title": "Cipher selection is exactly {18,17,23}", "statement": "Requesting a cipher succeeds exactly for encryption types 18, 17 and 23 and the returned cipher reports that same type; every other type is refused with the unsupported-algorithm error. A user key reports exactly the types it can be used with, strongest first.", "quantifier": "every 32-bit type", "why_tests_cant": "2^32 values.", "anchors": ["kerberos_crypto/src/ciphers/factory.rs: new_kerberos_cipher", "kerberos_crypto/src/helpers.rs"]}
{"id": "C36", "title": "Salt for pre-authentication agrees with the library salt", "statement": "For user accounts the salt used to encrypt the AS-REQ timestamp equals the library's salt function; for machine accounts (name ending in '$') the two differ, for every realm and name (violation).", "quantifier": "every realm and user name", "why_tests_cant": "All strings.", "anchors": ["kerberos_crypto/src/algorithms/aes_hmac_sha1/salt.rs", "kerbeiros/src/messages/asreq/timestamp_cipher.rs: calculate_aes_salt"]}
{"id": "C37", "title": "Checksum sizes and functional dependence", "statement": "AES checksums are 12 bytes and RC4 checksums 16 bytes for every key, usage and data, and depend on usage only through its 32-bit value in the stated byte order.", "quantifier": "every input", "why_tests_cant": "All inputs.", "anchors": ["kerberos_crypto/src/checksum.rs"]}
{"id": "C38", "title": "Ciphertexts cannot be replayed under another usage unless the MAC agrees", "statement": "A ciphertext produced for one usage is accepted under another usage only if the truncated HMACs under the two derived integrity keys coincide on the decryption; usages map injectively to derivation constants, so encryption, integrity and checksum keys of any two (usage, purpose) pairs use different constants.", "quantifier": "every pair of usages", "why_tests_cant": "2^64 pairs.", "anchors": ["kerberos_crypto/src/algorithms/aes_hmac_sha1/decrypt.rs: generate_ki_ke", "kerberos_crypto/src/checksum.rs"]}
{"id": "C39", "title": "Every Kerberos message type reads back what was built", "statement": "For each ASN.1 message type of the library, parsing the built bytes followed by arbitrary data returns the same value and exactly that data (times without fraction, flags 32 bit, sizes addressable).", "quantifier": "every value of every message type, every combination of present/absent optional fields", "why_tests_cant": "2^k optional combinations and unbounded lists.", "anchors": ["kerberos_asn1/src"]}
{"id": "C40", "title": "Kerberos flags read back; short and long bit strings are normalised", "statement": "A 32-bit flag word survives build/parse; a received bit string with fewer than 4 bytes is zero-extended on the right and one with more is truncated to its first 32 bits.", "quantifier": "every flag word and every received bit string", "why_tests_cant": "All.", "anchors": ["kerberos_asn1/src/kerberos_flags.rs"]}
{"id": "C41", "title": "Kerberos times never carry fractions on the wire and keep second precision", "statement": "Building a time drops the sub-second part; parsing what was built gives the time truncated to the second, for every date in years 0..9999.", "quantifier": "every date-time", "why_tests_cant": "All dates incl. leap days.", "anchors": ["kerberos_asn1/src/kerberos_time.rs"]}
{"id": "C42", "title": "Principal name comparison is a case-insensitive equivalence", "statement": "Name equality is reflexive, symmetric, transitive, ignores the case of components, and requires same type and number of components; printing joins components with '/'; asking for the main name of an empty name panics.", "quantifier": "every pair/triple of names", "why_tests_cant": "All strings.", "anchors": ["kerberos_asn1/src/principal_name.rs"]}
{"id": "C43", "title": "AS/TGS request and reply-part conversions are lossless", "statement": "Converting between generic and AS-/TGS-specific requests keeps all fields and sets the message type to 10/12; reply parts convert between the three forms with every field unchanged, so any chain of conversions starting and ending at the same form is the identity.", "quantifier": "every value and every chain of conversions", "why_tests_cant": "Unbounded chains.", "anchors": ["kerberos_asn1/src/as_req.rs", "kerberos_asn1/src/tgs_req.rs", "kerberos_asn1/src/enc_as_rep_part.rs", "kerberos_asn1/src/enc_tgs_rep_part.rs", "kerberos_asn1/src/enc_kdc_rep_part.rs"]}
{"id": "C44", "title": "Timestamp microseconds are always within 0..999999", "statement": "The pre-authentication timestamp made from any clock value, including leap seconds, has microseconds in the range RFC 4120 allows.", "quantifier": "every clock reading", "why_tests_cant": "All clock values.", "anchors": ["kerberos_asn1/src/pa_data/pa_enc_ts_enc.rs"]}
{"id": "C45", "title": "Parsing a message never looks beyond its own declared length and never panics", "statement": "For every byte string, parsing any message terminates with value or error, and on success the remainder is a suffix of the input and the result depends only on the consumed bytes.", "quantifier": "every byte string", "why_tests_cant": "All inputs.", "anchors": ["kerberos_asn1/src"]}
{"id": "C46", "title": "AS-REQ options always describe supported encryption types", "statement": "After any sequence of option calls the set of encryption types is a subset of {18,17,23}; a failing call leaves the options unchanged; the offered order is always 18,17,23 restricted to the set, without duplicates; the KDC options are forwardable, renewable, canonicalize and renewable-ok (0x40810010) after every history.", "quantifier": "every call history", "why_tests_cant": "Unbounded histories.", "anchors": ["kerbeiros/src/messages/asreq/options.rs"]}
{"id": "C47", "title": "Every AS-REQ asks for exactly what the user configured", "statement": "The built AS-REQ names the user as principal type 1 and krbtgt/REALM of the given realm as type 2, carries the configured flags and the offered types (or the single type of the key when pre-authenticating), a PAC request iff configured, an encrypted timestamp iff a key was passed, and asks for a validity and a renewal of 20 times 52 weeks from the clock (read separately for each, so the two may differ by the time between the readings).", "quantifier": "every realm, user, options, key, clock and random value", "why_tests_cant": "All inputs.", "anchors": ["kerbeiros/src/messages/asreq/builder.rs"]}
{"id": "C48", "title": "The ticket request dialogue sends at most two messages and its outcome is determined", "statement": "For every KDC behaviour (any bytes or network failure in any exchange) the TGT request sends one request without pre-authentication and at most one with; the second is sent iff the first answer was error 25 and a key is available; every outcome is one of the documented results as a function of the answers.", "quantifier": "every KDC/network behaviour", "why_tests_cant": "All adversarial servers.", "anchors": ["kerbeiros/src/requesters/tgt_requester.rs", "kerbeiros/src/requesters/as_requester.rs"]}
{"id": "C49", "title": "No password-derived data leaves unless the KDC demanded pre-authentication", "statement": "The first message of a TGT request is independent of the user key; an encrypted timestamp is only sent after a reply with error code 25.", "quantifier": "every KDC behaviour, every pair of keys", "why_tests_cant": "Non-interference over all keys.", "anchors": ["kerbeiros/src/requesters/tgt_requester.rs"]}
{"id": "C50", "title": "An honest KDC leads to the issued ticket", "statement": "If the KDC answers with the reply built for the user's key (with or without the pre-authentication round), the requester returns exactly the issued ticket, names and decrypted client part.", "quantifier": "every user, key, ticket and client part", "why_tests_cant": "All values.", "anchors": ["kerbeiros/src/requesters/tgt_requester.rs", "kerbeiros/src/credentials/mappers/credential_krb_info.rs"]}
{"id": "C51", "title": "A reply is accepted only if it answers this request", "statement": "Expected: a TGT reply is refused if its nonce, client or server name differs from the request (RFC 4120 3.1.5). Violated: against recorded answers the result is the same for every nonce, user, realm, option and clock of the request; in particular every reply issued for the user's key is accepted whatever nonce, names, times and addresses it carries.", "quantifier": "every nonce", "why_tests_cant": "2^64 pairs.", "anchors": ["kerbeiros/src/requesters/tgt_requester.rs", "kerbeiros/src/credentials/mappers/credential_krb_info.rs"]}
{"id": "C52", "title": "No KDC reply can crash the requester", "statement": "Expected: for every reply the TGT request returns normally. Violated in exactly two situations, both with a password: the reply carries a malformed ETYPE-INFO2 before any salt, or the KDC demands pre-authentication and no encryption type is configured. Otherwise no crash occurs.", "quantifier": "every KDC behaviour", "why_tests_cant": "All replies.", "anchors": ["kerbeiros/src/credentials/mappers/credential_krb_info.rs: as_rep_encryption_salt", "kerbeiros/src/requesters/as_requester.rs"]}
{"id": "C53", "title": "The decryption salt is the KDC's salt for the used encryption type", "statement": "Expected: the salt used to decrypt a reply is the one ETYPE-INFO2 gives for the type of the reply (RFC 4120 5.2.7.5). This holds if there is exactly one entry (without salt: the empty one). Violated with several entries: it is the first salt listed, whatever its type.", "quantifier": "every reply", "why_tests_cant": "All padata lists.", "anchors": ["kerbeiros/src/credentials/mappers/credential_krb_info.rs: as_rep_encryption_salt"]}
{"id": "C54", "title": "A reply is decrypted with the announced type", "statement": "Expected: a reply is opened with the encryption type it announces. Violated with a cipher key: the key's own type is tried, never the announced one, so that the announced type does not influence the credential obtained. If the key does not open the reply the error is the decryption error, or names both types when they differ; if it opens but holds no reply part the error is that of reading it.", "quantifier": "every key and reply type", "why_tests_cant": "All types.", "anchors": ["kerbeiros/src/credentials/mappers/credential_krb_info.rs: decrypt_enc_kdc_rep_part_with_cipher_key"]}
{"id": "C55", "title": "TCP exchanges are independent of segmentation", "statement": "The request is sent as a 4-byte big-endian length followed by the message; the returned answer is exactly the announced number of bytes after the answer's 4-byte length, for every way the stream is cut into reads; a stream that ends early gives a network error.", "quantifier": "every request, answer and segmentation", "why_tests_cant": "All segmentations.", "anchors": ["kerbeiros/src/transporter/tcp_transporter.rs"]}
{"id": "C56", "title": "UDP answers are returned whole", "statement": "For every datagram length the answer returned is exactly the received datagram, the peek loop terminates, and the buffer is less than twice the needed size or the initial 2048.", "quantifier": "every datagram", "why_tests_cant": "All lengths incl. exact powers of two.", "anchors": ["kerbeiros/src/transporter/udp_transporter.rs"]}
{"id": "C57", "title": "Transport failures surface as network errors only", "statement": "Any I/O failure of the transport yields the network error and no credential; parse failures yield an ASN.1 error, KDC errors the KDC error value.", "quantifier": "every failure point", "why_tests_cant": "All failure points.", "anchors": ["kerbeiros/src/transporter", "kerbeiros/src/error.rs"]}
{"id": "C58", "title": "Name resolution chooses the first address", "statement": "Resolving the KDC of a realm returns the first address of the answer, for every non-empty answer, and the name-resolution error otherwise.", "quantifier": "every resolver answer", "why_tests_cant": "All.", "anchors": ["kerbeiros/src/utils.rs"]}
{"id": "C59", "title": "Messages on the wire are the DER of their ASN.1 type", "statement": "The bytes of every message are the DER encoding of its ASN.1 type in RFC 4120, MS-KILE and MS-SFU (tags, order, optional components, shortest lengths and integers). Violated for unsigned numbers of 2^31 and more (nonces, sequence numbers, key versions), which are written as negative integers.", "quantifier": "every message type and value", "why_tests_cant": "All values.", "anchors": ["kerberos_asn1/src"]}
{"id": "C60", "title": "Components the standard makes optional may be missing", "statement": "For every message type: from any encoding of a message, any set of the components the standard (RFC 4120, MS-KILE, MS-SFU) calls OPTIONAL can be left out, and what remains is read as the same message without them; if any other component is left out it is refused. Violated for the AP-REP encrypted part: without subkey or sequence number it is refused, although RFC 4120 and the type's own documentation make both optional.", "quantifier": "all 60 message types, every message, every encoding of it, every set of components left out, every following data", "why_tests_cant": "All messages times all subsets.", "anchors": ["kerberos_asn1/src: Option fields of all message structs", "kerberos_asn1/src/enc_ap_rep_part.rs"]}
{"id": "C61", "title": "New messages carry version 5 and their message type", "statement": "Default and constructed messages have protocol version 5 and the message type of their kind (10 to 14, 22); constructors keep their arguments.", "quantifier": "every constructor argument and clock value", "why_tests_cant": "All arguments.", "anchors": ["kerberos_asn1/src"]}
{"id": "C62", "title": "Pre-authentication follows the KDC's hint", "statement": "Expected: the pre-authenticated request uses an encryption type and salt the KDC named in its error (RFC 4120 5.2.7.5). Violated: for every KDC that demands pre-authentication, whatever it puts into the error, the same messages are sent; with a password the timestamp is encrypted with the first of 18, 17, 23 the user allows and the salt computed locally from realm and user name.", "quantifier": "every pair of KDC behaviours that demand pre-authentication; every user, key and options", "why_tests_cant": "All hints.", "anchors": ["kerbeiros/src/requesters/tgt_requester.rs: request_2nd_as_req", "kerbeiros/src/messages/asreq/timestamp_cipher.rs"]}
{"id": "C63", "title": "Key derivation parameters named by the KDC are used", "statement": "Expected: the iteration count in s2kparams of ETYPE-INFO2 is used to derive the key (RFC 3962 4). Violated: two replies that differ only in s2kparams open to the same credentials with every key.", "quantifier": "every reply, parameters and key", "why_tests_cant": "All parameters.", "anchors": ["kerbeiros/src/credentials/mappers/credential_krb_info.rs"]}
{"id": "C64", "title": "A request always returns", "statement": "Expected: every request ends with a result. Violated: an exchange does not return exactly when, over TCP, the peer stops taking the request, or keeps the connection open without completing the announced answer; over UDP, when no datagram ever arrives after the request went out.", "quantifier": "every operating system and peer behaviour", "why_tests_cant": "All event sequences.", "anchors": ["kerbeiros/src/transporter/tcp_transporter.rs", "kerbeiros/src/transporter/udp_transporter.rs"]}
{"id": "C65", "title": "Errors other than a demand for pre-authentication are final", "statement": "An error other than 25 in the first answer, and any error in the second, is returned unchanged after exactly the messages sent so far; nothing is retried (also not error 52 over TCP, nor a clock skew).", "quantifier": "every KDC behaviour and error", "why_tests_cant": "All error values.", "anchors": ["kerbeiros/src/requesters/tgt_requester.rs"]}
{"id": "C66", "title": "Error code names", "statement": "For every 32-bit code the text returned is the name of the published constant with that value, and it is empty exactly if there is none; different named codes have different names.", "quantifier": "every 32-bit code", "why_tests_cant": "2^32 codes.", "anchors": ["kerberos_constants/src/error_codes.rs: error_code_to_string"]}
{"id": "C67", "title": "Flag constants set the bits of the standard", "statement": "Adding a KDC option, PA-PAC option or ticket flag to any flag word sets exactly the bit of the standard in the encoded message. Violated by the AP options (bit numbers used as masks: mutual-required sets bit 30 instead of 2, use-session-key bit 31 instead of 1) and by the ticket flag for anonymous tickets (bit 14 instead of 16).", "quantifier": "every flag constant and every flag word", "why_tests_cant": "2^32 flag words.", "anchors": ["kerberos_constants/src/kdc_options.rs", "kerberos_constants/src/ticket_flags.rs", "kerberos_constants/src/pa_pac_options.rs", "kerberos_constants/src/ap_options.rs", "kerberos_asn1/src/kerberos_flags.rs"]}
{"id": "C68", "title": "Ciphertexts, keys and checksums are those of the RFCs", "statement": "Derived keys, AES ciphertexts (confounder, ciphertext stealing, 12-byte HMAC) and AES checksums are those of RFC 3961/3962; RC4 ciphertexts and checksums those of RFC 4757; keys from passwords are DK(PBKDF2(password, salt, 4096 iterations), 'kerberos') and MD4 of the little-endian UTF-16 password. Violated for RC4 with usages 9 and 23, where RFC 4757 prescribes the message types 8 and 13 and the usage number is used unchanged.", "quantifier": "every key of the right size, usage, message, confounder, password and salt; every lawful block cipher and hash", "why_tests_cant": "All inputs.", "anchors": ["kerberos_crypto/src/algorithms", "kerberos_crypto/src/ciphers", "kerberos_crypto/src/checksum.rs"]}
{"id": "C69", "title": "The cryptographic guarantees with the real algorithms", "statement": "With AES as in FIPS 197, SHA-1, MD5, MD4, HMAC, RC4 and PBKDF2 as in the standards, and nothing assumed of them: every cipher decrypts what it encrypted, for every key of its size and every password and salt; decryption accepts exactly the byte strings encryption can produce and otherwise returns one of its two errors; keys from passwords and ciphertexts are those of RFC 3962 and RFC 4757.", "quantifier": "every key, password, salt, usage, plaintext, confounder and ciphertext", "why_tests_cant": "All inputs; unit tests use a few dozen vectors.", "anchors": ["kerberos_crypto/src/cryptography", "kerberos_crypto/src/algorithms", "kerberos_crypto/src/ciphers"]}
{"id": "C70", "title": "Cache files are those of the MIT format", "statement": "A cache within the size limits is written as a valid MIT credential cache of version 4 with the same content, byte for byte (unless the format 3 field `etype` of a key is set). Expected: every valid version 4 file is read with exactly its content. Violated: this holds if and only if the file has exactly one header field and every key is shorter than 65536 bytes; a file without header fields for an ordinary user is accepted and read with a different principal and no credentials, or rejected.", "quantifier": "every cache; every valid version 4 file", "why_tests_cant": "All files; the unit tests use files with exactly one header field.", "anchors": ["kerberos_ccache/src/ccache.rs", "kerberos_ccache/src/header/header.rs", "kerberos_ccache/src/key_block.rs"]}
{"id": "C71", "title": "Keytab files are those of the MIT format", "statement": "A keytab with version bytes 5 and 2 within the limits is written as a valid MIT keytab of version 2 with the same entries. Expected: every valid version 2 file is read with exactly its entries. Violated: this holds if and only if the file has no deleted slots, no entry followed by one to three bytes of filler and no end mark; what is shown otherwise is stated exactly. Files of other versions are accepted as if they were version 2.", "quantifier": "every keytab; every sequence of records, filler, deleted slots and end mark", "why_tests_cant": "All files.", "anchors": ["kerberos_keytab/src/keytab.rs", "kerberos_keytab/src/keytab_entry.rs"]}
{"id": "C72", "title": "From the KDC's reply to the cache file", "statement": "With the real algorithms: if an honest KDC answers (at once or after demanding pre-authentication) with a reply for the user's key, the request returns the issued ticket; saving it writes exactly the MIT version 4 file with this ticket, session key, names, times and addresses; loading that file gives the ticket back with only the documented losses.", "quantifier": "every user, key, option, KDC reply that fits the file format, and every pair of environments", "why_tests_cant": "All replies and keys; crosses six crates.", "anchors": ["kerbeiros/src/requesters/tgt_requester.rs", "kerbeiros/src/credentials/credential_warehouse.rs", "kerberos_ccache/src/ccache.rs"]}
{"id": "C73", "title": "With a KDC that follows RFC 4120 the request returns the ticket it issued", "statement": "Expected: whenever the network brings each message to a KDC that follows RFC 4120 and brings back its answer, and the account has the user's password or key for an allowed type, the request returns exactly the ticket the KDC issued, carrying the nonce of the last message, after one message, or two if the account needs pre-authentication. This holds over TCP with the answer in any pieces and over UDP. Violated for half of the random nonces (2^31 and more): the message is then no AS-REQ of RFC 4120, because the nonce is written as a negative number.", "quantifier": "every KDC, account, user, password or key, options, clocks within five minutes, random values and network schedule", "why_tests_cant": "All KDC behaviours allowed by the RFC.", "anchors": ["kerbeiros/src/requesters/tgt_requester.rs", "kerbeiros/src/messages/asreq", "kerbeiros/src/credentials/mappers", "kerberos_asn1/src"]}
{"id": "C74", "title": "Pre-authentication uses the salt of the account", "statement": "Expected: the password key for the timestamp uses the salt the KDC announces or RFC 4120's default salt (realm followed by the name). Violated: the salt is always the upper-case realm followed by the lower-case name, which is the default salt exactly if the realm is in upper case and the user name in lower case and does not end in '$'; the announced salt is ignored. So at a KDC that uses the default salt and demands pre-authentication, a user named 'Administrator' with the right password and an AES key is refused (error 24 or 37), unless the timestamp encrypted with the key of the one salt happens to open with the key of the other.", "quantifier": "every realm, user name, password and KDC hint", "why_tests_cant": "All names; unit tests use lower-case ones.", "anchors": ["kerbeiros/src/messages/asreq/timestamp_cipher.rs: calculate_aes_salt"]}
{"id": "C75", "title": "Only types the user's key can open are offered", "statement": "Expected: with a cipher key the request offers only the type of this key, so that the KDC does not answer with another. Violated: the first message is the same for every key and password and offers every allowed type; a KDC that follows RFC 4120 and shares the key may then answer with another key of the account, and the request fails.", "quantifier": "every key, user, options and KDC", "why_tests_cant": "All keys.", "anchors": ["kerbeiros/src/requesters/tgt_requester.rs", "kerbeiros/src/messages/asreq/builder.rs"]}
{"id": "C76", "title": "Only encodings of a message are read as that message", "statement": "For each message type: a byte string is read as a value with some rest if and only if it is an encoding of that value, by the ASN.1 module of the type with the freedoms a reader has (integers of up to four octets in any length, flags of any length, any non-zero octet for TRUE), followed by the rest. So nothing with a missing, repeated, reordered or unknown component, a wrong tag, a longer number or a time with a letter in it is read, and every encoding is.", "quantifier": "all 60 message types, every input, every value", "why_tests_cant": "All byte strings.", "anchors": ["kerberos_asn1/src", "kerberos_asn1/src/kerberos_flags.rs", "kerberos_asn1/src/kerberos_time.rs"]}
{"id": "C77", "title": "The Windows file and the Linux file of the same credentials agree", "statement": "Expected: saving credentials as a Windows file and converting that to a credential cache gives the cache that saving as a Linux file gives, and the other way round. Violated: the converted cache is the saved one exactly if its owner is the client of the first credential and every credential has a start time and no padata; otherwise a missing start time becomes zero instead of the authentication time, the padata is dropped and the owner replaced; a Windows file of no credentials cannot be converted. In the other direction the tickets are always the same, and the whole message exactly if no authentication, start or end time is zero.", "quantifier": "every collection of credentials; every cache that loads", "why_tests_cant": "All credentials and caches.", "anchors": ["kerbeiros/src/credentials/file.rs", "kerbeiros/src/credentials/mappers", "kerbeiros/src/mappers/times_mapper.rs", "kerberos_ccache/src/mappers"]}
{"id": "C78", "title": "What == between messages means", "statement": "For every message type, == holds exactly if the two values are the same after putting the principal names in lower case; it is an equivalence; realms, texts and everything else are compared exactly. Credentials and collections of credentials compare in the same way. Expected: values that compare equal are the same message, with the same bytes. Violated: this holds exactly for the 38 message types without a principal name in them; two tickets for services that differ in letter case compare equal and have different bytes.", "quantifier": "all 60 message types and every pair of values", "why_tests_cant": "All pairs of values.", "anchors": ["kerberos_asn1/src/principal_name.rs", "kerberos_asn1/src: derived PartialEq", "kerbeiros/src/credentials/credential.rs"]}
{"id": "C79", "title": "Texts in the files are UTF-8", "statement": "The bytes of a text in a cache or keytab are its UTF-8 encoding; a string of a file can be read as a text exactly if it is valid UTF-8, and that text written again gives the same bytes; a text written and read is the same exactly if it has fewer than 2^32 bytes (cache) or 2^16 bytes (keytab).", "quantifier": "every text and every byte string", "why_tests_cant": "All texts and byte strings.", "anchors": ["kerberos_ccache/src/counted_octet_string.rs", "kerberos_keytab/src/counted_octet_string.rs"]}
{"id": "C80", "title": "Memory for an answer is bounded by what the peer sent", "statement": "Expected: the memory reserved for an answer is bounded by the bytes received. Over UDP it is at most 2048 bytes or twice the datagram. Violated over TCP: the buffer has the announced size as soon as four bytes arrived, so four bytes from the peer reserve any amount up to 2^32 - 1.", "quantifier": "every peer behaviour and request", "why_tests_cant": "All announced lengths and event sequences.", "anchors": ["kerbeiros/src/transporter/tcp_transporter.rs", "kerbeiros/src/transporter/udp_transporter.rs"]}
{"id": "C81", "title": "Default messages are empty, readable and of the right protocol version", "statement": "A message made by Default::default() has exactly the octets of an empty message of its type (zeroes, empty texts and lists, no optional parts) and is read back as the same value. Expected: it carries protocol version 5 and its message type. Violated for exactly tickets, AP-REP, KRB-SAFE, KRB-PRIV and KRB-ERROR: version 0 and type 0, so a KRB-ERROR made by filling in a default is sent with version 0.", "quantifier": "every message type, every default time and time of the call", "why_tests_cant": "All 60 types and all clock values; tests look at a few types.", "anchors": ["kerberos_asn1/src/ticket.rs", "kerberos_asn1/src/krb_error.rs", "kerberos_asn1/src/krb_priv.rs", "kerberos_asn1/src/krb_safe.rs", "kerberos_asn1/src/ap_rep.rs", "kerberos_asn1/src/as_req.rs"]}
{"id": "C82", "title": "Loading a cache file and saving it again keeps its credentials", "statement": "A cache file loads exactly if it parses, its principals are UTF-8 with at least one component and every ticket is a ticket. Saving what was loaded keeps the owner and every credential in order, changing only the header (default), the second type field of the key, is_skey and second ticket (reset), the spelling of the ticket (as the library writes it), white space at the end of NetBIOS addresses, and dropping all addresses of a credential with a NetBIOS address that is not UTF-8. The file so written is stable: load and save again and it is the same byte for byte; without white space at the end of NetBIOS addresses it loads to the same warehouse.", "quantifier": "every file content", "why_tests_cant": "All byte strings as files.", "anchors": ["kerbeiros/src/credentials/credential.rs", "kerbeiros/src/credentials/credential_warehouse.rs", "kerbeiros/src/mappers"]}
{"id": "C83", "title": "Messages of different kinds are told apart", "statement": "The first byte of a message is the application tag of RFC 4120 section 5.10 for its kind, and no byte string is read as messages of two kinds with application tags; the bytes of one kind are refused by every other. So an answer that is any message other than an AS-REP or KRB-ERROR ends the request with a parse error. A reply whose decrypted part has the tag of a TGS reply part, which RFC 4120 section 5.4.2 says some KDCs send and lets clients accept, is refused too. Types without application tag are not told apart: a key, an address, a checksum and an authorization-data entry can have the same bytes.", "quantifier": "all 60 message types, every value, every input, every KDC answer", "why_tests_cant": "All pairs of types and values.", "anchors": ["kerberos_asn1/src", "kerbeiros/src/requesters/as_requester.rs", "kerbeiros/src/credentials/mappers/credential_krb_info.rs"]}
{"id": "C84", "title": "Protocol numbers are those of the standards", "statement": "Expected: the public constants for encryption, checksum, address, authorization data, pre-authentication and name types have the numbers that RFC 3961, 3962, 4120, 4757 and MS-KILE give to the same names, and numbers tell constants of one kind apart; the constants for message types are the application tags of the messages on the wire. Violated for one constant: checksum type RSA_MD4_DES is 4, the number of des-mac.", "quantifier": "all public constants of the tables, every message of the types with a constant", "why_tests_cant": "The tables are complete; tests use a handful of constants. Message types: every value.", "anchors": ["kerberos_constants/src"]}
{"id": "C85", "title": "Several processes saving to the same path", "statement": "Whatever the number of processes saving to one path and the interleaving of their system calls: until one of them opens the file it is as before; from then on nothing of the old content is left and every byte is one that some process has for that place, or zero. Processes saving the same data, all told Ok, leave the data; a process that opens the file last and is left alone behaves as if alone (C25). Expected: if all are told Ok, the file is what one of them saved. Violated: for any two contents there is an interleaving in which both are told Ok and the file is one followed by the tail of the other, or has zeros inside; with caches of one owner the result can be a sound cache that neither saved.", "quantifier": "every number of processes, contents and interleaving, with every result of each system call", "why_tests_cant": "All interleavings.", "anchors": ["kerbeiros/src/credentials/file.rs: save_data_to_file"]}
{"id": "C86", "title": "Reading a file while it is being saved", "statement": "A reader that is not disturbed by a save gets the whole content of the file at that moment, however its reads are cut: the old content, or a beginning of the new one. Otherwise each byte is the one of the old content for that place, one that some process had for it, or zero. Expected: a reader gets a content that was in the file at some moment. Violated: for any old and new content the reader can end, without any error, with the beginning of the old and the end of the new; for a renewed ticket it loads the old session key together with the new ticket.", "quantifier": "every number of savers, contents, interleavings and read sizes", "why_tests_cant": "All interleavings.", "anchors": ["kerbeiros/src/credentials/file.rs: save_data_to_file", "kerbeiros/src/credentials/credential_warehouse.rs: documentation", "kerberos_ccache/src/lib.rs: documentation"]}
{"id": "C87", "title": "Messages go only to the KDC, over the chosen transport, whatever its address", "statement": "After every history of settings a request sends only to port 88 of the address the requester was made with, over the transport chosen last (TCP if none was); its result depends on nothing else on the network. By name it is the request to the first address the resolver gives, and without one the name resolution error with nothing sent. A KDC that answers is used in the same way over TCP and over UDP. Expected: also when its address is IPv6. Violated: over UDP every request to an address that is not IPv4 fails with the network error and sends nothing (the socket is bound to an IPv4 address), even if the resolver also gave IPv4 addresses.", "quantifier": "every history of settings, operating system behaviour, address and reply", "why_tests_cant": "All histories, networks and addresses; no test can hold the network's behaviour universally.", "anchors": ["kerbeiros/src/transporter/mod.rs: new_transporter", "kerbeiros/src/transporter/udp_transporter.rs: request_and_response_udp", "kerbeiros/src/requesters/as_requester.rs: set_transport_protocol", "kerbeiros/src/utils.rs: resolve_realm_kdc"]}
{"id": "C88", "title": "Replies too big for UDP are asked for over TCP", "statement": "Expected (RFC 4120 7.2.1): when the KDC answers over UDP with error 52, the client sends the request again over TCP. Violated: as first or second answer it ends the request with that error, after datagrams only, whatever the KDC would answer over TCP. After choosing TCP by hand the requester gets what the KDC answers over TCP.", "quantifier": "every requester, history of settings, KDC and reply", "why_tests_cant": "All KDC behaviours.", "anchors": ["kerbeiros/src/requesters/tgt_requester.rs: process_1st_krb_error, request_2nd_as_req", "kerbeiros/src/transporter/udp_transporter.rs"]}
{"id": "C89", "title": "Saved credential files are readable by their owner only", "statement": "Expected: a file with session keys that kerbeiros saves is for its owner only. Violated: whatever the disk does and wherever the process stops, a file that is created is private exactly if the umask of the process removes all access of group and others, and a file that existed exactly if it was private; nothing in the save restricts it. Under a umask that lets others read (022 is usual), every successful save to a new file leaves a file that every user of the machine may read, with the session keys in the clear in both formats, and from which anybody can load the credentials.", "quantifier": "every warehouse, umask, previous file, and result of each system call", "why_tests_cant": "All umasks, disks and crash points.", "anchors": ["kerbeiros/src/credentials/file.rs: save_data_to_file"]}
{"id": "C90", "title": "Error texts tell the cause and nothing of the secret", "statement": "The text of a failed ticket request tells the cause: 'Network error' exactly if the transport failed, 'Received ...' exactly if the KDC refused, 'Asn1 error: ...' exactly if the answer was no Kerberos reply, 'Error parsing AsRep: ...' exactly if a reply came that the key does not open or whose content is malformed. It reveals nothing of the password or key but whether it opens the reply: for given answers of the KDC and a given kind of key there are at most two errors, whatever the secret, user, options, clock and randomness.", "quantifier": "every KDC behaviour, key, user, options, clock and random numbers", "why_tests_cant": "All KDC answers and all secrets; non-interference relates all pairs of runs.", "anchors": ["kerbeiros/src/error.rs", "kerberos_crypto/src/error.rs", "kerbeiros/src/requesters"]}
{"id": "C91", "title": "Debug output of a key hides the secret", "statement": "Expected: formatting a key for debugging does not reveal it. Violated for every key: of a password the output is the password in quotation marks, with quotation marks, backslashes and characters that are not printable escaped, so that different passwords print differently, and of a cipher key it determines every byte.", "quantifier": "every password and cipher key", "why_tests_cant": "All secrets.", "anchors": ["kerberos_crypto/src/key.rs: derive(Debug) of Key"]}
{"id": "C92", "title": "What a returned ticket proves about its origin", "statement": "A request returns a credential only if its client part (session key, times, flags, server, addresses) came out of an encryption, under the user's key or a key made from the user's password, for key usage 3. Expected: its realm, client name and ticket too belong to what was asked for. Violated: they are taken from the unprotected part of the reply and compared with nothing; for any realm, client and ticket there is one way of changing answers in transit, made without any key, that makes every request that would succeed return them beside the genuine session key.", "quantifier": "every KDC and network behaviour, key, user, options; every forged realm, client and ticket", "why_tests_cant": "All adversarial answers; one attacker against all keys.", "anchors": ["kerbeiros/src/requesters/tgt_requester.rs", "kerbeiros/src/credentials/mappers/credential_krb_info.rs", "kerbeiros/src/credentials/credential.rs"]}
{"id": "C93", "title": "The user's choice of encryption types is respected", "statement": "Without a key or with a password every message offers only types the user allows. Expected: also with a cipher key, and replies of other types are refused. Violated: with a cipher key of a type that is not allowed the second message offers exactly that type; and a reply encrypted with a type that is not allowed, or with a session key of such a type, is accepted.", "quantifier": "every user, key, options, KDC behaviour and reply", "why_tests_cant": "All KDC behaviours and option sets.", "anchors": ["kerbeiros/src/requesters/tgt_requester.rs", "kerbeiros/src/messages/asreq/builder.rs"]}
{"id": "C94", "title": "Caches with MIT configuration entries load", "statement": "Expected: a cache file that kinit wrote, with configuration entries (realm X-CACHECONF:) whose values are text, loads with its tickets. Violated: one such entry makes the whole file refused, as a warehouse and by the conversion to KRB-CRED, whatever tickets it holds; with these entries removed the file loads with every ticket.", "quantifier": "every valid MIT cache with one header field and a configuration entry whose value is ASCII text", "why_tests_cant": "All files of the format.", "anchors": ["kerbeiros/src/credentials/credential.rs", "kerbeiros/src/credentials/credential_warehouse.rs", "kerberos_ccache/src/mappers/ccache_mapper.rs"]}
{"id": "C95", "title": "Reading a message and writing it again does not make it longer", "statement": "For each message type without flags, what is read from an input and written again is at most as long as the part of the input that was used, whatever longer spellings are accepted. So every cache file that loads can be saved. Expected for all types; violated for the thirteen types with flags in them: flags of fewer than 32 bits are written with 32, and the message can become longer, but never more than five times as long.", "quantifier": "all 60 message types, every input, every leniency of the ASN.1 crate other than accepting numbers without content or times in short forms", "why_tests_cant": "All inputs of all types.", "anchors": ["kerberos_asn1/src/kerberos_flags.rs", "kerberos_asn1/src/ticket.rs", "kerbeiros/src/credentials/credential_warehouse.rs"]}
{"id": "C96", "title": "A single AS exchange hands over whatever answer comes", "statement": "AsRequester sends exactly one message, to the KDC it was made for over the transport chosen last. Without a key it has no pre-authentication data; with one it carries the current time encrypted under the user's key at once, before any demand. The caller gets the network error, the ASN.1 error, the KDC's error or the reply, according to the form of the answer alone: the key, the names, the times and the nonce are not looked at. A password with no encryption type set crashes it before anything is sent.", "quantifier": "every KDC behaviour, user, key, options, clock, random value and history of settings", "why_tests_cant": "All behaviours of the peer.", "anchors": ["kerbeiros/src/requesters/as_requester.rs: AsRequester::request", "kerbeiros/src/messages/asreq/builder.rs"]}
{"id": "C97", "title": "A requester can be used again and again", "statement": "Only the setters change a requester: after every history of settings and requests, whatever the requests did (errors, broken connections, caught crashes), each call returns what it would return on a new requester with the same settings; a ticket request sends at most two messages, a single exchange at most one, a setter none. Every ticket request starts without pre-authentication and is the same for every key, also when the KDC has demanded pre-authentication before; while the KDC never demands it, the messages of a whole life of the requester do not depend on the keys. After wrong passwords and failures a request with the right password returns the ticket that a KDC of RFC 4120 issues.", "quantifier": "every history of settings, ticket requests and single exchanges, every KDC and network whose behaviour may depend on all earlier messages", "why_tests_cant": "All histories, and all behaviours of the peer in each.", "anchors": ["kerbeiros/src/requesters/tgt_requester.rs: TgtRequester::request", "kerbeiros/src/requesters/as_requester.rs: AsRequester::request"]}
{"id": "C98", "title": "A password and the key derived from it are interchangeable", "statement": "A user who hands the client a password and a user who hands it the key derived from that password get the same: the pre-authenticated request is identical byte for byte when the key is of the strongest configured type and derived with the realm-and-user salt (any salt for RC4); an AS-REP of that type announcing the salt yields the same credential or the same error; hence the whole dialogue sends the same messages and ends alike. With a key of a weaker type the request names another type.", "quantifier": "every password, user, realm, options, clock and random values, every KDC and network behaviour whose replies have the configured type and announce the account's salt", "why_tests_cant": "All passwords and all behaviours of the peer; two runs are compared.", "anchors": ["kerbeiros/src/messages/asreq/timestamp_cipher.rs: TimestampCipher", "kerbeiros/src/credentials/mappers/credential_krb_info.rs: CredentialKrbInfoMapper::kdc_rep_to_credential", "kerbeiros/src/requesters/tgt_requester.rs: TgtRequester::request"]}
{"id": "C99", "title": "Converting back and forth between cache and ticket message settles after one step", "statement": "Converting a credential cache to a KRB-CRED and back may drop what C17 lists, but only once: the resulting cache converts again and comes back equal, so any number of round trips has the result of the first. Starting from a message whose address types are 16-bit numbers, the cache made of it comes back equal from the first round trip on; with a wider address type (65556 is stored as 20) one more step may trim it.", "quantifier": "every cache, every message, any number of conversions", "why_tests_cant": "All contents and all lengths of the chain of conversions.", "anchors": ["kerberos_ccache/src/mappers/ccache_mapper.rs", "kerberos_ccache/src/mappers/credential_mapper.rs", "kerberos_ccache/src/mappers/address_mapper.rs"]}
{"id": "C100", "title": "No two AES key usages or purposes share a key", "statement": "For every AES-128 or AES-256 key: the keys derived from it are different for different key usage numbers (all 2^32 of them) and, for one usage, different for the purposes encryption, integrity and checksum. So messages encrypted for two usages are protected by four different keys, and a checksum key is never an encryption or integrity key of any usage. RC4, which follows RFC 4757, is the exception: there usages 3 and 8, and no others, are treated as the same.", "quantifier": "every key, every pair of usages and purposes, every message", "why_tests_cant": "2^40 derivation constants and every key; a collision for one pair would never show up in a test.", "anchors": ["kerberos_crypto/src/cryptography/nfold_dk.rs", "kerberos_crypto/src/algorithms/aes_hmac_sha1/decrypt.rs", "kerberos_crypto/src/algorithms/aes_hmac_sha1/keys.rs", "kerberos_crypto/src/checksum.rs"]}
{"id": "C101", "title": "Memory for loading a file is bounded by the size of the file", "statement": "Parsing a cache file, whatever its bytes and whether or not it is accepted, asks the allocator for at most 49 bytes per byte of the file plus 65 KiB in total; a keytab for at most 165 per byte plus 65 KiB. It asks for no less than what the loaded value keeps. Announced numbers of elements do not matter. This needs nom 7.1.2 or later, which limits what a list reserves in advance. Violated with earlier versions of nom 7, which Cargo.toml also allows: there a cache file of 20 bytes asks for any amount up to 96 GiB before it is refused (a keytab for at most 1.5 MiB).", "quantifier": "every byte string as cache or keytab file", "why_tests_cant": "All files, including hostile counts; total over the whole run of the parser.", "anchors": ["kerberos_ccache/src/ccache.rs", "kerberos_ccache/src/credential.rs", "kerberos_ccache/src/principal.rs", "kerberos_keytab/src/keytab_entry.rs"]}
{"id": "C102", "title": "A printed name identifies the principal", "statement": "Expected: names that print alike have the same components. Holds for all names whose components contain no slash. Violated otherwise: a name of components a and b prints like the single component a/b, for all a, b. Expected: every name that can be received can be printed. Violated: a name without components is read from the wire, and printing it or asking for its main name crashes; such a name can be planted in transit in the reply to any request, and the credential is then saved but cannot be loaded.", "quantifier": "every pair of names; every request, key, KDC and network behaviour", "why_tests_cant": "All texts as components, all replies.", "anchors": ["kerberos_asn1/src/principal_name.rs", "kerbeiros/src/mappers/principal_mapper.rs"]}
{"id": "C103", "title": "What is sent shows only the kind of the secret, not its length or content", "statement": "Two users with the same name and options, with secrets of one kind (any two passwords, of whatever lengths, or any two keys of one type), who get the same answers at the same times, send equally many messages of equal lengths. The first messages are equal. The second ones, if sent, are equal except for one run of bytes of equal length, which is the encryption of the same current time under the two keys; if one of them cannot be built, neither can the other, with the same error. This holds whatever random bytes are drawn.", "quantifier": "every pair of secrets of one kind, every sequence of answers, every clock, nonce and random bytes", "why_tests_cant": "A relation between two runs, for all pairs of secrets.", "anchors": ["kerbeiros/src/messages/asreq/builder.rs", "kerbeiros/src/messages/asreq/timestamp_cipher.rs", "kerbeiros/src/requesters/tgt_requester.rs"]}
{"id": "C104", "title": "Accounts with the same password have different keys", "statement": "The salt is what keeps two accounts with one password from having one key. Within a realm two accounts share a salt exactly when their names are equal up to letter case, or when one is a machine account NAME$ and the other a user called hostNAME (in the crypto library's own salt: hostNAME.realm). Across realms, for names that begin with a letter, accounts share a salt only if the realms are equal up to letter case and the names share one within it. Otherwise (violations) a character without case at the boundary can belong to the realm or the name, so that LAB1/23bob and LAB12/3bob share their salt; accounts that share a salt and a password have the same key for their requests; and RC4 has no salt: all accounts of all realms with one password have one key.", "quantifier": "every realm, name, letter-case table (for the across-realms part, ASCII's), password and option set", "why_tests_cant": "Needs injectivity over all pairs of accounts, with the exact exceptions.", "anchors": ["kerberos_crypto/src/algorithms/aes_hmac_sha1/salt.rs", "kerbeiros/src/messages/asreq/timestamp_cipher.rs", "kerberos_crypto/src/algorithms/rc4_hmac_md5/key.rs"]}
{"id": "C105", "title": "Answers of another protocol version or message type are refused", "statement": "Violated: the protocol version and message type inside an answer are read and never looked at. Of an AS-REP exactly client realm, client name, ticket, the encrypted part's type and ciphertext and the ETYPE-INFO2 elements matter: two networks whose replies agree in these lead to the same messages and the same result, whatever version, type, key version and other pre-authentication data the replies carry. A reply that calls itself version 4 and type 99 is accepted like a proper one, and an error with any version and type and code 25 makes the client send its encrypted timestamp.", "quantifier": "every pair of networks whose replies agree in the named parts, every version and type, key and option set", "why_tests_cant": "A relation between two runs over all networks.", "anchors": ["kerbeiros/src/requesters/as_requester.rs", "kerbeiros/src/requesters/tgt_requester.rs", "kerbeiros/src/credentials/mappers/credential_krb_info.rs"]}
{"id": "C106", "title": "The clock offset of a cache file is used and kept", "statement": "The header of a cache file can state how far the KDC's clock is ahead of the client's. Expected: a saved file states the real offset or none, and an offset in a loaded file is kept. Violated: every file the library saves states an offset of minus one second and zero microseconds, exactly this and no other, for all credentials; two files that differ only in the value of the header field load to equal warehouses; so an offset in a loaded file is replaced by minus one second when saved again. The offset type of the cache library itself writes and reads every pair of signed 32-bit numbers.", "quantifier": "every warehouse, disk behaviour, cache file, pair of header fields and offset", "why_tests_cant": "All files and all offsets; equality of two loads for every rest of the file.", "anchors": ["kerberos_ccache/src/header/delta_time.rs", "kerberos_ccache/src/header/header.rs", "kerbeiros/src/credentials/credential_warehouse.rs"]}
{"id": "C107", "title": "Debug output hides keys", "statement": "Expected: printing a cache, keytab, credential or credential store for debugging does not show the keys in it. Violated: the text shows, in decimal, every session key and ticket of a cache, every key of a keytab and every session key of a credential or store. The text of a cache or keytab even determines the whole of it: different ones print differently.", "quantifier": "every cache, keytab, credential and store; every pair of caches and of keytabs", "why_tests_cant": "Injectivity of the printed form over all values.", "anchors": ["kerberos_ccache/src/key_block.rs", "kerberos_ccache/src/credential.rs", "kerberos_keytab/src/keytab_entry.rs", "kerbeiros/src/credentials/credential.rs", "kerbeiros/src/credentials/credential_warehouse.rs", "kerberos_asn1/src/encryption_key.rs"]}
{"id": "C108", "title": "No request is sent twice", "statement": "In the life of a requester (any sequence of settings, ticket requests and single exchanges, any KDC) no two messages sent are equal, as long as no random nonce comes up twice. Two requests without pre-authentication are equal exactly if they are for the same user and realm with the same flags, offered types and PAC choice, with the same nonce and clock readings to the second. Two requests with pre-authentication by the same user, key and options are equal exactly if nonce, clock readings, time stamp to the microsecond and random bytes agree. A request with pre-authentication never equals one without.", "quantifier": "every history of calls, every KDC and network behaviour, every pair of requests", "why_tests_cant": "Histories of any length and all pairs of requests; needs injectivity of encoding and encryption.", "anchors": ["kerbeiros/src/messages/asreq/builder.rs", "kerbeiros/src/messages/asreq/timestamp_cipher.rs", "kerbeiros/src/requesters/tgt_requester.rs", "kerbeiros/src/requesters/as_requester.rs"]}
{"id": "C109", "title": "Requests running at the same time do not disturb each other", "statement": "Any number of threads request tickets at the same time, sharing requesters or not, their steps in any order, the KDCs' answers depending in any way on what everyone has sent. A request that has returned has the result, and has sent the messages, that it has alone with a network giving it the answers it got here. No request waits for another thread: with four turns of its own (send, receive, send, receive) it has returned. If each thread's answers depend only on its own messages, every order of the steps gives the same results and messages.", "quantifier": "every number of threads, every interleaving of their steps, every KDC and network behaviour", "why_tests_cant": "Unboundedly many interleavings; a test runs a few.", "anchors": ["kerbeiros/src/requesters/tgt_requester.rs", "kerbeiros/src/requesters/as_requester.rs", "kerbeiros/src/messages/asreq/builder.rs"]}
{"id": "C110", "title": "The work to load a file is proportional to its size", "statement": "Loading a cache file takes at most 21 steps for each byte of the file and 4 more, loading a keytab at most 77 for each byte and 5 more; a step is a read of a field or copying one byte. It holds whatever the file contains, whatever counts and lengths it announces, and whether or not it is accepted, so no small file can keep the program busy. A cache file that is accepted takes at least one step for every four bytes.", "quantifier": "every byte string, both overflow modes, every version of nom 7", "why_tests_cant": "All files of all sizes; a test measures a few, and a hostile file is crafted to be the one not tested.", "anchors": ["kerberos_ccache/src/ccache.rs", "kerberos_ccache/src/credential.rs", "kerberos_ccache/src/principal.rs", "kerberos_keytab/src/keytab.rs", "kerberos_keytab/src/keytab_entry.rs"]}
{"id": "C111", "title": "How long a request is", "statement": "Every message the client sends to obtain a ticket, whatever the key domain controller answers, is at most 262 bytes longer than the UTF-8 user name and twice the UTF-8 realm together, as long as those take at most 65000 bytes and the clock is in a year of four digits. So it always fits into a UDP datagram, and into one Ethernet frame if the names take at most 1210 bytes.", "quantifier": "every user name, realm, key, options, clock, nonce, confounder and every sequence of answers", "why_tests_cant": "The bound is over all names, keys and answers; a test sees one message of one length, and the message that is one byte too long is the one not tried.", "anchors": ["kerbeiros/src/messages/asreq/builder.rs", "kerbeiros/src/messages/asreq/options.rs", "kerbeiros/src/messages/asreq/timestamp_cipher.rs", "kerbeiros/src/requesters/tgt_requester.rs", "kerbeiros/src/transporter/udp_transporter.rs"]}
{"id": "C112", "title": "How much work a cipher operation and a ticket request do", "statement": "Encrypting, decrypting, making a key from a passphrase or password, and the checksums call the cryptographic primitives in an order and with lengths that depend only on the cipher, the key usage and the lengths of key, salt and text. So a ciphertext that is refused costs exactly what an accepted one of the same length costs, for whatever key of the same length, and the bytes given to primitives are at most twice the text plus the key and a constant. Obtaining a ticket stretches the password at most twice, with 4096 iterations each time whatever the key domain controller asks for, and gives the other primitives at most twice the length of its longest answer, twice the password and a constant; without a key, and before an answer that carries a ticket or asks for pre-authentication, it computes nothing.", "quantifier": "every key, text, salt, password, usage, every primitive suite with the assumed laws, every sequence of answers of a key domain controller of at most L bytes, for every L", "why_tests_cant": "A test measures the work for some inputs; that no input and no answer of a hostile server costs more, and that refused inputs cost the same as accepted ones, is a statement about all of them.", "anchors": ["kerberos_crypto/src/algorithms/aes_hmac_sha1/decrypt.rs", "kerberos_crypto/src/algorithms/rc4_hmac_md5/encrypt.rs", "kerberos_crypto/src/cryptography/nfold_dk.rs", "kerberos_crypto/src/algorithms/aes_hmac_sha1/keys.rs", "kerberos_crypto/src/checksum.rs", "kerbeiros/src/requesters/tgt_requester.rs", "kerbeiros/src/credentials/mappers/credential_krb_info.rs"]}
{"id": "C113", "title": "A wrong password or key gets no ticket", "statement": "At a key domain controller that follows RFC 4120 and refuses bad timestamps: if the account needs pre-authentication, a request with any password or key of a type the account has ends with the refusal the controller sent (error 24 or 37), after two messages, unless the timestamp, encrypted with the user's key, also opens with the account's, to a time within five minutes of the controller's; if it needs none, the reply is encrypted with the account's key and the request ends with a decryption error, after one message, unless the reply also opens with the user's key. Such controllers exist for every set of accounts.", "quantifier": "every controller, account, user name, password or cipher key, options, clocks, nonces, confounders, and every network that brings the controller's answers", "why_tests_cant": "Which passwords are refused is a statement about all passwords, accounts and controllers; a test shows one wrong password at one controller.", "anchors": ["kerbeiros/src/requesters/tgt_requester.rs", "kerbeiros/src/messages/asreq/timestamp_cipher.rs", "kerbeiros/src/credentials/mappers/credential_krb_info.rs"]}
{"id": "C114", "title": "The clocks of user and controller", "statement": "At an account that needs pre-authentication, a user with the account's own key or password gets a ticket if and only if the user's clock, read when the timestamp is built, and the controller's, when the second message comes, differ by at most five minutes; otherwise the request ends with the controller's refusal (error 24 or 37), after two messages. The controller reads exactly the second of the user's clock from the encrypted timestamp.", "quantifier": "every controller, account, user name, password or cipher key, options, both clocks, nonces, confounders, and every network that brings the controller's answers", "why_tests_cant": "A statement about every pair of clocks and every account; a test picks one pair, usually the same clock for both sides.", "anchors": ["kerbeiros/src/requesters/tgt_requester.rs", "kerbeiros/src/messages/asreq/timestamp_cipher.rs"]}
{"id": "C115", "title": "The work to read a message is proportional to its length", "statement": "Reading a Kerberos message of any type takes at most nine steps for an octet and one more, whatever the octets are, whatever lengths they announce, however they are nested, and whether or not the message is accepted; a step is reading a tag, an octet of a tag, a length or a content, or going to the next component or element. An accepted message costs nothing for what follows it, and at least one step for each of its octets. Reading everything a key domain controller answers while a ticket is asked for, including the pre-authentication data and the decrypted part, takes at most 46 steps for an octet of its longest answer and five more.", "quantifier": "every message type, byte string and behaviour of the ASN.1 library left open by the repository; every sequence of answers of at most L octets, for every L, key, user name, options", "why_tests_cant": "A bound over all inputs of all lengths, in particular hostile ones; a test measures a few messages.", "anchors": ["kerberos_asn1/src", "kerbeiros/src/requesters/as_requester.rs AsRequest::parse_as_request_response", "kerbeiros/src/credentials/mappers/credential_krb_info.rs", "kerbeiros/src/requesters/tgt_requester.rs"]}
{"id": "C116", "title": "Credentials reported as saved survive a power failure", "statement": "When saving reports success, a power failure afterwards leaves the saved credentials in the file. (Violated: nothing is flushed to the device. On a device that keeps the order of changes exactly the old content, or no file if there was none, or any first part of the bytes written can be left; these load as before, are refused without a panic, or give the first credentials saved. On a device that writes blocks in any order a file can be left that loads without an error and gives a ticket with a block of zeros in it. One flush after the last write would be enough on both.)", "quantifier": "every warehouse, old content, sequence of results of the writes, moment of the power failure, block size", "why_tests_cant": "Ranges over crash points and over what the device happened to write; a test on a running system always sees the written content.", "anchors": ["kerbeiros/src/credentials/file.rs save_data_to_file", "kerbeiros/src/credentials/credential_warehouse.rs save_into_ccache_file, save_into_krb_cred_file"]}
{"id": "C117", "title": "What a client does not know in the controller's answers does not matter", "statement": "Pre-authentication data of kinds the client does not know, put into or taken out of the answers at any places, change neither the messages sent nor the ticket obtained or the cause of the failure; nor does their order, as long as only one of them is of the known kind; nor, for a user with a key instead of a password, do any pre-authentication data; nor does anything but its code in the demand for pre-authentication; nor do version numbers.", "quantifier": "every pair of controllers whose answers agree in the rest, every key or password, user name, options", "why_tests_cant": "A relation between all pairs of dialogues; a test compares a few answers of today's controllers, not those of later ones.", "anchors": ["kerbeiros/src/credentials/mappers/credential_krb_info.rs as_rep_encryption_salt", "kerbeiros/src/requesters/tgt_requester.rs process_1st_krb_error", "kerbeiros/src/requesters/as_requester.rs"]}
{"id": "C118", "title": "A failed save keeps the old credentials; saving again repairs the file", "statement": "Expected: when saving reports an error, the credentials that were in the file are still there. Violated: they are kept exactly if the file could not be opened (or the same content was written); on a full disk an empty file is left, with room for n octets the first n of the new content. After any history of failed, stopped and successful saves the file is a first part of what the last save that opened it had to save, all of it if that one reported success, so a later success repairs the file whatever the earlier ones left, and no failure ever mixes the credentials of two saves.", "quantifier": "every old content, every sequence of saves of any contents, every result of each system call, every point at which a process is stopped", "why_tests_cant": "Ranges over histories of failures; a test runs one save on a disk with room.", "anchors": ["kerbeiros/src/credentials/file.rs save_data_to_file", "kerbeiros/src/credentials/credential_warehouse.rs save_into_ccache_file"]}
{"id": "C119", "title": "Damage to a saved file is noticed", "statement": "Expected: when octets of a saved file are altered (by the disk or on the way) loading reports an error. Violated: the files carry no checksum, so a session key, the encrypted part of a ticket or a key in a keytab replaced by other octets of the same length loads without error, with everything else as it was saved. What does hold: what was saved is never read from a file that differs in any octet but the third and fourth, so an altered file gives an error or other credentials, never silently the same.", "quantifier": "every cache and keytab that fits the formats, every place, every replacement of octets", "why_tests_cant": "Ranges over every alteration of every file.", "anchors": ["kerberos_ccache/src/ccache.rs CCache::parse", "kerberos_ccache/src/credential.rs Credential::parse", "kerberos_keytab/src/keytab.rs Keytab::parse", "kerbeiros/src/credentials/credential_warehouse.rs: documentation"]}
{"id": "C120", "title": "The example of the documentation works", "statement": "Expected: the documented program (new requester, request a ticket with the password, save it as a Windows file and as a Linux file) ends with both files holding the ticket whenever a key domain controller that follows RFC 4120 is reached and has the user's password. It does: over TCP in any pieces and on disks that take the octets in any portions both files are written; the Linux file loads as the issued credential with only the documented losses; the Windows file holds the issued ticket, session key, names and times, and converts to exactly the cache of the Linux file if a start time was issued and no padata. Violated for accounts that need pre-authentication and whose name is not in lower case, like the documentation's own 'Bob': with the right password and AES key under RFC 4120's default salt the program ends with a failed unwrap and writes no file, unless a timestamp under the key of one salt opens with the key of the other.", "quantifier": "every key domain controller, account, realm, user name, password, clock within five minutes, nonce, confounder, network schedule, disk schedule and old content of the files", "why_tests_cant": "Composes request, cryptography, transport, conversions and files over every schedule; the documentation test is marked no_run.", "anchors": ["kerbeiros/src/lib.rs (example)", "kerbeiros/src/requesters/tgt_requester.rs TgtRequester::request", "kerbeiros/src/credentials/credential.rs save_into_ccache_file, save_into_krb_cred_file"]}
{"id": "C121", "title": "Different passwords have different keys", "statement": "Expected: two different passwords never go into the derivation of a key as the same octets. Violated for the AES types: NUL characters at the end of a password do not count (up to 64 octets in UTF-8), so that the requests and the whole dialogue are the same with and without them; and a password of more than 64 octets has the keys of the text that is its SHA-1 hash, for every salt. Apart from that it holds: passwords of at most 64 octets that do not end in NUL and differ at all (letter case, blanks, composed and decomposed accents) go into the AES derivation as different blocks, and for RC4 all different passwords are hashed as different octets.", "quantifier": "every pair of passwords, every salt, both AES sizes; every key domain controller and network behaviour for the dialogue", "why_tests_cant": "Ranges over every pair of texts of any length.", "anchors": ["kerberos_crypto/src/algorithms/aes_hmac_sha1/keys.rs generate_key_from_string", "kerberos_crypto/src/cryptography/aes.rs pbkdf2_sha1", "kerberos_crypto/src/algorithms/rc4_hmac_md5/key.rs", "kerberos_crypto/src/utils.rs string_unicode_bytes"]}
{"id": "C122", "title": "Keytabs maintained with the MIT tools load", "statement": "After any sequence of additions with ktadd (at the end of the file or into a deleted slot, whose size it keeps), removals with ktremove, and loading and saving with the library, unchanged or with a further entry, the keytab loads completely and shows exactly the entries that were added and not removed, each as often as expected and with all its fields; a removed entry is not shown; without removals the entries appear in the order they were added. Violated: for removed entries there are entries of nobody (no realm, no name, no key) among them, at most one for every removal, and once the library has saved the file these are live entries for the MIT tools too, whose slots are not used again.", "quantifier": "every history of additions, removals and savings, of any length, with every choice of slots and every content left in them", "why_tests_cant": "Ranges over all histories of two programs working on the same file.", "anchors": ["kerberos_keytab/src/keytab.rs Keytab::parse, Keytab::build", "kerberos_keytab/src/keytab_entry.rs KeytabEntry::parse, KeytabEntry::build"]}
{"id": "C123", "title": "Caches maintained with the MIT tools load", "statement": "After any sequence of storing credentials (MIT appends them to the file), removing some (MIT overwrites their times in place) and loading and saving with the library, unchanged or with a further credential, a cache initialised with one header field loads completely, with its header and default principal, and shows the credentials that were stored and not removed, each as often as expected and with all its fields, in the order of storing if nothing was removed. Loading and saving leaves the file as it is, octet for octet, and adding a credential with the library gives the file that storing it with MIT gives. Violated: the mark of removed credentials is not known to the library: each of them is shown as a credential, is a credential of the warehouse and of the KRB-CRED message, and in the message its time of end is missing.", "quantifier": "every history of storing, removing and saving, of any length, with every choice of the credential removed", "why_tests_cant": "Ranges over all histories of two programs working on the same file.", "anchors": ["kerberos_ccache/src/ccache.rs CCache::parse, CCache::build", "kerberos_ccache/src/mappers/ccache_mapper.rs", "kerberos_ccache/src/mappers/times_mapper.rs", "kerbeiros/src/credentials/file.rs"]}
{"id": "C124", "title": "Saving touches the file at the path and no other", "statement": "Whatever other processes do to names (put another file under the path, remove it, make links) before and during a save: the save changes the content of no file but the one it opened, which holds a first part of what is saved, all of it after success; files that others put in place during the save are never touched. If nobody changes names from the opening on, a save that reported success has its data under the path. Expected also: only the file of that name is changed, and success means that the credentials are at the path. Violated: a path that is a symbolic link, planted by anybody, or a second name of a file makes the save destroy that file and put the credentials there; and if the name is replaced or removed during the save, success is reported and the path holds the other file, or none.", "quantifier": "every file system, every path, all data, every interleaving of the calls of the save, with every result of each call, with actions of others on names", "why_tests_cant": "Ranges over all file systems and interleavings.", "anchors": ["kerbeiros/src/credentials/file.rs CredentialFileConverter::save_data_to_file"]}
{"id": "C125", "title": "A file replaced by renaming is read whole", "statement": "Other processes put other files under the path by renaming, remove it and make links, and the library may be saving there in place, all while a file is loaded. A load that comes to the end of the file it has opened, if that is not the file the library is writing, has read exactly the whole content that the path had at the moment of opening, whatever happened to the name afterwards; if nobody saves in place, this holds of every load. A load that finds no file ends with an error and no data. (For the file the library writes in place see C86.)", "quantifier": "every file system, all paths, all data saved, every interleaving of the system calls of the load and of the save with actions of others, and every size of each read", "why_tests_cant": "Ranges over all file systems and interleavings.", "anchors": ["kerbeiros/src/credentials/credential_warehouse.rs: documentation", "kerbeiros/src/credentials/file.rs CredentialFileConverter::save_data_to_file"]}
{"id": "C126", "title": "A ticket obtained or loaded is accepted by its service", "statement": "Expected: with a ticket for a service, and the session key and names that came with it, a program that builds an authenticator and an AP-REQ with the library makes a message that a service following RFC 4120 accepts (clocks within five minutes, ticket valid); the service reads the client and session key the KDC put into the ticket and the authenticator as it was made, to the second, and cannot read anything else in the message; all this also after the ticket was saved in a cache file and loaded again. The service's answer is read back by the program: the clock of its own authenticator, and the subkey and number of the service. Violated: a sequence number of 2^31 or more is written as a negative number, and no service of the RFC accepts the message; an answer that leaves out the subkey or sequence number, as the RFC allows, cannot be read, so mutual authentication fails.", "quantifier": "every service, ticket, session key of a supported type, client, authenticator, option, clock and confounder; every saved warehouse that fits the file format; every answer", "why_tests_cant": "Ranges over all services, tickets and authenticators; unit tests know one built message per type.", "anchors": ["kerberos_asn1/src/ap_req.rs ApReq", "kerberos_asn1/src/authenticator.rs Authenticator", "kerberos_asn1/src/enc_ticket_part.rs EncTicketPart", "kerberos_asn1/src/ap_rep.rs ApRep", "kerberos_asn1/src/enc_ap_rep_part.rs EncApRepPart", "kerberos_crypto/src/ciphers/factory.rs new_kerberos_cipher", "kerberos_constants/src/key_usages.rs"]}
{"id": "C127", "title": "A service ticket can be obtained with the ticket granting ticket", "statement": "Expected: with a ticket granting ticket and what came with it, a program that computes the checksum of the request body, builds an authenticator, an AP-REQ and a TGS-REQ with the library makes a message that a ticket granting service following RFC 4120 3.3 accepts (clocks within five minutes, ticket valid, nonce below 2^31); the service reads the body as it was given, and the same authenticator serves for no other body unless the two have the same checksum. From any answer of such a service the program reads the new ticket, its session key, its times and the nonce of the request, and makes a credential with which the service of the ticket accepts it; the same with an AES subkey in the authenticator (key usage 9). Violated: with an RC4 subkey the answer cannot be read with key usage 9, as RFC 4120 has it, only with 8; with a nonce of 2^31 or more, half of those allowed, the request is no request of the RFC and no ticket granting service that follows it accepts the message.", "quantifier": "every ticket granting service and service, ticket granting ticket, request body, clock, confounder, session key of a supported type; every answer of a ticket granting service of RFC 4120", "why_tests_cant": "Ranges over all services, tickets, bodies and answers, and composes checksum, encryption, building and parsing; unit tests know one built message per type.", "anchors": ["kerberos_asn1/src/tgs_req.rs TgsReq", "kerberos_asn1/src/tgs_rep.rs TgsRep", "kerberos_asn1/src/enc_tgs_rep_part.rs EncTgsRepPart", "kerberos_asn1/src/kdc_req_body.rs KdcReqBody", "kerberos_asn1/src/enc_as_rep_part.rs EncAsRepPart", "kerberos_crypto/src/checksum.rs checksum_sha_aes checksum_hmac_md5", "kerberos_constants/src/checksum_types.rs", "kerberos_constants/src/key_usages.rs", "kerbeiros/src/credentials/credential.rs Credential::new"]}
{"id": "C128", "title": "From a password to a service, also through a cache file", "statement": "With a password and a KDC that follows RFC 4120 (conditions as in C73) a program gets a ticket granting ticket. If the KDC put into it what it told the client, then the ticket granting service accepts a program's request for a ticket of any service, and whatever it answers, the service accepts the program, as the user the KDC knows: at once, and also when the ticket granting ticket was saved in a cache file and another program loaded it from there, if it has a form in the file. What the file loses does not matter for any of this.", "quantifier": "every KDC, account, password, options, network that answers as the RFC demands; every ticket granting service and service, request body, clock, confounder and answer; every credential that has a form in a cache file", "why_tests_cant": "Ranges over all KDCs, services, answers and files and composes the whole library; unit tests stop at single steps.", "anchors": ["kerbeiros/src/requesters/tgt_requester.rs TgtRequester::request", "kerbeiros/src/credentials/credential.rs Credential", "kerbeiros/src/credentials/credential_warehouse.rs CredentialWarehouse", "kerberos_asn1/src/tgs_req.rs TgsReq", "kerberos_asn1/src/tgs_rep.rs TgsRep", "kerberos_asn1/src/ap_req.rs ApReq", "kerberos_crypto/src/checksum.rs", "kerberos_ccache/src/ccache.rs CCache"]}
{"id": "C129", "title": "Private and safe messages can be exchanged under a session key", "statement": "Expected: a program that encrypts (KRB-PRIV) or computes a checksum (KRB-SAFE) with a session key makes a message of RFC 4120 with the content it was given; from every private message of RFC 4120 it reads the content; it takes every safe message of RFC 4120, and none whose checksum is not that of RFC 3961 or RFC 4757 for the content that it reads. Violated: a private message with a sequence number of 2^31 or more, half of those allowed, is no message of the RFC, whatever the content.", "quantifier": "every session key of a supported type, content, confounder and message (times in whole seconds of four-digit years, sequence numbers below 2^31 except in the violation)", "why_tests_cant": "Ranges over all keys, contents and messages; unit tests know one built message per type.", "anchors": ["kerberos_asn1/src/krb_priv.rs KrbPriv", "kerberos_asn1/src/enc_krb_priv_part.rs EncKrbPrivPart", "kerberos_asn1/src/krb_safe.rs KrbSafe", "kerberos_asn1/src/krb_safe_body.rs KrbSafeBody", "kerberos_crypto/src/checksum.rs checksum_sha_aes checksum_hmac_md5", "kerberos_constants/src/key_usages.rs KEY_USAGE_KRB_PRIV_ENC_PART KEY_USAGE_KRB_SAFE_CKSUM"]}
