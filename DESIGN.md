# Formal model of kerbeiros in Lean 4: design and trusted base

## 1. Trusted base

1. Lean 4.33.0's kernel. Every theorem depends on at most the axioms `propext`, `Classical.choice` and `Quot.sound`
   (`#print axioms`; many on none or on `propext` alone). There are no own axioms, no compiled evaluation. Concrete evaluations in
   examples use `decide +kernel`, which the kernel itself reduces. Of Mathlib only `Mathlib.Data.List.Forall2` is imported, and for the sines of MD5 (`HashSines`) `Mathlib.Analysis.Complex.*` and three tactics.
2. The model is a hand translation of the Rust text. Every definition of a `*Model` file (and of `Asn1*`, `Time`, `Nom`)
   cites the file and lines it models and names its simplifications. Nothing of `/repo` was compiled or run.
3. What is outside `/repo` and therefore assumed:

| external | how it enters | what is assumed |
|---|---|---|
| `nom` 7 | `Nom.lean`, definitions of the combinators used | their documented behaviour (streaming vs. complete, `many0` stops on no progress); for C101 only: what `many_m_n` and `many0` reserve in advance, and how `Vec::push` grows |
| `himmelblau_red_asn1` and its derive macro | `Asn1Core.lean`, parameter `Cfg` | tag-length-value with DER on output, as in the byte strings of the unit tests. Everything those leave open (non-minimal lengths, trailing bytes, malformed integers, booleans, times) is a field of `Cfg`, universally quantified in every theorem. No-panic theorems have the hypothesis `Cfg.Total` (the crate itself does not panic) |
| `chrono` | `Time.lean` | proleptic Gregorian calendar, last representable second `chronoMax`; `Date.ofDays_succ` proves the calendar right |
| UTF-8, `String`, `char` | `Utf8.lean` | RFC 3629; `from_utf8_lossy` is the parameter `Ext` (identity on valid input) in most theorems and modelled in `Utf8Lossy.lean` (`stdExt`) |
| `to_lowercase`/`to_uppercase` | parameter `CaseMap` | nothing, except where a theorem states it |
| AES, HMAC-SHA1, HMAC-MD5, MD5, MD4, RC4, PBKDF2 | parameter `Prims` with `Prims.Lawful` | output sizes; block decryption inverts block encryption; RC4 is a length-preserving involution. `ToyPrims.lean` is a (weak) instance, `Std*.lean` the real algorithms with a proof of the laws |
| operating system | explicit lists of results (`WriteEvent`, `ReadEvent`, `TcpRun`, `UdpRun`, `Disk`) | POSIX meaning of `write`, `read`, `peek`, sockets connect within their address family (C87 only) (Linux: truncated to the buffer); `open` with `O_CREAT` gives mode 0666 without the umask (C89 only), file contents as seen by other processes (C116 only: two kinds of device after a power failure) |
| the KDC and the network | an arbitrary function from the messages sent so far to an answer or a failure (`Net`) | nothing |
| random numbers, clocks | universally quantified arguments | nothing |
| `Display`/`Debug` machinery of `std`, `thiserror` | `ErrorModel.lean` | literal text with decimal numbers; escaping of a character, text of an ASN.1 error, debug form of a KRB-ERROR are parameters |

## 2. Not modelled

* time (the 5 s connection timeout; how long a blocked call blocks), memory exhaustion, side channels, quality of randomness,
  computational security (a theorem never says "cannot be forged", only what is accepted);
* the DNS lookup itself (only what is done with its result), `Debug` texts of types not named in `DebugModel`, getters and setters without logic, re-exports, the `Asn1Error` payload;
* locks on files, directories and mount points (C85, C86 have savers and readers of one file, C124 other processes that rename, remove and link it).

Functions of /repo whose file is not cited: none with logic (`transporter_trait.rs` is a trait declaration).

## 3. Conventions

A byte string is `List UInt8`. A Rust panic is an explicit result value (`.error .panic`, or `none` where noted). `u16/u32/i32` are
`UInt16/UInt32/Int32` wherever wrap-around can be observed; `as` casts are the wrapping conversions. `Result` is `Except`, `?` is
its bind with the error conversion spelled out (`liftC`, `liftP`, `liftX`). Loops are recursion, structural or with a termination
proof; where fuel is used the model passes enough of it and a lemma proves that it never runs out. Private fields read only
through getters are ordinary fields.

## 4. Modules

| module | contents |
|---|---|
| `Bytes`, `Utf8`, `Time`, `Nom` | vocabulary: integers as bytes, UTF-8, calendar, parser combinators |
| `CCacheModel`, `CCacheSpec`, `CCacheLemmas`, `Props/CCache` | kerberos_ccache file format; C01–C09 |
| `KeytabModel`, `KeytabSpec`, `KeytabLemmas`, `Props/Keytab` | kerberos_keytab; C06, C08, C10–C15 |
| `Asn1Core`, `Asn1Messages`, `Asn1Misc` | kerberos_asn1: DER layer, all message types, hand-written functions |
| `Asn1Spec` | independent: DER and the ASN.1 modules of RFC 4120, MS-KILE, MS-SFU |
| `Asn1Wf`, `Asn1Lemmas`, `Asn1MsgLemmas`, `Asn1SpecLemmas`, `Props/Asn1` | C39–C45, C59–C61 |
| `MappersModel`, `MappersLemmas`, `Props/Mappers`, `Props/KrbCred` | cache ↔ KRB-CRED; C16–C24 |
| `NFoldModel`, `NFoldSpec`, `NFoldLemmas`, `Props/NFold` | n-fold; C31, C32 |
| `CryptoModel`, `KeyModel`, `CryptoLemmas`, `Props/Crypto`, `Props/Keys` | kerberos_crypto; C26–C30, C33–C38 |
| `RfcSpec`, `Props/Rfc` | independent: RFC 3961, 3962, 4757; C68 |
| `ToyPrims`, `Std*` | instances of `Prims.Lawful` |
| `AesSpec` (specification), `Props/Fips` | FIPS 197 (C69) |
| `HashSpec` (specification), `HashSame`, `HashSines`, `Props/Hashes` | FIPS 180-4, RFC 1320, RFC 1321, RFC 2104, RFC 8018, RC4 (C69) |
| `StdVectors`, `RepoVectors`, `RepoVectorsKdc` | tests, not proofs: the model computes the expected values of the unit tests of /repo (all crates, with the answers recorded there from a real KDC, which the model decrypts with `stdPrims`) and of the standards |
| `WarehouseModel`, `Props/Warehouse` | kerbeiros credentials, warehouses, files with crash points; C25 |
| `ClientModel`, `ClientSpec`, `Props/Client`, `Props/Dialogue`, `Props/ClientGaps` | options, AS-REQ, replies, TGT dialogue; C46–C54, C57, C62, C63, C65 |
| `TransportModel`, `Props/Transport` | TCP, UDP, name resolution; C55–C58, C64 |
| `ConstantsModel`, `Props/Constants` | error names, flag words; C66, C67 |
| `MitSpec`, `Props/Mit` | independent: MIT's description of credential cache version 4 and keytab version 2; C70, C71 |
| `Props/EndToEnd` | from the KDC's reply to the cache file; C72 |
| `KdcSpec` | independent: a KDC after RFC 4120 |
| `DerLemmas`, `Props/Kdc`, `Props/KdcMore` | DER is unambiguous; client and KDC together; C73–C75 |
| `Asn1ReadSpec` | independent: which DER values spell a message, for reading |
| `Asn1ReadLemmas`, `Asn1ReadMsgs`, `Props/Reading` | parsers against that; C76 |
| `Props/TwoRoads` | Windows and Linux files of the same credentials; C77 |
| `EqModel`, `Props/Equality` | `==` of every message type and of credentials; C78 |
| `TextModel`, `Props/Text` | texts in files, tied to Lean's own UTF-8; C79 |
| `ResourceModel`, `Props/Resources` | memory reserved for answers; C80 |
| `DefaultModel`, `Props/Defaults` | `Default::default()` of every message type; C81 |
| `Props/Resave` | a cache file loaded and saved again; C82 |
| `Props/Kinds` | application tags tell messages apart; C83 |
| `Props/Numbers` | protocol numbers against the standards; C84 |
| `ConcurrentModel`, `Props/Concurrent`, `Props/Readers` | several processes saving to one path, and a reader; C85, C86 |
| `AddressModel`, `Props/Addresses` | a requester with the sockets of its operating system; C87, C88 |
| `PermissionModel`, `Props/Permissions` | permission bits of saved files, public functions of a credential; C89, `c25_getters` |
| `ErrorModel`, `Props/ErrorTexts` | texts of errors, debug output of keys; C90, C91 |
| `Props/Trust` | C92, C93: what a returned ticket proves, which encryption types are used (no new model) |
| `Props/Config` | C94: caches with MIT configuration entries (no new model; the entries are defined on `MitSpec`) |
| `Asn1Growth`, `Props/Lengths` | C95: length of what is read and written again (no new model; one lemma per message type) |
| `Props/Exchange` | C96: `AsRequester` (the model is in `ClientModel` and `AddressModel`) |
| `SessionModel`, `Props/Session` | a requester over its whole life; C97 |
| `Props/Interchange` | password against derived key; C98 |
| `Props/Settle` | repeated conversions; C99 |
| `NFoldCert`, `Props/KeySeparation` | injectivity of n-fold on the derivation constants (certificate checked by the kernel), separation of derived keys; C100 |
| `LoadModel`, `Props/Load` | cache and keytab parsers with the memory they ask for; C101 |
| `Props/Printed` | printed names; C102 |
| `Props/Traffic` | what messages show of the secret; C103 |
| `Props/Salts` | which accounts share a salt; C104 |
| `Props/Answers` | which parts of an answer matter; C105 |
| `Props/ClockOffset` | time offset in the header of a cache file; C106 |
| `DebugModel`, `Props/DebugTexts` | derived `Debug` of caches, keytabs, keys, credentials; C107 |
| `Utf8Lossy` | `String::from_utf8_lossy` against Unicode's rule of maximal subparts; C22 |
| `Props/Fresh` | which requests are the same message; C108 |
| `ParallelModel`, `Props/Parallel` | requests in several threads, cut at sending and receiving; C109 |
| `Props/LoadExact` | lower bounds for the counters of C101 and C110 |
| `WorkModel`, `Props/Work` | the file parsers with a step counter; C110 |
| `Props/Size` | C111, over the request builder and the client |
| `TraceModel`, `Props/Trace` | C112: the cryptographic operations and the client with the calls of primitives they make |
| `Asn1OptionalSpec`, `Asn1OptionalLemmas` | specification: which components may be missing; C60 |
| `Props/KdcWrong` | C113, C74: wrong passwords and salts at a KDC that refuses bad timestamps; such KDCs exist |
| `Props/Skew` | C114: clock skew between user and KDC |
| `Asn1Count` (model), `Asn1CountLemmas`, `ClientCount` (model), `Props/Count` | C115: steps to read a message and the answers to a request |
| `PowerModel`, `Props/Power` | C116: the system calls of a save in order, and what a power failure leaves of them |
| `Props/Extensions` | C117: unknown parts of the controller's answers |
| `Props/Retry` | C118: failed saves and saving again |
| `Props/Damage` | C119: altered files |
| `Props/Readme` | C120: the program of the documentation, end to end |
| `Props/Passwords` | C121: which passwords have the same key |
| `Props/KeytabTools` | C122: keytabs maintained with the MIT tools and the library |
| `Props/CacheTools` | C123: caches maintained with the MIT tools and the library |
| `Props/Names` | C124: names, links and files |
| `Props/Renamed` | C125: loading while names change |
| `ApSpec` (specification), `Props/Service` | C126: the AP exchange with a service of RFC 4120 |
| `ApSpec` (specification), `Props/Tgs`, `Props/TgsSubkey` | C127: the TGS exchange of RFC 4120 3.3, then the service of C126 |
| `Props/Journey` | C128: password, ticket granting ticket, cache file, service ticket, service |
| `ApSpec` (specification), `Props/PrivSafe` | C129: KRB-PRIV and KRB-SAFE under a session key |

Property theorems are called `cNN_*` and live in `Props/`; each has an example nearby that meets its hypotheses. `MANIFEST.json` maps
properties to theorems. `seeded/LOG.jsonl` records the edits of the model the theorems were tested with.

## 5. Plan per property

* C01, C02, C03, C05, C09: build/parse per record; lemma "parse (build r ++ rest) = (r, rest)" and its converse "what was parsed is
  what build writes"; the credential list by induction over `many0`.
* C04, C14: a proper prefix of a record does not parse; induction over the records, for every cut.
* C06: exact result of the round trip with an oversized counter, hence "unchanged iff it fits".
* C07: equality of parse results for two files that differ in the two bytes; witnesses for the misreading.
* C08, C12: case analysis of every combinator; C12 with the overflow-check profile as a parameter.
* C10, C11, C13, C15: as C01, with records as length-delimited blocks, holes included.
* C16–C20: functions on whole messages, inner encodings through the ASN.1 round trip (C39); "converts iff" theorems on
  both sides, then the exact result.
* C21–C24: per field, "unchanged iff in range" and the exact result outside; C22 against the Unicode list of white space.
* C25: reload theorem on warehouses, `saveData` over every sequence of write results and every crash point, joined with C04.
* C69: `stdPrims` (the standards' algorithms, `Std*.lean`) meets `Prims.Lawful`; the AES inverse is proved from the S-box tables (256 cases each), linearity of MixColumns and the round structure, for every key and block. `AesSpec` is FIPS 197 with the S-box as inversion in GF(2^8) and an affine map, the state as a matrix and the key schedule as a recurrence; `Props/Fips` proves the AES of `stdPrims` to be that cipher (state by state, bytes by cases over all 256). `HashSpec` has SHA-1, MD4, MD5, HMAC, PBKDF2 and RC4 on 32-bit vectors, registers and permutations as the standards write them; `Props/Hashes` proves the model's (numbers, renamed variables, one number for the permutation) equal to them by induction over blocks, steps and bytes, and the specifications to determine their result. The table of MD5 is proved to be the integer parts of 2^32 |sin i| over the reals.
* C26–C30, C33, C37, C38: over any `Prims.Lawful`; ciphertext stealing by splitting into blocks; decryption is a partial inverse.
* C31, C32: the loops as written, against the ones-complement sum over naturals and bit positions.
* C34–C36: exact acceptance conditions; violations by universally quantified statements.
* C39, C45: a record of codec laws (round trip, locality, no panic), closed under SEQUENCE, OPTIONAL, explicit tags, SEQUENCE OF;
  then one instance per message type.
* C40, C41, C42, C43, C44, C61: direct, bit level for flags, calendar lemmas for times.
* C46: induction over histories of calls. C47: the decoded request, field by field, and the same on the wire.
* C48–C54, C57, C62, C63, C65: an inductive relation in `ClientSpec` says what each pair of answers leads to; it is functional
  (c48_determined) and the program refines it (c48_dialogue); the others follow or quantify over two runs (C49, C51, C62, C63).
* C55, C56, C58, C64: induction over event lists; the peek loop by its own termination measure.
* C59: encoders equal to the DER of `Asn1Spec`; exact deviation for large unsigned numbers.
* C60: tables of optional and required components per type (`Asn1OptionalSpec`, from the standards); leaving components out of any encoding of `Asn1ReadSpec` gives an encoding again (optional) or none (required); with C76.
* C66: against the published constants, for all 2^32 codes by case analysis on the table, not by enumeration. C67: bit level.
* C68: model functions equal the functions of `RfcSpec`, for all inputs.
* C70, C71: against `MitSpec` (written after MIT's ccache and keytab format documents, without reference to the code): writer equal
  to the format's bytes, reader characterised on every valid file by induction over its records.
* C72: composition of C50 (dialogue), C69 (algorithms), C70 (file) and C25 (reload).
* C73: against `KdcSpec`, a relation between octets sent and octets answered that does not mention the client. The client's octets
  are shown to be those of a request the specification obliges the KDC to answer (C47, C59, C69), and the answer to be one the
  client opens (C39, C48, C28). DER's unambiguity (induction on the structure of values) makes the specification satisfiable.
* C74, C75: salt and types of the requests characterised exactly; the refusal of a user whose salt differs follows from C113; the violation of C75 is a complete exchange with the real algorithms.
* C76: a law per codec (`Codec.Exact`: every spelling is read, only spellings are), closed under SEQUENCE, OPTIONAL, explicit tags and
  SEQUENCE OF; one instance per type. "Only" assumes that the external crate adds no leniencies (`Cfg.Strict`); "every" assumes nothing.
* C77: both roads computed for every collection of credentials and compared field by field, as equivalences.
* C78: lower-casing all names of a value as specification; one lemma per type, by unfolding the field-by-field comparison.
* C79: the model's UTF-8 shown equal to Lean's; decoding is the exact inverse of encoding.
* C80: size of the buffer as a function of the bytes delivered; the violation for every announced length.
* C81: table of the octets of the default messages, by evaluation of the DER specification with a symbolic time; versions by cases.
* C82: inversion of loading, entry by entry; `load ∘ save` relation composed with itself gives a fixed point.
* C83: tag of every codec against a table of RFC 4120; a parser looks at the first byte first.
* C84: complete tables of constants against transcribed tables of the standards; message types through C83.
* C85, C86: transition system, one system call per step, schedule universally quantified; invariants by induction over the schedule.
* C87, C88: the operating system is a function from transport and destination to an exchange; non-interference, and composition of C46,
  C55–C57 and C65.
* C89: permission bits added to the file of C25; bitwise reasoning, composed with C25's reload and KRB-CRED theorems.
* C90: the dialogue theorem of C48 lists the errors of a run; the texts begin differently. Non-interference by cases on the answer
  and the kind of key. C91: decimal digits read back, byte lists split at the first comma.
* C92, C93: from the outcome of the dialogue (C48) and acceptance of ciphertexts (C28); the attacker is a function on answers fixed
  before the key.
* C94: what parses as a ticket contains the byte 0xa0, so text does not; the rest from C70 and the loading criterion of C82.
* C95: each codec writes at most k times the content it read (k = 1, or 5 with flags); kept by every combinator.
* C96: from the form of the request (C47) and the trichotomy of answers (C48).
* C97: induction over histories; the single requests by C48, C49 and C73.
* C98: both runs are rewritten to the same cipher calls (C33, C47, C53), then the dialogue step by step.
* C99: from C17 applied twice: what the first round trip leaves is in a form the second does not change; induction on the number.
* C100: n-fold of 5 bytes is a sum of rotations modulo 2^128-1; short vectors of the dual lattice turn the congruence between two folds into equations between small integers, which have only the zero solution (and all-ones against all-zeros, which the representative tells apart); the vectors are a certificate in `NFoldCert` that the kernel checks. Then DK starts with one block encryption, which is injective.
* C101: the parsers again as functions that also return the bytes requested (erasure proves them equal to the parsers); every parser costs at most K bytes per byte consumed, plus F on failure; vectors by an amortised argument with credits.
* C102: joining with slashes is injective on slash-free components; the end-to-end violation from C92 and C25.
* C103: two runs side by side; the built messages are unfolded into nested TLVs, whose headers depend only on lengths, and a ciphertext's length only on the plaintext's (C27).
* C104: injectivity of UTF-8 and a case analysis of where realm and name meet; RC4 by unfolding the key derivation.
* C105: two runs side by side, case by case along the dialogue; the violations from C50 and C39.
* C106: the header field of the written format (C70) for saved files; the parser after the header is the same function for all headers.
* C107: the printed forms are modelled character by character; injectivity by reading back field by field.
* C108: reading back what was sent (C47, C39), injectivity of encryption (C28), induction over the calls of a session.
* C109: an invariant per thread saying which messages it sent and which answers it took, kept by its own and by others' steps; a rank for termination.
* C110: amortised accounting: every read consumes at least a byte, growth of vectors is paid from a potential; erasing the counter gives the parsers of C01–C15.
* C111: bound every TLV from its contents, level by level up to the request; the dialogue sends only requests.
* C112: the operations once more over a writer of calls; leaving out the calls gives the model again, function by function; the calls by induction on blocks; bounds from the explicit lists and the growth lemmas of C95.
* C113: the dialogue theorem of C48 with the KDC of C73 (`KdcSpec`), which now also refuses; the KDC reads from the octets of the request exactly the timestamp sent, by unambiguity of DER; existence by choosing answers, with a bound on their length.
* C114: C73 for clocks that agree, C113 for clocks that do not: a second timestamp that opens from the same ciphertext has the same octets (injectivity of encryption, C28) and so the same second (C39, C59).
* C115: The parsers once more with a step counter beside the result. One predicate, closed under the combinators of derived sequences: same result, at most 9 n + 14 steps for a content of n octets (a header of two octets pays for the 14), at least n if accepted by a strict parser. For requests, the padata and the ciphertext of a reply together are not longer than the reply (C95).
* C116: The changes a save makes as a list, proved to give the content of C25. Which contents are left by losing a last part of them: induction on the writes. Block-wise: the octets of a ticket lie between octets that depend only on its length, so a block inside can be replaced and the cache of C01 is still one.
* C117: Two runs side by side along the dialogue, as in C105, with a relation on answers that depends on the kind of secret; putting in elements as an inductive relation, order by permutations.
* C118: Histories as lists of saves; the last save that opened the file decides, by splitting the list there; what loads from a first part is C25.
* C119: The written file as a frame around the replaced octets (Framed of Props/Power), then the round trips C25 and C10 of the altered cache; the other direction from C01 and C03.
* C120: The program as a function of operating system, disks, clock and randomness; composition of C73, C55, C25, C77; the violation from C74.
* C121: PBKDF2 depends on the password through the HMAC block only; the blocks of two short passwords agree exactly up to zeros; injectivity of UTF-8 and of UTF-16; the dialogue by C98.
* C122: Induction over histories: all records stay valid and not cut short, the entries of the records stay a permutation of the expected ones; then C71.
* C123: Induction over histories with an invariant on the file and its content: the file is the valid MIT file of the content, the credentials not marked are a permutation of the expected ones; then C70 and C01; the message by C19.
* C124: A file system of names and numbered files; the system calls of C85 on the file that was opened; an invariant of all schedules.
* C125: The world of C124 with the reader of C86 on the file it has opened; an invariant of all schedules that keeps the moment of opening.
* C126: A service of RFC 4120 3.2 over octets and the standards' algorithms; a program that composes the public functions; C59, C39, C26/C69 and C25 composed.
* C127: A ticket granting service of RFC 4120 3.3 over octets and the standards' algorithms; a program that composes the public functions; C68 (checksums), C59, C39, C28 and the lemmas of C126 composed.
* C128: C73, C25, C127 and C126 composed: the program's steps depend only on the parts of a credential that the file keeps.
* C129: The messages of RFC 4120 5.6 and 5.7 over octets and the standards' algorithms; a program that composes the public functions; C59, C39, C28, C26/C69 and C68 composed.

All properties can be expressed; none is marked not applicable.

## 6. Properties the code violates

For these the MANIFEST theorem is the exact behaviour together with the negation, universally quantified where possible.

| property | violation |
|---|---|
| C07 | declared header length of a cache ignored; zero- and multi-field headers refused or misread |
| C11 | holes of a keytab come back as blank entries and are written as live records |
| C12 | hole size -2^31 panics with overflow checks |
| C17 | one address that is not valid UTF-8 removes all addresses |
| C25 | saving is not atomic: a crash leaves a truncated file (shown to be an error or a prefix) |
| C34 | `+f` accepted as a hexadecimal byte; non-ASCII strings panic |
| C36 | machine account salts of the two functions differ |
| C44 | default authenticator has 1 000 000 and more microseconds in a leap second |
| C51 | nonce, client and server names of a reply are not checked |
| C52 | malformed ETYPE-INFO2 and an empty set of types panic |
| C53, C54, C62, C63 | salt of the first entry, type of the key, hints and parameters of the KDC not used as prescribed |
| C59 | unsigned numbers of 2^31 and more written as negative integers |
| C60 | AP-REP part without optional components refused |
| C64 | silent peers block a request for ever |
| C67 | AP options and the anonymous ticket flag at wrong bits |
| C70 | header fields: valid cache files with none or several are refused or misread; second type field written |
| C71 | deleted slots, short filler and end mark of a keytab not understood; version not checked |
| C73 | nonces of 2^31 and more make the request unreadable by RFC 4120 |
| C74 | salt for pre-authentication is not the default salt for names with upper-case letters and machines; announced salt ignored |
| C75 | types a cipher key cannot open are offered; a KDC may then answer with one |
| C77 | Windows file then conversion: missing start time becomes 0, padata dropped, owner replaced; zero times differ the other way |
| C78 | messages that compare equal can differ in the letter case of names |
| C80 | four bytes from a TCP peer reserve up to 4 GiB |
| C81 | default tickets, AP-REP, KRB-SAFE, KRB-PRIV and KRB-ERROR carry protocol version 0 and type 0 |
| C84 | checksum constant RSA_MD4_DES has the number of des-mac |
| C86 | a reader during a save can get the beginning of the old and the end of the new content, e.g. old key with new ticket |
| C87 | over UDP no request to an IPv6 KDC is ever sent |
| C88 | error 52 over UDP is not followed by a request over TCP |
| C89 | a new credential file is readable by every user under the usual umask 022 |
| C91 | the debug output of a password or key shows it |
| C92 | realm, client name and ticket of an accepted reply can be replaced in transit by somebody without any key |
| C93 | a cipher key is used, and replies are accepted, with types the user does not allow |
| C94 | one configuration entry (X-CACHECONF:) makes the whole cache refused |
| C95 | messages with flags of fewer than 32 bits become longer when read and written again |
| C96 | `AsRequester` crashes with a password and no encryption type |
| C101 | with nom before 7.1.2 a cache file of 20 bytes reserves up to 96 GiB |
| C102 | slashes inside components are printed like separators; names without components crash printing and cannot be loaded again |
| C104 | accounts differing in letter case, `NAME$` and `hostname`, and caseless characters at the boundary of realm and name share a salt; RC4 has none |
| C105 | protocol version and message type of answers are not checked |
| C106 | every saved cache says the KDC clock is one second behind; offsets of loaded files are lost |
| C107 | debug output of caches, keytabs, credentials shows the keys |
| C116 | after success a power failure can leave the old file, an empty file, a first part of the file, or a file that loads and has zeros in a ticket (`c116_success_not_durable`, `c116_zero_block`): no `sync_all` in file.rs:36-42 |
| C118 | on a full disk saving reports an error and the old credentials are gone (`c118_full_disk`, `c118_nearly_full_disk`): the file is emptied before anything is written, file.rs:37 |
| C119 | altered keys and tickets load without error (`c119_key`, `c119_ticket`, `c119_keytab`): the file formats have no checksum and none is added |
| C120 | the documentation's example fails for its own user name 'Bob' at a controller with default salt and pre-authentication (`c120_capital`): the salt is computed from the lower-case name, see C74 |
| C121 | passwords that differ in NUL characters at the end, and long ones and their SHA-1 hashes, have the same AES keys (`c121_nul`, `c121_long`): HMAC pads its key with zeros and hashes long ones; nothing refuses such passwords |
| C122 | a deleted slot of a keytab is shown as an entry of nobody and becomes a live one when the library saves the file (`c122_slots_become_entries`), see C11 |
| C123 | a credential MIT marked as removed is shown like any other, in the message without time of end (`c123_removed_shown`): the mark is not looked at, and a zero time is taken for a missing one |
| C124 | a save follows symbolic links and empties what they stand for (`c124_other_name`), and does not notice when the name is replaced or removed (`c124_lost`): the file is opened with File::create and written in place instead of a new file that is renamed |
| C126 | sequence numbers of 2^31 and more in an authenticator are written as negative numbers (`c126_sequence_negative`); an AP-REP without subkey or sequence number cannot be read (`c126_mutual_refused`) |
| C127 | a TGS-REQ with a nonce of 2^31 or more is no TGS-REQ of the RFC (`c127_nonce_negative`); an answer to a request with an RC4 subkey is refused under key usage 9 (`c127_rc4_subkey_refused`) |
| C129 | sequence numbers of 2^31 and more in a private message are written as negative numbers (`c129_sequence_negative`) |
| C85 | simultaneous saves can leave a mixture (or zeros) although both report success |
| C68 | RC4 usages 9 and 23 not translated as RFC 4757 says (for 9 several deployed implementations also use 9) |
