# Formal model of ralphje/signify in Lean 4

## Layout (`/verif/lean/Verif`)

| directory | contents |
|---|---|
| `Model/*.lean` | executable model of `/repo/signify`, function by function; each definition cites the lines it models |
| `Spec/*.lean` | small specifications: what the English says, without the control flow of the model |
| `Proofs/*.lean` | helper lemmas |
| `Props/*.lean` | the property theorems `Cnn_…` named in `MANIFEST.json`, with examples that their hypotheses can be met (some of them in `Props/Instances.lean`) |

`mk.sh` regenerates `lean/Verif.lean`, `MANIFEST.json` and the tables of this file. `seeded/LOG.jsonl` records the wrong
programs the theorems were tested against.

| model | source |
|---|---|
| `Py` | exceptions (`exceptions.py`), dictionaries |
| `Fingerprinter` | `fingerprinter.py` |
| `SignedPE` | `authenticode/signed_pe.py`, bytes: headers, omitted sections, certificate table |
| `PEFile` | `authenticode/signed_pe.py`, signatures: iteration, expected hashes, `verify`, `explain_verify` |
| `Handle` | the same code of `signed_pe.py` and `fingerprinter.py` on the file object: every `seek`, `tell`, `read`, and generators resumed value by value |
| `Names`, `X509` | `x509/certificates.py` |
| `Context` | `x509/context.py` |
| `StoreOps` | a `CertificateStore` used as a list; `x509/context.py` |
| `FileTime`, `CTL`, `CtlFile` | `asn1/ctl.py`, `asn1/hashing.py`, `authenticode/authroot.py` |
| `Pkcs7` | `pkcs7/signeddata.py`, `pkcs7/signerinfo.py`, constructors of `authenticode/structures.py`, `asn1/helpers.py` |
| `Asn1` | asn1crypto's decoder: tags, lengths, fields by tag, choices, native values (strings, integers, OIDs, times) |
| `DerSpc` | the schemas of `asn1/spc.py` and `asn1/ctl.py`, and what is read through them |
| `DerCms` | the schemas of asn1crypto's `cms`, `x509`, `tsp`, and what is read through them; `derCodec`, the decoder as a `Codec` |
| `Extensions` | the remaining schemas of `asn1/spc.py`; `extensions` and `version` of a `Certificate` |
| `Info` | `examples/authenticode_info.py` |
| `OneShot`, `OneShotFile` | `AuthenticodeSignedData.verify` and `SignedPEFile.verify` with an iterator as `key_usages` in `verification_context_kwargs` |
| `Threads` | `FileSystemCertificateStore` shared by threads: the steps between which Python may switch threads |
| `Shared` | `SignedPEFile.verify` and everything it does with the file object, one operation at a time, while others use the file |
| `Together` | `AuthenticodeSignedData.verify` and everything it does with stores and contexts, one access at a time, while other threads use them |
| `TogetherPE` | `SignedPEFile.verify` and `explain_verify`, one access to a store at a time, while other threads use the stores |
| `Moments` | verification of certificates, signatures and files with a clock that moves during the call |
| `Strikes` | parsing and listing of signatures when the interpreter may give up at any step |
| `Both` | `SignedPEFile.verify` while others use the file and the stores at once |
| `Keywords` | keyword arguments of `verify` and `explain_verify`, and keys of `verification_context_kwargs` |
| `Zones` | `verify_trust` of contexts, stores and trust lists, and `verify` of contexts, with times that may have no time zone |
| `Pem` | `Certificate.from_pem(s)`, `FileSystemCertificateStore._load`, with asn1crypto's `pem.unarmor` and `base64.b64decode` |
| `Defaults` | `TRUSTED_CERTIFICATE_STORE`, `TRUSTED_CERTIFICATE_STORE_NO_CTL`, given the contents of the files of mscerts |
| `Cli` | `main` of `fingerprinter.py`: the lines printed and the exception that ends it |
| `Listing` | `Certificate.__str__`, and the listing of the trusted certificates printed by `structures.py` |
| `Verify` | `pkcs7/signerinfo.py` (chains), `verify` and `explain_verify` of `authenticode/structures.py` |

## Modelling conventions

* Python exceptions are values: `Exc` is a class and the static part of the message. The class hierarchy is that of
  `signify/exceptions.py` and of Python's built-in exceptions.
* Mutable objects shared by reference are heap cells: the range lists of a `Fingerprinter`, `VerificationContext`s and
  `CertificateStore`s. Code that mutates and may raise has type `World → Except Exc α × World`: changes made before an exception
  survive it.
* Generators are the list of values they yield plus the exception, if any, that ends them (for generators over a file, C85
  justifies this: a model with explicit resumption and file position gives the same values). One-shot iterables given as
  arguments carry their remaining content in the heap.
* A `while` loop whose termination is at stake takes fuel; `none` means still running after that many iterations. Theorems
  quantify over all fuel, or show that enough fuel exists and how much.
* Python `int` is `Int` where negative values can reach the code, else `Nat`. Bytes are `List UInt8`, a file is an immutable
  byte list of any length.
* Third-party code is a parameter, universally quantified in every theorem: see the trusted base.
* False properties get a refutation (`_false`: a concrete run of the model that violates the statement) and theorems with the
  suffix `_partial` which say exactly what does hold.

## Properties

<!-- properties -->
| id | property | modelled and how proved | status | remarks |
|---|---|---|---|---|
| C01 | Fingerprint digests are the digests of exactly the requested bytes | `Fingerprinter` loop over a heap of range lists; invariant `seen ++ remaining = requested`, measure for termination | proved |  |
| C02 | No digest is ever reported for ill-formed ranges | same loop; every ill-formed range list is analysed | proved | C02_reversed_range_may_hang records that an ill-formed range may also hang instead of raising. |
| C03 | hashes() terminates and its internal-inconsistency errors are unreachable | same loop; for every fuel the run is unfinished iff the block size is zero | proved |  |
| C04 | A Fingerprinter is reusable and history-free | sequences of operations on one `Fingerprinter`; induction over the operations | proved |  |
| C05 | Hashing is single pass with bounded reads | trace of the intervals read; all remaining ranges start at or after the end of the last read | proved |  |
| C06 | Passing one ranges list to several add_hashers() calls is harmless and leaves the list intact | aliasing of range lists in the heap; idempotence of `consume` on ascending lists | partial | Holds when shared lists are ascending and disjoint; false for overlapping shared lists and for re-use of the list after the run (refutations proved). |
| C07 | Results of hashes() and hash() are keyed by description and hasher name | dictionaries of digests; fold over the fingers | partial | All clauses proved except the last one, which is false: hash() accepts several add_hashers() calls with one description (refutation proved). |
| C08 | Authenticode omit sections are always sane | PE header parser over byte lists; case analysis composed with C01 | proved |  |
| C09 | The authentihash is the hash of the file minus the omitted sections | same | proved |  |
| C10 | The authentihash detects tampering | preimage of the Authenticode hash: every header field consulted is itself hashed | proved | The certificate table itself (its bytes, position and size) is not covered by the hash; see C11. |
| C11 | The authentihash pins the position of the certificate table | same, for two files | partial | False in general (refutation proved: the table can be relocated); proved when both tables start at the same offset. |
| C12 | Signing does not change the authentihash | same | proved |  |
| C13 | Certificate table entries round-trip | certificate table generator; induction over the entries | proved |  |
| C14 | Certificate table iteration is safe | same; induction over the fuel | proved |  |
| C15 | iter_signed_datas yields the maximal valid prefix, in pre-order | `iter_signed_datas`; induction over the table entries and the nested tree | proved | For all files and all answers of the ASN.1 decoder; 'recognisable' entries are those of Spec.GoodEntry. |
| C16 | multi_verify_mode means what it says | `SignedPEFile.verify`; induction over the list of signatures, states of contexts and stores threaded through | proved | C16_outcome in general, with the signatures tried one after the other; C16_all/first/any/best are the iff statements for verification independent of history (C16_historyFree: no contexts of the caller, readable store). |
| C17 | Stricter verification modes imply laxer ones | same | proved |  |
| C18 | Unknown multi_verify_mode values are rejected | same; concrete witness | partial | False (refutation proved): an unknown mode is not rejected, and a typo of 'all' accepts what 'all' rejects. Proved that it behaves exactly as 'any'. |
| C19 | expected_hashes are used as given and computed when absent | same | proved |  |
| C20 | verify() does not carry digests from one file to another | `_calculate_expected_hashes` on a dictionary shared with the caller | partial | False (refutations proved): the caller's dictionary is extended by the digests of the file, which are then used for another file. Exact effect proved; unchanged if it is complete or not passed. |
| C21 | An unsigned file is reported as such | `SignedPEFile.verify` and the iteration before it | proved | Libraries and stores are assumed not to raise AuthenticodeNotSignedError themselves. |
| C22 | explain_verify is total and precise | `AuthenticodeVerificationResult.call`; case analysis over the class hierarchy | proved |  |
| C23 | A parsed AuthenticodeSignedData is structurally valid | constructors of the PKCS#7 classes over decoded ASN.1 trees; mutual structural induction, exact specification `Spec.ReadsASD` | proved | Exact: the constructor succeeds iff the structure conforms to Spec.ReadsASD, to any nesting depth. |
| C24 | Malformed signatures are reported as ParseError | same; every failure of every constructor classified | partial | False as stated (six refutations proved: KeyError, TypeError, AssertionError, OverflowError, NotImplementedError); proved that every failure is a ParseError unless the structure has one of the listed defects, and that each of these defects makes from_envelope fail (C24_defects_refused). |
| C25 | Signer attributes are single-valued and unambiguous | signed attributes; last attribute of a type counts | partial | False for repeated attribute types, of which the last counts (refutation proved); proved for distinct attribute types, and exactly for all (last attribute). |
| C26 | A signature has at most one countersigner | unsigned attributes of the signer; mutual induction over the tree | proved |  |
| C27 | The signed bytes determine the signed attributes | canonical encoding of the signed attributes; injectivity of DER lengths and concatenation | proved |  |
| C28 | Successful verification binds file, content, attributes and signer | `AuthenticodeSignedData.verify` over the heap of contexts; symbolic execution, exact outcome | proved | For all contexts of the caller, lazily loaded stores and answers of the path validator. |
| C29 | Trust anchors come only from trusted stores | contexts of signature and countersignature; simulation relation between worlds | proved | Contexts, SignerInfo.verify and AuthenticodeSignedData.verify, for all states and all answers of the path validator. |
| C30 | countersignature_mode means what it says | modes of countersignature handling; simulation | partial | 'ignore' and 'strict' proved as stated; 'permit' with a bad countersignature is false if the caller passes one context for both purposes (refutation proved; what holds then is C31_shared_partial) and proved otherwise, if the stores can be read. |
| C31 | The verification time is the countersignature time or the context time | same; time at which the certificate is judged | partial | False if the caller passes one context for both purposes (refutation proved: the time of a failed countersignature is used); proved otherwise, and the choice of the time in modes 'strict' and 'ignore' without that assumption; C31_shared_partial gives the law for one shared context. |
| C32 | Lifetime-signing certificates do not benefit from the countersignature time | lifetime signing; candidates of the signer | partial | False (refutation proved: a second certificate with the same issuer, serial number and key makes the countersignature's time apply); proved if all certificates that made the signature are lifetime signing certificates; C32_exact_partial gives the time used for each candidate in general (for usages given as iterators see C35_sequence_authenticode). |
| C33 | Verifications sharing a VerificationContext are independent | histories: heap of contexts before and after; times left in contexts (`Spec.Times`) | partial | False (refutation proved): the time of a countersignature stays in the context. Proved for all histories if the timestamp is put back, or if no countersignature was looked at with the signer's context; C33_law_partial: in general the outcome is that of the first call with the context's timestamp replaced by the time of such a countersignature.  C33_time says exactly when a call leaves a time in the signer's context, and C33_exact_partial which time decides after any calls (ordinary contexts, not also used for countersigners).  C33_state and C33_memory give the exact law without any assumption on stores, usages or contexts: calls leave behind stores read, such timestamps and iterators used up, and nothing else. |
| C34 | Without a caller-supplied context verifications do not influence each other | same; the outcome as a function | partial | Contexts unchanged: proved for all histories. The outcome is a function of the signature, store contents and options: proved for trusted stores that can be read; false for stores that cannot (refutation proved); C34_law: for all stores, the outcome is the one before the calls, with the trusted store read or not. |
| C35 | SignerInfo.verify returns all chains or the first error | `SignerInfo._build_chain`; induction over the candidates; for all usages: the trials in sequence, each with the context as the one before left it | partial | Exact for contexts whose usages are containers and whose stores can be read; exceptions other than VerificationError end the loop (refutation proved), and for AuthenticodeSignerInfo with candidates that differ in lifetime signing the exact law is C32_exact_partial. C35_sequence, C35_sequence_authenticode and C35_left give the exact law for all usages (containers or iterators) and candidates; C35_unreadable says that with a store that cannot be read the exception is that of the store, unless a candidate before it cannot be refused properly. |
| C36 | Signature verification accepts only valid signatures | `Certificate.verify_signature`; case analysis | partial | Acceptance and monotonicity proved as stated; 'all failures are CertificateVerificationError' is false when loading the public key raises (refutation proved), or when the subject of the certificate has a value that is not text (TypeError, since the message names it); proved otherwise. |
| C37 | verify_trust accepts iff some trusted store accepts | `CertificateStore.verify_trust` and trust lists; decision specification | partial | False as stated (refutation proved): a CTL with an unsupported algorithm raises an error that is not caught, and so does a store that cannot name the root in its message (C37_names_false). Proved for supported CTLs, re-iterable EKUs and roots with names that are text; soundness proved in general; C37_exact says for all stores when trust is granted and when the uncaught error occurs. |
| C38 | CTL decisions follow the documented policy | `CertificateTrustSubject.verify_trust`; independent decision specification | proved |  |
| C39 | CTL decisions are monotone | same; monotonicity in usages and time | proved |  |
| C40 | CTL lookup is exact | `find_subject`; injectivity of hexadecimal | proved |  |
| C41 | find_certificates is an exact, duplicate-free, order-preserving query | queries of stores; induction over the stores | proved |  |
| C42 | potential_chains is sound and complete | `potential_chains`; induction over the depth, exact specification `Spec.PotentialChain` | proved | For loaded stores; see C43 for stores not loaded yet. |
| C43 | FileSystemCertificateStore loading is transparent | lazily loaded stores in the heap | partial | False for is_trusted and potential_chains before the first iteration and for failed loads (refutations proved); proved for verify and find_certificates, for everything once the trusted stores have been loaded (a query loads all); is_trusted never says yes too early. |
| C44 | Certificate and name equality are equivalence relations compatible with hashing | equality and hash of certificates and names | proved | C44_hashable_iff records that certificates with DSA keys cannot be hashed at all. |
| C45 | Names compare equal only if all their attributes agree | components of names | partial | False for multi-valued RDNs, of which only the first attribute is compared (refutation proved); exact characterisation proved for all names, and the property for names with single-valued RDNs. |
| C46 | The DN string is unambiguous | `dn`; a reader written as specification and proved to invert it | proved |  |
| C47 | get_components filters by type | `get_components` | proved |  |
| C48 | FileTime conversion round-trips | `FileTime`; explicit model of correctly rounded binary64 arithmetic | partial | False for every whole second after 1601 (refutation proved): set() scales by 100 instead of 10^7. The exact law for all inputs is proved (C48_exact: what is read back lies within 10 µs above 10 µs per whole second since 1601; C48_before: which times before 1601 are refused). |
| C49 | FileTime reading is monotone and accurate | same | partial | Monotonicity, exactness on whole seconds and the None/length cases proved for all inputs; the one microsecond accuracy is false after 2171-11-08 (refutation proved) and proved before; C49_late gives the exact grid, C49_accuracy_all a bound of 16 microseconds over the whole range, C49_range the values that are refused. |
| C50 | One-shot iterables are acceptable as EKU arguments | one-shot iterables as arguments of contexts | partial | False (refutation proved): the CTL sees no EKUs if these are given as a generator. Proved for contexts without CTLs and for containers; C50_exact gives the exact law (the CTLs see a request of no EKUs), C50_not_stricter that a generator never accepts less. |
| C51 | Only accepted digest algorithms are used and 'best' picks the strongest | `_get_digest_algorithm`, `_calculate_expected_hashes`, mode 'best' | proved |  |
| C52 | RFC3161 countersignatures bind the timestamp to the signature | `RFC3161SignedData.check_message_digest` and `verify` | proved |  |
| C53 | PKCS#9 countersignatures bind the timestamp to the signature | `CounterSignerInfo.check_message_digest` and `verify` | proved |  |
| C54 | Timestamp accuracy conversion is exact | `accuracy_to_python` with the range of datetime.timedelta; arithmetic | proved |  |
| C55 | End to end: a verified PE file is untampered | composition of C10, C16, C19, C28 | proved |  |
| C56 | Verification errors stay inside the documented exception classes | exceptions leaving `verify`, classified for all calls (`Spec.Leak`) | partial | False (refutation proved): a trust list for an unsupported algorithm raises CertificateTrustListParseError, and a refusal that names a certificate whose name is not text is a TypeError (C56_names_false). Proved that every other exception comes from a store, the key loader or the validator (Spec.Leak), and the property if these behave and names are text. |
| C57 | CTL entries report their attributes | `CertificateTrustSubject._parse`; last attribute of a type, first value | proved |  |
| C58 | Distinguished names are escaped as RFC 2253 requires | escaping in `dn`, exact | partial | False (refutation proved): a leading space is not escaped. Exact otherwise (C58_exact says what is escaped for all values). |
| C59 | A verified PE file comes with complete evidence | soundness: all the evidence behind a successful verification (`Spec.Evidence`) | proved | Spec.Evidence and Spec.ChainEvidence list the evidence; key operations and path validation are the libraries' answers. |
| C60 | Adding signatures to a signed file keeps the verdict on the present ones | files with signatures added | proved | Modes 'first', 'best' and 'any' for all calls; mode 'all': the converse (C60_all) for calls without contexts of the caller and stores that can be read (PlainCall), C60_all_present for all calls. |
| C61 | No valid signature is rejected | completeness: the evidence suffices (`Spec.Complete`) | proved | iff, for libraries and stores that behave (Spec.LibrariesBehave, Spec.StoresBehave), certificates in the stores with names that are text, and usages given as containers.  C61_file is for files verified without contexts of the caller; C61_file_contexts also with such contexts, the time left in them by earlier signatures taken into account. |
| C62 | SignerInfo.potential_chains is sound, complete and free of duplicates | `SignerInfo.potential_chains` | proved | For loaded stores. |
| C63 | A trust list read from a file says what the file says | `CertificateTrustList` from the decoded list: attribute types by OID, values by type; iff-specification of success, one of the contents | proved | Decoding of octet strings to usages and lists is asn1crypto's (CtlCodec). |
| C64 | Friendly names of a trust list are read as UTF-16 text | Python's UTF-16-LE decoder against the encoder of the standard; both directions | proved | Both directions: nothing but UTF-16 text is accepted. |
| C65 | The signed content is read as it was written | encoder for SpcIndirectDataContent after the standard, asn1crypto's decoder and the schemas as model; what is read equals what was encoded, exactly | proved | Exact: read iff it says so.  asn1crypto's decoder is part of the model (see the trusted base). |
| C66 | Certificates and signed attributes are read as they were written | encoders for X.509 certificates and CMS attributes; read-back for all values by induction over the encoded tree | proved | Certificates with extensions other than extended key usage are covered, the contents of those are not looked into. For single values the texts, integers and times that are read are characterised exactly, for all octets. |
| C68 | Signatures are read as they were written, also from files | encoders for SignedData with signers, countersigners, time stamps and nested signatures (mutual induction); file level by the round trip of certificate tables (C13) | proved | Attribute types are distinct in the signatures considered, signers are identified by issuer and serial number; anything else is covered by C22-C27 and C44-C47, which speak of decoded structures. |
| C67 | Trust lists are read from files as they were published | encoders for trust lists and for what a publisher says about a certificate; read-back by induction over the encoded tree, then find_subject and verify_trust from the bytes of the file | proved | Times of distrust in whole seconds (others are covered by C49); each certificate is listed once (otherwise the last entry counts, C63). |
| C69 | Nothing is made up when a signature is read | every value the decoder builds is a sub-slice of its input (induction over the type and over the depth of nesting), carried through the parsers by the Reads relations | proved | The signed attributes are checked in the DER form of their SET, as the standard demands; their contents are part of the file. |
| C70 | What follows a signature in its entry does not matter | the decoder reads its first value whatever follows; fuel does not matter; then C60 for the same signatures | proved |  |
| C71 | The outcome is a function of the certificate table and of what is hashed | the loop over the table reads nothing but the table; then C60 for the same signatures | proved | On files whose signatures can be read; for others the exception is the same by C71_signatures. |
| C72 | From the bytes of a file to the verdict | C61 with the decoder in place: by C69 certificates are what their encodings say, so that objects stand for certificates; C68 and C60 for images that are signed | proved | The cryptographic primitives and the path validator are parameters (LibrariesBehave); the certificates of the trusted store are what their encodings say; the names of the certificates are text. |
| C73 | Certificates in PEM are read as they were written | the line splitter, unarmor's state machine and the base64 decoder are modelled; read-back by induction on the blocks, within by induction on the lines | proved | asn1crypto.pem.unarmor and base64.b64decode are modelled from their published source; they are not part of the repository. |
| C74 | Trusted certificates are those in the files | induction on the files, C73; the certificates of the store are what their encodings say, so that C72 applies | proved | The order of glob is a parameter.  What happens after a failed load is C43. |
| C75 | The published trust list decides which roots may sign code | C59 (evidence) with C74 (files) and C67 (list): the policy of the list in terms of the published octets and object identifiers; exact characterization of acceptance by the store | proved | 'The same certificate' is equality of issuer, serial number, subject and public key, as in the library. |
| C76 | The command line prints the digests of each file | model of `main` on top of the fingerprinter; the literal lines expected are the specification; `hashes_good`, `addAuthenticode_eq` and C09 give the digests | proved | The hash functions are arbitrary functions of the bytes; printing and opening of files are trusted. |
| C77 | ASN.1 values are read as the standard defines them | definite-length values of X.690 as specification; the parser's loops inverted, so that it accepts exactly these | proved | This is about the model of asn1crypto's parser, which the library relies on (see the trusted base).  Both forms of lengths. |
| C78 | Entries appended to the certificate table do not hide the signatures before them | refuted with a file in DER; exact behaviour by the kind of the appended entry (unreadable, unknown revision, other type), through C13, C15 and C60 | partial | False as stated (C78_harmless_false: four octets in an appended entry make verify() raise ValueError).  Proved: an unreadable PKCS#7 entry always makes verify() raise the decoder's exception, whatever else is in the file; an entry of unknown revision and all after it are as if absent; entries of other types are as if absent; for readable entries see C60. |
| C79 | Loading a signature from arbitrary bytes raises one of ten kinds of exception | exception classes tracked compositionally through every decoding and parsing function (RaisesOnly); decoded attribute values shown to be well typed, which excludes the model's catch-all exception; witnesses in DER by kernel evaluation | proved | Exact set of exception classes over the model with the concrete DER decoder, with a witness in DER for each class.  The model decodes eagerly: an exception that asn1crypto raises when a part is first looked at (the IndexError for a name with an empty component, in particular) is raised on loading here. |
| C80 | Loading certificates and trust lists from arbitrary bytes raises a known set of exceptions | a predicate for the values of a schema (Shaped), which the decoder is proved to establish, and from which the access to fields never fails; exception classes tracked compositionally; witnesses in DER | proved | Exact sets over the model with the concrete DER decoder; what is decoded by a schema is proved to have the shape of the schema (so no TypeError from looking at the parts).  The model decodes eagerly: the IndexError of a name with an empty component comes when the name is first looked at, and the signers of a trust list, which signify does not look at, are decoded too. |
| C81 | The fields of a signature that nobody looks at can be changed freely | a specification of the essence of a signature (recursive erasure of the unused fields); loading proved to factor through it, by mutual induction; then C60/C68 for files; example with an arbitrary payload | proved | Theorems over the concrete DER decoder, for signatures written in DER.  The specification DSD.essence lists what remains of a signature. |
| C82 | verify() of an arbitrary file raises a known set of exceptions, and explain_verify reports a known result for each | C79 for the embedded structures, C56 for the verification, C15 for the iteration; witnesses for each class evaluated by the kernel | proved | Over the model with the concrete DER decoder.  Exceptions of stores that cannot be read, of unsupported trust lists and of the libraries are excluded by hypothesis (see C56 for these); memory, recursion limits (for these see C101) and the operating system are not modelled. |
| C83 | The signature algorithm named in a signature has no influence on the verdict | the names are erased before parsing (a codec without names); parsing, iteration and verification commute with the erasure, then C60 | proved | Over the model with the concrete DER decoder; for encodings that the writer of the specification produces (as in C81). |
| C84 | Adding a store to a context, or a certificate to a store, takes nothing away | states before and after are compared through the laws of C41 (search), C42 (chains) and C37 (trust); other contexts by the frame lemma of Proofs/Candidates | proved | Chains: for stores that have been read. verify_trust after append: for EKU collections that can be iterated repeatedly (see C50). C84_trusted_store_chains_false is the witness for the exception named in the statement. |
| C85 | The position of the file object never matters; iterations over one file do not disturb each other | file object with a position; generators as state machines; simulation of the byte-level model, invariant: what a suspended generator still has to give | proved | Refinement: the byte-level functions used in the other properties are computed by the seek/read-level model, from any position. |
| C86 | A file changed while it is open is never reported with its old content | the file-object model with an arbitrary remembered length; Hoare-style postconditions for every step; simulation on the first bytes of the file | proved | The content is fixed during the reading of the signatures and during the hashing, each; it may change between the two. C86_shrunk_struct_error records that a file cut off after opening makes the iteration raise struct.error, which is not an exception of the library. |
| C87 | Verification uses only the signatures of a file and the digests to compare with | congruence of the loop of `verify`; dictionaries are neither read nor written by the verification of a signature (`NoDict`) | proved |  |
| C88 | A certificate store is a list, a file system store from its first len() or iteration on | an interpreter of operation sequences, compared with one for Python lists (`Spec.opsOnList`) | proved | Of the operations of list, those named in the statement are modelled. |
| C89 | With a time given, or a time stamp that must hold, the clock does not matter | two surroundings that differ in the clock (`Spec.SameButClock`); the actions are equal on states with a time | proved | The path validator (certvalidator) is not modelled: it is assumed to depend on the clock only for requests without a moment. |
| C90 | The printed form of a certificate identifies it; the listing shows every trusted certificate | strings compared from their ends; the order as a stable permutation, with uniqueness | proved | SHA-1 is any function with results of 20 octets; how a time is printed is left open. |
| C91 | The extensions and version of a certificate are those it was written with | encoder for agency information and criteria; read-back of the encoded tree and induction over the extensions; inversion of the reader for the last clause | proved | Decoders of extensions that asn1crypto itself defines are a parameter, except for extended key usage. For criteria in extensions both are written down (C92 for the rest). |
| C92 | Financial criteria are read as what they say | all nine cases of the encoder, with the field matching of the decoder | partial | False as stated (C92_financial_false): the schema has two optional fields of the same type in a row, so the second alone is taken for the first. C92_financial_partial says exactly when it holds, C92_confused what is reported otherwise. |
| C93 | Files verified one after the other do not influence each other | the calls on signatures that verifying a file makes, as a list; what calls leave behind from C33; a simulation of two runs whose states agree on what can be seen | proved | What a context or dictionary that is passed again remembers is in C93_memory, C33 and C20. |
| C94 | The report on files says what verification says | induction over signatures and files with the invariant that the trusted store has the same contents; verdicts from C22, C15, C16 and C34 | proved | How times, links and exceptions are printed is a parameter. |
| C95 | Key usages asked for are asked of every chain returned | containers from the soundness of SignerInfo.verify; iterators: a successful verification leaves the iterator of its context empty, and both contexts made by verify hold the same iterator, as do the signatures of one file | partial | Proved for containers, in all contexts. False for iterators (C95_once_false): the countersigner's chain uses the iterator up, and the signer's certificate is then accepted without the usages asked for. The exact behaviour with an iterator is proved instead: for one context, for SignerInfo.verify with any number of candidates (only the first that made the signature is asked for the usages), for AuthenticodeSignedData.verify without given contexts, and for SignedPEFile.verify without given contexts (each signature gets what the ones before have left, which is nothing after one that verified; C95_once_file_false shows a file that is accepted only with an iterator). One-shot crls and ocsps are not modelled. |
| C96 | Threads may share a store of trusted certificates | transition system of threads over the steps of the methods; invariants by induction over executions of any length; refutations by executions for every location; the steps refine `iterStore` | partial | False while the store is being loaded: _loaded is set before the files are read, so that a thread that comes second may find the store empty and a certificate of the location not trusted (C96_missing_false), and two threads that both find _loaded unset load everything twice, for good (C96_twice_false). Proved instead, for all interleavings: nothing comes out of the store that was not put there or is in the files (C96_nothing_else); when the operations that overlap the loading are over, everything is there (C96_settled); from then on, or after one iteration before the threads start, threads do not disturb each other (C96_after_loading, C96_iterated_first); and operations that do not overlap give what the rest of the model says (C96_one_at_a_time). |
| C97 | What verify() means for a file that others use or change during the call | the functions that use the file as programs of single operations, run amid arbitrary changes of the file; a program logic whose assertions are about the moments of the run; threads are such a run; without others the programs are the functions on the file object (C85) | proved | The functions that use the file are modelled as programs of seek, tell and read; C97_alone ties them to peVerify. C97_outcome also says what happens when the call fails; C97_moment_false, C97_threads_false and C97_threads_fail are the examples for the last part. Single operations on the file object are taken to be atomic, and contexts, stores and the dictionary of expected hashes not to be used by the others (for stores see C96). |
| C98 | What AuthenticodeSignedData.verify() means while other threads use the same stores and contexts | the functions that use stores and contexts as programs of single accesses, run amid arbitrary changes of the state; a program logic with an assertion about the moments of the run and a relation that bounds what others do; threads are such a run; without others the programs are the functions on the state | proved | The functions that use stores and contexts are modelled as programs of single accesses; C98_alone ties them to asdVerify. C98_race_false and C98_context_false are the examples for the last part. `fuel` bounds the iterations over a store, which others could prolong for ever; the statements hold for every bound, and C98_alone and C98_threads_loaded for every bound larger than the stores. `certificate in store` and the reading of the attributes of a context are taken to be single accesses, and the file not to change (for that see C97). |
| C99 | Files may be verified in threads that share the trusted stores | SignedPEFile.verify on top of the programs of C98; the program logic of C98 gives what a run amid others has found, an invariant of all threads (stores are those of the start, loaded in part) what it means for the loaded stores, and stores that do not change make the run one without others | proved | C99_race_false is the example for stores that have not been loaded. The simplifications of C98 apply; each thread has its own file and its own dictionary of expected hashes, if any. |
| C100 | Time that passes during a call | verification with a time, and answers of the path validator, for each reading of the clock (Model/Moments.lean); the actions with a moving and with a standing clock are equal on states that satisfy an invariant, as for C89; acceptance by a trust list is antitone in time, which moves every success back to the moment at which the path validator was asked | proved | C100_refused and C100_mixed are the examples for the last two sentences; the undated countersigner of the second cannot come out of parsing a PKCS#9 countersignature (C53_signed_time), but the class can be given one, as in C89_undated. The path validator (certvalidator) is not modelled: its answers at each moment are arbitrary. C100_evidence is the counterpart of C59 for files, C100_outcome that of C16. |
| C101 | RecursionError and MemoryError while the signatures of a file are parsed | parsing with an exception that may strike at each step (Model/Strikes.lean); 'the same result or the exception' is closed under sequencing, loops and the recursions over nested structures | proved | C101_first is the example of a signature that is not looked at. While signatures are verified, there are no nested calls of signify itself; exceptions in the path validator and the key operations are among the answers that the rest of the model allows for. Equal structures on the same level are treated alike. |
| C102 | verify() of a file while others change the file, use the file object and use the stores, all at once | one program for the accesses to the file and to the stores (Model/Both.lean); its runs amid others are runs of the two parts amid others of the kinds of C97 and C99 | proved | Combines C97 and C99. That the file as it was at a single moment need not verify (C97_moment_false), and that a thread may raise although the file verifies (C99_race_false), is shown there. |
| C103 | Keyword arguments that do not exist, or that are given twice | binding of keyword arguments for the three functions in the order in which they are called (Model/Keywords.lean); the outcome of a file is made of attempts that are either those of C16 or a TypeError without effects | proved | How Python binds keyword arguments is modelled by hand: a name given twice or unknown is a TypeError before the body runs. |
| C104 | Times without a time zone | times as instants or clock readings, and verify_trust with them (Model/Zones.lean), function by function as in Model/Context.lean; equal to the model of the latter for instants, by induction over the stores; verify likewise, step by step | proved | What certvalidator does at a moment without a time zone is a parameter (C104_verify_zoneless assumes that it finds no chain). That Python cannot compare times with and without a time zone is modelled by hand. |
| C105 | Countersignatures whose time nothing supports | what a successful verification of the countersigner shows (Proofs/Verify.lean) contradicts the assumption on certvalidator; then the laws of the modes (C30) and of the combinations (C16) | proved | For stores that can be read. For files: calls without contexts of the caller. |
<!-- end properties -->

## Trusted base

1. Lean's kernel, and the axioms below. There are no others: no `sorry`, no `native_decide`, no `bv_decide`, no axiom of our own.
2. The reading of `/repo` recorded in `Model/*.lean`. Every definition cites file and lines; simplifications are marked
   `Simplification` at the definition.
3. What is not modelled, listed next.

### Parameters: code outside the repository

Nothing is assumed about these unless a theorem states the assumption.

* `Env.hash`: `hashlib`. Digests are a function of the algorithm's name and the concatenation of the updates. Collision resistance
  is never assumed; where a property needs it, the theorem says that the two preimages are equal or names the colliding pair.
* `Env.now`: the clock. In the model it does not advance during one call, except in `Moments`, where each reading has its own time; C100 relates the two.
* `Env.loadKey`, `Env.pkVerify`, `Env.rawVerify`: `oscrypto` keys and signature primitives, any answer or exception.
* `Env.mkValidator`, `Env.validate`: `certvalidator`; any answer or exception for each request. A request holds everything that
  the code hands over.
* `Codec`: `asn1crypto` decoding of byte strings to trees and encoding of trees. The trees (`RawSD`, `RawSI`, `RawAttr`, …)
  have the shape that the schemas of `asn1/spc.py`, `asn1/ctl.py` and asn1crypto's `cms`, `tsp`, `x509` prescribe. The model
  decodes a structure when it is first needed, asn1crypto lazily. Theorems up to C64 hold for every `Codec`.
* `derCodec`, `derCtlCodec` (C65 on): one particular decoder, that of asn1crypto with the schemas of the repository. asn1crypto is not
  in `/repo` and not installed here; its engine is modelled from knowledge of its published source, so its model is part of the
  trusted base of these theorems. The encoders they are stated against (`Spec/Der*.lean`) are written after X.690, RFC 5280,
  RFC 5652, RFC 3161 and Microsoft's document on Authenticode. As a check the model was run on the PKCS #7 structures of the 14
  signed PE files in `/repo/tests/test_data`: all are read, the digests are the authentihashes recorded in the tests, and the hash of
  the content is the message digest exactly in the files that were not tampered with.
* Stores on disk: the certificates that a directory yields, or the exception that reading it raises, are a field of the store (up to
  C73). C74 computes them from the contents of the files with the model of asn1crypto's `unarmor`, which has the same standing as
  that of its decoder; the models of `b64decode` and `splitlines` were compared with Python's on random inputs.

### Code of the repository that is not modelled

* Logging, `__repr__`, type annotations, the dynamic part of error messages (and `_print_type`, which only serves these). That
  putting a message together fails if the certificate named in it has a name with a value that is not text is modelled (`raiseNaming`).
* Parts of the ASN.1 schemas that nothing in the library looks at (for example extensions that asn1crypto itself decodes, other
  than extended key usage: their decoders are a parameter in `Extensions`).
* Reading files (`open`, the order of `glob`), `mscerts` paths, `sys.argv`.
* Times without a time zone, except in `verify_trust` and `verify` of contexts (`Zones`, C104): elsewhere the times of contexts are taken to be in a known time
  zone, and a GeneralizedTime without a zone (in certificates, signed attributes and time stamps) stands for UTC.
* Concurrency, except for stores in files (`Threads`, C96: sequentially consistent steps, as under the global interpreter lock; the
  steps are those at which CPython may switch threads) and for the file object (`Shared`, C97: `verify()` of a file that other threads use or
  other programs change between any two of its operations) and for stores and contexts (`Together`, C98, and `TogetherPE`, C99), and for both together (`Both`, C102); otherwise, modification of a file while it is read (C86 allows it between the steps of an iteration, and between the reading of
  the signatures and the hashing), of `data` attributes or of class attributes by the caller while the library runs;
  Python's limits on recursion and memory (except while signatures are parsed: C101).

## Axioms

Summary of `#print axioms` for the theorems in `MANIFEST.json`.

<!-- axioms -->
| axioms | theorems |
|---|---|
| none | `C15_preorder_unique`, `C40_error_class`, `C49_accuracy_false`, `C77_forms` |
| propext | `C06_reuse_false`, `C06_shared_overlap_false`, `C07_hash`, `C07_hash_two_registrations_false`, `C15_unique`, `C22_hierarchy`, `C22_unique`, `C22_explain`, `C24_parse_error_false_keyError`, `C24_parse_error_false_noContent`, `C24_parse_error_false_noImage`, `C24_parse_error_false_assertion`, `C24_parse_error_false_accuracy`, `C24_parse_error_false_tsa`, `C25_unique_false`, `C43_is_trusted_false`, `C44_name_eq`, `C44_name_hash`, `C47_by_type`, `C47_all`, `C49_last_time`, `C51_algorithm_iff`, `C51_rejected`, `C63_signature_not_used`, `C63_file`, `C63_other_envelopes`, `C73_lines`, `C79_documented`, `C81_attribute`, `C81_other_certificate`, `C81_version`, `C83_any_algorithm`, `C85_hashes`, `C86_shrunk_struct_error`, `C96_settled`, `C101_parse`, `C101_listed` |
| propext, Quot.sound | `C15_iteration`, `C15_ignored`, `C25_last_attribute`, `C25_unique_partial`, `C27_encoding`, `C27_injective`, `C27_determines`, `C29_embedded_not_anchors`, `C35_verdict_meaning`, `C41_unique`, `C41_certificates`, `C43_sound_partial`, `C44_cert_eq`, `C44_cert_eq_iff`, `C44_hash`, `C44_hash_iff`, `C44_hashable_iff`, `C48_round_trip_false`, `C48_exact`, `C49_monotone`, `C49_readable`, `C49_whole_seconds`, `C49_range`, `C49_lengths`, `C57_fields`, `C66_integer`, `C76_unique`, `C77_truncated`, `C82_explained`, `C84_add_store_trusted`, `C84_append_order`, `C84_append_trusted`, `C88_list`, `C88_lazy`, `C88_failed`, `C90_order_unique`, `C92_financial_false`, `C96_nothing_else`, `C96_after_loading`, `C96_one_at_a_time`, `C96_iterated_first`, `C96_missing_false`, `C96_twice_false`, `C101_shallow` |
| propext, Classical.choice, Quot.sound | `C01_digests_exact`, `C01_independent`, `C02_no_digest_for_ill_formed`, `C02_ill_formed_never_returns`, `C02_reversed_range_may_hang`, `C03_terminates`, `C03_internal_errors_unreachable`, `C03_block_size_zero_diverges`, `C04_reusable`, `C04_failure_persists`, `C04_sequence`, `C05_reads_bounded`, `C05_single_pass`, `C06_shared_lists_partial`, `C06_lists_not_intact`, `C07_keys`, `C07_hash_single_partial`, `C08_exact`, `C08_omit_sections_sane`, `C09_authentihash_exact`, `C09_not_pe`, `C09_authentihash_iff`, `C10_tamper_detection`, `C10_same_image_same_hash`, `C10_unsigned_files`, `C11_position_not_pinned_false`, `C11_same_position_partial`, `C12_signing_keeps_hash`, `C12_table_content_irrelevant`, `C13_round_trip`, `C13_attach_round_trip`, `C14_iteration_safe`, `C16_outcome`, `C16_selection_unique`, `C16_all`, `C16_first`, `C16_any`, `C16_best`, `C16_historyFree`, `C17_monotone`, `C18_unknown_mode_false`, `C18_unknown_mode_partial`, `C19_digests`, `C19_no_keyError`, `C19_returned`, `C19_set_order`, `C20_effect`, `C20_shared_dictionary_false`, `C20_unchanged_false`, `C20_unchanged_partial`, `C20_none`, `C21_not_signed`, `C21_signatures_exist`, `C21_no_table`, `C21_no_pe`, `C21_other_errors`, `C22_file`, `C22_signature`, `C23_parse_exact`, `C23_structurally_valid`, `C23_from_envelope`, `C24_defects_refused`, `C24_parse_error_partial`, `C26_countersigner`, `C28_exact`, `C28_binding`, `C28_needs_digest`, `C29_signer_verify`, `C29_asd_verify`, `C29_context_verify`, `C29_question`, `C29_members`, `C30_ignore`, `C30_strict_success`, `C30_strict_bad`, `C30_permit_default`, `C30_permit_good`, `C30_permit_bad_partial`, `C30_absent`, `C30_dichotomy`, `C30_permit_false`, `C31_shared_partial`, `C31_time_false`, `C31_time_partial`, `C31_which_time`, `C32_exact_partial`, `C32_lifetime_false`, `C32_lifetime_partial`, `C33_state`, `C33_memory`, `C33_independent_false`, `C33_reset_partial`, `C33_law_partial`, `C33_no_countersignature_partial`, `C33_time`, `C33_exact_partial`, `C34_law`, `C34_contexts_unchanged`, `C34_other_contexts`, `C34_function_partial`, `C34_history_partial`, `C34_unreadable_false`, `C35_verdict_partial`, `C35_authenticode_partial`, `C35_candidates`, `C35_verdict_false`, `C35_sequence`, `C35_sequence_authenticode`, `C35_left`, `C35_unreadable`, `C36_accepts_iff`, `C36_legacy_monotone`, `C36_all_failures_false`, `C36_failures_partial`, `C37_order_false`, `C37_iff_partial`, `C37_exact`, `C37_names_false`, `C37_order_partial`, `C37_sound`, `C37_store`, `C38_policy`, `C38_refusal`, `C39_monotone`, `C40_find_subject`, `C40_unsupported`, `C41_store`, `C41_store_find_certificate`, `C41_context`, `C41_find_certificate`, `C42_potential_chains`, `C42_once`, `C43_potential_chains_false`, `C43_failed_load_false`, `C43_verify_find_partial`, `C43_after_load_partial`, `C43_trusted_loaded_partial`, `C45_equal_names_may_differ_false`, `C45_first_attributes_partial`, `C45_single_valued_partial`, `C46_dn_returns`, `C46_dn_parses_back`, `C46_dn_injective`, `C46_dn_iff_equal`, `C48_epoch_partial`, `C48_before`, `C49_accuracy_partial`, `C49_late`, `C49_accuracy_all`, `C50_generator_false`, `C50_generator_partial`, `C50_exact`, `C50_not_stricter`, `C50_containers_partial`, `C51_parameters`, `C51_best`, `C51_considered`, `C51_accepted`, `C52_rfc3161`, `C52_rfc3161_alone`, `C52_parsed`, `C53_pkcs9`, `C53_signed_time`, `C54_accuracy`, `C54_overflow`, `C54_tst`, `C55_authentic`, `C55_untampered`, `C56_context_partial`, `C56_signer_partial`, `C56_authenticode_signer_partial`, `C56_behaved_partial`, `C56_signature_partial`, `C56_file_partial`, `C56_refused`, `C56_classes_false`, `C56_names_false`, `C58_escaping_false`, `C58_exact`, `C58_escaping_partial`, `C59_evidence`, `C60_selected`, `C60_first`, `C60_best`, `C60_any`, `C60_all_present`, `C60_all`, `C60_same_signatures`, `C60_attach`, `C61_context`, `C61_signer`, `C61_authenticode_signer`, `C61_signature`, `C61_file`, `C61_file_contexts`, `C62_signer_chains`, `C63_entry`, `C63_success`, `C63_contents`, `C63_find_subject`, `C63_policy`, `C64_utf16`, `C64_name`, `C64_round_trip`, `C64_error`, `C65_content_exact`, `C65_read_back`, `C66_certificate_read_back`, `C66_encoding_determines`, `C66_attributes_read_back`, `C66_time_zone`, `C66_utc_time_exact`, `C66_general_time_exact`, `C66_text`, `C66_text_error`, `C66_text_unique`, `C66_attribute_value`, `C68_signature_read_back`, `C68_says_one_thing`, `C68_encoding_determines`, `C68_timestamp_exact`, `C68_signed_file`, `C67_usages_read_back`, `C67_list_read_back`, `C67_subject_read_back`, `C67_file_read_back`, `C67_find_subject`, `C67_policy`, `C69_signature`, `C69_file`, `C70_first_value`, `C70_trailing`, `C70_file`, `C71_entries`, `C71_signatures`, `C71_outcome`, `C72_verdict`, `C72_signed_image`, `C73_read_back`, `C73_first`, `C73_within`, `C73_nothing`, `C73_no_block`, `C74_loaded`, `C74_sources`, `C74_failure`, `C74_trusted`, `C74_verdict`, `C74_untrusted`, `C75_store`, `C75_accepts`, `C75_anchor`, `C75_refused`, `C75_verdict`, `C75_no_ctl`, `C75_no_ctl_wider`, `C75_no_ctl_verdict`, `C76_printed`, `C77_indefinite_exact`, `C77_value_exact`, `C77_read_back`, `C78_unreadable_partial`, `C78_revision_partial`, `C78_other_type_partial`, `C78_harmless_false`, `C79_classes`, `C79_all_occur`, `C79_entry`, `C80_certificate`, `C80_pem`, `C80_pems`, `C80_certificate_all_occur`, `C80_trust_list`, `C80_trust_list_all_occur`, `C81_loaded_alike`, `C81_file`, `C82_classes`, `C82_all_occur`, `C83_loaded`, `C83_verified`, `C83_file`, `C84_add_store_found`, `C84_add_store_verify_trust`, `C84_add_store_chains`, `C84_trusted_store_chains_false`, `C84_add_store_others`, `C84_append_found`, `C84_append_verify_trust`, `C85_sections`, `C85_iterations`, `C85_list`, `C85_add_authenticode_hashers`, `C85_expected_hash`, `C85_verify`, `C86_iterations`, `C86_list`, `C86_current`, `C86_verify`, `C86_appended`, `C87_outcome`, `C87_supplied`, `C87_signature`, `C87_entries`, `C89_context`, `C89_given`, `C89_countersigned`, `C89_file`, `C89_without_time`, `C89_lifetime`, `C89_undated`, `C90_printed_form`, `C90_printable`, `C90_listing`, `C90_listing_error`, `C91_agency_read_back`, `C91_certificate`, `C91_unreadable`, `C91_usages`, `C92_financial_partial`, `C92_confused`, `C92_any_octet`, `C93_state`, `C93_memory`, `C93_independent`, `C94_files`, `C94_not_opened`, `C94_consistent`, `C95_container_signer_partial`, `C95_container_verify_partial`, `C95_once_context`, `C95_once_exact`, `C95_once_unchecked`, `C95_once_false`, `C95_container_file_partial`, `C95_once_file`, `C95_file_exact`, `C95_once_each`, `C95_once_file_false`, `C95_once_signer`, `C97_alone`, `C97_outcome`, `C97_returned`, `C97_changing`, `C97_moment_false`, `C97_threads`, `C97_threads_false`, `C97_threads_fail`, `C98_alone`, `C98_returned`, `C98_private`, `C98_threads`, `C98_threads_loaded`, `C98_race_false`, `C98_context_false`, `C99_alone`, `C99_private`, `C99_threads`, `C99_threads_loaded`, `C99_explain_loaded`, `C99_race_false`, `C100_quiet`, `C100_quiet_file`, `C100_still`, `C100_dated`, `C100_context`, `C100_sound`, `C100_anchored`, `C100_refused`, `C100_mixed`, `C100_outcome`, `C100_evidence`, `C101_verify`, `C101_success`, `C101_explain`, `C101_first`, `C102_alone`, `C102_returned`, `C102_changing`, `C102_any`, `C102_threads`, `C103_known`, `C103_outcome`, `C103_early`, `C103_unknown`, `C103_returned`, `C103_unused`, `C103_signature`, `C103_explain`, `C103_explain_signature`, `C104_aware`, `C104_any_instant`, `C104_accepted`, `C104_dateless`, `C104_list`, `C104_verify_aware`, `C104_verify_any_instant`, `C104_verify_zoneless`, `C105_strict`, `C105_permit`, `C105_file`, `C105_permit_file` |
<!-- end axioms -->

## Findings: where the code does not do what one would rely on

All proved of the model as refutations (theorems with `_false`).

* An unknown `multi_verify_mode` is not rejected and behaves as `'any'` (C18).
* `verify` extends the caller's `expected_hashes` with digests of the file, which then count for the next file (C20).
* The position of the certificate table is not covered by the hash (C11).
* Structural defects raise KeyError, TypeError, AssertionError, NotImplementedError or OverflowError instead of ParseError (C24), and
  of repeated attribute types the last one counts (C25).
* The time of a countersignature stays in the caller's context (C33); if the caller uses one context for both purposes, the
  time of a countersignature that failed is used (C30, C31); a second certificate with the same name, number and key makes the
  countersignature's time apply to a lifetime signing certificate (C32).
* A trust list with a digest algorithm other than SHA-1 and SHA-256 ends `verify` with CertificateTrustListParseError, which
  is not a VerificationError (C37, C56); exceptions of key loading and of the construction of the validator are not wrapped
  (C36, C56).
* Generators given as extended key usages are consumed by the first use (C50).
* `is_trusted` and `potential_chains` do not load a FileSystemCertificateStore; a failure to load a store is reported on the
  first use only, and the store counts as empty or partly filled from then on (C43).
* Of a multi-valued RDN only the first attribute is compared (C45); a leading space is not escaped in `dn` (C58), and a name with a
  value that is not text has no `dn`, nor has a certificate with such a subject a printed form: TypeError (C46, C90, C94).
* Refusing a certificate with such a subject is a TypeError as well, because the message names the certificate: from
  `Certificate.verify_signature` (C36), `VerificationContext.verify` (C56_refused) and `SignerInfo.verify`, where it also keeps further
  candidates from being tried (C35, `Spec.CandidateOutcome`); and from `verify_trust` of a store that does not have the root, so that a root with such
  a name is trusted or not according to the order of the stores (C37_names_false).
* `FileTime.set` scales by 100 instead of 10^7 (C48); reading is off by more than a microsecond after 2171 (C49).
* Sharing one list of ranges among `add_hashers` calls is harmful if the ranges overlap, and the list is used up (C06);
  `hash()` accepts several calls with the same description (C07).
