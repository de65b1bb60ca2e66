{"id": "C01", "title": "Fingerprint digests are the digests of exactly the requested bytes", "statement": "For every file, every block_size >= 1 and every collection of add_hashers() calls whose ranges lie inside the file, Fingerprinter.hashes() returns, and the digest reported for every registration is the hash of the concatenation, in order, of exactly the requested byte ranges. The result does not depend on block_size nor on which other hashers were registered.", "quantifier": "all file contents, all positive block sizes, all lists of registrations, all lists of in-file ranges (any order, overlapping or empty ranges included)", "why_tests_cant": "The interplay of block truncation and several cursors is combinatorial; tests fix one block size (1,000,000) and sample files.", "anchors": ["signify/fingerprinter.py: Fingerprinter.hashes", "signify/fingerprinter.py: Fingerprinter._next_interval", "signify/fingerprinter.py: Fingerprinter._hash_block", "signify/fingerprinter.py: Finger.consume"]}
{"id": "C02", "title": "No digest is ever reported for ill-formed ranges", "statement": "For arbitrary integer ranges and any block size, if hashes() returns at all then every requested range was well formed (0 <= start <= end and either empty or inside the file) and every digest is the correct one; a reversed, negative or out-of-file range never yields a digest.", "quantifier": "all files, all (possibly negative) integers as range bounds and block size, all registration lists using distinct list objects", "why_tests_cant": "Ranges over all ill-formed inputs, including non-terminating runs.", "anchors": ["signify/fingerprinter.py: Fingerprinter.hashes", "signify/fingerprinter.py: Finger.consume"]}
{"id": "C03", "title": "hashes() terminates and its internal-inconsistency errors are unreachable", "statement": "With block_size >= 1 and well-formed ranges hashes() terminates without raising; the errors 'Cutting across fingers', 'Non-empty range remains' and 'Block ...' cannot occur in any run over distinct range lists; with block_size = 0 and a non-empty range it never terminates.", "quantifier": "all files, registrations, block sizes; all numbers of loop iterations", "why_tests_cant": "Termination and unreachability are statements about every run.", "anchors": ["signify/fingerprinter.py: Fingerprinter.hashes", "signify/fingerprinter.py: Fingerprinter._hash_block", "signify/fingerprinter.py: Finger.consume"]}
{"id": "C04", "title": "A Fingerprinter is reusable and history-free", "statement": "After hashes() returns, the object has no registrations left and any later sequence of add_hashers()/hashes() calls behaves as on a fresh Fingerprinter over the same file; a hashes() call that has failed fails with the same error when it is repeated.", "quantifier": "all finite sequences of add_hashers and hashes calls", "why_tests_cant": "Quantifies over operation histories.", "anchors": ["signify/fingerprinter.py: Fingerprinter.add_hashers", "signify/fingerprinter.py: Fingerprinter.hashes"]}
{"id": "C05", "title": "Hashing is single pass with bounded reads", "statement": "Every read issued by hashes() is at most block_size bytes long, and when every registration's ranges are ascending and disjoint, no file byte is read twice, reads are issued in ascending order, and the bytes read are exactly the union of the requested ranges, however many hashers are registered.", "quantifier": "all files, block sizes and lists of ascending range lists", "why_tests_cant": "Concerns the trace of reads for every combination of registrations.", "anchors": ["signify/fingerprinter.py: Fingerprinter._next_interval", "signify/fingerprinter.py: Fingerprinter.hashes"]}
{"id": "C06", "title": "Passing one ranges list to several add_hashers() calls is harmless and leaves the list intact", "statement": "If the caller passes the same list object as ranges= of several add_hashers() calls, every registration still gets the digest of its ranges, and the caller's list can be re-used for a later run with the same meaning.", "quantifier": "all aliasing patterns of caller-owned lists, all files and block sizes", "why_tests_cant": "Aliasing patterns are unbounded; the tests never re-use a list.", "anchors": ["signify/fingerprinter.py: Finger.__init__", "signify/fingerprinter.py: Finger.consume", "signify/fingerprinter.py: Fingerprinter.add_hashers"]}
{"id": "C07", "title": "Results of hashes() and hash() are keyed by description and hasher name", "statement": "hashes() has one entry per distinct description (the last registration wins) and each entry maps exactly the hasher names of that registration to their digests; hash() returns the single entry when exactly one description was registered and raises RuntimeError otherwise, and it can only be used when add_hashers() was called exactly once.", "quantifier": "all lists of registrations, including repeated descriptions", "why_tests_cant": "Ranges over all registration lists.", "anchors": ["signify/fingerprinter.py: Fingerprinter.hashes", "signify/fingerprinter.py: Fingerprinter.hash"]}
{"id": "C08", "title": "Authenticode omit sections are always sane", "statement": "For every byte string get_authenticode_omit_sections() does not raise and returns either None or a mapping with 'checksum' (4 bytes), optionally 'datadir_certtable' (8 bytes) and optionally a non-empty 'certtable', which are pairwise disjoint, ascending in that order and contained in the file; the values are those of the PE header fields.", "quantifier": "all byte strings", "why_tests_cant": "Parses untrusted input: must hold on every malformed file.", "anchors": ["signify/authenticode/signed_pe.py: SignedPEFile.get_authenticode_omit_sections", "signify/authenticode/signed_pe.py: SignedPEFile._parse_pe_header_locations"]}
{"id": "C09", "title": "The authentihash is the hash of the file minus the omitted sections", "statement": "For every byte string, add_authenticode_hashers() either returns False and registers nothing (not a usable PE) or returns True, after which hashes() succeeds and reports the hash of the file with exactly the bytes of the omit sections deleted.", "quantifier": "all byte strings, all block sizes >= 1, all hash functions", "why_tests_cant": "Tests compare a handful of sample binaries.", "anchors": ["signify/fingerprinter.py: AuthenticodeFingerprinter.add_authenticode_hashers", "signify/authenticode/signed_pe.py: SignedPEFile.get_authenticode_omit_sections"]}
{"id": "C10", "title": "The authentihash detects tampering", "statement": "If two PE files have the same authentihash then either a hash collision has been exhibited or the two files have the same checksum and data-directory locations and, after removal of their certificate tables, are equal in every byte outside the checksum field and the certificate-table data-directory entry.", "quantifier": "all pairs of byte strings with a parsable PE header", "why_tests_cant": "Universal over all possible modifications of a file.", "anchors": ["signify/fingerprinter.py: AuthenticodeFingerprinter.add_authenticode_hashers", "signify/authenticode/signed_pe.py: SignedPEFile._parse_pe_header_locations"]}
{"id": "C11", "title": "The authentihash pins the position of the certificate table", "statement": "Two files with equal authentihash are equal byte for byte outside the omitted sections, at the same offsets (a certificate table cannot be relocated into the middle of the hashed image).", "quantifier": "all pairs of byte strings", "why_tests_cant": "Universal over pairs of files; needs a constructed counterexample to refute.", "anchors": ["signify/authenticode/signed_pe.py: SignedPEFile._parse_pe_header_locations", "signify/fingerprinter.py: AuthenticodeFingerprinter.add_authenticode_hashers"]}
{"id": "C12", "title": "Signing does not change the authentihash", "statement": "Attaching a signature to an unsigned PE file (appending a certificate table at the end of the file, filling in the data-directory entry and any checksum) leaves the authentihash unchanged; so does overwriting the bytes of an existing certificate table.", "quantifier": "all unsigned PE files, all certificate tables, all checksum values", "why_tests_cant": "Universal over files and tables.", "anchors": ["signify/fingerprinter.py: AuthenticodeFingerprinter.add_authenticode_hashers", "signify/authenticode/signed_pe.py: SignedPEFile._parse_pe_header_locations"]}
{"id": "C13", "title": "Certificate table entries round-trip", "statement": "Serialising any list of (revision, type, non-empty payload) entries as 8-byte-aligned WIN_CERTIFICATE records and iterating the certificate table yields exactly these entries in order, without error.", "quantifier": "all finite lists of entries with payloads small enough for the 32-bit length field, at any position in a file", "why_tests_cant": "Unbounded lists and payload sizes.", "anchors": ["signify/authenticode/signed_pe.py: SignedPEFile._parse_cert_table"]}
{"id": "C14", "title": "Certificate table iteration is safe", "statement": "For every byte string, iterating the certificate table terminates; every yielded certificate is a non-empty slice of the file lying inside the certificate table; slices are disjoint and ascending, there are at most size/16+1 of them, and the only exception is SignedPEParseError.", "quantifier": "all byte strings", "why_tests_cant": "Parses untrusted input; an earlier release looped forever and another read out of bounds.", "anchors": ["signify/authenticode/signed_pe.py: SignedPEFile._parse_cert_table"]}
{"id": "C15", "title": "iter_signed_datas yields the maximal valid prefix, in pre-order", "statement": "With ignore_parse_errors=True no SignedPEParseError escapes and exactly the signatures preceding the first table error are yielded; with False the same signatures are yielded and then the error is raised; include_nested yields each signature followed by its nested ones depth-first, and without it only the top-level ones.", "quantifier": "all files, all results of parsing the embedded structures", "why_tests_cant": "Ranges over all tables, nesting depths and error positions.", "anchors": ["signify/authenticode/signed_pe.py: SignedPEFile.iter_signed_datas"]}
{"id": "C16", "title": "multi_verify_mode means what it says", "statement": "SignedPEFile.verify() with mode 'any' succeeds iff some signature verifies and returns the first that does; 'all' iff every one does, returning all; 'first' iff the first one does; 'best' iff one with the strongest digest algorithm present does; a failure raises the error of the last (any/best) or first failing (all/first) signature.", "quantifier": "all non-empty lists of signatures and all verification outcomes", "why_tests_cant": "Unbounded lists of signatures with arbitrary outcomes.", "anchors": ["signify/authenticode/signed_pe.py: SignedPEFile.verify"]}
{"id": "C17", "title": "Stricter verification modes imply laxer ones", "statement": "With per-signature verification independent of history, success in mode 'all' implies success in 'first', 'best' and 'any', and success in 'first' or 'best' implies success in 'any'.", "quantifier": "all files, all verification outcomes", "why_tests_cant": "Relational property between runs.", "anchors": ["signify/authenticode/signed_pe.py: SignedPEFile.verify"]}
{"id": "C18", "title": "Unknown multi_verify_mode values are rejected", "statement": "A multi_verify_mode other than 'any', 'first', 'all', 'best' (for example a typo of 'all') does not silently weaken verification.", "quantifier": "all mode strings", "why_tests_cant": "Universal over strings.", "anchors": ["signify/authenticode/signed_pe.py: SignedPEFile.verify"]}
{"id": "C19", "title": "expected_hashes are used as given and computed when absent", "statement": "Every signature is compared against the caller-provided digest for its algorithm if present and otherwise against the authentihash of the file; no signature is verified without a digest (no KeyError).", "quantifier": "all files, signature lists and caller-provided dictionaries with hashlib names", "why_tests_cant": "Ranges over all combinations of provided and needed hashes.", "anchors": ["signify/authenticode/signed_pe.py: SignedPEFile._calculate_expected_hashes", "signify/authenticode/signed_pe.py: SignedPEFile.verify"]}
{"id": "C20", "title": "verify() does not carry digests from one file to another", "statement": "Verifying a file with a caller-provided expected_hashes dictionary does not alter that dictionary, so re-using it for another file verifies that other file.", "quantifier": "all pairs of files and dictionaries", "why_tests_cant": "A statement about histories of verify() calls sharing an argument.", "anchors": ["signify/authenticode/signed_pe.py: SignedPEFile._calculate_expected_hashes"]}
{"id": "C21", "title": "An unsigned file is reported as such", "statement": "verify() with the default ignore_parse_errors raises AuthenticodeNotSignedError iff no signature could be obtained, whatever the bytes of the file, provided embedded structures do not fail with another error.", "quantifier": "all byte strings", "why_tests_cant": "Universal over malformed files.", "anchors": ["signify/authenticode/signed_pe.py: SignedPEFile.verify", "signify/authenticode/signed_pe.py: SignedPEFile.iter_signed_datas"]}
{"id": "C22", "title": "explain_verify is total and precise", "statement": "explain_verify() never raises; it returns (OK, None) iff verify() returned, and otherwise the result documented for the raised exception's class (the most specific one) along with that exception.", "quantifier": "all exception classes and all verification outcomes", "why_tests_cant": "Depends on handler order versus the class hierarchy for every exception class.", "anchors": ["signify/authenticode/structures.py: AuthenticodeVerificationResult.call", "signify/exceptions.py"]}
{"id": "C23", "title": "A parsed AuthenticodeSignedData is structurally valid", "statement": "If constructing an AuthenticodeSignedData succeeds then it has exactly one accepted digest algorithm without parameters, the expected content types in SignedData and SignerInfo, SPC PE image content, exactly one signer, no CRLs, exactly one message digest and content type attribute value; recursively for nested signatures.", "quantifier": "all decoded ASN.1 structures, any nesting depth", "why_tests_cant": "Universal over untrusted, arbitrarily nested input.", "anchors": ["signify/pkcs7/signeddata.py: SignedData._parse", "signify/pkcs7/signerinfo.py: SignerInfo._parse", "signify/authenticode/structures.py: AuthenticodeSignedData._parse", "signify/authenticode/structures.py: AuthenticodeSignerInfo._parse", "signify/authenticode/structures.py: SpcInfo._parse"]}
{"id": "C24", "title": "Malformed signatures are reported as ParseError", "statement": "Constructing a signature object from a decodable but non-conforming ASN.1 structure raises a ParseError (and so explain_verify reports PARSE_ERROR).", "quantifier": "all decoded ASN.1 structures", "why_tests_cant": "Universal over malformed input; tests do not include these structures.", "anchors": ["signify/pkcs7/signeddata.py: SignedData._parse", "signify/authenticode/structures.py: RFC3161SignerInfo", "signify/pkcs7/signerinfo.py: SignerInfo._parse"]}
{"id": "C25", "title": "Signer attributes are single-valued and unambiguous", "statement": "The message digest, content type and signing time used in verification are the unique values of the unique attributes of these types among the signed attributes.", "quantifier": "all attribute lists, including repeated attribute types", "why_tests_cant": "Universal over attribute lists.", "anchors": ["signify/pkcs7/signerinfo.py: SignerInfo._parse_attributes", "signify/pkcs7/signerinfo.py: SignerInfo._parse"]}
{"id": "C26", "title": "A signature has at most one countersigner", "statement": "A parsed AuthenticodeSignerInfo has a PKCS#9 countersigner iff the counter_signature attribute is present, an RFC3161 countersigner iff the timestamp token attribute is present, never both; otherwise countersigner is None.", "quantifier": "all decoded signer infos", "why_tests_cant": "Universal over attribute combinations.", "anchors": ["signify/authenticode/structures.py: AuthenticodeSignerInfo._parse", "signify/pkcs7/signerinfo.py: SignerInfo._parse"]}
{"id": "C27", "title": "The signed bytes determine the signed attributes", "statement": "The byte string whose signature is checked is the DER SET encoding of the attributes' contents in their original order, and distinct attribute contents give distinct byte strings.", "quantifier": "all attribute contents", "why_tests_cant": "Injectivity over all byte strings.", "anchors": ["signify/pkcs7/signerinfo.py: SignerInfo._encode_attributes"]}
{"id": "C28", "title": "Successful verification binds file, content, attributes and signer", "statement": "If AuthenticodeSignedData.verify() returns, then the three digest algorithms agree, the given (or computed) file hash equals the SpcInfo digest, the hash of the content equals the signer's message digest attribute, and for every returned chain some known certificate with the signer's issuer and serial number validates the signature over the signed attributes; the chain returned is the validated chain of that certificate.", "quantifier": "all signatures, contexts, stores, histories and library outcomes", "why_tests_cant": "A universally quantified soundness statement.", "anchors": ["signify/authenticode/structures.py: AuthenticodeSignedData.verify", "signify/pkcs7/signerinfo.py: SignerInfo.verify", "signify/pkcs7/signerinfo.py: SignerInfo._verify_issuer"]}
{"id": "C29", "title": "Trust anchors come only from trusted stores", "statement": "Every chain returned by VerificationContext.verify / SignerInfo.verify / AuthenticodeSignedData.verify starts with a certificate equal to one in a store marked trusted, accepted by that store's CTL if it has one; certificates embedded in the file are never handed to the path validator as trust roots.", "quantifier": "all stores, embedded certificates, path validator outcomes", "why_tests_cant": "Attacker-controlled certificates are universally quantified.", "anchors": ["signify/x509/context.py: VerificationContext.verify", "signify/x509/context.py: VerificationContext.verify_trust", "signify/x509/context.py: CertificateStore.verify_trust"]}
{"id": "C30", "title": "countersignature_mode means what it says", "statement": "'ignore' behaves exactly as if the signature had no countersigner; 'strict' succeeds only if the countersigner's digest matches the signature value and the countersigner verifies, and otherwise raises AuthenticodeCounterSignerError; 'permit' behaves like 'strict' when the countersignature is good and otherwise exactly as if it were absent.", "quantifier": "all signatures, countersigners and contexts", "why_tests_cant": "Relational statement over all inputs and outcomes.", "anchors": ["signify/authenticode/structures.py: AuthenticodeSignedData.verify"]}
{"id": "C31", "title": "The verification time is the countersignature time or the context time", "statement": "Chains are validated at the (verified) countersigner's signing time, or at the context's timestamp if there is no verified countersigner; the result of a path validation always refers to one of these two times.", "quantifier": "all signatures, contexts, candidate certificates", "why_tests_cant": "Universal over histories and candidates.", "anchors": ["signify/authenticode/structures.py: AuthenticodeSignedData.verify", "signify/pkcs7/signerinfo.py: SignerInfo._verify_issuer"]}
{"id": "C32", "title": "Lifetime-signing certificates do not benefit from the countersignature time", "statement": "If the signer's certificate carries the lifetime-signing EKU, its chain is validated at the context's own timestamp (now by default), never at the countersignature's time, whatever other certificates are embedded in the signature.", "quantifier": "all signatures, embedded certificate lists, contexts", "why_tests_cant": "Must hold for every attacker-chosen list of embedded certificates.", "anchors": ["signify/authenticode/structures.py: AuthenticodeSignerInfo._verify_issuer", "signify/pkcs7/signerinfo.py: SignerInfo._build_chain"]}
{"id": "C33", "title": "Verifications sharing a VerificationContext are independent", "statement": "The outcome of verifying a signature with a caller-supplied VerificationContext does not depend on which signatures were verified with it before.", "quantifier": "all histories of verify() calls sharing a context", "why_tests_cant": "A statement about histories.", "anchors": ["signify/pkcs7/signerinfo.py: SignerInfo._verify_issuer", "signify/authenticode/structures.py: AuthenticodeSignedData.verify"]}
{"id": "C34", "title": "Without a caller-supplied context verifications do not influence each other", "statement": "AuthenticodeSignedData.verify() called without contexts leaves all caller-visible contexts unchanged and its outcome is a function of the signature, the trusted store contents and the options only.", "quantifier": "all histories of verify() calls, all states", "why_tests_cant": "A statement about histories.", "anchors": ["signify/authenticode/structures.py: AuthenticodeSignedData.verify"]}
{"id": "C35", "title": "SignerInfo.verify returns all chains or the first error", "statement": "SignerInfo.verify returns the chains of exactly the candidate certificates that validate, in order; if none validates it raises the first candidate's error, and SignerInfoVerificationError if there is no candidate.", "quantifier": "all candidate lists and outcomes", "why_tests_cant": "Unbounded candidate lists with arbitrary outcomes.", "anchors": ["signify/pkcs7/signerinfo.py: SignerInfo._build_chain", "signify/pkcs7/signerinfo.py: SignerInfo.verify"]}
{"id": "C36", "title": "Signature verification accepts only valid signatures", "statement": "Certificate.verify_signature returns iff the standard verification for the key's algorithm succeeds, or allow_legacy is set, the key is RSA and the raw-digest verification succeeds; all failures are CertificateVerificationError; disabling allow_legacy only removes acceptances.", "quantifier": "all keys, signatures, data and library outcomes", "why_tests_cant": "Universal over library outcomes.", "anchors": ["signify/x509/certificates.py: Certificate.verify_signature"]}
{"id": "C37", "title": "verify_trust accepts iff some trusted store accepts", "statement": "VerificationContext.verify_trust returns True iff some store is trusted, contains the root and has no CTL or a CTL accepting the chain, regardless of the order of the stores.", "quantifier": "all lists of stores, all chains, all CTLs", "why_tests_cant": "Universal over store lists and orders.", "anchors": ["signify/x509/context.py: VerificationContext.verify_trust", "signify/x509/context.py: CertificateStore.verify_trust"]}
{"id": "C38", "title": "CTL decisions follow the documented policy", "statement": "CertificateTrustList.verify_trust accepts a chain iff its root is listed, the requested EKUs are within the listed EKUs (if any), the leaf was not issued on or after the not-before time for an affected EKU, and the verification time is not on or after the disallowed time for an affected EKU.", "quantifier": "all CTL entries, chains, EKU sets and times", "why_tests_cant": "Decision table over unbounded domains.", "anchors": ["signify/authenticode/authroot.py: CertificateTrustSubject.verify_trust", "signify/authenticode/authroot.py: CertificateTrustList.verify_trust"]}
{"id": "C39", "title": "CTL decisions are monotone", "statement": "If a chain is accepted by a CTL then it is accepted for every subset of the requested EKUs, at every earlier verification time and for every earlier-issued leaf; certificates between root and leaf have no influence.", "quantifier": "all CTL entries, pairs of requests", "why_tests_cant": "Relational property over pairs of requests.", "anchors": ["signify/authenticode/authroot.py: CertificateTrustSubject.verify_trust"]}
{"id": "C40", "title": "CTL lookup is exact", "statement": "find_subject(certificate) returns a subject iff some listed subject identifier equals the certificate's digest under the list's subject algorithm (the last such subject), and raises CertificateTrustListParseError exactly for unsupported algorithms.", "quantifier": "all subject lists and certificates", "why_tests_cant": "Universal over lists; relies on injectivity of the textual fingerprint.", "anchors": ["signify/authenticode/authroot.py: CertificateTrustList.find_subject", "signify/authenticode/authroot.py: CertificateTrustList._parse"]}
{"id": "C41", "title": "find_certificates is an exact, duplicate-free, order-preserving query", "statement": "find_certificates yields exactly the certificates of the stores matching all given properties, in store order and without two equal certificates; find_certificate returns the only match and raises KeyError if there are none or several.", "quantifier": "all stores and all queries", "why_tests_cant": "Universal over store contents.", "anchors": ["signify/x509/context.py: CertificateStore.find_certificates", "signify/x509/context.py: VerificationContext.find_certificates", "signify/x509/context.py: VerificationContext.find_certificate"]}
{"id": "C42", "title": "potential_chains is sound and complete", "statement": "A chain is yielded iff it ends in the given certificate, begins with a trusted certificate, contains no other trusted certificate and no repeated certificate, each certificate's issuer is the previous one's subject, all others come from the stores, and it has at most depth+1 certificates; in particular it terminates on cyclic certificate graphs.", "quantifier": "all certificate graphs (cycles included) and depths", "why_tests_cant": "Universal over graphs.", "anchors": ["signify/x509/context.py: VerificationContext.potential_chains"]}
{"id": "C43", "title": "FileSystemCertificateStore loading is transparent", "statement": "A FileSystemCertificateStore behaves as if its certificates had been loaded on construction: is_trusted, potential_chains and verify give the same answer whether or not it has been iterated before, and a failed load is reported on every use.", "quantifier": "all stores, all histories of uses", "why_tests_cant": "History-dependent behaviour.", "anchors": ["signify/x509/context.py: FileSystemCertificateStore", "signify/x509/context.py: CertificateStore.is_trusted"]}
{"id": "C44", "title": "Certificate and name equality are equivalence relations compatible with hashing", "statement": "Certificate == and CertificateName == are reflexive, symmetric and transitive, equal objects have equal hashes, and equal certificates have equal issuer, serial number, subject and public key.", "quantifier": "all certificates and names", "why_tests_cant": "Universal.", "anchors": ["signify/x509/certificates.py: Certificate.__eq__", "signify/x509/certificates.py: Certificate.__hash__", "signify/x509/certificates.py: CertificateName.__eq__"]}
{"id": "C45", "title": "Names compare equal only if all their attributes agree", "statement": "Two CertificateNames are equal only if they contain the same attribute types and values in the same structure.", "quantifier": "all names, including multi-valued RDNs", "why_tests_cant": "Universal; needs multi-valued RDNs, absent from test data.", "anchors": ["signify/x509/certificates.py: CertificateName.__eq__", "signify/x509/certificates.py: CertificateName.get_components"]}
{"id": "C46", "title": "The DN string is unambiguous", "statement": "Names with different component sequences have different dn strings: the dn string can be parsed back to the sequence of (type, value) pairs. dn returns a string exactly if the values it shows are text, and raises TypeError otherwise (an x500UniqueIdentifier, for example).", "quantifier": "all names with arbitrary unicode values", "why_tests_cant": "Injectivity over all strings (escaping).", "anchors": ["signify/x509/certificates.py: CertificateName.dn"]}
{"id": "C47", "title": "get_components filters by type", "statement": "get_components(t) yields exactly the values, in order, of the components whose dotted OID, asn1crypto name or short name is t; with no argument it yields all pairs.", "quantifier": "all names and types", "why_tests_cant": "Universal.", "anchors": ["signify/x509/certificates.py: CertificateName.get_components"]}
{"id": "C48", "title": "FileTime conversion round-trips", "statement": "Setting a FileTime from a timezone-aware datetime and reading it back gives the same datetime.", "quantifier": "all datetimes after 1601", "why_tests_cant": "Universal over datetimes; tests never set a FileTime.", "anchors": ["signify/asn1/ctl.py: FileTime.set", "signify/asn1/ctl.py: FileTime.native"]}
{"id": "C49", "title": "FileTime reading is monotone and accurate", "statement": "Reading a FILETIME is order-preserving in the 64-bit value, within one microsecond of the exact time in the representable range, and exact for whole seconds; empty contents read as None.", "quantifier": "all 64-bit values", "why_tests_cant": "2^64 values; the conversion goes through floating point.", "anchors": ["signify/asn1/ctl.py: FileTime.native"]}
{"id": "C50", "title": "One-shot iterables are acceptable as EKU arguments", "statement": "extended_key_usages may be any iterable, as documented: verification results are the same for a generator as for the list of its elements.", "quantifier": "all iterables, contexts and CTLs", "why_tests_cant": "Concerns hidden iterator state across the calls made during one verification.", "anchors": ["signify/x509/context.py: VerificationContext.__init__", "signify/x509/context.py: VerificationContext.verify", "signify/authenticode/authroot.py: CertificateTrustSubject.verify_trust"]}
{"id": "C51", "title": "Only accepted digest algorithms are used and 'best' picks the strongest", "statement": "Every digest algorithm of a parsed structure is one of md5, sha1, sha256, sha384, sha512, without parameters; mode 'best' verifies exactly the signatures whose algorithm is maximal in that order.", "quantifier": "all algorithm identifiers and signature lists", "why_tests_cant": "Universal.", "anchors": ["signify/asn1/hashing.py: _get_digest_algorithm", "signify/authenticode/signed_pe.py: SignedPEFile.verify"]}
{"id": "C52", "title": "RFC3161 countersignatures bind the timestamp to the signature", "statement": "If an RFC3161 countersignature is accepted then the hash of the TSTInfo equals its signer's message digest, the TSTInfo's imprint equals the hash of the countersigned signature value under the imprint algorithm, and its signer verified up to a trust anchor.", "quantifier": "all countersignatures and contexts", "why_tests_cant": "Universal soundness statement.", "anchors": ["signify/authenticode/structures.py: RFC3161SignedData.verify", "signify/authenticode/structures.py: RFC3161SignedData.check_message_digest"]}
{"id": "C53", "title": "PKCS#9 countersignatures bind the timestamp to the signature", "statement": "If a PKCS#9 countersignature is accepted then its message digest attribute equals the hash of the countersigned signature value, its signing time is one of its signed attributes and its signer verified up to a trust anchor at that time.", "quantifier": "all countersignatures and contexts", "why_tests_cant": "Universal soundness statement.", "anchors": ["signify/pkcs7/signerinfo.py: SignerInfo.check_message_digest", "signify/pkcs7/signerinfo.py: CounterSignerInfo", "signify/authenticode/structures.py: AuthenticodeSignedData.verify"]}
{"id": "C54", "title": "Timestamp accuracy conversion is exact", "statement": "The accuracy of a TSTInfo is seconds + milliseconds + microseconds with absent parts counted as zero. It is obtained exactly if the parts and their running sums are within what a datetime.timedelta holds (999999999 days either way); otherwise OverflowError is raised.", "quantifier": "all accuracy values", "why_tests_cant": "Universal.", "anchors": ["signify/asn1/helpers.py: accuracy_to_python"]}
{"id": "C55", "title": "End to end: a verified PE file is untampered", "statement": "If SignedPEFile.verify() (no expected_hashes) returns, every returned signature's digest is the authentihash of the file; hence if two files verify with the same signature object digest and algorithm, they agree outside checksum, data-directory entry and certificate table, up to hash collision.", "quantifier": "all byte strings, all parser and validator outcomes", "why_tests_cant": "Composition of universal statements.", "anchors": ["signify/authenticode/signed_pe.py: SignedPEFile.verify", "signify/authenticode/structures.py: AuthenticodeSignedData.verify"]}
{"id": "C56", "title": "Verification errors stay inside the documented exception classes", "statement": "VerificationContext.verify and SignerInfo.verify raise only VerificationError subclasses.", "quantifier": "all contexts, stores, CTLs and library outcomes", "why_tests_cant": "Universal over library outcomes and CTLs.", "anchors": ["signify/x509/context.py: VerificationContext.verify", "signify/pkcs7/signerinfo.py: SignerInfo.verify", "signify/authenticode/authroot.py: CertificateTrustList.find_subject"]}
{"id": "C57", "title": "CTL entries report their attributes", "statement": "The fields of a parsed CertificateTrustSubject (identifier, extended key usages, disallowed and not-before times and key usages) are those of the attribute of the corresponding type, the last one if an attribute type is repeated, and None if the attribute is absent.", "quantifier": "all raw subjects and attribute lists", "why_tests_cant": "Universal over attribute lists including repeated and reordered attributes.", "anchors": ["signify/authenticode/authroot.py: CertificateTrustSubject._parse"]}
{"id": "C58", "title": "Distinguished names are escaped as RFC 2253 requires", "statement": "CertificateName.dn is the comma-separated list of type=value in which exactly those characters of a value are preceded by a backslash that RFC 2253 requires to be escaped.", "quantifier": "all names, all attribute values", "why_tests_cant": "Universal over strings; the escaping depends on the position of a character.", "anchors": ["signify/x509/certificates.py: CertificateName.dn, CertificateName.get_components"]}
{"id": "C59", "title": "A verified PE file comes with complete evidence", "statement": "If SignedPEFile.verify returns (no caller-made context, no expected hashes), then it returns at least one signature, and for each there is: a signed data parsed from the file's certificate table, whose content digest is the Authenticode digest of the file; a signer whose message digest attribute is the digest of that content and whose signature over the authenticated attributes verifies with the key of a certificate; and for each chain returned, the validator accepted that certificate with the trusted store's roots, for code signing, at the requested time or the countersignature's.", "quantifier": "all files, codecs, libraries, stores and options", "why_tests_cant": "Ties all layers together for every execution; tests only observe that some files verify.", "anchors": ["signify/authenticode/signed_pe.py: SignedPEFile.verify", "signify/authenticode/structures.py: AuthenticodeSignedData.verify", "signify/pkcs7/signerinfo.py: SignerInfo.verify", "signify/x509/context.py: VerificationContext.verify"]}
{"id": "C60", "title": "Adding signatures to a signed file keeps the verdict on the present ones", "statement": "If signatures are appended to the certificate table of a signed file (with the directory entry and checksum updated), verification in mode 'first' has the same outcome; so it has in mode 'best' if the algorithms of the added signatures are weaker than that of one present; in mode 'any' a file that verified still verifies with the same result; and in mode 'all' it verifies iff it did before and the added signatures verify.", "quantifier": "all files, all tables, all added signatures, all checksums", "why_tests_cant": "Relates two runs on two files, universally.", "anchors": ["signify/authenticode/signed_pe.py: SignedPEFile.verify, iter_signed_datas, get_fingerprinter"]}
{"id": "C61", "title": "No valid signature is rejected", "statement": "If the libraries and stores behave and certificates have names that are text, context.verify(c) returns a chain iff it is a valid path for c (the validator's answer to the question the context poses, accepted by a trusted store); SignerInfo.verify succeeds iff some candidate certificate made the signature and has a valid path at the time in question; AuthenticodeSignedData.verify succeeds iff the digests agree, the countersignature (if any, and not ignored) holds or is tolerated, and the signer holds; SignedPEFile.verify succeeds iff one/all/the first/a strongest signature holds, according to the mode.", "quantifier": "all files, signatures, certificates, stores, contexts and options, all answers of well-behaved libraries", "why_tests_cant": "Completeness over all inputs: tests only see that some valid files are accepted.", "anchors": ["signify/x509/context.py: VerificationContext.verify", "signify/pkcs7/signerinfo.py: SignerInfo.verify", "signify/authenticode/structures.py: AuthenticodeSignedData.verify", "signify/authenticode/signed_pe.py: SignedPEFile.verify"]}
{"id": "C62", "title": "SignerInfo.potential_chains is sound, complete and free of duplicates", "statement": "SignerInfo.potential_chains(context) yields exactly the potential chains (depth 10) of the certificates in the context that have the issuer and serial number of the SignerInfo, each chain once.", "quantifier": "all certificate graphs and SignerInfos", "why_tests_cant": "Universal over graphs.", "anchors": ["signify/pkcs7/signerinfo.py: SignerInfo.potential_chains", "signify/x509/context.py: VerificationContext.potential_chains"]}
{"id": "C63", "title": "A trust list read from a file says what the file says", "statement": "CertificateTrustList.from_stl_file and the constructor succeed exactly for envelopes of SignedData of type microsoft_ctl with one accepted digest algorithm, an accepted subject algorithm and readable entries; the attributes of the list are those of the file, there is one subject per identifier, in order of first occurrence, made from the last entry with the identifier, every attribute of a subject is the first value of the last attribute with the documented OID (absent ones None or empty), and find_subject and verify_trust answer accordingly. Who signed the list has no influence.", "quantifier": "all decoded lists, any number of entries and attributes", "why_tests_cant": "Unbounded lists; the set of exotic attribute combinations is infinite.", "anchors": ["signify/authenticode/authroot.py: CertificateTrustList._parse", "signify/authenticode/authroot.py: CertificateTrustList.from_stl_file", "signify/authenticode/authroot.py: CertificateTrustList.subjects", "signify/authenticode/authroot.py: CertificateTrustSubject._parse", "signify/asn1/ctl.py: SubjectAttribute", "signify/asn1/ctl.py: SetOfSpecificOctetString.parse"]}
{"id": "C64", "title": "Friendly names of a trust list are read as UTF-16 text", "statement": "friendly_name is the text whose UTF-16-LE encoding, followed by any number of NULs, is the value of the attribute; other values raise ValueError.", "quantifier": "all byte strings and texts", "why_tests_cant": "Universal over texts, including surrogate pairs and malformed input.", "anchors": ["signify/asn1/ctl.py: CTLString.__unicode__"]}
{"id": "C65", "title": "The signed content is read as it was written", "statement": "For every SpcIndirectDataContent encoded in DER (any type, flags, link, digest algorithm and digest; in an OCTET STRING with anything after it, or as the content itself), SpcInfo can be read from it iff it describes a PE image with an accepted digest algorithm, and then content type, image flags, publisher, digest algorithm and digest are exactly those that were written.", "quantifier": "all SpcIndirectDataContent values of any size, all trailing bytes", "why_tests_cant": "tests read the few files they have; that no byte string of the format is misread needs all texts, flags, links, algorithms and digests", "anchors": ["signify/authenticode/structures.py: SpcInfo._parse", "signify/asn1/spc.py: SpcIndirectDataContent, SpcPeImageData, SpcLink, SpcString, SpcPeImageFlags", "signify/asn1/hashing.py"]}
{"id": "C66", "title": "Certificates and signed attributes are read as they were written", "statement": "For every X.509 certificate encoded in DER (any names, times, keys, extensions, whatever follows it), Certificate.from_der gives exactly the issuer, subject, serial number, public key, validity and extended key usages that were written, and the DER of the object is the encoding; equal encodings say the same.  The set of signed attributes is read in order, with all values.", "quantifier": "all certificates and attribute lists of any size, all dates from year 1 to 9999", "why_tests_cant": "misreading one field of one certificate in a million (a date in 2050, a two-octet length, a large serial number) is beyond samples", "anchors": ["signify/x509/certificates.py: Certificate._parse, from_der", "signify/pkcs7/signerinfo.py: SignerInfo._parse_attributes", "signify/x509/certificates.py: CertificateName"]}
{"id": "C68", "title": "Signatures are read as they were written, also from files", "statement": "For every Authenticode signature encoded in DER - PKCS #7 or CMS, any certificates, content, signed attributes, countersignature or RFC 3161 time stamp, nested signatures to any depth - from_envelope gives exactly what was written, whatever follows the signature.  A PE file to which a table of such signatures was attached yields exactly these signatures (with the nested ones, if asked), without error.", "quantifier": "all signatures of any size and nesting depth, all PE files, all trailing bytes and numbers of table entries", "why_tests_cant": "the formats nest without bound and every field can vary; tests have a dozen files", "anchors": ["signify/authenticode/structures.py: AuthenticodeSignedData, AuthenticodeSignerInfo, RFC3161SignedData, TSTInfo", "signify/pkcs7/signeddata.py: SignedData.from_envelope", "signify/pkcs7/signerinfo.py: SignerInfo, CounterSignerInfo", "signify/authenticode/signed_pe.py: SignedPEFile.iter_signed_datas"]}
{"id": "C67", "title": "Trust lists are read from files as they were published", "statement": "For every certificate trust list encoded in DER and signed (PKCS #7 or CMS, any certificates and signers, any optional parts, entries and further attributes, anything after it), from_stl_file gives the list as published: usage, identifier, sequence number, update times, and for each certificate what the publisher says about it (usages, friendly name, hashes, times of distrust, distrusted usages).  find_subject gives exactly the entry for the certificate's digest, and verify_trust accepts a chain iff that entry allows the request.", "quantifier": "all trust lists of any size, all entries and attributes, all trailing bytes, all chains and contexts", "why_tests_cant": "the list bundled with the library is one list; which entry governs a root, and whether a distrust date is read, depends on every byte of the format", "anchors": ["signify/authenticode/authroot.py: CertificateTrustList._parse, from_stl_file, find_subject, verify_trust, CertificateTrustSubject._parse", "signify/asn1/ctl.py: CertificateTrustList, TrustedSubject, SubjectAttribute, CTLString, FileTime"]}
{"id": "C69", "title": "Nothing is made up when a signature is read", "statement": "For every byte string: if AuthenticodeSignedData.from_envelope returns an object, then its content, its certificates, the contents of its signed attributes, the signature values, and all of this for countersigners, time stamps and nested signatures, are contiguous parts of these bytes; the digest of the image is a contiguous part of the content, each message digest of its signed attributes; and each certificate is the one read from its own DER.  For a file, all of this comes from the certificate table.", "quantifier": "all byte strings, all files, all depths of nesting, signatures in any encoding the decoder accepts", "why_tests_cant": "what a decoder does with malformed input is not a matter of samples: one input for which it returns bytes that were not there is enough", "anchors": ["signify/authenticode/structures.py: AuthenticodeSignedData.from_envelope, _parse", "signify/pkcs7/signeddata.py: SignedData._parse", "signify/pkcs7/signerinfo.py: SignerInfo._parse", "signify/authenticode/signed_pe.py: SignedPEFile.iter_signed_datas, _parse_cert_table"]}
{"id": "C70", "title": "What follows a signature in its entry does not matter", "statement": "The object that from_envelope returns, or the error it raises, is determined by the first ASN.1 value in the bytes: bytes put after it change nothing.  For files: adding bytes after the signatures in the certificate table changes the outcome of verify in no mode.", "quantifier": "all byte strings, all bytes after them, all images and entries, all modes", "why_tests_cant": "the bytes after a signature are a known place to hide data; tests try a few paddings", "anchors": ["signify/authenticode/structures.py: AuthenticodeSignedData.from_envelope", "signify/authenticode/signed_pe.py: SignedPEFile.verify, iter_signed_datas"]}
{"id": "C71", "title": "The outcome is a function of the certificate table and of what is hashed", "statement": "Two files with the same certificate table (possibly at different places) have the same signatures, and reading them ends in an error of the same class or in none.  If also the hashed parts agree, verify has the same outcome for both, in every mode.", "quantifier": "all pairs of files, all modes and arguments, any decoder", "why_tests_cant": "a dependence on the position of the table, on the checksum or on bytes elsewhere shows only for particular pairs of files", "anchors": ["signify/authenticode/signed_pe.py: SignedPEFile.iter_signed_datas, _parse_cert_table, verify", "signify/fingerprinter.py: AuthenticodeFingerprinter"]}
{"id": "C72", "title": "From the bytes of a file to the verdict", "statement": "verify on the bytes of a file, called without contexts of the caller's own, succeeds iff those of the signatures in the file hold that the mode requires: digests agree, the signer's certificate made the signature and has a valid path to the trusted store at the time of a countersignature that holds (or without one).  In particular: if signatures encoded in DER are attached to an image, the file verifies iff the required ones, as encoded, hold for the image before it was signed.", "quantifier": "all files, all images, any number of signatures, nested signatures, countersignatures and certificates, all modes, all trusted stores", "why_tests_cant": "a verifier can reject valid files or accept invalid ones for reasons at any of its layers (decoding, hashing, selection, countersignatures, path building); a test covers one file", "anchors": ["signify/authenticode/signed_pe.py: SignedPEFile.verify, iter_signed_datas", "signify/authenticode/structures.py: AuthenticodeSignedData.from_envelope, verify", "signify/x509/context.py: VerificationContext.verify"]}
{"id": "C73", "title": "Certificates in PEM are read as they were written", "statement": "Certificate.from_pems gives the certificates in a PEM text, in order, whatever text is before, between and after the blocks, whatever headers they have and however lines are broken and ended; from_pem gives the first.  Each certificate given is that in a block of the text.  If there is none, an exception is raised, never StopIteration and never silence.", "quantifier": "all texts, any number of certificates of any size", "why_tests_cant": "a lenient parser can drop, merge or reorder blocks for texts that no test has", "anchors": ["signify/x509/certificates.py: Certificate.from_pem, from_pems, from_der"]}
{"id": "C74", "title": "Trusted certificates are those in the files", "statement": "A FileSystemCertificateStore holds the certificates in its files, and nothing else; a file that cannot be read or has no certificate stops the loading with an exception, those of the files before it having been loaded.  With a store of files that can be read, the verdict of verify is a function of the bytes of the file to be verified and of these files (as in C72).", "quantifier": "all directories and files", "why_tests_cant": "which certificates are trust anchors decides every verdict; tests use one directory", "anchors": ["signify/x509/context.py: FileSystemCertificateStore._load", "signify/x509/certificates.py: Certificate.from_pems"]}
{"id": "C75", "title": "The published trust list decides which roots may sign code", "statement": "With the default store (certificates in files, trust list in a file): if verify() returns, each chain it returns starts with (the same certificate as) one of the certificates in the files, and the published list has an entry for that root whose usages include code signing (or are not given), and whose not-before and disallowed restrictions do not concern code signing with the end certificate at the time of the countersignature, the time given, or now.  If the list permits nothing, verify() raises for every file.  The verdict is a function of the bytes of the file, of the files with certificates and of the file with the list.", "quantifier": "all files, directories of certificates, trust lists in DER, library outcomes", "why_tests_cant": "the list of distrusted roots acts only through several layers of decoding; tests contain hardly any distrusted root", "anchors": ["signify/authenticode/structures.py: TRUSTED_CERTIFICATE_STORE, TRUSTED_CERTIFICATE_STORE_NO_CTL", "signify/authenticode/authroot.py: CertificateTrustList.from_stl_file, verify_trust", "signify/x509/context.py: FileSystemCertificateStore"]}
{"id": "C76", "title": "The command line prints the digests of each file", "statement": "python -m signify.fingerprinter FILES ends for every list of files, and prints, for each file in the order given, its name, then (if it has the headers of a PE image) under 'authentihash' the MD5, SHA-1 and SHA-256 digests of the file without the omitted sections, then under 'generic' the MD5, SHA-1, SHA-256 and SHA-512 digests of the whole file, in hexadecimal and in columns.  At a file that cannot be opened it stops with that error, after having printed its name and everything about the files before it.", "quantifier": "all lists of files, contents, hash functions", "why_tests_cant": "there are no tests of the command line; 'for every file' includes truncated and adversarial images", "anchors": ["signify/fingerprinter.py: main"]}
{"id": "C77", "title": "ASN.1 values are read as the standard defines them", "statement": "When signature data are decoded, a value with a definite length is read from the data iff the data begin with identifier octets for its class, form and tag number (any number; from 31 on in base 128 without leading zeros), octets for its length (short form, or long form with up to 127 octets) and its contents; what is left is exactly what follows.  A value of indefinite length is read iff the data begin with identifier octets of a constructed value, the octet 0x80, any number of values (nested in this form at most ten deep) and end-of-contents octets.  So every value in DER is read back, and nothing is read from a value that is cut off.", "quantifier": "all classes, tag numbers, lengths, contents, and following data", "why_tests_cant": "the long forms of tags and lengths hardly occur in real files, but whoever makes a file chooses them", "anchors": ["signify/authenticode/structures.py: AuthenticodeSignedData.from_envelope", "signify/asn1/spc.py", "signify/asn1/ctl.py"]}
{"id": "C78", "title": "Entries appended to the certificate table do not hide the signatures before them", "statement": "If a file verifies in the mode 'any', it goes on verifying when further entries are appended to its certificate table, whatever these contain, as long as parse errors are ignored (the default).", "quantifier": "all images, signatures, appended entries, library outcomes", "why_tests_cant": "the appended entry can be any byte string; the exception classes that are swallowed are decided several calls away", "anchors": ["signify/authenticode/signed_pe.py: SignedPEFile.iter_signed_datas, SignedPEFile.verify", "signify/authenticode/structures.py: AuthenticodeSignedData.from_envelope"]}
{"id": "C79", "title": "Loading a signature from arbitrary bytes raises one of ten kinds of exception", "statement": "Whatever the bytes, AuthenticodeSignedData.from_envelope (and looking at the parts of what it returns) raises nothing but ValueError, TypeError, KeyError, IndexError, ParseError, AuthenticodeParseError, SignerInfoParseError, NotImplementedError, AssertionError or OverflowError. All ten occur. None of them is taken for the end of the certificate table, so a PKCS#7 entry that cannot be loaded always makes verify() raise.", "quantifier": "all byte strings", "why_tests_cant": "the set of inputs is unbounded and the exceptions come from nested decoders; a fuzzer can only show that a class occurs, not that no other one does", "anchors": ["signify/pkcs7/signeddata.py: SignedData.from_envelope", "signify/authenticode/structures.py: AuthenticodeSignedData", "signify/authenticode/signed_pe.py: SignedPEFile.iter_signed_datas"]}
{"id": "C80", "title": "Loading certificates and trust lists from arbitrary bytes raises a known set of exceptions", "statement": "Whatever the bytes, Certificate.from_der, from_pem and the iteration over from_pems (and looking at the parts of the certificates) raise nothing but ValueError or IndexError: no TypeError, no KeyError, and from_pem never lets StopIteration out. CertificateTrustList.from_stl_file raises nothing but ValueError, TypeError, KeyError, IndexError, ParseError, CTLParseError, struct.error or OverflowError. All of these occur.", "quantifier": "all byte strings", "why_tests_cant": "the set of inputs is unbounded; a fuzzer can only show that a class occurs, not that no other one does", "anchors": ["signify/x509/certificates.py: Certificate.from_der, from_pem, from_pems", "signify/authenticode/authroot.py: CertificateTrustList.from_stl_file", "signify/asn1/ctl.py"]}
{"id": "C81", "title": "The fields of a signature that nobody looks at can be changed freely", "statement": "Unsigned attributes of unknown types (with any values), the version numbers of signers, the parameters of the digest and signature algorithms, and elements of the certificate set that are not certificates have no effect, in a signature and in the nested signatures, countersignatures and time stamps within it: two signatures that differ only there are loaded as the same object or with the same error, and verify() has the same outcome for two files that are signed with them. (So a payload can be added to a signed file without invalidating it.)", "quantifier": "all signatures, at any depth of nesting, with any changes of the fields named; all files, modes and arguments", "why_tests_cant": "the equality is over all pairs of signatures and all depths; a test changes one field of one file", "anchors": ["signify/pkcs7/signeddata.py: SignedData", "signify/pkcs7/signerinfo.py: SignerInfo._parse", "signify/authenticode/structures.py: AuthenticodeSignedData, AuthenticodeSignerInfo", "signify/authenticode/signed_pe.py: SignedPEFile.verify"]}
{"id": "C82", "title": "verify() of an arbitrary file raises a known set of exceptions, and explain_verify reports a known result for each", "statement": "Whatever bytes a file consists of, if the trusted store can be read and the cryptographic libraries behave, SignedPEFile.verify either returns or raises an exception of one of seventeen classes: ten from an embedded signature that cannot be loaded (ValueError, TypeError, KeyError, IndexError, NotImplementedError, AssertionError, OverflowError, ParseError, AuthenticodeParseError, SignerInfoParseError), six refusals (CertificateVerificationError, CTLCertificateVerificationError, SignerInfoVerificationError, AuthenticodeInconsistentDigestAlgorithmError, AuthenticodeInvalidDigestError, AuthenticodeCounterSignerError), and AuthenticodeNotSignedError (with ignore_parse_errors) or SignedPEParseError (without). All of them occur (TypeError also from a refusal whose message cannot be put together because of the name of a certificate). CertificateNotTrustedVerificationError never reaches the caller. explain_verify reports UNKNOWN_ERROR exactly for the first seven.", "quantifier": "all byte strings as file, all modes, arguments and states of the stores and contexts", "why_tests_cant": "the set of files is unbounded; tests show that a class occurs, not that no other one does", "anchors": ["signify/authenticode/signed_pe.py: SignedPEFile.verify, explain_verify, iter_signed_datas", "signify/authenticode/structures.py: AuthenticodeSignedData.verify, AuthenticodeVerificationResult", "signify/x509/context.py: VerificationContext.verify, verify_trust"]}
{"id": "C83", "title": "The signature algorithm named in a signature has no influence on the verdict", "statement": "The signature algorithm that a signer names (SignerInfo.digest_encryption_algorithm), which is not covered by the signature, is reported and otherwise not used, for the signer of the file as for countersigners, time stamps and nested signatures: two signatures that differ only in these names (and their parameters) are loaded as objects that differ only in digest_encryption_algorithm, or with the same error, and verify() returns the same chains or raises the same exception for two files that are signed with them. So an RSA signature that claims to be a DSA one is accepted.", "quantifier": "all signatures, at any depth of nesting, with any names of algorithms, known or unknown; all files, modes and arguments", "why_tests_cant": "the equality is over all pairs of signatures and all depths of nesting; a test changes one name in one file", "anchors": ["signify/pkcs7/signerinfo.py: SignerInfo._parse, digest_encryption_algorithm, _verify_issuer_signature", "signify/x509/certificates.py: Certificate.verify_signature", "signify/authenticode/structures.py: AuthenticodeSignedData.verify", "signify/authenticode/signed_pe.py: SignedPEFile.verify"]}
{"id": "C84", "title": "Adding a store to a context, or a certificate to a store, takes nothing away", "statement": "After VerificationContext.add_store(s), find_certificates() returns what it returned before, in the same order, followed by the certificates of s that match and are not among them; is_trusted() holds of the same certificates and of those of s if s is trusted; a chain that verify_trust() accepted is still accepted; if s is not trusted, every potential chain found before is found again (with a trusted s a chain may be replaced by a shorter one, so that this does not hold in general); other contexts verify certificates with the same outcome as before. After CertificateStore.append(c), iteration yields c last (before the certificates of files that have not been read yet), all contexts with the store find c and nothing else that is new, trust it if and only if the store is trusted, and still accept the chains they accepted, provided that a trust list of the store uses SHA-1 or SHA-256.", "quantifier": "all contexts, stores (in memory, files read or not read yet, embedded), certificates, queries and chains", "why_tests_cant": "the claims compare two arbitrary states of a context for all queries and chains; a test compares one pair", "anchors": ["signify/x509/context.py: CertificateStore.append, VerificationContext.add_store, find_certificates, is_trusted, verify_trust, potential_chains, verify"]}
{"id": "C85", "title": "The position of the file object never matters; iterations over one file do not disturb each other", "statement": "SignedPEFile, AuthenticodeSignedData.verify() and Fingerprinter give results that depend only on the content of the file object, not on its position when they are called. Any number of iterations over signed_datas / iter_signed_datas() of one file may be advanced in any order, with other uses of the file (hashing, verifying, reading, seeking) between any two steps: each iteration gives exactly the signatures of the file in order, and stops, with or without an exception, as it would alone. Nothing is ever written to the file.", "quantifier": "all file contents and positions, all numbers of iterations with all options, all interleavings of their steps and of movements of the file position; all registrations and block sizes for hashing", "why_tests_cant": "the interleavings and positions are unboundedly many; a test runs one loop on a fresh file", "anchors": ["signify/authenticode/signed_pe.py: SignedPEFile.__init__, get_authenticode_omit_sections, _parse_cert_table, iter_signed_datas, signed_datas, get_fingerprinter, verify", "signify/fingerprinter.py: Fingerprinter.__init__, hashes, AuthenticodeFingerprinter.add_authenticode_hashers", "signify/authenticode/structures.py: AuthenticodeSignedData.verify"]}
{"id": "C86", "title": "A file changed while it is open is never reported with its old content", "statement": "A SignedPEFile measures its file once, when it is created. If the file is changed afterwards, in any way, at any time before verify() or between its reading of the signatures and its hashing, and verify() (without expected hashes) returns, then every signature returned was read from the file and its digest is the authentihash of the content that was hashed, never of the content at the time of opening. If something is appended to a signed file, signatures that matched before are not reported unless the hash has a collision. As long as the content up to the original length is unchanged, every iteration over the signatures gives exactly those of that original part, even when the changes happen between its steps.", "quantifier": "all contents before and after, all lengths remembered, all interleavings of steps and changes that keep the original part, all environments and arguments without expected hashes", "why_tests_cant": "a test uses a file that does not change; the ways and moments of a change are unbounded", "anchors": ["signify/authenticode/signed_pe.py: SignedPEFile.__init__, _parse_pe_header_locations, _parse_cert_table, iter_signed_datas, _calculate_expected_hashes, verify", "signify/fingerprinter.py: Fingerprinter.__init__, AuthenticodeFingerprinter.add_authenticode_hashers"]}
{"id": "C87", "title": "Verification uses only the signatures of a file and the digests to compare with", "statement": "SignedPEFile.verify depends on a file only through its signatures and the digests for their algorithms: two files that agree on these have the same outcome and the same effects, with any arguments. A digest supplied by the caller (expected_hashes, or expected_hash of a single signature) replaces the content of the file completely, so that a tampered image is accepted if the caller supplies the digest of the original. Of the dictionary supplied, only the entries for the algorithms of the signatures looked at have an influence.", "quantifier": "all pairs of files with the same signatures, all arguments, contexts and stores, all dictionaries whose keys are names of hash functions", "why_tests_cant": "Relates two runs on two files or two dictionaries, universally.", "anchors": ["signify/authenticode/signed_pe.py: SignedPEFile.verify, _calculate_expected_hashes", "signify/authenticode/structures.py: AuthenticodeSignedData.verify"]}
{"id": "C88", "title": "A certificate store is a list, a file system store from its first len() or iteration on", "statement": "For any sequence of len(), iteration, `in`, is_trusted, indexing, append and pop, a CertificateStore gives what a Python list gives and nothing else changes. A FileSystemCertificateStore behaves like a list without the certificates of its location until its first len() or iteration, at which they are appended once; if the location cannot be read, that first operation raises the error, keeps what had been read, and the error is not reported again.", "quantifier": "all stores, all contents of the location, all sequences of operations", "why_tests_cant": "sequences of operations are unbounded, and the laziness shows only for certain orders", "anchors": ["signify/x509/context.py: CertificateStore, FileSystemCertificateStore.__iter__, __len__, _load"]}
{"id": "C89", "title": "With a time given, or a time stamp that must hold, the clock does not matter", "statement": "Verification of a certificate, of a signature or of a file gives the same result whenever it is run, as long as a time is given: a context with a timestamp, a timestamp among the options, or, in mode 'strict', a countersignature with a signing time when no matching certificate is a lifetime signing certificate. Without a time, with a lifetime signing certificate, or with a countersignature that does not say its time, the result may change with the clock.", "quantifier": "all signatures, files, contexts and stores (loaded or not), all clocks, all validators that give the same answer whenever the same moment is asked for", "why_tests_cant": "tests run at one moment only; that nothing else reads the clock is a statement about every path through the code", "anchors": ["signify/x509/context.py: VerificationContext.verify", "signify/authenticode/authroot.py: CertificateTrustSubject.verify_trust", "signify/pkcs7/signerinfo.py: SignerInfo._verify_issuer", "signify/authenticode/structures.py: AuthenticodeSignerInfo._verify_issuer, AuthenticodeSignedData.verify", "signify/authenticode/signed_pe.py: SignedPEFile.verify"]}
{"id": "C90", "title": "The printed form of a certificate identifies it; the listing shows every trusted certificate", "statement": "str() of two certificates is the same only if the printed subjects, the serial numbers and the SHA-1 fingerprints are the same, whatever characters the names contain. Running the module signify.authenticode.structures prints every certificate of the trust store, as often as it is in it, numbered from 1, in the order of the end of validity and, for the same end of validity, in the order of the store; it ends with TypeError at the first certificate of which the subject has a value that is not text, as such a certificate has no printed form.", "quantifier": "all certificates, all stores of any size, any way of printing times", "why_tests_cant": "a name can contain the text that separates the parts; tests see one store in one order", "anchors": ["signify/x509/certificates.py: Certificate.__str__, Certificate.sha1_fingerprint", "signify/authenticode/structures.py: __main__"]}
{"id": "C91", "title": "The extensions and version of a certificate are those it was written with", "statement": "For every well-formed certificate, Certificate.version and Certificate.extensions report what the certificate says: each extension under its name (or dotted identifier), with the usages, the Microsoft agency information (URL, text in either encoding, links, logo), the financial criteria, what the ASN.1 library makes of it, or else its octets; of several extensions of one type the last one is reported. If the library knows the type of an extension and cannot decode it, the certificate cannot be read at all. For all data, the extended key usages in extensions are those used to recognise lifetime signing certificates.", "quantifier": "all certificates with any number of extensions in any order, all agency information, all libraries of extension decoders; the last clause for all byte strings", "why_tests_cant": "extensions are nested encodings with optional fields, repeated and unknown types; tests see a few real certificates", "anchors": ["signify/asn1/spc.py: SpcSpAgencyInformation, SpcFinancialCriteria, SpcImage, x509.ExtensionId registrations", "signify/x509/certificates.py: Certificate.__init__, Certificate.extensions, Certificate.version"]}
{"id": "C92", "title": "Financial criteria are read as what they say", "statement": "The financial criteria of a certificate (whether information is available, whether criteria are met), each written down or left out when false, are reported as they were written.", "quantifier": "all criteria, each true, false or left out", "why_tests_cant": "tests have certificates with both criteria or none", "anchors": ["signify/asn1/spc.py: SpcFinancialCriteria"]}
{"id": "C93", "title": "Files verified one after the other do not influence each other", "statement": "SignedPEFile.verify and explain_verify, called without verification contexts, give a file the same outcome whatever files were verified before in the same process, however and with whatever result, if the trusted store can be read and no dictionary of digests is passed on from an earlier call. What verifying files leaves behind on objects the caller has is: stores that have been read, timestamps of countersignatures of those files in contexts passed, iterators of usages used up, and digests in dictionaries passed.", "quantifier": "all sequences of files and arguments, all states, all later files and arguments", "why_tests_cant": "it is about what is not changed, over unbounded sequences of calls with mutable arguments", "anchors": ["signify/authenticode/signed_pe.py: SignedPEFile.verify, SignedPEFile.explain_verify, SignedPEFile._calculate_expected_hashes", "signify/x509/context.py: VerificationContext", "signify/x509/certificates.py: FileSystemCertificateStore"]}
{"id": "C94", "title": "The report on files says what verification says", "statement": "examples/authenticode_info.py prints, for each file, its name, each signature before the first one that cannot be read (its certificates, signer, program, countersigner with time, and digest), with the result and exception of explain_verify, and then the result of explain_verify for the file, or the exception that makes verify fail. The report on a file also ends, with the exception, at a name that has a value that is not text. Verdicts are those the file and signatures would have had alone at the beginning, independent of the order and of the other files. The verdict on a file is OK exactly if that of one of its signatures is; else it is that of the last signature, or NOT_SIGNED. Only a file that cannot be opened ends the report.", "quantifier": "all lists of files, all trusted stores that can be read, all decoders and environments", "why_tests_cant": "the verdicts are about all files and states; a test prints a report for one file and looks at it", "anchors": ["examples/authenticode_info.py: main", "signify/authenticode/signed_pe.py: SignedPEFile.signed_datas, SignedPEFile.explain_verify", "signify/authenticode/structures.py: AuthenticodeSignedData.explain_verify, AuthenticodeVerificationResult"]}
{"id": "C95", "title": "Key usages asked for are asked of every chain returned", "statement": "The key usages given as key_usages, in a VerificationContext or in verification_context_kwargs, are part of every question that the path validator answers with a chain returned by SignerInfo.verify, AuthenticodeSignedData.verify or SignedPEFile.verify, however many certificates and signatures were checked before, and whether key_usages (typed Iterable[str]) is a container or a one-shot iterator.", "quantifier": "all signatures, countersignatures, modes, options, states of the stores and answers of the path validator", "why_tests_cant": "tests pass lists, or no key usages at all, and verify one certificate per context", "anchors": ["signify/x509/context.py: VerificationContext.__init__, VerificationContext.verify", "signify/authenticode/structures.py: AuthenticodeSignedData.verify", "signify/signerinfo.py: SignerInfo.verify", "signify/authenticode/signed_pe.py: SignedPEFile.verify"]}
{"id": "C96", "title": "Threads may share a store of trusted certificates", "statement": "A FileSystemCertificateStore (such as TRUSTED_CERTIFICATE_STORE, which all verifications of a process share) may be used by several threads at once: however they interleave, every iteration gives each certificate of the location once, and nothing else; and the operations of one thread give what they give without the others.", "quantifier": "all locations, contents of the store, numbers of threads, sequences of operations and interleavings, without bound", "why_tests_cant": "tests use one thread; which interleavings occur depends on the scheduler, and the first load of the store happens once in a process", "anchors": ["signify/x509/context.py: FileSystemCertificateStore._load, FileSystemCertificateStore.__iter__, FileSystemCertificateStore.__len__, CertificateStore.is_trusted", "signify/authenticode/structures.py: TRUSTED_CERTIFICATE_STORE"]}
{"id": "C97", "title": "What verify() means for a file that others use or change during the call", "statement": "Suppose that between any two operations of SignedPEFile.verify() on the file object others may change the content of the file and move the position of the file object (as threads that share it do). If verify(), without expected hashes, returns a result, the result is not empty, every signature in it was encoded in the file at some moment of the call, and all were made for the digest of one sequence of bytes that is made of pieces that were in the file at moments of the call, as long as a file without its checksum, directory entry and certificate table; if the others do not move the position, each byte of it was, at some moment, at the offset where the authentihash takes it from. Nothing more holds: the file need not verify at any moment of the call, and a file that is shared by two threads verifying it may be found verified although it is not, or the other way round. If nobody else uses the file, this is verify() as described elsewhere.", "quantifier": "all files, changes at any moments, numbers of threads, other programs and schedules, without bound", "why_tests_cant": "tests use one thread and a file that does not change; which interleavings occur depends on the scheduler and on other processes", "anchors": ["signify/authenticode/signed_pe.py: SignedPEFile.verify, SignedPEFile.iter_signed_datas, SignedPEFile._parse_cert_table, SignedPEFile.get_authenticode_omit_sections, SignedPEFile._calculate_expected_hashes", "signify/fingerprinter.py: AuthenticodeFingerprinter.add_authenticode_hashers, Fingerprinter.hashes"]}
{"id": "C98", "title": "What AuthenticodeSignedData.verify() means while other threads use the same stores and contexts", "statement": "Suppose that between any two accesses of a call of AuthenticodeSignedData.verify() to certificate stores and verification contexts, other threads may change them. If the call returns chains, the digests agree, and every chain is one of a certificate that the SignerInfo names, that signed it, and that was validated up to a certificate of a trusted store, where each thing that the call used of a store or a context was there at some moment of the call; in mode 'strict' the countersignature was verified in the same way. If the call makes its own contexts, these are as its arguments say. If the threads are verifications that only load the stores they share, a returned result is right for the stores as they are when loaded, for every schedule; and if the stores have been loaded before, each thread returns or raises what it does alone. Nothing more holds: while a store is being loaded another thread may reject a good signature, and threads that share a context may accept a signature for the time of another's countersignature. If there are no other threads, this is verify() as described elsewhere.", "quantifier": "all signatures, arguments, states, changes at any moments, numbers of threads and schedules, without bound", "why_tests_cant": "tests use one thread; which interleavings occur depends on the scheduler", "anchors": ["signify/authenticode/structures.py: AuthenticodeSignedData.verify, AuthenticodeSignerInfo._verify_issuer, TRUSTED_CERTIFICATE_STORE", "signify/pkcs7/signerinfo.py: SignerInfo.verify, SignerInfo._build_chain, SignerInfo._verify_issuer", "signify/x509/context.py: VerificationContext.verify, VerificationContext.verify_trust, VerificationContext.find_certificates, FileSystemCertificateStore._load"]}
{"id": "C99", "title": "Files may be verified in threads that share the trusted stores", "statement": "Suppose several threads call SignedPEFile.verify(), each for its own file and without giving contexts, with certificate stores that they share (such as the default ones), and that the calls interleave in any way. If a call returns, the signatures it returns are those that multi_verify_mode asks for — in the modes 'all' and 'first' all of those it selects, otherwise exactly one of them — and each has been found good for the digest of the thread's own file (or the one given in expected_hashes), with a chain that is right for the stores as they are when loaded. The same holds with what was in the stores at some moment of the call when others change them in any way. If the stores have been loaded before the threads start, verify() and explain_verify() give in each thread what they give alone. This last part does not hold for stores that have not been loaded: a call may raise although the file verifies. If there are no other threads, this is verify() as described elsewhere.", "quantifier": "all files, arguments, decoders, stores, numbers of threads and schedules, without bound", "why_tests_cant": "tests verify one file at a time; which interleavings occur depends on the scheduler", "anchors": ["signify/authenticode/signed_pe.py: SignedPEFile.verify, SignedPEFile.explain_verify, SignedPEFile._calculate_expected_hashes", "signify/authenticode/structures.py: AuthenticodeSignedData.verify, TRUSTED_CERTIFICATE_STORE", "signify/x509/context.py: FileSystemCertificateStore._load, VerificationContext.verify"]}
{"id": "C100", "title": "Time that passes during a call", "statement": "The clock is read several times in one call of verify(): once for each certificate by the path validator, and once for each trust list that is consulted. If, between these readings, the path validator's answers do not change and no date from which a trust list disallows a root passes, verify() gives what it gives with a clock that stands still. With a timestamp in the context, or in the options, and countersignatures that have a date, this is so whatever the clock does. Otherwise, as long as the clock does not go back: a chain that VerificationContext.verify() returns is the one it returns with a clock that stands still when the path validator is asked, because a trust list consulted later can only be stricter; and a verification of a signature that succeeds has found all that it finds with a clock that stands still, each chain being valid, with its root trusted, at the one moment at which the verification of its certificate began. The converse does not hold: a date that passes during the call can make it fail although it would succeed for the moment at which it began. Nor need a success be one for a single moment, if an undated countersignature and the signature are verified at different moments.", "quantifier": "all signatures, files, contexts, stores, trust lists and modes, and all times shown by the clock at each reading, without bound", "why_tests_cant": "tests run within a second and do not control the clock between two readings of it", "anchors": ["signify/x509/context.py: VerificationContext.verify, VerificationContext.verify_trust", "signify/authenticode/authroot.py: CertificateTrustSubject.verify_trust", "signify/pkcs7/signerinfo.py: SignerInfo.verify", "signify/authenticode/structures.py: AuthenticodeSignedData.verify", "signify/authenticode/signed_pe.py: SignedPEFile.verify"]}
{"id": "C101", "title": "RecursionError and MemoryError while the signatures of a file are parsed", "statement": "Signatures and countersignatures can be nested in each other, so that a file can drive the parser into Python's limit on nested calls, or out of memory. Wherever this happens while signatures are parsed, or listed with signed_datas or iter_signed_datas(): the call gives what it gives otherwise, or the exception; a generator yields some first part of the signatures and then raises it, also with ignore_parse_errors. So no signature, nested signature or countersignature is left out unnoticed. verify() does in all modes what it does otherwise, or raises the exception, having changed nothing; it does the latter even if the signature concerned is one that it would not look at. explain_verify() then gives UNKNOWN_ERROR, and not NOT_SIGNED. A limit beyond the nesting depth of a signature makes no difference to it.", "quantifier": "all files, decoders, modes and options, and all places at which the exception may be raised, without bound on sizes and nesting depths", "why_tests_cant": "a test shows one nesting depth with one stack, and cannot make the interpreter give up at every step", "anchors": ["signify/authenticode/signed_pe.py: SignedPEFile.iter_signed_datas, SignedPEFile.signed_datas, SignedPEFile.verify, SignedPEFile.explain_verify", "signify/authenticode/structures.py: AuthenticodeSignedData, AuthenticodeSignerInfo, AuthenticodeVerificationResult.call", "signify/pkcs7/signerinfo.py: SignerInfo._parse, CounterSignerInfo"]}
{"id": "C102", "title": "verify() of a file while others change the file, use the file object and use the stores, all at once", "statement": "SignedPEFile.verify(), called without contexts and expected hashes, while other threads use the same file object, other programs change the content of the file, and other threads load or change the certificate stores, between any two accesses of the call: if it returns, the signatures returned are those that the mode asks for among signatures that were in the file at some moments of the call; there is one sequence of bytes, made of pieces that were in the file at some moments of the call, for whose digest all of them were made; and each chain returned was found good, for the time of a countersignature that was itself found good where this is needed, with certificates, trust and trust lists that were in the stores at some moments of the call. If the others do not move the position of the file object, each of these bytes was at its own offset at some moment. Threads that verify one file with one file object and common stores that are not loaded yet: what a thread returns is right for the stores as they are when loaded, and for pieces of the file. Called with contexts that the others also use and change, it returns, for signatures as above, only chains of certificates that the SignerInfo names and that have signed it, validated in the context given as it was at some moments of the call. With nobody else the call is the one described elsewhere.", "quantifier": "all files, decoders, validators, modes and options, all actions of the others between any two accesses, and all schedules of any number of threads", "why_tests_cant": "the interleavings of file reads, store accesses and the actions of others cannot be enumerated, and a test sees one of them", "anchors": ["signify/authenticode/signed_pe.py: SignedPEFile.verify, SignedPEFile.iter_signed_datas, SignedPEFile._calculate_expected_hashes", "signify/fingerprinter.py: Fingerprinter.hashes", "signify/authenticode/structures.py: AuthenticodeSignedData.verify", "signify/x509/context.py: VerificationContext.verify, CertificateStore, FileSystemCertificateStore"]}
{"id": "C103", "title": "Keyword arguments that do not exist, or that are given twice", "statement": "verify() and explain_verify() of a file or of a signature with any keyword arguments and any keys in verification_context_kwargs. If all of them exist the call is the one described elsewhere. An argument that does not exist, expected_hash given to SignedPEFile.verify() (which takes expected_hashes), or an option that does not exist or is extended_key_usages when a context has to be made, is never taken to mean something else and never ignored in favour of acceptance: a file with signatures is refused with a TypeError, and the stores and contexts are as before; a signature is returned only if all arguments exist, and with an option that does not exist only if no context had to be made for it, in which case the option has no effect. A file that cannot be parsed or is not signed is reported as such, not as a TypeError. explain_verify() reports the TypeErrors as UNKNOWN_ERROR; only the names self, cls and function make it raise.", "quantifier": "all names, options, files, decoders, validators, modes, contexts and states", "why_tests_cant": "the names a caller may write are unlimited, and whether a name is noticed depends on the contexts given and on the countersignatures in the file", "anchors": ["signify/authenticode/signed_pe.py: SignedPEFile.verify, SignedPEFile.explain_verify", "signify/authenticode/structures.py: AuthenticodeSignedData.verify, AuthenticodeSignedData.explain_verify, AuthenticodeVerificationResult.call", "signify/x509/context.py: VerificationContext.__init__"]}
{"id": "C104", "title": "Times without a time zone", "statement": "context.verify_trust(chain), where the context's timestamp is a datetime without a time zone, or the valid_from of the last certificate is (a GeneralizedTime without a zone is read as such), either raises TypeError or has the outcome that it has for all instants that may have been meant: no chain is accepted because of a guess about the time zone. It raises TypeError only if a trust list of one of the context's stores has a date for the root of the chain that such a time may be compared to; a trust list that has the root raises it exactly if its entry lists all usages requested (if it lists any) and has a date from which certificates are not accepted, and valid_from has no time zone, or does not refuse the certificate because of when it was issued and has a date from which signatures are not accepted, and the timestamp has no time zone. Times with a time zone count as their instants, whichever time zone they are in. The same goes for context.verify(certificate) as far as the dates of certificates are concerned; if the timestamp of the context has no time zone, verify returns no chain, provided that certvalidator finds none at such moments.", "quantifier": "all contexts, stores, trust lists, chains and times", "why_tests_cant": "whether the time is compared at all depends on the entries of the trust lists, the usages requested and the order of the stores, and there is no end to the instants that may have been meant", "anchors": ["signify/x509/context.py: VerificationContext.verify_trust, VerificationContext.verify, CertificateStore.verify_trust", "signify/authenticode/authroot.py: CertificateTrustList.verify_trust, CertificateTrustSubject.verify_trust"]}
{"id": "C105", "title": "Countersignatures whose time nothing supports", "statement": "If certvalidator finds, at the time that a countersignature states, no chain for any certificate with the issuer and serial number that the countersignature names (say because the certificate had expired, or the time has no time zone), then that time is never believed: verify() of the signature fails in mode 'strict', with AuthenticodeCounterSignerError if the digests agree; in mode 'permit' it has the outcome that it has without the countersignature, unless the caller passes one context object for signer and countersigner; and verify() of a file in mode 'strict' returns no such signature, in whichever way the signatures of the file are combined; if no countersignature of a file is supported, mode 'permit' has the outcome of mode 'ignore'.", "quantifier": "all signatures, files, stores, contexts and behaviours of certvalidator", "why_tests_cant": "the certificates may come from any store of the context, loaded or not, and the time is set on the context before the countersigner is verified", "anchors": ["signify/authenticode/structures.py: AuthenticodeSignedData.verify", "signify/authenticode/signed_pe.py: SignedPEFile.verify", "signify/pkcs7/signerinfo.py: SignerInfo.verify"]}
