"""Regenerates MANIFEST.json from the table below; run in /verif."""
import json, re, glob
STATUS = {
 "C01": ("proved", ""),
 "C02": ("proved", "C02_reversed_range_may_hang records that an ill-formed range may also hang instead of raising."),
 "C03": ("proved", ""),
 "C04": ("proved", ""),
 "C05": ("proved", ""),
 "C06": ("partial", "Holds when shared lists are ascending and disjoint; false for overlapping shared lists and for re-use of the list after the run (refutations proved)."),
 "C07": ("partial", "All clauses proved except the last one, which is false: hash() accepts several add_hashers() calls with one description (refutation proved)."),
 "C08": ("proved", ""),
 "C09": ("proved", ""),
 "C10": ("proved", "The certificate table itself (its bytes, position and size) is not covered by the hash; see C11."),
 "C11": ("partial", "False in general (refutation proved: the table can be relocated); proved when both tables start at the same offset."),
 "C12": ("proved", ""),
 "C13": ("proved", ""),
 "C14": ("proved", ""),
 "C45": ("partial", "False for multi-valued RDNs, of which only the first attribute is compared (refutation proved); exact characterisation proved for all names, and the property for names with single-valued RDNs."),
 "C46": ("proved", ""),
 "C47": ("proved", ""),
 "C48": ("partial", "False for every whole second after 1601 (refutation proved): set() scales by 100 instead of 10^7. The exact law for all inputs is proved (C48_exact: what is read back lies within 10 µs above 10 µs per whole second since 1601; C48_before: which times before 1601 are refused)."),
 "C49": ("partial", "Monotonicity, exactness on whole seconds and the None/length cases proved for all inputs; the one microsecond accuracy is false after 2171-11-08 (refutation proved) and proved before; C49_late gives the exact grid, C49_accuracy_all a bound of 16 microseconds over the whole range, C49_range the values that are refused."),
 "C29": ("proved", "Contexts, SignerInfo.verify and AuthenticodeSignedData.verify, for all states and all answers of the path validator."),
 "C36": ("partial", "Acceptance and monotonicity proved as stated; 'all failures are CertificateVerificationError' is false when loading the public key raises (refutation proved), or when the subject of the certificate has a value that is not text (TypeError, since the message names it); proved otherwise."),
 "C37": ("partial", "False as stated (refutation proved): a CTL with an unsupported algorithm raises an error that is not caught, and so does a store that cannot name the root in its message (C37_names_false). Proved for supported CTLs, re-iterable EKUs and roots with names that are text; soundness proved in general; C37_exact says for all stores when trust is granted and when the uncaught error occurs."),
 "C38": ("proved", ""),
 "C39": ("proved", ""),
 "C40": ("proved", ""),
 "C41": ("proved", ""),
 "C42": ("proved", "For loaded stores; see C43 for stores not loaded yet."),
 "C43": ("partial", "False for is_trusted and potential_chains before the first iteration and for failed loads (refutations proved); proved for verify and find_certificates, for everything once the trusted stores have been loaded (a query loads all); is_trusted never says yes too early."),
 "C44": ("proved", "C44_hashable_iff records that certificates with DSA keys cannot be hashed at all."),
 "C50": ("partial", "False (refutation proved): the CTL sees no EKUs if these are given as a generator. Proved for contexts without CTLs and for containers; C50_exact gives the exact law (the CTLs see a request of no EKUs), C50_not_stricter that a generator never accepts less."),
 "C23": ("proved", "Exact: the constructor succeeds iff the structure conforms to Spec.ReadsASD, to any nesting depth."),
 "C24": ("partial", "False as stated (six refutations proved: KeyError, TypeError, AssertionError, OverflowError, NotImplementedError); proved that every failure is a ParseError unless the structure has one of the listed defects, and that each of these defects makes from_envelope fail (C24_defects_refused)."),
 "C25": ("partial", "False for repeated attribute types, of which the last counts (refutation proved); proved for distinct attribute types, and exactly for all (last attribute)."),
 "C26": ("proved", ""),
 "C27": ("proved", ""),
 "C54": ("proved", ""),
 "C57": ("proved", ""),
 "C28": ("proved", "For all contexts of the caller, lazily loaded stores and answers of the path validator."),
 "C31": ("partial", "False if the caller passes one context for both purposes (refutation proved: the time of a failed countersignature is used); proved otherwise, and the choice of the time in modes 'strict' and 'ignore' without that assumption; C31_shared_partial gives the law for one shared context."),
 "C32": ("partial", "False (refutation proved: a second certificate with the same issuer, serial number and key makes the countersignature's time apply); proved if all certificates that made the signature are lifetime signing certificates; C32_exact_partial gives the time used for each candidate in general (for usages given as iterators see C35_sequence_authenticode)."),
 "C52": ("proved", ""),
 "C15": ("proved", "For all files and all answers of the ASN.1 decoder; 'recognisable' entries are those of Spec.GoodEntry."),
 "C16": ("proved", "C16_outcome in general, with the signatures tried one after the other; C16_all/first/any/best are the iff statements for verification independent of history (C16_historyFree: no contexts of the caller, readable store)."),
 "C17": ("proved", ""),
 "C18": ("partial", "False (refutation proved): an unknown mode is not rejected, and a typo of 'all' accepts what 'all' rejects. Proved that it behaves exactly as 'any'."),
 "C19": ("proved", ""),
 "C20": ("partial", "False (refutations proved): the caller's dictionary is extended by the digests of the file, which are then used for another file. Exact effect proved; unchanged if it is complete or not passed."),
 "C21": ("proved", "Libraries and stores are assumed not to raise AuthenticodeNotSignedError themselves."),
 "C22": ("proved", ""),
 "C51": ("proved", ""),
 "C55": ("proved", ""),
 "C56": ("partial", "False (refutation proved): a trust list for an unsupported algorithm raises CertificateTrustListParseError, and a refusal that names a certificate whose name is not text is a TypeError (C56_names_false). Proved that every other exception comes from a store, the key loader or the validator (Spec.Leak), and the property if these behave and names are text."),
 "C35": ("partial", "Exact for contexts whose usages are containers and whose stores can be read; exceptions other than VerificationError end the loop (refutation proved), and for AuthenticodeSignerInfo with candidates that differ in lifetime signing the exact law is C32_exact_partial. C35_sequence, C35_sequence_authenticode and C35_left give the exact law for all usages (containers or iterators) and candidates; C35_unreadable says that with a store that cannot be read the exception is that of the store, unless a candidate before it cannot be refused properly."),
 "C30": ("partial", "'ignore' and 'strict' proved as stated; 'permit' with a bad countersignature is false if the caller passes one context for both purposes (refutation proved; what holds then is C31_shared_partial) and proved otherwise, if the stores can be read."),
 "C33": ("partial", "False (refutation proved): the time of a countersignature stays in the context. Proved for all histories if the timestamp is put back, or if no countersignature was looked at with the signer's context; C33_law_partial: in general the outcome is that of the first call with the context's timestamp replaced by the time of such a countersignature.  C33_time says exactly when a call leaves a time in the signer's context, and C33_exact_partial which time decides after any calls (ordinary contexts, not also used for countersigners).  C33_state and C33_memory give the exact law without any assumption on stores, usages or contexts: calls leave behind stores read, such timestamps and iterators used up, and nothing else."),
 "C34": ("partial", "Contexts unchanged: proved for all histories. The outcome is a function of the signature, store contents and options: proved for trusted stores that can be read; false for stores that cannot (refutation proved); C34_law: for all stores, the outcome is the one before the calls, with the trusted store read or not."),
 "C53": ("proved", ""),
 "C58": ("partial", "False (refutation proved): a leading space is not escaped. Exact otherwise (C58_exact says what is escaped for all values)."),
 "C59": ("proved", "Spec.Evidence and Spec.ChainEvidence list the evidence; key operations and path validation are the libraries' answers."),
 "C60": ("proved", "Modes 'first', 'best' and 'any' for all calls; mode 'all': the converse (C60_all) for calls without contexts of the caller and stores that can be read (PlainCall), C60_all_present for all calls."),
 "C61": ("proved", "iff, for libraries and stores that behave (Spec.LibrariesBehave, Spec.StoresBehave), certificates in the stores with names that are text, and usages given as containers.  C61_file is for files verified without contexts of the caller; C61_file_contexts also with such contexts, the time left in them by earlier signatures taken into account."),
 "C62": ("proved", "For loaded stores."),
 "C63": ("proved", "Decoding of octet strings to usages and lists is asn1crypto's (CtlCodec)."),
 "C64": ("proved", "Both directions: nothing but UTF-16 text is accepted."),
 "C65": ("proved", "Exact: read iff it says so.  asn1crypto's decoder is part of the model (see the trusted base)."),
 "C66": ("proved", "Certificates with extensions other than extended key usage are covered, the contents of those are not looked into. For single values the texts, integers and times that are read are characterised exactly, for all octets."),
 "C68": ("proved", "Attribute types are distinct in the signatures considered, signers are identified by issuer and serial number; anything else is covered by C22-C27 and C44-C47, which speak of decoded structures."),
 "C67": ("proved", "Times of distrust in whole seconds (others are covered by C49); each certificate is listed once (otherwise the last entry counts, C63)."),
 "C69": ("proved", "The signed attributes are checked in the DER form of their SET, as the standard demands; their contents are part of the file."),
 "C70": ("proved", ""),
 "C71": ("proved", "On files whose signatures can be read; for others the exception is the same by C71_signatures."),
 "C72": ("proved", "The cryptographic primitives and the path validator are parameters (LibrariesBehave); the certificates of the trusted store are what their encodings say; the names of the certificates are text."),
 "C73": ("proved", "asn1crypto.pem.unarmor and base64.b64decode are modelled from their published source; they are not part of the repository."),
 "C74": ("proved", "The order of glob is a parameter.  What happens after a failed load is C43."),
 "C75": ("proved", "'The same certificate' is equality of issuer, serial number, subject and public key, as in the library."),
 "C76": ("proved", "The hash functions are arbitrary functions of the bytes; printing and opening of files are trusted."),
 "C77": ("proved", "This is about the model of asn1crypto's parser, which the library relies on (see the trusted base).  Both forms of lengths."),
 "C78": ("partial", "False as stated (C78_harmless_false: four octets in an appended entry make verify() raise ValueError).  Proved: an unreadable PKCS#7 entry always makes verify() raise the decoder's exception, whatever else is in the file; an entry of unknown revision and all after it are as if absent; entries of other types are as if absent; for readable entries see C60."),
 "C79": ("proved", "Exact set of exception classes over the model with the concrete DER decoder, with a witness in DER for each class.  The model decodes eagerly: an exception that asn1crypto raises when a part is first looked at (the IndexError for a name with an empty component, in particular) is raised on loading here."),
 "C80": ("proved", "Exact sets over the model with the concrete DER decoder; what is decoded by a schema is proved to have the shape of the schema (so no TypeError from looking at the parts).  The model decodes eagerly: the IndexError of a name with an empty component comes when the name is first looked at, and the signers of a trust list, which signify does not look at, are decoded too."),
 "C81": ("proved", "Theorems over the concrete DER decoder, for signatures written in DER.  The specification DSD.essence lists what remains of a signature."),
 "C82": ("proved", "Over the model with the concrete DER decoder.  Exceptions of stores that cannot be read, of unsupported trust lists and of the libraries are excluded by hypothesis (see C56 for these); memory, recursion limits (for these see C101) and the operating system are not modelled."),
 "C83": ("proved", "Over the model with the concrete DER decoder; for encodings that the writer of the specification produces (as in C81)."),
 "C84": ("proved", "Chains: for stores that have been read. verify_trust after append: for EKU collections that can be iterated repeatedly (see C50). C84_trusted_store_chains_false is the witness for the exception named in the statement."),
 "C85": ("proved", "Refinement: the byte-level functions used in the other properties are computed by the seek/read-level model, from any position."),
 "C86": ("proved", "The content is fixed during the reading of the signatures and during the hashing, each; it may change between the two. C86_shrunk_struct_error records that a file cut off after opening makes the iteration raise struct.error, which is not an exception of the library."),
 "C87": ("proved", ""),
 "C88": ("proved", "Of the operations of list, those named in the statement are modelled."),
 "C89": ("proved", "The path validator (certvalidator) is not modelled: it is assumed to depend on the clock only for requests without a moment."),
 "C90": ("proved", "SHA-1 is any function with results of 20 octets; how a time is printed is left open."),
 "C91": ("proved", "Decoders of extensions that asn1crypto itself defines are a parameter, except for extended key usage. For criteria in extensions both are written down (C92 for the rest)."),
 "C92": ("partial", "False as stated (C92_financial_false): the schema has two optional fields of the same type in a row, so the second alone is taken for the first. C92_financial_partial says exactly when it holds, C92_confused what is reported otherwise."),
 "C93": ("proved", "What a context or dictionary that is passed again remembers is in C93_memory, C33 and C20."),
 "C94": ("proved", "How times, links and exceptions are printed is a parameter."),
 "C95": ("partial", "Proved for containers, in all contexts. False for iterators (C95_once_false): the countersigner's chain uses the iterator up, and the signer's certificate is then accepted without the usages asked for. The exact behaviour with an iterator is proved instead: for one context, for SignerInfo.verify with any number of candidates (only the first that made the signature is asked for the usages), for AuthenticodeSignedData.verify without given contexts, and for SignedPEFile.verify without given contexts (each signature gets what the ones before have left, which is nothing after one that verified; C95_once_file_false shows a file that is accepted only with an iterator). One-shot crls and ocsps are not modelled."),
 "C96": ("partial", "False while the store is being loaded: _loaded is set before the files are read, so that a thread that comes second may find the store empty and a certificate of the location not trusted (C96_missing_false), and two threads that both find _loaded unset load everything twice, for good (C96_twice_false). Proved instead, for all interleavings: nothing comes out of the store that was not put there or is in the files (C96_nothing_else); when the operations that overlap the loading are over, everything is there (C96_settled); from then on, or after one iteration before the threads start, threads do not disturb each other (C96_after_loading, C96_iterated_first); and operations that do not overlap give what the rest of the model says (C96_one_at_a_time)."),
 "C97": ("proved", "The functions that use the file are modelled as programs of seek, tell and read; C97_alone ties them to peVerify. C97_outcome also says what happens when the call fails; C97_moment_false, C97_threads_false and C97_threads_fail are the examples for the last part. Single operations on the file object are taken to be atomic, and contexts, stores and the dictionary of expected hashes not to be used by the others (for stores see C96)."),
 "C98": ("proved", "The functions that use stores and contexts are modelled as programs of single accesses; C98_alone ties them to asdVerify. C98_race_false and C98_context_false are the examples for the last part. `fuel` bounds the iterations over a store, which others could prolong for ever; the statements hold for every bound, and C98_alone and C98_threads_loaded for every bound larger than the stores. `certificate in store` and the reading of the attributes of a context are taken to be single accesses, and the file not to change (for that see C97)."),
 "C99": ("proved", "C99_race_false is the example for stores that have not been loaded. The simplifications of C98 apply; each thread has its own file and its own dictionary of expected hashes, if any."),
 "C100": ("proved", "C100_refused and C100_mixed are the examples for the last two sentences; the undated countersigner of the second cannot come out of parsing a PKCS#9 countersignature (C53_signed_time), but the class can be given one, as in C89_undated. The path validator (certvalidator) is not modelled: its answers at each moment are arbitrary. C100_evidence is the counterpart of C59 for files, C100_outcome that of C16."),
 "C101": ("proved", "C101_first is the example of a signature that is not looked at. While signatures are verified, there are no nested calls of signify itself; exceptions in the path validator and the key operations are among the answers that the rest of the model allows for. Equal structures on the same level are treated alike."),
 "C102": ("proved", "Combines C97 and C99. That the file as it was at a single moment need not verify (C97_moment_false), and that a thread may raise although the file verifies (C99_race_false), is shown there."),
 "C103": ("proved", "How Python binds keyword arguments is modelled by hand: a name given twice or unknown is a TypeError before the body runs."),
 "C104": ("proved", "What certvalidator does at a moment without a time zone is a parameter (C104_verify_zoneless assumes that it finds no chain). That Python cannot compare times with and without a time zone is modelled by hand."),
 "C105": ("proved", "For stores that can be read. For files: calls without contexts of the caller."),
}
names = {}
for f in sorted(glob.glob('lean/Verif/Props/*.lean')):
    for m in re.finditer(r'^theorem (C\d+)_(\w+)', open(f).read(), re.M):
        names.setdefault(m.group(1), []).append(f"Signify.Props.{m.group(1)}_{m.group(2)}")
claims = []
for l in open('properties.jsonl'):
    i = json.loads(l)['id']
    if i in STATUS and names.get(i):
        st, note = STATUS[i]
        claims.append({"property": i, "status": st, "theorems": names[i], "note": note})
json.dump({"claims": claims}, open('MANIFEST.json', 'w'), indent=1)
print(len(claims), "claims")
