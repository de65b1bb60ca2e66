{
 "claims": [
  {
   "property": "C01",
   "status": "proved",
   "theorems": [
    "Signify.Props.C01_digests_exact",
    "Signify.Props.C01_independent"
   ],
   "note": ""
  },
  {
   "property": "C02",
   "status": "proved",
   "theorems": [
    "Signify.Props.C02_no_digest_for_ill_formed",
    "Signify.Props.C02_ill_formed_never_returns",
    "Signify.Props.C02_reversed_range_may_hang"
   ],
   "note": "C02_reversed_range_may_hang records that an ill-formed range may also hang instead of raising."
  },
  {
   "property": "C03",
   "status": "proved",
   "theorems": [
    "Signify.Props.C03_terminates",
    "Signify.Props.C03_internal_errors_unreachable",
    "Signify.Props.C03_block_size_zero_diverges"
   ],
   "note": ""
  },
  {
   "property": "C04",
   "status": "proved",
   "theorems": [
    "Signify.Props.C04_reusable",
    "Signify.Props.C04_failure_persists",
    "Signify.Props.C04_sequence"
   ],
   "note": ""
  },
  {
   "property": "C05",
   "status": "proved",
   "theorems": [
    "Signify.Props.C05_reads_bounded",
    "Signify.Props.C05_single_pass"
   ],
   "note": ""
  },
  {
   "property": "C06",
   "status": "partial",
   "theorems": [
    "Signify.Props.C06_shared_lists_partial",
    "Signify.Props.C06_lists_not_intact",
    "Signify.Props.C06_reuse_false",
    "Signify.Props.C06_shared_overlap_false"
   ],
   "note": "Holds when shared lists are ascending and disjoint; false for overlapping shared lists and for re-use of the list after the run (refutations proved)."
  },
  {
   "property": "C07",
   "status": "partial",
   "theorems": [
    "Signify.Props.C07_keys",
    "Signify.Props.C07_hash",
    "Signify.Props.C07_hash_single_partial",
    "Signify.Props.C07_hash_two_registrations_false"
   ],
   "note": "All clauses proved except the last one, which is false: hash() accepts several add_hashers() calls with one description (refutation proved)."
  },
  {
   "property": "C08",
   "status": "proved",
   "theorems": [
    "Signify.Props.C08_exact",
    "Signify.Props.C08_omit_sections_sane"
   ],
   "note": ""
  },
  {
   "property": "C09",
   "status": "proved",
   "theorems": [
    "Signify.Props.C09_authentihash_exact",
    "Signify.Props.C09_not_pe",
    "Signify.Props.C09_authentihash_iff"
   ],
   "note": ""
  },
  {
   "property": "C10",
   "status": "proved",
   "theorems": [
    "Signify.Props.C10_tamper_detection",
    "Signify.Props.C10_same_image_same_hash",
    "Signify.Props.C10_unsigned_files"
   ],
   "note": "The certificate table itself (its bytes, position and size) is not covered by the hash; see C11."
  },
  {
   "property": "C11",
   "status": "partial",
   "theorems": [
    "Signify.Props.C11_position_not_pinned_false",
    "Signify.Props.C11_same_position_partial"
   ],
   "note": "False in general (refutation proved: the table can be relocated); proved when both tables start at the same offset."
  },
  {
   "property": "C12",
   "status": "proved",
   "theorems": [
    "Signify.Props.C12_signing_keeps_hash",
    "Signify.Props.C12_table_content_irrelevant"
   ],
   "note": ""
  },
  {
   "property": "C13",
   "status": "proved",
   "theorems": [
    "Signify.Props.C13_round_trip",
    "Signify.Props.C13_attach_round_trip"
   ],
   "note": ""
  },
  {
   "property": "C14",
   "status": "proved",
   "theorems": [
    "Signify.Props.C14_iteration_safe"
   ],
   "note": ""
  },
  {
   "property": "C15",
   "status": "proved",
   "theorems": [
    "Signify.Props.C15_iteration",
    "Signify.Props.C15_unique",
    "Signify.Props.C15_preorder_unique",
    "Signify.Props.C15_ignored"
   ],
   "note": "For all files and all answers of the ASN.1 decoder; 'recognisable' entries are those of Spec.GoodEntry."
  },
  {
   "property": "C16",
   "status": "proved",
   "theorems": [
    "Signify.Props.C16_outcome",
    "Signify.Props.C16_selection_unique",
    "Signify.Props.C16_all",
    "Signify.Props.C16_first",
    "Signify.Props.C16_any",
    "Signify.Props.C16_best",
    "Signify.Props.C16_historyFree"
   ],
   "note": "C16_outcome in general, with the signatures tried one after the other; C16_all/first/any/best are the iff statements for verification independent of history (C16_historyFree: no contexts of the caller, readable store)."
  },
  {
   "property": "C17",
   "status": "proved",
   "theorems": [
    "Signify.Props.C17_monotone"
   ],
   "note": ""
  },
  {
   "property": "C18",
   "status": "partial",
   "theorems": [
    "Signify.Props.C18_unknown_mode_false",
    "Signify.Props.C18_unknown_mode_partial"
   ],
   "note": "False (refutation proved): an unknown mode is not rejected, and a typo of 'all' accepts what 'all' rejects. Proved that it behaves exactly as 'any'."
  },
  {
   "property": "C19",
   "status": "proved",
   "theorems": [
    "Signify.Props.C19_digests",
    "Signify.Props.C19_no_keyError",
    "Signify.Props.C19_returned",
    "Signify.Props.C19_set_order"
   ],
   "note": ""
  },
  {
   "property": "C20",
   "status": "partial",
   "theorems": [
    "Signify.Props.C20_effect",
    "Signify.Props.C20_shared_dictionary_false",
    "Signify.Props.C20_unchanged_false",
    "Signify.Props.C20_unchanged_partial",
    "Signify.Props.C20_none"
   ],
   "note": "False (refutations proved): the caller's dictionary is extended by the digests of the file, which are then used for another file. Exact effect proved; unchanged if it is complete or not passed."
  },
  {
   "property": "C21",
   "status": "proved",
   "theorems": [
    "Signify.Props.C21_not_signed",
    "Signify.Props.C21_signatures_exist",
    "Signify.Props.C21_no_table",
    "Signify.Props.C21_no_pe",
    "Signify.Props.C21_other_errors"
   ],
   "note": "Libraries and stores are assumed not to raise AuthenticodeNotSignedError themselves."
  },
  {
   "property": "C22",
   "status": "proved",
   "theorems": [
    "Signify.Props.C22_hierarchy",
    "Signify.Props.C22_unique",
    "Signify.Props.C22_explain",
    "Signify.Props.C22_file",
    "Signify.Props.C22_signature"
   ],
   "note": ""
  },
  {
   "property": "C23",
   "status": "proved",
   "theorems": [
    "Signify.Props.C23_parse_exact",
    "Signify.Props.C23_structurally_valid",
    "Signify.Props.C23_from_envelope"
   ],
   "note": "Exact: the constructor succeeds iff the structure conforms to Spec.ReadsASD, to any nesting depth."
  },
  {
   "property": "C24",
   "status": "partial",
   "theorems": [
    "Signify.Props.C24_defects_refused",
    "Signify.Props.C24_parse_error_false_keyError",
    "Signify.Props.C24_parse_error_false_noContent",
    "Signify.Props.C24_parse_error_false_noImage",
    "Signify.Props.C24_parse_error_false_assertion",
    "Signify.Props.C24_parse_error_false_accuracy",
    "Signify.Props.C24_parse_error_false_tsa",
    "Signify.Props.C24_parse_error_partial"
   ],
   "note": "False as stated (six refutations proved: KeyError, TypeError, AssertionError, OverflowError, NotImplementedError); proved that every failure is a ParseError unless the structure has one of the listed defects, and that each of these defects makes from_envelope fail (C24_defects_refused)."
  },
  {
   "property": "C25",
   "status": "partial",
   "theorems": [
    "Signify.Props.C25_unique_false",
    "Signify.Props.C25_last_attribute",
    "Signify.Props.C25_unique_partial"
   ],
   "note": "False for repeated attribute types, of which the last counts (refutation proved); proved for distinct attribute types, and exactly for all (last attribute)."
  },
  {
   "property": "C26",
   "status": "proved",
   "theorems": [
    "Signify.Props.C26_countersigner"
   ],
   "note": ""
  },
  {
   "property": "C27",
   "status": "proved",
   "theorems": [
    "Signify.Props.C27_encoding",
    "Signify.Props.C27_injective",
    "Signify.Props.C27_determines"
   ],
   "note": ""
  },
  {
   "property": "C28",
   "status": "proved",
   "theorems": [
    "Signify.Props.C28_exact",
    "Signify.Props.C28_binding",
    "Signify.Props.C28_needs_digest"
   ],
   "note": "For all contexts of the caller, lazily loaded stores and answers of the path validator."
  },
  {
   "property": "C29",
   "status": "proved",
   "theorems": [
    "Signify.Props.C29_signer_verify",
    "Signify.Props.C29_asd_verify",
    "Signify.Props.C29_embedded_not_anchors",
    "Signify.Props.C29_context_verify",
    "Signify.Props.C29_question",
    "Signify.Props.C29_members"
   ],
   "note": "Contexts, SignerInfo.verify and AuthenticodeSignedData.verify, for all states and all answers of the path validator."
  },
  {
   "property": "C30",
   "status": "partial",
   "theorems": [
    "Signify.Props.C30_ignore",
    "Signify.Props.C30_strict_success",
    "Signify.Props.C30_strict_bad",
    "Signify.Props.C30_permit_default",
    "Signify.Props.C30_permit_good",
    "Signify.Props.C30_permit_bad_partial",
    "Signify.Props.C30_absent",
    "Signify.Props.C30_dichotomy",
    "Signify.Props.C30_permit_false"
   ],
   "note": "'ignore' and 'strict' proved as stated; 'permit' with a bad countersignature is false if the caller passes one context for both purposes (refutation proved; what holds then is C31_shared_partial) and proved otherwise, if the stores can be read."
  },
  {
   "property": "C31",
   "status": "partial",
   "theorems": [
    "Signify.Props.C31_shared_partial",
    "Signify.Props.C31_time_false",
    "Signify.Props.C31_time_partial",
    "Signify.Props.C31_which_time"
   ],
   "note": "False if the caller passes one context for both purposes (refutation proved: the time of a failed countersignature is used); proved otherwise, and the choice of the time in modes 'strict' and 'ignore' without that assumption; C31_shared_partial gives the law for one shared context."
  },
  {
   "property": "C32",
   "status": "partial",
   "theorems": [
    "Signify.Props.C32_exact_partial",
    "Signify.Props.C32_lifetime_false",
    "Signify.Props.C32_lifetime_partial"
   ],
   "note": "False (refutation proved: a second certificate with the same issuer, serial number and key makes the countersignature's time apply); proved if all certificates that made the signature are lifetime signing certificates; C32_exact_partial gives the time used for each candidate in general (for usages given as iterators see C35_sequence_authenticode)."
  },
  {
   "property": "C33",
   "status": "partial",
   "theorems": [
    "Signify.Props.C33_state",
    "Signify.Props.C33_memory",
    "Signify.Props.C33_independent_false",
    "Signify.Props.C33_reset_partial",
    "Signify.Props.C33_law_partial",
    "Signify.Props.C33_no_countersignature_partial",
    "Signify.Props.C33_time",
    "Signify.Props.C33_exact_partial"
   ],
   "note": "False (refutation proved): the time of a countersignature stays in the context. Proved for all histories if the timestamp is put back, or if no countersignature was looked at with the signer's context; C33_law_partial: in general the outcome is that of the first call with the context's timestamp replaced by the time of such a countersignature.  C33_time says exactly when a call leaves a time in the signer's context, and C33_exact_partial which time decides after any calls (ordinary contexts, not also used for countersigners).  C33_state and C33_memory give the exact law without any assumption on stores, usages or contexts: calls leave behind stores read, such timestamps and iterators used up, and nothing else."
  },
  {
   "property": "C34",
   "status": "partial",
   "theorems": [
    "Signify.Props.C34_law",
    "Signify.Props.C34_contexts_unchanged",
    "Signify.Props.C34_other_contexts",
    "Signify.Props.C34_function_partial",
    "Signify.Props.C34_history_partial",
    "Signify.Props.C34_unreadable_false"
   ],
   "note": "Contexts unchanged: proved for all histories. The outcome is a function of the signature, store contents and options: proved for trusted stores that can be read; false for stores that cannot (refutation proved); C34_law: for all stores, the outcome is the one before the calls, with the trusted store read or not."
  },
  {
   "property": "C35",
   "status": "partial",
   "theorems": [
    "Signify.Props.C35_verdict_partial",
    "Signify.Props.C35_authenticode_partial",
    "Signify.Props.C35_candidates",
    "Signify.Props.C35_verdict_meaning",
    "Signify.Props.C35_verdict_false",
    "Signify.Props.C35_sequence",
    "Signify.Props.C35_sequence_authenticode",
    "Signify.Props.C35_left",
    "Signify.Props.C35_unreadable"
   ],
   "note": "Exact for contexts whose usages are containers and whose stores can be read; exceptions other than VerificationError end the loop (refutation proved), and for AuthenticodeSignerInfo with candidates that differ in lifetime signing the exact law is C32_exact_partial. C35_sequence, C35_sequence_authenticode and C35_left give the exact law for all usages (containers or iterators) and candidates; C35_unreadable says that with a store that cannot be read the exception is that of the store, unless a candidate before it cannot be refused properly."
  },
  {
   "property": "C36",
   "status": "partial",
   "theorems": [
    "Signify.Props.C36_accepts_iff",
    "Signify.Props.C36_legacy_monotone",
    "Signify.Props.C36_all_failures_false",
    "Signify.Props.C36_failures_partial"
   ],
   "note": "Acceptance and monotonicity proved as stated; 'all failures are CertificateVerificationError' is false when loading the public key raises (refutation proved), or when the subject of the certificate has a value that is not text (TypeError, since the message names it); proved otherwise."
  },
  {
   "property": "C37",
   "status": "partial",
   "theorems": [
    "Signify.Props.C37_order_false",
    "Signify.Props.C37_iff_partial",
    "Signify.Props.C37_exact",
    "Signify.Props.C37_names_false",
    "Signify.Props.C37_order_partial",
    "Signify.Props.C37_sound",
    "Signify.Props.C37_store"
   ],
   "note": "False as stated (refutation proved): a CTL with an unsupported algorithm raises an error that is not caught, and so does a store that cannot name the root in its message (C37_names_false). Proved for supported CTLs, re-iterable EKUs and roots with names that are text; soundness proved in general; C37_exact says for all stores when trust is granted and when the uncaught error occurs."
  },
  {
   "property": "C38",
   "status": "proved",
   "theorems": [
    "Signify.Props.C38_policy",
    "Signify.Props.C38_refusal"
   ],
   "note": ""
  },
  {
   "property": "C39",
   "status": "proved",
   "theorems": [
    "Signify.Props.C39_monotone"
   ],
   "note": ""
  },
  {
   "property": "C40",
   "status": "proved",
   "theorems": [
    "Signify.Props.C40_find_subject",
    "Signify.Props.C40_unsupported",
    "Signify.Props.C40_error_class"
   ],
   "note": ""
  },
  {
   "property": "C41",
   "status": "proved",
   "theorems": [
    "Signify.Props.C41_store",
    "Signify.Props.C41_store_find_certificate",
    "Signify.Props.C41_context",
    "Signify.Props.C41_unique",
    "Signify.Props.C41_certificates",
    "Signify.Props.C41_find_certificate"
   ],
   "note": ""
  },
  {
   "property": "C42",
   "status": "proved",
   "theorems": [
    "Signify.Props.C42_potential_chains",
    "Signify.Props.C42_once"
   ],
   "note": "For loaded stores; see C43 for stores not loaded yet."
  },
  {
   "property": "C43",
   "status": "partial",
   "theorems": [
    "Signify.Props.C43_is_trusted_false",
    "Signify.Props.C43_potential_chains_false",
    "Signify.Props.C43_failed_load_false",
    "Signify.Props.C43_verify_find_partial",
    "Signify.Props.C43_after_load_partial",
    "Signify.Props.C43_trusted_loaded_partial",
    "Signify.Props.C43_sound_partial"
   ],
   "note": "False for is_trusted and potential_chains before the first iteration and for failed loads (refutations proved); proved for verify and find_certificates, for everything once the trusted stores have been loaded (a query loads all); is_trusted never says yes too early."
  },
  {
   "property": "C44",
   "status": "proved",
   "theorems": [
    "Signify.Props.C44_cert_eq",
    "Signify.Props.C44_name_eq",
    "Signify.Props.C44_cert_eq_iff",
    "Signify.Props.C44_hash",
    "Signify.Props.C44_name_hash",
    "Signify.Props.C44_hash_iff",
    "Signify.Props.C44_hashable_iff"
   ],
   "note": "C44_hashable_iff records that certificates with DSA keys cannot be hashed at all."
  },
  {
   "property": "C45",
   "status": "partial",
   "theorems": [
    "Signify.Props.C45_equal_names_may_differ_false",
    "Signify.Props.C45_first_attributes_partial",
    "Signify.Props.C45_single_valued_partial"
   ],
   "note": "False for multi-valued RDNs, of which only the first attribute is compared (refutation proved); exact characterisation proved for all names, and the property for names with single-valued RDNs."
  },
  {
   "property": "C46",
   "status": "proved",
   "theorems": [
    "Signify.Props.C46_dn_returns",
    "Signify.Props.C46_dn_parses_back",
    "Signify.Props.C46_dn_injective",
    "Signify.Props.C46_dn_iff_equal"
   ],
   "note": ""
  },
  {
   "property": "C47",
   "status": "proved",
   "theorems": [
    "Signify.Props.C47_by_type",
    "Signify.Props.C47_all"
   ],
   "note": ""
  },
  {
   "property": "C48",
   "status": "partial",
   "theorems": [
    "Signify.Props.C48_round_trip_false",
    "Signify.Props.C48_epoch_partial",
    "Signify.Props.C48_exact",
    "Signify.Props.C48_before"
   ],
   "note": "False for every whole second after 1601 (refutation proved): set() scales by 100 instead of 10^7. The exact law for all inputs is proved (C48_exact: what is read back lies within 10 \u00b5s above 10 \u00b5s per whole second since 1601; C48_before: which times before 1601 are refused)."
  },
  {
   "property": "C49",
   "status": "partial",
   "theorems": [
    "Signify.Props.C49_last_time",
    "Signify.Props.C49_monotone",
    "Signify.Props.C49_readable",
    "Signify.Props.C49_whole_seconds",
    "Signify.Props.C49_accuracy_false",
    "Signify.Props.C49_accuracy_partial",
    "Signify.Props.C49_late",
    "Signify.Props.C49_accuracy_all",
    "Signify.Props.C49_range",
    "Signify.Props.C49_lengths"
   ],
   "note": "Monotonicity, exactness on whole seconds and the None/length cases proved for all inputs; the one microsecond accuracy is false after 2171-11-08 (refutation proved) and proved before; C49_late gives the exact grid, C49_accuracy_all a bound of 16 microseconds over the whole range, C49_range the values that are refused."
  },
  {
   "property": "C50",
   "status": "partial",
   "theorems": [
    "Signify.Props.C50_generator_false",
    "Signify.Props.C50_generator_partial",
    "Signify.Props.C50_exact",
    "Signify.Props.C50_not_stricter",
    "Signify.Props.C50_containers_partial"
   ],
   "note": "False (refutation proved): the CTL sees no EKUs if these are given as a generator. Proved for contexts without CTLs and for containers; C50_exact gives the exact law (the CTLs see a request of no EKUs), C50_not_stricter that a generator never accepts less."
  },
  {
   "property": "C51",
   "status": "proved",
   "theorems": [
    "Signify.Props.C51_parameters",
    "Signify.Props.C51_best",
    "Signify.Props.C51_considered",
    "Signify.Props.C51_accepted",
    "Signify.Props.C51_algorithm_iff",
    "Signify.Props.C51_rejected"
   ],
   "note": ""
  },
  {
   "property": "C52",
   "status": "proved",
   "theorems": [
    "Signify.Props.C52_rfc3161",
    "Signify.Props.C52_rfc3161_alone",
    "Signify.Props.C52_parsed"
   ],
   "note": ""
  },
  {
   "property": "C53",
   "status": "proved",
   "theorems": [
    "Signify.Props.C53_pkcs9",
    "Signify.Props.C53_signed_time"
   ],
   "note": ""
  },
  {
   "property": "C54",
   "status": "proved",
   "theorems": [
    "Signify.Props.C54_accuracy",
    "Signify.Props.C54_overflow",
    "Signify.Props.C54_tst"
   ],
   "note": ""
  },
  {
   "property": "C55",
   "status": "proved",
   "theorems": [
    "Signify.Props.C55_authentic",
    "Signify.Props.C55_untampered"
   ],
   "note": ""
  },
  {
   "property": "C56",
   "status": "partial",
   "theorems": [
    "Signify.Props.C56_context_partial",
    "Signify.Props.C56_signer_partial",
    "Signify.Props.C56_authenticode_signer_partial",
    "Signify.Props.C56_behaved_partial",
    "Signify.Props.C56_signature_partial",
    "Signify.Props.C56_file_partial",
    "Signify.Props.C56_refused",
    "Signify.Props.C56_classes_false",
    "Signify.Props.C56_names_false"
   ],
   "note": "False (refutation proved): a trust list for an unsupported algorithm raises CertificateTrustListParseError, and a refusal that names a certificate whose name is not text is a TypeError (C56_names_false). Proved that every other exception comes from a store, the key loader or the validator (Spec.Leak), and the property if these behave and names are text."
  },
  {
   "property": "C57",
   "status": "proved",
   "theorems": [
    "Signify.Props.C57_fields"
   ],
   "note": ""
  },
  {
   "property": "C58",
   "status": "partial",
   "theorems": [
    "Signify.Props.C58_escaping_false",
    "Signify.Props.C58_exact",
    "Signify.Props.C58_escaping_partial"
   ],
   "note": "False (refutation proved): a leading space is not escaped. Exact otherwise (C58_exact says what is escaped for all values)."
  },
  {
   "property": "C59",
   "status": "proved",
   "theorems": [
    "Signify.Props.C59_evidence"
   ],
   "note": "Spec.Evidence and Spec.ChainEvidence list the evidence; key operations and path validation are the libraries' answers."
  },
  {
   "property": "C60",
   "status": "proved",
   "theorems": [
    "Signify.Props.C60_selected",
    "Signify.Props.C60_first",
    "Signify.Props.C60_best",
    "Signify.Props.C60_any",
    "Signify.Props.C60_all_present",
    "Signify.Props.C60_all",
    "Signify.Props.C60_same_signatures",
    "Signify.Props.C60_attach"
   ],
   "note": "Modes 'first', 'best' and 'any' for all calls; mode 'all': the converse (C60_all) for calls without contexts of the caller and stores that can be read (PlainCall), C60_all_present for all calls."
  },
  {
   "property": "C61",
   "status": "proved",
   "theorems": [
    "Signify.Props.C61_context",
    "Signify.Props.C61_signer",
    "Signify.Props.C61_authenticode_signer",
    "Signify.Props.C61_signature",
    "Signify.Props.C61_file",
    "Signify.Props.C61_file_contexts"
   ],
   "note": "iff, for libraries and stores that behave (Spec.LibrariesBehave, Spec.StoresBehave), certificates in the stores with names that are text, and usages given as containers.  C61_file is for files verified without contexts of the caller; C61_file_contexts also with such contexts, the time left in them by earlier signatures taken into account."
  },
  {
   "property": "C62",
   "status": "proved",
   "theorems": [
    "Signify.Props.C62_signer_chains"
   ],
   "note": "For loaded stores."
  },
  {
   "property": "C63",
   "status": "proved",
   "theorems": [
    "Signify.Props.C63_entry",
    "Signify.Props.C63_success",
    "Signify.Props.C63_contents",
    "Signify.Props.C63_find_subject",
    "Signify.Props.C63_policy",
    "Signify.Props.C63_signature_not_used",
    "Signify.Props.C63_file",
    "Signify.Props.C63_other_envelopes"
   ],
   "note": "Decoding of octet strings to usages and lists is asn1crypto's (CtlCodec)."
  },
  {
   "property": "C64",
   "status": "proved",
   "theorems": [
    "Signify.Props.C64_utf16",
    "Signify.Props.C64_name",
    "Signify.Props.C64_round_trip",
    "Signify.Props.C64_error"
   ],
   "note": "Both directions: nothing but UTF-16 text is accepted."
  },
  {
   "property": "C65",
   "status": "proved",
   "theorems": [
    "Signify.Props.C65_content_exact",
    "Signify.Props.C65_read_back"
   ],
   "note": "Exact: read iff it says so.  asn1crypto's decoder is part of the model (see the trusted base)."
  },
  {
   "property": "C66",
   "status": "proved",
   "theorems": [
    "Signify.Props.C66_certificate_read_back",
    "Signify.Props.C66_encoding_determines",
    "Signify.Props.C66_attributes_read_back",
    "Signify.Props.C66_time_zone",
    "Signify.Props.C66_utc_time_exact",
    "Signify.Props.C66_general_time_exact",
    "Signify.Props.C66_text",
    "Signify.Props.C66_text_error",
    "Signify.Props.C66_text_unique",
    "Signify.Props.C66_integer",
    "Signify.Props.C66_attribute_value"
   ],
   "note": "Certificates with extensions other than extended key usage are covered, the contents of those are not looked into. For single values the texts, integers and times that are read are characterised exactly, for all octets."
  },
  {
   "property": "C68",
   "status": "proved",
   "theorems": [
    "Signify.Props.C68_signature_read_back",
    "Signify.Props.C68_says_one_thing",
    "Signify.Props.C68_encoding_determines",
    "Signify.Props.C68_timestamp_exact",
    "Signify.Props.C68_signed_file"
   ],
   "note": "Attribute types are distinct in the signatures considered, signers are identified by issuer and serial number; anything else is covered by C22-C27 and C44-C47, which speak of decoded structures."
  },
  {
   "property": "C67",
   "status": "proved",
   "theorems": [
    "Signify.Props.C67_usages_read_back",
    "Signify.Props.C67_list_read_back",
    "Signify.Props.C67_subject_read_back",
    "Signify.Props.C67_file_read_back",
    "Signify.Props.C67_find_subject",
    "Signify.Props.C67_policy"
   ],
   "note": "Times of distrust in whole seconds (others are covered by C49); each certificate is listed once (otherwise the last entry counts, C63)."
  },
  {
   "property": "C69",
   "status": "proved",
   "theorems": [
    "Signify.Props.C69_signature",
    "Signify.Props.C69_file"
   ],
   "note": "The signed attributes are checked in the DER form of their SET, as the standard demands; their contents are part of the file."
  },
  {
   "property": "C70",
   "status": "proved",
   "theorems": [
    "Signify.Props.C70_first_value",
    "Signify.Props.C70_trailing",
    "Signify.Props.C70_file"
   ],
   "note": ""
  },
  {
   "property": "C71",
   "status": "proved",
   "theorems": [
    "Signify.Props.C71_entries",
    "Signify.Props.C71_signatures",
    "Signify.Props.C71_outcome"
   ],
   "note": "On files whose signatures can be read; for others the exception is the same by C71_signatures."
  },
  {
   "property": "C72",
   "status": "proved",
   "theorems": [
    "Signify.Props.C72_verdict",
    "Signify.Props.C72_signed_image"
   ],
   "note": "The cryptographic primitives and the path validator are parameters (LibrariesBehave); the certificates of the trusted store are what their encodings say; the names of the certificates are text."
  },
  {
   "property": "C73",
   "status": "proved",
   "theorems": [
    "Signify.Props.C73_read_back",
    "Signify.Props.C73_first",
    "Signify.Props.C73_within",
    "Signify.Props.C73_lines",
    "Signify.Props.C73_nothing",
    "Signify.Props.C73_no_block"
   ],
   "note": "asn1crypto.pem.unarmor and base64.b64decode are modelled from their published source; they are not part of the repository."
  },
  {
   "property": "C74",
   "status": "proved",
   "theorems": [
    "Signify.Props.C74_loaded",
    "Signify.Props.C74_sources",
    "Signify.Props.C74_failure",
    "Signify.Props.C74_trusted",
    "Signify.Props.C74_verdict",
    "Signify.Props.C74_untrusted"
   ],
   "note": "The order of glob is a parameter.  What happens after a failed load is C43."
  },
  {
   "property": "C75",
   "status": "proved",
   "theorems": [
    "Signify.Props.C75_store",
    "Signify.Props.C75_accepts",
    "Signify.Props.C75_anchor",
    "Signify.Props.C75_refused",
    "Signify.Props.C75_verdict",
    "Signify.Props.C75_no_ctl",
    "Signify.Props.C75_no_ctl_wider",
    "Signify.Props.C75_no_ctl_verdict"
   ],
   "note": "'The same certificate' is equality of issuer, serial number, subject and public key, as in the library."
  },
  {
   "property": "C76",
   "status": "proved",
   "theorems": [
    "Signify.Props.C76_printed",
    "Signify.Props.C76_unique"
   ],
   "note": "The hash functions are arbitrary functions of the bytes; printing and opening of files are trusted."
  },
  {
   "property": "C77",
   "status": "proved",
   "theorems": [
    "Signify.Props.C77_indefinite_exact",
    "Signify.Props.C77_forms",
    "Signify.Props.C77_value_exact",
    "Signify.Props.C77_read_back",
    "Signify.Props.C77_truncated"
   ],
   "note": "This is about the model of asn1crypto's parser, which the library relies on (see the trusted base).  Both forms of lengths."
  },
  {
   "property": "C78",
   "status": "partial",
   "theorems": [
    "Signify.Props.C78_unreadable_partial",
    "Signify.Props.C78_revision_partial",
    "Signify.Props.C78_other_type_partial",
    "Signify.Props.C78_harmless_false"
   ],
   "note": "False as stated (C78_harmless_false: four octets in an appended entry make verify() raise ValueError).  Proved: an unreadable PKCS#7 entry always makes verify() raise the decoder's exception, whatever else is in the file; an entry of unknown revision and all after it are as if absent; entries of other types are as if absent; for readable entries see C60."
  },
  {
   "property": "C79",
   "status": "proved",
   "theorems": [
    "Signify.Props.C79_classes",
    "Signify.Props.C79_all_occur",
    "Signify.Props.C79_documented",
    "Signify.Props.C79_entry"
   ],
   "note": "Exact set of exception classes over the model with the concrete DER decoder, with a witness in DER for each class.  The model decodes eagerly: an exception that asn1crypto raises when a part is first looked at (the IndexError for a name with an empty component, in particular) is raised on loading here."
  },
  {
   "property": "C80",
   "status": "proved",
   "theorems": [
    "Signify.Props.C80_certificate",
    "Signify.Props.C80_pem",
    "Signify.Props.C80_pems",
    "Signify.Props.C80_certificate_all_occur",
    "Signify.Props.C80_trust_list",
    "Signify.Props.C80_trust_list_all_occur"
   ],
   "note": "Exact sets over the model with the concrete DER decoder; what is decoded by a schema is proved to have the shape of the schema (so no TypeError from looking at the parts).  The model decodes eagerly: the IndexError of a name with an empty component comes when the name is first looked at, and the signers of a trust list, which signify does not look at, are decoded too."
  },
  {
   "property": "C81",
   "status": "proved",
   "theorems": [
    "Signify.Props.C81_loaded_alike",
    "Signify.Props.C81_attribute",
    "Signify.Props.C81_other_certificate",
    "Signify.Props.C81_version",
    "Signify.Props.C81_file"
   ],
   "note": "Theorems over the concrete DER decoder, for signatures written in DER.  The specification DSD.essence lists what remains of a signature."
  },
  {
   "property": "C82",
   "status": "proved",
   "theorems": [
    "Signify.Props.C82_classes",
    "Signify.Props.C82_explained",
    "Signify.Props.C82_all_occur"
   ],
   "note": "Over the model with the concrete DER decoder.  Exceptions of stores that cannot be read, of unsupported trust lists and of the libraries are excluded by hypothesis (see C56 for these); memory, recursion limits (for these see C101) and the operating system are not modelled."
  },
  {
   "property": "C83",
   "status": "proved",
   "theorems": [
    "Signify.Props.C83_loaded",
    "Signify.Props.C83_verified",
    "Signify.Props.C83_file",
    "Signify.Props.C83_any_algorithm"
   ],
   "note": "Over the model with the concrete DER decoder; for encodings that the writer of the specification produces (as in C81)."
  },
  {
   "property": "C84",
   "status": "proved",
   "theorems": [
    "Signify.Props.C84_add_store_found",
    "Signify.Props.C84_add_store_trusted",
    "Signify.Props.C84_add_store_verify_trust",
    "Signify.Props.C84_add_store_chains",
    "Signify.Props.C84_trusted_store_chains_false",
    "Signify.Props.C84_add_store_others",
    "Signify.Props.C84_append_order",
    "Signify.Props.C84_append_found",
    "Signify.Props.C84_append_trusted",
    "Signify.Props.C84_append_verify_trust"
   ],
   "note": "Chains: for stores that have been read. verify_trust after append: for EKU collections that can be iterated repeatedly (see C50). C84_trusted_store_chains_false is the witness for the exception named in the statement."
  },
  {
   "property": "C85",
   "status": "proved",
   "theorems": [
    "Signify.Props.C85_sections",
    "Signify.Props.C85_iterations",
    "Signify.Props.C85_list",
    "Signify.Props.C85_hashes",
    "Signify.Props.C85_add_authenticode_hashers",
    "Signify.Props.C85_expected_hash",
    "Signify.Props.C85_verify"
   ],
   "note": "Refinement: the byte-level functions used in the other properties are computed by the seek/read-level model, from any position."
  },
  {
   "property": "C86",
   "status": "proved",
   "theorems": [
    "Signify.Props.C86_iterations",
    "Signify.Props.C86_list",
    "Signify.Props.C86_current",
    "Signify.Props.C86_verify",
    "Signify.Props.C86_appended",
    "Signify.Props.C86_shrunk_struct_error"
   ],
   "note": "The content is fixed during the reading of the signatures and during the hashing, each; it may change between the two. C86_shrunk_struct_error records that a file cut off after opening makes the iteration raise struct.error, which is not an exception of the library."
  },
  {
   "property": "C87",
   "status": "proved",
   "theorems": [
    "Signify.Props.C87_outcome",
    "Signify.Props.C87_supplied",
    "Signify.Props.C87_signature",
    "Signify.Props.C87_entries"
   ],
   "note": ""
  },
  {
   "property": "C88",
   "status": "proved",
   "theorems": [
    "Signify.Props.C88_list",
    "Signify.Props.C88_lazy",
    "Signify.Props.C88_failed"
   ],
   "note": "Of the operations of list, those named in the statement are modelled."
  },
  {
   "property": "C89",
   "status": "proved",
   "theorems": [
    "Signify.Props.C89_context",
    "Signify.Props.C89_given",
    "Signify.Props.C89_countersigned",
    "Signify.Props.C89_file",
    "Signify.Props.C89_without_time",
    "Signify.Props.C89_lifetime",
    "Signify.Props.C89_undated"
   ],
   "note": "The path validator (certvalidator) is not modelled: it is assumed to depend on the clock only for requests without a moment."
  },
  {
   "property": "C90",
   "status": "proved",
   "theorems": [
    "Signify.Props.C90_printed_form",
    "Signify.Props.C90_printable",
    "Signify.Props.C90_listing",
    "Signify.Props.C90_order_unique",
    "Signify.Props.C90_listing_error"
   ],
   "note": "SHA-1 is any function with results of 20 octets; how a time is printed is left open."
  },
  {
   "property": "C91",
   "status": "proved",
   "theorems": [
    "Signify.Props.C91_agency_read_back",
    "Signify.Props.C91_certificate",
    "Signify.Props.C91_unreadable",
    "Signify.Props.C91_usages"
   ],
   "note": "Decoders of extensions that asn1crypto itself defines are a parameter, except for extended key usage. For criteria in extensions both are written down (C92 for the rest)."
  },
  {
   "property": "C92",
   "status": "partial",
   "theorems": [
    "Signify.Props.C92_financial_false",
    "Signify.Props.C92_financial_partial",
    "Signify.Props.C92_confused",
    "Signify.Props.C92_any_octet"
   ],
   "note": "False as stated (C92_financial_false): the schema has two optional fields of the same type in a row, so the second alone is taken for the first. C92_financial_partial says exactly when it holds, C92_confused what is reported otherwise."
  },
  {
   "property": "C93",
   "status": "proved",
   "theorems": [
    "Signify.Props.C93_state",
    "Signify.Props.C93_memory",
    "Signify.Props.C93_independent"
   ],
   "note": "What a context or dictionary that is passed again remembers is in C93_memory, C33 and C20."
  },
  {
   "property": "C94",
   "status": "proved",
   "theorems": [
    "Signify.Props.C94_files",
    "Signify.Props.C94_not_opened",
    "Signify.Props.C94_consistent"
   ],
   "note": "How times, links and exceptions are printed is a parameter."
  },
  {
   "property": "C95",
   "status": "partial",
   "theorems": [
    "Signify.Props.C95_container_signer_partial",
    "Signify.Props.C95_container_verify_partial",
    "Signify.Props.C95_once_context",
    "Signify.Props.C95_once_exact",
    "Signify.Props.C95_once_unchecked",
    "Signify.Props.C95_once_false",
    "Signify.Props.C95_container_file_partial",
    "Signify.Props.C95_once_file",
    "Signify.Props.C95_file_exact",
    "Signify.Props.C95_once_each",
    "Signify.Props.C95_once_file_false",
    "Signify.Props.C95_once_signer"
   ],
   "note": "Proved for containers, in all contexts. False for iterators (C95_once_false): the countersigner's chain uses the iterator up, and the signer's certificate is then accepted without the usages asked for. The exact behaviour with an iterator is proved instead: for one context, for SignerInfo.verify with any number of candidates (only the first that made the signature is asked for the usages), for AuthenticodeSignedData.verify without given contexts, and for SignedPEFile.verify without given contexts (each signature gets what the ones before have left, which is nothing after one that verified; C95_once_file_false shows a file that is accepted only with an iterator). One-shot crls and ocsps are not modelled."
  },
  {
   "property": "C96",
   "status": "partial",
   "theorems": [
    "Signify.Props.C96_nothing_else",
    "Signify.Props.C96_after_loading",
    "Signify.Props.C96_settled",
    "Signify.Props.C96_one_at_a_time",
    "Signify.Props.C96_iterated_first",
    "Signify.Props.C96_missing_false",
    "Signify.Props.C96_twice_false"
   ],
   "note": "False while the store is being loaded: _loaded is set before the files are read, so that a thread that comes second may find the store empty and a certificate of the location not trusted (C96_missing_false), and two threads that both find _loaded unset load everything twice, for good (C96_twice_false). Proved instead, for all interleavings: nothing comes out of the store that was not put there or is in the files (C96_nothing_else); when the operations that overlap the loading are over, everything is there (C96_settled); from then on, or after one iteration before the threads start, threads do not disturb each other (C96_after_loading, C96_iterated_first); and operations that do not overlap give what the rest of the model says (C96_one_at_a_time)."
  },
  {
   "property": "C97",
   "status": "proved",
   "theorems": [
    "Signify.Props.C97_alone",
    "Signify.Props.C97_outcome",
    "Signify.Props.C97_returned",
    "Signify.Props.C97_changing",
    "Signify.Props.C97_moment_false",
    "Signify.Props.C97_threads",
    "Signify.Props.C97_threads_false",
    "Signify.Props.C97_threads_fail"
   ],
   "note": "The functions that use the file are modelled as programs of seek, tell and read; C97_alone ties them to peVerify. C97_outcome also says what happens when the call fails; C97_moment_false, C97_threads_false and C97_threads_fail are the examples for the last part. Single operations on the file object are taken to be atomic, and contexts, stores and the dictionary of expected hashes not to be used by the others (for stores see C96)."
  },
  {
   "property": "C98",
   "status": "proved",
   "theorems": [
    "Signify.Props.C98_alone",
    "Signify.Props.C98_returned",
    "Signify.Props.C98_private",
    "Signify.Props.C98_threads",
    "Signify.Props.C98_threads_loaded",
    "Signify.Props.C98_race_false",
    "Signify.Props.C98_context_false"
   ],
   "note": "The functions that use stores and contexts are modelled as programs of single accesses; C98_alone ties them to asdVerify. C98_race_false and C98_context_false are the examples for the last part. `fuel` bounds the iterations over a store, which others could prolong for ever; the statements hold for every bound, and C98_alone and C98_threads_loaded for every bound larger than the stores. `certificate in store` and the reading of the attributes of a context are taken to be single accesses, and the file not to change (for that see C97)."
  },
  {
   "property": "C99",
   "status": "proved",
   "theorems": [
    "Signify.Props.C99_alone",
    "Signify.Props.C99_private",
    "Signify.Props.C99_threads",
    "Signify.Props.C99_threads_loaded",
    "Signify.Props.C99_explain_loaded",
    "Signify.Props.C99_race_false"
   ],
   "note": "C99_race_false is the example for stores that have not been loaded. The simplifications of C98 apply; each thread has its own file and its own dictionary of expected hashes, if any."
  },
  {
   "property": "C100",
   "status": "proved",
   "theorems": [
    "Signify.Props.C100_quiet",
    "Signify.Props.C100_quiet_file",
    "Signify.Props.C100_still",
    "Signify.Props.C100_dated",
    "Signify.Props.C100_context",
    "Signify.Props.C100_sound",
    "Signify.Props.C100_anchored",
    "Signify.Props.C100_refused",
    "Signify.Props.C100_mixed",
    "Signify.Props.C100_outcome",
    "Signify.Props.C100_evidence"
   ],
   "note": "C100_refused and C100_mixed are the examples for the last two sentences; the undated countersigner of the second cannot come out of parsing a PKCS#9 countersignature (C53_signed_time), but the class can be given one, as in C89_undated. The path validator (certvalidator) is not modelled: its answers at each moment are arbitrary. C100_evidence is the counterpart of C59 for files, C100_outcome that of C16."
  },
  {
   "property": "C101",
   "status": "proved",
   "theorems": [
    "Signify.Props.C101_parse",
    "Signify.Props.C101_listed",
    "Signify.Props.C101_verify",
    "Signify.Props.C101_success",
    "Signify.Props.C101_explain",
    "Signify.Props.C101_shallow",
    "Signify.Props.C101_first"
   ],
   "note": "C101_first is the example of a signature that is not looked at. While signatures are verified, there are no nested calls of signify itself; exceptions in the path validator and the key operations are among the answers that the rest of the model allows for. Equal structures on the same level are treated alike."
  },
  {
   "property": "C102",
   "status": "proved",
   "theorems": [
    "Signify.Props.C102_alone",
    "Signify.Props.C102_returned",
    "Signify.Props.C102_changing",
    "Signify.Props.C102_any",
    "Signify.Props.C102_threads"
   ],
   "note": "Combines C97 and C99. That the file as it was at a single moment need not verify (C97_moment_false), and that a thread may raise although the file verifies (C99_race_false), is shown there."
  },
  {
   "property": "C103",
   "status": "proved",
   "theorems": [
    "Signify.Props.C103_known",
    "Signify.Props.C103_outcome",
    "Signify.Props.C103_early",
    "Signify.Props.C103_unknown",
    "Signify.Props.C103_returned",
    "Signify.Props.C103_unused",
    "Signify.Props.C103_signature",
    "Signify.Props.C103_explain",
    "Signify.Props.C103_explain_signature"
   ],
   "note": "How Python binds keyword arguments is modelled by hand: a name given twice or unknown is a TypeError before the body runs."
  },
  {
   "property": "C104",
   "status": "proved",
   "theorems": [
    "Signify.Props.C104_aware",
    "Signify.Props.C104_any_instant",
    "Signify.Props.C104_accepted",
    "Signify.Props.C104_dateless",
    "Signify.Props.C104_list",
    "Signify.Props.C104_verify_aware",
    "Signify.Props.C104_verify_any_instant",
    "Signify.Props.C104_verify_zoneless"
   ],
   "note": "What certvalidator does at a moment without a time zone is a parameter (C104_verify_zoneless assumes that it finds no chain). That Python cannot compare times with and without a time zone is modelled by hand."
  },
  {
   "property": "C105",
   "status": "proved",
   "theorems": [
    "Signify.Props.C105_strict",
    "Signify.Props.C105_permit",
    "Signify.Props.C105_file",
    "Signify.Props.C105_permit_file"
   ],
   "note": "For stores that can be read. For files: calls without contexts of the caller."
  }
 ]
}