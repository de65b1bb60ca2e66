"""Regenerates the property and axiom tables of DESIGN.md (between the markers); run in /verif after mkmanifest.py."""
import json, re, subprocess, collections, sys
HOW = {
 "C01": "`Fingerprinter` loop over a heap of range lists; invariant `seen ++ remaining = requested`, measure for termination",
 "C02": "same loop; every ill-formed range list is analysed",
 "C03": "same loop; for every fuel the run is unfinished iff the block size is zero",
 "C04": "sequences of operations on one `Fingerprinter`; induction over the operations",
 "C05": "trace of the intervals read; all remaining ranges start at or after the end of the last read",
 "C06": "aliasing of range lists in the heap; idempotence of `consume` on ascending lists",
 "C07": "dictionaries of digests; fold over the fingers",
 "C08": "PE header parser over byte lists; case analysis composed with C01",
 "C09": "same",
 "C10": "preimage of the Authenticode hash: every header field consulted is itself hashed",
 "C11": "same, for two files",
 "C12": "same",
 "C13": "certificate table generator; induction over the entries",
 "C14": "same; induction over the fuel",
 "C15": "`iter_signed_datas`; induction over the table entries and the nested tree",
 "C16": "`SignedPEFile.verify`; induction over the list of signatures, states of contexts and stores threaded through",
 "C17": "same", "C18": "same; concrete witness", "C19": "same",
 "C20": "`_calculate_expected_hashes` on a dictionary shared with the caller",
 "C21": "`SignedPEFile.verify` and the iteration before it",
 "C22": "`AuthenticodeVerificationResult.call`; case analysis over the class hierarchy",
 "C23": "constructors of the PKCS#7 classes over decoded ASN.1 trees; mutual structural induction, exact specification `Spec.ReadsASD`",
 "C24": "same; every failure of every constructor classified",
 "C25": "signed attributes; last attribute of a type counts",
 "C26": "unsigned attributes of the signer; mutual induction over the tree",
 "C27": "canonical encoding of the signed attributes; injectivity of DER lengths and concatenation",
 "C28": "`AuthenticodeSignedData.verify` over the heap of contexts; symbolic execution, exact outcome",
 "C29": "contexts of signature and countersignature; simulation relation between worlds",
 "C30": "modes of countersignature handling; simulation",
 "C31": "same; time at which the certificate is judged",
 "C32": "lifetime signing; candidates of the signer",
 "C33": "histories: heap of contexts before and after; times left in contexts (`Spec.Times`)",
 "C34": "same; the outcome as a function",
 "C35": "`SignerInfo._build_chain`; induction over the candidates; for all usages: the trials in sequence, each with the context as the one before left it",
 "C36": "`Certificate.verify_signature`; case analysis",
 "C37": "`CertificateStore.verify_trust` and trust lists; decision specification",
 "C38": "`CertificateTrustSubject.verify_trust`; independent decision specification", "C39": "same; monotonicity in usages and time", "C40": "`find_subject`; injectivity of hexadecimal",
 "C41": "queries of stores; induction over the stores",
 "C42": "`potential_chains`; induction over the depth, exact specification `Spec.PotentialChain`",
 "C43": "lazily loaded stores in the heap",
 "C44": "equality and hash of certificates and names",
 "C45": "components of names", "C46": "`dn`; a reader written as specification and proved to invert it",
 "C47": "`get_components`",
 "C48": "`FileTime`; explicit model of correctly rounded binary64 arithmetic",
 "C49": "same", "C50": "one-shot iterables as arguments of contexts",
 "C51": "`_get_digest_algorithm`, `_calculate_expected_hashes`, mode 'best'", "C52": "`RFC3161SignedData.check_message_digest` and `verify`", "C53": "`CounterSignerInfo.check_message_digest` and `verify`",
 "C54": "`accuracy_to_python` with the range of datetime.timedelta; arithmetic", "C55": "composition of C10, C16, C19, C28",
 "C56": "exceptions leaving `verify`, classified for all calls (`Spec.Leak`)",
 "C57": "`CertificateTrustSubject._parse`; last attribute of a type, first value", "C58": "escaping in `dn`, exact",
 "C59": "soundness: all the evidence behind a successful verification (`Spec.Evidence`)",
 "C60": "files with signatures added", "C61": "completeness: the evidence suffices (`Spec.Complete`)",
 "C62": "`SignerInfo.potential_chains`",
 "C63": "`CertificateTrustList` from the decoded list: attribute types by OID, values by type; iff-specification of success, one of the contents",
 "C65": "encoder for SpcIndirectDataContent after the standard, asn1crypto's decoder and the schemas as model; what is read equals what was encoded, exactly",
 "C66": "encoders for X.509 certificates and CMS attributes; read-back for all values by induction over the encoded tree",
 "C68": "encoders for SignedData with signers, countersigners, time stamps and nested signatures (mutual induction); file level by the round trip of certificate tables (C13)",
 "C67": "encoders for trust lists and for what a publisher says about a certificate; read-back by induction over the encoded tree, then find_subject and verify_trust from the bytes of the file",
 "C69": "every value the decoder builds is a sub-slice of its input (induction over the type and over the depth of nesting), carried through the parsers by the Reads relations",
 "C70": "the decoder reads its first value whatever follows; fuel does not matter; then C60 for the same signatures",
 "C71": "the loop over the table reads nothing but the table; then C60 for the same signatures",
 "C72": "C61 with the decoder in place: by C69 certificates are what their encodings say, so that objects stand for certificates; C68 and C60 for images that are signed",
 "C73": "the line splitter, unarmor's state machine and the base64 decoder are modelled; read-back by induction on the blocks, within by induction on the lines",
 "C74": "induction on the files, C73; the certificates of the store are what their encodings say, so that C72 applies",
 "C75": "C59 (evidence) with C74 (files) and C67 (list): the policy of the list in terms of the published octets and object identifiers; exact characterization of acceptance by the store",
 "C76": "model of `main` on top of the fingerprinter; the literal lines expected are the specification; `hashes_good`, `addAuthenticode_eq` and C09 give the digests",
 "C77": "definite-length values of X.690 as specification; the parser's loops inverted, so that it accepts exactly these",
 "C78": "refuted with a file in DER; exact behaviour by the kind of the appended entry (unreadable, unknown revision, other type), through C13, C15 and C60",
 "C79": "exception classes tracked compositionally through every decoding and parsing function (RaisesOnly); decoded attribute values shown to be well typed, which excludes the model's catch-all exception; witnesses in DER by kernel evaluation",
 "C80": "a predicate for the values of a schema (Shaped), which the decoder is proved to establish, and from which the access to fields never fails; exception classes tracked compositionally; witnesses in DER",
 "C81": "a specification of the essence of a signature (recursive erasure of the unused fields); loading proved to factor through it, by mutual induction; then C60/C68 for files; example with an arbitrary payload",
 "C82": "C79 for the embedded structures, C56 for the verification, C15 for the iteration; witnesses for each class evaluated by the kernel",
 "C83": "the names are erased before parsing (a codec without names); parsing, iteration and verification commute with the erasure, then C60",
 "C84": "states before and after are compared through the laws of C41 (search), C42 (chains) and C37 (trust); other contexts by the frame lemma of Proofs/Candidates",
 "C85": "file object with a position; generators as state machines; simulation of the byte-level model, invariant: what a suspended generator still has to give",
 "C86": "the file-object model with an arbitrary remembered length; Hoare-style postconditions for every step; simulation on the first bytes of the file",
 "C87": "congruence of the loop of `verify`; dictionaries are neither read nor written by the verification of a signature (`NoDict`)",
 "C88": "an interpreter of operation sequences, compared with one for Python lists (`Spec.opsOnList`)",
 "C89": "two surroundings that differ in the clock (`Spec.SameButClock`); the actions are equal on states with a time",
 "C90": "strings compared from their ends; the order as a stable permutation, with uniqueness",
 "C91": "encoder for agency information and criteria; read-back of the encoded tree and induction over the extensions; inversion of the reader for the last clause",
 "C92": "all nine cases of the encoder, with the field matching of the decoder",
 "C93": "the calls on signatures that verifying a file makes, as a list; what calls leave behind from C33; a simulation of two runs whose states agree on what can be seen",
 "C94": "induction over signatures and files with the invariant that the trusted store has the same contents; verdicts from C22, C15, C16 and C34",
 "C95": "containers from the soundness of SignerInfo.verify; iterators: a successful verification leaves the iterator of its context empty, and both contexts made by verify hold the same iterator, as do the signatures of one file",
 "C96": "transition system of threads over the steps of the methods; invariants by induction over executions of any length; refutations by executions for every location; the steps refine `iterStore`",
 "C97": "the functions that use the file as programs of single operations, run amid arbitrary changes of the file; a program logic whose assertions are about the moments of the run; threads are such a run; without others the programs are the functions on the file object (C85)",
 "C98": "the functions that use stores and contexts as programs of single accesses, run amid arbitrary changes of the state; a program logic with an assertion about the moments of the run and a relation that bounds what others do; threads are such a run; without others the programs are the functions on the state",
 "C99": "SignedPEFile.verify on top of the programs of C98; the program logic of C98 gives what a run amid others has found, an invariant of all threads (stores are those of the start, loaded in part) what it means for the loaded stores, and stores that do not change make the run one without others",
 "C100": "verification with a time, and answers of the path validator, for each reading of the clock (Model/Moments.lean); the actions with a moving and with a standing clock are equal on states that satisfy an invariant, as for C89; acceptance by a trust list is antitone in time, which moves every success back to the moment at which the path validator was asked",
 "C101": "parsing with an exception that may strike at each step (Model/Strikes.lean); 'the same result or the exception' is closed under sequencing, loops and the recursions over nested structures",
 "C102": "one program for the accesses to the file and to the stores (Model/Both.lean); its runs amid others are runs of the two parts amid others of the kinds of C97 and C99",
 "C103": "binding of keyword arguments for the three functions in the order in which they are called (Model/Keywords.lean); the outcome of a file is made of attempts that are either those of C16 or a TypeError without effects",
 "C104": "times as instants or clock readings, and verify_trust with them (Model/Zones.lean), function by function as in Model/Context.lean; equal to the model of the latter for instants, by induction over the stores; verify likewise, step by step",
 "C105": "what a successful verification of the countersigner shows (Proofs/Verify.lean) contradicts the assumption on certvalidator; then the laws of the modes (C30) and of the combinations (C16)",
 "C64": "Python's UTF-16-LE decoder against the encoder of the standard; both directions",
}
try:
    from design_how import HOW as MORE
    HOW.update(MORE)
except ImportError:
    pass
claims = {c["property"]: c for c in json.load(open("MANIFEST.json"))["claims"]}
rows = ["| id | property | modelled and how proved | status | remarks |", "|---|---|---|---|---|"]
for l in open("properties.jsonl"):
    p = json.loads(l)
    c = claims.get(p["id"], {"status": "-", "note": ""})
    rows.append(f"| {p['id']} | {p['title']} | {HOW.get(p['id'], '')} | {c['status']} | {c['note']} |".replace("\n", " "))
text = open("DESIGN.md").read()
def put(mark, body):
    global text
    a, b = f"<!-- {mark} -->", f"<!-- end {mark} -->"
    i, j = text.index(a) + len(a), text.index(b)
    text = text[:i] + "\n" + body + "\n" + text[j:]
put("properties", "\n".join(rows))
if "axioms" in sys.argv:
    with open("/tmp/ax.lean", "w") as f:
        f.write("import Verif\n")
        for c in claims.values():
            for t in c["theorems"]:
                f.write(f"#print axioms {t}\n")
    out = subprocess.run(["lake", "env", "lean", "/tmp/ax.lean"], cwd="lean", capture_output=True, text=True).stdout
    d = collections.defaultdict(list)
    for m in re.finditer(r"'([\w.]+)' (?:depends on axioms: \[([^\]]*)\]|does not depend on any axioms)", out):
        d[re.sub(r"\s+", " ", m.group(2) or "none")].append(m.group(1).replace("Signify.Props.", ""))
    body = ["| axioms | theorems |", "|---|---|"]
    for k in sorted(d, key=lambda k: len(d[k])):
        body.append(f"| {k} | {', '.join('`%s`' % t for t in d[k])} |")
    put("axioms", "\n".join(body))
open("DESIGN.md", "w").write(text)
