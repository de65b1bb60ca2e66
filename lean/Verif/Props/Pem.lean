/-
C73: certificates in PEM are read as they were written.  C74: a store of trusted certificates in files.
-/
import Verif.Proofs.Pem
import Verif.Props.EndToEnd
import Verif.Props.Custody
import Verif.Spec.Custody

set_option autoImplicit false

namespace Signify.Props

open Signify Spec Asn1 Pem

/-! ### C73 -/

/-- **C73**.  A text that holds certificates (with other text before, between and after them, with headers, with lines of any length
that end in any way) is read as these certificates, in their order. -/
theorem C73_read_back (text : Bytes) (certs : List DCert) (h : CertText text certs) :
    fromPems text = (certs.map (DCert.cert certIdent), none) := by
  obtain ⟨h1, h2⟩ := h
  unfold fromPems
  rw [unarmor_text h1]
  have : ∀ (l : List DCert), (∀ c ∈ l, c.Valid ∧ c.encode.length < maxLen) →
      genMap certFromDer (l.map DCert.encode) none = (l.map (DCert.cert certIdent), none) := by
    intro l hl
    induction l with
    | nil => rfl
    | cons c l ih =>
      have h := C66_certificate_read_back c (hl c (List.mem_cons_self ..)).1 (hl c (List.mem_cons_self ..)).2 []
      rw [List.append_nil] at h
      rw [List.map_cons, genMap, h, ih (fun d hd => hl d (List.mem_cons_of_mem _ hd))]
      rfl
  exact this certs h2

/-- `from_pem` gives the first of them. -/
theorem C73_first (text : Bytes) (c : DCert) (certs : List DCert) (h : CertText text (c :: certs)) :
    fromPem text = .ok (c.cert certIdent) := by
  unfold fromPem
  rw [C73_read_back text _ h]
  rfl

/-- Whatever the text is: each certificate that is read is that in a block of the text. -/
theorem C73_within (text : Bytes) (ls : List Bytes) (hl : LinesOf text ls) (c : Cert) (h : c ∈ (fromPems text).1) :
    ∃ der, InBlock ls der ∧ certFromDer der = .ok c := by
  unfold fromPems at h
  obtain ⟨d, hd, hc⟩ := genMap_mem h
  exact ⟨d, unarmor_within hl d hd, hc⟩

/-- Every text has lines, and only one way to be split. -/
theorem C73_lines (text : Bytes) : ∃ ls, LinesOf text ls ∧ ∀ ls', LinesOf text ls' → ls' = ls :=
  ⟨_, linesOf_iff.2 rfl, fun _ h => (linesOf_iff.1 h).symm⟩

/-- If no certificate is read, there is an exception: `from_pem` never raises StopIteration, `from_pems` never silently gives nothing.
In particular it does so for a text without a block. -/
theorem C73_nothing (text : Bytes) (h : (fromPems text).1 = []) : ∃ e, (fromPems text).2 = some e ∧ fromPem text = .error e := by
  have : (fromPems text).2.isSome = true := by
    unfold fromPems at h ⊢
    refine genMap_none h (fun hl => ?_)
    exact unarmorLines_none _ _ hl
  obtain ⟨e, he⟩ := Option.isSome_iff_exists.1 this
  refine ⟨e, he, ?_⟩
  unfold fromPem
  rw [show fromPems text = ([], some e) from Prod.ext h he]

theorem C73_no_block (text : Bytes) (ls : List Bytes) (hl : LinesOf text ls) (h : ∀ l ∈ ls, ¬ StartsBlock l) :
    fromPems text = ([], some ⟨.valueError, "no BEGIN/END combination found"⟩) := by
  unfold fromPems unarmor
  rw [splitLines_of hl]
  have := unarmor_trash h false []
  rw [List.append_nil] at this
  rw [this]
  rfl

/-- The letters of base64, in lines of 64. -/
def chunks64 : Nat → Bytes → List Bytes
  | 0, _ => []
  | n + 1, l => if l = [] then [] else l.take 64 :: chunks64 n (l.drop 64)

theorem chunks64_flatten (n : Nat) (l : Bytes) (h : l.length ≤ n) : (chunks64 n l).flatten = l := by
  induction n generalizing l with
  | zero => rw [List.length_eq_zero_iff.1 (Nat.le_zero.1 h)]; rfl
  | succ n ih =>
    rw [chunks64]
    split
    · rename_i e; rw [e]; rfl
    · rename_i e
      have := List.length_pos_iff.2 e
      rw [List.flatten_cons, ih _ (by rw [List.length_drop]; omega), List.take_append_drop]

/-- A block as it is usually written, with a comment before it and a header. -/
def exPemBlock (der : Bytes) : PemBlock where
  before := [asciiText "subject=CN = Someone", []]
  label := asciiText "CERTIFICATE"
  headers := [asciiText "Note: not secret"]
  body := chunks64 (base64 der).length (base64 der)

theorem exPemBlock_holds (der : Bytes) : (exPemBlock der).Holds der where
  before := by
    intro l hl
    rw [← isBegin_iff]
    simp only [exPemBlock, List.mem_cons, List.not_mem_nil, or_false] at hl
    rcases hl with rfl | rfl <;> decide +kernel
  label := by
    have : IsLabel (asciiText "CERTIFICATE") := ⟨by decide +kernel, by decide +kernel⟩
    exact this
  headers := by
    intro l hl
    simp only [exPemBlock, List.mem_cons, List.not_mem_nil, or_false] at hl
    subst hl
    exact ⟨by decide +kernel, by decide +kernel⟩
  body := chunks64_flatten _ _ (Nat.le_refl _)

/-- Lines that end with CR LF. -/
def crlf (ls : List Bytes) : Bytes := ls.flatMap (fun l => l ++ [0x0D, 0x0A])

theorem crlf_lines (ls : List Bytes) (h : ∀ l ∈ ls, OneLine l) : LinesOf (crlf ls) ls := by
  induction ls with
  | nil => exact .none
  | cons l ls ih =>
    exact .line (h l (List.mem_cons_self ..)) (.inr (.inl rfl)) (ih (fun x hx => h x (List.mem_cons_of_mem _ hx)))

/-- A text with two certificates. -/
def exPemText : Bytes := crlf ((exPemBlock exDCert.encode).lines ++ (exPemBlock exDCert.encode).lines ++ [asciiText "-- the end"])

theorem exPemText_holds : CertText exPemText [exDCert, exDCert] := by
  refine ⟨⟨by simp, [(exPemBlock exDCert.encode, exDCert.encode), (exPemBlock exDCert.encode, exDCert.encode)], [asciiText "-- the end"], rfl, ?_, ?_, ?_⟩, ?_⟩
  · intro x hx
    simp only [List.mem_cons, List.not_mem_nil, or_false, or_self] at hx
    subst hx
    exact exPemBlock_holds _
  · intro l hl
    rw [← isBegin_iff]
    rw [List.mem_singleton.1 hl]
    decide +kernel
  · have : (exPemBlock exDCert.encode).lines ++ (exPemBlock exDCert.encode).lines =
        [(exPemBlock exDCert.encode, exDCert.encode), (exPemBlock exDCert.encode, exDCert.encode)].flatMap (fun x => x.1.lines) := by simp
    rw [← this]
    refine crlf_lines _ ?_
    unfold OneLine
    decide +kernel
  · intro c hc
    simp only [List.mem_cons, List.not_mem_nil, or_false, or_self] at hc
    subst hc
    exact ⟨exDCert_valid, by decide +kernel⟩

example : fromPems exPemText = ([exDCert.cert certIdent, exDCert.cert certIdent], none) := C73_read_back _ _ exPemText_holds

example : ∃ c, c ∈ (fromPems exPemText).1 := ⟨_, by rw [C73_read_back _ _ exPemText_holds]; exact List.mem_cons_self ..⟩

/-- DER is not PEM. -/
example : (fromPems exDCert.encode).1 = [] ∧ ∃ ls, LinesOf exDCert.encode ls ∧ ∀ l ∈ ls, ¬ StartsBlock l := by
  refine ⟨by decide +kernel, _, linesOf_iff.2 rfl, ?_⟩
  simp only [← isBegin_iff]
  decide +kernel

/-! ### C74 -/

theorem loadFiles_hold {files : List (Except Exc Bytes)} {certs : List DCert} (h : FilesHold files certs) :
    loadFiles files = (certs.map (DCert.cert certIdent), none) := by
  induction h with
  | none => rfl
  | more h1 _ ih => rw [loadFiles, C73_read_back _ _ h1]; simp only [ih, List.map_append]

/-- **C74**.  Loading a location whose files hold certificates gives these certificates, file by file. -/
theorem C74_loaded (loc : Location) (certs : List DCert) (h : FilesHold (filesAt loc) certs) :
    loc.load = (certs.map (DCert.cert certIdent), none) := by
  cases loc <;> exact loadFiles_hold h

theorem loadFiles_from {files : List (Except Exc Bytes)} {c : Cert} (h : c ∈ (loadFiles files).1) :
    ∃ text, .ok text ∈ files ∧ c ∈ (fromPems text).1 := by
  induction files with
  | nil => cases h
  | cons f files ih =>
    cases f with
    | error e => cases h
    | ok text =>
      rw [loadFiles] at h
      cases hf : fromPems text with
      | mk cs e =>
        rw [hf] at h
        cases e with
        | some e => exact ⟨text, List.mem_cons_self .., by rw [hf]; exact h⟩
        | none =>
          rcases List.mem_append.1 h with h | h
          · exact ⟨text, List.mem_cons_self .., by rw [hf]; exact h⟩
          · obtain ⟨t, h1, h2⟩ := ih h
            exact ⟨t, List.mem_cons_of_mem _ h1, h2⟩

/-- Whatever is at the location: each certificate that is loaded is in a block of one of its files. -/
theorem C74_sources (loc : Location) (c : Cert) (h : c ∈ loc.load.1) :
    ∃ text ls der, .ok text ∈ filesAt loc ∧ LinesOf text ls ∧ InBlock ls der ∧ certFromDer der = .ok c := by
  have h' : c ∈ (loadFiles (filesAt loc)).1 := by cases loc <;> exact h
  obtain ⟨text, h1, h2⟩ := loadFiles_from h'
  obtain ⟨ls, hl, -⟩ := C73_lines text
  obtain ⟨der, h3, h4⟩ := C73_within text ls hl c h2
  exact ⟨text, ls, der, h1, hl, h3, h4⟩

/-- One file that cannot be read, or that is not PEM, stops the loading: the certificates of the files before it have been loaded, those
of the files after it have not. -/
theorem C74_failure (before after : List (Except Exc Bytes)) (certs : List DCert) (hb : FilesHold before certs) (e : Exc) :
    (Location.directory (before ++ .error e :: after)).load = (certs.map (DCert.cert certIdent), some e) ∧
    ∀ text, fromPems text = ([], some e) →
      (Location.directory (before ++ .ok text :: after)).load = (certs.map (DCert.cert certIdent), some e) := by
  simp only [Location.load]
  induction hb with
  | none =>
    refine ⟨rfl, fun text ht => ?_⟩
    rw [List.nil_append, loadFiles, ht]
    rfl
  | more h1 _ ih =>
    constructor
    · rw [List.cons_append, loadFiles, C73_read_back _ _ h1]
      simp only [ih.1, List.map_append]
    · intro text ht
      rw [List.cons_append, loadFiles, C73_read_back _ _ h1]
      simp only [ih.2 text ht, List.map_append]

theorem certFromDer_self {data : Bytes} {c : Cert} (h : certFromDer data = .ok c) : certFromDer c.der = .ok c := by
  unfold certFromDer at h
  obtain ⟨⟨p, r⟩, h1, h⟩ := eok_bind h
  have hp := (parse_in h1).1
  exact (readCert_from (data := data) h hp).2

/-- A store of files that can be read, with names that are text, is a trusted store in the sense of C72, and its certificates are those of the files. -/
theorem C74_trusted (w : World) (i : Nat) (loc : Location) (ctl : Option CTL) (hs : w.stores i = fileSystemStore loc true ctl)
    (hok : loc.load.2 = none) (hctl : ∀ l, ctl = some l → l.algorithm = "sha1" ∨ l.algorithm = "sha256")
    (hn : ∀ c ∈ loc.load.1, Textual c.subject) :
    TrustedStore w (.heap i) ∧ certsOf (loadedWorld w) (.heap i) = loc.load.1 := by
  have hc : certsOf (loadedWorld w) (.heap i) = loc.load.1 := by
    simp only [certsOf, loadedWorld, hs, fileSystemStore, Store.loaded, List.nil_append]
  refine ⟨⟨fun j certs e hj hp => ?_, fun j l hj hl => ?_, fun c h => ?_, by rw [hc]; exact hn⟩, hc⟩
  · cases hj
    rw [hs] at hp
    simp only [fileSystemStore, Option.some.injEq] at hp
    rw [← hok, hp]
  · cases hj
    rw [hs] at hl
    exact hctl l hl
  · rw [hc] at h
    obtain ⟨_, _, der, _, _, _, h⟩ := C74_sources loc c h
    exact certFromDer_self h

/-- From the bytes of the file and of the files with the trusted certificates to the verdict. -/
theorem C74_verdict (env : Env) (file : Bytes) (args : PEVerifyArgs) (w : World) (sds : List ASD) (hl : LibrariesBehave env)
    (hp : PlainCall w args) (i : Nat) (loc : Location) (ctl : Option CTL) (hi : args.kwargs.trusted = .heap i)
    (hs : w.stores i = fileSystemStore loc true ctl) (hok : loc.load.2 = none)
    (hctl : ∀ l, ctl = some l → l.algorithm = "sha1" ∨ l.algorithm = "sha256")
    (hn : ∀ c ∈ loc.load.1, Textual c.subject) (hm : args.multiVerifyMode ∈ knownModes)
    (hc : Considered derCodec file args.ignoreParseErrors sds) (hne : sds ≠ [])
    (hnames : ∀ b ∈ sds, PrintableCerts b.d) :
    ((∃ res, (peVerify env derCodec file args w).1 = .ok res) ↔
      RequiredHold args.multiVerifyMode (HoldsInFile env file (providedBy w args) args.kwargs w) sds) ∧
    trustedCerts w args.kwargs.trusted = loc.load.1 := by
  obtain ⟨h1, h2⟩ := C74_trusted w i loc ctl hs hok hctl hn
  rw [hi]
  exact ⟨C72_verdict env file args w sds hl hp (by rw [hi]; exact h1) hm hc hne hnames, h2⟩

/-- A store that has not been marked as trusted is no source of trust, whatever is in its files: `verify` with it raises an exception. -/
theorem C74_untrusted (env : Env) (cd : Codec) (file : Bytes) (args : PEVerifyArgs) (w : World) (i : Nat) (loc : Location) (ctl : Option CTL)
    (hi : args.kwargs.trusted = .heap i) (hs : w.stores i = fileSystemStore loc false ctl) (hc : args.kwargs.context = none)
    (hcs : ∀ c, args.kwargs.csContext = some c → c < w.nextCtx) (hn : args.expectedHashes = none) :
    ∃ e, (peVerify env cd file args w).1 = .error e := by
  cases hv : (peVerify env cd file args w).1 with
  | error e => exact ⟨e, rfl⟩
  | ok res =>
    obtain ⟨h1, h2⟩ := C59_evidence env cd file args w hc hcs hn res hv
    obtain ⟨p, hp⟩ := List.exists_mem_of_ne_nil _ h1
    obtain ⟨sd, si, a, b, -, -, h3, h4⟩ := h2 p hp
    obtain ⟨chain, hch⟩ := List.exists_mem_of_ne_nil _ h3
    obtain ⟨c, t, h5, -⟩ := h4 chain hch
    obtain ⟨j, root, k1, k2, -⟩ := h5.anchored
    rw [hi] at k1
    cases k1
    rw [hs] at k2
    cases k2

/-- A directory with two files. -/
example : (Location.directory [.ok exPemText, .ok exPemText]).load = (List.replicate 4 (exDCert.cert certIdent), none) :=
  C74_loaded (.directory [.ok exPemText, .ok exPemText]) ([exDCert, exDCert] ++ ([exDCert, exDCert] ++ []))
    (.more exPemText_holds (.more exPemText_holds .none))

/-- With a file that is not PEM between them. -/
example : (Location.directory [.ok exPemText, .ok exDCert.encode, .ok exPemText]).load =
    ([exDCert.cert certIdent, exDCert.cert certIdent], some ⟨.valueError, "no BEGIN/END combination found"⟩) :=
  (C74_failure [.ok exPemText] [.ok exPemText] [exDCert, exDCert] (.more exPemText_holds .none) _).2 exDCert.encode (by decide +kernel)

/-- The example of C72, with the trusted certificate in a file. -/
def exPWorld : World := { exDWorld with stores := fun _ => fileSystemStore (.directory [.ok exPemText]) true none }

theorem exPTrusted : TrustedStore exPWorld (.heap 0) ∧ trustedCerts exPWorld (.heap 0) = [exDCert.cert certIdent, exDCert.cert certIdent] := by
  have h := C74_loaded (.directory [.ok exPemText]) [exDCert, exDCert] (.more exPemText_holds .none)
  obtain ⟨h1, h2⟩ := C74_trusted exPWorld 0 (.directory [.ok exPemText]) none rfl (by rw [h]) (fun l h => by cases h) (by rw [h]; decide +kernel)
  exact ⟨h1, h2.trans (by rw [h]; rfl)⟩

theorem exPCall (mode : String) : PlainCall exPWorld (exDArgs mode) where
  context := rfl
  csContext := rfl
  readable := fun i certs e hi he => exPTrusted.1.readable i certs e hi he
  names := fun k v h => (by cases h)

/-- The image of that example, with its signature attached, verifies with the trusted certificates in this directory. -/
example : ∃ res, (peVerify exDEnv derCodec
    (attach exDImage 88 216 [1, 2, 3, 4] (certTable [signatureEntry (contentInfo exDOuter.encode ++ [0, 0, 0])])) (exDArgs "first") exPWorld).1 = .ok res := by
  have hi := C68_signed_file exDImage 88 136 216 (by decide +kernel) (by decide +kernel)
    (by rintro a s ⟨_, _, h, h', _⟩; exact h' (h.trans (by decide +kernel)))
    [1, 2, 3, 4] rfl [(exDOuter, exDOuterSays, [0, 0, 0])] (by simp) (by
      intro x hx
      simp only [List.mem_cons, List.not_mem_nil, or_false] at hx
      subst hx
      exact ⟨exDOuter_says, exDOuter_valid⟩) (by decide +kernel) true true [exDOuterSays, exDInnerSays] (by
      have := preOrder_preorderAll [exDOuterSays]
      exact this)
  simp only [List.map_cons, List.map_nil] at hi
  have hc : Considered derCodec (attach exDImage 88 216 [1, 2, 3, 4] (certTable [signatureEntry (contentInfo exDOuter.encode ++ [0, 0, 0])]))
      (exDArgs "first").ignoreParseErrors [exDOuterSays, exDInnerSays] := by
    have : (exDArgs "first").ignoreParseErrors = true := by decide
    rw [this, considered_iff, hi]
    rfl
  have hld := C74_loaded (.directory [.ok exPemText]) [exDCert, exDCert] (.more exPemText_holds .none)
  refine (C74_verdict exDEnv _ (exDArgs "first") exPWorld [exDOuterSays, exDInnerSays] exDEnv_behaves (exPCall _) 0
    (.directory [.ok exPemText]) none rfl rfl (by rw [hld]) (fun l h => by cases h) (by rw [hld]; decide +kernel) (by decide)
    hc (by simp) (by
      intro b hb
      simp only [List.mem_cons, List.not_mem_nil, or_false] at hb
      rcases hb with rfl | rfl
      · exact exDOuter_names
      · exact exDInner_names)).1.2 (.inr (.inr (.inl ⟨rfl, _, rfl, ?_⟩)))
  have hT : certTable [signatureEntry (contentInfo exDOuter.encode ++ [0, 0, 0])] ≠ [] := by decide +kernel
  obtain ⟨i1, -⟩ := attach_sameImage (f := exDImage) (oho := 88) (ohs := 136) (dir := 216) (by decide +kernel) (by decide +kernel)
    (by rintro a s ⟨_, _, h, h', _⟩; exact h' (h.trans (by decide +kernel))) [1, 2, 3, 4] _ rfl hT (by decide +kernel)
  refine holds_sameImage i1 ⟨[1, 2, 3], exDImage_digest, (C61_signature exDEnv (some exDImage) exDOuterSays.d _ exPWorld exDEnv_behaves
      (ordinaryCall_of exDOuter_from rfl rfl exPTrusted.1 exDOuter_names)).1 (toOption_isSome ?_)⟩
  show (asdVerify exDEnv (some exDImage) exDOuterSays.d { trusted := .heap 0, expectedHash := some [1, 2, 3] } exPWorld).1.toOption.isSome = true
  decide +kernel

/-- The same directory, not marked as trusted. -/
example (file : Bytes) (mode : String) : ∃ e, (peVerify exDEnv derCodec file (exDArgs mode)
    { exDWorld with stores := fun _ => fileSystemStore (.directory [.ok exPemText]) false none }).1 = .error e :=
  C74_untrusted exDEnv derCodec file (exDArgs mode) _ 0 (.directory [.ok exPemText]) none rfl rfl rfl (fun _ h => by cases h) rfl

example := C73_first exPemText exDCert [exDCert] exPemText_holds

end Signify.Props
