/-
`SignedPEFile`: the signatures of a file and their verification (C15-C20, C51, C55).
-/
import Verif.Proofs.PEModes
import Verif.Proofs.SetOrder

set_option autoImplicit false

namespace Signify.Props

open Signify Spec

/-! ### Examples -/

/-- A checksum in place of the hash function. -/
def exSum (b : Bytes) : Bytes := if b.length ≤ 16 then b else [UInt8.ofNat b.length, b.foldl (· + ·) 0]

/-- Validator as before; long inputs are hashed to two bytes. -/
def exPEEnv : Env := { exVEnv (fun _ _ => true) with hash := fun _ b => exSum b }

/-- A decoder for the examples: the entries of the certificate table with payloads of 1s, 2s and 3s are a good signature (SHA-256), a
good one (SHA-1), and one of another file (SHA-256).  The good ones are for `exTwice x y [7, 7, 7]`. -/
def exPECodec : Codec where
  attrs := fun b => .ok [⟨"content_type", [.oid "microsoft_spc_indirect_data_content"]⟩, ⟨"message_digest", [.octets b]⟩]
  spc := fun _ b =>
    if b = [1] then .ok ⟨"microsoft_spc_pe_image_data", some ([], some (.text "obsolete")), ⟨"sha256", false⟩, [215, 203]⟩
    else if b = [2] then .ok ⟨"microsoft_spc_pe_image_data", some ([], some (.text "obsolete")), ⟨"sha1", false⟩, [215, 203]⟩
    else .ok ⟨"microsoft_spc_pe_image_data", some ([], some (.text "obsolete")), ⟨"sha256", false⟩, [0, 0]⟩
  tst := fun _ _ => .error ⟨.foreign, "cannot decode"⟩
  envelope := fun b =>
    if b.length = 8 then
      .ok ("signed_data", .mk ⟨[⟨if b.head? = some 2 then "sha1" else "sha256", false⟩], "microsoft_spc_indirect_data_content",
          some (b.take 1), [⟨"certificate", exInter⟩, ⟨"certificate", exLeaf⟩], 0, false⟩
        [.mk ⟨"issuer_and_serial_number", exN "Inter", 3, some (b.take 1), ⟨if b.head? = some 2 then "sha1" else "sha256", false⟩, "rsa",
          [0x31, 1] ++ b.take 1⟩ []])
    else .error ⟨.foreign, "cannot decode"⟩

/-- An image with two signatures. -/
def exTwice (x y : UInt8) (rest : Bytes) : Bytes :=
  exPE 16 [224, 0, 0, 0, 32, 0, 0, 0]
    ([16, 0, 0, 0, 0, 2, 2, 0] ++ List.replicate 8 x ++ [16, 0, 0, 0, 0, 2, 2, 0] ++ List.replicate 8 y ++ rest)

def exPEArgs (mode : String) : PEVerifyArgs := { multiVerifyMode := mode, kwargs := { trusted := .heap 0 } }

/-- What identifies a signature of the examples. -/
def exLabel (a : ASD) : String × Bytes := (a.d.core.digestAlg, a.d.core.content)

/-- An outcome, for comparison. -/
def exOutcome (r : Except Exc (List (ASD × List (List Cert)))) : Except ExcClass (List ((String × Bytes) × List (List Nat))) :=
  match r with
  | .ok l => .ok (l.map (fun p => (exLabel p.1, p.2.map (fun c => c.map Cert.obj))))
  | .error e => .error e.cls

theorem exOutcome_ok {r : Except Exc (List (ASD × List (List Cert)))} {x : List ((String × Bytes) × List (List Nat))}
    (h : exOutcome r = .ok x) : ∃ l, r = .ok l := by
  cases r with
  | ok l => exact ⟨l, rfl⟩
  | error e => cases h

theorem exOutcome_error {r : Except Exc (List (ASD × List (List Cert)))} {x : ExcClass}
    (h : exOutcome r = .error x) : ∃ e, r = .error e ∧ e.cls = x := by
  cases r with
  | ok l => cases h
  | error e => exact ⟨e, rfl, by injection h⟩

/-- Both signatures good. -/
theorem exTwice_all : exOutcome (peVerify exPEEnv exPECodec (exTwice 1 2 [7, 7, 7]) (exPEArgs "all") exWorld).1 =
    .ok [(("sha256", [1]), [[1, 2, 3]]), (("sha1", [2]), [[1, 2, 3]])] := by decide +kernel

/-- The first signature bad: mode 'all' fails, mode 'any' succeeds with the second one, mode 'best' fails. -/
theorem exTwice_bad_all : exOutcome (peVerify exPEEnv exPECodec (exTwice 3 2 [7, 7, 7]) (exPEArgs "all") exWorld).1 =
    .error .authenticodeInvalidDigest := by decide +kernel
theorem exTwice_bad_any : exOutcome (peVerify exPEEnv exPECodec (exTwice 3 2 [7, 7, 7]) (exPEArgs "any") exWorld).1 =
    .ok [(("sha1", [2]), [[1, 2, 3]])] := by decide +kernel
theorem exTwice_bad_best : exOutcome (peVerify exPEEnv exPECodec (exTwice 3 2 [7, 7, 7]) (exPEArgs "best") exWorld).1 =
    .error .authenticodeInvalidDigest := by decide +kernel

theorem exPEArgs_contexts (mode : String) (w : World) : ContextsExist w (exPEArgs mode).kwargs :=
  ⟨fun _ h => (by cases h), fun _ h => (by cases h)⟩

theorem exPair_considered (cd : Codec) (file : Bytes) (x y : String × Bytes)
    (hx : (iterSignedDatas cd file true true).1.map exLabel = [x, y]) (he : (iterSignedDatas cd file true true).2 = none) :
    ∃ a b, Considered cd file true [a, b] := by
  generalize hi : iterSignedDatas cd file true true = r at hx he
  obtain ⟨l, e⟩ := r
  change l.map exLabel = [x, y] at hx
  change e = none at he
  subst he
  match l, hx with
  | [a, b], _ => exact ⟨a, b, considered_iff.2 (by rw [hi]; rfl)⟩

/-! ### C15: the signatures of a file -/

/-- The generator yields the signatures before the first error, in order (each followed by those nested in it, depth first, if asked
for), and then raises that error, unless it is a SignedPEParseError to be ignored; it raises nothing if there is no error. -/
theorem C15_iteration (cd : Codec) (file : Bytes) : ∃ tops sds err, TopLevel cd file tops err ∧ PreOrderAll tops sds ∧
    ∀ nested ignore, iterSignedDatas cd file nested ignore = (if nested then sds else tops,
      if ignore = true ∧ ∃ e, err = some e ∧ e.is .signedPEParseError = true then none else err) := by
  obtain ⟨tops, err, h1, h2⟩ := iterSignedDatas_exists cd file
  exact ⟨tops, preorderAll tops, err, h1, preOrder_preorderAll tops, fun nested ignore => iterSignedDatas_eq cd file nested ignore tops err h2⟩

/-- The specification leaves no choice but the text of the error. -/
theorem C15_unique (cd : Codec) (file : Bytes) (tops tops' : List ASD) (err err' : Option Exc) (h : TopLevel cd file tops err)
    (h' : TopLevel cd file tops' err') : tops = tops' ∧ err.map Exc.cls = err'.map Exc.cls := by
  obtain ⟨e1, h1, h2⟩ := iterSignedDatas_of h
  obtain ⟨e2, h3, h4⟩ := iterSignedDatas_of h'
  have := (h2 false).symm.trans (h4 false)
  rw [recursiveNested_flatMap, recursiveNested_flatMap] at this
  simp only [Bool.false_eq_true, if_false, Prod.mk.injEq] at this
  obtain ⟨k1, k2⟩ := this
  exact ⟨k1, by rw [← h1, ← h3, k2]⟩

/-- The order of nested signatures is determined as well. -/
theorem C15_preorder_unique (as l l' : List ASD) (h : PreOrderAll as l) (h' : PreOrderAll as l') : l = l' := by
  rw [preOrderAll_eq h, preOrderAll_eq h']

/-- With `ignore_parse_errors` no SignedPEParseError escapes. -/
theorem C15_ignored (cd : Codec) (file : Bytes) (nested : Bool) (e : Exc) (h : (iterSignedDatas cd file nested true).2 = some e) :
    e.is .signedPEParseError = false := by
  obtain ⟨tops, sds, err, -, -, h3⟩ := C15_iteration cd file
  rw [h3] at h
  simp only [true_and] at h
  split at h
  · cases h
  · rename_i hn
    rw [Bool.eq_false_iff]
    exact fun hc => hn ⟨e, h, hc⟩

/-- A table that breaks off after two signatures: both are yielded, the error is raised or ignored. -/
def exBrokenOff : Bytes :=
  exPE 16 [224, 0, 0, 0, 40, 0, 0, 0]
    ([16, 0, 0, 0, 0, 2, 2, 0] ++ List.replicate 8 1 ++ [16, 0, 0, 0, 0, 2, 2, 0] ++ List.replicate 8 2 ++ [99, 0, 0, 0, 0, 2, 2, 0])

example : (iterSignedDatas exPECodec exBrokenOff true true).1.map exLabel = [("sha256", [1]), ("sha1", [2])] ∧
    (iterSignedDatas exPECodec exBrokenOff true true).2 = none ∧
    (iterSignedDatas exPECodec exBrokenOff true false).1.map exLabel = [("sha256", [1]), ("sha1", [2])] ∧
    (iterSignedDatas exPECodec exBrokenOff true false).2.map Exc.cls = some .signedPEParseError := by decide +kernel

/-- The order of nested signatures, for an example two levels deep. -/
example (d1 d2 d3 d4 : AuthData) : PreOrderAll [.mk d1 [.mk d2 [.mk d3 []]], .mk d4 []]
    [.mk d1 [.mk d2 [.mk d3 []]], .mk d2 [.mk d3 []], .mk d3 [], .mk d4 []] := by
  have := preOrder_preorderAll [.mk d1 [.mk d2 [.mk d3 []]], .mk d4 []]
  simpa [preorderAll, ASD.preorder] using this

/-! ### C16: the modes -/

/-- `verify` on a file with signatures: those selected by the mode are verified one after the other, each against the digest for its
algorithm, until the outcome is settled; the result is as `Overall` says. -/
theorem C16_outcome (env : Env) (cd : Codec) (file : Bytes) (args : PEVerifyArgs) (w : World) (sds : List ASD)
    (h : Considered cd file args.ignoreParseErrors sds) (hne : sds ≠ []) (hp : HashNames (providedBy w args)) :
    ∃ sel tried rest w0, Selected args.multiVerifyMode sds sel ∧ sel = tried.map Prod.fst ++ rest ∧ ExceptDicts w w0 ∧
      Attempts env file (providedBy w args) args.kwargs w0 tried (peVerify env cd file args w).2 ∧
      Overall args.multiVerifyMode tried rest (peVerify env cd file args w).1 := by
  obtain ⟨oho, ohs, dir, hh⟩ := header_of_considered h hne
  obtain ⟨d, tried, rest, w', -, h2, h3, h4, h5⟩ := peVerify_signed env cd file args w h hne hp hh
  refine ⟨_, tried, rest, withHashes w args.expectedHashes d, (selected_iff hne (fun x hx => considered_alg h hx)).2 rfl, h2,
    withHashes_except w _ d, ?_, h4⟩
  rw [h5]; exact h3

/-- The selection is determined by the mode. -/
theorem C16_selection_unique (cd : Codec) (file : Bytes) (ignore : Bool) (mode : String) (sds sel sel' : List ASD)
    (hc : Considered cd file ignore sds) (hne : sds ≠ []) (h : Selected mode sds sel) (h' : Selected mode sds sel') : sel = sel' := by
  rw [selected_iff hne (fun x hx => considered_alg hc hx)] at h h'
  rw [h, h']

section
variable (env : Env) (cd : Codec) (file : Bytes) (args : PEVerifyArgs) (w : World) (sds : List ASD)

/-- Mode 'all', each signature being verified independently of the others: `verify` returns iff all signatures verify, with all the
chains in order; else it raises the error of the first that does not. -/
theorem C16_all (hm : args.multiVerifyMode = "all")
    (h : Considered cd file args.ignoreParseErrors sds) (hne : sds ≠ []) (hp : HashNames (providedBy w args))
    (hf : HistoryFree env file (providedBy w args) args.kwargs w) :
    (∀ res, (peVerify env cd file args w).1 = .ok res ↔
      res.map Prod.fst = sds ∧ ∀ p ∈ res, Alone env file (providedBy w args) args.kwargs w p.1 (.ok p.2)) ∧
    ∀ e, (peVerify env cd file args w).1 = .error e ↔ ∃ pre a post, sds = pre ++ a :: post ∧
      (∀ b ∈ pre, ∃ c, Alone env file (providedBy w args) args.kwargs w b (.ok c)) ∧
      Alone env file (providedBy w args) args.kwargs w a (.error e) := by
  obtain ⟨sel, tried, rest, w0, h1, h2, h3, h4, h5⟩ := C16_outcome env cd file args w sds h hne hp
  have hs : Strict args.multiVerifyMode := .inl hm
  have : sel = sds := by
    cases h1 with
    | first a l hm' => rw [hm] at hm'; exact absurd hm' (by decide)
    | best _ hm' => rw [hm] at hm'; exact absurd hm' (by decide)
    | all => rfl
  subst this
  exact ⟨overall_strict_ok h5 hs h2 (attempts_alone hf h3 h4) (fun _ _ _ => alone_unique),
    overall_strict_error h5 hs h2 (attempts_alone hf h3 h4) (fun _ _ _ => alone_unique)⟩

/-- Mode 'first': the outcome is that of the first signature. -/
theorem C16_first (hm : args.multiVerifyMode = "first") (a : ASD) (l : List ASD)
    (h : Considered cd file args.ignoreParseErrors (a :: l)) (hp : HashNames (providedBy w args))
    (hf : HistoryFree env file (providedBy w args) args.kwargs w) :
    (∀ res, (peVerify env cd file args w).1 = .ok res ↔
      ∃ c, Alone env file (providedBy w args) args.kwargs w a (.ok c) ∧ res = [(a, c)]) ∧
    ∀ e, (peVerify env cd file args w).1 = .error e ↔ Alone env file (providedBy w args) args.kwargs w a (.error e) := by
  obtain ⟨sel, tried, rest, w0, h1, h2, h3, h4, h5⟩ := C16_outcome env cd file args w (a :: l) h (by simp) hp
  have hs : Strict args.multiVerifyMode := .inr hm
  have : sel = [a] := by
    cases h1 with
    | first b m _ he => cases he; rfl
    | best _ hm' => rw [hm] at hm'; exact absurd hm' (by decide)
    | all hm' => exact absurd hm hm'
  subst this
  constructor
  · intro res
    rw [overall_strict_ok h5 hs h2 (attempts_alone hf h3 h4) (fun _ _ _ => alone_unique)]
    constructor
    · rintro ⟨e1, e2⟩
      match res, e1 with
      | [(b, c)], e1 => cases e1; exact ⟨c, e2 _ (by simp), rfl⟩
    · rintro ⟨c, e1, rfl⟩
      exact ⟨rfl, fun p hp => by cases List.mem_singleton.1 hp; exact e1⟩
  · intro e
    rw [overall_strict_error h5 hs h2 (attempts_alone hf h3 h4) (fun _ _ _ => alone_unique)]
    constructor
    · rintro ⟨pre, b, post, e1, e2, e3⟩
      cases pre with
      | nil => cases e1; exact e3
      | cons x pre => simp at e1
    · exact fun h => ⟨[], a, [], rfl, fun _ hb => (by cases hb), h⟩

/-- Mode 'any': `verify` returns iff some signature verifies, with the chains of the first that does; else it raises the error of the
last signature. -/
theorem C16_any (hm : args.multiVerifyMode = "any")
    (h : Considered cd file args.ignoreParseErrors sds) (hne : sds ≠ []) (hp : HashNames (providedBy w args))
    (hf : HistoryFree env file (providedBy w args) args.kwargs w) :
    (∀ res, (peVerify env cd file args w).1 = .ok res ↔ ∃ pre a post c, sds = pre ++ a :: post ∧
      (∀ b ∈ pre, ∃ e, Alone env file (providedBy w args) args.kwargs w b (.error e)) ∧
      Alone env file (providedBy w args) args.kwargs w a (.ok c) ∧ res = [(a, c)]) ∧
    ∀ e, (peVerify env cd file args w).1 = .error e ↔ ∃ pre a, sds = pre ++ [a] ∧
      (∀ b ∈ pre, ∃ e', Alone env file (providedBy w args) args.kwargs w b (.error e')) ∧
      Alone env file (providedBy w args) args.kwargs w a (.error e) := by
  obtain ⟨sel, tried, rest, w0, h1, h2, h3, h4, h5⟩ := C16_outcome env cd file args w sds h hne hp
  have hs : ¬ Strict args.multiVerifyMode := by rw [hm]; unfold Strict; decide
  have : sel = sds := by
    cases h1 with
    | first a l hm' => rw [hm] at hm'; exact absurd hm' (by decide)
    | best _ hm' => rw [hm] at hm'; exact absurd hm' (by decide)
    | all => rfl
  subst this
  exact ⟨overall_lax_ok h5 hs h2 (attempts_alone hf h3 h4) (fun _ _ _ => alone_unique),
    overall_lax_error h5 hs h2 (attempts_alone hf h3 h4) (fun _ _ _ => alone_unique)⟩

/-- Mode 'best': likewise, with the signatures of the strongest algorithm (`sel`) only. -/
theorem C16_best (hm : args.multiVerifyMode = "best")
    (h : Considered cd file args.ignoreParseErrors sds) (hne : sds ≠ []) (hp : HashNames (providedBy w args))
    (hf : HistoryFree env file (providedBy w args) args.kwargs w) :
    ∃ sel, sel.Sublist sds ∧ sel ≠ [] ∧ (∀ a ∈ sds, a ∈ sel ↔ Strongest sds a) ∧
    (∀ res, (peVerify env cd file args w).1 = .ok res ↔ ∃ pre a post c, sel = pre ++ a :: post ∧
      (∀ b ∈ pre, ∃ e, Alone env file (providedBy w args) args.kwargs w b (.error e)) ∧
      Alone env file (providedBy w args) args.kwargs w a (.ok c) ∧ res = [(a, c)]) ∧
    ∀ e, (peVerify env cd file args w).1 = .error e ↔ ∃ pre a, sel = pre ++ [a] ∧
      (∀ b ∈ pre, ∃ e', Alone env file (providedBy w args) args.kwargs w b (.error e')) ∧
      Alone env file (providedBy w args) args.kwargs w a (.error e) := by
  have halg := fun x hx => considered_alg h (x := x) hx
  obtain ⟨sel, tried, rest, w0, h1, h2, h3, h4, h5⟩ := C16_outcome env cd file args w sds h hne hp
  have hs : ¬ Strict args.multiVerifyMode := by rw [hm]; unfold Strict; decide
  have he := (selected_iff hne halg).1 h1
  have hne' := selected_ne_nil (mode := args.multiVerifyMode) hne halg
  rw [← he] at hne'
  rw [hm, best_eq halg] at he
  refine ⟨sel, ?_, hne', ?_, overall_lax_ok h5 hs h2 (attempts_alone hf h3 h4) (fun _ _ _ => alone_unique),
    overall_lax_error h5 hs h2 (attempts_alone hf h3 h4) (fun _ _ _ => alone_unique)⟩
  · rw [he]; exact List.filter_sublist
  · intro a ha
    rw [he, List.mem_filter]
    simp [ha]

end

/-- Verification is independent of history if no contexts are passed and the trusted store can be read. -/
theorem C16_historyFree (env : Env) (file : Bytes) (provided : Dict String Bytes) (kwargs : VerifyArgs) (w : World)
    (h1 : kwargs.context = none) (h2 : kwargs.csContext = none)
    (hr : ∀ i certs e, kwargs.trusted = .heap i → (w.stores i).pending = some (certs, e) → e = none) :
    HistoryFree env file provided kwargs w := historyFree_of h1 h2 hr

theorem exPEArgs_historyFree (file : Bytes) (mode : String) :
    HistoryFree exPEEnv file (providedBy exWorld (exPEArgs mode)) (exPEArgs mode).kwargs exWorld := by
  refine historyFree_of rfl rfl (fun i certs e hi he => ?_)
  cases hi
  cases he

theorem exPEArgs_names (mode : String) : HashNames (providedBy exWorld (exPEArgs mode)) := fun _ _ h => (by cases h)

/-- The hypotheses are met by the examples above, e.g. mode 'any' on the file whose first signature is bad. -/
example : ∃ a b c e, Considered exPECodec (exTwice 3 2 [7, 7, 7]) true [a, b] ∧
    Alone exPEEnv (exTwice 3 2 [7, 7, 7]) [] (exPEArgs "any").kwargs exWorld a (.error e) ∧
    Alone exPEEnv (exTwice 3 2 [7, 7, 7]) [] (exPEArgs "any").kwargs exWorld b (.ok c) := by
  obtain ⟨a, b, hc⟩ := exPair_considered exPECodec (exTwice 3 2 [7, 7, 7]) ("sha256", [3]) ("sha1", [2]) (by decide +kernel) (by decide +kernel)
  obtain ⟨l, hl⟩ := exOutcome_ok exTwice_bad_any
  obtain ⟨pre, x, post, c, h1, h2, h3, -⟩ := ((C16_any exPEEnv exPECodec _ (exPEArgs "any") exWorld [a, b] rfl hc (by simp)
    (exPEArgs_names _) (exPEArgs_historyFree _ _)).1 l).1 hl
  have hx : exOutcome (peVerify exPEEnv exPECodec (exTwice 3 2 [7, 7, 7]) (exPEArgs "first") exWorld).1 =
    .error .authenticodeInvalidDigest := by decide +kernel
  obtain ⟨e, he, -⟩ := exOutcome_error hx
  have ha := ((C16_first exPEEnv exPECodec _ (exPEArgs "first") exWorld rfl a [b] hc (exPEArgs_names _)
    (exPEArgs_historyFree _ _)).2 e).1 he
  cases pre with
  | nil => cases h1; cases alone_unique h3 ha
  | cons z pre =>
    cases pre with
    | nil => cases h1; exact ⟨a, b, c, e, hc, ha, h3⟩
    | cons z' pre => simp at h1

/-! ### C17: stricter modes imply laxer ones -/

/-- Success in mode 'all' implies success in modes 'first', 'best' and 'any'; success in mode 'first' or 'best' implies success in
mode 'any', provided that each signature is verified independently of the others. -/
theorem C17_monotone (env : Env) (cd : Codec) (file : Bytes) (args : PEVerifyArgs) (w : World)
    (hf : HistoryFree env file (providedBy w args) args.kwargs w) (m m' : String)
    (hm : (m = "all" ∧ m' ∈ ["first", "best", "any"]) ∨ (m ∈ ["first", "best"] ∧ m' = "any"))
    (res : List (ASD × List (List Cert))) (h : (peVerify env cd file (args.inMode m) w).1 = .ok res) :
    ∃ res', (peVerify env cd file (args.inMode m') w).1 = .ok res' := by
  obtain ⟨sds, hc, hne, hp⟩ := peVerify_ok h
  -- success in a mode, in terms of the signatures alone
  have hA : ∀ mode, mode = "any" ∨ mode = "best" → ∀ sel, Selected mode sds sel →
      (∃ a ∈ sel, ∃ c, Alone env file (providedBy w args) args.kwargs w a (.ok c)) →
      ∃ res', (peVerify env cd file (args.inMode mode) w).1 = .ok res' := by
    rintro mode hmode sel hsel ⟨a, ha, c, hac⟩
    obtain ⟨sel', tried, rest, w0, h1, h2, h3, h4, h5⟩ := C16_outcome env cd file (args.inMode mode) w sds hc hne hp
    have : sel = sel' := C16_selection_unique cd file _ mode sds sel sel' hc hne hsel h1
    subst this
    have hal := attempts_alone hf h3 h4
    have hs : ¬ Strict (args.inMode mode).multiVerifyMode := by
      show ¬ Strict mode
      rcases hmode with rfl | rfl <;> unfold Strict <;> decide
    cases hr : (peVerify env cd file (args.inMode mode) w).1 with
    | ok res' => exact ⟨res', rfl⟩
    | error e =>
      exfalso
      obtain ⟨pre, b, e1, e2, e3⟩ := (overall_lax_error h5 hs h2 hal (fun _ _ _ => alone_unique) e).1 hr
      rw [e1] at ha
      rcases List.mem_append.1 ha with ha | ha
      · obtain ⟨e', he'⟩ := e2 a ha
        cases alone_unique hac he'
      · cases List.mem_singleton.1 ha
        cases alone_unique hac e3
  have hsub : ∀ mode sel, Selected mode sds sel → ∀ a ∈ sel, a ∈ sds := by
    intro mode sel hsel a ha
    rw [selected_iff hne (fun x hx => considered_alg hc hx)] at hsel
    subst hsel
    exact selected_subset a ha
  have hany : ∀ sel mode, Selected mode sds sel → (∃ a ∈ sel, ∃ c, Alone env file (providedBy w args) args.kwargs w a (.ok c)) →
      ∃ res', (peVerify env cd file (args.inMode "any") w).1 = .ok res' := by
    rintro sel mode hsel ⟨a, ha, hac⟩
    exact hA "any" (.inl rfl) sds (.all (by decide) (by decide)) ⟨a, hsub mode sel hsel a ha, hac⟩
  -- what success in mode `m` says
  obtain ⟨sel, tried, rest, w0, h1, h2, h3, h4, h5⟩ := C16_outcome env cd file (args.inMode m) w sds hc hne hp
  have hal := attempts_alone hf h3 h4
  rcases hm with ⟨rfl, hm'⟩ | ⟨hm, rfl⟩
  · have hsel : sel = sds := C16_selection_unique cd file _ "all" sds sel sds hc hne h1 (.all (by decide) (by decide))
    subst hsel
    obtain ⟨e1, e2⟩ := (overall_strict_ok h5 (.inl rfl) h2 hal (fun _ _ _ => alone_unique) res).1 h
    have hgood : ∀ a ∈ sel, ∃ c, Alone env file (providedBy w args) args.kwargs w a (.ok c) := by
      intro a ha
      rw [← e1] at ha
      obtain ⟨p, hp, rfl⟩ := List.mem_map.1 ha
      exact ⟨p.2, e2 p hp⟩
    simp only [List.mem_cons, List.not_mem_nil, or_false] at hm'
    rcases hm' with rfl | rfl | rfl
    · cases hsd : sel with
      | nil => exact absurd hsd hne
      | cons a l =>
        subst hsd
        obtain ⟨c, hac⟩ := hgood a (by simp)
        exact ⟨[(a, c)], ((C16_first env cd file (args.inMode "first") w rfl a l hc hp hf).1 _).2 ⟨c, hac, rfl⟩⟩
    · have hb := (selected_iff (mode := "best") hne (fun x hx => considered_alg hc hx)).2 rfl
      have hbn := selected_ne_nil (mode := "best") hne (fun x hx => considered_alg hc hx)
      cases hsb : selectSignatures "best" sel with
      | nil => exact absurd hsb hbn
      | cons a l =>
        rw [hsb] at hb
        exact hA "best" (.inr rfl) _ hb ⟨a, by simp, hgood a (hsub _ _ hb a (by simp))⟩
    · cases hsd : sel with
      | nil => exact absurd hsd hne
      | cons a l => exact hA "any" (.inl rfl) sel (.all (by decide) (by decide)) ⟨a, by rw [hsd]; simp, hgood a (by rw [hsd]; simp)⟩
  · simp only [List.mem_cons, List.not_mem_nil, or_false] at hm
    rcases hm with rfl | rfl
    · obtain ⟨e1, e2⟩ := (overall_strict_ok h5 (.inr rfl) h2 hal (fun _ _ _ => alone_unique) res).1 h
      have hbn := selected_ne_nil (mode := "first") hne (fun x hx => considered_alg hc hx)
      have hsel := (selected_iff hne (fun x hx => considered_alg hc hx)).1 h1
      change sel = selectSignatures "first" sds at hsel
      rw [← hsel, ← e1] at hbn
      cases res with
      | nil => exact absurd rfl hbn
      | cons p res => exact hany sel "first" h1 ⟨p.1, by rw [← e1]; simp, p.2, e2 p (by simp)⟩
    · obtain ⟨pre, a, post, c, e1, -, e3, -⟩ :=
        (overall_lax_ok h5 (by show ¬ Strict "best"; unfold Strict; decide) h2 hal (fun _ _ _ => alone_unique) res).1 h
      exact hany sel "best" h1 ⟨a, by rw [e1]; simp, c, e3⟩

/-- The hypotheses are met: mode 'all' succeeds on the first example. -/
example : ∃ res', (peVerify exPEEnv exPECodec (exTwice 1 2 [7, 7, 7]) (exPEArgs "best") exWorld).1 = .ok res' := by
  obtain ⟨l, hl⟩ := exOutcome_ok exTwice_all
  exact C17_monotone exPEEnv exPECodec _ (exPEArgs "any") exWorld (exPEArgs_historyFree _ "any") "all" "best" (.inl ⟨rfl, by simp⟩) l hl

/-! ### C18: unknown modes -/

/-- False as stated: a mode that is not known is not rejected, and a typo of 'all' accepts a file that 'all' rejects. -/
theorem C18_unknown_mode_false : ¬ ∀ (env : Env) (cd : Codec) (file : Bytes) (args : PEVerifyArgs) (w : World),
    args.multiVerifyMode ∉ ["any", "first", "all", "best"] → ∃ e, (peVerify env cd file args w).1 = .error e := by
  intro h
  obtain ⟨e, he⟩ := h exPEEnv exPECodec (exTwice 3 2 [7, 7, 7]) (exPEArgs "All") exWorld (by decide)
  have hx : exOutcome (peVerify exPEEnv exPECodec (exTwice 3 2 [7, 7, 7]) (exPEArgs "All") exWorld).1 =
    .ok [(("sha1", [2]), [[1, 2, 3]])] := by decide +kernel
  obtain ⟨l, hl⟩ := exOutcome_ok hx
  rw [hl] at he
  cases he

theorem verifyLoop_any (check : ASD → M (List (List Cert))) {m : String} (h : ¬ Strict m) (l : List ASD)
    (chains : List (ASD × List (List Cert))) (last : Option Exc) : verifyLoop check m l chains last = verifyLoop check "any" l chains last := by
  have h' : ¬ (m = "all" ∨ m = "first") := h
  induction l generalizing chains last with
  | nil => cases last <;> rfl
  | cons a l ih =>
    rw [verifyLoop, verifyLoop]
    congr 1
    funext r
    cases r with
    | error e => simp only [if_neg h', if_neg (show ¬ ("any" = "all" ∨ "any" = "first") by decide), ih]
    | ok c => simp only [if_neg h', if_neg (show ¬ ("any" = "all" ∨ "any" = "first") by decide)]

/-- What holds: a mode that is not known behaves as 'any' in every respect, so that a file is never accepted that would not be
accepted in one of the documented modes.  Missing: the rejection, which is false (above). -/
theorem C18_unknown_mode_partial (env : Env) (cd : Codec) (file : Bytes) (args : PEVerifyArgs) (m : String)
    (hm : m ∉ ["first", "all", "best"]) : peVerify env cd file (args.inMode m) = peVerify env cd file (args.inMode "any") := by
  simp only [List.mem_cons, List.not_mem_nil, or_false, not_or] at hm
  obtain ⟨h1, h2, h3⟩ := hm
  have hsel : ∀ sds, selectSignatures m sds = selectSignatures "any" sds := by
    intro sds
    unfold selectSignatures
    rw [if_neg h1, if_neg h3, if_neg (by decide), if_neg (by decide)]
  unfold peVerify
  show (M.lift _ >>= _) = (M.lift _ >>= _)
  congr 1
  funext sds
  split
  · rfl
  · show (calculateExpectedHashes env file ((selectSignatures m sds).map _) _ >>= fun hashes =>
      verifyLoop (verifyOne env file hashes args.kwargs) m (selectSignatures m sds) [] none) =
      (calculateExpectedHashes env file ((selectSignatures "any" sds).map _) _ >>= fun hashes =>
      verifyLoop (verifyOne env file hashes args.kwargs) "any" (selectSignatures "any" sds) [] none)
    rw [hsel]
    congr 1
    funext hashes
    exact verifyLoop_any _ (fun h => h.elim h2 h1) _ _ _

example : (peVerify exPEEnv exPECodec (exTwice 3 2 [7, 7, 7]) ((exPEArgs "any").inMode "All") exWorld).1 =
    (peVerify exPEEnv exPECodec (exTwice 3 2 [7, 7, 7]) ((exPEArgs "any").inMode "any") exWorld).1 := by
  rw [C18_unknown_mode_partial exPEEnv exPECodec _ _ "All" (by decide)]

/-! ### C19: the digests -/

/-- Each signature tried is verified with the caller's digest for its algorithm if there is one, and otherwise with the authentihash
of the file; and none is missing. -/
theorem C19_digests (env : Env) (cd : Codec) (file : Bytes) (args : PEVerifyArgs) (w : World) (sds : List ASD)
    (h : Considered cd file args.ignoreParseErrors sds) (hne : sds ≠ []) (hp : HashNames (providedBy w args)) :
    (∃ tried rest w0, Attempts env file (providedBy w args) args.kwargs w0 tried (peVerify env cd file args w).2 ∧
      Overall args.multiVerifyMode tried rest (peVerify env cd file args w).1) ∧
    ∀ a ∈ sds, ∃ d, DigestFor env file (providedBy w args) a.d.core.digestAlg d ∧
      ∀ d', DigestFor env file (providedBy w args) a.d.core.digestAlg d' → d' = d := by
  obtain ⟨sel, tried, rest, w0, -, -, -, h4, h5⟩ := C16_outcome env cd file args w sds h hne hp
  refine ⟨⟨tried, rest, w0, h4, h5⟩, fun a ha => ?_⟩
  obtain ⟨oho, ohs, dir, hh⟩ := header_of_considered h hne
  cases hx : (providedBy w args).get? a.d.core.digestAlg with
  | some d => exact ⟨d, .inl hx, fun d' h' => digestFor_unique h' (.inl hx)⟩
  | none =>
    have hd : DigestFor env file (providedBy w args) a.d.core.digestAlg
        (env.hash a.d.core.digestAlg (deleteSections file (omitted file oho ohs dir))) :=
      .inr ⟨hx, fun bs hbs => (C09_authentihash_iff env.hash _ bs hbs file _).2 ⟨oho, ohs, dir, hh, rfl⟩⟩
    exact ⟨_, hd, fun d' h' => digestFor_unique h' hd⟩

/-- A KeyError is not raised for want of a digest: only a validator answering with a certificate unknown to the context can provoke
one (or a library function or a store raising it). -/
theorem C19_no_keyError (env : Env) (cd : Codec) (file : Bytes) (args : PEVerifyArgs) (w : World) (sds : List ASD)
    (h : Considered cd file args.ignoreParseErrors sds) (hne : sds ≠ []) (hp : HashNames (providedBy w args))
    (he : ContextsExist w args.kwargs) (e : Exc) (hr : (peVerify env cd file args w).1 = .error e) (hk : e.cls = .keyError) :
    ∃ a ∈ sds, Leak env w (signerStores w a.d args.kwargs) e := by
  rcases peVerify_raises h hne he hr with hx | ⟨hx, -⟩ | hx
  · rw [hk] at hx; exact absurd hx (by decide)
  · exact absurd hp hx
  · exact hx

theorem attempts_bound {env : Env} {file : Bytes} {provided : Dict String Bytes} {kwargs : VerifyArgs} {w w' : World}
    {l : List (ASD × Except Exc (List (List Cert)))} (h : Attempts env file provided kwargs w l w') (he : ContextsExist w kwargs) :
    ∀ a c, (a, Except.ok c) ∈ l → DigestFor env file provided a.d.core.digestAlg a.d.spc.digest := by
  induction h with
  | nil w => intro a c h; cases h
  | cons a d w w' l hd _ ih =>
    intro b c hm
    have he' := contextsExist_expected he (some d)
    rcases List.mem_cons.1 hm with hm | hm
    · injection hm with h1 h2
      subst h1
      obtain ⟨w1, h3⟩ := exists_ok h2.symm
      obtain ⟨-, h4, -⟩ := C28_binding _ _ _ _ _ _ _ he' h3
      rw [h4 d rfl]
      exact hd
    · exact ih (he.grows (asdVerify_grows env (some file) a.d { kwargs with expectedHash := some d } w he')) b c hm

theorem overall_returned {mode : String} {tried : List (ASD × Except Exc (List (List Cert)))} {rest : List ASD}
    {r : Except Exc (List (ASD × List (List Cert)))} (h : Overall mode tried rest r) {res : List (ASD × List (List Cert))}
    (hr : r = .ok res) : ∀ p ∈ res, (p.1, Except.ok p.2) ∈ tried := by
  cases h with
  | allVerify l _ => cases hr; intro p hp; exact List.mem_map.2 ⟨p, hp, rfl⟩
  | firstFailure l a e rest _ => cases hr
  | firstSuccess l a c rest _ => cases hr; intro p hp; cases List.mem_singleton.1 hp; simp
  | allFail l a e _ => cases hr

/-- The digest of each signature returned is the caller's digest for its algorithm, if there is one, and else the authentihash. -/
theorem C19_returned (env : Env) (cd : Codec) (file : Bytes) (args : PEVerifyArgs) (w : World) (he : ContextsExist w args.kwargs)
    (res : List (ASD × List (List Cert))) (h : (peVerify env cd file args w).1 = .ok res) :
    ∀ p ∈ res, DigestFor env file (providedBy w args) p.1.d.core.digestAlg p.1.d.spc.digest := by
  obtain ⟨sds, hc, hne, hp⟩ := peVerify_ok h
  obtain ⟨sel, tried, rest, w0, -, -, h3, h4, h5⟩ := C16_outcome env cd file args w sds hc hne hp
  have he0 : ContextsExist w0 args.kwargs := ⟨fun c hc => (by rw [h3.2.2]; exact he.context c hc), fun c hc => (by rw [h3.2.2]; exact he.csContext c hc)⟩
  intro p hp
  exact attempts_bound h4 he0 p.1 p.2 (overall_returned h5 h p hp)

/-- The order in which the set of algorithms is iterated does not matter: it may change the order of the entries of the caller's
dictionary, and nothing else. -/
theorem C19_set_order (order : List String → List String) (ho : ∀ l n, n ∈ order l ↔ n ∈ l) (env : Env) (cd : Codec) (file : Bytes)
    (args : PEVerifyArgs) (w : World) :
    (peVerifyInOrder order env cd file args w).1 = (peVerify env cd file args w).1 ∧
      SameLookups (peVerifyInOrder order env cd file args w).2 (peVerify env cd file args w).2 :=
  peVerify_order order ho env cd file args w

/-- Two algorithms, in the other order: the entries of the dictionary are the other way round. -/
example : (∀ l n, n ∈ List.reverse l ↔ n ∈ (l : List String)) ∧
    (peVerifyInOrder List.reverse exPEEnv exPECodec (exTwice 2 1 [7, 7, 7]) { exPEArgs "all" with expectedHashes := some 0 } exWorld).2.dicts 0 =
      [("sha256", [215, 203]), ("sha1", [215, 203])] ∧
    (peVerify exPEEnv exPECodec (exTwice 2 1 [7, 7, 7]) { exPEArgs "all" with expectedHashes := some 0 } exWorld).2.dicts 0 =
      [("sha1", [215, 203]), ("sha256", [215, 203])] :=
  ⟨fun _ _ => List.mem_reverse, by decide +kernel, by decide +kernel⟩

/-- A dictionary with a digest for SHA-1 only. -/
def exDicts (d : Dict String Bytes) : World := { exWorld with dicts := fun _ => d }

/-- The digest for SHA-1 is taken from the dictionary (here: a wrong one), that for SHA-256 computed. -/
example : exOutcome (peVerify exPEEnv exPECodec (exTwice 2 1 [7, 7, 7]) { exPEArgs "any" with expectedHashes := some 0 }
      (exDicts [("sha1", [0])])).1 = .ok [(("sha256", [1]), [[1, 2, 3]])] ∧
    exOutcome (peVerify exPEEnv exPECodec (exTwice 2 1 [7, 7, 7]) { exPEArgs "any" with expectedHashes := some 0 }
      (exDicts [("sha1", [215, 203])])).1 = .ok [(("sha1", [2]), [[1, 2, 3]])] ∧
    HashNames (providedBy (exDicts [("sha1", [0])]) { exPEArgs "any" with expectedHashes := some 0 }) := by
  refine ⟨by decide +kernel, by decide +kernel, ?_⟩
  intro k v h
  cases List.mem_singleton.1 h
  decide

/-! ### C20: the caller's dictionary -/

/-- What happens to the caller's dictionaries: nothing, except that the digests which were missing from the dictionary passed are
added, one for each algorithm of the signatures selected. -/
theorem C20_effect (env : Env) (cd : Codec) (file : Bytes) (args : PEVerifyArgs) (w : World) (sds sel : List ASD)
    (h : Considered cd file args.ignoreParseErrors sds) (hne : sds ≠ []) (hp : HashNames (providedBy w args))
    (he : ContextsExist w args.kwargs) (hsel : Selected args.multiVerifyMode sds sel) :
    (∀ j, args.expectedHashes ≠ some j → (peVerify env cd file args w).2.dicts j = w.dicts j) ∧
    ∀ i, args.expectedHashes = some i → ∀ n,
      (∀ x, (w.dicts i).get? n = some x → ((peVerify env cd file args w).2.dicts i).get? n = some x) ∧
      ((w.dicts i).get? n = none → (∃ a ∈ sel, a.d.core.digestAlg = n) →
        ∃ x, ((peVerify env cd file args w).2.dicts i).get? n = some x ∧ ∀ bs : Int, 1 ≤ bs → Authentihash env.hash n bs file x) ∧
      ((w.dicts i).get? n = none → (¬ ∃ a ∈ sel, a.d.core.digestAlg = n) → ((peVerify env cd file args w).2.dicts i).get? n = none) := by
  obtain ⟨oho, ohs, dir, hh⟩ := header_of_considered h hne
  obtain ⟨d, tried, rest, w', h1, h2, h3, h4, h5⟩ := peVerify_signed env cd file args w h hne hp hh
  have hsel' := (selected_iff hne (fun x hx => considered_alg h hx)).1 hsel
  rw [← hsel'] at h1
  have hd : w'.dicts = (withHashes w args.expectedHashes d).dicts := (attempts_grow h3 (withHashes_exist he _ _)).dicts
  rw [h5, hd]
  constructor
  · intro j hj
    unfold withHashes
    cases hx : args.expectedHashes with
    | none => rfl
    | some i =>
      rw [hx] at hj
      show (if j = i then d else w.dicts j) = _
      rw [if_neg (fun e => hj (by rw [e]))]
  · intro i hi n
    have hw : (withHashes w args.expectedHashes d).dicts i = d := by
      rw [hi]
      show (if i = i then d else w.dicts i) = d
      rw [if_pos rfl]
    have hpr : providedBy w args = w.dicts i := by unfold providedBy; rw [hi]
    rw [hw]
    have hn := h1 n
    rw [hpr] at hn
    refine ⟨fun x hx => ?_, fun hx ⟨a, ha, hn'⟩ => ?_, fun hx hno => ?_⟩
    · rw [hn, hx]; rfl
    · refine ⟨_, ?_, fun bs hbs => (C09_authentihash_iff env.hash n bs hbs file _).2 ⟨oho, ohs, dir, hh, rfl⟩⟩
      rw [hn, hx, if_pos (List.mem_map.2 ⟨a, ha, hn'⟩)]
      rfl
    · rw [hn, hx, if_neg (fun hm => hno ?_)]
      · rfl
      · obtain ⟨a, ha, hn'⟩ := List.mem_map.1 hm
        exact ⟨a, ha, hn'⟩

/-- False as stated: the digests of one file are added to the caller's dictionary and then taken for those of another file: a file
that does not verify with the (empty) dictionary does so once another file has been verified with it. -/
theorem C20_shared_dictionary_false : ¬ ∀ (env : Env) (cd : Codec) (file file' : Bytes) (args : PEVerifyArgs) (w : World) (e : Exc),
    (peVerify env cd file' args w).1 = .error e →
    ∃ e', (peVerify env cd file' args (peVerify env cd file args w).2).1 = .error e' := by
  intro hall
  have h1 : exOutcome (peVerify exPEEnv exPECodec (exTwice 1 2 [8, 8, 8]) { exPEArgs "all" with expectedHashes := some 0 } (exDicts [])).1 =
    .error .authenticodeInvalidDigest := by decide +kernel
  have h2 : exOutcome (peVerify exPEEnv exPECodec (exTwice 1 2 [8, 8, 8]) { exPEArgs "all" with expectedHashes := some 0 }
    (peVerify exPEEnv exPECodec (exTwice 1 2 [7, 7, 7]) { exPEArgs "all" with expectedHashes := some 0 } (exDicts [])).2).1 =
    .ok [(("sha256", [1]), [[1, 2, 3]]), (("sha1", [2]), [[1, 2, 3]])] := by decide +kernel
  obtain ⟨e, he, -⟩ := exOutcome_error h1
  obtain ⟨l, hl⟩ := exOutcome_ok h2
  obtain ⟨e', he'⟩ := hall _ _ (exTwice 1 2 [7, 7, 7]) _ _ _ _ he
  rw [hl] at he'
  cases he'

/-- The dictionary itself changes. -/
theorem C20_unchanged_false : ¬ ∀ (env : Env) (cd : Codec) (file : Bytes) (args : PEVerifyArgs) (w : World) (i : Nat),
    (peVerify env cd file args w).2.dicts i = w.dicts i := by
  intro hall
  have h := hall exPEEnv exPECodec (exTwice 1 2 [7, 7, 7]) { exPEArgs "all" with expectedHashes := some 0 } (exDicts []) 0
  revert h
  decide +kernel

/-- What holds: the dictionary has the same entries as before if it had a digest for each of the signatures considered, and no
dictionary changes if none is passed.  Missing: other dictionaries, for which the property is false (above). -/
theorem C20_unchanged_partial (env : Env) (cd : Codec) (file : Bytes) (args : PEVerifyArgs) (w : World) (sds : List ASD)
    (h : Considered cd file args.ignoreParseErrors sds) (hne : sds ≠ []) (hp : HashNames (providedBy w args))
    (he : ContextsExist w args.kwargs)
    (hc : ∀ i, args.expectedHashes = some i → ∀ a ∈ sds, ∃ d, (w.dicts i).get? a.d.core.digestAlg = some d) (j : Nat) (n : String) :
    ((peVerify env cd file args w).2.dicts j).get? n = (w.dicts j).get? n := by
  have hsel := (selected_iff (mode := args.multiVerifyMode) hne (fun x hx => considered_alg h hx)).2 rfl
  obtain ⟨h1, h2⟩ := C20_effect env cd file args w sds _ h hne hp he hsel
  by_cases hj : args.expectedHashes = some j
  · obtain ⟨k1, k2, k3⟩ := h2 j hj n
    cases hx : (w.dicts j).get? n with
    | some x => exact k1 x hx
    | none =>
      refine k3 hx ?_
      rintro ⟨a, ha, rfl⟩
      obtain ⟨d, hd⟩ := hc j hj a (selected_subset a ha)
      rw [hx] at hd
      cases hd
  · rw [h1 j hj]

/-- With no dictionary passed, no dictionary changes, whatever the file. -/
theorem C20_none (env : Env) (cd : Codec) (file : Bytes) (args : PEVerifyArgs) (w : World) (he : ContextsExist w args.kwargs)
    (hn : args.expectedHashes = none) : (peVerify env cd file args w).2.dicts = w.dicts := by
  cases hi : (iterSignedDatas cd file true args.ignoreParseErrors).toList with
  | error e => rw [peVerify_error hi]
  | ok sds =>
    have hc := considered_iff.2 hi
    by_cases hne : sds = []
    · subst hne
      rw [peVerify_unsigned hc]
    · have hp : HashNames (providedBy w args) := by unfold providedBy; rw [hn]; intro k v h; cases h
      have hsel := (selected_iff (mode := args.multiVerifyMode) hne (fun x hx => considered_alg hc hx)).2 rfl
      funext j
      exact (C20_effect env cd file args w sds _ hc hne hp he hsel).1 j (by rw [hn]; simp)

example : ((peVerify exPEEnv exPECodec (exTwice 1 2 [7, 7, 7]) { exPEArgs "all" with expectedHashes := some 0 }
    (exDicts [("sha256", [215, 203]), ("sha1", [0])])).2.dicts 0) = [("sha256", [215, 203]), ("sha1", [0])] := by decide +kernel

/-! ### C51: mode 'best' -/

/-- Mode 'best' looks at exactly the signatures of the file with the strongest algorithm, in order. -/
theorem C51_best (env : Env) (cd : Codec) (file : Bytes) (args : PEVerifyArgs) (w : World) (sds : List ASD)
    (hm : args.multiVerifyMode = "best") (h : Considered cd file args.ignoreParseErrors sds) (hne : sds ≠ [])
    (hp : HashNames (providedBy w args)) :
    ∃ sel tried rest w0, sel.Sublist sds ∧ (∀ a ∈ sds, a ∈ sel ↔ Strongest sds a) ∧ sel ≠ [] ∧ sel = tried.map Prod.fst ++ rest ∧
      Attempts env file (providedBy w args) args.kwargs w0 tried (peVerify env cd file args w).2 ∧
      Overall "best" tried rest (peVerify env cd file args w).1 := by
  have halg := fun x hx => considered_alg h (x := x) hx
  obtain ⟨sel, tried, rest, w0, h1, h2, h3, h4, h5⟩ := C16_outcome env cd file args w sds h hne hp
  have he := (selected_iff hne halg).1 h1
  have hne' := selected_ne_nil (mode := args.multiVerifyMode) hne halg
  rw [← he] at hne'
  rw [hm] at he h5
  rw [best_eq halg] at he
  refine ⟨sel, tried, rest, w0, ?_, ?_, hne', h2, h4, h5⟩
  · rw [he]; exact List.filter_sublist
  · intro a ha
    rw [he, List.mem_filter]
    simp [ha]

/-- All algorithms of the signatures of a file are among the accepted ones. -/
theorem C51_considered (cd : Codec) (file : Bytes) (ignore : Bool) (sds : List ASD) (h : Considered cd file ignore sds) :
    ∀ a ∈ sds, a.d.core.digestAlg ∈ ["md5", "sha1", "sha256", "sha384", "sha512"] := by
  intro a ha
  have := considered_alg h ha
  simp only [digestAlgorithms, List.mem_cons, List.not_mem_nil, or_false] at this ⊢
  rcases this with h | h | h | h | h <;> simp [h]

/-! ### C55: end to end -/

/-- If `verify` (without expected hashes) returns, then at least one signature is returned, and each signature returned is one of the
file's and holds the authentihash of the file. -/
theorem C55_authentic (env : Env) (cd : Codec) (file : Bytes) (args : PEVerifyArgs) (w : World) (he : ContextsExist w args.kwargs)
    (hn : args.expectedHashes = none) (res : List (ASD × List (List Cert))) (h : (peVerify env cd file args w).1 = .ok res) :
    res ≠ [] ∧ ∀ p ∈ res, (∃ sds, Considered cd file args.ignoreParseErrors sds ∧ p.1 ∈ sds) ∧
      ∀ bs : Int, 1 ≤ bs → Authentihash env.hash p.1.d.core.digestAlg bs file p.1.d.spc.digest := by
  obtain ⟨sds, hc, hne, hp⟩ := peVerify_ok h
  obtain ⟨sel, tried, rest, w0, h1, h2, h3, h4, h5⟩ := C16_outcome env cd file args w sds hc hne hp
  have halg := fun x hx => considered_alg hc (x := x) hx
  have he' := (selected_iff hne halg).1 h1
  have hne' := selected_ne_nil (mode := args.multiVerifyMode) hne halg
  rw [← he'] at hne'
  constructor
  · rintro rfl
    generalize (peVerify env cd file args w).1 = r at h h5
    cases h5 with
    | allVerify l _ => cases h; exact hne' h2
    | firstFailure => cases h
    | firstSuccess => cases h
    | allFail => cases h
  · intro p hpr
    refine ⟨⟨sds, hc, ?_⟩, ?_⟩
    · refine selected_subset (mode := args.multiVerifyMode) p.1 ?_
      rw [← he', h2]
      exact List.mem_append_left _ (List.mem_map.2 ⟨_, overall_returned h5 h p hpr, rfl⟩)
    · rcases C19_returned env cd file args w he res h p hpr with hd | ⟨-, hd⟩
      · unfold providedBy at hd
        rw [hn] at hd
        cases hd
      · exact hd

/-- If two files verify (in whatever circumstances) with signatures of the same algorithm and digest, then they are the same image
(equal outside the checksum, the entry of the data directory and the certificate table), or a collision of the hash function has been
found. -/
theorem C55_untampered (env env' : Env) (cd cd' : Codec) (f g : Bytes) (args args' : PEVerifyArgs) (w w' : World)
    (hH : env'.hash = env.hash) (he : ContextsExist w args.kwargs) (he' : ContextsExist w' args'.kwargs)
    (hn : args.expectedHashes = none) (hn' : args'.expectedHashes = none) (res res' : List (ASD × List (List Cert)))
    (h : (peVerify env cd f args w).1 = .ok res) (h' : (peVerify env' cd' g args' w').1 = .ok res') (p q : ASD × List (List Cert))
    (hp : p ∈ res) (hq : q ∈ res') (ha : p.1.d.core.digestAlg = q.1.d.core.digestAlg) (hd : p.1.d.spc.digest = q.1.d.spc.digest) :
    (∃ x y, x ≠ y ∧ env.hash p.1.d.core.digestAlg x = env.hash p.1.d.core.digestAlg y) ∨ SameImage f g := by
  have h1 := ((C55_authentic env cd f args w he hn res h).2 p hp).2 1 (by omega)
  have h2 := ((C55_authentic env' cd' g args' w' he' hn' res' h').2 q hq).2 1 (by omega)
  rw [hH, ← ha, ← hd] at h2
  exact C10_tamper_detection env.hash _ 1 1 (by omega) (by omega) f g _ h1 h2

/-- Such files: the same image with and without the second signature. -/
def exOnce (rest : Bytes) : Bytes := exPE 16 [224, 0, 0, 0, 16, 0, 0, 0] ([16, 0, 0, 0, 0, 2, 2, 0] ++ List.replicate 8 1 ++ rest)

example : exOutcome (peVerify exPEEnv exPECodec (exOnce [7, 7, 7]) (exPEArgs "all") exWorld).1 = .ok [(("sha256", [1]), [[1, 2, 3]])] ∧
    exOutcome (peVerify exPEEnv exPECodec (exOnce [7, 8, 7]) (exPEArgs "all") exWorld).1 = .error .authenticodeInvalidDigest :=
  ⟨by decide +kernel, by decide +kernel⟩

/-- The theorems above apply to the file with two signatures. -/
example : ∃ sds, Considered exPECodec (exTwice 1 2 [7, 7, 7]) true sds ∧ sds.length = 2 ∧
    (∃ sel tried rest w0, Selected "best" sds sel ∧ sel = tried.map Prod.fst ++ rest ∧ ExceptDicts exWorld w0 ∧
      Attempts exPEEnv (exTwice 1 2 [7, 7, 7]) (providedBy exWorld (exPEArgs "best")) (exPEArgs "best").kwargs w0 tried
        (peVerify exPEEnv exPECodec (exTwice 1 2 [7, 7, 7]) (exPEArgs "best") exWorld).2 ∧
      Overall "best" tried rest (peVerify exPEEnv exPECodec (exTwice 1 2 [7, 7, 7]) (exPEArgs "best") exWorld).1) := by
  obtain ⟨a, b, hc⟩ := exPair_considered exPECodec (exTwice 1 2 [7, 7, 7]) ("sha256", [1]) ("sha1", [2]) (by decide +kernel) (by decide +kernel)
  exact ⟨[a, b], hc, rfl, C16_outcome exPEEnv exPECodec _ (exPEArgs "best") exWorld [a, b] hc (by simp) (exPEArgs_names "best")⟩

example (a b : ASD) (hc : Considered exPECodec (exTwice 1 2 [7, 7, 7]) true [a, b]) :=
  (C16_all exPEEnv exPECodec (exTwice 1 2 [7, 7, 7]) (exPEArgs "all") exWorld [a, b] rfl hc (by simp) (exPEArgs_names "all")
    (exPEArgs_historyFree _ "all")).1
example (a b : ASD) (hc : Considered exPECodec (exTwice 1 2 [7, 7, 7]) true [a, b]) :=
  C20_effect exPEEnv exPECodec (exTwice 1 2 [7, 7, 7]) (exPEArgs "all") exWorld [a, b] [a, b] hc (by simp) (exPEArgs_names "all")
    (exPEArgs_contexts "all" _)

/-! ### Instances

The signatures of the file with two signatures, and of the one with a broken table. -/

def exSds : List ASD := (iterSignedDatas exPECodec (exTwice 1 2 [7, 7, 7]) true true).1

theorem exIterated (cd : Codec) (file : Bytes) (he : (iterSignedDatas cd file true true).2 = none) :
    Considered cd file true (iterSignedDatas cd file true true).1 := by
  refine considered_iff.2 ?_
  generalize iterSignedDatas cd file true true = r at he ⊢
  obtain ⟨l, e⟩ := r
  change e = none at he
  subst he
  rfl

theorem exSds_considered : Considered exPECodec (exTwice 1 2 [7, 7, 7]) true exSds := exIterated _ _ (by decide +kernel)

theorem exSds_ne : exSds ≠ [] := by
  intro h
  have h1 : exSds.map exLabel = [("sha256", [1]), ("sha1", [2])] := by decide +kernel
  rw [h] at h1
  cases h1

example (file : Bytes) : ∃ tops err, TopLevel exPECodec file tops err ∧ tops = tops ∧ err.map Exc.cls = err.map Exc.cls := by
  obtain ⟨tops, _, err, h, _⟩ := C15_iteration exPECodec file
  exact ⟨tops, err, h, C15_unique exPECodec file tops tops err err h h⟩

example (d1 d2 d3 d4 : AuthData) :=
  C15_preorder_unique [.mk d1 [.mk d2 [.mk d3 []]], .mk d4 []] _ _ (preOrder_preorderAll _) (preOrder_preorderAll _)

/-- The entry is read, but then the library raises an error of its own. -/
def exNoSpc : Codec := { exPECodec with attrs := fun _ => .error ⟨.valueError, ""⟩ }

example : ∃ e, (iterSignedDatas exNoSpc (exTwice 1 2 [7, 7, 7]) true true).2 = some e ∧ e.is .signedPEParseError = false := by
  have h : ((iterSignedDatas exNoSpc (exTwice 1 2 [7, 7, 7]) true true).2).isSome = true := by decide +kernel
  obtain ⟨e, he⟩ := Option.isSome_iff_exists.1 h
  exact ⟨e, he, C15_ignored exNoSpc _ true e he⟩

example : ∃ sel, Selected "best" exSds sel ∧ ∀ sel', Selected "best" exSds sel' → sel' = sel := by
  obtain ⟨sel, _, _, _, h, _⟩ := C16_outcome exPEEnv exPECodec _ (exPEArgs "best") exWorld exSds exSds_considered exSds_ne
    (exPEArgs_names "best")
  exact ⟨sel, h, fun sel' h' => C16_selection_unique exPECodec _ true "best" exSds sel' sel exSds_considered exSds_ne h' h⟩

example := C16_all exPEEnv exPECodec (exTwice 1 2 [7, 7, 7]) (exPEArgs "all") exWorld exSds rfl exSds_considered exSds_ne
  (exPEArgs_names "all") (exPEArgs_historyFree _ "all")

example := C16_best exPEEnv exPECodec (exTwice 1 2 [7, 7, 7]) (exPEArgs "best") exWorld exSds rfl exSds_considered exSds_ne
  (exPEArgs_names "best") (exPEArgs_historyFree _ "best")

example : HistoryFree exPEEnv exSigned [] { trusted := .heap 0 } exWorld :=
  C16_historyFree exPEEnv exSigned [] { trusted := .heap 0 } exWorld rfl rfl (fun _ _ _ hi he => by cases hi; cases he)

example := C19_digests exPEEnv exPECodec (exTwice 1 2 [7, 7, 7]) (exPEArgs "best") exWorld exSds exSds_considered exSds_ne
  (exPEArgs_names "best")

example : ∃ l, (peVerify exPEEnv exPECodec (exTwice 1 2 [7, 7, 7]) (exPEArgs "all") exWorld).1 = .ok l ∧
    ∀ p ∈ l, DigestFor exPEEnv (exTwice 1 2 [7, 7, 7]) [] p.1.d.core.digestAlg p.1.d.spc.digest := by
  obtain ⟨l, hl⟩ := exOutcome_ok exTwice_all
  exact ⟨l, hl, C19_returned exPEEnv exPECodec _ (exPEArgs "all") exWorld (exPEArgs_contexts "all" _) l hl⟩

example := C19_set_order List.reverse (fun _ _ => List.mem_reverse) exPEEnv exPECodec (exTwice 2 1 [7, 7, 7])
  { exPEArgs "all" with expectedHashes := some 0 } exWorld

example := C20_none exPEEnv exPECodec (exTwice 1 2 [7, 7, 7]) (exPEArgs "all") exWorld (exPEArgs_contexts "all" _) rfl

theorem exSds_algs : ∀ a ∈ exSds, a.d.core.digestAlg = "sha256" ∨ a.d.core.digestAlg = "sha1" := by
  intro a ha
  have h1 : exSds.map exLabel = [("sha256", [1]), ("sha1", [2])] := by decide +kernel
  have h2 : exLabel a ∈ exSds.map exLabel := List.mem_map_of_mem ha
  rw [h1] at h2
  simp only [exLabel, List.mem_cons, List.not_mem_nil, or_false, Prod.mk.injEq] at h2
  exact h2.imp And.left And.left

example (j : Nat) (n : String) :=
  C20_unchanged_partial exPEEnv exPECodec (exTwice 1 2 [7, 7, 7]) { exPEArgs "all" with expectedHashes := some 0 }
    (exDicts [("sha256", [215, 203]), ("sha1", [0])]) exSds exSds_considered exSds_ne (by
      intro k v h
      simp only [providedBy, exDicts, List.mem_cons, List.not_mem_nil, or_false, Prod.mk.injEq] at h
      rcases h with ⟨rfl, _⟩ | ⟨rfl, _⟩ <;> decide) (exPEArgs_contexts "all" _) (by
      intro i _ a ha
      rcases exSds_algs a ha with h | h <;> rw [h]
      · exact ⟨[215, 203], rfl⟩
      · exact ⟨[0], rfl⟩) j n

example := C51_best exPEEnv exPECodec (exTwice 1 2 [7, 7, 7]) (exPEArgs "best") exWorld exSds rfl exSds_considered exSds_ne
  (exPEArgs_names "best")

example := C51_considered exPECodec (exTwice 1 2 [7, 7, 7]) true exSds exSds_considered

/-- Algorithm and digest. -/
def exDigest (p : ASD × List (List Cert)) : String × Bytes := (p.1.d.core.digestAlg, p.1.d.spc.digest)

theorem exReturned {r : Except Exc (List (ASD × List (List Cert)))} {x : String × Bytes} {xs : List (String × Bytes)}
    (h : r.toOption.map (·.map exDigest) = some (x :: xs)) : ∃ l p, r = .ok l ∧ p ∈ l ∧ exDigest p = x := by
  cases r with
  | error e => cases h
  | ok l =>
    cases l with
    | nil => cases h
    | cons p l =>
      simp only [Except.toOption, Option.map_some, Option.some.injEq, List.map_cons, List.cons.injEq] at h
      exact ⟨_, p, rfl, List.mem_cons_self .., h.1⟩

/-- Both files verify, with a signature of the same algorithm and digest: they are the same image. -/
example : (∃ x y, x ≠ y ∧ exPEEnv.hash "sha256" x = exPEEnv.hash "sha256" y) ∨
    SameImage (exOnce [7, 7, 7]) (exTwice 1 2 [7, 7, 7]) := by
  obtain ⟨l1, p, hl1, hp, d1⟩ := exReturned (r := (peVerify exPEEnv exPECodec (exOnce [7, 7, 7]) (exPEArgs "all") exWorld).1)
    (x := ("sha256", [215, 203])) (xs := []) (by decide +kernel)
  obtain ⟨l2, q, hl2, hq, d2⟩ := exReturned (r := (peVerify exPEEnv exPECodec (exTwice 1 2 [7, 7, 7]) (exPEArgs "all") exWorld).1)
    (x := ("sha256", [215, 203])) (xs := [("sha1", [215, 203])]) (by decide +kernel)
  simp only [exDigest, Prod.mk.injEq] at d1 d2
  have h := C55_untampered exPEEnv exPEEnv exPECodec exPECodec _ _ (exPEArgs "all") (exPEArgs "all") exWorld exWorld rfl
    (exPEArgs_contexts "all" _) (exPEArgs_contexts "all" _) rfl rfl _ _ hl1 hl2 p q hp hq
    (d1.1.trans d2.1.symm) (d1.2.trans d2.2.symm)
  rw [d1.1] at h
  exact h

example : ∃ l, (peVerify exPEEnv exPECodec (exTwice 1 2 [7, 7, 7]) (exPEArgs "all") exWorld).1 = .ok l ∧ l ≠ [] := by
  obtain ⟨l, hl⟩ := exOutcome_ok exTwice_all
  exact ⟨l, hl, (C55_authentic exPEEnv exPECodec _ (exPEArgs "all") exWorld (exPEArgs_contexts "all" _) rfl l hl).1⟩

end Signify.Props
