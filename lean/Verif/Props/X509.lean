/-
Certificates, stores, contexts: C29 (contexts), C36, C41-C44.
-/
import Verif.Proofs.CTL
import Verif.Proofs.Ready

set_option autoImplicit false

namespace Signify.Props

open Signify Spec

/-! ## Concrete objects for the examples -/

def exN (cn : String) : Name := ⟨[⟨⟨"2.5.4.3", "common_name", cn⟩, []⟩]⟩

/-- A small certificate: `n` gives its identity, encoding, serial number and key. -/
def exCert (n : Nat) (issuer subject : String) : Cert :=
  { obj := n, der := [UInt8.ofNat n], issuer := exN issuer, serial := n, subject := exN subject,
    spki := ⟨"rsa", .none, [UInt8.ofNat n]⟩, validFrom := 100, validTo := 1000, eku := none }

def exRoot : Cert := exCert 1 "Root" "Root"
def exInter : Cert := exCert 2 "Root" "Inter"
def exLeaf : Cert := exCert 3 "Inter" "Leaf"
/-- cross-certificates: each issued by the other -/
def exCrossA : Cert := exCert 4 "B" "Inter"
def exCrossB : Cert := exCert 5 "Inter" "B"

/-- A world whose validator accepts the chain root, intermediate, leaf, if the root is among the trust roots. -/
def exEnv : Env where
  hash := fun _ b => b
  now := 500
  loadKey := fun s => .ok s.algorithm
  pkVerify := fun _ _ sig data _ => if sig = data then .ok () else .error ⟨.foreign, "signature"⟩
  rawVerify := fun _ sig d => if sig = 0 :: d then .ok () else .error ⟨.foreign, "signature"⟩
  mkValidator := fun _ => .ok ()
  validate := fun r => if 1 ∈ r.trustRoots then .ok [1, 2, 3] else .error ⟨.foreign, "path"⟩

def exStoreT : Store := ⟨[exRoot], true, none, none⟩
def exStoreU : Store := ⟨[exInter, exLeaf, exCrossA, exCrossB, exInter], false, none, none⟩

def exCtx (stores : List StoreRef) : Ctx :=
  { stores := stores, timestamp := none, keyUsages := .none, ekus := .list ["code_signing"], optionalEku := true,
    allowLegacy := true, revocationMode := "soft-fail", allowFetching := false, fetchTimeout := 30, crls := none, ocsps := none }

/-- Store 0 is trusted and holds the root, store 1 is not. -/
def exWorld : World where
  stores := fun i => if i = 0 then exStoreT else exStoreU
  ctxs := fun _ => exCtx [.heap 0, .heap 1]
  nextCtx := 1

/-- The same with a file system store not yet loaded as store 0. -/
def exLazy : World :=
  { exWorld with stores := fun i => if i = 0 then ⟨[], true, none, some ([exRoot], none)⟩ else exStoreU }

theorem exWorld_loaded : Loaded exWorld 0 := by
  intro r hr
  simp only [exWorld, exCtx, List.mem_cons, List.not_mem_nil, or_false] at hr
  rcases hr with rfl | rfl <;> simp [LoadedStore, exWorld, exStoreT, exStoreU]

theorem exLazy_fine : LoadsFine exLazy 0 := by
  intro r hr i hi certs e he
  simp only [exLazy, exWorld, exCtx, List.mem_cons, List.not_mem_nil, or_false] at hr
  rcases hr with rfl | rfl <;> cases hi
  · simp [exLazy] at he; exact he.2.symm
  · simp [exLazy, exStoreU] at he

/-! ## C36: signature verification -/

/-- `verify_signature` returns iff the key loads, is of a supported kind, and either the standard verification or — if legacy
signatures are allowed and the key is RSA — the verification of the raw digest succeeds. -/
theorem C36_accepts_iff (env : Env) (c : Cert) (signature data : Bytes) (alg : String) (legacy : Bool) :
    c.verifySignature env signature data alg legacy = .ok () ↔
      ∃ kind, env.loadKey c.spki = .ok kind ∧ kind ∈ ["rsa", "dsa", "ec"] ∧
        (env.pkVerify kind c.spki signature data alg = .ok () ∨
         (legacy = true ∧ kind = "rsa" ∧ env.rawVerify c.spki signature (env.hash alg data) = .ok ())) := by
  unfold Cert.verifySignature
  cases env.loadKey c.spki with
  | error e => simp
  | ok k =>
    simp only [Except.ok.injEq, List.mem_cons, List.not_mem_nil, or_false, exists_eq_left']
    by_cases hk : k = "rsa" ∨ k = "dsa" ∨ k = "ec"
    · rw [if_pos hk]
      simp only [hk, true_and]
      cases env.pkVerify k c.spki signature data alg with
      | ok u => simp
      | error e =>
        simp only [reduceCtorEq, false_or]
        by_cases hl : legacy = true
        · by_cases hr : k = "rsa"
          · simp only [hl, hr, bne_self_eq_false, Bool.not_true, Bool.or_self, Bool.false_eq_true, if_false, true_and]
            cases env.rawVerify c.spki signature (env.hash alg data) with
            | ok u => simp
            | error e => simp [certErr, raiseNaming_ne_ok]
          · have : (k != "rsa") = true := by simpa using hr
            simp [hr, this, certErr, raiseNaming_ne_ok]
        · simp [hl, certErr, raiseNaming_ne_ok]
    · rw [if_neg hk]
      simp [certErr, raiseNaming_ne_ok, hk]

/-- Disallowing legacy signatures only removes acceptances. -/
theorem C36_legacy_monotone (env : Env) (c : Cert) (signature data : Bytes) (alg : String)
    (h : c.verifySignature env signature data alg false = .ok ()) : c.verifySignature env signature data alg true = .ok () := by
  rw [C36_accepts_iff] at h ⊢
  obtain ⟨k, h1, h2, h3 | ⟨h3, -⟩⟩ := h
  · exact ⟨k, h1, h2, .inl h3⟩
  · cases h3

example := C36_legacy_monotone exEnv exRoot [1, 2] [1, 2] "sha256" (by decide +kernel)

/-- "All failures are CertificateVerificationError" fails: an exception raised while loading the public key propagates. -/
theorem C36_all_failures_false :
    ¬ ∀ (env : Env) (c : Cert) (signature data : Bytes) (alg : String) (legacy : Bool) (e : Exc),
      c.verifySignature env signature data alg legacy = .error e → e.cls = .certificateVerificationError := by
  intro h
  have := h { exEnv with loadKey := fun _ => .error ⟨.valueError, "unsupported key"⟩ } exRoot [] [] "sha256" true
    ⟨.valueError, "unsupported key"⟩ rfl
  cases this

/-- Once the public key loads, all failures are CertificateVerificationError, whatever the cryptographic library raises, unless the certificate
cannot be named in the message (TypeError); else the exception is that of loading the key. -/
theorem C36_failures_partial (env : Env) (c : Cert) (signature data : Bytes) (alg : String) (legacy : Bool) (e : Exc)
    (h : c.verifySignature env signature data alg legacy = .error e) :
    (Textual c.subject ∧ e.cls = .certificateVerificationError) ∨ (¬ Textual c.subject ∧ e.cls = .typeError) ∨
      env.loadKey c.spki = .error e := verifySignature_error h

example := C36_failures_partial exEnv exRoot [0, 1, 2] [1, 2] "sha256" false _ rfl

example : exRoot.verifySignature exEnv [1, 2] [1, 2] "sha256" false = .ok () ∧
    exRoot.verifySignature exEnv [0, 1, 2] [1, 2] "sha256" true = .ok () ∧
    exRoot.verifySignature exEnv [0, 1, 2] [1, 2] "sha256" false =
      .error ⟨.certificateVerificationError, "Invalid signature"⟩ := by decide +kernel

/-! ## C44: equality and hashing -/

theorem C44_cert_eq (a b c : Cert) :
    a.pyEq a = true ∧ (a.pyEq b = true → b.pyEq a = true) ∧ (a.pyEq b = true → b.pyEq c = true → a.pyEq c = true) := by
  simp only [Cert.pyEq_iff]
  exact ⟨Spec.SameCert.refl a, Spec.SameCert.symm, Spec.SameCert.trans⟩

theorem C44_name_eq (a b c : Name) :
    a.pyEq a = true ∧ (a.pyEq b = true → b.pyEq a = true) ∧ (a.pyEq b = true → b.pyEq c = true → a.pyEq c = true) := by
  simp only [Name.pyEq_iff]
  exact ⟨trivial, Eq.symm, Eq.trans⟩

/-- Certificates are equal iff issuer, serial number, subject and public key (algorithm, parameters, bits) agree. -/
theorem C44_cert_eq_iff (a b : Cert) :
    a.pyEq b = true ↔ a.issuer.pyEq b.issuer = true ∧ a.serial = b.serial ∧ a.subject.pyEq b.subject = true ∧ a.spki = b.spki := by
  rw [Cert.pyEq_iff, Name.pyEq_iff, Name.pyEq_iff]
  rfl

/-- Equal objects hash alike: either both have the same hash or both cannot be hashed. -/
theorem C44_hash (a b : Cert) (h : a.pyEq b = true) : a.hashKey = b.hashKey := by
  rw [Cert.pyEq_iff] at h
  obtain ⟨h1, h2, h3, h4⟩ := h
  unfold Cert.hashKey Name.rdns
  rw [h1, h2, h3, h4]

example := C44_hash exRoot { exRoot with obj := 77, der := [9, 9] } (by decide +kernel)

theorem C44_name_hash (a b : Name) (h : a.pyEq b = true) : a.hashKey = b.hashKey := by
  rw [Name.pyEq_iff] at h
  exact h

/-- Names that differ in their second attributes. -/
example := C44_name_hash (exN "Root") ⟨[⟨⟨"2.5.4.3", "common_name", "Root"⟩, [⟨"2.5.4.6", "country_name", "NL"⟩]⟩]⟩ (by decide +kernel)

/-- Hashable certificates that are not equal are hashed as different values. -/
theorem C44_hash_iff (a b : Cert) (k l : CertKey) (ha : a.hashKey = .ok k) (hb : b.hashKey = .ok l) :
    k = l ↔ a.pyEq b = true := by
  refine ⟨fun h => ?_, fun h => ?_⟩
  · subst h
    rw [Cert.pyEq_iff]
    have key : ∀ c : Cert, c.hashKey = .ok k →
        k = (c.issuer.components, c.serial, c.subject.components, (c.spki.algorithm, c.spki.parameters), c.spki.key) := by
      intro c hc
      unfold Cert.hashKey Name.rdns at hc
      split at hc
      · cases hc
      · exact (Except.ok.inj hc).symm
    have h := (key a ha).symm.trans (key b hb)
    simp only [Prod.mk.injEq] at h
    obtain ⟨h1, h2, h3, ⟨h4, h5⟩, h6⟩ := h
    refine ⟨h1, h2, h3, ?_⟩
    generalize a.spki = x at h4 h5 h6
    generalize b.spki = y at h4 h5 h6
    obtain ⟨_, _, _⟩ := x
    obtain ⟨_, _, _⟩ := y
    simp only at h4 h5 h6
    rw [h4, h5, h6]
  · have := C44_hash a b h
    rw [ha, hb] at this
    exact Except.ok.inj this

example := C44_hash_iff exRoot exInter _ _ rfl rfl

/-- A certificate is hashable iff the parameters of its key algorithm are not a dictionary: DSA certificates are not. -/
theorem C44_hashable_iff (a : Cert) : (∃ k, a.hashKey = .ok k) ↔ ∀ l, a.spki.parameters ≠ .dict l := by
  unfold Cert.hashKey
  cases a.spki.parameters <;> simp

example : exRoot.pyEq { exRoot with obj := 77, der := [9, 9] } = true ∧ exRoot.pyEq exInter = false := by decide +kernel

/-! ## C41: queries -/

/-- `store.find_certificates` returns the certificates of the store that meet the query, in order, each as often as it is in the
store. -/
theorem C41_store (env : Env) (r : StoreRef) (q : Query) (w : World) (hl : LoadedStore w r) :
    ∃ l, storeFind env r q w = (.ok l, w) ∧ l.Sublist (certsOf w r) ∧ (∀ c, c ∈ l ↔ c ∈ certsOf w r ∧ Meets env q c) ∧
      ∀ c ∈ l, l.count c = (certsOf w r).count c := by
  refine ⟨(certsOf w r).filter (q.matches env), ?_, List.filter_sublist, ?_, ?_⟩
  · unfold storeFind
    rw [M.bind_ok (iterStore_loaded hl)]
    rfl
  · intro c
    rw [List.mem_filter, matches_iff]
  · intro c hc
    exact List.count_filter (List.mem_filter.1 hc).2

example := C41_store exEnv (.heap 1) { subject := some (exN "Inter") } exWorld rfl

theorem onlyOne_spec (l : List Cert) (w : World) :
    (∀ c, (onlyOne l w).1 = .ok c ↔ l = [c]) ∧ (∀ e, (onlyOne l w).1 = .error e → l.length ≠ 1 ∧ e.cls = .keyError) := by
  unfold onlyOne
  split
  · constructor
    · intro c; simp [M.raise]
    · intro e he; cases he; simp
  · rename_i c
    constructor
    · intro c'; simp [M.pure_run]
    · intro e he; cases he
  · rename_i l h1 h2
    constructor
    · intro c
      constructor
      · intro h; cases h
      · intro h; exact absurd h (h2 c)
    · intro e he
      cases he
      refine ⟨?_, rfl⟩
      intro hlen
      obtain ⟨c, hc⟩ := List.length_eq_one_iff.mp hlen
      exact h2 c hc

/-- `store.find_certificate` returns the only match, and raises KeyError if there are none or several. -/
theorem C41_store_find_certificate (env : Env) (r : StoreRef) (q : Query) (w : World) (l : List Cert)
    (h : (storeFind env r q w).1 = .ok l) :
    (∀ c, (storeFindOne env r q w).1 = .ok c ↔ l = [c]) ∧
    (∀ e, (storeFindOne env r q w).1 = .error e → l.length ≠ 1 ∧ e.cls = .keyError) := by
  rcases hx : storeFind env r q w with ⟨x, w1⟩
  rw [hx] at h
  simp only at h
  subst h
  unfold storeFindOne
  rw [M.bind_ok hx]
  exact onlyOne_spec l w1

example := C41_store_find_certificate exEnv (.embedded [exRoot, exInter, exRoot]) { subject := some (exN "Root") } exLazy [exRoot, exRoot]
  (by decide +kernel)

/-- Two matches, and one. -/
example : (storeFind exEnv (.embedded [exRoot, exInter, exRoot]) { subject := some (exN "Root") } exLazy).1 = .ok [exRoot, exRoot] ∧
    (storeFindOne exEnv (.embedded [exRoot, exInter, exRoot]) { subject := some (exN "Inter") } exLazy).1 = .ok exInter ∧
    LoadedStore exLazy (.embedded [exRoot, exInter, exRoot]) := ⟨by decide +kernel, by decide +kernel, trivial⟩

/-- `context.find_certificates` yields the first occurrences of the certificates of the stores that meet the query, whether or
not the stores had been loaded. -/
theorem C41_context (env : Env) (cid : Nat) (q : Query) (w : World) (hf : LoadsFine w cid) :
    ∃ l, (ctxFind env cid q w).1 = .ok l ∧ FirstOccurrences (Meets env q) (knownCerts (loadedWorld w) cid) l := by
  rw [(ctxFind_loading env cid q w hf).1, ctxFind_loaded env cid q (loadedWorld w) (fun r _ => loadedWorld_loadedStore w r)]
  exact ⟨_, rfl, newOnes_firstOccurrences _ _ (fun _ => matches_iff) _⟩

example := C41_context exEnv 0 { subject := some (exN "Inter") } exLazy exLazy_fine

/-- The result is determined by that description: two lists of first occurrences are equal. -/
theorem C41_unique (P : Cert → Prop) (all l l' : List Cert) (h : FirstOccurrences P all l) (h' : FirstOccurrences P all l') :
    l = l' := firstOccurrences_unique h h'

/-- From two runs on stores with the same contents. -/
example : ∃ l, (ctxFind exEnv 0 { subject := some (exN "Inter") } exLazy).1 = .ok l ∧
    ∀ l', FirstOccurrences (Meets exEnv { subject := some (exN "Inter") }) (knownCerts (loadedWorld exLazy) 0) l' → l = l' := by
  obtain ⟨l, h, hl⟩ := C41_context exEnv 0 { subject := some (exN "Inter") } exLazy exLazy_fine
  exact ⟨l, h, fun l' h' => C41_unique _ _ l l' hl h'⟩

/-- `context.certificates` yields the certificates of all stores, in order and with repetitions. -/
theorem C41_certificates (cid : Nat) (w : World) (hf : LoadsFine w cid) :
    (ctxCertificates cid w).1 = .ok (knownCerts (loadedWorld w) cid) := by
  unfold ctxCertificates
  rw [M.getCtx_bind, allCertificates_fine _ _ hf]
  rfl

/-- `find_certificate` returns the only match, and raises KeyError if there are none or several. -/
theorem C41_find_certificate (env : Env) (cid : Nat) (q : Query) (w : World) (l : List Cert)
    (h : (ctxFind env cid q w).1 = .ok l) :
    (∀ c, (ctxFindOne env cid q w).1 = .ok c ↔ l = [c]) ∧
    (∀ e, (ctxFindOne env cid q w).1 = .error e → l.length ≠ 1 ∧ e.cls = .keyError) := by
  rcases hx : ctxFind env cid q w with ⟨x, w1⟩
  rw [hx] at h
  simp only at h
  subst h
  unfold ctxFindOne
  rw [M.bind_ok hx]
  exact onlyOne_spec l w1

example := C41_find_certificate exEnv 0 { subject := some (exN "Inter") } exLazy [exInter, exCrossA] (by decide +kernel)

example : (ctxFind exEnv 0 { subject := some (exN "Inter") } exLazy).1 = .ok [exInter, exCrossA] ∧
    (ctxFindOne exEnv 0 { subject := some (exN "Root") } exLazy).1 = .ok exRoot ∧
    (ctxFindOne exEnv 0 { sha256 := some "0 1" } exLazy).1 = .ok exRoot := by decide +kernel

/-- `context.certificates` of stores that are read in the process. -/
example : ∃ l, (ctxCertificates 0 exLazy).1 = .ok l ∧ exRoot ∈ l ∧ exInter ∈ l := by
  refine ⟨_, C41_certificates 0 exLazy exLazy_fine, ?_⟩
  decide +kernel

/-! ## C42: potential chains -/

/-- `potential_chains` terminates and yields exactly the potential chains. -/
theorem C42_potential_chains (env : Env) (cid : Nat) (w : World) (hl : Loaded w cid) (depth : Nat) (c : Cert) :
    ∃ l, potentialChains env cid depth c w = (.ok l, w) ∧ ∀ chain, chain ∈ l ↔ PotentialChain w cid depth c chain :=
  ⟨_, potentialChains_loaded env cid w hl depth c, fun _ => mem_pcs_iff depth c _⟩

example := C42_potential_chains exEnv 0 exWorld exWorld_loaded 10 exLeaf

/-- Each of them is yielded once. -/
theorem C42_once (env : Env) (cid : Nat) (w : World) (hl : Loaded w cid) (depth : Nat) (c : Cert) (l : List (List Cert))
    (h : (potentialChains env cid depth c w).1 = .ok l) : l.Nodup := by
  rw [potentialChains_loaded env cid w hl depth c] at h
  cases h
  exact (pcs_nodup _ _ _ _).1

example := C42_once exEnv 0 exWorld exWorld_loaded 10 exLeaf [[exRoot, exInter, exLeaf], [exRoot, exInter, exCrossB, exCrossA, exLeaf]]
  (by decide +kernel)

/-- In a cyclic certificate graph: the loop through the cross-certificates is cut. -/
example : (potentialChains exEnv 0 10 exLeaf exWorld).1 =
    .ok [[exRoot, exInter, exLeaf], [exRoot, exInter, exCrossB, exCrossA, exLeaf]] := by decide +kernel

/-! ## C43: loading -/

/-- "is_trusted gives the same answer whether or not the store has been iterated before" fails. -/
theorem C43_is_trusted_false :
    ¬ ∀ (w : World) (cid : Nat) (c : Cert), LoadsFine w cid → ctxIsTrusted w cid c = ctxIsTrusted (loadedWorld w) cid c := by
  intro h
  have := h exLazy 0 exRoot exLazy_fine
  revert this
  decide +kernel

/-- Nor does `potential_chains`: a store loaded in the middle of the search is trusted only from then on. -/
theorem C43_potential_chains_false :
    ¬ ∀ (env : Env) (w : World) (cid : Nat) (depth : Nat) (c : Cert), LoadsFine w cid →
      (potentialChains env cid depth c w).1 = (potentialChains env cid depth c (loadedWorld w)).1 := by
  intro h
  have := h exEnv exLazy 0 10 exRoot exLazy_fine
  revert this
  decide +kernel

/-- A context with a single store, whose second file cannot be read. -/
def exBroken : World where
  stores := fun _ => ⟨[], true, none, some ([exRoot], some ⟨.foreign, "no such file"⟩)⟩
  ctxs := fun _ => exCtx [.heap 0]
  nextCtx := 1

/-- Nor is a failed load reported on every use: it is on the first one, and forgotten then. -/
theorem C43_failed_load_false :
    ¬ ∀ (env : Env) (w : World) (cid : Nat) (q : Query) (e : Exc),
      (ctxFind env cid q w).1 = .error e → ∃ e', (ctxFind env cid q (ctxFind env cid q w).2).1 = .error e' := by
  intro h
  obtain ⟨e', he⟩ := h exEnv exBroken 0 {} ⟨.foreign, "no such file"⟩ (by decide +kernel)
  have h2 : (ctxFind exEnv 0 {} (ctxFind exEnv 0 {} exBroken).2).1 = .ok [exRoot] := by decide +kernel
  rw [he] at h2
  cases h2

/-- `verify` and `find_certificates` do not depend on earlier uses of the stores, if their locations can be read. -/
theorem C43_verify_find_partial (env : Env) (cid : Nat) (w : World) (hf : LoadsFine w cid) :
    (∀ c, (ctxVerify env cid c w).1 = (ctxVerify env cid c (loadedWorld w)).1) ∧
    (∀ q, (ctxFind env cid q w).1 = (ctxFind env cid q (loadedWorld w)).1) :=
  ⟨fun c => ctxVerify_loading env cid c w hf, fun q => (ctxFind_loading env cid q w hf).1⟩

example := C43_verify_find_partial exEnv 0 exLazy exLazy_fine

/-- After the stores have been loaded, so do `is_trusted` and `potential_chains`; a query loads them all. -/
theorem C43_after_load_partial (env : Env) (cid : Nat) (w : World) :
    (Loaded w cid → (∀ c, ctxIsTrusted w cid c = ctxIsTrusted (loadedWorld w) cid c) ∧
      ∀ depth c, (potentialChains env cid depth c w).1 = (potentialChains env cid depth c (loadedWorld w)).1) ∧
    (LoadsFine w cid → ∀ q, Loaded (ctxFind env cid q w).2 cid ∧ loadedWorld (ctxFind env cid q w).2 = loadedWorld w) := by
  refine ⟨fun hl => ?_, fun hf q => (ctxFind_loading env cid q w hf).2⟩
  have ha := agree_loadedWorld (w := w) hl
  have h1 : ctxIsTrusted w cid = ctxIsTrusted (loadedWorld w) cid := by
    funext c
    unfold ctxIsTrusted
    rw [Bool.eq_iff_iff, List.any_eq_true, List.any_eq_true]
    constructor
    · rintro ⟨r, hr, h⟩; exact ⟨r, hr, by rw [← storeIsTrusted_agree ha hr]; exact h⟩
    · rintro ⟨r, hr, h⟩; exact ⟨r, hr, by rw [storeIsTrusted_agree ha hr]; exact h⟩
  have h2 : knownCerts w cid = knownCerts (loadedWorld w) cid := by
    unfold knownCerts
    show List.flatMap (certsOf w) (w.ctxs cid).stores = List.flatMap (certsOf (loadedWorld w)) (w.ctxs cid).stores
    have : ∀ r ∈ (w.ctxs cid).stores, certsOf w r = certsOf (loadedWorld w) r := by
      intro r hr
      cases r with
      | embedded _ => rfl
      | heap i => simp only [certsOf, ha.stores i hr]
    generalize (w.ctxs cid).stores = rs at this
    induction rs with
    | nil => rfl
    | cons r rs ih =>
      rw [List.flatMap_cons, List.flatMap_cons, this r (by simp), ih (fun r hr => this r (List.mem_cons_of_mem _ hr))]
  refine ⟨fun c => by rw [h1], fun depth c => ?_⟩
  rw [potentialChains_loaded env cid w hl, potentialChains_loaded env cid (loadedWorld w) (fun r _ => loadedWorld_loadedStore w r),
    ← h1, ← h2]

/-- Hypotheses met by a context with a store that has not been loaded. -/
example : LoadsFine exLazy 0 ∧ ¬ Loaded exLazy 0 ∧ (ctxVerify exEnv 0 exLeaf exLazy).1 = .ok [exRoot, exInter, exLeaf] := by
  refine ⟨exLazy_fine, ?_, by decide +kernel⟩
  intro h
  have := h (.heap 0) (by simp [exLazy, exWorld, exCtx])
  simp [LoadedStore, exLazy] at this

/-- It is enough that the trusted stores have been loaded; the others may be loaded in the middle of the search. -/
theorem C43_trusted_loaded_partial (env : Env) (cid : Nat) (w : World) (hf : LoadsFine w cid)
    (ht : ∀ i, .heap i ∈ (w.ctxs cid).stores → (w.stores i).trusted = true → (w.stores i).pending = none) :
    (∀ c, ctxIsTrusted w cid c = ctxIsTrusted (loadedWorld w) cid c) ∧
    ∀ depth c, (potentialChains env cid depth c w).1 = (potentialChains env cid depth c (loadedWorld w)).1 := by
  have hr : Ready (loadedWorld w) ((loadedWorld w).ctxs cid).stores w := ⟨rfl, hf, ht⟩
  refine ⟨fun c => by rw [hr.isTrusted], fun depth c => ?_⟩
  obtain ⟨r, w1, h1, h2, -⟩ := Transparent.potentialChains env depth c w hr
  rw [h1, h2]

/-- Before it has been loaded, a store can only make `is_trusted` say no: what is trusted stays so when the stores are loaded. -/
theorem C43_sound_partial (w : World) (cid : Nat) (c : Cert) (h : ctxIsTrusted w cid c = true) :
    ctxIsTrusted (loadedWorld w) cid c = true := by
  unfold ctxIsTrusted at h ⊢
  rw [List.any_eq_true] at h ⊢
  obtain ⟨r, hr, hx⟩ := h
  refine ⟨r, hr, ?_⟩
  cases r with
  | embedded _ => exact hx
  | heap i =>
    unfold storeIsTrusted at hx ⊢
    simp only [Bool.and_eq_true] at hx ⊢
    refine ⟨(loaded_trusted _).trans hx.1, ?_⟩
    have h2 := hx.2
    unfold certIn at h2 ⊢
    rw [List.any_eq_true] at h2 ⊢
    obtain ⟨d, hd, he⟩ := h2
    refine ⟨d, ?_, he⟩
    show d ∈ (Spec.Store.loaded (w.stores i)).items
    unfold Spec.Store.loaded
    split
    · exact hd
    · exact List.mem_append_left _ hd

example := C43_sound_partial exWorld 0 exRoot (by decide +kernel)

/-- A trusted store in memory, and a directory of intermediate certificates that has not been read: `potential_chains` reads it on
the way. -/
def exLazyU : World :=
  { exWorld with stores := fun i => if i = 0 then exStoreT else ⟨[], false, none, some (exStoreU.items, none)⟩ }

theorem exLazyU_fine : LoadsFine exLazyU 0 ∧ ¬ Loaded exLazyU 0 ∧
    (∀ i, .heap i ∈ (exLazyU.ctxs 0).stores → (exLazyU.stores i).trusted = true → (exLazyU.stores i).pending = none) ∧
    (potentialChains exEnv 0 10 exLeaf exLazyU).1 =
      .ok [[exRoot, exInter, exLeaf], [exRoot, exInter, exCrossB, exCrossA, exLeaf]] := by
  refine ⟨?_, ?_, ?_, by decide +kernel⟩
  · intro r hr i hi certs e he
    simp only [exLazyU, exWorld, exCtx, List.mem_cons, List.not_mem_nil, or_false] at hr
    rcases hr with rfl | rfl <;> cases hi
    · simp [exLazyU, exStoreT] at he
    · simp [exLazyU] at he; exact he.2.symm
  · intro h
    have := h (.heap 1) (by simp [exLazyU, exWorld, exCtx])
    simp [LoadedStore, exLazyU] at this
  · intro i hi ht
    simp only [exLazyU, exWorld, exCtx, List.mem_cons, List.not_mem_nil, or_false] at hi
    rcases hi with h | h <;> cases h
    · simp [exLazyU, exStoreT]
    · simp [exLazyU] at ht

example := C43_trusted_loaded_partial exEnv 0 exLazyU exLazyU_fine.1 exLazyU_fine.2.2.1

/-! ## C29: trust anchors -/

/-- In every state, whatever the path validator answers, a chain returned by `context.verify` begins with a certificate of a
trusted store of the context, whose CTL — if there is one — accepts the chain at the context's time for the requested EKUs (for
none, if these were given as a one-shot iterator). -/
theorem C29_context_verify (env : Env) (cid : Nat) (c : Cert) (w w' : World) (chain : List Cert)
    (h : ctxVerify env cid c w = (.ok chain, w')) :
    ∃ i root ekus, .heap i ∈ (w.ctxs cid).stores ∧ chain.head? = some root ∧ (w'.stores i).trusted = true ∧
      (∃ d ∈ (w'.stores i).items, SameCert root d) ∧
      (ekus = (w.ctxs cid).ekus.elems ∨ (ekus = [] ∧ ∃ l, (w.ctxs cid).ekus = .gen l)) ∧
      ∀ ctl, (w'.stores i).ctl = some ctl → Accepts env ctl chain ekus ((w.ctxs cid).timestamp.getD env.now) := by
  obtain ⟨w1, h1, h2, h3, h4⟩ := ctxVerify_ok h
  obtain ⟨r, hr, v, hv, i, root, rfl, g1, g2, g3, g4⟩ := verifyTrustLoop_accepts env cid chain _ none w1 w' h4
  rw [h1] at g1 g3 g4
  have ht : reqTime env w1 cid = (w.ctxs cid).timestamp.getD env.now := by
    simp [reqTime, h3, exhaust, exhaustEkus, exhaustKus]
  refine ⟨i, root, reqEkus v cid, hr, g2, g1, g3, ?_, by rw [← ht]; exact g4⟩
  have e1 : (w1.ctxs cid).ekus = (w.ctxs cid).ekus.consumed := by
    simp [h3, exhaust, exhaustEkus, exhaustKus]
  have e2 : reqEkus v cid = (w.ctxs cid).ekus.consumed.elems := by
    rcases hv with rfl | rfl
    · simp [reqEkus, e1]
    · simp only [reqEkus, exhaustEkus, if_true, e1]
      cases (w.ctxs cid).ekus <;> rfl
  rw [e2]
  cases he : (w.ctxs cid).ekus with
  | none => exact .inl rfl
  | list l => exact .inl rfl
  | gen l => exact .inr ⟨rfl, l, rfl⟩

example := C29_context_verify exEnv 0 exLeaf exLazy (ctxVerify exEnv 0 exLeaf exLazy).2 [exRoot, exInter, exLeaf] (Prod.ext (by decide +kernel) rfl)

/-- The path validator is asked one question: it may answer anything to all others.  The trust anchors in that question are the
certificates of the trusted stores, and no others (certificates embedded in a signature are not among them). -/
theorem C29_question (env env' : Env) (cid : Nat) (c : Cert) (w : World) (hf : LoadsFine w cid)
    (hhash : env.hash = env'.hash) (hnow : env.now = env'.now) (hmk : env.mkValidator = env'.mkValidator)
    (hv : env.validate (request (loadedWorld w) cid c) = env'.validate (request (loadedWorld w) cid c)) :
    (ctxVerify env cid c w).1 = (ctxVerify env' cid c w).1 ∧
    ∀ x, x ∈ (request (loadedWorld w) cid c).trustRoots ↔
      ∃ i, .heap i ∈ (w.ctxs cid).stores ∧ (w.stores i).trusted = true ∧ ∃ d ∈ (Spec.Store.loaded (w.stores i)).items, d.obj = x := by
  constructor
  · rw [ctxVerify_loading env cid c w hf, ctxVerify_loading env' cid c w hf,
      ctxVerify_loaded env cid c _ (fun r _ => loadedWorld_loadedStore w r),
      ctxVerify_loaded env' cid c _ (fun r _ => loadedWorld_loadedStore w r), hmk, hv]
    cases env'.mkValidator { request (loadedWorld w) cid c with keyUsages := [], ekus := [] } with
    | error e => rfl
    | ok u =>
      simp only
      cases env'.validate (request (loadedWorld w) cid c) with
      | error e => rfl
      | ok ids =>
        simp only
        cases lookupAll (certMap (knownCerts (loadedWorld w) cid) c) ids with
        | error e => rfl
        | ok chain =>
          simp only
          have hctl : ∀ ctl, ctlVerifyTrust env cid ctl chain = ctlVerifyTrust env' cid ctl chain := by
            intro ctl
            unfold ctlVerifyTrust CTL.findSubject Cert.fingerprint
            rw [hhash, hnow]
          have hst : ∀ r, storeVerifyTrust env cid r chain = storeVerifyTrust env' cid r chain := by
            intro r
            unfold storeVerifyTrust
            simp only [hctl]
            rfl
          have hloop : ∀ rs exc, verifyTrustLoop env cid chain rs exc = verifyTrustLoop env' cid chain rs exc := by
            intro rs
            induction rs with
            | nil => intro exc; cases exc <;> rfl
            | cons r rs ih =>
              intro exc
              funext w
              unfold verifyTrustLoop
              rw [hst]
              simp only [ih]
          unfold ctxVerifyTrust
          simp only [hloop]
  · intro x
    simp only [request, List.mem_flatMap, List.mem_filter, List.mem_map]
    constructor
    · rintro ⟨r, ⟨hr, ht⟩, d, hd, rfl⟩
      cases r with
      | embedded _ => simp [storeTrusted] at ht
      | heap i =>
        rw [storeTrusted_loadedWorld] at ht
        exact ⟨i, hr, ht, d, hd, rfl⟩
    · rintro ⟨i, hr, ht, d, hd, rfl⟩
      refine ⟨.heap i, ⟨hr, ?_⟩, d, hd, rfl⟩
      rw [storeTrusted_loadedWorld]
      exact ht

/-- Surroundings that differ in the answers to other requests. -/
example := C29_question exEnv { exEnv with validate := fun r => if r.endEntity = 3 then exEnv.validate r else .ok [7] } 0 exLeaf exLazy exLazy_fine
  rfl rfl rfl rfl

/-- The chain returned consists of the given certificate and certificates of the stores. -/
theorem C29_members (env : Env) (cid : Nat) (c : Cert) (w : World) (hf : LoadsFine w cid) (chain : List Cert)
    (h : (ctxVerify env cid c w).1 = .ok chain) :
    env.validate (request (loadedWorld w) cid c) = .ok (chain.map Cert.obj) ∧
    ∀ d ∈ chain, d = c ∨ d ∈ knownCerts (loadedWorld w) cid := by
  rw [ctxVerify_loading env cid c w hf, ctxVerify_loaded env cid c _ (fun r _ => loadedWorld_loadedStore w r)] at h
  cases hm : env.mkValidator { request (loadedWorld w) cid c with keyUsages := [], ekus := [] } with
  | error e => rw [hm] at h; cases h
  | ok u =>
    rw [hm] at h
    cases hv : env.validate (request (loadedWorld w) cid c) with
    | error e => rw [hv] at h; exact absurd h (raiseNaming_ne_ok _ _ _)
    | ok ids =>
      rw [hv] at h
      simp only at h
      cases hl : lookupAll (certMap (knownCerts (loadedWorld w) cid) c) ids with
      | error e => rw [hl] at h; cases h
      | ok chain' =>
        rw [hl] at h
        simp only at h
        rw [M.bind_run] at h
        split at h
        · cases h
          obtain ⟨h1, h2⟩ := lookupAll_certMap hl
          exact ⟨by rw [h1], h2⟩
        · cases h

example := C29_members exEnv 0 exLeaf exLazy exLazy_fine [exRoot, exInter, exLeaf] (by decide +kernel)

example : (ctxVerify exEnv 0 exLeaf exLazy).1 = .ok [exRoot, exInter, exLeaf] ∧
    (ctxVerify exEnv 0 exLeaf { exLazy with ctxs := fun _ => exCtx [.embedded [exRoot], .heap 1] }).1 =
      .error ⟨.certificateVerificationError, "Chain verification failed"⟩ := by decide +kernel

end Signify.Props
