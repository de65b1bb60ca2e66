/-
Trust lists and trust decisions: C37-C40, C50, C57.
-/
import Verif.Props.X509

set_option autoImplicit false

namespace Signify.Props

open Signify Spec

/-- An entry for `exRoot`: usable for code signing and time stamping, the former only for leaves issued before 200 and up to time
800. -/
def exRaw : RawSubject :=
  ⟨[1], [("microsoft_ctl_enhkey_usage", [.ekus ["code_signing", "time_stamping"]]),
    ("microsoft_ctl_not_before_filetime", [.fileTime [208, 7, 0, 0, 0, 0, 0, 0]]),
    ("microsoft_ctl_not_before_enhkey_usage", [.ekus ["code_signing"]]),
    ("microsoft_ctl_disallowed_filetime", [.fileTime [64, 31, 0, 0, 0, 0, 0, 0]]),
    ("microsoft_ctl_disallowed_enhkey_usage", [.ekus ["code_signing"]]),
    ("microsoft_ctl_friendly_name", [.str "Root"]), ("microsoft_ctl_key_identifier", [.octets [5, 6]])]⟩

def exSubject : CtlSubject := ⟨[1], some ["code_signing", "time_stamping"], some 800, some ["code_signing"], some 200, some ["code_signing"], some "Root", [5, 6], [], [], none⟩

def exCTL : CTL := ⟨"sha256", [(hexOf [1], exSubject)]⟩

example : parseCTL "sha256" false [⟨[7], []⟩, exRaw] = .ok ⟨"sha256", [(hexOf [7], ⟨[7], none, none, none, none, none, none, [], [], [], none⟩), (hexOf [1], exSubject)]⟩ := by
  decide +kernel

def exCtlChain : List Cert := [exRoot, exInter, exLeaf]

/-- Two entries, read. -/
def exParsed : CTL :=
  ⟨"sha256", [(hexOf [7], ⟨[7], none, none, none, none, none, none, [], [], [], none⟩), (hexOf [1], exSubject)]⟩

/-! ## C40: lookup -/

/-- In a parsed list, `find_subject` returns the last subject whose identifier is the digest of the certificate. -/
theorem C40_find_subject (env : Env) (alg : String) (params : Bool) (raws : List RawSubject) (ctl : CTL)
    (hp : parseCTL alg params raws = .ok ctl) (halg : alg = "sha1" ∨ alg = "sha256") (c : Cert) :
    ∃ found, ctl.findSubject env c = .ok found ∧
      (∀ s, found = some s ↔ ∃ pre r post, raws = pre ++ r :: post ∧ r.identifier = env.hash alg c.der ∧
        (∀ x ∈ post, x.identifier ≠ env.hash alg c.der) ∧ parseSubject r = .ok s) ∧
      (found = none ↔ ∀ r ∈ raws, r.identifier ≠ env.hash alg c.der) := by
  unfold parseCTL at hp
  cases hd : getDigestAlgorithm alg params acceptedDigests with
  | error e => rw [hd] at hp; cases hp
  | ok alg' =>
    rw [hd] at hp
    have hal : alg' = alg := by
      unfold getDigestAlgorithm at hd
      split at hd
      · cases hd
      · split at hd
        · cases hd
        · cases hd; rfl
    subst hal
    simp only at hp
    cases hps : parseSubjects raws [] with
    | error e => rw [hps] at hp; cases hp
    | ok d =>
      rw [hps] at hp
      cases hp
      have hfind : CTL.findSubject env ⟨alg', d⟩ c = .ok (d.get? (hexOf (env.hash alg' c.der))) := by
        unfold CTL.findSubject Cert.fingerprint
        rcases halg with rfl | rfl <;> rfl
      have key : ∀ s, d.get? (hexOf (env.hash alg' c.der)) = some s ↔ ∃ pre r post, raws = pre ++ r :: post ∧
          r.identifier = env.hash alg' c.der ∧ (∀ x ∈ post, x.identifier ≠ env.hash alg' c.der) ∧ parseSubject r = .ok s := by
        intro s
        rw [parseSubjects_get raws [] d hps]
        constructor
        · rintro (h | ⟨-, h⟩)
          · exact h
          · cases h
        · exact .inl
      refine ⟨_, hfind, key, ?_⟩
      constructor
      · intro hnone r hr hid
        -- the last such subject has been parsed
        have hlast : ∀ l : List RawSubject, (∃ r ∈ l, r.identifier = env.hash alg' c.der) → ∃ pre r post, l = pre ++ r :: post ∧
            r.identifier = env.hash alg' c.der ∧ ∀ x ∈ post, x.identifier ≠ env.hash alg' c.der := by
          intro l
          induction l with
          | nil => rintro ⟨r, hr, -⟩; cases hr
          | cons a l ih =>
            rintro ⟨r, hr, hid⟩
            by_cases hex : ∃ r ∈ l, r.identifier = env.hash alg' c.der
            · obtain ⟨pre, r', post, rfl, h1, h2⟩ := ih hex
              exact ⟨a :: pre, r', post, rfl, h1, h2⟩
            · rcases List.mem_cons.mp hr with rfl | hr
              · exact ⟨[], r, l, rfl, hid, fun x hx hx' => hex ⟨x, hx, hx'⟩⟩
              · exact absurd ⟨r, hr, hid⟩ hex
        obtain ⟨pre, r', post, hraws, h1, h2⟩ := hlast raws ⟨r, hr, hid⟩
        have hparsed : ∀ (l : List RawSubject) (d0 : Dict String CtlSubject), parseSubjects l d0 = .ok d →
            ∀ r ∈ l, ∃ s, parseSubject r = .ok s := by
          intro l
          induction l with
          | nil => intro _ _ r hr; cases hr
          | cons a l ih =>
            intro d0 h r hr
            unfold parseSubjects at h
            cases ha : parseSubject a with
            | error e => rw [ha] at h; cases h
            | ok s =>
              rw [ha] at h
              rcases List.mem_cons.mp hr with rfl | hr
              · exact ⟨s, ha⟩
              · exact ih _ h r hr
        obtain ⟨s, hs⟩ := hparsed raws [] hps r' (by rw [hraws]; simp)
        have := (key s).mpr ⟨pre, r', post, hraws, h1, h2, hs⟩
        rw [hnone] at this
        cases this
      · intro h
        cases hg : d.get? (hexOf (env.hash alg' c.der)) with
        | none => rfl
        | some s =>
          obtain ⟨pre, r, post, hraws, h1, -⟩ := (key s).mp hg
          exact absurd h1 (h r (by rw [hraws]; simp))

example := C40_find_subject exEnv "sha256" false [⟨[7], []⟩, exRaw] exParsed (by decide +kernel) (.inr rfl) exRoot

/-- For lists by any other digest algorithm, and only for these, `find_subject` raises CertificateTrustListParseError. -/
theorem C40_unsupported (env : Env) (ctl : CTL) (c : Cert) :
    (∃ e, ctl.findSubject env c = .error e) ↔ ¬ (ctl.algorithm = "sha1" ∨ ctl.algorithm = "sha256") := by
  unfold CTL.findSubject
  by_cases h1 : ctl.algorithm = "sha1"
  · simp [h1]
  · by_cases h2 : ctl.algorithm = "sha256"
    · simp [h2]
    · simp [h1, h2]

theorem C40_error_class (env : Env) (ctl : CTL) (c : Cert) (e : Exc) (h : ctl.findSubject env c = .error e) :
    e.cls = .ctlParseError := by
  unfold CTL.findSubject at h
  split at h
  · cases h
  · split at h
    · cases h
    · cases h; rfl

example := C40_error_class exEnv { exCTL with algorithm := "md5" } exRoot _ rfl

example : CTL.findSubject exEnv exCTL exRoot = .ok (some exSubject) ∧ CTL.findSubject exEnv exCTL exInter = .ok none := by
  decide +kernel

/-! ## C57: the fields of an entry -/

/-- `t` is the type of some attribute, and `v` the first value of the last attribute with that type. -/
def AttributeValue (r : RawSubject) (t : String) (v : CtlVal) : Prop :=
  ∃ pre raw rest post, r.attributes = pre ++ (t, raw :: rest) :: post ∧ (∀ x ∈ post, x.1 ≠ t) ∧ raw.native = .ok v

/-- `b` is the value of type `t`, empty if there is none. -/
def OctetsOrEmpty (r : RawSubject) (t : String) (b : Bytes) : Prop :=
  AttributeValue r t (.octets b) ∨ ((∀ b, ¬ AttributeValue r t (.octets b)) ∧ b = [])

/-- The fields of an entry are those of the (last) attribute of the corresponding type; absent attributes are `None`. -/
theorem C57_fields (r : RawSubject) (s : CtlSubject) (h : parseSubject r = .ok s) :
    s.identifier = r.identifier ∧
    (∀ l, s.ekus = some l ↔ AttributeValue r "microsoft_ctl_enhkey_usage" (.ekus l)) ∧
    (∀ l, s.disallowedEkus = some l ↔ AttributeValue r "microsoft_ctl_disallowed_enhkey_usage" (.ekus l)) ∧
    (∀ l, s.notBeforeEkus = some l ↔ AttributeValue r "microsoft_ctl_not_before_enhkey_usage" (.ekus l)) ∧
    (∀ t, s.disallowedTime = some t ↔ AttributeValue r "microsoft_ctl_disallowed_filetime" (.time (some t))) ∧
    (∀ t, s.notBeforeTime = some t ↔ AttributeValue r "microsoft_ctl_not_before_filetime" (.time (some t))) ∧
    (∀ t, s.friendlyName = some t ↔ AttributeValue r "microsoft_ctl_friendly_name" (.str t)) ∧
    (∀ l, s.chainPolicies = some l ↔ AttributeValue r "microsoft_ctl_root_program_chain_policies" (.ekus l)) ∧
    OctetsOrEmpty r "microsoft_ctl_key_identifier" s.keyIdentifier ∧
    OctetsOrEmpty r "microsoft_ctl_subject_name_md5_hash" s.subjectNameMd5 ∧
    OctetsOrEmpty r "microsoft_ctl_auth_root_sha256_hash" s.authRootSha256 := by
  unfold parseSubject at h
  cases hd : subjectAttributes r.attributes [] with
  | error e => rw [hd] at h; cases h
  | ok d =>
    rw [hd] at h
    cases h
    have key : ∀ t v, d.get? t = some v ↔ AttributeValue r t v := by
      intro t v
      rw [subjectAttributes_get r.attributes [] d hd]
      constructor
      · rintro (h | ⟨-, h⟩)
        · exact h
        · cases h
      · exact .inl
    have ek : ∀ t l, getEkus d t = some l ↔ AttributeValue r t (.ekus l) := by
      intro t l
      rw [← key]
      unfold getEkus
      rcases d.get? t with _ | ⟨_ | _ | _ | _⟩ <;> simp
    have tm : ∀ t x, getTime d t = some x ↔ AttributeValue r t (.time (some x)) := by
      intro t x
      rw [← key]
      unfold getTime
      rcases d.get? t with _ | ⟨_ | _ | _ | _⟩ <;> simp
    have st : ∀ t l, getStr d t = some l ↔ AttributeValue r t (.str l) := by
      intro t l
      rw [← key]
      unfold getStr
      rcases d.get? t with _ | ⟨_ | _ | _ | _⟩ <;> simp
    have oc : ∀ t, OctetsOrEmpty r t (getOctets d t) := by
      intro t
      unfold OctetsOrEmpty
      simp only [← key]
      unfold getOctets
      rcases d.get? t with _ | ⟨_ | _ | _ | _⟩ <;> simp
    exact ⟨rfl, ek _, ek _, ek _, tm _, tm _, st _, ek _, oc _, oc _, oc _⟩

example := C57_fields exRaw exSubject (by decide +kernel)

example : parseSubject exRaw = .ok exSubject := by decide +kernel

/-! ## C38, C39: the policy of an entry -/

/-- `CertificateTrustList.verify_trust` accepts a chain iff the policy does, for the EKUs and the time of the context. -/
theorem C38_policy (env : Env) (cid : Nat) (ctl : CTL) (chain : List Cert) (hne : chain ≠ []) (w : World) :
    (ctlVerifyTrust env cid ctl chain w).1 = .ok () ↔
      Accepts env ctl chain (w.ctxs cid).ekus.elems ((w.ctxs cid).timestamp.getD env.now) := by
  rcases ctlVerifyTrust_cases env cid ctl chain hne w with
    ⟨h1, h2⟩ | ⟨h1, -, -, m, w', -, h2⟩ | ⟨h1, -, m, h2⟩ | ⟨h1, -, -, m, h2⟩
  · rw [h2]; exact ⟨fun _ => h1, fun _ => rfl⟩
  · rw [h2]
    exact ⟨fun h => (by cases h), fun h => absurd h h1⟩
  · rw [h2]
    exact ⟨fun h => (by cases h), fun h => absurd h h1⟩
  · rw [h2]
    exact ⟨fun h => (by cases h), fun h => absurd h h1⟩

example := C38_policy exEnv 0 exCTL exCtlChain (by decide) exWorld

/-- A refusal is a CTLCertificateVerificationError, or a CertificateTrustListParseError if the algorithm is not supported, or a TypeError if the
root is not listed and its name, which the message is to contain, has a value that is not text. -/
theorem C38_refusal (env : Env) (cid : Nat) (ctl : CTL) (root : Cert) (rest : List Cert) (w : World) (e : Exc)
    (h : (ctlVerifyTrust env cid ctl (root :: rest) w).1 = .error e) :
    (e.cls = .ctlParseError ↔ ctl.algorithm ≠ "sha1" ∧ ctl.algorithm ≠ "sha256") ∧
    (e.cls = .typeError ↔ (ctl.algorithm = "sha1" ∨ ctl.algorithm = "sha256") ∧
      ctl.subjects.get? (hexOf (env.hash ctl.algorithm root.der)) = none ∧ ¬ Textual root.subject) ∧
    (e.cls = .ctlParseError ∨ e.cls = .typeError ∨ e.cls = .ctlCertificateVerificationError) := by
  rcases ctlVerifyTrust_cases env cid ctl (root :: rest) (by simp) w with
    ⟨h1, h2⟩ | ⟨-, h1, h3, m, w', -, h2⟩ | ⟨-, h1, m, h2⟩ | ⟨-, h1, ⟨root', h3, h4, h5⟩, m, h2⟩
  · rw [h2] at h; cases h
  · rw [h2] at h; cases h
    refine ⟨⟨fun h => (by cases h), fun h => ?_⟩, ⟨fun h => (by cases h), fun h => absurd (h3 root rfl h.2.1) h.2.2⟩, .inr (.inr rfl)⟩
    rcases h1 with h1 | h1
    · exact absurd h1 h.1
    · exact absurd h1 h.2
  · rw [h2] at h; cases h
    exact ⟨⟨fun _ => ⟨fun h => h1 (.inl h), fun h => h1 (.inr h)⟩, fun _ => rfl⟩,
      ⟨fun h => (by cases h), fun h => absurd h.1 h1⟩, .inl rfl⟩
  · rw [h2] at h; cases h; cases h3
    refine ⟨⟨fun h => (by cases h), fun h => ?_⟩, ⟨fun _ => ⟨h1, h5, h4⟩, fun _ => rfl⟩, .inr (.inl rfl)⟩
    rcases h1 with h1 | h1
    · exact absurd h1 h.1
    · exact absurd h1 h.2

example := C38_refusal { exEnv with now := 800 } 0 exCTL exRoot [exLeaf] exWorld ⟨.ctlCertificateVerificationError, "disallowed since"⟩
  (by decide +kernel)

/-- A listed root, affected EKU and leaf issued early enough: accepted before time 800, refused from then on. -/
example : (ctlVerifyTrust exEnv 0 exCTL exCtlChain exWorld).1 = .ok () ∧
    (ctlVerifyTrust { exEnv with now := 799 } 0 exCTL exCtlChain exWorld).1 = .ok () ∧
    (ctlVerifyTrust { exEnv with now := 800 } 0 exCTL exCtlChain exWorld).1 =
      .error ⟨.ctlCertificateVerificationError, "disallowed since"⟩ ∧
    (ctlVerifyTrust exEnv 0 exCTL [exRoot, { exLeaf with validFrom := 200 }] exWorld).1 =
      .error ⟨.ctlCertificateVerificationError, "disallowed for certificates issued after"⟩ := by decide +kernel

/-- Acceptance is monotone: fewer EKUs, an earlier time, an earlier-issued leaf keep it; the certificates between root and leaf
do not matter. -/
theorem C39_monotone (env : Env) (ctl : CTL) (cid cid' : Nat) (w w' : World) (root leaf leaf' : Cert) (chain chain' : List Cert)
    (hroot : chain.head? = some root) (hleaf : chain.getLast? = some leaf)
    (hroot' : chain'.head? = some root) (hleaf' : chain'.getLast? = some leaf')
    (hissued : leaf'.validFrom ≤ leaf.validFrom)
    (hekus : ∀ e ∈ (w'.ctxs cid').ekus.elems, e ∈ (w.ctxs cid).ekus.elems)
    (htime : (w'.ctxs cid').timestamp.getD env.now ≤ (w.ctxs cid).timestamp.getD env.now)
    (h : (ctlVerifyTrust env cid ctl chain w).1 = .ok ()) : (ctlVerifyTrust env cid' ctl chain' w').1 = .ok () := by
  rw [C38_policy _ _ _ _ (by rintro rfl; cases hroot)] at h
  rw [C38_policy _ _ _ _ (by rintro rfl; cases hroot')]
  obtain ⟨h0, r, l, s, h1, h2, h3, h4⟩ := h
  rw [hroot] at h1
  rw [hleaf] at h2
  cases h1
  cases h2
  have aff : ∀ {time : Option Int} {ek : Option (List String)} {t t' : Int}, t' ≤ t →
      Affected time ek (w'.ctxs cid').ekus.elems t' → Affected time ek (w.ctxs cid).ekus.elems t := by
    rintro time ek t t' ht ⟨a1, a2, a3⟩
    refine ⟨a1, fun x hx => Int.le_trans (a2 x hx) ht, fun l hl => ?_⟩
    obtain ⟨e, he, hel⟩ := a3 l hl
    exact ⟨e, hekus e he, hel⟩
  exact ⟨h0, root, leaf', s, hroot', hleaf', h3,
    ⟨fun l hl hne e he => h4.within l hl hne e (hekus e he), fun ha => h4.notBefore (aff hissued ha),
      fun ha => h4.allowed (aff htime ha)⟩⟩

/-- An older leaf, at an earlier time, with fewer usages asked for. -/
example := C39_monotone exEnv exCTL 0 0 exWorld { exWorld with ctxs := fun _ => { exCtx [] with ekus := .none, timestamp := some 400 } } exRoot exLeaf
  { exLeaf with validFrom := 50 } exCtlChain [exRoot, { exLeaf with validFrom := 50 }] rfl rfl rfl rfl (by decide)
  (by decide +kernel) (by decide +kernel) (by decide +kernel)

/-! ## C37: trust -/

/-- Store 0 holds the root under a CTL by MD5, store 1 without CTL. -/
def exMd5 (order : List StoreRef) : World where
  stores := fun i => if i = 0 then ⟨[exRoot], true, some ⟨"md5", []⟩, none⟩ else exStoreT
  ctxs := fun _ => exCtx order
  nextCtx := 1

/-- "verify_trust returns iff some store accepts, regardless of the order of the stores" fails: a store that has the root under a
CTL with an unsupported algorithm makes verification fail if it comes before the accepting store, and not if it comes after. -/
theorem C37_order_false :
    ¬ ∀ (env : Env) (cid : Nat) (chain : List Cert) (w w' : World), chain ≠ [] → w.stores = w'.stores →
      w'.ctxs = (fun i => { w.ctxs i with stores := (w.ctxs i).stores.reverse }) →
      (∃ l, (w.ctxs cid).ekus = .list l) →
      (ctxVerifyTrust env cid chain w).1 = .ok () → (ctxVerifyTrust env cid chain w').1 = .ok () := by
  intro h
  have := h exEnv 0 exCtlChain (exMd5 [.heap 1, .heap 0]) (exMd5 [.heap 0, .heap 1]) (by decide) rfl rfl ⟨_, rfl⟩
    (by decide +kernel)
  revert this
  decide +kernel

/-- If the CTLs of the stores use supported algorithms, the EKUs are not a one-shot iterator and the name of the root is text, `verify_trust` returns iff some
store accepts the chain; else it raises CTLCertificateVerificationError if a trusted store contains the root,
CertificateVerificationError if none does. -/
theorem C37_iff_partial (env : Env) (cid : Nat) (chain : List Cert) (hne : chain ≠ []) (w : World)
    (ht : ∀ root, chain.head? = some root → Textual root.subject)
    (hr : ∀ l, (w.ctxs cid).ekus ≠ .gen l)
    (hs : ∀ i, .heap i ∈ (w.ctxs cid).stores → ∀ ctl, (w.stores i).ctl = some ctl → ctl.algorithm = "sha1" ∨ ctl.algorithm = "sha256") :
    ((ctxVerifyTrust env cid chain w).1 = .ok () ↔ ∃ r ∈ (w.ctxs cid).stores,
      StoreAccepts env w r chain (w.ctxs cid).ekus.elems ((w.ctxs cid).timestamp.getD env.now)) ∧
    (∀ e, (ctxVerifyTrust env cid chain w).1 = .error e →
      e.cls = .ctlCertificateVerificationError ∧ (∃ root, chain.head? = some root ∧ InTrustedStore w cid root) ∨
      e.cls = .certificateVerificationError ∧ ¬ ∃ root, chain.head? = some root ∧ InTrustedStore w cid root) ∧
    (ctxVerifyTrust env cid chain w).2 = w := by
  have hre : Reiterable (w.ctxs cid).ekus := by
    unfold Reiterable
    cases h : (w.ctxs cid).ekus with
    | none => rfl
    | list l => rfl
    | gen l => exact absurd h (hr l)
  have hun : ∀ r ∈ (w.ctxs cid).stores, ¬ StoreUnsupported w r chain ∧ ¬ StoreUnnameable env w r chain := by
    refine fun r hrm => ⟨?_, ?_⟩
    · rintro ⟨-, i, ctl, rfl, h1, h2⟩
      exact h2 (hs i hrm ctl h1)
    · rintro ⟨root, h1, h2, -⟩
      exact h2 (ht root h1)
  have hroot : (∃ r ∈ (w.ctxs cid).stores, StoreHasRoot w r chain) ↔ ∃ root, chain.head? = some root ∧ InTrustedStore w cid root := by
    constructor
    · rintro ⟨r, hrm, i, root, rfl, h1, h2, h3⟩
      exact ⟨root, h2, i, hrm, h1, h3⟩
    · rintro ⟨root, h2, i, hrm, h1, h3⟩
      exact ⟨_, hrm, i, root, rfl, h1, h2, h3⟩
  unfold ctxVerifyTrust
  rw [M.getCtx_bind]
  rcases verifyTrustLoop_reiterable env cid chain hne w hre (w.ctxs cid).stores none (by simp) hun with ⟨h1, h2⟩ | ⟨h1, e, h2, h3⟩
  · rw [h2]
    exact ⟨⟨fun _ => h1, fun _ => rfl⟩, fun e he => (by cases he), rfl⟩
  · rw [h2]
    refine ⟨⟨fun h => (by cases h), fun h => absurd h h1⟩, ?_, rfl⟩
    intro e' he'
    cases he'
    rw [← hroot]
    rcases h3 with ⟨h4 | h4, h5⟩ | ⟨h4, h5⟩
    · exact absurd rfl h4
    · exact .inl ⟨h5, h4⟩
    · exact .inr ⟨h5, h4.2⟩

example := C37_iff_partial exEnv 0 exCtlChain (by decide) exWorld (by rintro _ ⟨⟩; decide +kernel) (fun l h => by cases h) (by
  intro i _ ctl h
  simp only [exWorld] at h
  split at h <;> cases h)

theorem verifyTrustLoop_exact (env : Env) (cid : Nat) (chain : List Cert) (hne : chain ≠ []) (w : World) (hr : Reiterable (w.ctxs cid).ekus)
    (rs : List StoreRef) (exc : Option Exc) (hexc : ∀ e, exc = some e → e.cls = .ctlCertificateVerificationError) :
    (∃ pre r post, rs = pre ++ r :: post ∧ (∀ q ∈ pre, ¬ StoreUnsupported w q chain ∧ ¬ StoreUnnameable env w q chain) ∧
      (StoreAccepts env w r chain (reqEkus w cid) (reqTime env w cid) ∧ verifyTrustLoop env cid chain rs exc w = (.ok (), w) ∨
       (∀ q ∈ pre, ¬ StoreAccepts env w q chain (reqEkus w cid) (reqTime env w cid)) ∧
        (StoreUnsupported w r chain ∧ (∃ m, verifyTrustLoop env cid chain rs exc w = (.error ⟨.ctlParseError, m⟩, w)) ∨
         StoreUnnameable env w r chain ∧ ∃ m, verifyTrustLoop env cid chain rs exc w = (.error ⟨.typeError, m⟩, w)))) ∨
    ((∀ r ∈ rs, (¬ StoreUnsupported w r chain ∧ ¬ StoreUnnameable env w r chain) ∧ ¬ StoreAccepts env w r chain (reqEkus w cid) (reqTime env w cid)) ∧
      ∃ e, verifyTrustLoop env cid chain rs exc w = (.error e, w) ∧ e.cls ≠ .ctlParseError ∧ e.cls ≠ .typeError) := by
  have hex : ∀ {w'}, (w' = w ∨ w' = exhaustEkus w cid) → w' = w := by
    rintro w' (h | h)
    · exact h
    · rw [h, exhaustEkus_of hr]
  induction rs generalizing exc with
  | nil =>
    refine .inr ⟨by simp, ?_⟩
    cases exc with
    | none => exact ⟨_, rfl, by decide, by decide⟩
    | some e => exact ⟨e, rfl, by rw [hexc e rfl]; decide, by rw [hexc e rfl]; decide⟩
  | cons r rs ih =>
    have hrun : verifyTrustLoop env cid chain (r :: rs) exc w =
        (match storeVerifyTrust env cid r chain w with
        | (.ok (), w') => (.ok (), w')
        | (.error e, w') =>
          if e.is .certificateNotTrusted then verifyTrustLoop env cid chain rs exc w'
          else if e.is .verificationError then verifyTrustLoop env cid chain rs (some e) w'
          else (.error e, w')) := rfl
    by_cases step : ∃ exc', (∀ e, exc' = some e → e.cls = .ctlCertificateVerificationError) ∧
        (¬ StoreUnsupported w r chain ∧ ¬ StoreUnnameable env w r chain) ∧ ¬ StoreAccepts env w r chain (reqEkus w cid) (reqTime env w cid) ∧
        verifyTrustLoop env cid chain (r :: rs) exc w = verifyTrustLoop env cid chain rs exc' w
    · obtain ⟨exc', he, hu, ha, hq⟩ := step
      rcases ih exc' he with ⟨pre, r', post, h1, h2, h3⟩ | ⟨h1, h2⟩
      · refine .inl ⟨r :: pre, r', post, by rw [h1]; rfl, ?_, ?_⟩
        · intro q hqm
          rcases List.mem_cons.1 hqm with rfl | hqm
          · exact hu
          · exact h2 q hqm
        · rw [hq]
          rcases h3 with h3 | ⟨h3, h4⟩
          · exact .inl h3
          · refine .inr ⟨fun q hqm => ?_, h4⟩
            rcases List.mem_cons.1 hqm with rfl | hqm
            · exact ha
            · exact h3 q hqm
      · refine .inr ⟨fun q hqm => ?_, by rw [hq]; exact h2⟩
        rcases List.mem_cons.1 hqm with rfl | hqm
        · exact ⟨hu, ha⟩
        · exact h1 q hqm
    rcases storeVerifyTrust_cases env cid r chain hne w with
      ⟨ha, w', hw, h⟩ | ⟨ha, hroot, hn, m, h⟩ | ⟨ha, hroot, hu, hn, m, w', hw, h⟩ | ⟨ha, hu, -, m, h⟩ | ⟨ha, -, hu, m, h⟩
    · refine .inl ⟨[], r, rs, rfl, by simp, .inl ⟨ha, ?_⟩⟩
      rw [hrun, h, hex hw]
    · refine absurd ⟨exc, hexc, ⟨fun hu => hroot hu.1, hn⟩, ha, ?_⟩ step
      rw [hrun, h]
      have : Exc.is ⟨.certificateNotTrusted, m⟩ .certificateNotTrusted = true := by simp [Exc.is]; decide
      simp only [this, if_true]
    · refine absurd ⟨some ⟨.ctlCertificateVerificationError, m⟩, (by rintro e he; cases he; rfl), ⟨hu, hn⟩, ha, ?_⟩ step
      rw [hrun, h, hex hw]
      have h1 : Exc.is ⟨.ctlCertificateVerificationError, m⟩ .certificateNotTrusted = false := by simp [Exc.is]; decide
      have h2 : Exc.is ⟨.ctlCertificateVerificationError, m⟩ .verificationError = true := by simp [Exc.is]; decide
      simp only [h1, h2, if_true, Bool.false_eq_true, if_false]
    · refine .inl ⟨[], r, rs, rfl, by simp, .inr ⟨by simp, .inl ⟨hu, m, ?_⟩⟩⟩
      rw [hrun, h]
      have h1 : Exc.is ⟨.ctlParseError, m⟩ .certificateNotTrusted = false := by simp [Exc.is]; decide
      have h2 : Exc.is ⟨.ctlParseError, m⟩ .verificationError = false := by simp [Exc.is]; decide
      simp only [h1, h2, Bool.false_eq_true, if_false]
    · refine .inl ⟨[], r, rs, rfl, by simp, .inr ⟨by simp, .inr ⟨hu, m, ?_⟩⟩⟩
      rw [hrun, h]
      have h1 : Exc.is ⟨.typeError, m⟩ .certificateNotTrusted = false := by simp [Exc.is]; decide
      have h2 : Exc.is ⟨.typeError, m⟩ .verificationError = false := by simp [Exc.is]; decide
      simp only [h1, h2, Bool.false_eq_true, if_false]

/-- As `C37_exact`, for iterables that yield the same again, such as an iterator that has been used up. -/
theorem trust_exact (env : Env) (cid : Nat) (chain : List Cert) (hne : chain ≠ []) (w : World) (hre : Reiterable (w.ctxs cid).ekus) :
    ((ctxVerifyTrust env cid chain w).1 = .ok () ↔ ∃ pre r post, (w.ctxs cid).stores = pre ++ r :: post ∧
      StoreAccepts env w r chain (w.ctxs cid).ekus.elems ((w.ctxs cid).timestamp.getD env.now) ∧
      ∀ q ∈ pre, ¬ StoreUnsupported w q chain ∧ ¬ StoreUnnameable env w q chain) ∧
    ((∃ m, (ctxVerifyTrust env cid chain w).1 = .error ⟨.ctlParseError, m⟩) ↔ ∃ pre r post, (w.ctxs cid).stores = pre ++ r :: post ∧
      StoreUnsupported w r chain ∧ ∀ q ∈ pre, ¬ StoreUnnameable env w q chain ∧
        ¬ StoreAccepts env w q chain (w.ctxs cid).ekus.elems ((w.ctxs cid).timestamp.getD env.now)) ∧
    ((∃ m, (ctxVerifyTrust env cid chain w).1 = .error ⟨.typeError, m⟩) ↔ ∃ pre r post, (w.ctxs cid).stores = pre ++ r :: post ∧
      StoreUnnameable env w r chain ∧ ∀ q ∈ pre, ¬ StoreUnsupported w q chain ∧
        ¬ StoreAccepts env w q chain (w.ctxs cid).ekus.elems ((w.ctxs cid).timestamp.getD env.now)) := by
  -- a store does at most one of these
  have excl : ∀ r, (StoreUnsupported w r chain → ¬ StoreAccepts env w r chain (reqEkus w cid) (reqTime env w cid)) ∧
      (StoreUnnameable env w r chain → ¬ StoreAccepts env w r chain (reqEkus w cid) (reqTime env w cid)) ∧
      (StoreUnsupported w r chain → ¬ StoreUnnameable env w r chain) := by
    intro r
    rcases storeVerifyTrust_cases env cid r chain hne w with ⟨ha, -⟩ | ⟨ha, h1, h2, -⟩ | ⟨ha, -, h1, h2, -⟩ | ⟨ha, -, h2, -⟩ | ⟨ha, h1, -⟩
    · obtain ⟨i, root, rfl, h1, h2, h3, h4⟩ := ha
      refine ⟨?_, ?_, ?_⟩
      · rintro ⟨-, j, ctl, e1, e2, e3⟩
        cases e1
        exact absurd (h4 ctl e2).1 e3
      · rintro ⟨root', e1, -, e2 | ⟨j, ctl, e2, -, e3, -, e4⟩⟩
        · exact absurd ⟨i, root, rfl, h1, h2, h3⟩ e2
        · cases e2
          obtain ⟨-, root'', leaf, s, f1, -, f2, -⟩ := h4 ctl e3
          rw [h2] at e1 f1
          cases e1; cases f1
          rw [e4] at f2; cases f2
      · rintro ⟨-, j, ctl, e1, e2, e3⟩
        cases e1
        exact absurd (h4 ctl e2).1 e3
    · exact ⟨fun h => absurd h.1 h1, fun h => absurd h h2, fun h => absurd h.1 h1⟩
    · exact ⟨fun h => absurd h h1, fun h => absurd h h2, fun h => absurd h h1⟩
    · exact ⟨fun _ => ha, fun _ => ha, fun _ => h2⟩
    · exact ⟨fun _ => ha, fun _ => ha, fun h => absurd h h1⟩
  -- of two such places in the list, one is not after the other
  have order : ∀ {l pre post pre' post' : List StoreRef} {r r' : StoreRef}, l = pre ++ r :: post → l = pre' ++ r' :: post' →
      (r = r' ∨ r ∈ pre' ∨ r' ∈ pre) := by
    intro l pre post pre' post' r r' h h'
    subst h
    induction pre generalizing pre' with
    | nil =>
      cases pre' with
      | nil => cases h'; exact .inl rfl
      | cons a l => cases h'; exact .inr (.inl (by simp))
    | cons a pre ih =>
      cases pre' with
      | nil => cases h'; exact .inr (.inr (by simp))
      | cons b l =>
        rw [List.cons_append, List.cons_append, List.cons.injEq] at h'
        rcases ih h'.2 with h | h | h
        · exact .inl h
        · exact .inr (.inl (List.mem_cons_of_mem _ h))
        · exact .inr (.inr (List.mem_cons_of_mem _ h))
  unfold ctxVerifyTrust
  rw [M.getCtx_bind]
  rcases verifyTrustLoop_exact env cid chain hne w hre (w.ctxs cid).stores none (by simp) with
    ⟨pre, r, post, h1, h2, ⟨h3, h4⟩ | ⟨h3, ⟨h4, m, h5⟩ | ⟨h4, m, h5⟩⟩⟩ | ⟨h1, e, h2, h3, h3'⟩
  · rw [h4]
    refine ⟨⟨fun _ => ⟨pre, r, post, h1, h3, h2⟩, fun _ => rfl⟩, ⟨fun ⟨m, h⟩ => (by cases h), ?_⟩, fun ⟨m, h⟩ => (by cases h), ?_⟩
    · rintro ⟨pre', r', post', k1, k2, k3⟩
      exfalso
      rcases order h1 k1 with h | h | h
      · subst h; exact (excl _).1 k2 h3
      · exact (k3 _ h).2 h3
      · exact (h2 _ h).1 k2
    · rintro ⟨pre', r', post', k1, k2, k3⟩
      exfalso
      rcases order h1 k1 with h | h | h
      · subst h; exact (excl _).2.1 k2 h3
      · exact (k3 _ h).2 h3
      · exact (h2 _ h).2 k2
  · rw [h5]
    refine ⟨⟨fun h => (by cases h), ?_⟩, ⟨fun _ => ⟨pre, r, post, h1, h4, fun q hq => ⟨(h2 q hq).2, h3 q hq⟩⟩, fun _ => ⟨m, rfl⟩⟩,
      fun ⟨m, h⟩ => (by cases h), ?_⟩
    · rintro ⟨pre', r', post', k1, k2, k3⟩
      exfalso
      rcases order h1 k1 with h | h | h
      · subst h; exact (excl _).1 h4 k2
      · exact (k3 _ h).1 h4
      · exact h3 _ h k2
    · rintro ⟨pre', r', post', k1, k2, k3⟩
      exfalso
      rcases order h1 k1 with h | h | h
      · subst h; exact (excl _).2.2 h4 k2
      · exact (k3 _ h).1 h4
      · exact (h2 _ h).2 k2
  · rw [h5]
    refine ⟨⟨fun h => (by cases h), ?_⟩, ⟨fun ⟨m, h⟩ => (by cases h), ?_⟩,
      fun _ => ⟨pre, r, post, h1, h4, fun q hq => ⟨(h2 q hq).1, h3 q hq⟩⟩, fun _ => ⟨m, rfl⟩⟩
    · rintro ⟨pre', r', post', k1, k2, k3⟩
      exfalso
      rcases order h1 k1 with h | h | h
      · subst h; exact (excl _).2.1 h4 k2
      · exact (k3 _ h).2 h4
      · exact h3 _ h k2
    · rintro ⟨pre', r', post', k1, k2, k3⟩
      exfalso
      rcases order h1 k1 with h | h | h
      · subst h; exact (excl _).2.2 k2 h4
      · exact (k3 _ h).1 h4
      · exact (h2 _ h).1 k2
  · rw [h2]
    refine ⟨⟨fun h => (by cases h), ?_⟩, ⟨fun ⟨m, h⟩ => (by cases h; exact absurd rfl h3), ?_⟩, fun ⟨m, h⟩ => (by cases h; exact absurd rfl h3'), ?_⟩
    · rintro ⟨pre', r', post', k1, k2, k3⟩
      exact absurd k2 (h1 r' (by rw [k1]; simp)).2
    · rintro ⟨pre', r', post', k1, k2, k3⟩
      exact absurd k2 (h1 r' (by rw [k1]; simp)).1.1
    · rintro ⟨pre', r', post', k1, k2, k3⟩
      exact absurd k2 (h1 r' (by rw [k1]; simp)).1.2

/-- What holds instead of the property, for trust lists of all algorithms: `verify_trust` returns iff some store accepts the chain and no store before it
has the root under a list with an unsupported algorithm, or would have to name a root that cannot be named.  It raises CertificateTrustListParseError
(TypeError) iff there is a store of the former (latter) kind, and none before it accepts or is of the other kind. -/
theorem C37_exact (env : Env) (cid : Nat) (chain : List Cert) (hne : chain ≠ []) (w : World) (hr : ∀ l, (w.ctxs cid).ekus ≠ .gen l) :
    ((ctxVerifyTrust env cid chain w).1 = .ok () ↔ ∃ pre r post, (w.ctxs cid).stores = pre ++ r :: post ∧
      StoreAccepts env w r chain (w.ctxs cid).ekus.elems ((w.ctxs cid).timestamp.getD env.now) ∧
      ∀ q ∈ pre, ¬ StoreUnsupported w q chain ∧ ¬ StoreUnnameable env w q chain) ∧
    ((∃ m, (ctxVerifyTrust env cid chain w).1 = .error ⟨.ctlParseError, m⟩) ↔ ∃ pre r post, (w.ctxs cid).stores = pre ++ r :: post ∧
      StoreUnsupported w r chain ∧ ∀ q ∈ pre, ¬ StoreUnnameable env w q chain ∧
        ¬ StoreAccepts env w q chain (w.ctxs cid).ekus.elems ((w.ctxs cid).timestamp.getD env.now)) ∧
    ((∃ m, (ctxVerifyTrust env cid chain w).1 = .error ⟨.typeError, m⟩) ↔ ∃ pre r post, (w.ctxs cid).stores = pre ++ r :: post ∧
      StoreUnnameable env w r chain ∧ ∀ q ∈ pre, ¬ StoreUnsupported w q chain ∧
        ¬ StoreAccepts env w q chain (w.ctxs cid).ekus.elems ((w.ctxs cid).timestamp.getD env.now)) := by
  refine trust_exact env cid chain hne w ?_
  unfold Reiterable
  cases h : (w.ctxs cid).ekus with
  | none => rfl
  | list l => rfl
  | gen l => exact absurd h (hr l)

example := C37_exact exEnv 0 exCtlChain (by decide) (exMd5 [.heap 1, .heap 0]) (fun l h => by cases h)

/-- Both cases occur, with the same stores in different order. -/
example : (ctxVerifyTrust exEnv 0 exCtlChain (exMd5 [.heap 1, .heap 0])).1 = .ok () ∧
    (ctxVerifyTrust exEnv 0 exCtlChain (exMd5 [.heap 0, .heap 1])).1.mapError Exc.cls = .error .ctlParseError := by decide +kernel

/-- A root whose name contains an unknown attribute (the value is given as octets). -/
def exOddRoot : Cert := { exRoot with subject := ⟨[⟨⟨"1.2.3", "1.2.3", .octets [1]⟩, []⟩]⟩ }

/-- A trusted store with that root, and a store without certificates. -/
def exOddRootWorld (order : List StoreRef) : World where
  stores := fun i => if i = 0 then ⟨[exOddRoot], true, none, none⟩ else ⟨[], false, none, none⟩
  ctxs := fun _ => exCtx order
  nextCtx := 1

/-- With such a root the order of the stores matters even without any trust list: a store that does not have it cannot say so. -/
theorem C37_names_false :
    ¬ ∀ (env : Env) (cid : Nat) (chain : List Cert) (w w' : World), chain ≠ [] → w.stores = w'.stores → (∀ i, (w.stores i).ctl = none) →
      w'.ctxs = (fun i => { w.ctxs i with stores := (w.ctxs i).stores.reverse }) →
      (∃ l, (w.ctxs cid).ekus = .list l) →
      (ctxVerifyTrust env cid chain w).1 = .ok () → (ctxVerifyTrust env cid chain w').1 = .ok () := by
  intro h
  have := h exEnv 0 [exOddRoot, exInter, exLeaf] (exOddRootWorld [.heap 0, .heap 1]) (exOddRootWorld [.heap 1, .heap 0]) (by decide) rfl
    (fun i => by simp only [exOddRootWorld]; split <;> rfl) rfl ⟨_, rfl⟩ (by decide +kernel)
  revert this
  decide +kernel

/-- The store raises TypeError. -/
example : StoreUnnameable exEnv (exOddRootWorld [.heap 1, .heap 0]) (.heap 1) [exOddRoot, exInter, exLeaf] ∧
    (ctxVerifyTrust exEnv 0 [exOddRoot, exInter, exLeaf] (exOddRootWorld [.heap 1, .heap 0])).1.mapError Exc.cls = .error .typeError := by
  refine ⟨⟨exOddRoot, rfl, by decide +kernel, .inl ?_⟩, by decide +kernel⟩
  rintro ⟨j, root, h, h1, -⟩
  cases h
  cases h1

/-- Consequently the order of the stores, and repetitions, do not matter under these conditions. -/
theorem C37_order_partial (env : Env) (cid : Nat) (chain : List Cert) (hne : chain ≠ []) (w w' : World)
    (hst : w.stores = w'.stores) (hctx : ∃ stores', w'.ctxs cid = { w.ctxs cid with stores := stores' } ∧
      ∀ r, r ∈ stores' ↔ r ∈ (w.ctxs cid).stores)
    (ht : ∀ root, chain.head? = some root → Textual root.subject) (hr : ∀ l, (w.ctxs cid).ekus ≠ .gen l)
    (hs : ∀ i, .heap i ∈ (w.ctxs cid).stores → ∀ ctl, (w.stores i).ctl = some ctl → ctl.algorithm = "sha1" ∨ ctl.algorithm = "sha256") :
    (ctxVerifyTrust env cid chain w).1 = .ok () ↔ (ctxVerifyTrust env cid chain w').1 = .ok () := by
  obtain ⟨stores', h1, h2⟩ := hctx
  rw [(C37_iff_partial env cid chain hne w ht hr hs).1]
  rw [(C37_iff_partial env cid chain hne w' ht (by rw [h1]; exact hr)
    (by rw [h1, ← hst]; exact fun i hi => hs i ((h2 _).mp hi))).1]
  rw [h1]
  unfold StoreAccepts
  rw [hst]
  constructor
  · rintro ⟨r, hr, h⟩; exact ⟨r, (h2 r).mpr hr, h⟩
  · rintro ⟨r, hr, h⟩; exact ⟨r, (h2 r).mp hr, h⟩

/-- In any case an accepted chain has been accepted by some store (for the requested EKUs, or for none if these are a one-shot
iterator), and no store accepts an empty chain. -/
theorem C37_sound (env : Env) (cid : Nat) (chain : List Cert) (w w' : World) (h : ctxVerifyTrust env cid chain w = (.ok (), w')) :
    ∃ r ∈ (w.ctxs cid).stores, ∃ ekus, (ekus = (w.ctxs cid).ekus.elems ∨ (ekus = [] ∧ ∃ l, (w.ctxs cid).ekus = .gen l)) ∧
      StoreAccepts env w r chain ekus ((w.ctxs cid).timestamp.getD env.now) := by
  unfold ctxVerifyTrust at h
  rw [M.getCtx_bind] at h
  obtain ⟨r, hr, v, hv, hs⟩ := verifyTrustLoop_accepts env cid chain _ none w w' h
  refine ⟨r, hr, _, ?_, hs⟩
  rcases hv with rfl | rfl
  · exact .inl rfl
  · simp only [reqEkus, exhaustEkus, if_true]
    cases he : (w.ctxs cid).ekus with
    | none => exact .inl rfl
    | list l => exact .inl rfl
    | gen l => exact .inr ⟨rfl, l, rfl⟩

example := C37_sound exEnv 0 exCtlChain exWorld (ctxVerifyTrust exEnv 0 exCtlChain exWorld).2 (Prod.ext (by decide +kernel) rfl)

/-- Two stores with the root, one of them with a CTL that refuses it: accepted in both orders. -/
def exTwo (order : List StoreRef) : World where
  stores := fun i => if i = 0 then ⟨[exRoot], true, some ⟨"sha256", []⟩, none⟩ else exStoreT
  ctxs := fun _ => exCtx order
  nextCtx := 1

example := C37_order_partial exEnv 0 exCtlChain (by decide) (exTwo [.heap 0, .heap 1]) (exTwo [.heap 1, .heap 0]) rfl
  ⟨[.heap 1, .heap 0], rfl, fun r => by simp [exTwo, exCtx, or_comm]⟩
  (by rintro _ ⟨⟩; decide +kernel) (fun l h => by cases h) (by
    intro i _ ctl h
    simp only [exTwo] at h
    split at h <;> cases h
    exact .inr rfl)

example : (ctxVerifyTrust exEnv 0 exCtlChain (exTwo [.heap 0, .heap 1])).1 = .ok () ∧
    (ctxVerifyTrust exEnv 0 exCtlChain (exTwo [.heap 1, .heap 0])).1 = .ok () ∧
    (ctxVerifyTrust exEnv 0 exCtlChain (exTwo [.heap 0])).1 =
      .error ⟨.ctlCertificateVerificationError, "The root is not in the certificate trust list"⟩ := by decide +kernel

/-! ## C50: one-shot iterables -/

/-- The root is only listed for time stamping. -/
def exEkuWorld (ekus : PyIter) : World where
  stores := fun i => if i = 0 then ⟨[exRoot], true, some ⟨"sha256", [(hexOf [1], ⟨[1], some ["time_stamping"], none, none, none, none, none, [], [], [], none⟩)]⟩, none⟩
    else exStoreU
  ctxs := fun _ => { exCtx [.heap 0, .heap 1] with ekus := ekus }
  nextCtx := 1

/-- The context with its usages given as a list. -/
def asList (w : World) (cid : Nat) : World :=
  { w with ctxs := fun j => if j = cid then { w.ctxs cid with ekus := .list (w.ctxs cid).ekus.elems, keyUsages := .list (w.ctxs cid).keyUsages.elems }
    else w.ctxs j }

/-- "Results are the same for a generator as for the list of its elements" fails: the path validator uses up the generator, and
the CTL then sees no requested EKU — a root that is not trusted for code signing is accepted. -/
theorem C50_generator_false :
    ¬ ∀ (env : Env) (cid : Nat) (c : Cert) (w : World), Loaded w cid →
      (ctxVerify env cid c w).1 = (ctxVerify env cid c (asList w cid)).1 := by
  intro h
  have := h exEnv 0 exLeaf (exEkuWorld (.gen ["code_signing"])) (by
    intro r hr
    simp only [exEkuWorld, exCtx, List.mem_cons, List.not_mem_nil, or_false] at hr
    rcases hr with rfl | rfl <;> simp [LoadedStore, exEkuWorld, exStoreU])
  revert this
  decide +kernel

/-- It holds if no store of the context has a CTL. -/
theorem C50_generator_partial (env : Env) (cid : Nat) (c : Cert) (w : World) (hl : Loaded w cid)
    (hc : ∀ i, .heap i ∈ (w.ctxs cid).stores → (w.stores i).ctl = none) :
    (ctxVerify env cid c w).1 = (ctxVerify env cid c (asList w cid)).1 := by
  have hctx : ((asList w cid).ctxs cid) = { w.ctxs cid with ekus := .list (w.ctxs cid).ekus.elems, keyUsages := .list (w.ctxs cid).keyUsages.elems } := by
    simp [asList]
  have hl' : Loaded (asList w cid) cid := by
    unfold Loaded
    rw [hctx]
    exact hl
  have hreq : request (asList w cid) cid c = request w cid c := by
    unfold request
    rw [hctx]
    rfl
  have hk : knownCerts (asList w cid) cid = knownCerts w cid := by
    unfold knownCerts
    rw [hctx]
    rfl
  rw [ctxVerify_loaded env cid c w hl, ctxVerify_loaded env cid c _ hl', hreq, hk]
  cases env.mkValidator { request w cid c with keyUsages := [], ekus := [] } with
  | error e => rfl
  | ok u =>
    simp only
    cases env.validate (request w cid c) with
    | error e => rfl
    | ok ids =>
      simp only
      cases lookupAll (certMap (knownCerts w cid) c) ids with
      | error e => rfl
      | ok chain =>
        simp only
        unfold ctxVerifyTrust
        rw [M.bind_assoc, M.getCtx_bind, M.getCtx_bind, exhaust_ctx_stores, exhaust_ctx_stores, hctx]
        have := verifyTrustLoop_noCtl env cid cid chain (w.ctxs cid).stores none (exhaust w cid) (exhaust (asList w cid) cid) rfl hc
        rw [M.bind_run, M.bind_run]
        rcases h1 : verifyTrustLoop env cid chain (w.ctxs cid).stores none (exhaust w cid) with ⟨x, w1⟩
        rcases h2 : verifyTrustLoop env cid chain (w.ctxs cid).stores none (exhaust (asList w cid) cid) with ⟨y, w2⟩
        rw [h1, h2] at this
        simp only at this
        subst this
        cases x <;> rfl

/-- A generator, in a context without trust lists. -/
example := C50_generator_partial exEnv 0 exLeaf { exWorld with ctxs := fun _ => { exCtx [.heap 0, .heap 1] with ekus := .gen ["code_signing"] } }
  (fun r hr => by
    simp only [exCtx, List.mem_cons, List.not_mem_nil, or_false] at hr
    rcases hr with rfl | rfl <;> rfl)
  (fun i hi => by
    simp only [exCtx, List.mem_cons, StoreRef.heap.injEq, List.not_mem_nil, or_false] at hi
    rcases hi with rfl | rfl <;> rfl)

/-- The context with other EKUs. -/
def withEkus (w : World) (cid : Nat) (p : PyIter) : World :=
  { w with ctxs := fun j => if j = cid then { w.ctxs cid with ekus := p } else w.ctxs j }

/-- The stores without their CTLs. -/
def withoutCtls (w : World) : World := { w with stores := fun i => { w.stores i with ctl := none } }

theorem exhaust_ctx (w : World) (cid : Nat) : (exhaust w cid).ctxs cid =
    { w.ctxs cid with ekus := (w.ctxs cid).ekus.consumed, keyUsages := (w.ctxs cid).keyUsages.consumed } := by
  simp [exhaust, exhaustEkus, exhaustKus]

theorem trust_nonempty {env : Env} {cid : Nat} {chain : List Cert} {w : World} (h : (ctxVerifyTrust env cid chain w).1 = .ok ()) : chain ≠ [] := by
  rintro rfl
  obtain ⟨r, -, ekus, -, i, root, -, -, h1, -⟩ := C37_sound env cid [] w _ (Prod.ext h rfl)
  cases h1

theorem verify_ok_iff {env : Env} {cid : Nat} {c : Cert} {w : World} (hl : Loaded w cid) {chain : List Cert} :
    (ctxVerify env cid c w).1 = .ok chain ↔
      (∃ u, env.mkValidator { request w cid c with keyUsages := [], ekus := [] } = .ok u) ∧
      (∃ ids, env.validate (request w cid c) = .ok ids ∧ lookupAll (certMap (knownCerts w cid) c) ids = .ok chain) ∧
      (ctxVerifyTrust env cid chain (exhaust w cid)).1 = .ok () := by
  rw [ctxVerify_loaded env cid c w hl]
  cases h1 : env.mkValidator { request w cid c with keyUsages := [], ekus := [] } with
  | error e => exact ⟨fun h => (by cases h), fun ⟨⟨u, h⟩, _⟩ => (by cases h)⟩
  | ok u =>
    simp only
    cases h2 : env.validate (request w cid c) with
    | error e => exact ⟨fun h => absurd h (raiseNaming_ne_ok _ _ _), fun ⟨_, ⟨ids, h, _⟩, _⟩ => (by cases h)⟩
    | ok ids =>
      simp only
      cases h3 : lookupAll (certMap (knownCerts w cid) c) ids with
      | error e =>
        refine ⟨fun h => (by cases h), fun ⟨_, ⟨ids', h, h'⟩, _⟩ => ?_⟩
        cases h
        rw [h3] at h'
        cases h'
      | ok ch =>
        simp only
        rw [M.bind_run]
        rcases h4 : ctxVerifyTrust env cid ch (exhaust w cid) with ⟨x, w1⟩
        cases x with
        | error e =>
          refine ⟨fun h => (by cases h), fun ⟨_, ⟨ids', h, h'⟩, h''⟩ => ?_⟩
          cases h
          rw [h3] at h'
          cases h'
          rw [h4] at h''
          cases h''
        | ok v =>
          refine ⟨fun h => ?_, fun ⟨_, ⟨ids', h, h'⟩, h''⟩ => ?_⟩
          · cases h
            exact ⟨⟨u, by trivial⟩, ⟨ids, rfl, h3⟩, by rw [h4]⟩
          · cases h
            rw [h3] at h'
            cases h'
            rfl

/-- What holds in place of C50, for all contexts whose stores have been loaded: with a generator, `verify` returns a chain iff it is returned for the
list of the elements when all CTLs are left out, and the CTLs accept it for a request of no EKUs at all. -/
theorem C50_exact (env : Env) (cid : Nat) (c : Cert) (w : World) (hl : Loaded w cid) (l : List String) (he : (w.ctxs cid).ekus = .gen l)
    (chain : List Cert) :
    (ctxVerify env cid c w).1 = .ok chain ↔
      (ctxVerify env cid c (withoutCtls (withEkus w cid (.list l)))).1 = .ok chain ∧
      (ctxVerifyTrust env cid chain (withEkus w cid .none)).1 = .ok () := by
  have hctx : ∀ p, (withEkus w cid p).ctxs cid = { w.ctxs cid with ekus := p } := fun p => by simp [withEkus]
  have hctx' : (withoutCtls (withEkus w cid (.list l))).ctxs cid = { w.ctxs cid with ekus := .list l } := hctx _
  have hcerts : ∀ r, certsOf (withoutCtls (withEkus w cid (.list l))) r = certsOf w r := fun r => by cases r <;> rfl
  have htr : ∀ r, storeTrusted (withoutCtls (withEkus w cid (.list l))) r = storeTrusted w r := fun r => by cases r <;> rfl
  have hl' : Loaded (withoutCtls (withEkus w cid (.list l))) cid := by
    intro r hr
    rw [hctx'] at hr
    have := hl r hr
    cases r with
    | embedded _ => trivial
    | heap i => exact this
  have hreq : request (withoutCtls (withEkus w cid (.list l))) cid c = request w cid c := by
    unfold request
    rw [hctx']
    simp only [hcerts, htr, he]
    rfl
  have hk : knownCerts (withoutCtls (withEkus w cid (.list l))) cid = knownCerts w cid := by
    unfold knownCerts
    rw [hctx', funext hcerts]
  rw [verify_ok_iff hl, verify_ok_iff hl', hreq, hk, and_assoc, and_assoc]
  refine and_congr_right (fun _ => and_congr_right (fun _ => ?_))
  have hx := exhaust_ctx w cid
  rw [he] at hx
  -- what is left is the trust in the chain
  have key : chain ≠ [] → ((ctxVerifyTrust env cid chain (exhaust w cid)).1 = .ok () ↔
      (ctxVerifyTrust env cid chain (withEkus w cid .none)).1 = .ok ()) := by
    intro hne
    rw [(trust_exact env cid chain hne (exhaust w cid) (by rw [hx]; rfl)).1,
      (trust_exact env cid chain hne (withEkus w cid .none) (by rw [hctx]; rfl)).1, hx, hctx]
    exact Iff.rfl
  constructor
  · intro h
    have hne := trust_nonempty h
    refine ⟨?_, (key hne).1 h⟩
    rw [(trust_exact env cid chain hne _ (by rw [exhaust_ctx, hctx']; rfl)).1, exhaust_ctx, hctx']
    obtain ⟨pre, r, post, h1, ⟨i, root, h2, h3, h4, h5, -⟩, hpre⟩ := (trust_exact env cid chain hne (exhaust w cid) (by rw [hx]; rfl)).1.1 h
    rw [hx] at h1
    refine ⟨pre, r, post, h1, ⟨i, root, h2, h3, h4, h5, fun ctl hctl => ?_⟩, ?_⟩
    · cases hctl
    · refine fun q hq => ⟨?_, ?_⟩
      · rintro ⟨-, j, ctl, -, hctl, -⟩
        cases hctl
      · rintro ⟨root', k1, k2, k3 | ⟨j, ctl, -, -, hctl, -⟩⟩
        · exact (hpre q hq).2 ⟨root', k1, k2, .inl k3⟩
        · cases hctl
  · rintro ⟨-, h⟩
    exact (key (trust_nonempty h)).2 h

example := C50_exact exEnv 0 exLeaf (exEkuWorld (.gen ["code_signing"])) (fun r hr => by
  simp only [exEkuWorld, exCtx, List.mem_cons, List.not_mem_nil, or_false] at hr
  rcases hr with rfl | rfl <;> rfl) ["code_signing"] rfl exCtlChain

/-- So a generator is never stricter than the list: the chains returned for the list are returned for the generator too. -/
theorem C50_not_stricter (env : Env) (cid : Nat) (c : Cert) (w : World) (hl : Loaded w cid) (l : List String) (he : (w.ctxs cid).ekus = .gen l)
    (chain : List Cert) (h : (ctxVerify env cid c (withEkus w cid (.list l))).1 = .ok chain) : (ctxVerify env cid c w).1 = .ok chain := by
  have hctx : (withEkus w cid (.list l)).ctxs cid = { w.ctxs cid with ekus := .list l } := by simp [withEkus]
  have hl' : Loaded (withEkus w cid (.list l)) cid := by
    intro r hr
    rw [hctx] at hr
    exact hl r hr
  have hreq : request (withEkus w cid (.list l)) cid c = request w cid c := by
    unfold request
    rw [hctx]
    simp only [he]
    rfl
  have hk : knownCerts (withEkus w cid (.list l)) cid = knownCerts w cid := by
    unfold knownCerts
    rw [hctx]
    rfl
  rw [verify_ok_iff hl', hreq, hk] at h
  rw [verify_ok_iff hl]
  refine ⟨h.1, h.2.1, ?_⟩
  have hne := trust_nonempty h.2.2
  have hx := exhaust_ctx w cid
  rw [he] at hx
  obtain ⟨pre, r, post, h1, ⟨i, root, h2, h3, h4, h5, h6⟩, h7⟩ :=
    (trust_exact env cid chain hne _ (by rw [exhaust_ctx, hctx]; rfl)).1.1 h.2.2
  rw [exhaust_ctx, hctx] at h1
  rw [(trust_exact env cid chain hne (exhaust w cid) (by rw [hx]; rfl)).1, hx]
  refine ⟨pre, r, post, h1, ⟨i, root, h2, h3, h4, h5, fun ctl hctl => ?_⟩, h7⟩
  obtain ⟨k1, root', leaf, sub, k2, k3, k4, k5⟩ := h6 ctl hctl
  rw [exhaust_ctx, hctx] at k5
  refine ⟨k1, root', leaf, sub, k2, k3, k4, ⟨fun _ _ _ e he => (by cases he), fun k => k5.notBefore ?_, fun k => k5.allowed ?_⟩⟩
  · exact ⟨k.1, k.2.1, fun m hm => (by obtain ⟨e, he, -⟩ := k.2.2 m hm; cases he)⟩
  · exact ⟨k.1, k.2.1, fun m hm => (by obtain ⟨e, he, -⟩ := k.2.2 m hm; cases he)⟩

example : (ctxVerify exEnv 0 exLeaf (exEkuWorld (.gen ["code_signing"]))).1 = .ok exCtlChain ∧
    (ctxVerify exEnv 0 exLeaf (withoutCtls (withEkus (exEkuWorld (.gen ["code_signing"])) 0 (.list ["code_signing"])))).1 = .ok exCtlChain ∧
    (ctxVerifyTrust exEnv 0 exCtlChain (withEkus (exEkuWorld (.gen ["code_signing"])) 0 .none)).1 = .ok () ∧
    (ctxVerify exEnv 0 exLeaf (exEkuWorld (.list ["time_stamping"]))).1 = .ok exCtlChain := by
  decide +kernel

/-- With containers that can be iterated again, `verify` leaves the context (and everything else) unchanged, so that every further
verification sees the same usages. -/
theorem C50_containers_partial (env : Env) (cid : Nat) (c : Cert) (w : World) (hl : Loaded w cid)
    (hr : ∀ l, (w.ctxs cid).ekus ≠ .gen l) (hk : ∀ l, (w.ctxs cid).keyUsages ≠ .gen l) :
    (ctxVerify env cid c w).2 = w := by
  have hre : ∀ p : PyIter, (∀ l, p ≠ .gen l) → Reiterable p := by
    intro p hp
    unfold Reiterable
    cases p with
    | none => rfl
    | list l => rfl
    | gen l => exact absurd rfl (hp l)
  have hx : exhaust w cid = w := exhaust_of (hre _ hr) (hre _ hk)
  have hloop : ∀ rs chain exc, (verifyTrustLoop env cid chain rs exc w).2 = w := by
    intro rs chain
    induction rs with
    | nil => intro exc; cases exc <;> rfl
    | cons r rs ih =>
      intro exc
      have hs : (storeVerifyTrust env cid r chain w).2 = w := by
        by_cases hne : chain = []
        · subst hne; rfl
        · have hex : ∀ w1, (w1 = w ∨ w1 = exhaustEkus w cid) → w1 = w := by
            rintro w1 (h | h)
            · exact h
            · rw [h, exhaustEkus_of (hre _ hr)]
          rcases storeVerifyTrust_cases env cid r chain hne w with
            ⟨-, w1, hw, h1⟩ | ⟨-, -, -, m, h1⟩ | ⟨-, -, -, -, m, w1, hw, h1⟩ | ⟨-, -, -, m, h1⟩ | ⟨-, -, -, m, h1⟩
          · rw [h1]; exact hex _ hw
          · rw [h1]
          · rw [h1]; exact hex _ hw
          · rw [h1]
          · rw [h1]
      unfold verifyTrustLoop
      rcases h : storeVerifyTrust env cid r chain w with ⟨x, w1⟩
      rw [h] at hs
      simp only at hs
      subst hs
      cases x with
      | ok u => rfl
      | error e =>
        simp only
        split
        · exact ih _
        · split
          · exact ih _
          · rfl
  rw [ctxVerify_loaded env cid c w hl, hx]
  split
  · rfl
  · split
    · rfl
    · split
      · rfl
      · rename_i chain _
        unfold ctxVerifyTrust
        rw [M.bind_assoc, M.getCtx_bind, M.bind_run]
        have := hloop (w.ctxs cid).stores chain none
        rcases h : verifyTrustLoop env cid chain (w.ctxs cid).stores none w with ⟨x, w1⟩
        rw [h] at this
        simp only at this
        subst this
        cases x <;> rfl

example : (ctxVerify exEnv 0 exLeaf (exEkuWorld (.gen ["code_signing"]))).1 = .ok exCtlChain ∧
    (ctxVerify exEnv 0 exLeaf (exEkuWorld (.list ["code_signing"]))).1 =
      .error ⟨.ctlCertificateVerificationError, "extended key usages not present"⟩ ∧
    (ctxVerify exEnv 0 exLeaf { exWorld with ctxs := fun _ => { exCtx [.heap 0, .heap 1] with ekus := .gen ["code_signing"] } }).1 = .ok exCtlChain := by
  decide +kernel

/-! ### Instances -/

theorem exEkuWorld_loaded (ekus : PyIter) : Loaded (exEkuWorld ekus) 0 := by
  intro r hr
  simp only [exEkuWorld, exCtx, List.mem_cons, List.not_mem_nil, or_false] at hr
  rcases hr with rfl | rfl <;> rfl

example := C50_not_stricter exEnv 0 exLeaf (exEkuWorld (.gen ["time_stamping"])) (exEkuWorld_loaded _) ["time_stamping"] rfl exCtlChain
  (by decide +kernel)

example := C50_containers_partial exEnv 0 exLeaf (exEkuWorld (.list ["time_stamping"])) (exEkuWorld_loaded _) (fun l h => by cases h)
  (fun l h => by cases h)

end Signify.Props
