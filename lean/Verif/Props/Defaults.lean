/-
C75: verification against published certificates and a published trust list.
-/
import Verif.Model.Defaults
import Verif.Spec.Defaults
import Verif.Props.Pem
import Verif.Props.Custody
import Verif.Props.DerCtl

set_option autoImplicit false

namespace Signify.Props

open Signify Spec Asn1 Pem

theorem codeSigning_name (o : List Nat) : nameIn purposeNames o = "code_signing" ↔ o = oidCodeSigning := by
  constructor
  · intro h
    unfold nameIn at h
    split at h
    · rename_i x hx
      have h1 := List.mem_of_find?_eq_some hx
      have h2 := List.find?_some hx
      simp only [decide_eq_true_eq] at h2
      have key : ∀ x ∈ purposeNames, x.2 = "code_signing" → x.1 = oidCodeSigning := by decide +kernel
      rw [← h2]
      exact key x h1 h
    · exact absurd h (dotted_ne o _ ⟨'c', by decide +kernel, by decide, by decide⟩)
  · rintro rfl
    decide +kernel

theorem codeSigning_mem (l : List (List Nat)) : "code_signing" ∈ l.map (nameIn purposeNames) ↔ oidCodeSigning ∈ l := by
  constructor
  · intro h
    obtain ⟨o, ho, h⟩ := List.mem_map.1 h
    exact (codeSigning_name o).1 h ▸ ho
  · intro h
    exact List.mem_map.2 ⟨_, h, (codeSigning_name _).2 rfl⟩

theorem affected_concerns (time : Option (Option Nat)) (usages : Option (List (List Nat))) (moment : Int) :
    Affected (time.join.map (fun n => ((n * 1000000 : Nat) : Int))) (usages.map (·.map (nameIn purposeNames))) ["code_signing"] moment ↔
      Concerns time usages moment := by
  unfold Affected Concerns
  have h2 : (∀ l, usages.map (·.map (nameIn purposeNames)) = some l → ∃ e ∈ ["code_signing"], e ∈ l) ↔
      ∀ l, usages = some l → oidCodeSigning ∈ l := by
    cases usages with
    | none => simp
    | some l => simp only [Option.map_some, Option.some.injEq, List.mem_singleton, exists_eq_left, forall_eq', codeSigning_mem]
  rw [h2]
  refine and_congr ?_ (and_congr ?_ Iff.rfl)
  · rcases time with _ | _ | n <;> cases usages <;> simp
  · rcases time with _ | _ | n <;> simp

theorem allows_permits (s : DSubject) (issued moment : Int) : Allows s.value ["code_signing"] issued moment ↔ s.Permits issued moment := by
  constructor
  · rintro ⟨h1, h2, h3⟩
    refine ⟨fun l hl hne => ?_, fun h => h2 ((affected_concerns ..).2 h), fun h => h3 ((affected_concerns ..).2 h)⟩
    have := h1 (l.map (nameIn purposeNames)) (by simp only [DSubject.value, hl, Option.map_some]) (by simpa using hne) _ (List.mem_singleton.2 rfl)
    exact (codeSigning_mem l).1 this
  · rintro ⟨h1, h2, h3⟩
    refine ⟨fun l hl hne e he => ?_, fun h => h2 ((affected_concerns ..).1 h), fun h => h3 ((affected_concerns ..).1 h)⟩
    rw [List.mem_singleton.1 he]
    cases hu : s.usages with
    | none => simp [DSubject.value, hu] at hl
    | some u =>
      simp only [DSubject.value, hu, Option.map_some, Option.some.injEq] at hl
      subst hl
      exact (codeSigning_mem u).2 (h1 u hu (by simpa using hne))

theorem accepts_permits {env : Env} {stl : Bytes} {subjects : List DSubject} {alg : String} (h : ListFile stl subjects alg) {t : TrustList}
    (ht : fromStl derCodec derCtlCodec stl = .ok t) (chain : List Cert) (moment : Int) :
    Accepts env t.ctl chain ["code_signing"] moment ↔
      (alg = "sha1" ∨ alg = "sha256") ∧ ListPermits (env.hash alg) subjects chain moment := by
  obtain ⟨d, ss, c, rest, rfl, hp, hv, hl⟩ := h
  by_cases hne : chain = []
  · subst hne
    constructor
    · rintro ⟨-, r, l, s, h, -⟩; cases h
    · rintro ⟨-, r, l, s, h, -⟩; cases h
  · obtain ⟨root, hroot⟩ : ∃ r, chain.head? = some r := by
      cases chain with
      | nil => exact absurd rfl hne
      | cons r l => exact ⟨r, rfl⟩
    obtain ⟨leaf, hleaf⟩ : ∃ l, chain.getLast? = some l := ⟨_, List.getLast?_eq_some_getLast hne⟩
    let w : World := { exWorld with ctxs := fun i => { exWorld.ctxs i with ekus := .list ["code_signing"], timestamp := some moment } }
    have k1 := C67_policy env d ss c subjects alg hp hv hl rest t ht 0 root leaf chain hroot hleaf w
    have k2 := C38_policy env 0 t.ctl chain hne w
    rw [k1] at k2
    show Accepts env t.ctl chain (w.ctxs 0).ekus.elems ((w.ctxs 0).timestamp.getD env.now) ↔ _
    rw [← k2]
    refine and_congr Iff.rfl ?_
    unfold ListPermits
    rw [hroot, hleaf]
    constructor
    · rintro ⟨s, h1, h2, h3⟩
      exact ⟨root, leaf, s, rfl, rfl, h1, h2, (allows_permits ..).1 h3⟩
    · rintro ⟨_, _, s, hr, hl, h1, h2, h3⟩
      cases hr
      cases hl
      exact ⟨s, h1, h2, (allows_permits ..).2 h3⟩

/-- A list that has been published as documented is read, and makes a trusted store with the certificates of the files. -/
theorem C75_store (loc : Location) (stl : Bytes) (subjects : List DSubject) (alg : String) (h : ListFile stl subjects alg) :
    ∃ st, trustedStore loc stl = .ok st ∧ st.trusted = true ∧ st.items = [] ∧ st.pending = some loc.load := by
  obtain ⟨d, ss, c, rest, rfl, hp, hv, hl⟩ := h
  obtain ⟨t, ht, -⟩ := C67_file_read_back d ss c subjects alg hp hv hl rest
  refine ⟨fileSystemStore loc true (some t.ctl), ?_, rfl, rfl, rfl⟩
  unfold trustedStore
  rw [ht]
  rfl

theorem trustedStore_eq {loc : Location} {stl : Bytes} {st : Store} (h : trustedStore loc stl = .ok st) :
    ∃ t, fromStl derCodec derCtlCodec stl = .ok t ∧ st = fileSystemStore loc true (some t.ctl) := by
  unfold trustedStore at h
  obtain ⟨t, h1, h2⟩ := eok_bind h
  exact ⟨t, h1, by cases h2; rfl⟩

/-- The store accepts a chain for code signing iff the root is (the same as) a certificate of the files, and the list permits it. -/
theorem C75_accepts (env : Env) (w : World) (i : Nat) (loc : Location) (stl : Bytes) (subjects : List DSubject) (alg : String)
    (h : ListFile stl subjects alg) (hs : trustedStore loc stl = .ok (w.stores i)) (chain : List Cert) (moment : Int) :
    StoreAccepts env (loadedWorld w) (.heap i) chain ["code_signing"] moment ↔
      (∃ root, chain.head? = some root ∧ ∃ d ∈ loc.load.1, SameCert root d) ∧ (alg = "sha1" ∨ alg = "sha256") ∧
      ListPermits (env.hash alg) subjects chain moment := by
  obtain ⟨t, ht, hst⟩ := trustedStore_eq hs
  unfold StoreAccepts
  have hl : (loadedWorld w).stores i = ⟨loc.load.1, true, some t.ctl, none⟩ := by
    simp only [loadedWorld, hst, fileSystemStore, Store.loaded, List.nil_append]
  constructor
  · rintro ⟨j, root, hj, -, h1, h2, h3⟩
    cases hj
    rw [hl] at h2 h3
    exact ⟨⟨root, h1, h2⟩, (accepts_permits h ht chain moment).1 (h3 _ rfl)⟩
  · rintro ⟨⟨root, h1, h2⟩, h3⟩
    refine ⟨i, root, rfl, by rw [hl], h1, by rw [hl]; exact h2, ?_⟩
    rw [hl]
    intro ctl hc
    cases hc
    exact (accepts_permits h ht chain moment).2 h3

/-- **C75**.  If `verify` returns, then each chain that it returns starts with (the same certificate as) one of the certificates in the
files, and the published list permits the use of that chain for code signing at the time of the countersignature, the time given by the
caller, or now. -/
theorem C75_anchor (env : Env) (cd : Codec) (file : Bytes) (args : PEVerifyArgs) (w : World) (i : Nat) (loc : Location) (stl : Bytes)
    (subjects : List DSubject) (alg : String) (h : ListFile stl subjects alg) (hs : trustedStore loc stl = .ok (w.stores i))
    (hi : args.kwargs.trusted = .heap i) (hc : args.kwargs.context = none) (hcs : ∀ c, args.kwargs.csContext = some c → c < w.nextCtx)
    (hn : args.expectedHashes = none) (res : List (ASD × List (List Cert))) (hv : (peVerify env cd file args w).1 = .ok res) :
    res ≠ [] ∧ ∀ p ∈ res, p.2 ≠ [] ∧ ∀ chain ∈ p.2,
      (∃ root d, chain.head? = some root ∧ InFiles loc d ∧ SameCert root d) ∧
      ∃ t, (t = args.kwargs.options.timestamp ∨ ∃ cs, p.1.d.counter = some cs ∧ t = cs.signingTime) ∧
        ListPermits (env.hash alg) subjects chain (t.getD env.now) := by
  obtain ⟨h1, h2⟩ := C59_evidence env cd file args w hc hcs hn res hv
  obtain ⟨tl, ht, hst⟩ := trustedStore_eq hs
  refine ⟨h1, fun p hp => ?_⟩
  obtain ⟨sd, si, a, b, -, -, h3, h4⟩ := h2 p hp
  refine ⟨h3, fun chain hch => ?_⟩
  obtain ⟨c, t, h5, h6⟩ := h4 chain hch
  obtain ⟨j, root, k1, -, k3, ⟨d, k4, k5⟩, k6⟩ := h5.anchored
  rw [hi] at k1
  cases k1
  refine ⟨⟨root, d, k3, ?_, k5⟩, t, h6, ?_⟩
  · have : trustedCerts w args.kwargs.trusted = loc.load.1 := by
      rw [hi]
      simp only [trustedCerts, certsOf, loadedWorld, hst, fileSystemStore, Store.loaded, List.nil_append]
    rw [this] at k4
    exact C74_sources loc d k4
  · exact ((accepts_permits h ht chain _).1 (k6 tl.ctl (by rw [hst]; rfl))).2

/-- A root about which nothing has been published, or that has been distrusted, is never used: if the list permits no chain at all, `verify`
raises an exception, whatever the file. -/
theorem C75_refused (env : Env) (cd : Codec) (file : Bytes) (args : PEVerifyArgs) (w : World) (i : Nat) (loc : Location) (stl : Bytes)
    (subjects : List DSubject) (alg : String) (h : ListFile stl subjects alg) (hs : trustedStore loc stl = .ok (w.stores i))
    (hi : args.kwargs.trusted = .heap i) (hc : args.kwargs.context = none) (hcs : ∀ c, args.kwargs.csContext = some c → c < w.nextCtx)
    (hn : args.expectedHashes = none)
    (hno : ∀ root d, InFiles loc d → SameCert root d → ∀ s ∈ subjects, s.identifier = env.hash alg root.der → ∀ issued t, ¬ s.Permits issued t) :
    ∃ e, (peVerify env cd file args w).1 = .error e := by
  cases hv : (peVerify env cd file args w).1 with
  | error e => exact ⟨e, rfl⟩
  | ok res =>
    obtain ⟨h1, h2⟩ := C75_anchor env cd file args w i loc stl subjects alg h hs hi hc hcs hn res hv
    obtain ⟨p, hp⟩ := List.exists_mem_of_ne_nil _ h1
    obtain ⟨h3, h4⟩ := h2 p hp
    obtain ⟨chain, hch⟩ := List.exists_mem_of_ne_nil _ h3
    obtain ⟨⟨root, d, k1, k2, k3⟩, t, -, r, leaf, s, k4, -, k5, k6, k7⟩ := h4 chain hch
    rw [k1] at k4
    cases k4
    exact absurd k7 (hno root d k2 k3 s k5 k6 _ _)

/-- From the bytes of the file, of the files with the certificates and of the file with the list to the verdict. -/
theorem C75_verdict (env : Env) (file : Bytes) (args : PEVerifyArgs) (w : World) (sds : List ASD) (hl : LibrariesBehave env)
    (hp : PlainCall w args) (i : Nat) (loc : Location) (stl : Bytes) (subjects : List DSubject) (alg : String)
    (h : ListFile stl subjects alg) (ha : alg = "sha1" ∨ alg = "sha256") (hs : trustedStore loc stl = .ok (w.stores i))
    (hi : args.kwargs.trusted = .heap i) (hok : loc.load.2 = none) (hn : ∀ c ∈ loc.load.1, Textual c.subject)
    (hm : args.multiVerifyMode ∈ knownModes) (hc : Considered derCodec file args.ignoreParseErrors sds) (hne : sds ≠ [])
    (hnames : ∀ b ∈ sds, PrintableCerts b.d) :
    (∃ res, (peVerify env derCodec file args w).1 = .ok res) ↔
      RequiredHold args.multiVerifyMode (HoldsInFile env file (providedBy w args) args.kwargs w) sds := by
  obtain ⟨t, ht, hst⟩ := trustedStore_eq hs
  refine (C74_verdict env file args w sds hl hp i loc (some t.ctl) hi hst hok ?_ hn hm hc hne hnames).1
  intro l hl
  cases hl
  obtain ⟨d, ss, c, rest, rfl, hp, hv, hln⟩ := h
  obtain ⟨t', ht', hi'⟩ := C67_file_read_back d ss c subjects alg hp hv hln rest
  rw [ht] at ht'
  cases ht'
  rw [hi'.algorithm]
  exact ha

/-- The store without a list accepts every chain that begins with a certificate of the files, for all usages and times. -/
theorem C75_no_ctl (env : Env) (w : World) (i : Nat) (loc : Location) (hs : w.stores i = trustedStoreNoCtl loc) (chain : List Cert)
    (usages : List String) (moment : Int) :
    StoreAccepts env (loadedWorld w) (.heap i) chain usages moment ↔ ∃ root, chain.head? = some root ∧ ∃ d ∈ loc.load.1, SameCert root d := by
  have hl : (loadedWorld w).stores i = ⟨loc.load.1, true, none, none⟩ := by
    simp only [loadedWorld, hs, trustedStoreNoCtl, fileSystemStore, Store.loaded, List.nil_append]
  unfold StoreAccepts
  constructor
  · rintro ⟨j, root, hj, -, h1, h2, -⟩
    cases hj
    rw [hl] at h2
    exact ⟨root, h1, h2⟩
  · rintro ⟨root, h1, h2⟩
    refine ⟨i, root, rfl, by rw [hl], h1, by rw [hl]; exact h2, fun ctl hc => ?_⟩
    rw [hl] at hc
    cases hc

/-- Whatever the store with a list accepts, the store without it accepts. -/
theorem C75_no_ctl_wider (env : Env) (w w' : World) (i : Nat) (loc : Location) (stl : Bytes) (hs : trustedStore loc stl = .ok (w.stores i))
    (hs' : w'.stores i = trustedStoreNoCtl loc) (chain : List Cert) (usages : List String) (moment : Int)
    (h : StoreAccepts env (loadedWorld w) (.heap i) chain usages moment) :
    StoreAccepts env (loadedWorld w') (.heap i) chain usages moment := by
  obtain ⟨t, -, hst⟩ := trustedStore_eq hs
  have hl : (loadedWorld w).stores i = ⟨loc.load.1, true, some t.ctl, none⟩ := by
    simp only [loadedWorld, hst, fileSystemStore, Store.loaded, List.nil_append]
  obtain ⟨j, root, hj, -, h1, h2, -⟩ := h
  cases hj
  rw [hl] at h2
  exact (C75_no_ctl env w' i loc hs' chain usages moment).2 ⟨root, h1, h2⟩

/-- The verdict on a file with the store without a list. -/
theorem C75_no_ctl_verdict (env : Env) (file : Bytes) (args : PEVerifyArgs) (w : World) (sds : List ASD) (hl : LibrariesBehave env)
    (hp : PlainCall w args) (i : Nat) (loc : Location) (hs : w.stores i = trustedStoreNoCtl loc)
    (hi : args.kwargs.trusted = .heap i) (hok : loc.load.2 = none) (hn : ∀ c ∈ loc.load.1, Textual c.subject)
    (hm : args.multiVerifyMode ∈ knownModes) (hc : Considered derCodec file args.ignoreParseErrors sds) (hne : sds ≠ [])
    (hnames : ∀ b ∈ sds, PrintableCerts b.d) :
    (∃ res, (peVerify env derCodec file args w).1 = .ok res) ↔
      RequiredHold args.multiVerifyMode (HoldsInFile env file (providedBy w args) args.kwargs w) sds :=
  (C74_verdict env file args w sds hl hp i loc none hi hs hok (fun l hl => (by cases hl)) hn hm hc hne hnames).1

/-- What is published about the root of the example: usable for signing code and time stamping, with certificates issued before 2100; `distrusted` are
usages for which it has been distrusted. -/
def exRootEntry (distrusted : Option (List (List Nat))) : DSubject where
  identifier := [1, 2, 3]
  usages := some [oidCodeSigning, [1, 3, 6, 1, 5, 5, 7, 3, 8]]
  friendlyName := some "Root"
  notBeforeTime := some (some 15750000000)
  disallowedUsages := distrusted

/-- The list. -/
def exRootList (distrusted : Option (List (List Nat))) : DCtl := { exDCtl with subjects := some [(exRootEntry distrusted).entry] }

/-- The file with the list. -/
def exRootData (distrusted : Option (List (List Nat))) : DData := { exCtlData with content := some (exRootList distrusted).contents }

/-- Its bytes. -/
def exStl (distrusted : Option (List (List Nat))) : Bytes :=
  contentInfo (DSD.mk (exRootData distrusted) [.mk (exDSigner (exDAttrs oidCtl [1, 2])) none]).encode

theorem exRootEntry_valid (d : Option (List (List Nat))) (hd : ∀ l, d = some l → l = [oidCodeSigning]) : (exRootEntry d).Valid where
  usages := by
    intro l hl u hu
    simp only [exRootEntry, List.mem_cons, List.not_mem_nil, or_false] at hl
    rcases hl with rfl | rfl | rfl | rfl
    · cases hu
      refine ⟨?_, Nat.lt_trans (show _ < 1000 by decide +kernel) (by decide +kernel)⟩
      intro o ho
      simp only [List.mem_cons, List.not_mem_nil, or_false] at ho
      rcases ho with rfl | rfl <;> exact ⟨1, 3, _, rfl, by decide, by decide⟩
    · cases hu
    · cases hd u hu
      refine ⟨?_, Nat.lt_trans (show _ < 1000 by decide +kernel) (by decide +kernel)⟩
      intro o ho
      rw [List.mem_singleton.1 ho]
      exact ⟨1, 3, _, rfl, by decide, by decide⟩
    · cases hu
  name := by
    intro n hn
    cases hn
    decide
  times := by
    intro t ht n hn
    simp only [exRootEntry, List.mem_cons, List.not_mem_nil, or_false] at ht
    rcases ht with rfl | rfl
    · cases hn
    · cases hn
      decide
  others := by
    intro a ha
    cases ha

theorem exStl_list (d : Option (List (List Nat))) (hd : ∀ l, d = some l → l = [oidCodeSigning])
    (hlen : (exStl d).length < 2000) : ListFile (exStl d) [exRootEntry d] "sha1" := by
  refine ⟨exRootData d, [.mk (exDSigner (exDAttrs oidCtl [1, 2])) none], exRootList d, [], (List.append_nil _).symm, ?_, ?_,
    Nat.lt_trans hlen (by decide +kernel)⟩
  · obtain ⟨h1, h2, h3, h4, h5, h6, h7, h8⟩ := exDCtl_publishes
    refine ⟨h1, h2, rfl, ⟨h4.1, h4.2.1, h4.2.2.1, h4.2.2.2.1, ?_, h4.2.2.2.2.2⟩, h5, rfl, List.nodup_cons.2 ⟨by simp, List.nodup_nil⟩, ?_⟩
    · intro l hl e he
      cases hl
      rw [List.mem_singleton.1 he]
      exact entry_valid (exRootEntry_valid d hd)
    · intro s hs
      rw [List.mem_singleton.1 hs]
      exact exRootEntry_valid d hd
  · have ho : ValidOid oidCtl := ⟨1, 3, _, rfl, by decide, by decide⟩
    simp only [DSD.Valid, DSI.Valid, validSIs, and_true]
    refine ⟨⟨?_, ho, ?_, fun l hl => by cases hl⟩, exDSigner_valid _ _ ho⟩
    · intro a ha
      rw [List.mem_singleton.1 ha]
      exact ⟨_, _, _, rfl, by omega, by omega⟩
    · intro l hl c hc
      cases hl
      rw [List.mem_singleton.1 hc]
      exact exDCert_valid

/-- The example of C74, with this list. -/
def exLWorld (d : Option (List (List Nat))) : World :=
  { exDWorld with stores := fun _ => ((trustedStore (.directory [.ok exPemText]) (exStl d)).toOption).getD ⟨[], false, none, none⟩ }

theorem exLStore (d : Option (List (List Nat))) (hd : ∀ l, d = some l → l = [oidCodeSigning]) (hlen : (exStl d).length < 2000)
    (i : Nat) : trustedStore (.directory [.ok exPemText]) (exStl d) = .ok ((exLWorld d).stores i) := by
  obtain ⟨st, h, -⟩ := C75_store (.directory [.ok exPemText]) _ _ _ (exStl_list d hd hlen)
  have : (exLWorld d).stores i = ((trustedStore (.directory [.ok exPemText]) (exStl d)).toOption).getD ⟨[], false, none, none⟩ := rfl
  rw [this, h]
  rfl

/-- With the first list, the image of the example of C72 with its signature attached verifies; and what C75 says about the outcome. -/
theorem exListed : ∃ res, (peVerify exDEnv derCodec
    (attach exDImage 88 216 [1, 2, 3, 4] (certTable [signatureEntry (contentInfo exDOuter.encode ++ [0, 0, 0])])) (exDArgs "first")
    (exLWorld none)).1 = .ok res := by
  have : (peVerify exDEnv derCodec
    (attach exDImage 88 216 [1, 2, 3, 4] (certTable [signatureEntry (contentInfo exDOuter.encode ++ [0, 0, 0])])) (exDArgs "first")
    (exLWorld none)).1.toOption.isSome = true := by decide +kernel
  exact toOption_isSome this

example : ∃ res p chain root, (peVerify exDEnv derCodec
    (attach exDImage 88 216 [1, 2, 3, 4] (certTable [signatureEntry (contentInfo exDOuter.encode ++ [0, 0, 0])])) (exDArgs "first")
    (exLWorld none)).1 = .ok res ∧ p ∈ res ∧ chain ∈ p.2 ∧ chain.head? = some root ∧
    ∃ s ∈ [exRootEntry none], s.identifier = exDEnv.hash "sha1" root.der := by
  obtain ⟨res, h⟩ := exListed
  obtain ⟨h1, h2⟩ := C75_anchor exDEnv derCodec _ (exDArgs "first") (exLWorld none) 0 _ _ _ _
    (exStl_list none (fun _ h => by cases h) (by decide +kernel)) (exLStore none (fun _ h => by cases h) (by decide +kernel) 0) rfl rfl
    (fun _ h => by cases h) rfl res h
  obtain ⟨p, hp⟩ := List.exists_mem_of_ne_nil _ h1
  obtain ⟨h3, h4⟩ := h2 p hp
  obtain ⟨chain, hch⟩ := List.exists_mem_of_ne_nil _ h3
  obtain ⟨-, t, -, root, leaf, s, k4, -, k5, k6, -⟩ := h4 chain hch
  exact ⟨res, p, chain, root, h, hp, hch, k4, s, k5, k6⟩

/-- The same certificates without a list: the chains of the root of the file are accepted, no others. -/
example := C75_no_ctl exDEnv { exLWorld none with stores := fun _ => trustedStoreNoCtl (.directory [.ok exPemText]) } 0 _ rfl
example := C75_no_ctl_wider exDEnv (exLWorld none) { exLWorld none with stores := fun _ => trustedStoreNoCtl (.directory [.ok exPemText]) } 0 _ _
  (exLStore none (fun _ h => by cases h) (by decide +kernel) 0) rfl
/-- Without a list the file of the example verifies (with the list that distrusts the root it does not, see below). -/
example : (peVerify exDEnv derCodec
    (attach exDImage 88 216 [1, 2, 3, 4] (certTable [signatureEntry (contentInfo exDOuter.encode ++ [0, 0, 0])])) (exDArgs "first")
    { exLWorld none with stores := fun _ => trustedStoreNoCtl (.directory [.ok exPemText]) }).1.toOption.isSome = true := by decide +kernel

/-- With the list that distrusts the root for code signing, no file verifies. -/
example (file : Bytes) (cd : Codec) (mode : String) :
    ∃ e, (peVerify exDEnv cd file (exDArgs mode) (exLWorld (some [oidCodeSigning]))).1 = .error e :=
  C75_refused exDEnv cd file (exDArgs mode) (exLWorld (some [oidCodeSigning])) 0 _ _ _ _
    (exStl_list _ (fun n h => by cases h; rfl) (by decide +kernel))
    (exLStore _ (fun n h => by cases h; rfl) (by decide +kernel) 0) rfl rfl
    (fun _ h => by cases h) rfl (fun root d _ _ s hs _ issued t hp => by
      rw [List.mem_singleton.1 hs] at hp
      exact hp.allowed ⟨.inr ⟨_, rfl⟩, fun n hn => (by cases hn), fun l hl => (by cases hl; decide)⟩)

/-- The hypotheses of `C75_verdict` are met by the first list. -/
example : ListFile (exStl none) [exRootEntry none] "sha1" ∧
    trustedStore (.directory [.ok exPemText]) (exStl none) = .ok ((exLWorld none).stores 0) ∧
    (Location.directory [.ok exPemText]).load.2 = none ∧ PlainCall (exLWorld none) (exDArgs "first") := by
  have hld := C74_loaded (.directory [.ok exPemText]) [exDCert, exDCert] (.more exPemText_holds .none)
  have hst := exLStore none (fun _ h => by cases h) (by decide +kernel)
  refine ⟨exStl_list none (fun _ h => by cases h) (by decide +kernel), hst 0, by rw [hld], rfl, rfl, ?_, fun k v h => (by cases h)⟩
  intro i certs e _ he
  obtain ⟨t, -, ht⟩ := trustedStore_eq (hst i)
  rw [ht] at he
  simp only [fileSystemStore, hld, Option.some.injEq, Prod.mk.injEq] at he
  exact he.2.symm

example (chain : List Cert) := C75_accepts exDEnv (exLWorld none) 0 (.directory [.ok exPemText]) (exStl none) [exRootEntry none] "sha1"
  (exStl_list none (fun _ h => by cases h) (by decide +kernel)) (exLStore none (fun _ h => by cases h) (by decide +kernel) 0) chain 0

end Signify.Props
