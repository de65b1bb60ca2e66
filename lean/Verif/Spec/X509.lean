/-
Specification vocabulary for certificates, stores, trust lists and verification contexts.
-/
import Verif.Model.Context
import Verif.Spec.Names

set_option autoImplicit false

namespace Signify.Spec

open Signify

/-! ### Certificates -/

/-- Two certificates are the same for the library: they agree on issuer, serial number, subject and public key. -/
def SameCert (a b : Cert) : Prop :=
  a.issuer.components = b.issuer.components ∧ a.serial = b.serial ∧ a.subject.components = b.subject.components ∧
  a.spki = b.spki

instance (a b : Cert) : Decidable (SameCert a b) := by unfold SameCert; infer_instance

/-- `a`'s subject is `b`'s issuer (as far as names are compared). -/
def Issued (a b : Cert) : Prop := a.subject.components = b.issuer.components

instance (a b : Cert) : Decidable (Issued a b) := by unfold Issued; infer_instance

/-! ### Stores -/

/-- The certificates in a store, once loaded. -/
def certsOf (w : World) : StoreRef → List Cert
  | .embedded certs => certs
  | .heap i => (w.stores i).items

/-- The store needs no (further) loading. -/
def LoadedStore (w : World) : StoreRef → Prop
  | .embedded _ => True
  | .heap i => (w.stores i).pending = none

/-- All stores of a context are loaded (ordinary stores always are). -/
def Loaded (w : World) (cid : Nat) : Prop := ∀ r ∈ (w.ctxs cid).stores, LoadedStore w r

/-- All certificates known to a context, in order. -/
def knownCerts (w : World) (cid : Nat) : List Cert := (w.ctxs cid).stores.flatMap (certsOf w)

/-- A certificate is (the same as) a member of a trusted store of the context. -/
def InTrustedStore (w : World) (cid : Nat) (c : Cert) : Prop :=
  ∃ i, .heap i ∈ (w.ctxs cid).stores ∧ (w.stores i).trusted = true ∧ ∃ d ∈ (w.stores i).items, SameCert c d

/-- A query is met by a certificate. The fingerprint may be given in upper or lower case, with spaces. -/
structure Meets (env : Env) (q : Query) (c : Cert) : Prop where
  subject : ∀ n, q.subject = some n → c.subject.components = n.components
  serial : ∀ n, q.serial = some n → c.serial = n
  issuer : ∀ n, q.issuer = some n → c.issuer.components = n.components
  sha256 : ∀ f, q.sha256 = some f → (f.toList.filter (· ≠ ' ')).map Char.toLower = (hexOf (env.hash "sha256" c.der)).toList

/-- `l` lists, in order of first appearance and without repetition, the members of `all` with the property `P`. -/
structure FirstOccurrences (P : Cert → Prop) (all l : List Cert) : Prop where
  ordered : l.Sublist all
  sound : ∀ c ∈ l, P c
  complete : ∀ c ∈ all, P c → ∃ d ∈ l, SameCert c d
  distinct : l.Pairwise (fun c d => ¬ SameCert c d)
  /-- when an element is listed, the same ones as all matching elements before it have been listed -/
  first : ∀ l₁ c l₂, l = l₁ ++ c :: l₂ → ∃ pre post, all = pre ++ c :: post ∧ ∀ d ∈ pre, P d → ∃ x ∈ l₁, SameCert d x

/-- Each certificate is issued by the one before it. -/
def Linked : List Cert → Prop
  | a :: b :: l => Issued a b ∧ Linked (b :: l)
  | _ => True

/-- A potential chain from `c`: trusted root first, `c` last. -/
structure PotentialChain (w : World) (cid : Nat) (depth : Nat) (c : Cert) (chain : List Cert) : Prop where
  last : chain.getLast? = some c
  /-- the chain begins with a trusted certificate and contains no other one -/
  anchored : ∃ root rest, chain = root :: rest ∧ InTrustedStore w cid root ∧ ∀ d ∈ rest, ¬ InTrustedStore w cid d
  /-- no certificate occurs twice -/
  distinct : chain.Pairwise (fun a b => ¬ SameCert a b)
  /-- each certificate is issued by the one before -/
  linked : Linked chain
  /-- all certificates but the given one are in the stores (if a store holds several equal ones, the first of them) -/
  known : ∀ d ∈ chain.dropLast, ∃ pre post, knownCerts w cid = pre ++ d :: post ∧ ∀ x ∈ pre, ¬ SameCert x d
  short : chain.length ≤ depth + 1

/-! ### Trust lists -/

/-- The restriction given by a time and/or a list of EKUs affects a request at time `t`: the time (if given) has come and (if
EKUs are given) one of the requested EKUs is among them; an absent restriction affects nothing. -/
def Affected (time : Option Int) (ekus : Option (List String)) (requested : List String) (t : Int) : Prop :=
  (time ≠ none ∨ ekus ≠ none) ∧ (∀ x, time = some x → x ≤ t) ∧ (∀ l, ekus = some l → ∃ e ∈ requested, e ∈ l)

/-- The documented policy of a CTL entry for a request of the EKUs `requested` at `t`, for a leaf issued at `issued`. -/
structure Allows (s : CtlSubject) (requested : List String) (issued t : Int) : Prop where
  within : ∀ l, s.ekus = some l → l ≠ [] → ∀ e ∈ requested, e ∈ l
  notBefore : ¬ Affected s.notBeforeTime s.notBeforeEkus requested issued
  allowed : ¬ Affected s.disallowedTime s.disallowedEkus requested t

/-- A list accepts a chain: its root is listed under its digest, and the entry allows the request. -/
def Accepts (env : Env) (ctl : CTL) (chain : List Cert) (requested : List String) (t : Int) : Prop :=
  (ctl.algorithm = "sha1" ∨ ctl.algorithm = "sha256") ∧
  ∃ root leaf s, chain.head? = some root ∧ chain.getLast? = some leaf ∧
    ctl.subjects.get? (hexOf (env.hash ctl.algorithm root.der)) = some s ∧ Allows s requested leaf.validFrom t

/-- The store has the root of the chain as a trusted certificate. -/
def StoreHasRoot (w : World) (r : StoreRef) (chain : List Cert) : Prop :=
  ∃ i root, r = .heap i ∧ (w.stores i).trusted = true ∧ chain.head? = some root ∧ ∃ d ∈ (w.stores i).items, SameCert root d

/-- The store has the root of the chain as a trusted certificate, but its CTL uses an unsupported digest algorithm. -/
def StoreUnsupported (w : World) (r : StoreRef) (chain : List Cert) : Prop :=
  StoreHasRoot w r chain ∧ ∃ i ctl, r = .heap i ∧ (w.stores i).ctl = some ctl ∧
    ¬ (ctl.algorithm = "sha1" ∨ ctl.algorithm = "sha256")

/-- The root of the chain has to be named in an error message (because the store does not have it as a trusted certificate, or its CTL does not list
it), but its name contains a value that is not text. -/
def StoreUnnameable (env : Env) (w : World) (r : StoreRef) (chain : List Cert) : Prop :=
  ∃ root, chain.head? = some root ∧ ¬ Textual root.subject ∧
    (¬ StoreHasRoot w r chain ∨ ∃ i ctl, r = .heap i ∧ StoreHasRoot w r chain ∧ (w.stores i).ctl = some ctl ∧
      (ctl.algorithm = "sha1" ∨ ctl.algorithm = "sha256") ∧ ctl.subjects.get? (hexOf (env.hash ctl.algorithm root.der)) = none)

/-- A store accepts a chain: it is trusted, contains the root and has no CTL or one that accepts the chain. -/
def StoreAccepts (env : Env) (w : World) (r : StoreRef) (chain : List Cert) (requested : List String) (t : Int) : Prop :=
  ∃ i root, r = .heap i ∧ (w.stores i).trusted = true ∧ chain.head? = some root ∧
    (∃ d ∈ (w.stores i).items, SameCert root d) ∧ ∀ ctl, (w.stores i).ctl = some ctl → Accepts env ctl chain requested t

end Signify.Spec

namespace Signify.Spec

open Signify

/-! ### Chain validation requests -/

/-- What is asked of `certvalidator` for a certificate in a context: the trust anchors are the certificates of the trusted stores,
the intermediates those of the other stores; time, usages and options are those of the context. -/
def request (w : World) (cid : Nat) (c : Cert) : ValReq :=
  let ctx := w.ctxs cid
  { endEntity := c.obj
    trustRoots := (ctx.stores.filter (fun r => storeTrusted w r)).flatMap (fun r => (certsOf w r).map Cert.obj)
    intermediates := (ctx.stores.filter (fun r => !storeTrusted w r)).flatMap (fun r => (certsOf w r).map Cert.obj)
    moment := ctx.timestamp
    allowWeakHashes := ctx.allowLegacy
    revocationMode := ctx.revocationMode
    allowFetching := ctx.allowFetching
    fetchTimeout := ctx.fetchTimeout
    crls := ctx.crls
    ocsps := ctx.ocsps
    keyUsages := ctx.keyUsages.elems
    ekus := ctx.ekus.elems
    ekuOptional := ctx.optionalEku }

/-- The store as it would be had it been loaded on construction. -/
def Store.loaded (s : Store) : Store :=
  match s.pending with
  | none => s
  | some (certs, _) => { s with items := s.items ++ certs, pending := none }

/-- The state in which every store has been loaded. -/
def loadedWorld (w : World) : World := { w with stores := fun i => Store.loaded (w.stores i) }

/-- Reading the location of every store of the context succeeds. -/
def LoadsFine (w : World) (cid : Nat) : Prop :=
  ∀ r ∈ (w.ctxs cid).stores, ∀ i, r = .heap i → ∀ certs e, (w.stores i).pending = some (certs, e) → e = none

end Signify.Spec
