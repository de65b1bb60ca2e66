/-
C72: from the bytes of a file to the outcome of `verify`.
-/
import Verif.Spec.EndToEnd
import Verif.Props.DerFrom
import Verif.Props.Complete

set_option autoImplicit false

namespace Signify.Props

open Signify Spec Asn1

theorem fold_bounds (l : Bytes) : ∀ n, n * 256 ^ l.length ≤ l.foldl (fun n (x : UInt8) => n * 256 + x.toNat) n ∧
    l.foldl (fun n (x : UInt8) => n * 256 + x.toNat) n < (n + 1) * 256 ^ l.length := by
  induction l with
  | nil => intro n; simp
  | cons b l ih =>
    intro n
    obtain ⟨h1, h2⟩ := ih (n * 256 + b.toNat)
    rw [List.foldl_cons, List.length_cons, Nat.pow_succ]
    have hb := b.toNat_lt
    refine ⟨Nat.le_trans ?_ h1, Nat.lt_of_lt_of_le h2 ?_⟩
    · rw [Nat.mul_comm (256 ^ _) 256, ← Nat.mul_assoc]
      exact Nat.mul_le_mul_right _ (by omega)
    · rw [Nat.mul_comm (256 ^ _) 256, ← Nat.mul_assoc]
      exact Nat.mul_le_mul_right _ (by omega)

theorem fold_injective : ∀ (l l' : Bytes) (n n' : Nat), l.length = l'.length →
    l.foldl (fun n (x : UInt8) => n * 256 + x.toNat) n = l'.foldl (fun n (x : UInt8) => n * 256 + x.toNat) n' → n = n' ∧ l = l'
  | [], [], n, n', _, h => ⟨h, rfl⟩
  | [], _ :: _, _, _, h, _ => by cases h
  | _ :: _, [], _, _, h, _ => by cases h
  | b :: l, b' :: l', n, n', hl, h => by
    obtain ⟨h1, h2⟩ := fold_injective l l' _ _ (by simpa using hl) h
    simp only at h1
    have := b.toNat_lt
    have := b'.toNat_lt
    have hb : b.toNat = b'.toNat := by omega
    exact ⟨by omega, by rw [h2, UInt8.toNat_inj.1 hb]⟩

/-- Certificates with the same identity have the same encoding. -/
theorem certIdent_injective {a b : Bytes} (h : certIdent a = certIdent b) : a = b := by
  unfold certIdent intFromBytes at h
  rw [List.foldl_cons, List.foldl_cons] at h
  obtain ⟨a1, a2⟩ := fold_bounds a (0 * 256 + (1 : UInt8).toNat)
  obtain ⟨b1, b2⟩ := fold_bounds b (0 * 256 + (1 : UInt8).toNat)
  have h1 : (1 : UInt8).toNat = 1 := rfl
  rw [h1] at a1 a2 b1 b2 h
  have hlen : a.length = b.length := by
    rcases Nat.lt_trichotomy a.length b.length with hlt | he | hlt
    · have : 256 ^ (a.length + 1) ≤ 256 ^ b.length := Nat.pow_le_pow_right (by omega) hlt
      rw [Nat.pow_succ] at this
      have := Nat.pow_pos (n := a.length) (show 0 < 256 by omega)
      omega
    · exact he
    · have : 256 ^ (b.length + 1) ≤ 256 ^ a.length := Nat.pow_le_pow_right (by omega) hlt
      rw [Nat.pow_succ] at this
      have := Nat.pow_pos (n := b.length) (show 0 < 256 by omega)
      omega
  exact (fold_injective a b _ _ hlen h).2

theorem certFromDer_obj {data : Bytes} {c : Cert} (h : certFromDer data = .ok c) : c.obj = certIdent c.der := by
  unfold certFromDer at h
  obtain ⟨⟨p, r⟩, h1, h⟩ := eok_bind h
  rw [readCert_der h]
  unfold readCert at h
  repeat (obtain ⟨_, _, h⟩ := eok_bind h)
  cases h
  rfl

/-- Among certificates read from DER, the object determines the certificate. -/
theorem decoded_objects {c d : Cert} (hc : certFromDer c.der = .ok c) (hd : certFromDer d.der = .ok d) (h : c.obj = d.obj) : c = d := by
  rw [certFromDer_obj hc, certFromDer_obj hd] at h
  rw [certIdent_injective h, hd] at hc
  injection hc with hc
  exact hc.symm

theorem ordinary_of {w : World} {r : StoreRef} (hr : TrustedStore w r) {ls : List (List Cert)} {ekus : List String} {o : CtxOptions}
    (h : ∀ l ∈ ls, ∀ c ∈ l, certFromDer c.der = .ok c) (hn : ∀ l ∈ ls, ∀ c ∈ l, Textual c.subject) : Ordinary w (contextOf (r :: ls.map .embedded) ekus o) := by
  have hall : ∀ d ∈ (contextOf (r :: ls.map .embedded) ekus o).stores.flatMap (certsOf (loadedWorld w)), certFromDer d.der = .ok d := by
    intro d hd'
    obtain ⟨x, hx, hd⟩ := List.mem_flatMap.1 hd'
    simp only [contextOf] at hx
    rcases List.mem_cons.1 hx with e | hx
    · subst e; exact hr.decoded d hd
    · obtain ⟨l, hl, rfl⟩ := List.mem_map.1 hx
      exact h l hl d hd
  refine ⟨⟨fun i certs e hi => ?_, fun i ctl hi => ?_⟩, fun x hx d hd => ?_, fun g => ?_, fun g => ?_, fun d hd e he => decoded_objects (hall d hd) (hall e he)⟩
  · simp only [contextOf] at hi
    rcases List.mem_cons.1 hi with hi | hi
    · exact hr.readable i certs e hi.symm
    · obtain ⟨_, _, h⟩ := List.mem_map.1 hi
      cases h
  · simp only [contextOf] at hi
    rcases List.mem_cons.1 hi with hi | hi
    · exact hr.lists i ctl hi.symm
    · obtain ⟨_, _, h⟩ := List.mem_map.1 hi
      cases h
  · simp only [contextOf] at hx
    rcases List.mem_cons.1 hx with e | hx
    · subst e; exact hr.names d hd
    · obtain ⟨l, hl, rfl⟩ := List.mem_map.1 hx
      exact hn l hl d hd
  · simp only [contextOf]
    cases o.keyUsages <;> simp
  · simp [contextOf]

theorem ordinaryCall_of {data : Bytes} {a : ASD} (hs : SignatureFrom data a) {w : World} {args : VerifyArgs} (h1 : args.context = none)
    (h2 : args.csContext = none) (hr : TrustedStore w args.trusted)
    (hn : PrintableCerts a.d) : OrdinaryCall w a.d args := by
  cases hs with
  | @mk d nested k1 k2 k3 k4 k5 =>
    have hc : ∀ c ∈ d.core.certificates, certFromDer c.der = .ok c := fun c hc => (k1.certificates c hc).2
    refine ⟨⟨fun c hc => ?_, fun c hc => ?_⟩, .inl h1, ?_, fun c hcc => ?_⟩
    · rw [h1] at hc; cases hc
    · rw [h2] at hc; cases hc
    · unfold signerContext
      rw [h1]
      exact ordinary_of hr (ls := [d.core.certificates]) (by simpa using hc) (by simpa [ASD.d] using hn.1)
    · unfold counterContext
      rw [h2]
      have := k4 c hcc
      cases this with
      | pkcs9 _ => exact ordinary_of hr (ls := [d.core.certificates]) (by simpa using hc) (by simpa [ASD.d] using hn.1)
      | @rfc3161 r m1 m2 m3 m4 =>
        exact ordinary_of hr (ls := [d.core.certificates, r.core.certificates]) (by
          intro l hl
          simp only [List.mem_cons, List.not_mem_nil, or_false] at hl
          rcases hl with rfl | rfl
          · exact hc
          · exact fun c hc => (m1.certificates c hc).2) (by
          intro l hl
          simp only [List.mem_cons, List.not_mem_nil, or_false] at hl
          rcases hl with rfl | rfl
          · exact hn.1
          · exact hn.2 _ hcc)

/-- **C72**.  From the bytes of a file to the outcome: the signatures found are `a :: l`; `verify`, called without contexts, succeeds iff
those signatures hold that the mode requires. -/
theorem C72_verdict (env : Env) (file : Bytes) (args : PEVerifyArgs) (w : World) (sds : List ASD) (hl : LibrariesBehave env)
    (hp : PlainCall w args) (ht : TrustedStore w args.kwargs.trusted) (hm : args.multiVerifyMode ∈ knownModes)
    (hc : Considered derCodec file args.ignoreParseErrors sds) (hne : sds ≠ [])
    (hnames : ∀ b ∈ sds, PrintableCerts b.d) :
    (∃ res, (peVerify env derCodec file args w).1 = .ok res) ↔
      RequiredHold args.multiVerifyMode (HoldsInFile env file (providedBy w args) args.kwargs w) sds := by
  have ho : ∀ b ∈ sds, OrdinaryCall w b.d args.kwargs := by
    intro b hb
    have hi := considered_iff.1 hc
    have : b ∈ (iterSignedDatas derCodec file true args.ignoreParseErrors).1 := by
      cases hx : iterSignedDatas derCodec file true args.ignoreParseErrors with
      | mk l e =>
        rw [hx] at hi
        cases e with
        | some e => cases hi
        | none => cases hi; exact hb
    obtain ⟨c, -, hs⟩ := iter_from this
    exact ordinaryCall_of hs hp.context hp.csContext ht (hnames b hb)
  match sds, hne with
  | a :: l, _ =>
    obtain ⟨c1, c2, c3, c4⟩ := C61_file env derCodec file args w a l hl hp hc ho
    unfold RequiredHold
    simp only [knownModes, List.mem_cons, List.not_mem_nil, or_false] at hm
    rcases hm with h | h | h | h
    · rw [c1 h]; simp [h]
    · rw [c2 h]; simp [h]
    · rw [c3 h]; simp [h]
    · rw [c4 h]; simp [h]

theorem holds_sameImage {env : Env} {f g : Bytes} (h : SameImage f g) {provided : Dict String Bytes} {kwargs : VerifyArgs} {w : World}
    {a : ASD} (hh : HoldsInFile env f provided kwargs w a) : HoldsInFile env g provided kwargs w a := by
  obtain ⟨d, h1, h2⟩ := hh
  obtain ⟨h2, h3⟩ := h2
  exact ⟨d, digestFor_sameImage h h1, ⟨h2.algorithms, h2.given, fun h => (by cases h), h2.content⟩, h3⟩

/-- Someone signs an image: signatures in DER that hold for the image (whatever else they contain) are attached to it.  The file verifies
iff the signatures required by the mode hold for the image as it was before. -/
theorem C72_signed_image (env : Env) (args : PEVerifyArgs) (w : World) (hl : LibrariesBehave env) (hp : PlainCall w args)
    (ht : TrustedStore w args.kwargs.trusted) (hm : args.multiVerifyMode ∈ knownModes)
    (f : Bytes) (oho ohs dir : Nat) (hh : Header f oho ohs dir) (hE : HasEntry f oho ohs dir)
    (hn : ∀ a s, ¬ HasTable f oho ohs dir a s) (checksum : Bytes) (hck : checksum.length = 4)
    (l : List (DSD × ASD × Bytes)) (hne : l ≠ []) (hsays : ∀ x ∈ l, SignatureSays certIdent x.1 x.2.1 ∧ x.1.Valid)
    (hsz : f.length + (certTable (l.map (fun x => signatureEntry (contentInfo x.1.encode ++ x.2.2)))).length < 2 ^ 32)
    (all : List ASD) (hall : PreOrderAll (l.map (fun x => x.2.1)) all)
    (hnames : ∀ b ∈ all, PrintableCerts b.d) :
    (∃ res, (peVerify env derCodec
        (attach f oho dir checksum (certTable (l.map (fun x => signatureEntry (contentInfo x.1.encode ++ x.2.2))))) args w).1 = .ok res) ↔
      RequiredHold args.multiVerifyMode (HoldsInFile env f (providedBy w args) args.kwargs w) all := by
  have hi := C68_signed_file f oho ohs dir hh hE hn checksum hck l hne hsays hsz true args.ignoreParseErrors all hall
  have hc : Considered derCodec
      (attach f oho dir checksum (certTable (l.map (fun x => signatureEntry (contentInfo x.1.encode ++ x.2.2))))) args.ignoreParseErrors all := by
    rw [considered_iff, hi]; rfl
  have hT : certTable (l.map (fun x => signatureEntry (contentInfo x.1.encode ++ x.2.2))) ≠ [] := by
    have := certTable_count (l.map (fun x => signatureEntry (contentInfo x.1.encode ++ x.2.2)))
    have : 0 < (l.map (fun x => signatureEntry (contentInfo x.1.encode ++ x.2.2))).length := by
      rw [List.length_map]; exact List.length_pos_iff.2 hne
    exact List.length_pos_iff.1 (by omega)
  obtain ⟨i1, -⟩ := attach_sameImage hh hE hn checksum _ hck hT hsz
  have hall' : all ≠ [] := by
    rw [preOrderAll_eq hall]
    cases hl : l with
    | nil => exact absurd hl hne
    | cons x l => obtain ⟨_, ⟨d, n⟩, _⟩ := x; rw [List.map_cons, preorderAll, ASD.preorder]; simp
  rw [C72_verdict env _ args w all hl hp ht hm hc hall' hnames]
  have hiff : ∀ b, HoldsInFile env (attach f oho dir checksum (certTable (l.map (fun x => signatureEntry (contentInfo x.1.encode ++ x.2.2)))))
      (providedBy w args) args.kwargs w b ↔ HoldsInFile env f (providedBy w args) args.kwargs w b :=
    fun b => ⟨holds_sameImage (sameImage_symm i1), holds_sameImage i1⟩
  unfold RequiredHold
  simp only [hiff]

/-! ### A file with the signatures of the examples in `Props/Der.lean` -/

/-- The digests that these signatures name: that of the image, of the content, and (in the countersignature, but not in the time stamp)
of the signature value.  Every certificate that is asked about is a path. -/
def exDEnv : Env :=
  { exEnv with
    hash := fun _ b => if b = [9, 9, 9] then [3] else if b = exIndirect.contents ∨ b = exIndirect.encode then [1, 2] else [1, 2, 3]
    pkVerify := fun _ _ _ _ _ => .ok ()
    validate := fun r => .ok [r.endEntity] }

/-- A trusted store with the certificate of the signer. -/
def exDWorld : World := { exWorld with stores := fun _ => ⟨[exDCert.cert certIdent], true, none, none⟩ }

theorem exDEnv_behaves : LibrariesBehave exDEnv where
  keys := fun spki e h => by cases h
  validators := fun r e h => by cases h
  nonempty := fun r h => by cases h
  known := fun r chain x h hx => by
    cases h
    simp only [List.mem_cons, List.not_mem_nil, or_false] at hx
    exact .inl hx

theorem exDTrusted : TrustedStore exDWorld (.heap 0) where
  readable := fun i certs e _ h => by cases h
  lists := fun i ctl _ h => by cases h
  decoded := fun c hc => by
    have hc : c ∈ [exDCert.cert certIdent] := hc
    simp only [List.mem_cons, List.not_mem_nil, or_false] at hc
    subst hc
    have := C66_certificate_read_back exDCert exDCert_valid (by decide +kernel) []
    rwa [List.append_nil] at this
  names := fun c hc => by
    have hc : c ∈ [exDCert.cert certIdent] := hc
    simp only [List.mem_cons, List.not_mem_nil, or_false] at hc
    subst hc
    decide +kernel

/-- The call. -/
def exDArgs (mode : String) : PEVerifyArgs := { multiVerifyMode := mode, kwargs := { trusted := .heap 0 } }

theorem exDCall (mode : String) : PlainCall exDWorld (exDArgs mode) where
  context := rfl
  csContext := rfl
  readable := fun i certs e hi he => (by cases he)
  names := fun k v h => (by cases h)

/-- The image. -/
def exDImage : Bytes := exPE 16 [0, 0, 0, 0, 0, 0, 0, 0] [7, 7, 7]

theorem exDImage_digest : DigestFor exDEnv exDImage [] "sha256" [1, 2, 3] :=
  .inr ⟨rfl, fun bs hbs => (C09_authentihash_iff _ _ bs hbs _ _).2 ⟨88, 136, 216, by decide +kernel, by decide +kernel⟩⟩

theorem exDOuter_from : SignatureFrom (contentInfo exDOuter.encode) exDOuterSays :=
  C69_signature _ _ (by
    have := C68_signature_read_back _ _ exDOuter_says exDOuter_valid (Nat.lt_of_lt_of_le exDOuter_len (by decide +kernel)) []
    rwa [List.append_nil] at this)

theorem exDInner_from : SignatureFrom (contentInfo exDOuter.encode) exDInnerSays := by
  have := exDOuter_from
  cases this with
  | mk _ _ _ _ h => exact h _ (List.mem_singleton.2 rfl)

theorem exDOuter_names : PrintableCerts exDOuterSays.d := by
  refine ⟨by decide +kernel, fun r hr => ?_⟩
  cases hr

theorem exDInner_names : PrintableCerts exDInnerSays.d := by
  refine ⟨by decide +kernel, fun r hr => ?_⟩
  cases hr
  decide +kernel

/-- The outer signature holds for the image, the nested one does not (its time stamp is for another signature). -/
theorem exD_holds (mode : String) : HoldsInFile exDEnv exDImage [] (exDArgs mode).kwargs exDWorld exDOuterSays ∧
    ¬ HoldsInFile exDEnv exDImage [] (exDArgs mode).kwargs exDWorld exDInnerSays := by
  constructor
  · refine ⟨[1, 2, 3], exDImage_digest, (C61_signature exDEnv (some exDImage) exDOuterSays.d _ exDWorld exDEnv_behaves
      (ordinaryCall_of exDOuter_from rfl rfl exDTrusted exDOuter_names)).1 (toOption_isSome ?_)⟩
    show (asdVerify exDEnv (some exDImage) exDOuterSays.d { trusted := .heap 0, expectedHash := some [1, 2, 3] } exDWorld).1.toOption.isSome = true
    decide +kernel
  · rintro ⟨d, h1, h2⟩
    have hd : d = [1, 2, 3] := digestFor_unique h1 exDImage_digest
    subst hd
    refine toOption_isNone ?_ ((C61_signature exDEnv (some exDImage) exDInnerSays.d _ exDWorld exDEnv_behaves
      (ordinaryCall_of exDInner_from rfl rfl exDTrusted exDInner_names)).2 h2)
    show (asdVerify exDEnv (some exDImage) exDInnerSays.d { trusted := .heap 0, expectedHash := some [1, 2, 3] } exDWorld).1.toOption.isSome = false
    decide +kernel

/-- So the image with the (padded) signature attached verifies in the modes 'any' and 'first', but not in the mode 'all'. -/
example : let file := attach exDImage 88 216 [1, 2, 3, 4] (certTable [signatureEntry (contentInfo exDOuter.encode ++ [0, 0, 0])])
    (∃ res, (peVerify exDEnv derCodec file (exDArgs "any") exDWorld).1 = .ok res) ∧
    (∃ res, (peVerify exDEnv derCodec file (exDArgs "first") exDWorld).1 = .ok res) ∧
    ¬ ∃ res, (peVerify exDEnv derCodec file (exDArgs "all") exDWorld).1 = .ok res := by
  have key := fun mode (hm : mode ∈ knownModes) => C72_signed_image exDEnv (exDArgs mode) exDWorld exDEnv_behaves (exDCall mode) exDTrusted hm
    exDImage 88 136 216 (by decide +kernel) (by decide +kernel) (by rintro a s ⟨_, _, h, h', _⟩; exact h' (h.trans (by decide +kernel)))
    [1, 2, 3, 4] rfl [(exDOuter, exDOuterSays, [0, 0, 0])] (by simp) (by
      intro x hx
      simp only [List.mem_cons, List.not_mem_nil, or_false] at hx
      subst hx
      exact ⟨exDOuter_says, exDOuter_valid⟩) (by decide +kernel) [exDOuterSays, exDInnerSays] (by
      have := preOrder_preorderAll [exDOuterSays]
      exact this) (by
      intro b hb
      simp only [List.mem_cons, List.not_mem_nil, or_false] at hb
      rcases hb with rfl | rfl
      · exact exDOuter_names
      · exact exDInner_names)
  refine ⟨(key "any" (by decide)).2 (.inl ⟨rfl, _, by simp, (exD_holds _).1⟩),
    (key "first" (by decide)).2 (.inr (.inr (.inl ⟨rfl, _, rfl, (exD_holds _).1⟩))), fun h => ?_⟩
  rcases (key "all" (by decide)).1 h with ⟨h, -⟩ | ⟨-, h⟩ | ⟨h, -⟩ | ⟨h, -⟩
  · exact absurd h (by decide)
  · exact (exD_holds _).2 (h exDInnerSays (by simp))
  · exact absurd h (by decide)
  · exact absurd h (by decide)

end Signify.Props
