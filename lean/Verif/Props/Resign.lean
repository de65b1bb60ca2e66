/-
C60: signatures added to a file that is signed already.
-/
import Verif.Props.PEFile
import Verif.Proofs.Added

set_option autoImplicit false

namespace Signify.Props

open Signify Spec

/-- With the digest given by the caller, the file is not looked at. -/
theorem asdVerify_file (env : Env) (file file' : Option Bytes) (a : AuthData) (args : VerifyArgs) (d : Bytes) :
    asdVerify env file a { args with expectedHash := some d } = asdVerify env file' a { args with expectedHash := some d } := rfl

theorem sameImage_symm {f g : Bytes} (h : SameImage f g) : SameImage g f := by
  obtain ⟨oho, ohs, dir, h1, h2, h3, h4, h5⟩ := h
  exact ⟨oho, ohs, dir, h2, h1, h3.symm, h4.symm, fun i i1 i2 => (h5 i i1 (fun hc => i2 ⟨h3.1 hc.1, hc.2⟩)).symm⟩

theorem digestFor_sameImage {env : Env} {f g : Bytes} (h : SameImage f g) {provided : Dict String Bytes} {alg : String} {d : Bytes}
    (hd : DigestFor env f provided alg d) : DigestFor env g provided alg d := by
  rcases hd with hd | ⟨h1, h2⟩
  · exact .inl hd
  · exact .inr ⟨h1, fun bs hbs => C10_same_image_same_hash env.hash alg bs bs hbs hbs f g d h (h2 bs hbs)⟩

/-- The outcome for a signature is the same for all files that are the same image. -/
theorem alone_sameImage {env : Env} {f g : Bytes} (h : SameImage f g) {provided : Dict String Bytes} {kwargs : VerifyArgs} {w : World}
    {a : ASD} {r : Except Exc (List (List Cert))} :
    Alone env f provided kwargs w a r ↔ Alone env g provided kwargs w a r := by
  constructor
  · rintro ⟨d, h1, h2⟩
    exact ⟨d, digestFor_sameImage h h1, h2⟩
  · rintro ⟨d, h1, h2⟩
    exact ⟨d, digestFor_sameImage (sameImage_symm h) h1, h2⟩

/-- The signature is verified without contexts of the caller, with a trusted store that can be read. -/
structure PlainCall (w : World) (args : PEVerifyArgs) : Prop where
  context : args.kwargs.context = none
  csContext : args.kwargs.csContext = none
  readable : ∀ i certs e, args.kwargs.trusted = .heap i → (w.stores i).pending = some (certs, e) → e = none
  names : HashNames (providedBy w args)

theorem PlainCall.historyFree {w : World} {args : PEVerifyArgs} (h : PlainCall w args) (env : Env) (file : Bytes) :
    HistoryFree env file (providedBy w args) args.kwargs w := historyFree_of h.context h.csContext h.readable

theorem except_ext {α : Type} {x y : Except Exc α} (h1 : ∀ a, x = .ok a ↔ y = .ok a) (h2 : ∀ e, x = .error e ↔ y = .error e) : x = y := by
  cases x with
  | ok a => exact ((h1 a).1 rfl).symm
  | error e => exact ((h2 e).1 rfl).symm

section
variable (env : Env) (cd : Codec) (f g : Bytes) (args : PEVerifyArgs) (w : World) (h : SameImage f g)
include h

/-- Two files that are the same image, in which the mode selects the same signatures, have the same outcome and the same effects. -/
theorem C60_selected (sds sds' sel : List ASD) (hne : sds ≠ []) (hne' : sds' ≠ [])
    (hf : Considered cd f args.ignoreParseErrors sds) (hg : Considered cd g args.ignoreParseErrors sds')
    (hs : Selected args.multiVerifyMode sds sel) (hs' : Selected args.multiVerifyMode sds' sel) :
    peVerify env cd f args w = peVerify env cd g args w := by
  refine peVerify_select_congr env cd f g args w hf hg hne hne' ?_ (fun _ _ _ hd => digestFor_sameImage h hd)
  rw [← (selected_iff hne (fun x hx => considered_alg hf hx)).1 hs, ← (selected_iff hne' (fun x hx => considered_alg hg hx)).1 hs']

/-- C60, mode 'first': signatures added after the first one change neither the outcome nor the effects of a call, with any arguments. -/
theorem C60_first (hm : args.multiVerifyMode = "first") (a : ASD) (l l' : List ASD)
    (hf : Considered cd f args.ignoreParseErrors (a :: l)) (hg : Considered cd g args.ignoreParseErrors (a :: l')) :
    peVerify env cd f args w = peVerify env cd g args w :=
  C60_selected env cd f g args w h (a :: l) (a :: l') [a] (by simp) (by simp) hf hg (.first a l hm rfl) (.first a l' hm rfl)

/-- C60, mode 'best': signatures added anywhere, of algorithms weaker than the one of some signature present, change neither the outcome
nor the effects of a call, with any arguments. -/
theorem C60_best (hm : args.multiVerifyMode = "best") (pre sds post : List ASD) (a : ASD) (ha : a ∈ sds)
    (hweak : ∀ b ∈ pre ++ post, strength b.d.core.digestAlg < strength a.d.core.digestAlg)
    (hf : Considered cd f args.ignoreParseErrors sds) (hg : Considered cd g args.ignoreParseErrors (pre ++ sds ++ post)) :
    peVerify env cd f args w = peVerify env cd g args w := by
  have hne : sds ≠ [] := fun e => by rw [e] at ha; cases ha
  have hne' : pre ++ sds ++ post ≠ [] := by simp [hne]
  refine peVerify_select_congr env cd f g args w hf hg hne hne' ?_ (fun _ _ _ hd => digestFor_sameImage h hd)
  rw [hm, best_eq (fun x hx => considered_alg hf hx), best_eq (fun x hx => considered_alg hg hx), List.filter_append, List.filter_append]
  have hnot : ∀ b ∈ pre ++ post, ¬ Strongest (pre ++ sds ++ post) b := by
    intro b hb hc
    have h1 := hc a (by simp [ha])
    have h2 := hweak b hb
    omega
  have e1 : pre.filter (fun b => decide (Strongest (pre ++ sds ++ post) b)) = [] := by
    rw [List.filter_eq_nil_iff]; intro b hb; simpa using hnot b (by simp [hb])
  have e2 : post.filter (fun b => decide (Strongest (pre ++ sds ++ post) b)) = [] := by
    rw [List.filter_eq_nil_iff]; intro b hb; simpa using hnot b (by simp [hb])
  rw [e1, e2, List.nil_append, List.append_nil]
  apply List.filter_congr
  intro b _
  rw [decide_eq_decide]
  constructor
  · intro hs c hc
    rcases List.mem_append.1 hc with hc | hc
    · rcases List.mem_append.1 hc with hc | hc
      · have h1 := hweak c (by simp [hc]); have h2 := hs a ha; omega
      · exact hs c hc
    · have h1 := hweak c (by simp [hc]); have h2 := hs a ha; omega
  · intro hs c hc
    exact hs c (by simp [hc])

/-- C60, mode 'any': a file that verifies goes on verifying, with the same result, if signatures are added after the present ones;
with any arguments, and with the same effects except that digests for the added signatures are put into the dictionary of the caller. -/
theorem C60_any (hm : args.multiVerifyMode = "any") (sds more : List ASD) (hne : sds ≠ [])
    (hf : Considered cd f args.ignoreParseErrors sds) (hg : Considered cd g args.ignoreParseErrors (sds ++ more))
    (res : List (ASD × List (List Cert))) (hr : (peVerify env cd f args w).1 = .ok res) :
    ∃ dicts, peVerify env cd g args w = (.ok res, { (peVerify env cd f args w).2 with dicts := dicts }) := by
  rcases peVerify_added env cd f g args w (by rw [hm]; decide) (by rw [hm]; decide) hf hg hne (fun _ _ _ hd => digestFor_sameImage h hd) with
    ⟨e, h1, -⟩ | ⟨d, d', w1, D, h1, h2, h3⟩
  · rw [h1] at hr; cases hr
  · rw [h1] at hr ⊢
    rw [h2]
    exact ⟨D, verifyLoop_append_lax (by rw [hm]; unfold Strict; decide) more D sds h3 (fun a => noDict_verifyOne env g d' args.kwargs a) none
      (.inl hne) w1 res hr⟩

/-- C60, mode 'all', with any arguments: if the present signatures do not verify, the file with the added ones fails with the same error;
and if it verifies, the file without them does, with the results of the present signatures. -/
theorem C60_all_present (hm : args.multiVerifyMode = "all") (sds more : List ASD) (hne : sds ≠ [])
    (hf : Considered cd f args.ignoreParseErrors sds) (hg : Considered cd g args.ignoreParseErrors (sds ++ more)) :
    (∀ e, (peVerify env cd f args w).1 = .error e →
      ∃ dicts, peVerify env cd g args w = (.error e, { (peVerify env cd f args w).2 with dicts := dicts })) ∧
    ∀ res, (peVerify env cd g args w).1 = .ok res →
      ∃ res₁ res₂, res = res₁ ++ res₂ ∧ (peVerify env cd f args w).1 = .ok res₁ ∧ res₂.map Prod.fst = more := by
  have hst : Strict args.multiVerifyMode := by rw [hm]; unfold Strict; decide
  rcases peVerify_added env cd f g args w (by rw [hm]; decide) (by rw [hm]; decide) hf hg hne (fun _ _ _ hd => digestFor_sameImage h hd) with
    ⟨e, h1, h2⟩ | ⟨d, d', w1, D, h1, h2, h3⟩
  · refine ⟨fun e' he => ?_, fun res hres => ?_⟩
    · rw [h1] at he
      cases he
      exact ⟨w.dicts, by rw [h1, h2]⟩
    · rw [h2] at hres; cases hres
  · have key := verifyLoop_append_strict hst more D sds h3 (fun a => noDict_verifyOne env g d' args.kwargs a) [] w1
    rw [← h2, ← h1] at key
    rcases hx : peVerify env cd f args w with ⟨r, w2⟩
    rw [hx] at key
    cases r with
    | error e =>
      refine ⟨fun e' he => ?_, fun res hres => ?_⟩
      · cases he
        exact ⟨D, key⟩
      · rw [key] at hres; cases hres
    | ok res₁ =>
      refine ⟨fun e' he => (by cases he), fun res hres => ?_⟩
      rw [key] at hres
      obtain ⟨r2, rfl, k⟩ := verifyLoop_strict_fst hst more res₁ _ res hres
      exact ⟨res₁, r2, rfl, rfl, k⟩

/-- C60, mode 'all': a file verifies with the added signatures iff it does without and the added ones verify; the results are those of
the signatures in order.  For calls without contexts of the caller: with a shared context, verification of the present signatures
can change what is required of the added ones (C33). -/
theorem C60_all (hw : PlainCall w args) (hm : args.multiVerifyMode = "all") (sds more : List ASD) (hne : sds ≠ [])
    (hf : Considered cd f args.ignoreParseErrors sds) (hg : Considered cd g args.ignoreParseErrors (sds ++ more))
    (res : List (ASD × List (List Cert))) :
    (peVerify env cd g args w).1 = .ok res ↔ ∃ res₁ res₂, res = res₁ ++ res₂ ∧ (peVerify env cd f args w).1 = .ok res₁ ∧
      res₂.map Prod.fst = more ∧ ∀ p ∈ res₂, Alone env g (providedBy w args) args.kwargs w p.1 (.ok p.2) := by
  rw [(C16_all env cd g args w (sds ++ more) hm hg (by simp [hne]) hw.names (hw.historyFree env g)).1 res]
  have hF := (C16_all env cd f args w sds hm hf hne hw.names (hw.historyFree env f)).1
  constructor
  · rintro ⟨e1, e2⟩
    obtain ⟨r1, r2, rfl, k1, k2⟩ := List.map_eq_append_iff.1 e1
    refine ⟨r1, r2, rfl, (hF r1).2 ⟨k1, fun p hp => (alone_sameImage h).2 (e2 p (by simp [hp]))⟩, k2, fun p hp => e2 p (by simp [hp])⟩
  · rintro ⟨r1, r2, rfl, k1, k2, k3⟩
    obtain ⟨m1, m2⟩ := (hF r1).1 k1
    refine ⟨by rw [List.map_append, m1, k2], fun p hp => ?_⟩
    rcases List.mem_append.1 hp with hp | hp
    · exact (alone_sameImage h).1 (m2 p hp)
    · exact k3 p hp

end

/-- The same image with the same signatures has the same outcome and the same effects, in every mode and with any arguments. -/
theorem C60_same_signatures (env : Env) (cd : Codec) (f g : Bytes) (args : PEVerifyArgs) (w : World) (h : SameImage f g)
    (sds : List ASD) (hf : Considered cd f args.ignoreParseErrors sds) (hg : Considered cd g args.ignoreParseErrors sds) :
    peVerify env cd f args w = peVerify env cd g args w :=
  peVerify_congr env cd f g args w hf hg (fun _ _ _ hd => digestFor_sameImage h hd)

/-- How the hypotheses come about: attaching certificate tables to one unsigned image gives the same image, and the signatures
considered are those in the entries attached. -/
theorem C60_attach (cd : Codec) (f : Bytes) (oho ohs dir : Nat) (hh : Header f oho ohs dir) (hE : HasEntry f oho ohs dir)
    (hn : ∀ a s, ¬ HasTable f oho ohs dir a s) (ck ck' : Bytes) (hck : ck.length = 4) (hck' : ck'.length = 4)
    (es more : List CertEntry) (hne : es ≠ []) (hfit : ∀ e ∈ es ++ more, Fits e)
    (hsz : f.length + (certTable (es ++ more)).length < 2 ^ 32) :
    SameImage (attach f oho dir ck (certTable es)) (attach f oho dir ck' (certTable (es ++ more))) ∧
    ∀ tops tops', (∀ e ∈ es ++ more, GoodEntry cd e) → tops = es.filterMap (signatureIn cd) → tops ≠ [] →
      tops' = more.filterMap (signatureIn cd) →
      ∃ sds sds', PreOrderAll tops sds ∧ PreOrderAll tops' sds' ∧ sds ≠ [] ∧
        (∀ ign, Considered cd (attach f oho dir ck (certTable es)) ign sds) ∧
        ∀ ign, Considered cd (attach f oho dir ck' (certTable (es ++ more))) ign (sds ++ sds') := by
  have hlen : (certTable (es ++ more)).length = (certTable es).length + (certTable more).length := by
    simp [certTable]
  have hne' : es ++ more ≠ [] := by simp [hne]
  have hT : certTable es ≠ [] := by
    have := certTable_count es
    have := List.length_pos_iff.2 hne
    exact List.length_pos_iff.1 (by omega)
  have hT' : certTable (es ++ more) ≠ [] := by
    have := List.length_pos_iff.2 hT
    exact List.length_pos_iff.1 (by omega)
  have ⟨i1, g1, _, _⟩ := attach_sameImage hh hE hn ck (certTable es) hck hT (by omega)
  have ⟨i2, g2, _, _⟩ := attach_sameImage hh hE hn ck' (certTable (es ++ more)) hck' hT' hsz
  refine ⟨(strip_iff_sameImage g1 g2).1 (((strip_iff_sameImage hh g1).2 i1).symm.trans ((strip_iff_sameImage hh g2).2 i2)), ?_⟩
  rintro tops tops' hgood rfl hne2 rfl
  have p1 := C13_attach_round_trip f oho ohs dir hh hE hn ck hck es hne (fun e he => hfit e (by simp [he])) (by omega)
  have p2 := C13_attach_round_trip f oho ohs dir hh hE hn ck' hck' (es ++ more) hne' hfit hsz
  refine ⟨_, _, preOrder_preorderAll _, preOrder_preorderAll _, ?_, fun ign => ⟨none, ⟨_, ⟨es, [], ?_, ?_, rfl, ?_⟩,
    preOrder_preorderAll _⟩, .inl rfl⟩, fun ign => ⟨none, ⟨_, ⟨es ++ more, [], ?_, hgood, rfl, ?_⟩, ?_⟩, .inl rfl⟩⟩
  · cases hc : es.filterMap (signatureIn cd) with
    | nil => exact absurd hc hne2
    | cons a l => cases a; rw [preorderAll, ASD.preorder]; simp
  · rw [p1, List.append_nil]
  · exact fun e he => hgood e (by simp [he])
  · rw [p1]; exact .complete rfl hne2
  · rw [p2, List.append_nil]
  · rw [p2]; refine .complete rfl ?_
    rw [List.filterMap_append]
    simp [hne2]
  · rw [List.filterMap_append]
    have := preOrder_preorderAll (es.filterMap (signatureIn cd) ++ more.filterMap (signatureIn cd))
    rwa [preorderAll_flatMap, List.flatMap_append, ← preorderAll_flatMap, ← preorderAll_flatMap] at this

/-- A signature of SHA-256, to which one of SHA-1 is added. -/
theorem exResign : ∃ sds sds', sds.map exLabel = [("sha256", [1])] ∧ sds'.map exLabel = [("sha1", [2])] ∧ sds ≠ [] ∧ sds' ≠ [] ∧ PlainCall exWorld (exPEArgs "any") ∧
    let f := exPE 16 [0, 0, 0, 0, 0, 0, 0, 0] [7, 7, 7]
    let e₁ : CertEntry := ⟨0x200, 2, List.replicate 8 1⟩
    let e₂ : CertEntry := ⟨0x200, 2, List.replicate 8 2⟩
    SameImage (attach f 88 216 [1, 2, 3, 4] (certTable [e₁])) (attach f 88 216 [5, 6, 7, 8] (certTable ([e₁] ++ [e₂]))) ∧
    Considered exPECodec (attach f 88 216 [1, 2, 3, 4] (certTable [e₁])) true sds ∧
    Considered exPECodec (attach f 88 216 [5, 6, 7, 8] (certTable ([e₁] ++ [e₂]))) true (sds ++ sds') ∧
    exOutcome (peVerify exPEEnv exPECodec (attach f 88 216 [1, 2, 3, 4] (certTable [e₁])) (exPEArgs "any") exWorld).1 =
      .ok [(("sha256", [1]), [[1, 2, 3]])] := by
  have hsome : ∀ {x : Except Exc ASD}, x.toOption.isSome = true → ∃ a, x = .ok a := by
    intro x h
    cases x with
    | ok a => exact ⟨a, rfl⟩
    | error e => cases h
  obtain ⟨h1, h2⟩ := C60_attach exPECodec (exPE 16 [0, 0, 0, 0, 0, 0, 0, 0] [7, 7, 7]) 88 136 216 (by decide +kernel) (by decide +kernel)
    (by rintro a s ⟨_, _, h, h', _⟩; exact h' (h.trans (by decide +kernel))) [1, 2, 3, 4] [5, 6, 7, 8] rfl rfl
    [⟨0x200, 2, List.replicate 8 1⟩] [⟨0x200, 2, List.replicate 8 2⟩] (by simp)
    (by intro e he
        simp only [List.cons_append, List.nil_append, List.mem_cons, List.not_mem_nil, or_false] at he
        rcases he with rfl | rfl <;> exact ⟨by decide, by decide, by decide, by decide⟩)
    (by decide +kernel)
  have hlen : ∀ {l : List CertEntry}, (l.filterMap (signatureIn exPECodec)).isEmpty = false → l.filterMap (signatureIn exPECodec) ≠ [] := by
    intro l h e
    rw [e] at h
    cases h
  obtain ⟨sds, sds', k1, k2, k3, k4, k5⟩ := h2 _ _ (by
    intro e he
    simp only [List.cons_append, List.nil_append, List.mem_cons, List.not_mem_nil, or_false] at he
    rcases he with rfl | rfl
    · exact ⟨rfl, fun _ => hsome (by decide +kernel)⟩
    · exact ⟨rfl, fun _ => hsome (by decide +kernel)⟩) rfl (hlen (by decide +kernel)) rfl
  refine ⟨sds, sds', ?_, ?_, k3, ?_, ⟨rfl, rfl, fun i certs e hi he => ?_, exPEArgs_names _⟩, h1, k4 true, k5 true, by decide +kernel⟩
  · rw [preOrderAll_eq k1]; decide +kernel
  · rw [preOrderAll_eq k2]; decide +kernel
  · rw [preOrderAll_eq k2]
    intro hc
    exact absurd (congrArg List.isEmpty hc) (by decide +kernel)
  · cases hi
    cases he

end Signify.Props
