/-
C78: entries of the certificate table that cannot be read.
-/
import Verif.Props.EndToEnd

set_option autoImplicit false

namespace Signify.Props

open Signify Spec Asn1

theorem certTable_ne {es : List CertEntry} (hne : es ≠ []) : certTable es ≠ [] := by
  have := certTable_count es
  have := List.length_pos_iff.2 hne
  exact List.length_pos_iff.1 (by omega)

theorem attach_same {f : Bytes} {oho ohs dir : Nat} (hh : Header f oho ohs dir) (hE : HasEntry f oho ohs dir)
    (hn : ∀ a s, ¬ HasTable f oho ohs dir a s) {ck ck' : Bytes} (hck : ck.length = 4) (hck' : ck'.length = 4)
    {es es' : List CertEntry} (hne : es ≠ []) (hne' : es' ≠ []) (hsz : f.length + (certTable es).length < 2 ^ 32)
    (hsz' : f.length + (certTable es').length < 2 ^ 32) :
    SameImage (attach f oho dir ck (certTable es)) (attach f oho dir ck' (certTable es')) := by
  have ⟨i1, g1, _, _⟩ := attach_sameImage hh hE hn ck (certTable es) hck (certTable_ne hne) hsz
  have ⟨i2, g2, _, _⟩ := attach_sameImage hh hE hn ck' (certTable es') hck' (certTable_ne hne') hsz'
  exact (strip_iff_sameImage g1 g2).1 (((strip_iff_sameImage hh g1).2 i1).symm.trans ((strip_iff_sameImage hh g2).2 i2))

theorem loop_unreadable (cd : Codec) (nested : Bool) (last : Option Exc) (good rest : List CertEntry) (bad : CertEntry) (e : Exc)
    (hgood : ∀ c ∈ good, GoodEntry cd c) (hr : bad.revision = 0x200) (ht : bad.type = 2) (he : fromEnvelope cd bad.certificate = .error e)
    (found : Bool) : signedDatasLoop cd nested last (good ++ bad :: rest) found =
      ((good.filterMap (signatureIn cd)).flatMap (recursiveNested nested), some e) := by
  induction good generalizing found with
  | nil => rw [List.nil_append, signedDatasLoop, if_neg (by simp [hr]), if_pos ht, he]; rfl
  | cons c l ih =>
    obtain ⟨h1, h2⟩ := hgood c (by simp)
    have ih := fun b => ih (fun x hx => hgood x (by simp [hx])) b
    rw [List.cons_append, signedDatasLoop, if_neg (by simp [h1])]
    by_cases h3 : c.type = 2
    · obtain ⟨a, ha⟩ := h2 h3
      rw [if_pos h3, ha]
      simp only [ih]
      rw [List.filterMap_cons_some (b := a) (by rw [signatureIn, if_pos h3, ha]; rfl), List.flatMap_cons]
    · rw [if_neg h3, ih, List.filterMap_cons_none (by rw [signatureIn, if_neg h3])]

/-- The full claim: entries attached after the signatures that were there do not change that a file verifies in the mode 'any'.  It is
true of entries that can be read (C60), of entries of other types and of other revisions (below), and false otherwise. -/
def LaterEntriesHarmless : Prop := ∀ (env : Env) (args : PEVerifyArgs) (w : World) (f : Bytes) (oho ohs dir : Nat) (ck ck' : Bytes)
  (es more : List CertEntry), LibrariesBehave env → PlainCall w args → args.multiVerifyMode = "any" → args.ignoreParseErrors = true →
  Header f oho ohs dir → HasEntry f oho ohs dir → (∀ a s, ¬ HasTable f oho ohs dir a s) → ck.length = 4 → ck'.length = 4 →
  (∀ e ∈ es ++ more, Fits e) → f.length + (certTable (es ++ more)).length < 2 ^ 32 →
  (∃ res, (peVerify env derCodec (attach f oho dir ck (certTable es)) args w).1 = .ok res) →
  ∃ res, (peVerify env derCodec (attach f oho dir ck' (certTable (es ++ more))) args w).1 = .ok res

section
variable (env : Env) (cd : Codec) (args : PEVerifyArgs) (w : World)
  (f : Bytes) (oho ohs dir : Nat) (hh : Header f oho ohs dir) (hE : HasEntry f oho ohs dir) (hn : ∀ a s, ¬ HasTable f oho ohs dir a s)
  (ck ck' : Bytes) (hck : ck.length = 4) (hck' : ck'.length = 4)
include hh hE hn hck'

/-- An entry that cannot be read, for another reason than a SignedPEParseError: `verify` raises the exception of the decoder, whatever
precedes and follows the entry, whatever the mode and the other arguments.  So who can append an entry to a signed file makes its
verification fail, though neither the image nor its signatures are touched. -/
theorem C78_unreadable_partial (good rest : List CertEntry) (bad : CertEntry) (e : Exc) (hgood : ∀ c ∈ good, GoodEntry cd c)
    (hfit : ∀ c ∈ good ++ bad :: rest, Fits c) (hsz : f.length + (certTable (good ++ bad :: rest)).length < 2 ^ 32)
    (hr : bad.revision = 0x200) (ht : bad.type = 2) (he : fromEnvelope cd bad.certificate = .error e)
    (hs : ¬ Subclass e.cls .signedPEParseError) :
    peVerify env cd (attach f oho dir ck' (certTable (good ++ bad :: rest))) args w = (.error e, w) := by
  have p := C13_attach_round_trip f oho ohs dir hh hE hn ck' hck' (good ++ bad :: rest) (by simp) hfit hsz
  refine peVerify_error ?_
  unfold iterSignedDatas Gen.toList
  rw [p]
  simp only [loop_unreadable cd true none good rest bad e hgood hr ht he false]
  rw [Bool.eq_false_iff.2 (fun h => hs ((isinstance_iff e _).1 h))]
  rfl

omit hE hh hn hck' in
theorem considered_good {file : Bytes} {good rest : List CertEntry} {last err : Option Exc} (hp : parseCertTable file = (good ++ rest, last))
    (hgood : ∀ c ∈ good, GoodEntry cd c) {ign : Bool} (hs : Stops cd last (good.filterMap (signatureIn cd)) rest err)
    (hi : err = none ∨ ign = true ∧ Ignorable err) :
    Considered cd file ign (preorderAll (good.filterMap (signatureIn cd))) :=
  ⟨err, ⟨_, ⟨good, rest, by rw [hp], hgood, rfl, by rw [hp]; exact hs⟩, preOrder_preorderAll _⟩, hi⟩

omit hE hh hn hck' in
theorem preorderAll_ne {l : List ASD} (h : l ≠ []) : preorderAll l ≠ [] := by
  match l, h with
  | .mk d n :: l, _ => rw [preorderAll, ASD.preorder]; simp

include hck in
/-- An entry of an unknown revision, and everything after it, is as if it were not there (with parse errors ignored, as is the default),
provided that some entry before it holds a signature. -/
theorem C78_revision_partial (good rest : List CertEntry) (bad : CertEntry) (hgood : ∀ c ∈ good, GoodEntry cd c)
    (hsig : ∃ c ∈ good, c.type = 2) (hfit : ∀ c ∈ good ++ bad :: rest, Fits c)
    (hsz : f.length + (certTable (good ++ bad :: rest)).length < 2 ^ 32) (hr : bad.revision ≠ 0x200) (hi : args.ignoreParseErrors = true) :
    peVerify env cd (attach f oho dir ck' (certTable (good ++ bad :: rest))) args w =
      peVerify env cd (attach f oho dir ck (certTable good)) args w := by
  have hne : good ≠ [] := by rintro rfl; obtain ⟨_, h, _⟩ := hsig; cases h
  have hlen : (certTable (good ++ bad :: rest)).length = (certTable good).length + (certTable (bad :: rest)).length := by simp [certTable]
  have p1 := C13_attach_round_trip f oho ohs dir hh hE hn ck' hck' (good ++ bad :: rest) (by simp) hfit hsz
  have p2 := C13_attach_round_trip f oho ohs dir hh hE hn ck hck good hne (fun c hc => hfit c (by simp [hc])) (by omega)
  have hs := attach_same hh hE hn hck' hck (es := good ++ bad :: rest) (es' := good) (by simp) hne hsz (by omega)
  have ht : good.filterMap (signatureIn cd) ≠ [] := by
    obtain ⟨c, hc, h2⟩ := hsig
    obtain ⟨a, ha⟩ := (hgood c hc).2 h2
    exact List.ne_nil_of_mem (List.mem_filterMap.2 ⟨c, hc, by rw [signatureIn, if_pos h2, ha]; rfl⟩)
  refine C60_same_signatures env cd _ _ args w hs _
    (considered_good cd p1 hgood (.revision bad rest "" hr) (.inr ⟨hi, fun e he => ?_⟩))
    (considered_good cd (by rw [p2, List.append_nil]) hgood (.complete rfl ht) (.inl rfl))
  cases he
  exact (isinstance_iff _ _).2 (.refl _)

include hck in
/-- An entry of another type than PKCS#7 is as if it were not there, wherever it is. -/
theorem C78_other_type_partial (pre post : List CertEntry) (x : CertEntry) (hgood : ∀ c ∈ pre ++ post, GoodEntry cd c)
    (hsig : ∃ c ∈ pre ++ post, c.type = 2) (hfit : ∀ c ∈ pre ++ x :: post, Fits c)
    (hsz : f.length + (certTable (pre ++ x :: post)).length < 2 ^ 32) (hr : x.revision = 0x200) (hx : x.type ≠ 2) :
    peVerify env cd (attach f oho dir ck' (certTable (pre ++ x :: post))) args w =
      peVerify env cd (attach f oho dir ck (certTable (pre ++ post))) args w := by
  have hne : pre ++ post ≠ [] := by intro h; rw [h] at hsig; obtain ⟨_, h, _⟩ := hsig; cases h
  have hlen : (certTable (pre ++ post)).length ≤ (certTable (pre ++ x :: post)).length := by simp [certTable]
  have p1 := C13_attach_round_trip f oho ohs dir hh hE hn ck' hck' (pre ++ x :: post) (by simp) hfit hsz
  have p2 := C13_attach_round_trip f oho ohs dir hh hE hn ck hck (pre ++ post) hne (fun c hc => hfit c (by
    rcases List.mem_append.1 hc with h | h <;> simp [h])) (by omega)
  have hs := attach_same hh hE hn hck' hck (es := pre ++ x :: post) (es' := pre ++ post) (by simp) hne hsz (by omega)
  have ht : (pre ++ post).filterMap (signatureIn cd) ≠ [] := by
    obtain ⟨c, hc, h2⟩ := hsig
    obtain ⟨a, ha⟩ := (hgood c hc).2 h2
    exact List.ne_nil_of_mem (List.mem_filterMap.2 ⟨c, hc, by rw [signatureIn, if_pos h2, ha]; rfl⟩)
  have he : (pre ++ x :: post).filterMap (signatureIn cd) = (pre ++ post).filterMap (signatureIn cd) := by
    rw [List.filterMap_append, List.filterMap_append, List.filterMap_cons_none (by rw [signatureIn, if_neg hx])]
  have c1 := considered_good cd (ign := args.ignoreParseErrors) (good := pre ++ x :: post) (by rw [p1, List.append_nil]) (by
    intro c hc
    rcases List.mem_append.1 hc with h | h
    · exact hgood c (by simp [h])
    · rcases List.mem_cons.1 h with rfl | h
      · exact ⟨hr, fun h => absurd h hx⟩
      · exact hgood c (by simp [h])) (.complete rfl (by rw [he]; exact ht)) (.inl rfl)
  rw [he] at c1
  exact C60_same_signatures env cd _ _ args w hs _ c1
    (considered_good cd (by rw [p2, List.append_nil]) hgood (.complete rfl ht) (.inl rfl))

end

/-! ### An octet after the signature -/

/-- Four octets that are no value. -/
def exBad : CertEntry := ⟨0x200, 2, [0x30, 0x80, 1, 2]⟩

/-- The image with the signature of the example in `Props/EndToEnd.lean`, without and with the bad entry. -/
def exWithout : Bytes := attach exDImage 88 216 [1, 2, 3, 4] (certTable [signatureEntry (contentInfo exDOuter.encode)])

theorem exWithout_verifies : ∃ res, (peVerify exDEnv derCodec exWithout (exDArgs "any") exDWorld).1 = .ok res := by
  have key := C72_signed_image exDEnv (exDArgs "any") exDWorld exDEnv_behaves (exDCall "any") exDTrusted (by decide)
    exDImage 88 136 216 (by decide +kernel) (by decide +kernel) (by rintro a s ⟨_, _, h, h', _⟩; exact h' (h.trans (by decide +kernel)))
    [1, 2, 3, 4] rfl [(exDOuter, exDOuterSays, [])] (by simp) (by
      intro x hx
      simp only [List.mem_cons, List.not_mem_nil, or_false] at hx
      subst hx
      exact ⟨exDOuter_says, exDOuter_valid⟩) (by decide +kernel) [exDOuterSays, exDInnerSays] (by
      have := preOrder_preorderAll [exDOuterSays]
      exact this) (by
      intro b hb
      simp only [List.mem_cons, List.not_mem_nil, or_false] at hb
      rcases hb with rfl | rfl
      · exact exDOuter_names
      · exact exDInner_names)
  simp only [List.map_cons, List.map_nil, List.append_nil] at key
  exact key.2 (.inl ⟨rfl, _, by simp, (exD_holds _).1⟩)

theorem exBad_unreadable : ∃ e, fromEnvelope derCodec exBad.certificate = .error e ∧ e.cls = .valueError := by
  have : (match fromEnvelope derCodec exBad.certificate with | .error e => decide (e.cls = .valueError) | .ok _ => false) = true := by
    decide +kernel
  split at this
  · exact ⟨_, by assumption, by simpa using this⟩
  · cases this

theorem exOuter_good : GoodEntry derCodec (signatureEntry (contentInfo exDOuter.encode)) :=
  ⟨rfl, fun _ => ⟨exDOuterSays, by
    have := C68_signature_read_back _ _ exDOuter_says exDOuter_valid (Nat.lt_of_lt_of_le exDOuter_len (by decide +kernel)) []
    rwa [List.append_nil] at this⟩⟩

/-- **C78** as a user would expect it is false: an entry of four octets after the signature, and the file does not verify any more, in the
most lenient mode and with parse errors ignored. -/
theorem C78_harmless_false : ¬ LaterEntriesHarmless := by
  intro h
  obtain ⟨e, he, hc⟩ := exBad_unreadable
  have hfit : ∀ c ∈ [signatureEntry (contentInfo exDOuter.encode)] ++ [exBad], Fits c := by
    intro c hc
    simp only [List.cons_append, List.nil_append, List.mem_cons, List.not_mem_nil, or_false] at hc
    rcases hc with rfl | rfl
    · exact fits_entry (by intro h; have := congrArg List.length h; simp [contentInfo, derSeq, tlv] at this) (by decide +kernel)
    · exact ⟨by decide, by decide, by decide, by decide⟩
  have hsz : exDImage.length + (certTable ([signatureEntry (contentInfo exDOuter.encode)] ++ [exBad])).length < 2 ^ 32 := by decide +kernel
  have hn : ∀ a s, ¬ HasTable exDImage 88 136 216 a s := by rintro a s ⟨_, _, h, h', _⟩; exact h' (h.trans (by decide +kernel))
  obtain ⟨res, hr⟩ := h exDEnv (exDArgs "any") exDWorld exDImage 88 136 216 [1, 2, 3, 4] [1, 2, 3, 4]
    [signatureEntry (contentInfo exDOuter.encode)] [exBad] exDEnv_behaves (exDCall "any") rfl rfl (by decide +kernel) (by decide +kernel)
    hn rfl rfl hfit hsz exWithout_verifies
  rw [C78_unreadable_partial exDEnv derCodec (exDArgs "any") exDWorld exDImage 88 136 216 (by decide +kernel) (by decide +kernel) hn
    [1, 2, 3, 4] rfl [signatureEntry (contentInfo exDOuter.encode)] [] exBad e (by
      intro c hc
      rw [List.mem_singleton.1 hc]
      exact exOuter_good) hfit hsz rfl rfl he (by rw [hc]; decide)] at hr
  cases hr

theorem exOuter_fits : Fits (signatureEntry (contentInfo exDOuter.encode)) :=
  fits_entry (by intro h; have := congrArg List.length h; simp [contentInfo, derSeq, tlv] at this) (by decide +kernel)

/-- An entry of revision 1.0 and an entry of type 1, each after the signature: the file verifies as before. -/
example : ∃ res res',
    (peVerify exDEnv derCodec (attach exDImage 88 216 [9, 9, 9, 9]
      (certTable ([signatureEntry (contentInfo exDOuter.encode)] ++ ⟨0x100, 2, [1]⟩ :: []))) (exDArgs "any") exDWorld).1 = .ok res ∧
    (peVerify exDEnv derCodec (attach exDImage 88 216 [9, 9, 9, 9]
      (certTable ([signatureEntry (contentInfo exDOuter.encode)] ++ ⟨0x200, 1, [1]⟩ :: []))) (exDArgs "any") exDWorld).1 = .ok res' := by
  obtain ⟨res, h⟩ := exWithout_verifies
  have hn : ∀ a s, ¬ HasTable exDImage 88 136 216 a s := by rintro a s ⟨_, _, h, h', _⟩; exact h' (h.trans (by decide +kernel))
  have hgood : ∀ c ∈ [signatureEntry (contentInfo exDOuter.encode)], GoodEntry derCodec c := fun c hc => by
    rw [List.mem_singleton.1 hc]; exact exOuter_good
  have hfit : ∀ x : CertEntry, Fits x → ∀ c ∈ [signatureEntry (contentInfo exDOuter.encode)] ++ [x], Fits c := by
    intro x hx c hc
    simp only [List.cons_append, List.nil_append, List.mem_cons, List.not_mem_nil, or_false] at hc
    rcases hc with rfl | rfl
    · exact exOuter_fits
    · exact hx
  refine ⟨res, res, ?_, ?_⟩
  · rw [C78_revision_partial exDEnv derCodec (exDArgs "any") exDWorld exDImage 88 136 216 (by decide +kernel) (by decide +kernel) hn
      [1, 2, 3, 4] [9, 9, 9, 9] rfl rfl [signatureEntry (contentInfo exDOuter.encode)] [] ⟨0x100, 2, [1]⟩ hgood ⟨_, List.mem_singleton.2 rfl, rfl⟩
      (hfit _ ⟨by decide, by decide, by decide, by decide⟩) (by decide +kernel) (by decide) rfl]
    exact h
  · rw [C78_other_type_partial exDEnv derCodec (exDArgs "any") exDWorld exDImage 88 136 216 (by decide +kernel) (by decide +kernel) hn
      [1, 2, 3, 4] [9, 9, 9, 9] rfl rfl [signatureEntry (contentInfo exDOuter.encode)] [] ⟨0x200, 1, [1]⟩
      (by rwa [List.append_nil]) ⟨signatureEntry (contentInfo exDOuter.encode), by simp, rfl⟩
      (hfit _ ⟨by decide, by decide, by decide, by decide⟩) (by decide +kernel) rfl (by decide), List.append_nil]
    exact h

end Signify.Props
