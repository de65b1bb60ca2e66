/-
`SignedPEFile`: the signatures of a file, the expected hashes, and the loop over the signatures.
-/
import Verif.Spec.PEFile
import Verif.Proofs.Expected
import Verif.Proofs.Pkcs7Errors
import Verif.Proofs.History

set_option autoImplicit false

namespace Signify

open Spec

/-! ### Order of the signatures -/

mutual
theorem preOrder_preorder : ∀ a : ASD, PreOrder a a.preorder
  | .mk d nested => by
    rw [ASD.preorder]
    exact .mk d nested _ (preOrder_preorderAll nested)
theorem preOrder_preorderAll : ∀ l : List ASD, PreOrderAll l (preorderAll l)
  | [] => by rw [preorderAll]; exact .nil
  | a :: l => by
    rw [preorderAll]
    exact .cons a l _ _ (preOrder_preorder a) (preOrder_preorderAll l)
end

mutual
theorem preOrder_eq : ∀ {a : ASD} {l : List ASD}, PreOrder a l → l = a.preorder
  | .mk d nested, _, .mk _ _ l h => by rw [ASD.preorder, preOrderAll_eq h]
theorem preOrderAll_eq : ∀ {as l : List ASD}, PreOrderAll as l → l = preorderAll as
  | [], _, .nil => by rw [preorderAll]
  | _ :: _, _, .cons a as l l' h h' => by rw [preorderAll, preOrder_eq h, preOrderAll_eq h']
end

theorem preorderAll_flatMap (l : List ASD) : preorderAll l = l.flatMap ASD.preorder := by
  induction l with
  | nil => rw [preorderAll]; rfl
  | cons a l ih => rw [preorderAll, ih, List.flatMap_cons]

theorem preorder_ne_nil (a : ASD) : a.preorder ≠ [] := by
  cases a; rw [ASD.preorder]; simp

theorem preorderAll_nil {l : List ASD} : preorderAll l = [] ↔ l = [] := by
  rw [preorderAll_flatMap]
  cases l with
  | nil => simp
  | cons a l => simp [preorder_ne_nil]

theorem recursiveNested_flatMap (b : Bool) (l : List ASD) :
    l.flatMap (recursiveNested b) = if b then preorderAll l else l := by
  cases b with
  | true => rw [preorderAll_flatMap]; rfl
  | false =>
    show l.flatMap (fun a => [a]) = l
    induction l with
    | nil => rfl
    | cons a l ih => rw [List.flatMap_cons, ih]; rfl

/-! ### The loop over the certificate table -/

/-- Existence of the decomposition. -/
theorem signedDatasLoop_spec (cd : Codec) (last : Option Exc) : ∀ (entries : List CertEntry) (before : List ASD),
    ∃ pre rest err, entries = pre ++ rest ∧ (∀ c ∈ pre, GoodEntry cd c) ∧
      Stops cd last (before ++ pre.filterMap (signatureIn cd)) rest err ∧
      ∀ nested, signedDatasLoop cd nested last entries (!before.isEmpty) =
        ((pre.filterMap (signatureIn cd)).flatMap (recursiveNested nested), err)
  | [], before => by
    cases hl : last with
    | some e => exact ⟨[], [], some e, rfl, by simp, .table e rfl, fun n => by simp [signedDatasLoop]⟩
    | none =>
      cases before with
      | nil => exact ⟨[], [], _, rfl, by simp, .unsigned "A SignedData structure was not found" rfl rfl,
          fun n => by simp [signedDatasLoop]⟩
      | cons b l => exact ⟨[], [], none, rfl, by simp, .complete rfl (by simp), fun n => by simp [signedDatasLoop]⟩
  | c :: entries, before => by
    by_cases hr : c.revision = 0x200
    · by_cases ht : c.type = 2
      · cases hp : fromEnvelope cd c.certificate with
        | error e =>
          exact ⟨[], c :: entries, some e, rfl, by simp, .unreadable c entries e hr ht hp,
            fun n => by simp [signedDatasLoop, hr, ht, hp]⟩
        | ok a =>
          obtain ⟨pre, rest, err, h1, h2, h3, h4⟩ := signedDatasLoop_spec cd last entries (before ++ [a])
          have hs : signatureIn cd c = some a := by
            unfold signatureIn
            rw [if_pos ht, hp]
            rfl
          have hf : (c :: pre).filterMap (signatureIn cd) = a :: pre.filterMap (signatureIn cd) := by
            rw [List.filterMap_cons, hs]
          refine ⟨c :: pre, rest, err, by rw [h1]; rfl, ?_, ?_, ?_⟩
          · intro x hx
            rcases List.mem_cons.1 hx with rfl | hx
            · exact ⟨hr, fun _ => ⟨a, hp⟩⟩
            · exact h2 x hx
          · rw [hf]
            rw [List.append_assoc] at h3
            exact h3
          · intro n
            have h4 := h4 n
            rw [hf, List.flatMap_cons]
            have hb : (!(before ++ [a]).isEmpty) = true := by simp
            rw [hb] at h4
            simp only [signedDatasLoop, hr, ht, hp, ne_eq, not_true_eq_false, if_false, if_true, h4]
      · obtain ⟨pre, rest, err, h1, h2, h3, h4⟩ := signedDatasLoop_spec cd last entries before
        have hs : signatureIn cd c = none := by unfold signatureIn; rw [if_neg ht]
        have hf : (c :: pre).filterMap (signatureIn cd) = pre.filterMap (signatureIn cd) := by rw [List.filterMap_cons, hs]
        refine ⟨c :: pre, rest, err, by rw [h1]; rfl, ?_, by rw [hf]; exact h3, ?_⟩
        · intro x hx
          rcases List.mem_cons.1 hx with rfl | hx
          · exact ⟨hr, fun h => absurd h ht⟩
          · exact h2 x hx
        · intro n
          rw [hf, ← h4 n]
          simp only [signedDatasLoop, hr, ht, ne_eq, not_true_eq_false, if_false]
    · exact ⟨[], c :: entries, _, rfl, by simp, .revision c entries "Unknown certificate revision" hr,
        fun n => by simp [signedDatasLoop, hr]⟩

/-- Any such decomposition describes the loop. -/
theorem signedDatasLoop_of (cd : Codec) (last : Option Exc) (rest : List CertEntry) (err : Option Exc) :
    ∀ (pre : List CertEntry) (before : List ASD), (∀ c ∈ pre, GoodEntry cd c) →
      Stops cd last (before ++ pre.filterMap (signatureIn cd)) rest err →
      ∃ err' : Option Exc, err'.map Exc.cls = err.map Exc.cls ∧
        ∀ nested, signedDatasLoop cd nested last (pre ++ rest) (!before.isEmpty) =
          ((pre.filterMap (signatureIn cd)).flatMap (recursiveNested nested), err')
  | [], before, _, hs => by
    simp only [List.filterMap_nil, List.append_nil] at hs
    cases hs with
    | revision c rest msg h => exact ⟨some ⟨.signedPEParseError, "Unknown certificate revision"⟩, rfl, fun n => by simp [signedDatasLoop, h]⟩
    | unreadable c rest e h1 h2 h3 => exact ⟨some e, rfl, fun n => by simp [signedDatasLoop, h1, h2, h3]⟩
    | table e h => subst h; exact ⟨some e, rfl, fun n => by simp [signedDatasLoop]⟩
    | unsigned msg h1 h2 =>
      subst h1; subst h2
      exact ⟨some ⟨.signedPEParseError, "A SignedData structure was not found"⟩, rfl, fun n => by simp [signedDatasLoop]⟩
    | complete h1 h2 =>
      subst h1
      exact ⟨none, rfl, fun n => by simp [signedDatasLoop, h2]⟩
  | c :: pre, before, hg, hs => by
    obtain ⟨hr, hp⟩ := hg c (List.mem_cons_self ..)
    by_cases ht : c.type = 2
    · obtain ⟨a, ha⟩ := hp ht
      have hs' : signatureIn cd c = some a := by
        unfold signatureIn
        rw [if_pos ht, ha]
        rfl
      have hf : (c :: pre).filterMap (signatureIn cd) = a :: pre.filterMap (signatureIn cd) := by
        rw [List.filterMap_cons, hs']
      rw [hf] at hs
      obtain ⟨err', h1, h2⟩ := signedDatasLoop_of cd last rest err pre (before ++ [a]) (fun x hx => hg x (List.mem_cons_of_mem _ hx))
        (by rw [List.append_assoc]; exact hs)
      refine ⟨err', h1, fun n => ?_⟩
      have h4 := h2 n
      rw [hf, List.flatMap_cons]
      have hb : (!(before ++ [a]).isEmpty) = true := by simp
      rw [hb] at h4
      simp only [List.cons_append, signedDatasLoop, hr, ht, ha, ne_eq, not_true_eq_false, if_false, if_true, h4]
    · have hs' : signatureIn cd c = none := by unfold signatureIn; rw [if_neg ht]
      have hf : (c :: pre).filterMap (signatureIn cd) = pre.filterMap (signatureIn cd) := by rw [List.filterMap_cons, hs']
      rw [hf] at hs
      obtain ⟨err', h1, h2⟩ := signedDatasLoop_of cd last rest err pre before (fun x hx => hg x (List.mem_cons_of_mem _ hx)) hs
      refine ⟨err', h1, fun n => ?_⟩
      rw [hf, ← h2 n]
      simp only [List.cons_append, signedDatasLoop, hr, ht, ne_eq, not_true_eq_false, if_false]

theorem is_of_cls_eq {e e' : Exc} (h : e.cls = e'.cls) (c : ExcClass) : e.is c = e'.is c := by
  unfold Exc.is; rw [h]

/-- `iter_signed_datas` in terms of the first error. -/
theorem iterSignedDatas_eq (cd : Codec) (file : Bytes) (nested ignore : Bool) (tops : List ASD) (err : Option Exc)
    (h : ∀ n, signedDatasLoop cd n (parseCertTable file).2 (parseCertTable file).1 false = (tops.flatMap (recursiveNested n), err)) :
    iterSignedDatas cd file nested ignore =
      (if nested then preorderAll tops else tops,
       if ignore = true ∧ ∃ e, err = some e ∧ e.is .signedPEParseError = true then none else err) := by
  unfold iterSignedDatas
  simp only
  rw [h nested, recursiveNested_flatMap]
  cases err with
  | none => simp
  | some e =>
    simp only [Option.some.injEq, exists_eq_left']
    by_cases h1 : e.is .signedPEParseError = true
    · cases ignore <;> simp [h1]
    · cases ignore <;> simp [h1]

theorem iterSignedDatas_exists (cd : Codec) (file : Bytes) : ∃ tops err, TopLevel cd file tops err ∧
    ∀ n, signedDatasLoop cd n (parseCertTable file).2 (parseCertTable file).1 false = (tops.flatMap (recursiveNested n), err) := by
  obtain ⟨pre, rest, err, h1, h2, h3, h4⟩ := signedDatasLoop_spec cd (parseCertTable file).2 (parseCertTable file).1 []
  exact ⟨_, err, ⟨pre, rest, h1, h2, rfl, h3⟩, h4⟩

theorem iterSignedDatas_of {cd : Codec} {file : Bytes} {tops : List ASD} {err : Option Exc} (h : TopLevel cd file tops err) :
    ∃ err' : Option Exc, err'.map Exc.cls = err.map Exc.cls ∧
      ∀ n, signedDatasLoop cd n (parseCertTable file).2 (parseCertTable file).1 false = (tops.flatMap (recursiveNested n), err') := by
  obtain ⟨pre, rest, h1, h2, rfl, h3⟩ := h
  obtain ⟨err', h4, h5⟩ := signedDatasLoop_of cd (parseCertTable file).2 rest err pre [] h2 h3
  exact ⟨err', h4, fun n => by rw [h1]; exact h5 n⟩

theorem ignorable_iff {e e' : Option Exc} (h : e.map Exc.cls = e'.map Exc.cls) : Ignorable e ↔ Ignorable e' := by
  cases e with
  | none =>
    cases e' with
    | none => exact Iff.rfl
    | some _ => cases h
  | some x =>
    cases e' with
    | none => cases h
    | some y =>
      injection h with h
      unfold Ignorable
      simp only [Option.some.injEq, forall_eq']
      rw [is_of_cls_eq h]

/-- `list(iter_signed_datas(...))` succeeds exactly with the signatures to be considered. -/
theorem considered_iff {cd : Codec} {file : Bytes} {ignore : Bool} {sds : List ASD} :
    Considered cd file ignore sds ↔ (iterSignedDatas cd file true ignore).toList = .ok sds := by
  constructor
  · rintro ⟨err, ⟨tops, ht, hp⟩, hi⟩
    obtain ⟨err', h1, h2⟩ := iterSignedDatas_of ht
    rw [iterSignedDatas_eq cd file true ignore tops err' h2, preOrderAll_eq hp]
    cases err' with
    | none => simp [Gen.toList]
    | some e =>
      rcases hi with rfl | ⟨hi, hg⟩
      · cases h1
      · have := (ignorable_iff h1).2 hg e rfl
        simp [Gen.toList, hi, this]
  · intro h
    obtain ⟨tops, err, ht, h2⟩ := iterSignedDatas_exists cd file
    rw [iterSignedDatas_eq cd file true ignore tops err h2] at h
    simp only [if_true] at h
    refine ⟨err, ⟨tops, ht, ?_⟩, ?_⟩
    · have : sds = preorderAll tops := by
        split at h <;> (try cases err) <;> simp [Gen.toList] at h <;> exact h.symm
      rw [this]
      exact preOrder_preorderAll tops
    · cases err with
      | none => exact .inl rfl
      | some e =>
        right
        split at h
        · rename_i hc
          obtain ⟨hc, e', he', hg⟩ := hc
          cases he'
          exact ⟨hc, fun x hx => by cases hx; exact hg⟩
        · simp [Gen.toList] at h

theorem stops_cases {cd : Codec} {last : Option Exc} {tops : List ASD} {rest : List CertEntry} {err : Option Exc}
    (h : Stops cd last tops rest err) (hn : err = none) : last = none ∧ tops ≠ [] := by
  cases h with
  | complete h1 h2 => exact ⟨h1, h2⟩
  | _ => cases hn

/-- A signature in a file means that the file has a usable header. -/
theorem header_of_signature {cd : Codec} {file : Bytes} {tops : List ASD} {err : Option Exc} (h : TopLevel cd file tops err)
    (hne : tops ≠ []) : ∃ oho ohs dir, Header file oho ohs dir := by
  obtain ⟨pre, rest, h1, h2, rfl, h3⟩ := h
  apply Classical.byContradiction
  intro hc
  have hn : ¬ ∃ oho ohs dir a s, Header file oho ohs dir ∧ HasTable file oho ohs dir a s :=
    fun ⟨a, b, c, _, _, hh, _⟩ => hc ⟨a, b, c, hh⟩
  obtain ⟨e, -, he⟩ := parseCertTable_noTable hn (file.length + 1)
  have : (parseCertTable file).1 = [] := by
    unfold parseCertTable
    rw [he]
    rfl
  rw [this] at h1
  have hp : pre = [] := (List.append_eq_nil_iff.1 h1.symm).1
  subst hp
  exact hne rfl

theorem header_of_considered {cd : Codec} {file : Bytes} {ignore : Bool} {sds : List ASD} (h : Considered cd file ignore sds)
    (hne : sds ≠ []) : ∃ oho ohs dir, Header file oho ohs dir := by
  obtain ⟨err, ⟨tops, ht, hp⟩, -⟩ := h
  refine header_of_signature ht (fun e => hne ?_)
  rw [preOrderAll_eq hp, e, preorderAll]

/-! ### Where the signatures come from -/

/-- All signatures nested in one that was read were read themselves. -/
theorem readsASD_preorder {cd : Codec} {sd : RawSD} {a : ASD} (h : ReadsASD cd sd a) :
    ∀ x ∈ a.preorder, ∃ sd', Within sd sd' ∧ ReadsASD cd sd' x := by
  induction h with
  | @mk sd d nested si attrs rspc sds core noCrls content spc oneSigner signer statement opus counter nestedIn all rec ih =>
    intro x hx
    rw [ASD.preorder, preorderAll_flatMap] at hx
    rcases List.mem_cons.1 hx with rfl | hx
    · exact ⟨sd, .self sd, .mk core noCrls content spc oneSigner signer statement opus counter nestedIn all rec⟩
    · obtain ⟨y, hy, hx⟩ := List.mem_flatMap.1 hx
      obtain ⟨i, hi, rfl⟩ := List.mem_iff_getElem.1 hy
      have hi' : i < sds.length := by omega
      obtain ⟨sd', hw, hr⟩ := ih i (sds[i]) nested[i] (List.getElem?_eq_getElem _) (List.getElem?_eq_getElem _) x hx
      refine ⟨sd', ?_, hr⟩
      have h1 : Within sd sds[i] := .nested (.self sd) (by rw [oneSigner]; exact List.mem_singleton_self _) nestedIn (List.getElem_mem _)
      exact within_trans h1 hw
where
  within_trans {a b c : RawSD} (h : Within a b) (k : Within b c) : Within a c := by
    induction k with
    | self => exact h
    | nested _ hs hn hy ih => exact .nested ih hs hn hy

/-- Every signature of the file is one that was read from an entry of the certificate table. -/
theorem signature_read {cd : Codec} {file : Bytes} {sds : List ASD} {err : Option Exc} (h : Signatures cd file sds err)
    {x : ASD} (hx : x ∈ sds) : ∃ c ∈ (parseCertTable file).1, c.revision = 0x200 ∧ c.type = 2 ∧
      ∃ sd sd', cd.envelope c.certificate = .ok ("signed_data", sd) ∧ Within sd sd' ∧ ReadsASD cd sd' x := by
  obtain ⟨tops, ⟨pre, rest, h1, h2, rfl, -⟩, hp⟩ := h
  rw [preOrderAll_eq hp, preorderAll_flatMap] at hx
  obtain ⟨a, ha, hx⟩ := List.mem_flatMap.1 hx
  obtain ⟨c, hc, hs⟩ := List.mem_filterMap.1 ha
  unfold signatureIn at hs
  by_cases ht : c.type = 2
  · rw [if_pos ht] at hs
    cases hf : fromEnvelope cd c.certificate with
    | error e => rw [hf] at hs; cases hs
    | ok a' =>
      rw [hf] at hs
      cases hs
      unfold fromEnvelope at hf
      obtain ⟨⟨t, sd⟩, he, hf⟩ := Except.bind_eq_ok.1 hf
      simp only at hf
      split at hf
      · cases hf
      · rename_i hn
        have hn : t = "signed_data" := Classical.byContradiction hn
        subst hn
        obtain ⟨sd', hw, hr⟩ := readsASD_preorder (parseASD_ok.1 hf) x hx
        exact ⟨c, by rw [h1]; exact List.mem_append_left _ hc, (h2 c hc).1, ht, sd, sd', he, hw, hr⟩
  · rw [if_neg ht] at hs; cases hs

theorem considered_alg {cd : Codec} {file : Bytes} {ignore : Bool} {sds : List ASD} (h : Considered cd file ignore sds)
    {x : ASD} (hx : x ∈ sds) : x.d.core.digestAlg ∈ digestAlgorithms := by
  obtain ⟨err, hs, -⟩ := h
  obtain ⟨c, -, -, -, sd, sd', -, -, hr⟩ := signature_read hs hx
  cases hr with
  | mk core => obtain ⟨a, -, ha, he⟩ := core.alg; simp only [ASD.d]; rw [he]; exact ha.1

/-! ### Selection -/

theorem strength_rank {a b : String} (ha : a ∈ digestAlgorithms) (hb : b ∈ digestAlgorithms) :
    (algRank a ≤ algRank b ↔ strength a ≤ strength b) ∧ (strength a = strength b → a = b) := by
  simp only [digestAlgorithms, List.mem_cons, List.not_mem_nil, or_false] at ha hb
  rcases ha with rfl | rfl | rfl | rfl | rfl <;> rcases hb with rfl | rfl | rfl | rfl | rfl <;> decide

theorem bestAlg_spec : ∀ (l : List String), (∀ x ∈ l, x ∈ digestAlgorithms) →
    (bestAlg l = none ↔ l = []) ∧ ∀ b, bestAlg l = some b → b ∈ l ∧ ∀ x ∈ l, strength x ≤ strength b
  | [], _ => ⟨by simp [bestAlg], by simp [bestAlg]⟩
  | a :: l, h => by
    obtain ⟨ih1, ih2⟩ := bestAlg_spec l (fun x hx => h x (List.mem_cons_of_mem _ hx))
    rw [bestAlg]
    cases hb : bestAlg l with
    | none =>
      have := ih1.1 hb
      subst this
      simp
    | some b =>
      obtain ⟨h1, h2⟩ := ih2 b hb
      have ha := h a (List.mem_cons_self ..)
      have hbm := h b (List.mem_cons_of_mem _ h1)
      simp only
      split
      · rename_i hr
        have hr := (strength_rank hbm ha).1.1 hr
        refine ⟨by simp, ?_⟩
        intro c hc
        cases hc
        refine ⟨List.mem_cons_self .., fun x hx => ?_⟩
        rcases List.mem_cons.1 hx with rfl | hx
        · exact Nat.le_refl _
        · exact Nat.le_trans (h2 x hx) hr
      · rename_i hr
        have hr : strength a ≤ strength b := (strength_rank ha hbm).1.1 (by omega)
        refine ⟨by simp, ?_⟩
        intro c hc
        cases hc
        refine ⟨List.mem_cons_of_mem _ h1, fun x hx => ?_⟩
        rcases List.mem_cons.1 hx with rfl | hx
        · exact hr
        · exact h2 x hx

/-- Two sublists of maximal length with the same membership test. -/
theorem sublist_filter_max {α : Type} {l sel : List α} {P : α → Prop} [DecidablePred P] (hs : sel.Sublist l) (hp : ∀ a ∈ sel, P a)
    (hm : ∀ k : List α, k.Sublist l → (∀ a ∈ k, P a) → k.length ≤ sel.length) : sel = l.filter (fun a => decide (P a)) := by
  have h1 : sel.Sublist (l.filter (fun a => decide (P a))) := by
    have := hs.filter (fun a => decide (P a))
    rwa [List.filter_eq_self.2 (fun a ha => decide_eq_true (hp a ha))] at this
  refine h1.eq_of_length_le ?_
  exact hm _ (List.filter_sublist) (fun a ha => of_decide_eq_true (List.mem_filter.1 ha).2)

theorem filter_is_max {α : Type} {l : List α} {P : α → Prop} [DecidablePred P] :
    ∀ k : List α, k.Sublist l → (∀ a ∈ k, P a) → k.length ≤ (l.filter (fun a => decide (P a))).length := by
  intro k hk hp
  have := hk.filter (fun a => decide (P a))
  rw [List.filter_eq_self.2 (fun a ha => decide_eq_true (hp a ha))] at this
  exact this.length_le

instance (sds : List ASD) : DecidablePred (Strongest sds) := fun a => by unfold Strongest; infer_instance

theorem best_eq {sds : List ASD} (h : ∀ x ∈ sds, x.d.core.digestAlg ∈ digestAlgorithms) :
    selectSignatures "best" sds = sds.filter (fun a => decide (Strongest sds a)) := by
  have hm : ∀ x ∈ sds.map (fun a => a.d.core.digestAlg), x ∈ digestAlgorithms := by
    intro x hx
    obtain ⟨a, ha, rfl⟩ := List.mem_map.1 hx
    exact h a ha
  obtain ⟨h1, h2⟩ := bestAlg_spec _ hm
  unfold selectSignatures
  rw [if_neg (by decide), if_pos rfl]
  cases hb : bestAlg (sds.map (fun a => a.d.core.digestAlg)) with
  | none =>
    have := h1.1 hb
    have := List.map_eq_nil_iff.1 this
    subst this
    rfl
  | some b =>
    obtain ⟨h3, h4⟩ := h2 b hb
    simp only
    apply List.filter_congr
    intro a ha
    have hle : ∀ x ∈ sds, strength x.d.core.digestAlg ≤ strength b := fun x hx => h4 _ (List.mem_map.2 ⟨x, hx, rfl⟩)
    obtain ⟨c, hc, rfl⟩ := List.mem_map.1 h3
    apply decide_eq_decide.2
    constructor
    · intro e
      intro x hx
      rw [e]
      exact hle x hx
    · intro hst
      exact (strength_rank (h a ha) (h c hc)).2 (Nat.le_antisymm (hle a ha) (hst c hc))

theorem selected_iff {mode : String} {sds sel : List ASD} (hne : sds ≠ []) (h : ∀ x ∈ sds, x.d.core.digestAlg ∈ digestAlgorithms) :
    Selected mode sds sel ↔ sel = selectSignatures mode sds := by
  constructor
  · rintro (⟨a, rest, rfl, rfl⟩ | ⟨_, rfl, h1, h2, h3⟩ | ⟨h1, h2⟩)
    · rfl
    · rw [best_eq h]
      exact sublist_filter_max h1 h2 h3
    · unfold selectSignatures
      rw [if_neg h1, if_neg h2]
  · rintro rfl
    by_cases h1 : mode = "first"
    · subst h1
      cases sds with
      | nil => exact absurd rfl hne
      | cons a l => exact .first a l rfl rfl
    · by_cases h2 : mode = "best"
      · subst h2
        rw [best_eq h]
        exact .best _ rfl List.filter_sublist (fun a ha => of_decide_eq_true (List.mem_filter.1 ha).2) filter_is_max
      · unfold selectSignatures
        rw [if_neg h1, if_neg h2]
        exact .all h1 h2

theorem selected_ne_nil {mode : String} {sds : List ASD} (hne : sds ≠ []) (h : ∀ x ∈ sds, x.d.core.digestAlg ∈ digestAlgorithms) :
    selectSignatures mode sds ≠ [] := by
  unfold selectSignatures
  split
  · cases sds with
    | nil => exact absurd rfl hne
    | cons a l => simp
  · split
    · have hm : ∀ x ∈ sds.map (fun a => a.d.core.digestAlg), x ∈ digestAlgorithms := by
        intro x hx
        obtain ⟨a, ha, rfl⟩ := List.mem_map.1 hx
        exact h a ha
      obtain ⟨h1, h2⟩ := bestAlg_spec _ hm
      cases hb : bestAlg (sds.map (fun a => a.d.core.digestAlg)) with
      | none => exact absurd (List.map_eq_nil_iff.1 (h1.1 hb)) hne
      | some b =>
        obtain ⟨c, hc, e⟩ := List.mem_map.1 (h2 b hb).1
        simp only
        exact List.ne_nil_of_mem (List.mem_filter.2 ⟨hc, decide_eq_true e⟩)
    · exact hne

theorem selected_subset {mode : String} {sds : List ASD} : ∀ x ∈ selectSignatures mode sds, x ∈ sds := by
  intro x hx
  unfold selectSignatures at hx
  split at hx
  · exact List.mem_of_mem_take hx
  · split at hx
    · split at hx
      · cases hx
      · exact (List.mem_filter.1 hx).1
    · exact hx

/-! ### Expected hashes -/

theorem mem_dedupNames {x : String} : ∀ {l : List String}, x ∈ dedupNames l ↔ x ∈ l
  | [] => Iff.rfl
  | a :: l => by
    rw [dedupNames, List.mem_cons, List.mem_filter, mem_dedupNames (l := l), List.mem_cons]
    by_cases h : x = a <;> simp [h]

/-- The digests added to those provided. -/
theorem neededHashes_ok (env : Env) (file : Bytes) (algs : List String) (provided : Dict String Bytes) (hp : HashNames provided)
    {oho ohs dir : Nat} (h : Header file oho ohs dir) :
    ∃ more, neededHashes env file algs provided = .ok more ∧
      ∀ n, (provided.update more).get? n = (provided.get? n).or
        (if n ∈ algs then some (env.hash n (deleteSections file (omitted file oho ohs dir))) else none) := by
  unfold neededHashes
  have h0 : (provided.all fun kv => hashlibNames.contains kv.1) = true := by
    rw [List.all_eq_true]
    intro kv hkv
    rw [List.contains_iff_mem]
    exact hp kv.1 kv.2 hkv
  simp only [h0, Bool.not_true, Bool.false_eq_true, if_false]
  have hm : ∀ n, n ∈ (dedupNames algs).filter (fun a => (provided.get? a).isNone) ↔ n ∈ algs ∧ provided.get? n = none := by
    intro n
    rw [List.mem_filter, mem_dedupNames, Option.isNone_iff_eq_none]
  split
  · rename_i he
    refine ⟨[], rfl, fun n => ?_⟩
    rw [List.isEmpty_iff] at he
    rw [he] at hm
    show provided.get? n = _
    cases hg : provided.get? n with
    | some d => rfl
    | none =>
      have : n ∉ algs := fun hn => (by have := (hm n).2 ⟨hn, hg⟩; cases this)
      rw [if_neg this]
      rfl
  · obtain ⟨fp, ds, h1, h2, h3, h4⟩ := hashesOf_authenticode env file ((dedupNames algs).filter (fun a => (provided.get? a).isNone)) h
    rw [h1]
    simp only [h2, bind, Except.bind, Dict.get?, if_true]
    refine ⟨ds, rfl, fun n => ?_⟩
    have h5 : ∀ n, (provided.update ds).get? n = (ds.get? n).or (provided.get? n) := by
      intro n
      rw [Dict.get?_update]
      cases hf : ds.reverse.find? (fun p => p.1 = n) with
      | none =>
        have : ds.get? n = none := by
          rw [Dict.get?_eq_none_iff]
          intro hk
          obtain ⟨p, hp, e⟩ := List.mem_map.1 hk
          have := List.find?_eq_none.1 hf p (List.mem_reverse.2 hp)
          simp [e] at this
        rw [this]
        rfl
      | some p =>
        have hp1 := List.find?_some hf
        have hp2 := List.mem_reverse.1 (List.mem_of_find?_eq_some hf)
        have hp1 : p.1 = n := of_decide_eq_true hp1
        have : ds.get? n = some p.2 := Dict.get?_of_mem h4 (by rw [← hp1]; exact hp2)
        rw [this]
        rfl
    rw [h5, h3]
    by_cases hn : n ∈ algs ∧ provided.get? n = none
    · rw [if_pos ((hm n).2 hn), if_pos hn.1, hn.2]
      rfl
    · rw [if_neg (fun h => hn ((hm n).1 h))]
      cases hg : provided.get? n with
      | some d => rfl
      | none => rw [if_neg (fun h => hn ⟨h, hg⟩)]

/-- The state after the expected hashes have been computed. -/
def withHashes (w : World) (e : Option Nat) (d : Dict String Bytes) : World :=
  match e with
  | none => w
  | some i => { w with dicts := fun j => if j = i then d else w.dicts j }

theorem calculateExpectedHashes_ok (env : Env) (file : Bytes) (algs : List String) (args : PEVerifyArgs) (w : World)
    (hp : HashNames (providedBy w args)) {oho ohs dir : Nat} (h : Header file oho ohs dir) :
    ∃ d, calculateExpectedHashes env file algs args.expectedHashes w = (.ok d, withHashes w args.expectedHashes d) ∧
      ∀ n, d.get? n = ((providedBy w args).get? n).or
        (if n ∈ algs then some (env.hash n (deleteSections file (omitted file oho ohs dir))) else none) := by
  unfold providedBy at hp ⊢
  cases he : args.expectedHashes with
  | none =>
    rw [he] at hp
    obtain ⟨more, h1, h2⟩ := neededHashes_ok env file algs [] hp h
    refine ⟨Dict.update [] more, ?_, h2⟩
    unfold calculateExpectedHashes
    simp only
    rw [h1]
    rfl
  | some i =>
    rw [he] at hp
    obtain ⟨more, h1, h2⟩ := neededHashes_ok env file algs (w.dicts i) hp h
    refine ⟨Dict.update (w.dicts i) more, ?_, h2⟩
    unfold calculateExpectedHashes
    simp only
    rw [M.bind_ok (show M.getDict i w = (.ok (w.dicts i), w) from rfl), h1]
    rfl

/-! ### The loop over the signatures -/

/-- A series of attempts, for any way of verifying a signature. -/
inductive Tried (check : ASD → M (List (List Cert))) : World → List (ASD × Except Exc (List (List Cert))) → World → Prop where
  | nil (w : World) : Tried check w [] w
  | cons (a : ASD) (w w' : World) (l : List (ASD × Except Exc (List (List Cert)))) :
      Tried check (check a w).2 l w' → Tried check w ((a, (check a w).1) :: l) w'

theorem Overall.cons_ok {mode : String} {l : List (ASD × Except Exc (List (List Cert)))} {rest : List ASD}
    {res : List (ASD × List (List Cert))} {a : ASD} {c : List (List Cert)} (hs : Strict mode)
    (h : Overall mode l rest (.ok res)) : Overall mode ((a, .ok c) :: l) rest (.ok ((a, c) :: res)) := by
  cases h with
  | allVerify l _ => exact .allVerify (mode := mode) ((a, c) :: res) hs
  | firstSuccess _ _ _ _ hn => exact absurd hs hn

theorem Overall.cons_ok_error {mode : String} {l : List (ASD × Except Exc (List (List Cert)))} {rest : List ASD}
    {e : Exc} {a : ASD} {c : List (List Cert)} (hs : Strict mode)
    (h : Overall mode l rest (.error e)) : Overall mode ((a, .ok c) :: l) rest (.error e) := by
  cases h with
  | firstFailure l b e rest _ => exact .firstFailure (mode := mode) ((a, c) :: l) b e rest hs
  | allFail _ _ _ hn => exact absurd hs hn

theorem Overall.cons_error {mode : String} {l : List (ASD × Except Exc (List (List Cert)))} {rest : List ASD}
    {r : Except Exc (List (ASD × List (List Cert)))} {a : ASD} {e : Exc} (hs : ¬ Strict mode)
    (h : Overall mode l rest r) : Overall mode ((a, .error e) :: l) rest r := by
  cases h with
  | allVerify _ hn => exact absurd hn hs
  | firstFailure _ _ _ _ hn => exact absurd hn hs
  | firstSuccess l b c rest _ => exact .firstSuccess (mode := mode) ((a, e) :: l) b c rest hs
  | allFail l b e' _ => exact .allFail (mode := mode) ((a, e) :: l) b e' hs

/-- What the loop returns, given the chains collected before. -/
def prependTo (chains : List (ASD × List (List Cert))) : Except Exc (List (ASD × List (List Cert))) → Except Exc (List (ASD × List (List Cert)))
  | .ok l => .ok (chains ++ l)
  | .error e => .error e

theorem verifyLoop_strict (check : ASD → M (List (List Cert))) {mode : String} (hs : Strict mode) :
    ∀ (sel : List ASD) (chains : List (ASD × List (List Cert))) (w : World),
    ∃ tried rest w' r, sel = tried.map Prod.fst ++ rest ∧ Tried check w tried w' ∧ Overall mode tried rest r ∧
      verifyLoop check mode sel chains none w = (prependTo chains r, w')
  | [], chains, w => ⟨[], [], w, .ok [], rfl, .nil w, .allVerify [] hs, by rw [verifyLoop]; simp [prependTo]; rfl⟩
  | a :: sel, chains, w => by
    have hstep : ∀ r w1, check a w = (r, w1) → verifyLoop check mode (a :: sel) chains none w =
        (match r with
          | .error e => (M.raise e : M (List (ASD × List (List Cert))))
          | .ok c => verifyLoop check mode sel (chains ++ [(a, c)]) none) w1 := by
      intro r w1 hc
      rw [verifyLoop]
      rw [M.bind_ok (show M.attempt (check a) w = (.ok r, w1) from by unfold M.attempt; rw [hc])]
      cases r with
      | error e => simp only; rw [if_pos (show mode = "all" ∨ mode = "first" from hs)]
      | ok c => simp only; rw [if_pos (show mode = "all" ∨ mode = "first" from hs)]
    rcases hc : check a w with ⟨r, w1⟩
    rw [hstep r w1 hc]
    have e1 : (check a w).1 = r := by rw [hc]
    have e2 : (check a w).2 = w1 := by rw [hc]
    cases r with
    | error e =>
      refine ⟨[(a, (check a w).1)], sel, w1, .error e, rfl, .cons a w w1 [] (by rw [e2]; exact .nil _), ?_, rfl⟩
      rw [e1]
      exact .firstFailure [] a e sel hs
    | ok c =>
      obtain ⟨tried, rest, w', r, h1, h2, h3, h4⟩ := verifyLoop_strict check hs sel (chains ++ [(a, c)]) w1
      refine ⟨(a, (check a w).1) :: tried, rest, w', prependTo [(a, c)] r, by rw [h1]; rfl, .cons a w w' tried (by rw [e2]; exact h2), ?_, ?_⟩
      · rw [e1]
        cases r with
        | ok l => exact Overall.cons_ok hs h3
        | error e => exact Overall.cons_ok_error hs h3
      · simp only
        rw [h4]
        cases r with
        | ok l => simp [prependTo]
        | error e => rfl

theorem verifyLoop_lax (check : ASD → M (List (List Cert))) {mode : String} (hs : ¬ Strict mode) :
    ∀ (sel : List ASD) (last : Option Exc) (w : World), sel ≠ [] →
    ∃ tried rest w' r, sel = tried.map Prod.fst ++ rest ∧ Tried check w tried w' ∧ Overall mode tried rest r ∧
      verifyLoop check mode sel [] last w = (r, w')
  | [], _, _, h => absurd rfl h
  | a :: sel, last, w, _ => by
    have hstep : ∀ r w1, check a w = (r, w1) → verifyLoop check mode (a :: sel) [] last w =
        (match r with
          | .error e => verifyLoop check mode sel [] (some e)
          | .ok c => (pure [(a, c)] : M (List (ASD × List (List Cert))))) w1 := by
      intro r w1 hc
      rw [verifyLoop]
      rw [M.bind_ok (show M.attempt (check a) w = (.ok r, w1) from by unfold M.attempt; rw [hc])]
      cases r with
      | error e => simp only; rw [if_neg (show ¬ (mode = "all" ∨ mode = "first") from hs)]
      | ok c => simp only; rw [if_neg (show ¬ (mode = "all" ∨ mode = "first") from hs)]
    rcases hc : check a w with ⟨r, w1⟩
    rw [hstep r w1 hc]
    have e1 : (check a w).1 = r := by rw [hc]
    have e2 : (check a w).2 = w1 := by rw [hc]
    cases r with
    | ok c =>
      refine ⟨[(a, (check a w).1)], sel, w1, .ok [(a, c)], rfl, .cons a w w1 [] (by rw [e2]; exact .nil _), ?_, rfl⟩
      rw [e1]
      exact .firstSuccess [] a c sel hs
    | error e =>
      cases sel with
      | nil =>
        refine ⟨[(a, (check a w).1)], [], w1, .error e, rfl, .cons a w w1 [] (by rw [e2]; exact .nil _), ?_, ?_⟩
        · rw [e1]
          exact .allFail [] a e hs
        · simp only
          rw [verifyLoop]
          rfl
      | cons b sel =>
        obtain ⟨tried, rest, w', r, h1, h2, h3, h4⟩ := verifyLoop_lax check hs (b :: sel) (some e) w1 (by simp)
        refine ⟨(a, (check a w).1) :: tried, rest, w', r, by rw [h1]; rfl, .cons a w w' tried (by rw [e2]; exact h2), ?_, h4⟩
        rw [e1]
        exact Overall.cons_error hs h3

theorem verifyLoop_overall (check : ASD → M (List (List Cert))) (mode : String) (sel : List ASD) (w : World) (hne : sel ≠ []) :
    ∃ tried rest w' r, sel = tried.map Prod.fst ++ rest ∧ Tried check w tried w' ∧ Overall mode tried rest r ∧
      verifyLoop check mode sel [] none w = (r, w') := by
  by_cases hs : Strict mode
  · obtain ⟨tried, rest, w', r, h1, h2, h3, h4⟩ := verifyLoop_strict check hs sel [] w
    refine ⟨tried, rest, w', r, h1, h2, h3, ?_⟩
    rw [h4]
    cases r <;> rfl
  · exact verifyLoop_lax check hs sel none w hne

/-- Attempts with the digests computed are attempts in the sense of the specification. -/
theorem attempts_of_tried {env : Env} {file : Bytes} {provided hashes : Dict String Bytes} {kwargs : VerifyArgs} {w w' : World}
    {l : List (ASD × Except Exc (List (List Cert)))}
    (h : ∀ a ∈ l.map Prod.fst, ∃ d, hashes.get? a.d.core.digestAlg = some d ∧ DigestFor env file provided a.d.core.digestAlg d)
    (ht : Tried (verifyOne env file hashes kwargs) w l w') : Attempts env file provided kwargs w l w' := by
  induction ht with
  | nil w => exact .nil w
  | cons a w w' l _ ih =>
    obtain ⟨d, h1, h2⟩ := h a (List.mem_cons_self ..)
    have hv : verifyOne env file hashes kwargs a = asdVerify env (some file) a.d { kwargs with expectedHash := some d } := by
      unfold verifyOne
      rw [h1]
    have ih := ih (fun b hb => h b (List.mem_cons_of_mem _ hb))
    rw [hv] at ih ⊢
    exact .cons a d w w' l h2 ih

theorem digestFor_of_header {env : Env} {file : Bytes} {provided : Dict String Bytes} {alg : String} {oho ohs dir : Nat}
    (h : Header file oho ohs dir) {d : Bytes} (hd : (provided.get? alg).or
      (some (env.hash alg (deleteSections file (omitted file oho ohs dir)))) = some d) : DigestFor env file provided alg d := by
  cases hp : provided.get? alg with
  | some x => rw [hp] at hd; cases hd; exact .inl hp
  | none =>
    rw [hp] at hd
    cases hd
    exact .inr ⟨hp, fun bs hbs => (Props.C09_authentihash_iff env.hash alg bs hbs file _).2 ⟨oho, ohs, dir, h, rfl⟩⟩

/-- `verify` for a file with signatures. -/
theorem peVerify_signed (env : Env) (cd : Codec) (file : Bytes) (args : PEVerifyArgs) (w : World) {sds : List ASD}
    (h : Considered cd file args.ignoreParseErrors sds) (hne : sds ≠ []) (hp : HashNames (providedBy w args))
    {oho ohs dir : Nat} (hh : Header file oho ohs dir) :
    ∃ d tried rest w', (∀ n, d.get? n = ((providedBy w args).get? n).or
        (if n ∈ (selectSignatures args.multiVerifyMode sds).map (fun a => a.d.core.digestAlg) then
          some (env.hash n (deleteSections file (omitted file oho ohs dir))) else none)) ∧
      selectSignatures args.multiVerifyMode sds = tried.map Prod.fst ++ rest ∧
      Attempts env file (providedBy w args) args.kwargs (withHashes w args.expectedHashes d) tried w' ∧
      Overall args.multiVerifyMode tried rest (peVerify env cd file args w).1 ∧
      (peVerify env cd file args w).2 = w' := by
  have hit := considered_iff.1 h
  have halg := fun x hx => considered_alg h (x := x) hx
  obtain ⟨d, hd, hget⟩ := calculateExpectedHashes_ok env file ((selectSignatures args.multiVerifyMode sds).map (fun a => a.d.core.digestAlg)) args w hp hh
  obtain ⟨tried, rest, w', r, h1, h2, h3, h4⟩ := verifyLoop_overall (verifyOne env file d args.kwargs) args.multiVerifyMode
    (selectSignatures args.multiVerifyMode sds) (withHashes w args.expectedHashes d) (selected_ne_nil hne halg)
  have hv : peVerify env cd file args w = (r, w') := by
    unfold peVerify
    rw [M.bind_ok (show M.lift _ w = (.ok sds, w) from by unfold M.lift; rw [hit])]
    rw [if_neg (by rw [List.isEmpty_iff]; exact hne)]
    rw [M.bind_ok hd, h4]
  refine ⟨d, tried, rest, w', hget, h1, ?_, by rw [hv]; exact h3, by rw [hv]⟩
  refine attempts_of_tried (fun a ha => ?_) h2
  have hm : a.d.core.digestAlg ∈ (selectSignatures args.multiVerifyMode sds).map (fun a => a.d.core.digestAlg) :=
    List.mem_map.2 ⟨a, by rw [h1]; exact List.mem_append_left _ ha, rfl⟩
  have hg := hget a.d.core.digestAlg
  rw [if_pos hm] at hg
  cases hx : d.get? a.d.core.digestAlg with
  | none =>
    rw [hx] at hg
    cases hp : (providedBy w args).get? a.d.core.digestAlg <;> rw [hp] at hg <;> cases hg
  | some x => exact ⟨x, rfl, digestFor_of_header hh (hg.symm.trans hx)⟩

/-- The digests added are the same for files that agree on the digests needed. -/
theorem neededHashes_congr (env : Env) (f g : Bytes) (algs : List String) (provided : Dict String Bytes)
    {oho ohs dir oho' ohs' dir' : Nat} (hf : Header f oho ohs dir) (hg : Header g oho' ohs' dir')
    (h : ∀ n ∈ algs, provided.get? n = none → env.hash n (deleteSections f (omitted f oho ohs dir)) =
      env.hash n (deleteSections g (omitted g oho' ohs' dir'))) :
    neededHashes env f algs provided = neededHashes env g algs provided := by
  unfold neededHashes
  obtain ⟨fp, h1, h2⟩ := hashesOf_authenticode_exact env f ((dedupNames algs).filter (fun a => (provided.get? a).isNone)) hf
  obtain ⟨fp', h1', h2'⟩ := hashesOf_authenticode_exact env g ((dedupNames algs).filter (fun a => (provided.get? a).isNone)) hg
  have hm : ((dedupNames algs).filter (fun a => (provided.get? a).isNone)).map
        (fun n => (n, env.hash n (deleteSections f (omitted f oho ohs dir)))) =
      ((dedupNames algs).filter (fun a => (provided.get? a).isNone)).map
        (fun n => (n, env.hash n (deleteSections g (omitted g oho' ohs' dir')))) := by
    apply List.map_congr_left
    intro n hn
    rw [List.mem_filter, mem_dedupNames, Option.isNone_iff_eq_none] at hn
    rw [h n hn.1 hn.2]
  rw [hm] at h2
  simp only [h1, h1', h2, h2']

theorem calculateExpectedHashes_congr (env : Env) (f g : Bytes) (algs : List String) (args : PEVerifyArgs) (w : World)
    (h : neededHashes env f algs (providedBy w args) = neededHashes env g algs (providedBy w args)) :
    calculateExpectedHashes env f algs args.expectedHashes w = calculateExpectedHashes env g algs args.expectedHashes w := by
  unfold providedBy at h
  unfold calculateExpectedHashes
  cases he : args.expectedHashes with
  | none =>
    rw [he] at h
    simp only at h ⊢
    rw [h]
  | some i =>
    rw [he] at h
    simp only at h ⊢
    show (M.lift (neededHashes env f algs (w.dicts i)) >>= _) w = (M.lift (neededHashes env g algs (w.dicts i)) >>= _) w
    rw [h]

/-- `verify` of two files in which the same signatures are selected, with the same digests for these. -/
theorem peVerify_select_congr (env : Env) (cd : Codec) (f g : Bytes) (args : PEVerifyArgs) (w : World) {sds sds' : List ASD}
    (hf : Considered cd f args.ignoreParseErrors sds) (hg : Considered cd g args.ignoreParseErrors sds')
    (hne : sds ≠ []) (hne' : sds' ≠ []) (hs : selectSignatures args.multiVerifyMode sds = selectSignatures args.multiVerifyMode sds')
    (hd : ∀ a ∈ selectSignatures args.multiVerifyMode sds, ∀ d, DigestFor env f (providedBy w args) a.d.core.digestAlg d →
      DigestFor env g (providedBy w args) a.d.core.digestAlg d) :
    peVerify env cd f args w = peVerify env cd g args w := by
  have hc : neededHashes env f ((selectSignatures args.multiVerifyMode sds).map (fun a => a.d.core.digestAlg)) (providedBy w args) =
      neededHashes env g ((selectSignatures args.multiVerifyMode sds).map (fun a => a.d.core.digestAlg)) (providedBy w args) := by
    obtain ⟨oho, ohs, dir, h1⟩ := header_of_considered hf hne
    obtain ⟨oho', ohs', dir', h2⟩ := header_of_considered hg hne'
    refine neededHashes_congr env f g _ _ h1 h2 (fun n hn hp => ?_)
    obtain ⟨a, ha, rfl⟩ := List.mem_map.1 hn
    have k := hd a ha _ (.inr ⟨hp, fun bs hbs => (Props.C09_authentihash_iff env.hash _ bs hbs f _).2 ⟨oho, ohs, dir, h1, rfl⟩⟩)
    rcases k with k | ⟨-, k⟩
    · rw [hp] at k; cases k
    · obtain ⟨a1, a2, a3, k1, k2⟩ := (Props.C09_authentihash_iff env.hash _ 1 (by omega) g _).1 (k 1 (by omega))
      obtain ⟨rfl, rfl, rfl⟩ := header_unique k1 h2
      exact k2
  unfold peVerify
  rw [M.bind_ok (show M.lift _ w = (.ok sds, w) from by unfold M.lift; rw [considered_iff.1 hf]),
    M.bind_ok (show M.lift _ w = (.ok sds', w) from by unfold M.lift; rw [considered_iff.1 hg])]
  rw [if_neg (by rw [List.isEmpty_iff]; exact hne), if_neg (by rw [List.isEmpty_iff]; exact hne')]
  have hv : ∀ d : Dict String Bytes, verifyOne env f d args.kwargs = verifyOne env g d args.kwargs := by
    intro d
    funext a
    unfold verifyOne
    cases d.get? a.d.core.digestAlg <;> rfl
  show (_ >>= _ : M _) w = (_ >>= _ : M _) w
  rw [M.bind_run, M.bind_run, calculateExpectedHashes_congr env f g _ args w hc, hs]
  simp only [hv]

/-- `verify` of two files with the same signatures and the same digests for these. -/
theorem peVerify_congr (env : Env) (cd : Codec) (f g : Bytes) (args : PEVerifyArgs) (w : World) {sds : List ASD}
    (hf : Considered cd f args.ignoreParseErrors sds) (hg : Considered cd g args.ignoreParseErrors sds)
    (hd : ∀ a ∈ sds, ∀ d, DigestFor env f (providedBy w args) a.d.core.digestAlg d →
      DigestFor env g (providedBy w args) a.d.core.digestAlg d) :
    peVerify env cd f args w = peVerify env cd g args w := by
  by_cases hne : sds = []
  · subst hne
    unfold peVerify
    rw [M.bind_ok (show M.lift _ w = (.ok [], w) from by unfold M.lift; rw [considered_iff.1 hf]),
      M.bind_ok (show M.lift _ w = (.ok [], w) from by unfold M.lift; rw [considered_iff.1 hg])]
    rfl
  · exact peVerify_select_congr env cd f g args w hf hg hne hne rfl (fun a ha => hd a (selected_subset a ha))

end Signify
