import Verif.Proofs.X509

set_option autoImplicit false

namespace Signify

open Spec

/-- `potential_chains` over a fixed list of certificates -/
def pcs (trusted : Cert → Bool) (known : List Cert) : Nat → Cert → List (List Cert)
  | depth, c =>
    if trusted c then [[c]]
    else match depth with
      | 0 => []
      | depth + 1 => (newOnes [] (known.filter (fun d => d.subject.pyEq c.issuer))).flatMap (fun cand =>
          ((pcs trusted known depth cand).filter (fun ch => !certIn c ch)).map (fun ch => ch ++ [c]))

theorem foldMc_flatMap {α : Type} (body : List α → Cert → M (List α)) (g : Cert → List α) (w : World)
    (hb : ∀ acc c, body acc c w = (.ok (acc ++ g c), w)) (acc : List α) (l : List Cert) :
    foldMc body acc l w = (.ok (acc ++ l.flatMap g), w) := by
  induction l generalizing acc with
  | nil => simp [foldMc, M.pure_run]
  | cons c l ih =>
    unfold foldMc
    rw [M.bind_ok (hb acc c), ih, List.flatMap_cons, List.append_assoc]

theorem matches_subject (env : Env) (n : Name) :
    (fun c => Query.matches env { subject := some n } c) = (fun d => d.subject.pyEq n) := by
  funext c
  simp [Query.matches]

theorem potentialChains_loaded (env : Env) (cid : Nat) (w : World) (hl : Loaded w cid) (depth : Nat) (c : Cert) :
    potentialChains env cid depth c w = (.ok (pcs (ctxIsTrusted w cid) (knownCerts w cid) depth c), w) := by
  induction depth generalizing c with
  | zero =>
    unfold potentialChains pcs
    by_cases h : ctxIsTrusted w cid c = true
    · simp [h]
    · simp [h]
  | succ n ih =>
    unfold potentialChains pcs
    by_cases h : ctxIsTrusted w cid c = true
    · simp [h]
    · rw [if_neg h, if_neg h]
      simp only
      have hb : ∀ (acc : List (List Cert)) (cand : Cert),
          (potentialChains env cid n cand >>= fun chains =>
            (pure (acc ++ (chains.filter (fun ch => !certIn c ch)).map (fun ch => ch ++ [c])) : M _)) w =
          (.ok (acc ++ ((pcs (ctxIsTrusted w cid) (knownCerts w cid) n cand).filter (fun ch => !certIn c ch)).map
            (fun ch => ch ++ [c])), w) := by
        intro acc cand
        rw [M.bind_ok (ih cand)]
        rfl
      have hq : Query.matches env { subject := some c.issuer } = (fun d => d.subject.pyEq c.issuer) :=
        matches_subject env c.issuer
      rw [forFind_loaded env cid _ _ _ w (fun w' => w' = w) (fun _ h => by rw [h]) rfl hl, hq]
      · rw [foldMc_flatMap _ _ w hb, List.nil_append]
      · rintro acc c' w' rfl
        rw [hb]

theorem ctxIsTrusted_iff {w : World} {cid : Nat} {c : Cert} : ctxIsTrusted w cid c = true ↔ InTrustedStore w cid c := by
  unfold ctxIsTrusted InTrustedStore
  rw [List.any_eq_true]
  constructor
  · rintro ⟨r, hr, h⟩
    cases r with
    | embedded _ => simp [storeIsTrusted] at h
    | heap i =>
      simp only [storeIsTrusted, Bool.and_eq_true, certIn_iff] at h
      exact ⟨i, hr, h.1, h.2⟩
  · rintro ⟨i, hr, h1, h2⟩
    refine ⟨_, hr, ?_⟩
    simp only [storeIsTrusted, Bool.and_eq_true, certIn_iff]
    exact ⟨h1, h2⟩

theorem linked_snoc {ch : List Cert} {c : Cert} : Linked (ch ++ [c]) ↔ Linked ch ∧ ∀ x, ch.getLast? = some x → Issued x c := by
  induction ch with
  | nil => simp [Linked]
  | cons a ch ih =>
    cases ch with
    | nil => simp [Linked]
    | cons b ch =>
      simp only [List.cons_append, Linked] at ih ⊢
      rw [ih, and_assoc, List.getLast?_cons_cons]

theorem mem_newOnes_filter_iff {known : List Cert} {n : Name} {cand : Cert} :
    cand ∈ newOnes [] (known.filter (fun d => d.subject.pyEq n)) ↔
      cand.subject.components = n.components ∧ ∃ pre post, known = pre ++ cand :: post ∧ ∀ x ∈ pre, ¬ SameCert x cand := by
  constructor
  · intro h
    have hf := newOnes_firstOccurrences (fun d => d.subject.components = n.components) (fun d => d.subject.pyEq n)
      (fun _ => Name.pyEq_iff) known
    have hs := hf.sound _ h
    obtain ⟨pre, post, h1, h2⟩ := firstOccurrences_no_earlier hf h
    refine ⟨hs, pre, post, h1, ?_⟩
    intro x hx hsame
    exact h2 x hx (hsame.2.2.1.trans hs) hsame
  · rintro ⟨hs, pre, post, h1, h2⟩
    rw [h1, List.filter_append, List.filter_cons_of_pos (p := fun d : Cert => d.subject.pyEq n) (Name.pyEq_iff.mpr hs)]
    refine newOnes_of_first ?_ (by simp)
    intro d hd
    exact h2 d (List.mem_filter.mp hd).1

theorem mem_pcs_iff {w : World} {cid : Nat} (depth : Nat) (c : Cert) (chain : List Cert) :
    chain ∈ pcs (ctxIsTrusted w cid) (knownCerts w cid) depth c ↔ PotentialChain w cid depth c chain := by
  induction depth generalizing c chain with
  | zero =>
    unfold pcs
    by_cases h : ctxIsTrusted w cid c = true
    · rw [if_pos h, List.mem_singleton]
      have ht := ctxIsTrusted_iff.mp h
      constructor
      · rintro rfl
        exact ⟨rfl, ⟨c, [], rfl, ht, by simp⟩, by simp, trivial, by simp, by simp⟩
      · rintro ⟨h1, ⟨root, rest, h2, -⟩, -, -, -, h6⟩
        subst h2
        have : rest = [] := by simpa using h6
        subst this
        simp at h1
        rw [h1]
    · rw [if_neg h]
      simp only [List.not_mem_nil, false_iff]
      rintro ⟨h1, ⟨root, rest, h2, h3, -⟩, -, -, -, h6⟩
      subst h2
      have : rest = [] := by simpa using h6
      subst this
      simp at h1
      subst h1
      exact h (ctxIsTrusted_iff.mpr h3)
  | succ n ih =>
    unfold pcs
    by_cases h : ctxIsTrusted w cid c = true
    · rw [if_pos h, List.mem_singleton]
      have ht := ctxIsTrusted_iff.mp h
      constructor
      · rintro rfl
        exact ⟨rfl, ⟨c, [], rfl, ht, by simp⟩, by simp, trivial, by simp, by simp⟩
      · rintro ⟨h1, ⟨root, rest, h2, -, h3⟩, -, -, -, -⟩
        subst h2
        rcases List.eq_nil_or_concat rest with rfl | ⟨l, x, rfl⟩
        · simp at h1; rw [h1]
        · rw [List.concat_eq_append] at *
          rw [← List.cons_append, List.getLast?_append] at h1
          simp at h1
          subst h1
          exact absurd ht (h3 x (by simp))
    · rw [if_neg h]
      have hnt : ¬ InTrustedStore w cid c := fun ht => h (ctxIsTrusted_iff.mpr ht)
      simp only [List.mem_flatMap, List.mem_map, List.mem_filter, Bool.not_eq_true']
      constructor
      · rintro ⟨cand, hcand, ch, ⟨hch, hin⟩, rfl⟩
        obtain ⟨h1, ⟨root, rest, h2, h3, h4⟩, h5, h6, h7, h8⟩ := (ih cand ch).mp hch
        obtain ⟨hsub, hfirst⟩ := mem_newOnes_filter_iff.mp hcand
        rw [certIn_false] at hin
        refine ⟨by simp, ⟨root, rest ++ [c], by rw [h2]; rfl, h3, ?_⟩, ?_, ?_, ?_, by simp; omega⟩
        · intro d hd
          rcases List.mem_append.mp hd with hd | hd
          · exact h4 d hd
          · rw [List.mem_singleton] at hd; subst hd; exact hnt
        · rw [List.pairwise_append]
          refine ⟨h5, by simp, ?_⟩
          intro a ha b hb hs
          rw [List.mem_singleton] at hb; subst hb
          exact hin a ha hs.symm
        · rw [linked_snoc]
          refine ⟨h6, ?_⟩
          intro x hx
          rw [h1] at hx
          cases hx
          exact hsub
        · intro d hd
          rw [List.dropLast_concat] at hd
          have hne : ch ≠ [] := by rw [h2]; simp
          rw [← List.dropLast_concat_getLast hne] at hd
          rcases List.mem_append.mp hd with hd | hd
          · exact h7 d hd
          · rw [List.mem_singleton] at hd
            have : ch.getLast hne = cand := by
              rw [List.getLast?_eq_some_getLast hne] at h1
              exact Option.some.inj h1
            rw [hd, this]
            exact hfirst
      · rintro ⟨h1, ⟨root, rest, h2, h3, h4⟩, h5, h6, h7, h8⟩
        rcases List.eq_nil_or_concat rest with rfl | ⟨l, x, hrest⟩
        · subst h2
          simp at h1
          subst h1
          exact absurd h3 hnt
        · rw [List.concat_eq_append] at hrest
          subst hrest
          have hx : x = c := by
            rw [h2, ← List.cons_append, List.getLast?_append] at h1
            simpa using h1
          subst hx
          have hne : root :: l ≠ [] := by simp
          rw [h2, ← List.cons_append] at h5 h6 h7 h8
          rw [List.dropLast_concat] at h7
          rw [linked_snoc] at h6
          rw [List.pairwise_append] at h5
          have hlast := List.getLast?_eq_some_getLast hne
          refine ⟨(root :: l).getLast hne, mem_newOnes_filter_iff.mpr ⟨h6.2 _ hlast, h7 _ (List.getLast_mem hne)⟩,
            root :: l, ⟨(ih _ _).mpr ⟨hlast, ⟨root, l, rfl, h3, fun d hd => h4 d (by simp [hd])⟩, h5.1, h6.1, ?_, ?_⟩, ?_⟩, ?_⟩
          · intro d hd
            exact h7 d (List.dropLast_subset _ hd)
          · simp at h8 ⊢; omega
          · rw [certIn_false]
            intro d hd hs
            exact h5.2.2 d hd x (by simp) hs.symm
          · rw [h2]; rfl

/-- Every chain is yielded once. -/
theorem pcs_nodup (trusted : Cert → Bool) (known : List Cert) (depth : Nat) (c : Cert) : (pcs trusted known depth c).Nodup ∧
    ∀ chain ∈ pcs trusted known depth c, chain.getLast? = some c := by
  induction depth generalizing c with
  | zero =>
    unfold pcs
    split <;> simp
  | succ n ih =>
    unfold pcs
    split
    · simp
    · simp only
      constructor
      · unfold List.Nodup
        rw [List.pairwise_flatMap]
        refine ⟨fun cand _ => ?_, ?_⟩
        · rw [List.pairwise_map]
          refine List.Pairwise.imp ?_ (List.Pairwise.filter _ (ih cand).1)
          intro a b hab he
          exact hab (List.append_cancel_right he)
        · refine List.Pairwise.imp_of_mem ?_ (newOnes_pairwise [] _)
          intro x y hx hy hxy a ha b hb hab
          obtain ⟨a', ha', rfl⟩ := List.mem_map.1 ha
          obtain ⟨b', hb', rfl⟩ := List.mem_map.1 hb
          have : a' = b' := List.append_cancel_right hab
          subst this
          have h1 := (ih x).2 a' (List.mem_filter.1 ha').1
          have h2 := (ih y).2 a' (List.mem_filter.1 hb').1
          rw [h1] at h2
          cases h2
          exact hxy ⟨rfl, rfl, rfl, rfl⟩
      · intro chain hch
        obtain ⟨x, -, hx⟩ := List.mem_flatMap.1 hch
        obtain ⟨a, -, rfl⟩ := List.mem_map.1 hx
        simp

end Signify
