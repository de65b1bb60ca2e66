import Verif.Spec.X509
import Verif.Proofs.Names

set_option autoImplicit false

namespace Signify

open Spec

/-! ### names and certificates -/

theorem Name.pyEq_iff {a b : Name} : a.pyEq b = true ↔ a.components = b.components := by
  unfold Name.pyEq Name.rdns; exact beq_iff_eq

theorem Cert.pyEq_iff {a b : Cert} : a.pyEq b = true ↔ SameCert a b := by
  unfold Cert.pyEq SameCert
  simp only [Bool.and_eq_true, Name.pyEq_iff, beq_iff_eq, Prod.mk.injEq]
  obtain ⟨_, _, _, _, _, ⟨a1, a2, a3⟩, _, _, _⟩ := a
  obtain ⟨_, _, _, _, _, ⟨b1, b2, b3⟩, _, _, _⟩ := b
  simp only [SPKI.mk.injEq]
  constructor
  · rintro ⟨⟨⟨⟨h1, h2⟩, h3⟩, h4, h5⟩, h6⟩; exact ⟨h1, h2, h3, h4, h5, h6⟩
  · rintro ⟨h1, h2, h3, h4, h5, h6⟩; exact ⟨⟨⟨⟨h1, h2⟩, h3⟩, h4, h5⟩, h6⟩

theorem Spec.SameCert.refl (a : Cert) : SameCert a a := ⟨rfl, rfl, rfl, rfl⟩
theorem Spec.SameCert.symm {a b : Cert} (h : SameCert a b) : SameCert b a := ⟨h.1.symm, h.2.1.symm, h.2.2.1.symm, h.2.2.2.symm⟩
theorem Spec.SameCert.trans {a b c : Cert} (h : SameCert a b) (k : SameCert b c) : SameCert a c :=
  ⟨h.1.trans k.1, h.2.1.trans k.2.1, h.2.2.1.trans k.2.2.1, h.2.2.2.trans k.2.2.2⟩

theorem certIn_iff {c : Cert} {l : List Cert} : certIn c l = true ↔ ∃ d ∈ l, SameCert c d := by
  unfold certIn
  rw [List.any_eq_true]
  simp only [Cert.pyEq_iff]

theorem certIn_false {c : Cert} {l : List Cert} : certIn c l = false ↔ ∀ d ∈ l, ¬ SameCert c d := by
  rw [← Bool.not_eq_true, certIn_iff]
  simp

/-! ### the monad -/

namespace M

variable {α β : Type}

theorem pure_run (a : α) (w : World) : (pure a : M α) w = (.ok a, w) := rfl
theorem raise_run (e : Exc) (w : World) : (raise e : M α) w = (.error e, w) := rfl
theorem lift_run (x : Except Exc α) (w : World) : (lift x : M α) w = (x, w) := rfl
theorem getCtx_run (i : Nat) (w : World) : getCtx i w = (.ok (w.ctxs i), w) := rfl
theorem getStore_run (i : Nat) (w : World) : getStore i w = (.ok (w.stores i), w) := rfl

theorem bind_run (x : M α) (f : α → M β) (w : World) : (x >>= f) w =
    match x w with
    | (.ok a, w') => f a w'
    | (.error e, w') => (.error e, w') := rfl

theorem bind_ok {x : M α} {f : α → M β} {w w' : World} {a : α} (h : x w = (.ok a, w')) : (x >>= f) w = f a w' := by
  rw [bind_run, h]

theorem bind_error {x : M α} {f : α → M β} {w w' : World} {e : Exc} (h : x w = (.error e, w')) :
    (x >>= f) w = (.error e, w') := by
  rw [bind_run, h]

theorem pure_bind (a : α) (f : α → M β) : (pure a >>= f) = f a := rfl

theorem bind_pure (x : M α) : (x >>= pure) = x := by
  funext w
  rw [bind_run]
  rcases h : x w with ⟨r, w'⟩
  cases r <;> rfl

theorem bind_assoc {γ : Type} (x : M α) (f : α → M β) (g : β → M γ) : ((x >>= f) >>= g) = (x >>= fun a => f a >>= g) := by
  funext w
  rw [bind_run, bind_run, bind_run]
  rcases h : x w with ⟨r, w'⟩
  cases r <;> rfl

theorem getCtx_bind (i : Nat) (f : Ctx → M β) (w : World) : (getCtx i >>= f) w = f (w.ctxs i) w := rfl

/-- An inversion principle: a bind that returns has a first part that returns. -/
theorem bind_eq_ok {x : M α} {f : α → M β} {w w' : World} {b : β} (h : (x >>= f) w = (.ok b, w')) :
    ∃ a w1, x w = (.ok a, w1) ∧ f a w1 = (.ok b, w') := by
  rw [bind_run] at h
  rcases hx : x w with ⟨r, w1⟩
  rw [hx] at h
  cases r with
  | ok a => exact ⟨a, w1, rfl, h⟩
  | error e => simp at h

end M

/-- fold a monadic body over a list -/
def foldMc {σ : Type} (body : σ → Cert → M σ) : σ → List Cert → M σ
  | acc, [] => pure acc
  | acc, c :: l => do
    let acc ← body acc c
    foldMc body acc l

/-- the certificates yielded from `l` when `seen` have been yielded before -/
def newOnes : List Cert → List Cert → List Cert
  | _, [] => []
  | seen, c :: l => if certIn c seen then newOnes seen l else c :: newOnes (seen ++ [c]) l

theorem foldMc_append {σ : Type} (body : σ → Cert → M σ) (acc : σ) (l k : List Cert) :
    foldMc body acc (l ++ k) = (foldMc body acc l >>= fun acc => foldMc body acc k) := by
  induction l generalizing acc with
  | nil => rfl
  | cons c l ih =>
    show (body acc c >>= fun acc => foldMc body acc (l ++ k)) = ((body acc c >>= fun acc => foldMc body acc l) >>= _)
    rw [M.bind_assoc]
    congr 1
    funext acc
    exact ih acc

theorem newOnes_append (seen l k : List Cert) : newOnes seen (l ++ k) = newOnes seen l ++ newOnes (seen ++ newOnes seen l) k := by
  induction l generalizing seen with
  | nil => simp [newOnes]
  | cons c l ih =>
    simp only [List.cons_append, newOnes]
    split
    · exact ih seen
    · rw [ih]; simp

theorem forCerts_eq {σ : Type} (env : Env) (q : Query) (body : σ → Cert → M σ) (l seen : List Cert) (acc : σ) :
    forCerts env q body l seen acc =
      (foldMc body acc (newOnes seen (l.filter (q.matches env))) >>= fun acc =>
        pure (seen ++ newOnes seen (l.filter (q.matches env)), acc)) := by
  induction l generalizing seen acc with
  | nil =>
    show _ = (pure acc >>= fun acc => pure (seen ++ [], acc))
    rw [M.pure_bind, List.append_nil]
    rfl
  | cons c l ih =>
    unfold forCerts
    by_cases hm : q.matches env c = true
    · rw [if_pos hm, List.filter_cons_of_pos hm]
      by_cases hs : certIn c seen = true
      · rw [if_pos hs, ih]
        have e : newOnes seen (c :: l.filter (q.matches env)) = newOnes seen (l.filter (q.matches env)) := by
          rw [newOnes, if_pos hs]
        rw [e]
      · rw [if_neg hs]
        have e : newOnes seen (c :: l.filter (q.matches env)) = c :: newOnes (seen ++ [c]) (l.filter (q.matches env)) := by
          rw [newOnes, if_neg hs]
        rw [e]
        show _ = ((body acc c >>= fun acc => foldMc body acc _) >>= _)
        rw [M.bind_assoc]
        congr 1
        funext acc
        rw [ih]
        simp
    · rw [if_neg hm, List.filter_cons_of_neg hm]
      exact ih seen acc

/-! ### loaded stores -/

theorem iterStore_loaded {w : World} {r : StoreRef} (h : LoadedStore w r) : iterStore r w = (.ok (certsOf w r), w) := by
  cases r with
  | embedded certs => rfl
  | heap i =>
    have h : (w.stores i).pending = none := h
    show (M.getStore i >>= _) w = _
    rw [M.bind_ok (M.getStore_run i w)]
    simp only [h]
    rfl

theorem certsOf_congr {w w' : World} (h : w'.stores = w.stores) (r : StoreRef) : certsOf w' r = certsOf w r := by
  cases r with
  | embedded _ => rfl
  | heap i => simp only [certsOf, h]

theorem loadedStore_congr {w w' : World} (h : w'.stores = w.stores) {r : StoreRef} (hl : LoadedStore w r) : LoadedStore w' r := by
  cases r with
  | embedded _ => trivial
  | heap i => simp only [LoadedStore, h]; exact hl

theorem foldMc_inv {σ : Type} {body : σ → Cert → M σ} {I : World → Prop}
    (hb : ∀ acc c w', I w' → I (body acc c w').2) (acc : σ) (l : List Cert) (w' : World)
    (h : I w') : I (foldMc body acc l w').2 := by
  induction l generalizing acc w' with
  | nil => exact h
  | cons c l ih =>
    unfold foldMc
    rw [M.bind_run]
    have := hb acc c w' h
    rcases hx : body acc c w' with ⟨x, w1⟩
    rw [hx] at this
    cases x with
    | ok a => exact ih a w1 this
    | error e => exact this

theorem forStores_loaded {σ : Type} (env : Env) (q : Query) (body : σ → Cert → M σ) (w : World) (I : World → Prop)
    (hI : ∀ w', I w' → w'.stores = w.stores) (hb : ∀ acc c w', I w' → I (body acc c w').2) (rs : List StoreRef)
    (seen : List Cert) (acc : σ) (w' : World) (h : I w') (hl : ∀ r ∈ rs, LoadedStore w r) :
    forStores env q body rs seen acc w' =
      foldMc body acc (newOnes seen ((rs.flatMap (certsOf w)).filter (q.matches env))) w' := by
  induction rs generalizing seen acc w' with
  | nil => rfl
  | cons r rs ih =>
    unfold forStores
    rw [M.bind_ok (iterStore_loaded (loadedStore_congr (hI _ h) (hl r (by simp)))), certsOf_congr (hI _ h), forCerts_eq]
    rw [M.bind_assoc, List.flatMap_cons, List.filter_append, newOnes_append, foldMc_append, M.bind_run, M.bind_run]
    have hs := foldMc_inv hb acc (newOnes seen ((certsOf w r).filter (q.matches env))) w' h
    rcases hx : foldMc body acc (newOnes seen ((certsOf w r).filter (q.matches env))) w' with ⟨x, w1⟩
    rw [hx] at hs
    cases x with
    | ok a =>
      simp only
      rw [M.pure_bind]
      exact ih _ a w1 hs (fun r' hr' => hl r' (List.mem_cons_of_mem _ hr'))
    | error e => rfl

/-- In a loaded world a loop over `find_certificates` is a loop over the list of matching certificates. -/
theorem forFind_loaded {σ : Type} (env : Env) (cid : Nat) (q : Query) (init : σ) (body : σ → Cert → M σ) (w : World)
    (I : World → Prop) (hI : ∀ w', I w' → w'.stores = w.stores) (hw : I w) (hl : Loaded w cid)
    (hb : ∀ acc c w', I w' → I (body acc c w').2) :
    forFind env cid q init body w = foldMc body init (newOnes [] ((knownCerts w cid).filter (q.matches env))) w := by
  unfold forFind
  rw [M.getCtx_bind]
  exact forStores_loaded env q body w I hI hb _ _ _ w hw hl

theorem foldMc_append_pure (l acc : List Cert) (w : World) :
    foldMc (fun acc c => pure (acc ++ [c])) acc l w = (.ok (acc ++ l), w) := by
  induction l generalizing acc with
  | nil => simp [foldMc, M.pure_run]
  | cons c l ih =>
    unfold foldMc
    rw [M.pure_bind, ih]
    simp

theorem ctxFind_loaded (env : Env) (cid : Nat) (q : Query) (w : World) (hl : Loaded w cid) :
    ctxFind env cid q w = (.ok (newOnes [] ((knownCerts w cid).filter (q.matches env))), w) := by
  unfold ctxFind
  rw [forFind_loaded env cid q _ _ w (fun w' => w' = w) (fun _ h => by rw [h]) rfl hl (fun _ _ _ h => h), foldMc_append_pure]
  rfl

/-! ### what `newOnes` does -/

theorem mem_newOnes {seen l : List Cert} {c : Cert} (h : c ∈ newOnes seen l) : c ∈ l ∧ certIn c seen = false := by
  induction l generalizing seen with
  | nil => cases h
  | cons d l ih =>
    rw [newOnes] at h
    split at h
    · have := ih h; exact ⟨List.mem_cons_of_mem _ this.1, this.2⟩
    · rename_i hd
      rcases List.mem_cons.mp h with rfl | h
      · exact ⟨by simp, by simpa using hd⟩
      · obtain ⟨h1, h2⟩ := ih h
        refine ⟨List.mem_cons_of_mem _ h1, ?_⟩
        rw [certIn_false] at h2 ⊢
        exact fun d hd => h2 d (by simp [hd])

theorem newOnes_sublist (seen l : List Cert) : (newOnes seen l).Sublist l := by
  induction l generalizing seen with
  | nil => exact .slnil
  | cons d l ih =>
    rw [newOnes]
    split
    · exact (ih seen).cons _
    · exact (ih _).cons_cons _

theorem newOnes_complete {seen l : List Cert} {c : Cert} (h : c ∈ l) :
    (∃ d ∈ seen, SameCert c d) ∨ ∃ d ∈ newOnes seen l, SameCert c d := by
  induction l generalizing seen with
  | nil => cases h
  | cons d l ih =>
    rw [newOnes]
    rcases List.mem_cons.mp h with rfl | h
    · split
      · rename_i hc; exact .inl (certIn_iff.mp hc)
      · exact .inr ⟨c, by simp, .refl c⟩
    · split
      · exact ih h
      · rcases ih (seen := seen ++ [d]) h with ⟨x, hx, hs⟩ | ⟨x, hx, hs⟩
        · rcases List.mem_append.mp hx with hx | hx
          · exact .inl ⟨x, hx, hs⟩
          · rw [List.mem_singleton] at hx; subst hx
            exact .inr ⟨x, by simp, hs⟩
        · exact .inr ⟨x, List.mem_cons_of_mem _ hx, hs⟩

theorem newOnes_pairwise (seen l : List Cert) : (newOnes seen l).Pairwise (fun c d => ¬ SameCert c d) := by
  induction l generalizing seen with
  | nil => exact .nil
  | cons d l ih =>
    rw [newOnes]
    split
    · exact ih seen
    · refine .cons ?_ (ih _)
      intro c hc hs
      have := (mem_newOnes hc).2
      rw [certIn_false] at this
      exact this d (by simp) hs.symm

theorem newOnes_first {seen l l₁ l₂ : List Cert} {c : Cert} (h : newOnes seen l = l₁ ++ c :: l₂) :
    ∃ pre post, l = pre ++ c :: post ∧ ∀ d ∈ pre, (∃ x ∈ seen, SameCert d x) ∨ ∃ x ∈ l₁, SameCert d x := by
  induction l generalizing seen l₁ with
  | nil => simp [newOnes] at h
  | cons d l ih =>
    rw [newOnes] at h
    split at h
    · rename_i hd
      obtain ⟨pre, post, h1, h2⟩ := ih h
      refine ⟨d :: pre, post, by rw [h1]; rfl, ?_⟩
      intro x hx
      rcases List.mem_cons.mp hx with rfl | hx
      · exact .inl (certIn_iff.mp hd)
      · exact h2 x hx
    · cases l₁ with
      | nil =>
        obtain ⟨rfl, h⟩ := List.cons.inj h
        exact ⟨[], l, rfl, by simp⟩
      | cons e l₁ =>
        obtain ⟨rfl, h'⟩ := List.cons.inj h
        obtain ⟨pre, post, h1, h2⟩ := ih h'
        refine ⟨d :: pre, post, by rw [h1]; rfl, ?_⟩
        intro x hx
        rcases List.mem_cons.mp hx with rfl | hx
        · exact .inr ⟨x, by simp, .refl x⟩
        · rcases h2 x hx with ⟨y, hy, hs⟩ | ⟨y, hy, hs⟩
          · rcases List.mem_append.mp hy with hy | hy
            · exact .inl ⟨y, hy, hs⟩
            · rw [List.mem_singleton] at hy; subst hy
              exact .inr ⟨y, by simp, hs⟩
          · exact .inr ⟨y, List.mem_cons_of_mem _ hy, hs⟩

theorem newOnes_of_first {seen pre post : List Cert} {c : Cert} (h : ∀ d ∈ pre, ¬ SameCert d c) (hs : ∀ d ∈ seen, ¬ SameCert d c) :
    c ∈ newOnes seen (pre ++ c :: post) := by
  rw [newOnes_append]
  refine List.mem_append_right _ ?_
  rw [newOnes, if_neg]
  · simp
  · rw [Bool.not_eq_true, certIn_false]
    intro d hd hsd
    rcases List.mem_append.mp hd with hd | hd
    · exact hs d hd hsd.symm
    · exact h d (mem_newOnes hd).1 hsd.symm

/-! ### queries -/

theorem hexDigit_ok : ∀ n, n < 16 → (hexDigit n).toLower = hexDigit n ∧ hexDigit n ≠ ' ' := by decide

theorem hexDigit_inj : ∀ a, a < 16 → ∀ b, b < 16 → hexDigit a = hexDigit b → a = b := by decide

theorem hexOf_toList (b : Bytes) :
    (hexOf b).toList = b.flatMap (fun x => [hexDigit (x.toNat / 16), hexDigit (x.toNat % 16)]) := by
  unfold hexOf; rw [String.toList_ofList]

theorem normFp_hexOf (b : Bytes) : normFp (hexOf b) = (hexOf b).toList := by
  unfold normFp
  rw [hexOf_toList]
  induction b with
  | nil => rfl
  | cons x b ih =>
    have h1 := hexDigit_ok (x.toNat / 16) (by have := x.toNat_lt; omega)
    have h2 := hexDigit_ok (x.toNat % 16) (by omega)
    rw [List.flatMap_cons, List.filter_append, List.map_append, ih]
    simp [h1, h2]

theorem hexOf_inj {a b : Bytes} (h : hexOf a = hexOf b) : a = b := by
  replace h : (hexOf a).toList = (hexOf b).toList := by rw [h]
  rw [hexOf_toList, hexOf_toList] at h
  induction a generalizing b with
  | nil =>
    cases b with
    | nil => rfl
    | cons y b => simp at h
  | cons x a ih =>
    cases b with
    | nil => simp at h
    | cons y b =>
      simp only [List.flatMap_cons, List.cons_append, List.nil_append, List.cons.injEq] at h
      obtain ⟨h1, h2, h3⟩ := h
      have hx := x.toNat_lt
      have hy := y.toNat_lt
      have e1 := hexDigit_inj _ (by omega) _ (by omega) h1
      have e2 := hexDigit_inj _ (by omega) _ (by omega) h2
      rw [ih h3]
      congr 1
      apply UInt8.toNat_inj.mp
      omega

theorem matches_iff {env : Env} {q : Query} {c : Cert} : q.matches env c = true ↔ Meets env q c := by
  obtain ⟨q1, q2, q3, q4⟩ := q
  unfold Query.matches
  simp only [Bool.and_eq_true]
  have e1 : (match q1 with | some n => c.subject.pyEq n | none => true) = true ↔
      ∀ n, q1 = some n → c.subject.components = n.components := by
    cases q1 <;> simp [Name.pyEq_iff]
  have e2 : (match q2 with | some n => c.serial == n | none => true) = true ↔ ∀ n, q2 = some n → c.serial = n := by
    cases q2 <;> simp
  have e3 : (match q3 with | some n => c.issuer.pyEq n | none => true) = true ↔
      ∀ n, q3 = some n → c.issuer.components = n.components := by
    cases q3 <;> simp [Name.pyEq_iff]
  have e4 : (match q4 with | some f => normFp (c.fingerprint env "sha256") == normFp f | none => true) = true ↔
      ∀ f, q4 = some f → (f.toList.filter (· ≠ ' ')).map Char.toLower = (hexOf (env.hash "sha256" c.der)).toList := by
    cases q4 with
    | none => simp
    | some f =>
      simp only [Cert.fingerprint, normFp_hexOf, beq_iff_eq]
      constructor
      · rintro h f' hf'
        cases hf'
        rw [h]; rfl
      · intro h
        exact (h f rfl).symm
  refine Iff.trans (and_congr (and_congr (and_congr e1 e2) e3) e4) ?_
  exact ⟨fun ⟨⟨⟨a, b⟩, c⟩, d⟩ => ⟨a, b, c, d⟩, fun ⟨a, b, c, d⟩ => ⟨⟨⟨a, b⟩, c⟩, d⟩⟩

theorem newOnes_firstOccurrences (P : Cert → Prop) (p : Cert → Bool) (hp : ∀ c, p c = true ↔ P c) (all : List Cert) :
    FirstOccurrences P all (newOnes [] (all.filter p)) where
  ordered := (newOnes_sublist _ _).trans List.filter_sublist
  sound := fun c hc => (hp c).mp (List.mem_filter.mp (mem_newOnes hc).1).2
  complete := fun c hc h => by
    rcases newOnes_complete (seen := []) (List.mem_filter.mpr ⟨hc, (hp c).mpr h⟩) with ⟨d, hd, -⟩ | h
    · cases hd
    · exact h
  distinct := newOnes_pairwise _ _
  first := fun l₁ c l₂ hc => by
    obtain ⟨pre, post, h1, h2⟩ := newOnes_first hc
    obtain ⟨k1, k2, e, f1, f2⟩ := List.filter_eq_append_iff.mp h1
    obtain ⟨m1, m2, e', g1, g2, g3⟩ := List.filter_eq_cons_iff.mp f2
    refine ⟨k1 ++ m1, m2, by rw [e, e']; simp, ?_⟩
    intro d hd hP
    rcases List.mem_append.mp hd with hd | hd
    · rcases h2 d (f1 ▸ List.mem_filter.mpr ⟨hd, (hp d).mpr hP⟩) with ⟨x, hx, -⟩ | h
      · cases hx
      · exact h
    · exact absurd ((hp d).mpr hP) (g1 d hd)

theorem firstOccurrences_no_earlier {P : Cert → Prop} {all l : List Cert} (h : FirstOccurrences P all l) {c : Cert} (hc : c ∈ l) :
    ∃ pre post, all = pre ++ c :: post ∧ ∀ d ∈ pre, P d → ¬ SameCert d c := by
  obtain ⟨l₁, l₂, rfl⟩ := List.append_of_mem hc
  obtain ⟨pre, post, h1, h2⟩ := h.first l₁ c l₂ rfl
  refine ⟨pre, post, h1, fun d hd hP hs => ?_⟩
  obtain ⟨x, hx, hdx⟩ := h2 d hd hP
  exact (List.pairwise_append.mp h.distinct).2.2 x hx c (by simp) (hdx.symm.trans hs)

theorem firstOccurrences_unique {P : Cert → Prop} {all l l' : List Cert} (h : FirstOccurrences P all l)
    (h' : FirstOccurrences P all l') : l = l' := by
  -- the two lists cannot part
  have part : ∀ (l₁ k k' : List Cert), l = l₁ ++ k → l' = l₁ ++ k' → k = k' := by
    intro l₁ k
    induction k generalizing l₁ with
    | nil =>
      intro k' e e'
      cases k' with
      | nil => rfl
      | cons d k' =>
        exfalso
        have hd : d ∈ l' := by rw [e']; simp
        obtain ⟨x, hx, hs⟩ := h.complete d (h'.ordered.subset hd) (h'.sound d hd)
        rw [e, List.append_nil] at hx
        have := h'.distinct
        rw [e'] at this
        exact (List.pairwise_append.mp this).2.2 x hx d (by simp) hs.symm
    | cons c k ih =>
      intro k' e e'
      cases k' with
      | nil =>
        exfalso
        have hc : c ∈ l := by rw [e]; simp
        obtain ⟨x, hx, hs⟩ := h'.complete c (h.ordered.subset hc) (h.sound c hc)
        rw [e', List.append_nil] at hx
        have := h.distinct
        rw [e] at this
        exact (List.pairwise_append.mp this).2.2 x hx c (by simp) hs.symm
      | cons d k' =>
        have hcl : c ∈ l := by rw [e]; simp
        have hdl : d ∈ l' := by rw [e']; simp
        obtain ⟨pc, qc, hc1, hc2⟩ := h.first l₁ c k e
        obtain ⟨pd, qd, hd1, hd2⟩ := h'.first l₁ d k' e'
        have hnc : c ∉ pd := by
          intro hm
          obtain ⟨x, hx, hs⟩ := hd2 c hm (h.sound c hcl)
          have := h.distinct
          rw [e] at this
          exact (List.pairwise_append.mp this).2.2 x hx c (by simp) hs.symm
        have hnd : d ∉ pc := by
          intro hm
          obtain ⟨x, hx, hs⟩ := hc2 d hm (h'.sound d hdl)
          have := h'.distinct
          rw [e'] at this
          exact (List.pairwise_append.mp this).2.2 x hx d (by simp) hs.symm
        have heq : c = d := by
          have hh : pc ++ c :: qc = pd ++ d :: qd := hc1.symm.trans hd1
          rcases List.append_eq_append_iff.mp hh with ⟨a, h1, h2⟩ | ⟨a, h1, h2⟩
          · cases a with
            | nil => exact (List.cons.inj h2).1
            | cons y a =>
              exfalso
              have := (List.cons.inj h2).1
              subst this
              exact hnc (by rw [h1]; simp)
          · cases a with
            | nil => exact (List.cons.inj h2).1.symm
            | cons y a =>
              exfalso
              have := (List.cons.inj h2).1
              subst this
              exact hnd (by rw [h1]; simp)
        subst heq
        rw [ih (l₁ ++ [c]) k' (by rw [e]; simp) (by rw [e']; simp)]
  exact part [] l l' rfl rfl

end Signify
