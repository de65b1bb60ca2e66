/-
Runs of code on a file that others use.
-/
import Verif.Spec.Shared
import Verif.Proofs.Stale

set_option autoImplicit false

namespace Signify

open Spec

namespace Prog
variable {α β : Type}

theorem amid_onResult (σ : Nat → Handle → Handle) (f : Except Exc α → Prog β) : ∀ (p : Prog α) (n : Nat) (h : Handle),
    (p.onResult f).amid σ n h =
      ((((f (p.amid σ n h).1.1).amid σ (p.amid σ n h).2.1 (p.amid σ n h).2.2).1.1,
        (p.amid σ n h).1.2 ++ ((f (p.amid σ n h).1.1).amid σ (p.amid σ n h).2.1 (p.amid σ n h).2.2).1.2),
       ((f (p.amid σ n h).1.1).amid σ (p.amid σ n h).2.1 (p.amid σ n h).2.2).2) := by
  intro p
  induction p with
  | ret r => intro n h; rfl
  | seek p k ih => intro n h; simp only [onResult, amid, ih]; rfl
  | seekEnd k ih => intro n h; simp only [onResult, amid, ih]; rfl
  | tell k ih => intro n h; simp only [onResult, amid, ih]; rfl
  | read c k ih => intro n h; simp only [onResult, amid, ih]; rfl

/-- Whenever the code runs amid others of the kind `S` and all moments of its operations are in `M`, its outcome satisfies `Q`. -/
def Post (S : (Nat → Handle → Handle) → Prop) (M : List Handle) (p : Prog α) (Q : Except Exc α → Prop) : Prop :=
  ∀ σ, S σ → ∀ n h, (∀ m ∈ (p.amid σ n h).1.2, m ∈ M) → Q (p.amid σ n h).1.1

/-- A condition on values, not on exceptions. -/
def OnOk (Q : α → Prop) (r : Except Exc α) : Prop := ∀ a, r = .ok a → Q a

variable {S : (Nat → Handle → Handle) → Prop} {M : List Handle}

theorem Post.onResult {p : Prog α} {f : Except Exc α → Prog β} {Q : Except Exc α → Prop} {R : Except Exc β → Prop}
    (hp : Post S M p Q) (hf : ∀ r, Q r → Post S M (f r) R) : Post S M (p.onResult f) R := by
  intro σ hσ n h hm
  rw [amid_onResult] at hm ⊢
  simp only at hm ⊢
  exact hf _ (hp σ hσ n h fun m h' => hm m (List.mem_append_left _ h')) σ hσ _ _ fun m h' => hm m (List.mem_append_right _ h')

theorem Post.ret {r : Except Exc α} {Q : Except Exc α → Prop} (h : Q r) : Post S M (.ret r) Q := fun _ _ _ _ _ => h

theorem Post.pure {a : α} {Q : α → Prop} (h : Q a) : Post S M (Pure.pure a : Prog α) (OnOk Q) :=
  .ret (fun _ e => by cases e; exact h)

theorem Post.raise {e : Exc} {Q : α → Prop} : Post S M (Prog.raise e : Prog α) (OnOk Q) := .ret (fun _ e => by cases e)

theorem Post.bind {p : Prog α} {k : α → Prog β} {Q : α → Prop} {R : β → Prop}
    (hp : Post S M p (OnOk Q)) (hk : ∀ a, Q a → Post S M (k a) (OnOk R)) : Post S M (p >>= k) (OnOk R) := by
  refine Post.onResult hp fun r hr => ?_
  cases r with
  | error e => exact .raise
  | ok a => exact hk a (hr a rfl)

theorem Post.tryCatch {p : Prog α} {k : Exc → Prog α} {Q : α → Prop}
    (hp : Post S M p (OnOk Q)) (hk : ∀ e, Post S M (k e) (OnOk Q)) : Post S M (Prog.tryCatch p k) (OnOk Q) := by
  refine Post.onResult hp fun r hr => ?_
  cases r with
  | error e => exact hk e
  | ok a => exact .ret hr

theorem Post.seek {p : Int} : Post S M (Prog.doSeek p) (OnOk fun _ => True) := fun _ _ _ _ _ _ _ => trivial

theorem Post.any {p : Prog α} : Post S M p (OnOk fun _ => True) := fun _ _ _ _ _ _ _ => trivial

theorem answer_nat (h : Handle) (n : Nat) : answer h n = (h.bytes.drop h.pos).take n := by
  unfold answer
  rw [if_neg (by omega)]
  rfl

/-- What is read is a part of the file at that moment. -/
theorem Post.read {n : Nat} : Post S M (Prog.doRead (n : Int)) (OnOk fun x => ∃ m ∈ M, ∃ p, x = (m.bytes.drop p).take n) := by
  intro σ _ k h hm a ha
  cases ha
  exact ⟨σ k h, hm _ (List.mem_cons_self ..), (σ k h).pos, answer_nat _ _⟩

end Prog

open Prog

variable {S : (Nat → Handle → Handle) → Prop} {M : List Handle}

/-! ### The signatures -/

/-- The entry given by the iteration over the table was a part of the file at one of the moments. -/
def EntryThen (M : List Handle) (r : Option (CertEntry × CertGen)) : Prop :=
  ∀ c g, r = some (c, g) → ∃ m ∈ M, ∃ p n, c.certificate = (m.bytes.drop p).take n

theorem certWhileP_post (flen tableEnd pos : Nat) : Post S M (certWhileP flen tableEnd pos) (OnOk (EntryThen M)) := by
  unfold certWhileP
  split
  · split
    · exact .raise
    · refine .bind .seek fun _ _ => .bind .any fun length _ => .bind .any fun _ _ => .bind .any fun _ _ => ?_
      split
      · exact .raise
      · refine .bind Post.read fun x hx => .pure ?_
        intro c g e
        cases e
        obtain ⟨m, hm, p, hp⟩ := hx
        exact ⟨m, hm, p, _, hp⟩
  · exact .pure (fun _ _ e => by cases e)

theorem CertGen.runP_post (flen : Nat) (g : CertGen) : Post S M (g.runP flen) (OnOk (EntryThen M)) := by
  cases g with
  | start =>
    refine .bind (p := omitSectionsP flen) .any fun o _ => ?_
    cases o with
    | none => exact .raise
    | some loc =>
      simp only
      split
      · exact .raise
      · exact certWhileP_post _ _ _
  | suspended p l t => exact certWhileP_post _ _ _
  | finished => exact .pure (fun _ _ e => by cases e)

/-- What is still to come from a nested signature was in the file. -/
def QueueThen (cd : Codec) (M : List Handle) : SdGen → Prop
  | .suspended _ queue => ∀ x ∈ queue, SignatureThen cd M x
  | _ => True

/-- The signature given by the iteration, and those that it will still give, were in the file. -/
def PulledThen (cd : Codec) (M : List Handle) (r : Option (ASD × SdGen)) : Prop :=
  ∀ x g, r = some (x, g) → SignatureThen cd M x ∧ QueueThen cd M g

theorem sdPullP_post (cd : Codec) (flen : Nat) (nested : Bool) : ∀ (fuel : Nat) (certs : CertGen) (found : Bool),
    Post S M (sdPullP cd flen nested fuel certs found) (OnOk (PulledThen cd M)) := by
  intro fuel
  induction fuel with
  | zero => intro _ _; exact .raise
  | succ fuel ih =>
    intro certs found
    unfold sdPullP
    refine .bind (CertGen.runP_post flen certs) fun r hr => ?_
    match r with
    | none =>
      simp only
      split
      · exact .raise
      · exact .pure (fun _ _ e => by cases e)
    | some (c, g) =>
      simp only
      split
      · exact .raise
      · split
        · obtain ⟨m, hm, p, n, hc⟩ := hr c g rfl
          refine .bind (Q := fun a => fromEnvelope cd c.certificate = .ok a) (.ret fun _ h => h) fun a ha => ?_
          rw [hc] at ha
          cases hq : recursiveNested nested a with
          | nil => exact ih _ _
          | cons x q =>
            refine .pure fun y g' e => ?_
            cases e
            have sub : ∀ y ∈ x :: q, SignatureThen cd M y := fun y hy =>
              ⟨m, hm, signatureIn_of ha (recursiveNested_sub (nested := nested) (by rw [hq]; exact hy))⟩
            exact ⟨sub x (List.mem_cons_self ..), fun y hy => sub y (List.mem_cons_of_mem _ hy)⟩
        · exact ih _ _

theorem SdGen.runP_post (cd : Codec) (flen : Nat) (nested ignore : Bool) (g : SdGen) (hg : QueueThen cd M g) :
    Post S M (g.runP cd flen nested ignore) (OnOk (PulledThen cd M)) := by
  have catch_post : ∀ p, Post S M p (OnOk (PulledThen cd M)) → Post S M (sdCatchP ignore p) (OnOk (PulledThen cd M)) := by
    intro p hp
    refine .tryCatch hp fun e => ?_
    split
    · exact .pure (fun _ _ e => by cases e)
    · exact .raise
  match g with
  | .start => exact catch_post _ (sdPullP_post _ _ _ _ _ _)
  | .suspended certs [] => exact catch_post _ (sdPullP_post _ _ _ _ _ _)
  | .suspended certs (x :: q) =>
    refine .pure fun y g' e => ?_
    cases e
    exact ⟨hg x (List.mem_cons_self ..), fun z hz => hg z (List.mem_cons_of_mem _ hz)⟩
  | .finished => exact .pure (fun _ _ e => by cases e)

theorem drainP_post (cd : Codec) (flen : Nat) (nested ignore : Bool) : ∀ (fuel : Nat) (g : SdGen), QueueThen cd M g →
    Post S M (SdGen.drainP cd flen nested ignore fuel g) (OnOk fun r => ∀ l e, r = some (l, e) → ∀ x ∈ l, SignatureThen cd M x) := by
  intro fuel
  induction fuel with
  | zero => intro g _; exact .pure (fun _ _ e => by cases e)
  | succ fuel ih =>
    intro g hg
    unfold SdGen.drainP
    refine Post.onResult (SdGen.runP_post cd flen nested ignore g hg) fun r hr => ?_
    match r with
    | .error e => exact .pure (fun l e hx x hm => by cases hx; cases hm)
    | .ok none => exact .pure (fun l e hx x hm => by cases hx; cases hm)
    | .ok (some (a, g')) =>
      obtain ⟨k1, k2⟩ := hr _ rfl a g' rfl
      refine .bind (ih g' k2) fun r' hr' => ?_
      match r' with
      | none => exact .pure (fun _ _ e => by cases e)
      | some (l, e) =>
        refine .pure fun l' e' hx x hm => ?_
        cases hx
        rcases List.mem_cons.1 hm with rfl | hm
        · exact k1
        · exact hr' l e rfl x hm

/-! ### The sections -/

/-- The dictionaries of sections that the header can give. -/
def Located (loc : Dict String RelRange) : Prop :=
  (∃ c, loc = [("checksum", ⟨c, 4⟩)]) ∨
  (∃ c d, c + 4 ≤ d ∧ loc = [("checksum", ⟨c, 4⟩), ("datadir_certtable", ⟨d, 8⟩)]) ∨
  (∃ c d t n, c + 4 ≤ d ∧ d + 8 ≤ t ∧ loc = [("checksum", ⟨c, 4⟩), ("datadir_certtable", ⟨d, 8⟩), ("certtable", ⟨t, n⟩)])

theorem parseDirectoriesP_post (flen oho ohs rva cert : Nat) (hc : oho + 68 ≤ cert) :
    Post S M (parseDirectoriesP flen oho ohs rva cert) (OnOk Located) := by
  unfold parseDirectoriesP
  simp only
  have h1 : Located [("checksum", ⟨oho + 64, 4⟩)] := .inl ⟨_, rfl⟩
  have h2 : Located (Dict.set [("checksum", ⟨oho + 64, 4⟩)] "datadir_certtable" ⟨cert, 8⟩) := .inr (.inl ⟨_, _, by omega, rfl⟩)
  split
  · exact .pure h1
  · refine .bind .seek fun _ _ => .bind .any fun _ _ => ?_
    split
    · exact .pure h1
    · split
      · exact .pure h1
      · refine .bind .seek fun _ _ => .bind .any fun _ _ => ?_
        split
        · exact .raise
        · split
          · exact .pure h2
          · split
            · exact .pure h2
            · refine .pure (.inr (.inr ⟨oho + 64, cert, _, _, by omega, ?_, rfl⟩))
              omega

theorem parsePEHeaderP_post (flen : Nat) : Post S M (parsePEHeaderP flen) (OnOk Located) := by
  have err : ∀ m, Post S M (.ret (peErr m)) (OnOk Located) := fun m => .ret (fun _ e => by cases e)
  unfold parsePEHeaderP
  refine .bind .seek fun _ _ => .bind .any fun _ _ => ?_
  split
  · exact err _
  · refine .bind .seek fun _ _ => .bind .any fun _ _ => ?_
    split
    · exact err _
    · refine .bind .seek fun _ _ => .bind .any fun _ _ => ?_
      split
      · exact err _
      · refine .bind .seek fun _ _ => .bind .any fun _ _ => ?_
        simp only
        split
        · exact err _
        · split
          · exact err _
          · refine .bind .seek fun _ _ => .bind .any fun _ _ => ?_
            split
            · exact parseDirectoriesP_post _ _ _ _ _ (by omega)
            · split
              · exact parseDirectoriesP_post _ _ _ _ _ (by omega)
              · exact err _

theorem Located.keep {loc : Dict String RelRange} (h : Located loc) :
    loc.filter (fun kv => kv.1 ∈ ["checksum", "datadir_certtable", "certtable"]) = loc := by
  rcases h with ⟨c, rfl⟩ | ⟨c, d, -, rfl⟩ | ⟨c, d, t, n, -, -, rfl⟩ <;> simp

theorem Located.leftOut {loc : Dict String RelRange} (h : Located loc) : LeftOut (sortRel (loc.map Prod.snd)) := by
  rcases h with ⟨c, rfl⟩ | ⟨c, d, h, rfl⟩ | ⟨c, d, t, n, h, h', rfl⟩
  · exact .checksum c
  · have : (RelRange.le ⟨c, 4⟩ ⟨d, 8⟩) = true := by simp only [RelRange.le, Bool.or_eq_true, decide_eq_true_eq]; left; omega
    simp only [List.map_cons, List.map_nil, sortRel, insertSorted, this, if_true]
    exact .entry c d h
  · have h1 : (RelRange.le ⟨c, 4⟩ ⟨d, 8⟩) = true := by simp only [RelRange.le, Bool.or_eq_true, decide_eq_true_eq]; left; omega
    have h2 : (RelRange.le ⟨d, 8⟩ ⟨t, n⟩) = true := by simp only [RelRange.le, Bool.or_eq_true, decide_eq_true_eq]; left; omega
    simp only [List.map_cons, List.map_nil, sortRel, insertSorted, h1, h2, if_true]
    exact .table c d t n h h'

theorem omitSectionsP_post (flen : Nat) :
    Post S M (omitSectionsP flen) (OnOk fun o => ∀ om, o = some om → LeftOut (sortRel (om.map Prod.snd))) := by
  unfold omitSectionsP
  refine .tryCatch (.bind (parsePEHeaderP_post flen) fun loc hl => .pure fun om e => ?_) fun e => ?_
  · cases e
    rw [hl.keep]
    exact hl.leftOut
  · split
    · exact .pure (fun _ e => by cases e)
    · exact .raise

/-! ### The data that is hashed -/

/-- The data is read in pieces that fill the ranges one after the other. -/
inductive Fills (B : Range → Bytes → Prop) : List Range → Bytes → Prop where
  | nil : Fills B [] []
  | all (a b : Int) (R : List Range) (x d : Bytes) : B ⟨a, b⟩ x → (x.length : Int) = b - a → Fills B R d → Fills B (⟨a, b⟩ :: R) (x ++ d)
  | part (a e b : Int) (R : List Range) (x d : Bytes) : B ⟨a, e⟩ x → (x.length : Int) = e - a → Fills B (⟨e, b⟩ :: R) d →
      Fills B (⟨a, b⟩ :: R) (x ++ d)

theorem nextInterval_nil (bs : Int) (f : Finger) (heap : RangeHeap) (h : heap f.ref = []) : nextInterval bs [f] heap = none := by
  simp [nextInterval, Finger.currentRange, h]

theorem nextInterval_one (bs : Int) (f : Finger) (heap : RangeHeap) {a b : Int} {R : List Range} (h : heap f.ref = ⟨a, b⟩ :: R) :
    nextInterval bs [f] heap = some ⟨a, if b - a > bs then a + bs else b⟩ := by
  simp [nextInterval, Finger.currentRange, h]

theorem hashBlock_one (heap : RangeHeap) (x : Bytes) {a e b : Int} {R : List Range} (f : Finger) (h : heap f.ref = ⟨a, b⟩ :: R)
    (he : e ≤ b) : hashBlock heap x a e [f] = ([f.update x], none) := by
  simp only [hashBlock, Finger.currentRange, h, List.head?_cons]
  rw [if_neg (by omega)]
  simp

theorem consumeAll_one (heap : RangeHeap) {a e b : Int} {R : List Range} (f : Finger) (h : heap f.ref = ⟨a, b⟩ :: R) (he : e ≤ b) :
    consumeAll a e [f] heap = (heap.set f.ref (if b = e then R else ⟨e, b⟩ :: R), none) := by
  have : consumeRanges (heap f.ref) a e = .ok (if b = e then R else ⟨e, b⟩ :: R) := by
    rw [h]
    unfold consumeRanges
    simp only
    rw [if_neg (by omega), if_neg (by omega)]
    by_cases hb : b = e
    · rw [if_pos hb, if_pos hb]
    · rw [if_neg hb, if_neg hb, if_pos (by omega)]
  simp [consumeAll, this]

/-- One iteration of the loop of a fingerprinter with one finger. -/
theorem stepP_one {B : Range → Bytes → Prop}
    (hB : ∀ iv : Range, Post S M (do Prog.doSeek iv.start; Prog.doRead (iv.stop - iv.start))
      (OnOk fun x => (x.length : Int) = iv.stop - iv.start → B iv x)) (fp : FP) (f : Finger) (hf : fp.fingers = [f]) (hbs : 0 ≤ fp.blockSize) :
    Post S M fp.stepP (OnOk fun s =>
        (s = .done → fp.heap f.ref = []) ∧
        ∀ iv fp1, s = .next iv fp1 → ∃ a b R e x, fp.heap f.ref = ⟨a, b⟩ :: R ∧ e ≤ b ∧ B ⟨a, e⟩ x ∧ (x.length : Int) = e - a ∧
          fp1 = { fp with fingers := [f.update x], heap := fp.heap.set f.ref (if b = e then R else ⟨e, b⟩ :: R) }) := by
  unfold FP.stepP
  rw [hf]
  cases hr : fp.heap f.ref with
  | nil =>
    rw [nextInterval_nil _ _ _ hr]
    exact .pure ⟨fun _ => rfl, fun _ _ e => by cases e⟩
  | cons r R =>
    obtain ⟨a, b⟩ := r
    rw [nextInterval_one _ _ _ hr]
    have he : (if b - a > fp.blockSize then a + fp.blockSize else b) ≤ b := by split <;> omega
    generalize (if b - a > fp.blockSize then a + fp.blockSize else b) = e at he
    refine Post.onResult (Q := OnOk fun x => (x.length : Int) = e - a → B ⟨a, e⟩ x) (hB ⟨a, e⟩) fun res hres => ?_
    cases res with
    | error x => exact .pure ⟨fun e => by (cases e), fun _ _ e => by cases e⟩
    | ok x =>
      simp only
      split
      · exact .pure ⟨fun e => by (cases e), fun _ _ e => by cases e⟩
      · rename_i hlen
        have hlen : (x.length : Int) = e - a := Classical.byContradiction hlen
        rw [hashBlock_one _ _ f hr he]
        simp only
        rw [consumeAll_one _ (f.update x) (a := a) (R := R) hr he]
        refine .pure ⟨fun e => by (cases e), fun iv fp1 e' => ?_⟩
        cases e'
        exact ⟨a, b, R, e, x, rfl, he, hres x rfl hlen, hlen, rfl⟩

/-- The loop of a fingerprinter with one finger. -/
theorem loopP_one {B : Range → Bytes → Prop}
    (hB : ∀ iv : Range, Post S M (do Prog.doSeek iv.start; Prog.doRead (iv.stop - iv.start))
      (OnOk fun x => (x.length : Int) = iv.stop - iv.start → B iv x)) :
    ∀ (fuel : Nat) (fp : FP) (f : Finger), fp.fingers = [f] → 0 ≤ fp.blockSize →
    Post S M (fp.loopP fuel) (OnOk fun r => ∀ fp', r = some (fp', none) →
      ∃ data, Fills B (fp.heap f.ref) data ∧ fp'.fingers = [f.update data] ∧ fp'.heap f.ref = [] ∧ fp'.filelength = fp.filelength) := by
  intro fuel
  induction fuel with
  | zero => intro fp f _ _; exact .pure (fun _ e => by cases e)
  | succ fuel ih =>
    intro fp f hf hbs
    unfold FP.loopP
    refine .bind (stepP_one hB fp f hf hbs) fun s hs => ?_
    match s with
    | .done =>
      refine .pure fun fp' e => ?_
      cases e
      refine ⟨[], ?_, by rw [Finger.update_nil]; exact hf, hs.1 rfl, rfl⟩
      rw [hs.1 rfl]
      exact .nil
    | .raised e fp' => exact .pure (fun _ e => by cases e)
    | .next iv fp1 =>
      obtain ⟨a, b, R, e, x, h1, h2, h3, h4, h5⟩ := hs.2 iv fp1 rfl
      have hn := ih fp1 (f.update x) (by rw [h5]) (by rw [h5]; exact hbs)
      intro σ hσ n h hm r hr fp' hfp
      obtain ⟨d, d1, d2, d3, d4⟩ := hn σ hσ n h hm r hr fp' hfp
      have hh : fp1.heap (f.update x).ref = if b = e then R else ⟨e, b⟩ :: R := by
        rw [h5]
        simp [RangeHeap.set, Finger.update]
      rw [hh] at d1
      refine ⟨x ++ d, ?_, by rw [d2, Finger.update_update], d3, by rw [d4, h5]; rfl⟩
      rw [h1]
      by_cases hb : b = e
      · rw [if_pos hb] at d1
        subst hb
        exact .all a b R x d h3 h4 d1
      · rw [if_neg hb] at d1
        exact .part a e b R x d h3 h4 d1

/-! ### From the pieces to the bytes -/

theorem Fills.pieces {B : Range → Bytes → Prop} {R : List Range} {d : Bytes} (h : Fills B R d)
    (hB : ∀ iv x, B iv x → ∃ m ∈ M, ∃ p, x = (m.bytes.drop p).take x.length) : PiecesThen M d := by
  induction h with
  | nil => exact ⟨[], rfl, fun _ h => by cases h⟩
  | all a b R x d hx _ _ ih =>
    obtain ⟨l, h1, h2⟩ := ih
    refine ⟨x :: l, by rw [List.flatten_cons, ← h1], fun y hy => ?_⟩
    rcases List.mem_cons.1 hy with rfl | hy
    · exact hB _ _ hx
    · exact h2 y hy
  | part a e b R x d hx _ _ ih =>
    obtain ⟨l, h1, h2⟩ := ih
    refine ⟨x :: l, by rw [List.flatten_cons, ← h1], fun y hy => ?_⟩
    rcases List.mem_cons.1 hy with rfl | hy
    · exact hB _ _ hx
    · exact h2 y hy

/-- The offsets of the ranges, one range after the other. -/
def offsetsOf (R : List Range) : List Nat := R.flatMap (fun r => List.range' r.start.toNat (r.stop - r.start).toNat)

theorem Fills.ordered {B : Range → Bytes → Prop} {R : List Range} {d : Bytes} (h : Fills B R d) : ∀ r ∈ R, r.start ≤ r.stop := by
  induction h with
  | nil => intro r h; cases h
  | all a b R x d _ hl _ ih =>
    intro r hr
    rcases List.mem_cons.1 hr with rfl | hr
    · show a ≤ b; omega
    · exact ih r hr
  | part a e b R x d _ hl _ ih =>
    intro r hr
    rcases List.mem_cons.1 hr with rfl | hr
    · have := ih ⟨e, b⟩ (List.mem_cons_self ..)
      simp only at this ⊢
      omega
    · exact ih r (List.mem_cons_of_mem _ hr)

theorem Fills.length {B : Range → Bytes → Prop} {R : List Range} {d : Bytes} (h : Fills B R d) : d.length = (offsetsOf R).length := by
  induction h with
  | nil => rfl
  | all a b R x d _ hl _ ih =>
    simp only [offsetsOf, List.flatMap_cons, List.length_append, List.length_range'] at ih ⊢
    omega
  | part a e b R x d _ hl hf ih =>
    have := hf.ordered ⟨e, b⟩ (List.mem_cons_self ..)
    simp only [offsetsOf, List.flatMap_cons, List.length_append, List.length_range'] at ih this ⊢
    omega

/-- Offsets and bytes that belong together. -/
def Matches (M : List Handle) (offs : List Nat) (d : Bytes) : Prop :=
  offs.length = d.length ∧ ∀ (k o : Nat) (b : UInt8), offs[k]? = some o → d[k]? = some b → ByteThen M o b

theorem Matches.append {o₁ o₂ : List Nat} {d₁ d₂ : Bytes} (h₁ : Matches M o₁ d₁) (h₂ : Matches M o₂ d₂) : Matches M (o₁ ++ o₂) (d₁ ++ d₂) := by
  obtain ⟨l1, h1⟩ := h₁
  obtain ⟨l2, h2⟩ := h₂
  refine ⟨by simp [l1, l2], fun k o b ho hb => ?_⟩
  rw [List.getElem?_append] at ho hb
  by_cases hk : k < o₁.length
  · rw [if_pos hk] at ho
    rw [if_pos (by omega)] at hb
    exact h1 k o b ho hb
  · rw [if_neg hk] at ho
    rw [if_neg (by omega), ← l1] at hb
    exact h2 _ o b ho hb

/-- A block read at its place. -/
def AtPlace (M : List Handle) (iv : Range) (x : Bytes) : Prop :=
  0 ≤ iv.start ∧ ∃ m ∈ M, x = (m.bytes.drop iv.start.toNat).take x.length

theorem AtPlace.matches {iv : Range} {x : Bytes} (h : AtPlace M iv x) : Matches M (List.range' iv.start.toNat x.length) x := by
  obtain ⟨-, m, hm, hx⟩ := h
  refine ⟨by simp, fun k o b ho hb => ⟨m, hm, ?_⟩⟩
  have hk : k < x.length := by
    rw [List.getElem?_eq_some_iff] at hb
    exact hb.1
  rw [List.getElem?_range' (by exact hk)] at ho
  cases ho
  rw [hx, List.getElem?_take, if_pos hk, List.getElem?_drop] at hb
  simpa using hb

theorem Fills.matches {R : List Range} {d : Bytes} (h : Fills (AtPlace M) R d) : Matches M (offsetsOf R) d := by
  induction h with
  | nil => exact ⟨rfl, fun k o b ho => by simp [offsetsOf] at ho⟩
  | all a b R x d hx hl _ ih =>
    have := Matches.append hx.matches ih
    rwa [show x.length = (b - a).toNat by omega] at this
  | part a e b R x d hx hl hf ih =>
    have ho := hf.ordered ⟨e, b⟩ (List.mem_cons_self ..)
    simp only at ho
    have h0 : 0 ≤ a := hx.1
    have hsplit : List.range' a.toNat (b - a).toNat = List.range' a.toNat x.length ++ List.range' e.toNat (b - e).toNat := by
      have h1 : (b - a).toNat = x.length + (b - e).toNat := by omega
      have h2 : e.toNat = a.toNat + x.length := by omega
      rw [h1, h2, List.range'_append_1]
    have := Matches.append hx.matches ih
    simp only [offsetsOf, List.flatMap_cons] at this ⊢
    rw [hsplit, List.append_assoc]
    exact this

theorem range'_filter_all (a n : Nat) (p : Nat → Bool) (h : ∀ i, a ≤ i → i < a + n → p i = true) :
    (List.range' a n).filter p = List.range' a n := by
  rw [List.filter_eq_self]
  intro i hi
  rw [List.mem_range'_1] at hi
  exact h i hi.1 hi.2

theorem range'_filter_none (a n : Nat) (p : Nat → Bool) (h : ∀ i, a ≤ i → i < a + n → p i = false) :
    (List.range' a n).filter p = [] := by
  rw [List.filter_eq_nil_iff]
  intro i hi
  rw [List.mem_range'_1] at hi
  rw [h i hi.1 hi.2]
  simp

/-- The sections are in order, from `start` on. -/
def InOrder : Nat → List RelRange → Prop
  | _, [] => True
  | start, r :: l => start ≤ r.start ∧ InOrder (r.start + r.length) l

theorem InOrder.later {start i : Nat} {l : List RelRange} (h : InOrder start l) (hi : i < start) :
    l.all (fun r => decide (i < r.start) || decide (r.start + r.length ≤ i)) = true := by
  induction l generalizing start with
  | nil => rfl
  | cons r l ih =>
    obtain ⟨h1, h2⟩ := h
    rw [List.all_cons, ih h2 (by omega)]
    simp
    left
    omega

theorem offsetsOf_complement (len : Nat) : ∀ (secs : List RelRange) (start : Nat), InOrder start secs →
    (∀ r ∈ complementRanges len start secs, r.start ≤ r.stop) →
    offsetsOf (complementRanges len start secs) = (List.range' start (len - start)).filter
      (fun i => secs.all (fun r => i < r.start || r.start + r.length ≤ i)) := by
  intro secs
  induction secs with
  | nil =>
    intro start _ ho
    simp only [complementRanges, offsetsOf, List.flatMap_cons, List.flatMap_nil, List.append_nil, List.all_nil]
    rw [range'_filter_all _ _ _ (fun _ _ _ => rfl)]
    congr 1
    omega
  | cons r l ih =>
    intro start hs ho
    obtain ⟨h1, h2⟩ := hs
    simp only [complementRanges] at ho ⊢
    have hl : r.start + r.length ≤ len := by
      have : ∀ (l : List RelRange) (start : Nat), (∀ r ∈ complementRanges len start l, r.start ≤ r.stop) → InOrder start l → start ≤ len := by
        intro l
        induction l with
        | nil => intro start h _; have := h ⟨start, len⟩ (List.mem_cons_self ..); simp only at this; omega
        | cons r l ih =>
          intro start h ho
          have := ih _ (fun x hx => h x (List.mem_cons_of_mem _ hx)) ho.2
          have := ho.1
          omega
      exact this l _ (fun x hx => ho x (List.mem_cons_of_mem _ hx)) h2
    have hsplit : List.range' start (len - start) = List.range' start (r.start - start) ++
        (List.range' r.start r.length ++ List.range' (r.start + r.length) (len - (r.start + r.length))) := by
      have e1 := List.range'_append_1 (s := r.start) (m := r.length) (n := len - (r.start + r.length))
      have e2 := List.range'_append_1 (s := start) (m := r.start - start) (n := r.length + (len - (r.start + r.length)))
      rw [show start + (r.start - start) = r.start by omega, ← e1] at e2
      rw [e2]
      congr 1
      omega
    rw [hsplit, List.filter_append, List.filter_append]
    rw [range'_filter_all start]
    · rw [range'_filter_none r.start]
      · have := ih _ h2 (fun x hx => ho x (List.mem_cons_of_mem _ hx))
        simp only [offsetsOf, List.flatMap_cons, List.nil_append] at this ⊢
        rw [this]
        congr 1
        · congr 1
          omega
        · apply List.filter_congr
          intro i hi
          rw [List.mem_range'_1] at hi
          rw [List.all_cons]
          have : (decide (i < r.start) || decide (r.start + r.length ≤ i)) = true := by simp; right; omega
          rw [this, Bool.true_and]
      · intro i h3 h4
        rw [List.all_cons]
        have : (decide (i < r.start) || decide (r.start + r.length ≤ i)) = false := by simp; omega
        rw [this, Bool.false_and]
    · intro i h3 h4
      rw [List.all_cons, h2.later (by omega)]
      have : i < r.start := by omega
      simp [this]

theorem leftOut_inOrder {secs : List RelRange} (h : LeftOut secs) : InOrder 0 secs := by
  cases h with
  | checksum c => exact ⟨Nat.zero_le _, trivial⟩
  | entry c d h => exact ⟨Nat.zero_le _, h, trivial⟩
  | table c d t n h h' => exact ⟨Nat.zero_le _, h, h', trivial⟩

theorem Fills.offsets {B : Range → Bytes → Prop} {len : Nat} {secs : List RelRange} {d : Bytes} (hs : LeftOut secs)
    (h : Fills B (complementRanges len 0 secs) d) : offsetsOf (complementRanges len 0 secs) = offsetsOutside len secs := by
  rw [offsetsOf_complement len secs 0 (leftOut_inOrder hs) h.ordered]
  unfold offsetsOutside
  rw [List.range_eq_range', Nat.sub_zero]

/-! ### The hashes -/

theorem block_any (iv : Range) : Post S M (do Prog.doSeek iv.start; Prog.doRead (iv.stop - iv.start))
    (OnOk fun x => (x.length : Int) = iv.stop - iv.start → ∃ m ∈ M, ∃ p, x = (m.bytes.drop p).take x.length) := by
  refine .bind .seek fun _ _ => ?_
  intro σ _ k h hm x hx hl
  cases hx
  refine ⟨σ k h, hm _ (List.mem_cons_self ..), (σ k h).pos, ?_⟩
  have hn : ∃ n : Nat, iv.stop - iv.start = n := ⟨(iv.stop - iv.start).toNat, by omega⟩
  obtain ⟨n, hn⟩ := hn
  rw [hn, answer_nat] at hl ⊢
  congr 1
  omega

theorem block_at (iv : Range) : Post ContentOnly M (do Prog.doSeek iv.start; Prog.doRead (iv.stop - iv.start))
    (OnOk fun x => (x.length : Int) = iv.stop - iv.start → AtPlace M iv x) := by
  intro σ hσ k h hm x hx hl
  by_cases h0 : iv.start < 0
  · simp only [Bind.bind, Prog.bind, doSeek, if_pos h0, Prog.raise, onResult, amid] at hx
    cases hx
  · simp only [Bind.bind, Prog.bind, doSeek, if_neg h0, doRead, onResult, amid] at hx hm
    cases hx
    refine ⟨by omega, _, hm _ (List.mem_cons_of_mem _ (List.mem_cons_self ..)), ?_⟩
    have hn : ∃ n : Nat, iv.stop - iv.start = n := ⟨(iv.stop - iv.start).toNat, by omega⟩
    obtain ⟨n, hn⟩ := hn
    rw [hn, answer_nat, hσ] at hl ⊢
    simp only at hl ⊢
    congr 1
    omega

theorem openLengthP_at : Post ContentOnly M openLengthP (OnOk fun n => ∃ m ∈ M, m.bytes.length = n) := by
  intro σ hσ k h hm n hn
  simp only [openLengthP, amid] at hn hm
  cases hn
  refine ⟨σ k h, hm _ (List.mem_cons_self ..), ?_⟩
  rw [hσ]

theorem Dict.get?_ofPairs_fun (H : String → Bytes) (l : List String) {a : String} (h : a ∈ l) :
    (Dict.ofPairs (l.map (fun n => (n, H n)))).get? a = some (H a) := by
  rw [Dict.get?_ofPairs]
  cases hf : (l.map (fun n => (n, H n))).reverse.find? (fun p => p.1 = a) with
  | none =>
    have := List.find?_eq_none.1 hf (a, H a) (List.mem_reverse.2 (List.mem_map.2 ⟨a, h, rfl⟩))
    simp at this
  | some p =>
    have h1 := List.find?_some hf
    obtain ⟨n, -, hn⟩ := List.mem_map.1 (List.mem_reverse.1 (List.mem_of_find?_eq_some hf))
    subst hn
    have h1 : n = a := by simpa using h1
    subst h1
    rfl

theorem update_nil_get? {ds : Dict String Bytes} (hd : ds.keys.Nodup) {n : String} {v : Bytes} (h : ds.get? n = some v) :
    (Dict.update [] ds).get? n = some v := by
  rw [Dict.get?_update]
  cases hf : ds.reverse.find? (fun p => p.1 = n) with
  | none =>
    have := List.find?_eq_none.1 hf (n, v) (List.mem_reverse.2 (Dict.mem_of_get? h))
    simp at this
  | some p =>
    have hp1 := List.find?_some hf
    have hp1 : p.1 = n := of_decide_eq_true hp1
    have hp2 := List.mem_reverse.1 (List.mem_of_find?_eq_some hf)
    have : ds.get? n = some p.2 := Dict.get?_of_mem hd (by rw [← hp1]; exact hp2)
    rw [h] at this
    exact this.symm

/-- What the hashes of a run are hashes of. -/
theorem authentihashesP_post {B : Range → Bytes → Prop} {L : Nat → Prop}
    (hB : ∀ iv : Range, Post S M (do Prog.doSeek iv.start; Prog.doRead (iv.stop - iv.start))
      (OnOk fun x => (x.length : Int) = iv.stop - iv.start → B iv x))
    (hL : Post S M openLengthP (OnOk L)) (env : Env) (fuel : Nat) (algs : List String) :
    Post S M (authentihashesP env fuel algs) (OnOk fun res => ∀ ds, res.get? "authentihash" = some ds →
      ∃ len secs data, L len ∧ LeftOut secs ∧ Fills B (complementRanges len 0 secs) data ∧
        ds.keys.Nodup ∧ ∀ alg ∈ algs, ds.get? alg = some (env.hash alg data)) := by
  unfold authentihashesP
  refine .bind hL fun len hlen => .bind .any fun _ _ => .bind (omitSectionsP_post _) fun o ho => ?_
  cases o with
  | none =>
    simp only [authentihashesP.finish]
    refine .bind (Q := fun r => ∀ fp', r = some (fp', none) → fp'.fingers = []) ?_ fun r hr => ?_
    · cases fuel with
      | zero => exact .pure (fun _ e => by cases e)
      | succ n =>
        unfold FP.loopP
        refine .bind (Q := fun s => s = .done) ?_ fun s hs => ?_
        · exact .pure rfl
        · subst hs
          exact .pure (fun fp' e => by cases e; rfl)
    · match r with
      | none => exact .raise
      | some (_, some e) => exact .raise
      | some (fp', none) =>
        refine .ret fun res hres ds hds => ?_
        rw [hr fp' rfl] at hres
        cases hres
        cases hds
  | some om =>
    have hlo := ho om rfl
    simp only [authentihashesP.finish]
    generalize hfp : FP.addHashers _ algs _ "authentihash" = fp
    have hne : complementRanges len 0 (sortRel (om.map Prod.snd)) ≠ [] := complement_ne_nil _ _ _
    have hfp' : fp.fingers = [⟨0, algs.map (fun n => (⟨n, []⟩ : Hasher)), "authentihash"⟩] ∧ 0 ≤ fp.blockSize ∧
        fp.heap 0 = complementRanges len 0 (sortRel (om.map Prod.snd)) := by
      rw [← hfp]
      simp [FP.addHashers, FP.new, RangeHeap.set, hne]
    obtain ⟨f1, f2, f3⟩ := hfp'
    refine .bind (loopP_one hB fuel fp _ f1 f2) fun r hr => ?_
    match r with
    | none => exact .raise
    | some (_, some e) => exact .raise
    | some (fp', none) =>
      refine .ret fun res hres ds hds => ?_
      obtain ⟨data, d1, d2, d3, -⟩ := hr fp' rfl
      simp only at d1 d3 hres
      rw [d2] at hres
      have d3 : fp'.heap 0 = [] := d3
      simp only [collect, Finger.update, d3, leftoverBad, List.head?_nil, Bool.false_eq_true, if_false] at hres
      cases hres
      rw [f3] at d1
      have hds : ds = Dict.ofPairs (algs.map (fun n => (n, env.hash n data))) := by
        simp only [Dict.set, Dict.get?, if_true, Option.some.injEq] at hds
        rw [← hds]
        simp [List.map_map, Function.comp_def]
      rw [hds]
      refine ⟨len, _, data, hlen, hlo, d1, Dict.nodup_ofPairs _, fun alg ha => ?_⟩
      exact Dict.get?_ofPairs_fun (fun n => env.hash n data) algs ha

theorem verifyReadsP_post {B : Range → Bytes → Prop} {L : Nat → Prop}
    (hB : ∀ iv : Range, Post S M (do Prog.doSeek iv.start; Prog.doRead (iv.stop - iv.start))
      (OnOk fun x => (x.length : Int) = iv.stop - iv.start → B iv x))
    (hL : Post S M openLengthP (OnOk L)) (env : Env) (cd : Codec) (flen fuel hashFuel : Nat) (args : PEVerifyArgs) :
    Post S M (verifyReadsP env cd flen fuel hashFuel args []) (OnOk fun r => r.1 ≠ [] ∧
      (∃ sds, sds ≠ [] ∧ (∀ x ∈ sds, SignatureThen cd M x) ∧ Selected args.multiVerifyMode sds r.1 ∧ ∀ x ∈ r.1, x ∈ sds) ∧
      ∃ len secs data, L len ∧ LeftOut secs ∧ Fills B (complementRanges len 0 secs) data ∧
        ∀ x ∈ r.1, (Dict.update [] r.2).get? x.d.core.digestAlg = some (env.hash x.d.core.digestAlg data)) := by
  unfold verifyReadsP
  refine .bind (drainP_post cd flen true args.ignoreParseErrors fuel .start trivial) fun r hr => ?_
  match r with
  | none => exact .raise
  | some (sds, e) =>
    have hs := hr sds e rfl
    simp only
    refine .bind (Q := fun l => l = sds) (.ret fun l hl => ?_) fun l hl => ?_
    · cases e with
      | none => cases hl; rfl
      | some e => cases hl
    · subst hl
      split
      · exact .raise
      · rename_i hne
        rw [List.isEmpty_iff] at hne
        have halg : ∀ x ∈ l, x.d.core.digestAlg ∈ digestAlgorithms := fun x hx => by
          obtain ⟨m, -, hm⟩ := hs x hx
          exact signatureIn_alg hm
        have hsel := selected_ne_nil (mode := args.multiVerifyMode) hne halg
        have hchosen := (selected_iff (mode := args.multiVerifyMode) hne halg).2 rfl
        generalize hsl : selectSignatures args.multiVerifyMode l = sel at hsel hchosen
        refine .bind (Q := fun more => ∃ len secs data, L len ∧ LeftOut secs ∧ Fills B (complementRanges len 0 secs) data ∧
            ∀ x ∈ sel, (Dict.update [] more).get? x.d.core.digestAlg = some (env.hash x.d.core.digestAlg data)) ?_ fun more hmore => ?_
        · unfold neededHashesP
          have hmem : ∀ n, n ∈ (dedupNames (sel.map (fun a => a.d.core.digestAlg))).filter
              (fun a => (Dict.get? ([] : Dict String Bytes) a).isNone) ↔ n ∈ sel.map (fun a => a.d.core.digestAlg) := by
            intro n
            rw [List.mem_filter, mem_dedupNames]
            simp [Dict.get?]
          simp only [List.all_nil, Bool.not_true, Bool.false_eq_true, if_false]
          split
          · rename_i hemp
            rw [List.isEmpty_iff] at hemp
            rw [hemp] at hmem
            cases sel with
            | nil => exact absurd rfl hsel
            | cons x q =>
              have := (hmem x.d.core.digestAlg).2 (List.mem_cons_self ..)
              cases this
          · refine .bind (authentihashesP_post hB hL env hashFuel _) fun res hres => ?_
            split
            · exact .raise
            · rename_i ds hds
              refine .pure ?_
              obtain ⟨len, secs, data, h1, h2, h3, h5, h4⟩ := hres ds hds
              refine ⟨len, secs, data, h1, h2, h3, fun x hx => ?_⟩
              have := h4 x.d.core.digestAlg ((hmem _).2 (List.mem_map.2 ⟨x, hx, rfl⟩))
              exact update_nil_get? h5 this
        · refine .pure ⟨hsel, ⟨l, hne, hs, hchosen, fun x hx => ?_⟩, hmore⟩
          rw [← hsl] at hx
          exact selected_subset (mode := args.multiVerifyMode) x hx

/-- What was read, and what is returned for it. -/
theorem verifyRead_outcome (env : Env) (args : PEVerifyArgs) (sel : List ASD) (more : Dict String Bytes) (w : World) (data : Bytes)
    (hsel : sel ≠ []) (hd : ∀ x ∈ sel, (Dict.update [] more).get? x.d.core.digestAlg = some (env.hash x.d.core.digestAlg data))
    (hn : args.expectedHashes = none) :
    ∃ digests tried rest, tried ≠ [] ∧
      (∀ p ∈ tried, p.1 ∈ sel ∧ Dict.get? digests p.1.d.core.digestAlg = some (env.hash p.1.d.core.digestAlg data)) ∧
      Attempts env [] digests args.kwargs w tried (verifyRead env args [] (.ok (sel, more)) w).2 ∧
      Overall args.multiVerifyMode tried rest (verifyRead env args [] (.ok (sel, more)) w).1 := by
  unfold verifyRead
  simp only [hn]
  obtain ⟨tried, rest, w', r, h1, h2, h3, h4⟩ := verifyLoop_overall
    (verifyOne env [] (Dict.update [] more) args.kwargs) args.multiVerifyMode sel w hsel
  rw [h4]
  simp only
  have hin : ∀ a ∈ tried.map Prod.fst, a ∈ sel := fun a ha => by rw [h1]; exact List.mem_append_left _ ha
  refine ⟨Dict.update [] more, tried, rest, ?_, fun p hp => ?_, attempts_of_tried (fun a ha => ?_) h2, h3⟩
  · intro ht
    have : ∀ t, Overall args.multiVerifyMode t rest r → t = [] → rest = [] := by
      intro t h
      cases h <;> simp
    rw [ht, this tried h3 ht] at h1
    exact hsel h1
  · have hs := hin p.1 (List.mem_map.2 ⟨_, hp, rfl⟩)
    exact ⟨hs, hd _ hs⟩
  · exact ⟨_, hd a (hin a ha), .inl (hd a (hin a ha))⟩

/-- `verify` amid others. -/
theorem peVerifyAmid_outcome {B : Range → Bytes → Prop} {L : Nat → Prop} (env : Env) (cd : Codec) (flen fuel hashFuel : Nat) (args : PEVerifyArgs)
    (σ : Nat → Handle → Handle) (hσ : S σ) (f : Handle) (w : World)
    (hB : ∀ M iv, Post S M (do Prog.doSeek iv.start; Prog.doRead (iv.stop - iv.start))
      (OnOk fun x => (x.length : Int) = iv.stop - iv.start → M = (peVerifyAmid env cd flen fuel hashFuel args σ f w).2 → B iv x))
    (hL : ∀ M, Post S M openLengthP (OnOk fun n => M = (peVerifyAmid env cd flen fuel hashFuel args σ f w).2 → L n))
    (hn : args.expectedHashes = none) :
    (∃ e, (peVerifyAmid env cd flen fuel hashFuel args σ f w).1 = (.error e, w)) ∨
    ∃ len secs data digests tried rest, L len ∧ LeftOut secs ∧ Fills B (complementRanges len 0 secs) data ∧ tried ≠ [] ∧
      (∀ p ∈ tried, SignatureThen cd (peVerifyAmid env cd flen fuel hashFuel args σ f w).2 p.1 ∧
        Dict.get? digests p.1.d.core.digestAlg = some (env.hash p.1.d.core.digestAlg data)) ∧
      Attempts env [] digests args.kwargs w tried (peVerifyAmid env cd flen fuel hashFuel args σ f w).1.2 ∧
      Overall args.multiVerifyMode tried rest (peVerifyAmid env cd flen fuel hashFuel args σ f w).1.1 := by
  generalize hM : (peVerifyAmid env cd flen fuel hashFuel args σ f w).2 = M at hB hL ⊢
  have hB' := fun iv => hB M iv
  have hL' := hL M
  simp only [true_implies] at hB' hL'
  unfold peVerifyAmid at hM ⊢
  simp only [hn] at hM ⊢
  have hp := verifyReadsP_post hB' hL' env cd flen fuel hashFuel args σ hσ 0 f (fun m hm => by rw [← hM]; exact hm)
  cases hr : (verifyReadsP env cd flen fuel hashFuel args []).amid σ 0 f with
  | mk x s =>
    obtain ⟨r, ms⟩ := x
    rw [hr] at hp
    simp only at hp ⊢
    cases r with
    | error e => exact .inl ⟨e, rfl⟩
    | ok v =>
      right
      obtain ⟨sel, more⟩ := v
      obtain ⟨p1, ⟨sds, -, p2, -, p7⟩, len, secs, data, p3, p4, p5, p6⟩ := hp _ rfl
      obtain ⟨dg, tr, rest, q1, q2, q3, q4⟩ := verifyRead_outcome env args sel more w data p1 p6 hn
      exact ⟨len, secs, data, dg, tr, rest, p3, p4, p5, q1, fun p hp => ⟨p2 _ (p7 _ (q2 p hp).1), (q2 p hp).2⟩, q3, q4⟩

theorem attempts_digest {env : Env} {file : Bytes} {digests : Dict String Bytes} {kwargs : VerifyArgs} {w w' : World}
    {tried : List (ASD × Except Exc (List (List Cert)))} {rest : List ASD} {mode : String} {res : List (ASD × List (List Cert))} {data : Bytes}
    (hne : tried ≠ [])
    (hd : ∀ p ∈ tried, Dict.get? digests p.1.d.core.digestAlg = some (env.hash p.1.d.core.digestAlg data))
    (ha : Attempts env file digests kwargs w tried w') (ho : Overall mode tried rest (.ok res)) (he : ContextsExist w kwargs) :
    res ≠ [] ∧ ∀ p ∈ res, p.1 ∈ tried.map Prod.fst ∧ p.1.d.spc.digest = env.hash p.1.d.core.digestAlg data := by
  constructor
  · rintro rfl
    cases ho with
    | allVerify l _ => exact hne rfl
  · intro p hp
    have ht := Props.overall_returned ho rfl p hp
    refine ⟨List.mem_map.2 ⟨_, ht, rfl⟩, ?_⟩
    rcases Props.attempts_bound ha he p.1 p.2 ht with hx | ⟨hx, -⟩
    · rw [hd _ ht] at hx
      exact (Option.some.inj hx).symm
    · rw [hd _ ht] at hx
      cases hx

end Signify
