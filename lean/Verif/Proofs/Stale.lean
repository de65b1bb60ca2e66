/-
Files that change while they are open: what the code on the file object guarantees with a length that is out of date.
-/
import Verif.Proofs.Handle
import Verif.Props.PEFile

set_option autoImplicit false

namespace Signify

open Spec

/-- On a file with content `b` the code leaves the content alone, and the value it gives satisfies `Q`. -/
def HPost {α : Type} (b : Bytes) (p : HM α) (Q : α → Prop) : Prop :=
  ∀ h : Handle, h.bytes = b → (p h).2.bytes = b ∧ ∀ a, (p h).1 = .ok a → Q a

theorem HPost.pure {α : Type} {b : Bytes} {a : α} {Q : α → Prop} (h : Q a) : HPost b (Pure.pure a : HM α) Q :=
  fun _ hb => ⟨hb, fun _ e => by cases e; exact h⟩

theorem HPost.raise {α : Type} {b : Bytes} {e : Exc} {Q : α → Prop} : HPost b (HM.raise e : HM α) Q :=
  fun _ hb => ⟨hb, fun _ e => by cases e⟩

theorem HPost.lift {α : Type} {b : Bytes} {r : Except Exc α} {Q : α → Prop} (h : ∀ a, r = .ok a → Q a) : HPost b (HM.lift r) Q :=
  fun _ hb => ⟨hb, h⟩

theorem HPost.any {α : Type} {b : Bytes} {p : HM α} {Q : α → Prop} (h : HPost b p Q) : HPost b p (fun _ => True) :=
  fun x hb => ⟨(h x hb).1, fun _ _ => trivial⟩

theorem HPost.bind {α β : Type} {b : Bytes} {p : HM α} {k : α → HM β} {Q : α → Prop} {R : β → Prop}
    (hp : HPost b p Q) (hk : ∀ a, Q a → HPost b (k a) R) : HPost b (p >>= k) R := by
  intro h hb
  obtain ⟨h1, h2⟩ := hp h hb
  rw [HM.bind_def]
  cases hph : p h with
  | mk r h' =>
    rw [hph] at h1 h2
    cases r with
    | error e => exact ⟨h1, fun a e => by cases e⟩
    | ok a => exact hk a (h2 a rfl) h' h1

theorem HPost.tryCatch {α : Type} {b : Bytes} {p : HM α} {k : Exc → HM α} {Q : α → Prop}
    (hp : HPost b p Q) (hk : ∀ e, HPost b (k e) Q) : HPost b (HM.tryCatch p k) Q := by
  intro h hb
  obtain ⟨h1, h2⟩ := hp h hb
  unfold HM.tryCatch
  cases hph : p h with
  | mk r h' =>
    rw [hph] at h1 h2
    cases r with
    | error e => exact hk e h' h1
    | ok a => exact ⟨h1, h2⟩

theorem HPost.seek {b : Bytes} {n : Int} : HPost b (HM.seek n) (fun _ => True) := by
  intro h hb
  unfold HM.seek
  split
  · exact ⟨hb, fun _ _ => trivial⟩
  · exact ⟨hb, fun _ _ => trivial⟩

theorem HPost.read {b : Bytes} {n : Nat} : HPost b (HM.read (n : Int)) (fun x => ∃ p, x = (b.drop p).take n) := by
  intro h hb
  rw [HM.read_nat]
  refine ⟨hb, fun a e => ?_⟩
  cases e
  rw [← hb]
  exact ⟨h.pos, rfl⟩

theorem HPost.unpack {b : Bytes} {n : Nat} : HPost b (HM.unpack n) (fun _ => True) :=
  HPost.bind HPost.read (fun _ _ => HPost.lift (fun _ _ => trivial))

theorem parseDirectoriesH_post (b : Bytes) (flen oho ohs rva cert : Nat) :
    HPost b (parseDirectoriesH flen oho ohs rva cert) (fun _ => True) := by
  unfold parseDirectoriesH
  simp only
  split
  · exact .pure trivial
  · refine .bind .seek fun _ _ => .bind .unpack fun _ _ => ?_
    split
    · exact .pure trivial
    · split
      · exact .pure trivial
      · refine .bind .seek fun _ _ => .bind (HPost.read (n := 8)) fun _ _ => ?_
        repeat' split
        all_goals first | exact .raise | exact .pure trivial

theorem parsePEHeaderH_post (b : Bytes) (flen : Nat) : HPost b (parsePEHeaderH flen) (fun _ => True) := by
  unfold parsePEHeaderH
  refine .bind .seek fun _ _ => .bind (HPost.read (n := 2)) fun _ _ => ?_
  split
  · exact .lift (fun _ _ => trivial)
  · refine .bind .seek fun _ _ => .bind .unpack fun _ _ => ?_
    split
    · exact .lift (fun _ _ => trivial)
    · refine .bind .seek fun _ _ => .bind (HPost.read (n := 4)) fun _ _ => ?_
      split
      · exact .lift (fun _ _ => trivial)
      · refine .bind .seek fun _ _ => .bind .unpack fun _ _ => ?_
        simp only
        split
        · exact .lift (fun _ _ => trivial)
        · split
          · exact .lift (fun _ _ => trivial)
          · refine .bind .seek fun _ _ => .bind .unpack fun _ _ => ?_
            split
            · exact parseDirectoriesH_post _ _ _ _ _ _
            · split
              · exact parseDirectoriesH_post _ _ _ _ _ _
              · exact .lift (fun _ _ => trivial)

theorem omitSectionsH_post (b : Bytes) (flen : Nat) : HPost b (omitSectionsH flen) (fun _ => True) := by
  unfold omitSectionsH
  refine .tryCatch (.bind (parsePEHeaderH_post b flen) fun _ _ => .pure trivial) fun e => ?_
  split
  · exact .pure trivial
  · exact .raise

/-- The entry given by the iteration over the table is a part of the file. -/
def EntryIn (b : Bytes) (r : Option (CertEntry × CertGen)) : Prop :=
  ∀ c g, r = some (c, g) → ∃ p n, c.certificate = (b.drop p).take n

theorem certWhileH_post (b : Bytes) (flen tableEnd pos : Nat) : HPost b (certWhileH flen tableEnd pos) (EntryIn b) := by
  unfold certWhileH
  split
  · split
    · exact .raise
    · refine .bind .seek fun _ _ => .bind .unpack fun length _ => .bind .unpack fun _ _ => .bind .unpack fun _ _ => ?_
      split
      · exact .raise
      · refine .bind HPost.read fun x hx => .pure ?_
        intro c g e
        cases e
        obtain ⟨p, hp⟩ := hx
        exact ⟨p, _, hp⟩
  · exact .pure (fun _ _ e => by cases e)

theorem CertGen.run_post (b : Bytes) (flen : Nat) (g : CertGen) : HPost b (g.run flen) (EntryIn b) := by
  cases g with
  | start =>
    refine .bind (omitSectionsH_post b flen) fun o _ => ?_
    cases o with
    | none => exact .raise
    | some loc =>
      simp only
      split
      · exact .raise
      · exact certWhileH_post _ _ _ _
  | suspended p l t => exact certWhileH_post _ _ _ _
  | finished => exact .pure (fun _ _ e => by cases e)

/-- What is still to come from a nested signature was read from the file. -/
def QueueIn (cd : Codec) (b : Bytes) : SdGen → Prop
  | .suspended _ queue => ∀ x ∈ queue, SignatureIn cd b x
  | _ => True

theorem signatureIn_of {cd : Codec} {b : Bytes} {p n : Nat} {a x : ASD} (hf : fromEnvelope cd ((b.drop p).take n) = .ok a)
    (hx : x ∈ a.preorder) : SignatureIn cd b x := by
  unfold fromEnvelope at hf
  obtain ⟨⟨t, sd⟩, he, hf⟩ := Except.bind_eq_ok.1 hf
  simp only at hf
  split at hf
  · cases hf
  · rename_i hn
    have hn : t = "signed_data" := Classical.byContradiction hn
    subst hn
    obtain ⟨sd', hw, hr⟩ := readsASD_preorder (parseASD_ok.1 hf) x hx
    exact ⟨p, n, sd, sd', he, hw, hr⟩

theorem recursiveNested_sub {nested : Bool} {a x : ASD} (h : x ∈ recursiveNested nested a) : x ∈ a.preorder := by
  unfold recursiveNested at h
  split at h
  · exact h
  · cases List.mem_singleton.1 h
    cases a with
    | mk d l => rw [ASD.preorder]; exact List.mem_cons_self ..

/-- The signature given by the iteration, and those that it will still give, were read from the file. -/
def PulledIn (cd : Codec) (b : Bytes) (r : Option (ASD × SdGen)) : Prop :=
  ∀ x g, r = some (x, g) → SignatureIn cd b x ∧ QueueIn cd b g

theorem sdPullH_post (cd : Codec) (b : Bytes) (flen : Nat) (nested : Bool) : ∀ (fuel : Nat) (certs : CertGen) (found : Bool),
    HPost b (sdPullH cd flen nested fuel certs found) (PulledIn cd b) := by
  intro fuel
  induction fuel with
  | zero => intro _ _; exact .raise
  | succ fuel ih =>
    intro certs found
    unfold sdPullH
    refine .bind (CertGen.run_post b flen certs) fun r hr => ?_
    match r with
    | none =>
      simp only
      split
      · exact .raise
      · exact .pure (fun _ _ e => by cases e)
    | some (c, g) =>
      simp only
      split
      · exact .raise
      · split
        · obtain ⟨p, n, hc⟩ := hr c g rfl
          refine .bind (HPost.lift (Q := fun a => fromEnvelope cd c.certificate = .ok a) fun _ h => h) fun a ha => ?_
          rw [hc] at ha
          cases hq : recursiveNested nested a with
          | nil => exact ih _ _
          | cons x q =>
            refine .pure fun y g' e => ?_
            cases e
            have sub : ∀ y ∈ x :: q, SignatureIn cd b y := fun y hy =>
              signatureIn_of ha (recursiveNested_sub (nested := nested) (by rw [hq]; exact hy))
            exact ⟨sub x (List.mem_cons_self ..), fun y hy => sub y (List.mem_cons_of_mem _ hy)⟩
        · exact ih _ _

theorem SdGen.run_post (cd : Codec) (b : Bytes) (flen : Nat) (nested ignore : Bool) (g : SdGen) (hg : QueueIn cd b g) :
    HPost b (g.run cd flen nested ignore) (PulledIn cd b) := by
  have catch_post : ∀ p, HPost b p (PulledIn cd b) → HPost b (sdCatch ignore p) (PulledIn cd b) := by
    intro p hp
    refine .tryCatch hp fun e => ?_
    split
    · exact .pure (fun _ _ e => by cases e)
    · exact .raise
  match g with
  | .start => exact catch_post _ (sdPullH_post _ _ _ _ _ _ _)
  | .suspended certs [] => exact catch_post _ (sdPullH_post _ _ _ _ _ _ _)
  | .suspended certs (x :: q) =>
    refine .pure fun y g' e => ?_
    cases e
    exact ⟨hg x (List.mem_cons_self ..), fun z hz => hg z (List.mem_cons_of_mem _ hz)⟩
  | .finished => exact .pure (fun _ _ e => by cases e)

theorem drainH_post (cd : Codec) (b : Bytes) (flen : Nat) (nested ignore : Bool) : ∀ (fuel : Nat) (g : SdGen) (h : Handle),
    h.bytes = b → QueueIn cd b g → (SdGen.drainH cd flen nested ignore fuel g h).2.bytes = b ∧
    ∀ l e, (SdGen.drainH cd flen nested ignore fuel g h).1 = some (l, e) → ∀ x ∈ l, SignatureIn cd b x := by
  intro fuel
  induction fuel with
  | zero => intro g h hb _; exact ⟨hb, fun _ _ e => by cases e⟩
  | succ fuel ih =>
    intro g h hb hg
    unfold SdGen.drainH SdGen.next
    obtain ⟨h1, h2⟩ := SdGen.run_post cd b flen nested ignore g hg h hb
    cases hr : g.run cd flen nested ignore h with
    | mk r h' =>
      rw [hr] at h1 h2
      match r with
      | .error e => exact ⟨h1, fun l e hx x hm => by cases hx; cases hm⟩
      | .ok none => exact ⟨h1, fun l e hx x hm => by cases hx; cases hm⟩
      | .ok (some (a, g')) =>
        obtain ⟨k1, k2⟩ := h2 _ rfl a g' rfl
        obtain ⟨i1, i2⟩ := ih g' h' h1 k2
        simp only
        cases hd : SdGen.drainH cd flen nested ignore fuel g' h' with
        | mk r' h'' =>
          rw [hd] at i1 i2
          match r' with
          | none => exact ⟨i1, fun l e hx => by cases hx⟩
          | some (l, e) =>
            refine ⟨i1, fun l' e' hx x hm => ?_⟩
            cases hx
            rcases List.mem_cons.1 hm with rfl | hm
            · exact k1
            · exact i2 l e rfl x hm

theorem signatureIn_alg {cd : Codec} {b : Bytes} {x : ASD} (h : SignatureIn cd b x) : x.d.core.digestAlg ∈ digestAlgorithms := by
  obtain ⟨_, _, _, sd', -, -, hr⟩ := h
  cases hr with
  | mk core => obtain ⟨a, -, ha, he⟩ := core.alg; simp only [ASD.d]; rw [he]; exact ha.1

/-- No hashes can be computed for content that is not a PE file. -/
theorem neededHashes_not_pe (env : Env) (file : Bytes) {algs : List String} (hne : algs ≠ [])
    (h : ¬ ∃ oho ohs dir, Header file oho ohs dir) : neededHashes env file algs [] = .error ⟨.keyError, "authentihash"⟩ := by
  have hm : ((dedupNames algs).filter (fun a => (Dict.get? ([] : Dict String Bytes) a).isNone)).isEmpty = false := by
    cases algs with
    | nil => exact absurd rfl hne
    | cons a l => simp [dedupNames, Dict.get?]
  unfold neededHashes
  simp only [List.all_nil, Bool.not_true, Bool.false_eq_true, if_false, hm]
  have ha : ∀ l, (FP.new file).addAuthenticodeHashers l = (.ok false, FP.new file) := by
    intro l
    unfold FP.addAuthenticodeHashers
    rw [show (FP.new file).file = file from rfl, getOmit_none h]
  rw [ha]
  have hh : hashesOf env (FP.new file) = .ok [] := by
    unfold hashesOf FP.hashes FP.loop FP.step
    rfl
  simp only [hh]
  rfl

/-- The signatures returned for what was listed from some file are bound to the content that was hashed. -/
theorem verifyListed_bound (env : Env) (args : PEVerifyArgs) (sds : List ASD) (g : Handle) (w : World)
    (halg : ∀ x ∈ sds, x.d.core.digestAlg ∈ digestAlgorithms)
    (he : ContextsExist w args.kwargs) (hn : args.expectedHashes = none) (e : Option Exc) (res : List (ASD × List (List Cert)))
    (h : (verifyListed env args (sds, e) g w).1.1 = .ok res) :
    res ≠ [] ∧ ∀ p ∈ res, p.1 ∈ sds ∧ ∀ bs : Int, 1 ≤ bs → Authentihash env.hash p.1.d.core.digestAlg bs g.bytes p.1.d.spc.digest := by
  unfold verifyListed at h
  cases e with
  | some x => simp only [Gen.toList] at h; cases h
  | none =>
    simp only [Gen.toList, hn] at h
    by_cases hne : sds = []
    · subst hne
      simp only [List.isEmpty_nil, if_true] at h
      cases h
    · rw [if_neg (by rw [List.isEmpty_iff]; exact hne)] at h
      have hsel := selected_ne_nil (mode := args.multiVerifyMode) hne halg
      obtain ⟨n1, n2⟩ := neededHashesH_gives env g.bytes ((selectSignatures args.multiVerifyMode sds).map (fun a => a.d.core.digestAlg)) [] g rfl
      cases hq : neededHashesH env ((selectSignatures args.multiVerifyMode sds).map (fun a => a.d.core.digestAlg)) [] g with
      | mk r g' =>
        rw [hq] at n1 n2 h
        simp only at n1 n2
        by_cases hh : ∃ oho ohs dir, Header g.bytes oho ohs dir
        · obtain ⟨oho, ohs, dir, hh⟩ := hh
          obtain ⟨more, m1, m2⟩ := neededHashes_ok env g.bytes ((selectSignatures args.multiVerifyMode sds).map (fun a => a.d.core.digestAlg)) []
            (by intro k v h; cases h) hh
          rw [m1] at n1
          subst n1
          simp only at h
          obtain ⟨tried, rest, w', r, h1, h2, h3, h4⟩ := verifyLoop_overall
            (verifyOne env g'.bytes (Dict.update [] more) args.kwargs) args.multiVerifyMode
            (selectSignatures args.multiVerifyMode sds) w hsel
          rw [h4] at h
          simp only at h
          subst h
          rw [n2] at h2
          have hatt : Attempts env g.bytes [] args.kwargs w tried w' := by
            refine attempts_of_tried (fun a ha => ?_) h2
            have hm : a.d.core.digestAlg ∈ (selectSignatures args.multiVerifyMode sds).map (fun a => a.d.core.digestAlg) :=
              List.mem_map.2 ⟨a, by rw [h1]; exact List.mem_append_left _ ha, rfl⟩
            have hg := m2 a.d.core.digestAlg
            rw [if_pos hm] at hg
            exact ⟨_, hg, .inr ⟨rfl, fun bs hbs => (Props.C09_authentihash_iff env.hash _ bs hbs g.bytes _).2 ⟨oho, ohs, dir, hh, rfl⟩⟩⟩
          constructor
          · rintro rfl
            cases h3 with
            | allVerify l _ => exact hsel h1
          · intro p hp
            have ht := Props.overall_returned h3 rfl p hp
            refine ⟨selected_subset (mode := args.multiVerifyMode) p.1 ?_, ?_⟩
            · rw [h1]
              exact List.mem_append_left _ (List.mem_map.2 ⟨_, ht, rfl⟩)
            · rcases Props.attempts_bound hatt he p.1 p.2 ht with hd | ⟨-, hd⟩
              · cases hd
              · exact hd
        · rw [neededHashes_not_pe env g.bytes (by simpa using hsel) hh] at n1
          subst n1
          simp only at h
          cases h

/-! ### Appending to a file -/

theorem leAt_append {f x : Bytes} {off : Nat} : ∀ {n : Nat}, off + n ≤ f.length → leAt (f ++ x) off n = leAt f off n
  | 0, _ => rfl
  | n + 1, h => by
    unfold leAt
    rw [leAt_append (n := n) (by omega)]
    congr 3
    rw [List.getD_eq_getElem?_getD, List.getD_eq_getElem?_getD, List.getElem?_append_left (by omega)]

theorem header_append {f : Bytes} {oho ohs dir : Nat} (h : Header f oho ohs dir) (x : Bytes) : Header (f ++ x) oho ohs dir := by
  have hi := h.inside
  have hc := h.hasChecksum
  have h64 : 64 ≤ f.length := by
    have := h.lfanew
    omega
  refine ⟨?_, ?_, ?_, ?_, ?_, hc, ?_⟩
  · rw [List.take_append_of_le_length (by omega)]; exact h.mz
  · rw [leAt_append (by omega)]; exact h.lfanew
  · rw [List.drop_append_of_le_length (by omega), List.take_append_of_le_length (by rw [List.length_drop]; omega)]
    exact h.signature
  · rw [leAt_append (by have := h.lfanew; omega)]; exact h.size
  · rw [List.length_append]; omega
  · rw [leAt_append (by omega)]; exact h.magic

theorem hasEntry_append {f : Bytes} {oho ohs dir : Nat} (h : Header f oho ohs dir) (x : Bytes) :
    HasEntry (f ++ x) oho ohs dir ↔ HasEntry f oho ohs dir := by
  unfold HasEntry
  have hi := h.inside
  constructor
  · rintro ⟨h1, h2⟩
    rw [leAt_append (by omega)] at h2
    exact ⟨h1, h2⟩
  · rintro ⟨h1, h2⟩
    rw [leAt_append (by omega)]
    exact ⟨h1, h2⟩

theorem deleteSections_append (f x : Bytes) (secs : List RelRange) (h : ∀ r ∈ secs, r.start + r.length ≤ f.length) :
    deleteSections (f ++ x) secs = deleteSections f secs ++ x := by
  unfold deleteSections
  rw [List.zipIdx_append, List.filter_append, List.map_append]
  congr 1
  rw [List.filter_eq_self.2, List.zipIdx_map_fst]
  intro p hp
  have := List.mem_zipIdx hp
  rw [decide_eq_true_iff]
  intro r hr hh
  have := h r hr
  unfold RelHas at hh
  omega

/-- Bytes appended to a file with a certificate table are part of what is hashed. -/
theorem stripped_append {f : Bytes} {oho ohs dir : Nat} (h : Header f oho ohs dir)
    (ht : HasTable f oho ohs dir (leAt f dir 4) (leAt f (dir + 4) 4)) (x : Bytes) :
    deleteSections (f ++ x) (omitted (f ++ x) oho ohs dir) = deleteSections f (omitted f oho ohs dir) ++ x := by
  have hi := h.inside
  have hE := ht.1
  have hd : dir + 8 ≤ oho + ohs := hE.1
  have e1 : leAt (f ++ x) dir 4 = leAt f dir 4 := leAt_append (by omega)
  have e2 : leAt (f ++ x) (dir + 4) 4 = leAt f (dir + 4) 4 := leAt_append (by omega)
  have ht' : HasTable (f ++ x) oho ohs dir (leAt f dir 4) (leAt f (dir + 4) 4) := by
    refine ⟨(hasEntry_append h x).2 hE, e1.symm, e2.symm, ht.2.2.2.1, ht.2.2.2.2.1, ?_⟩
    have := ht.2.2.2.2.2
    rw [List.length_append]; omega
  have ho : omitted (f ++ x) oho ohs dir = omitted f oho ohs dir := by
    unfold omitted omitOf
    rw [e1, e2, if_pos ht, if_pos ht', if_pos hE, if_pos ((hasEntry_append h x).2 hE)]
  rw [ho, deleteSections_append]
  intro r hr
  unfold omitted omitOf at hr
  rw [if_pos ht, if_pos hE] at hr
  have hc := h.hasChecksum
  have := ht.2.2.2.2.2
  simp at hr
  rcases hr with rfl | rfl | rfl <;> simp only <;> omega

end Signify
