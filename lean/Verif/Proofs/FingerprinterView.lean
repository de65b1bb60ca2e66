/-
When no list object is shared, the fingerprinter behaves like a machine over (hashers, description, ranges) triples.
-/
import Verif.Proofs.Fingerprinter
import Verif.Proofs.Dict

set_option autoImplicit false

namespace Signify
open Spec

/-- What is observable about one finger. -/
abbrev AV := List Hasher × String × List Range

def view (fp : FP) : List AV := fp.fingers.map (fun f => (f.hashers, f.description, fp.heap f.ref))

/-- No list object is used twice, all of them are allocated. -/
structure Unshared (fp : FP) : Prop where
  nodup : (fp.fingers.map Finger.ref).Nodup
  alloc : ∀ f ∈ fp.fingers, f.ref < fp.next

def aNext (bs : Int) (v : List AV) : Option Range :=
  let cur := v.filterMap (fun a => a.2.2.head?)
  let starts := cur.map Range.start
  let ends := cur.map Range.stop
  match starts.min? with
  | none => none
  | some minStart =>
    let starts := starts.filter (fun x => x ≠ minStart)
    match (ends ++ starts).min? with
    | none => none
    | some minEnd =>
      let minEnd := if minEnd - minStart > bs then minStart + bs else minEnd
      some ⟨minStart, minEnd⟩

theorem aNext_view (fp : FP) (bs : Int) : nextInterval bs fp.fingers fp.heap = aNext bs (view fp) := by
  have : fp.fingers.filterMap (Finger.currentRange fp.heap) = (view fp).filterMap (fun a => a.2.2.head?) := by
    unfold view
    rw [List.filterMap_map]
    rfl
  unfold nextInterval aNext
  rw [this]
  rfl

def aFeed (file : Bytes) (iv : Range) (a : AV) : AV :=
  (a.1.map (fun h => { h with seen := h.seen ++ share file iv.start iv.stop a.2.2 }), a.2.1,
    consumeD iv.start iv.stop a.2.2)

inductive AStep where
  | done
  | raised (e : Exc)
  | next (iv : Range) (v : List AV)

def aStep (file : Bytes) (bs : Int) (v : List AV) : AStep :=
  match aNext bs v with
  | none => .done
  | some iv =>
    match readAt file iv.start (iv.stop - iv.start) with
    | .error e => .raised e
    | .ok block =>
      if (block.length : Int) ≠ iv.stop - iv.start then .raised ⟨.runtimeError, "Short read on file."⟩
      else .next iv (v.map (aFeed file iv))

theorem refCount_nodup {fp : FP} (h : (fp.fingers.map Finger.ref).Nodup) {f : Finger} (hf : f ∈ fp.fingers) :
    refCount f.ref fp.fingers = 1 := by
  unfold refCount
  have := refCount_pos hf
  have h2 := List.nodup_iff_count.1 h f.ref
  unfold refCount at this
  omega

theorem step_view {fp : FP} (hu : Unshared fp) :
    match aStep fp.file fp.blockSize (view fp) with
    | .done => fp.step = .done
    | .raised e => fp.step = .raised e fp
    | .next iv v => ∃ fp', fp.step = .next iv fp' ∧ view fp' = v ∧ Unshared fp' ∧ fp'.file = fp.file ∧
        fp'.blockSize = fp.blockSize := by
  unfold aStep
  rw [← aNext_view]
  cases hn : nextInterval fp.blockSize fp.fingers fp.heap with
  | none => simp only; unfold FP.step; rw [hn]
  | some iv =>
    simp only
    have F := nextInterval_facts hn
    cases hr : readAt fp.file iv.start (iv.stop - iv.start) with
    | error e => simp only; unfold FP.step; rw [hn]; simp only; rw [hr]
    | ok block =>
      simp only
      by_cases hl : (block.length : Int) ≠ iv.stop - iv.start
      · rw [if_pos hl]; simp only; unfold FP.step; rw [hn]; simp only; rw [hr]; simp only; rw [if_pos hl]
      · rw [if_neg hl]
        simp only
        have hl' : (block.length : Int) = iv.stop - iv.start := by omega
        have ⟨a1, a2, a3, a4⟩ := readAt_ok hr hl'
        have e1 : iv.start + (iv.stop - iv.start) = iv.stop := by omega
        rw [e1] at a3 a4
        have hwf : WF fp.file iv := ⟨a1, by omega, by omega⟩
        let fs' := fp.fingers.map (Finger.feed fp.heap (rangeBytes fp.file iv) iv.start)
        have hc : consumeAll iv.start iv.stop fs' fp.heap =
            (fun r => consumeK iv.start iv.stop (refCount r fp.fingers) (fp.heap r), none) := by
          rw [consumeAll_eq]
          · simp [fs', refCount_feed]
          · intro r j hj
            rw [refCount_feed] at hj
            obtain ⟨f, hf, rfl⟩ := exists_of_refCount (Nat.lt_of_le_of_lt (Nat.zero_le _) hj)
            rw [refCount_nodup hu.nodup hf] at hj
            have : j = 0 := by omega
            subst this
            exact fun r hr => ⟨F.lo f hf r hr, F.hi f hf r hr, F.mid f hf r hr⟩
        refine ⟨_, step_of hn hwf hc, ?_, ⟨?_, ?_⟩, rfl, rfl⟩
        · unfold view
          simp only [List.map_map]
          apply List.map_congr_left
          intro f hf
          have h2 := Finger.feed_eq fp.file fp.heap iv.start iv.stop f
          rw [show (⟨iv.start, iv.stop⟩ : Range) = iv from rfl] at h2
          simp only [Function.comp, Finger.feed_ref, refCount_nodup hu.nodup hf, consumeK, aFeed,
            Finger.feed_description]
          rw [h2]
          rfl
        · simpa [List.map_map, Function.comp_def] using hu.nodup
        · intro g hg
          obtain ⟨f, hf, rfl⟩ := List.mem_map.1 hg
          simpa using hu.alloc f hf

def aLoop (file : Bytes) (bs : Int) : Nat → List AV → Option (List AV × Option Exc)
  | 0, _ => none
  | n + 1, v =>
    match aStep file bs v with
    | .done => some (v, none)
    | .raised e => some (v, some e)
    | .next _ v' => aLoop file bs n v'

theorem loop_view : ∀ (n : Nat) (fp : FP), Unshared fp →
    match aLoop fp.file fp.blockSize n (view fp) with
    | none => fp.loop n = none
    | some (v, e) => ∃ fp', fp.loop n = some (fp', e) ∧ view fp' = v ∧ Unshared fp' ∧ fp'.file = fp.file ∧
        fp'.blockSize = fp.blockSize ∧ (∀ x, e = some x → fp'.step = .raised x fp')
  | 0, _, _ => by simp [aLoop, FP.loop]
  | n + 1, fp, hu => by
    have hs := step_view hu
    unfold aLoop FP.loop
    cases ha : aStep fp.file fp.blockSize (view fp) with
    | done => rw [ha] at hs; simp only at hs ⊢; rw [hs]; exact ⟨fp, rfl, rfl, hu, rfl, rfl, by simp⟩
    | raised e =>
      rw [ha] at hs; simp only at hs ⊢
      refine ⟨fp, by rw [hs], rfl, hu, rfl, rfl, ?_⟩
      intro x hx; injection hx with hx; subst hx; exact hs
    | next iv v =>
      rw [ha] at hs
      simp only at hs ⊢
      obtain ⟨fp1, h1, h2, h3, h4, h5⟩ := hs
      have ih := loop_view n fp1 h3
      rw [h1]
      simp only
      rw [h4, h5, h2] at ih
      cases hb : aLoop fp.file fp.blockSize n v with
      | none => rw [hb] at ih; exact ih
      | some x => obtain ⟨v', e⟩ := x; rw [hb] at ih; exact ih

def aCollect (H : String → Bytes → Bytes) (flen : Int) : List AV → Hashes → Except Exc Hashes
  | [], results => .ok results
  | a :: v, results =>
    if leftoverBad flen a.2.2 then .error ⟨.runtimeError, "Non-empty range remains."⟩
    else aCollect H flen v (results.set a.2.1 (Dict.ofPairs (a.1.map (fun h => (h.name, H h.name h.seen)))))

theorem collect_view (H : String → Bytes → Bytes) (flen : Int) (heap : RangeHeap) : ∀ (fs : List Finger) (res : Hashes),
    collect H flen heap fs res = aCollect H flen (fs.map (fun f => (f.hashers, f.description, heap f.ref))) res
  | [], _ => rfl
  | f :: fs, res => by
    simp only [collect, List.map_cons, aCollect]
    rw [collect_view H flen heap fs _]

def aHashes (H : String → Bytes → Bytes) (file : Bytes) (bs : Int) (n : Nat) (v : List AV) : Option (Except Exc Hashes) :=
  match aLoop file bs n v with
  | none => none
  | some (_, some e) => some (.error e)
  | some (v', none) => some (aCollect H file.length v' [])

theorem hashes_view (H : String → Bytes → Bytes) (n : Nat) (fp : FP) (hu : Unshared fp) :
    (fp.hashes H n).map Prod.fst = aHashes H fp.file fp.blockSize n (view fp) := by
  have hl := loop_view n fp hu
  unfold FP.hashes aHashes
  cases ha : aLoop fp.file fp.blockSize n (view fp) with
  | none => rw [ha] at hl; simp only at hl ⊢; rw [hl]; rfl
  | some x =>
    obtain ⟨v, e⟩ := x
    rw [ha] at hl
    simp only at hl
    obtain ⟨fp', h1, h2, h3, h4, h5, _⟩ := hl
    rw [h1]
    cases e with
    | some e => rfl
    | none =>
      simp only
      rw [collect_view]
      have : fp'.fingers.map (fun f => (f.hashers, f.description, fp'.heap f.ref)) = v := h2
      rw [this, FP.filelength, h4]
      cases aCollect H (↑fp.file.length) v [] <;> rfl

/-! ### registering -/

def regView (file : Bytes) (g : Reg) : AV := (g.names.map (fun n => ⟨n, []⟩), g.description, requested file g.ranges)

theorem register_spec (fp : FP) (g : Reg) (hu : Unshared fp) :
    view (register fp g) = view fp ++ [regView fp.file g] ∧ Unshared (register fp g) ∧
    (register fp g).file = fp.file ∧ (register fp g).blockSize = fp.blockSize ∧
    fp.next ≤ (register fp g).next ∧ (∀ r, r < fp.next → (register fp g).heap r = fp.heap r) := by
  have hne : ∀ f ∈ fp.fingers, f.ref ≠ fp.next := fun f hf => Nat.ne_of_lt (hu.alloc f hf)
  have hne2 : ∀ f ∈ fp.fingers, f.ref ≠ fp.next + 1 := fun f hf => by have := hu.alloc f hf; omega
  unfold register FP.addHashers
  simp only [RangeHeap.set, if_true]
  by_cases hg : g.ranges = []
  · simp only [hg, if_true]
    refine ⟨?_, ⟨?_, ?_⟩, trivial, trivial, by first | omega | (simp only; omega), ?_⟩
    · unfold view
      simp only [List.map_append, List.map_cons, List.map_nil]
      congr 1
      · apply List.map_congr_left
        intro f hf
        simp [RangeHeap.set, hne f hf, hne2 f hf]
      · simp [regView, requested, hg, FP.filelength, RangeHeap.set]
    · simp only [List.map_append, List.map_cons, List.map_nil]
      rw [List.nodup_append]
      refine ⟨hu.nodup, by simp, ?_⟩
      intro a ha b hb
      simp only [List.mem_singleton] at hb
      subst hb
      obtain ⟨f, hf, rfl⟩ := List.mem_map.1 ha
      exact hne2 f hf
    · intro f hf
      rcases List.mem_append.1 hf with hf | hf
      · have := hu.alloc f hf; simp only; omega
      · simp only [List.mem_singleton] at hf; subst hf; simp only; omega
    · intro r hr
      simp [RangeHeap.set, show r ≠ fp.next from by omega, show r ≠ fp.next + 1 from by omega]
  · simp only [if_neg hg]
    refine ⟨?_, ⟨?_, ?_⟩, trivial, trivial, by first | omega | (simp only; omega), ?_⟩
    · unfold view
      simp only [List.map_append, List.map_cons, List.map_nil]
      congr 1
      · apply List.map_congr_left
        intro f hf
        simp [RangeHeap.set, hne f hf]
      · simp [regView, requested, hg, RangeHeap.set]
    · simp only [List.map_append, List.map_cons, List.map_nil]
      rw [List.nodup_append]
      refine ⟨hu.nodup, by simp, ?_⟩
      intro a ha b hb
      simp only [List.mem_singleton] at hb
      subst hb
      obtain ⟨f, hf, rfl⟩ := List.mem_map.1 ha
      exact hne f hf
    · intro f hf
      rcases List.mem_append.1 hf with hf | hf
      · have := hu.alloc f hf; simp only; omega
      · simp only [List.mem_singleton] at hf; subst hf; simp only; omega
    · intro r hr
      simp [RangeHeap.set, show r ≠ fp.next from by omega]

theorem registerAll_spec : ∀ (gs : List Reg) (fp : FP), Unshared fp →
    view (registerAll fp gs) = view fp ++ gs.map (regView fp.file) ∧ Unshared (registerAll fp gs) ∧
    (registerAll fp gs).file = fp.file ∧ (registerAll fp gs).blockSize = fp.blockSize
  | [], fp, hu => by simp [registerAll, hu]
  | g :: gs, fp, hu => by
    have ⟨h1, h2, h3, h4, _, _⟩ := register_spec fp g hu
    have ⟨i1, i2, i3, i4⟩ := registerAll_spec gs (register fp g) h2
    have he : registerAll fp (g :: gs) = registerAll (register fp g) gs := rfl
    rw [he, i1, h1, h3]
    exact ⟨by simp, i2, i3.trans h3, i4.trans h4⟩

theorem unshared_empty {fp : FP} (h : fp.fingers = []) : Unshared fp := by
  constructor <;> simp [h]

theorem registerAll_empty {fp : FP} (h : fp.fingers = []) (gs : List Reg) :
    view (registerAll fp gs) = gs.map (regView fp.file) ∧ Unshared (registerAll fp gs) ∧
    (registerAll fp gs).file = fp.file ∧ (registerAll fp gs).blockSize = fp.blockSize := by
  have ⟨h1, h2, h3, h4⟩ := registerAll_spec gs fp (unshared_empty h)
  refine ⟨?_, h2, h3, h4⟩
  rw [h1]; simp [view, h]

/-! ### results -/

/-- The results for a list of (used up) views. -/
def resultsOf (H : String → Bytes → Bytes) (v : List AV) : Hashes :=
  Dict.ofPairs (v.map (fun a => (a.2.1, Dict.ofPairs (a.1.map (fun h => (h.name, H h.name h.seen))))))

theorem aCollect_ok (H : String → Bytes → Bytes) (flen : Int) : ∀ (v : List AV) (res : Hashes),
    (∀ a ∈ v, a.2.2 = []) → aCollect H flen v res = .ok (Dict.update res (v.map (fun a =>
      (a.2.1, Dict.ofPairs (a.1.map (fun h => (h.name, H h.name h.seen)))))))
  | [], _, _ => rfl
  | a :: v, res, h => by
    unfold aCollect
    simp only [h a List.mem_cons_self, leftoverBad, List.head?_nil]
    exact aCollect_ok H flen v _ (fun b hb => h b (List.mem_cons_of_mem _ hb))

def aTarget (file : Bytes) (a : AV) : AV :=
  (a.1.map (fun h => { h with seen := h.seen ++ bytesOf file a.2.2 }), a.2.1, [])

theorem find?_map_fst {α β γ : Type} (f : α → β × γ) (p : β → Bool) : ∀ (l : List α),
    (l.map f).find? (fun x => p x.1) = (l.find? (fun a => p (f a).1)).map f
  | [] => rfl
  | a :: l => by
    simp only [List.map_cons, List.find?_cons]
    split
    · simp
    · exact find?_map_fst f p l

theorem reports_results (H : String → Bytes → Bytes) (file : Bytes) (gs : List Reg) :
    Reports H file gs (resultsOf H ((gs.map (regView file)).map (aTarget file))) := by
  have key : ∀ d, (resultsOf H ((gs.map (regView file)).map (aTarget file))).get? d = (lastFor gs d).map (fun g =>
      Dict.ofPairs (g.names.map (fun n => (n, H n (bytesOf file (requested file g.ranges)))))) := by
    intro d
    unfold resultsOf lastFor
    rw [Dict.get?_ofPairs]
    simp only [List.map_map, ← List.map_reverse]
    have := find?_map_fst ((fun a : AV => (a.2.1, Dict.ofPairs (a.1.map (fun h => (h.name, H h.name h.seen))))) ∘
      (aTarget file ∘ regView file)) (fun x => decide (x = d)) gs.reverse
    rw [this]
    simp only [Option.map_map, Function.comp_def, aTarget, regView, List.map_map, List.nil_append]
  constructor
  · intro d hd
    rw [key, hd]; rfl
  · intro d g hg
    rw [key, hg]
    refine ⟨_, rfl, fun n => ?_⟩
    rw [Dict.get?_ofPairs, ← List.map_reverse]
    have := find?_map_fst (fun n => (n, H n (bytesOf file (requested file g.ranges)))) (fun x => decide (x = n)) g.names.reverse
    rw [this]
    by_cases hm : n ∈ g.names
    · rw [if_pos hm]
      have : g.names.reverse.find? (fun a => decide (a = n)) = some n := by
        have hs : (g.names.reverse.find? (fun a => decide (a = n))).isSome := by
          rw [List.find?_isSome]; exact ⟨n, by simpa using hm, by simp⟩
        obtain ⟨x, hx⟩ := Option.isSome_iff_exists.1 hs
        have := List.find?_some hx
        simp only [decide_eq_true_eq] at this
        rw [hx, this]
      rw [this]; rfl
    · rw [if_neg hm]
      have : g.names.reverse.find? (fun a => decide (a = n)) = none := by
        rw [List.find?_eq_none]
        intro x hx hxn
        simp only [decide_eq_true_eq] at hxn
        subst hxn
        exact hm (by simpa using hx)
      rw [this]; rfl
  · refine ⟨Dict.nodup_ofPairs _, ?_⟩
    intro p hp
    have h1 := Dict.get?_of_mem (Dict.nodup_ofPairs _) (show (p.1, p.2) ∈ _ from hp)
    have h2 : (resultsOf H ((gs.map (regView file)).map (aTarget file))).get? p.1 = some p.2 := h1
    rw [key] at h2
    cases hl : lastFor gs p.1 with
    | none => rw [hl] at h2; cases h2
    | some g =>
      rw [hl] at h2
      injection h2 with h2
      rw [← h2]
      exact Dict.nodup_ofPairs _

/-! ### soundness for arbitrary integer ranges -/

theorem aStep_next {file : Bytes} {bs : Int} {v v' : List AV} {iv : Range} (h : aStep file bs v = .next iv v') :
    v' = v.map (aFeed file iv) ∧ aNext bs v = some iv ∧ 0 ≤ iv.start ∧ iv.start ≤ iv.stop ∧
    (iv.start = iv.stop ∨ iv.stop ≤ (file.length : Int)) := by
  unfold aStep at h
  split at h
  · cases h
  · rename_i iv' hn
    split at h
    · cases h
    · rename_i block hr
      split at h
      · cases h
      · rename_i hl
        injection h with h1 h2
        subst h1
        have ⟨a1, a2, a3, a4⟩ := readAt_ok hr (by omega)
        exact ⟨h2.symm, hn, a1, by omega, by omega⟩

/-- The facts about the interval, for views. -/
structure AFacts (bs : Int) (v : List AV) (iv : Range) : Prop where
  ex : ∃ a ∈ v, ∃ r, a.2.2.head? = some r ∧ r.start = iv.start
  ok : ∀ a ∈ v, HeadOK iv.start iv.stop a.2.2
  len : iv.stop - iv.start ≤ bs
  which : iv.stop = iv.start + bs ∨
    (∃ a ∈ v, ∃ r, a.2.2.head? = some r ∧ iv.stop = r.stop) ∨
    (∃ a ∈ v, ∃ r, a.2.2.head? = some r ∧ r.start ≠ iv.start ∧ iv.stop = r.start)

/-- Every view is the view of some fingerprinter. -/
theorem view_surj (file : Bytes) (bs : Int) (v : List AV) : ∃ fp : FP, view fp = v ∧ Unshared fp ∧ fp.file = file ∧
    fp.blockSize = bs := by
  refine ⟨{ file := file, blockSize := bs, fingers := v.zipIdx.map (fun p => ⟨p.2, p.1.1, p.1.2.1⟩),
            heap := fun i => (v.map (fun a => a.2.2)).getD i [], next := v.length }, ?_, ⟨?_, ?_⟩, rfl, rfl⟩
  · unfold view
    simp only [List.map_map]
    apply List.ext_getElem
    · simp
    · intro i h1 h2
      simp at h1
      simp [List.getElem?_eq_getElem h1]
  · simp only [List.map_map, Function.comp_def]
    rw [show (fun x : AV × Nat => x.2) = Prod.snd from rfl, List.zipIdx_map_snd]
    exact List.nodup_range'
  · intro f hf
    obtain ⟨⟨a, i⟩, hp, rfl⟩ := List.mem_map.1 hf
    have := List.mem_zipIdx hp
    simp only; omega

theorem aNext_facts {bs : Int} {v : List AV} {iv : Range} (h : aNext bs v = some iv) : AFacts bs v iv := by
  obtain ⟨fp, rfl, _, _, _⟩ := view_surj [] bs v
  rw [← aNext_view] at h
  have F := nextInterval_facts h
  have conv : ∀ P : Range → Prop, (∃ f ∈ fp.fingers, ∃ r, f.currentRange fp.heap = some r ∧ P r) →
      (∃ a ∈ view fp, ∃ r, a.2.2.head? = some r ∧ P r) := by
    rintro P ⟨f, hf, r, hr, hp⟩
    exact ⟨_, List.mem_map_of_mem hf, r, hr, hp⟩
  refine ⟨conv _ F.ex, ?_, F.len, ?_⟩
  · intro a ha r hr
    obtain ⟨f, hf, rfl⟩ := List.mem_map.1 ha
    exact ⟨F.lo f hf r hr, F.hi f hf r hr, F.mid f hf r hr⟩
  · rcases F.which with h | h | h
    · exact Or.inl h
    · exact Or.inr (Or.inl (conv _ h))
    · exact Or.inr (Or.inr (conv _ h))

theorem aNext_none {bs : Int} {v : List AV} (h : aNext bs v = none) : ∀ a ∈ v, a.2.2 = [] := by
  obtain ⟨fp, rfl, _, _, _⟩ := view_surj [] bs v
  rw [← aNext_view] at h
  intro a ha
  obtain ⟨f, hf, rfl⟩ := List.mem_map.1 ha
  exact nextInterval_none h f hf

/-- Consumption of a read interval reflects well-formedness. -/
theorem consumeD_wf_back {file : Bytes} {s e : Int} {l : List Range} (hh : HeadOK s e l) (h0 : 0 ≤ s) (hse : s ≤ e)
    (hr : s = e ∨ e ≤ (file.length : Int)) (h : ∀ r ∈ consumeD s e l, WF file r) : ∀ r ∈ l, WF file r := by
  cases l with
  | nil => intro r hr; cases hr
  | cons old rest =>
    have ⟨a1, a2, a3⟩ := hh old rfl
    rw [consumeD_cons] at h
    split at h
    · exact h
    · split at h
      · rename_i h1 h2
        intro r hrr
        rcases List.mem_cons.1 hrr with rfl | hrr
        · exact ⟨by omega, by omega, by omega⟩
        · exact h r hrr
      · rename_i h1 h2
        intro r hrr
        rcases List.mem_cons.1 hrr with rfl | hrr
        · have ⟨b1, b2, b3⟩ := h ⟨e, r.stop⟩ List.mem_cons_self
          simp only at b1 b2 b3
          exact ⟨by omega, by omega, by omega⟩
        · exact h r (List.mem_cons_of_mem _ hrr)

theorem aLoop_sound (file : Bytes) (bs : Int) : ∀ (n : Nat) (v v' : List AV), aLoop file bs n v = some (v', none) →
    (∀ a ∈ v, ∀ r ∈ a.2.2, WF file r) ∧ v' = v.map (aTarget file)
  | 0, _, _, h => by cases h
  | n + 1, v, v', h => by
    unfold aLoop at h
    split at h
    · rename_i hs
      injection h with h
      injection h with h _
      subst h
      unfold aStep at hs
      have hn : aNext bs v = none := by
        split at hs
        · assumption
        · split at hs
          · cases hs
          · split at hs <;> cases hs
      have he := aNext_none hn
      refine ⟨fun a ha r hr => absurd (he a ha ▸ hr) List.not_mem_nil, ?_⟩
      conv => lhs; rw [← List.map_id v]
      apply List.map_congr_left
      intro a ha
      have := he a ha
      obtain ⟨x, y, z⟩ := a
      simp only at this
      subst this
      simp [aTarget, bytesOf]
    · cases h
    · rename_i iv v1 hs
      have ⟨h1, h2, h3, h4, h5⟩ := aStep_next hs
      have ⟨i1, i2⟩ := aLoop_sound file bs n v1 v' h
      have F := aNext_facts h2
      have hw : ∀ a ∈ v, ∀ r ∈ a.2.2, WF file r := by
        intro a ha
        apply consumeD_wf_back (F.ok a ha) h3 h4 h5
        have := i1 (aFeed file iv a) (by rw [h1]; exact List.mem_map_of_mem ha)
        exact this
      refine ⟨hw, ?_⟩
      rw [i2, h1, List.map_map]
      apply List.map_congr_left
      intro a ha
      have ⟨_, hb⟩ := consumeD_share (file := file) (k := 1) ⟨hw a ha, Or.inl (Nat.le_refl 1)⟩ (F.ok a ha) h4 h3
      simp [Function.comp_def, aTarget, aFeed, List.append_assoc, hb]

/-- The only exceptions a run over unshared lists can raise. -/
def ReadError (e : Exc) : Prop :=
  e = ⟨.runtimeError, "Short read on file."⟩ ∨ e = ⟨.valueError, "negative seek"⟩

theorem aLoop_errors (file : Bytes) (bs : Int) : ∀ (n : Nat) (v v' : List AV) (e : Exc),
    aLoop file bs n v = some (v', some e) → ReadError e
  | 0, _, _, _, h => by cases h
  | n + 1, v, v', e, h => by
    unfold aLoop at h
    split at h
    · cases h
    · rename_i x hs
      injection h with h
      injection h with _ h
      injection h with h
      subst h
      unfold aStep at hs
      split at hs
      · cases hs
      · split at hs
        · rename_i e' hr
          injection hs with hs
          subst hs
          unfold readAt at hr
          split at hr
          · injection hr with hr; exact Or.inr hr.symm
          · simp only at hr; split at hr <;> cases hr
        · split at hs
          · injection hs with hs; exact Or.inl hs.symm
          · cases hs
    · exact aLoop_errors file bs n _ v' e h

/-! ### block size 0 -/

theorem aStep_zero {file : Bytes} {v : List AV} (hw : ∀ a ∈ v, ∀ r ∈ a.2.2, WF file r)
    (hne : ∃ a ∈ v, ∃ r ∈ a.2.2, r.start < r.stop) :
    ∃ iv v', aStep file 0 v = .next iv v' ∧ (∀ a ∈ v', ∀ r ∈ a.2.2, WF file r) ∧
      (∃ a ∈ v', ∃ r ∈ a.2.2, r.start < r.stop) := by
  obtain ⟨a, ha, r, hr, hlt⟩ := hne
  cases hn : aNext 0 v with
  | none => have := aNext_none hn a ha; rw [this] at hr; cases hr
  | some iv =>
    have F := aNext_facts hn
    obtain ⟨b, hb, q, hq, hqs⟩ := F.ex
    have wq := hw b hb q (List.mem_of_mem_head? (by rw [hq]; rfl))
    have h0 : 0 ≤ iv.start := by have := wq.1; omega
    have hse : iv.start = iv.stop := by
      have := F.len
      rcases F.which with h | ⟨c, hc, p, hp, h⟩ | ⟨c, hc, p, hp, hne, h⟩
      · omega
      · have := (hw c hc p (List.mem_of_mem_head? (by rw [hp]; rfl))).2.1
        have := (F.ok c hc p hp).1; omega
      · have := (F.ok c hc p hp).1; omega
    have hrd := readAt_of_wf (file := file) (s := iv.start) (e := iv.stop) ⟨h0, by simp only; omega, Or.inl hse⟩
    refine ⟨iv, v.map (aFeed file iv), ?_, ?_, ?_⟩
    · unfold aStep
      rw [hn]; simp only; rw [hrd.1]; simp only
      rw [if_neg (by rw [hrd.2]; simp)]
    · intro c hc
      obtain ⟨d, hd, rfl⟩ := List.mem_map.1 hc
      have := consumeD_share (file := file) (k := 1) ⟨hw d hd, Or.inl (Nat.le_refl 1)⟩ (F.ok d hd) (by omega) h0
      exact this.1.1
    · refine ⟨aFeed file iv a, List.mem_map_of_mem ha, ?_⟩
      simp only [aFeed]
      have ho := F.ok a ha
      cases hl : a.2.2 with
      | nil => rw [hl] at hr; cases hr
      | cons old rest =>
        rw [hl] at hr ho
        have ⟨b1, b2, b3⟩ := ho old rfl
        rw [consumeD_cons]
        split
        · exact ⟨r, hr, hlt⟩
        · split
          · rcases List.mem_cons.1 hr with rfl | hr
            · omega
            · exact ⟨r, hr, hlt⟩
          · rcases List.mem_cons.1 hr with rfl | hr
            · exact ⟨⟨iv.stop, r.stop⟩, List.mem_cons_self, by simp only; omega⟩
            · exact ⟨r, List.mem_cons_of_mem _ hr, hlt⟩

theorem aLoop_zero (file : Bytes) : ∀ (n : Nat) (v : List AV), (∀ a ∈ v, ∀ r ∈ a.2.2, WF file r) →
    (∃ a ∈ v, ∃ r ∈ a.2.2, r.start < r.stop) → aLoop file 0 n v = none
  | 0, _, _, _ => rfl
  | n + 1, v, hw, hne => by
    obtain ⟨iv, v', h1, h2, h3⟩ := aStep_zero hw hne
    unfold aLoop
    rw [h1]
    exact aLoop_zero file n v' h2 h3

/-- A good unshared state. -/
theorem heapOK_of_view {fp : FP} (hu : Unshared fp) (h : ∀ a ∈ view fp, ∀ r ∈ a.2.2, WF fp.file r) : HeapOK fp := by
  intro f hf
  refine ⟨fun r hr => h _ (List.mem_map_of_mem hf) r hr, Or.inl ?_⟩
  rw [refCount_nodup hu.nodup hf]
  exact Nat.le_refl 1

theorem requested_wf {file : Bytes} {rs : List Range} (h : ∀ r ∈ rs, WF file r) : ∀ r ∈ requested file rs, WF file r := by
  intro r hr
  unfold requested at hr
  split at hr
  · simp only [List.mem_singleton] at hr
    subst hr
    exact ⟨Int.le_refl _, by simp only; omega, Or.inr (Int.le_refl _)⟩
  · exact h r hr

end Signify
