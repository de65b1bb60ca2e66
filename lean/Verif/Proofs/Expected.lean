/-
The digests that verification computes from a PE file.
-/
import Verif.Model.PEFile
import Verif.Props.SignedPE
import Verif.Proofs.Dict

set_option autoImplicit false

namespace Signify

open Spec Props

theorem complement_cost (flen : Nat) : ∀ (secs : List RelRange) (start : Nat), Chain flen start secs →
    listCost (complementRanges flen start secs) ≤ flen - start + secs.length + 1
  | [], start, h => by
    simp only [Chain] at h
    simp only [complementRanges, listCost, List.map_cons, List.map_nil, List.sum_cons, List.sum_nil, rangeCost, List.length_nil]
    omega
  | r :: l, start, h => by
    simp only [Chain] at h
    have ih := complement_cost flen l (r.start + r.length) h.2
    simp only [complementRanges, listCost, List.map_cons, List.sum_cons, rangeCost, List.length_cons] at ih ⊢
    have : r.start + r.length ≤ flen := chain_le l _ h.2
    omega
where
  chain_le : ∀ (l : List RelRange) (start : Nat), Chain flen start l → start ≤ flen
  | [], start, h => h
  | r :: l, start, h => by
    have := chain_le l _ h.2
    have := h.1
    omega

theorem omitted_length (file : Bytes) (oho ohs dir : Nat) : (omitted file oho ohs dir).length ≤ 3 := by
  unfold omitted omitOf
  split <;> split <;> simp

/-- `hashes()` after `add_authenticode_hashers(*names)` on a new fingerprinter over a usable PE file. -/
theorem hashesOf_authenticode_pairs (env : Env) (file : Bytes) (names : List String) {oho ohs dir : Nat} (h : Header file oho ohs dir) :
    ∃ fp ds, (FP.new file).addAuthenticodeHashers names = (.ok true, fp) ∧ hashesOf env fp = .ok [("authentihash", ds)] ∧
      (∀ n, ds.get? n = if n ∈ names then some (env.hash n (deleteSections file (omitted file oho ohs dir))) else none) ∧
      (ds.map Prod.fst).Nodup ∧ ∃ v, ds = Dict.ofPairs (names.map (fun n => (n, env.hash n v))) := by
  let g : Reg := ⟨names, complementRanges file.length 0 (omitted file oho ohs dir), "authentihash"⟩
  have he := addAuthenticode_eq (FP.new file) names h
  have hch : Chain file.length 0 (omitted file oho ohs dir) := (omitOf_chain h).1
  have ⟨h1, h2, h3, h4⟩ := registerAll_empty (fp := FP.new file) rfl [g]
  have hok : HeapOK (registerAll (FP.new file) [g]) := by
    apply heapOK_of_view h2
    rw [h1, h3]
    intro a ha
    simp only [List.map_cons, List.map_nil, List.mem_singleton] at ha
    subst ha
    exact requested_wf (fun r hr => complement_wf file _ 0 hch r hr)
  have hview := h1
  unfold view at hview
  simp only [List.map_cons, List.map_nil, regView] at hview
  have hreq : requested (FP.new file).file g.ranges = complementRanges file.length 0 (omitted file oho ohs dir) := by
    unfold requested; rw [if_neg (complement_ne_nil _ _ _)]
  obtain ⟨f, hf⟩ : ∃ f, (registerAll (FP.new file) [g]).fingers = [f] := by
    cases hx : (registerAll (FP.new file) [g]).fingers with
    | nil => rw [hx] at hview; simp at hview
    | cons f l =>
      rw [hx] at hview
      cases l with
      | nil => exact ⟨f, rfl⟩
      | cons f' l => simp at hview
  rw [hf] at hview
  simp only [List.map_cons, List.map_nil, List.cons.injEq, and_true, Prod.mk.injEq] at hview
  obtain ⟨v1, v2, v3⟩ := hview
  have hcost : cost (registerAll (FP.new file) [g]).heap (registerAll (FP.new file) [g]).fingers < file.length + 10 := by
    unfold cost
    rw [hf]
    simp only [List.map_cons, List.map_nil, List.sum_cons, List.sum_nil]
    rw [v3, hreq]
    have := complement_cost file.length (omitted file oho ohs dir) 0 hch
    have := omitted_length file oho ohs dir
    omega
  obtain ⟨fp', e, -⟩ := hashes_good env.hash _ _ hok (by rw [h4]; exact (by decide : (0:Int) < 1000000)) hcost
  obtain ⟨fp₁, res, fp₂, ds, c1, c2, c3, c4, c5⟩ := C09_authentihash_exact env.hash (FP.new file) rfl (by exact (by decide : (1:Int) ≤ 1000000)) [] (by simp) names oho ohs dir h
  have c1 : (FP.new file).addAuthenticodeHashers names = (.ok true, fp₁) := c1
  rw [he] at c1
  have c1 := (Prod.mk.inj c1).2
  subst c1
  have e' : (register (FP.new file) g).hashes env.hash (file.length + 10) = _ := e
  have hu := (ends_unique ⟨_, e'⟩ c2).1
  rw [hf] at hu e'
  simp only [List.map_cons, List.map_nil] at hu e'
  injection hu with hu
  have hres : res = [("authentihash", ds)] := by
    have hshape : ∃ y, res = [(f.description, y)] := ⟨_, hu.symm⟩
    obtain ⟨y, hy⟩ := hshape
    rw [v2] at hy
    rw [hy] at c3
    simp only [Dict.get?, g, if_true] at c3
    cases c3
    exact hy
  refine ⟨_, ds, he, ?_, c4, ?_, ?_⟩
  · unfold hashesOf
    show (match (register (FP.new file) g).hashes env.hash (file.length + 10) with
      | none => _ | some (r, _) => r) = _
    rw [e', hu, hres]
  · exact c5.nodup.2 ("authentihash", ds) (by rw [hres]; simp)
  · rw [hres, v1] at hu
    simp only [g, List.map_map] at hu
    have hu := congrArg (fun l => l.map Prod.snd) hu
    exact ⟨_, (List.cons.inj hu).1.symm⟩

theorem hashesOf_authenticode (env : Env) (file : Bytes) (names : List String) {oho ohs dir : Nat} (h : Header file oho ohs dir) :
    ∃ fp ds, (FP.new file).addAuthenticodeHashers names = (.ok true, fp) ∧ hashesOf env fp = .ok [("authentihash", ds)] ∧
      (∀ n, ds.get? n = if n ∈ names then some (env.hash n (deleteSections file (omitted file oho ohs dir))) else none) ∧
      (ds.map Prod.fst).Nodup := by
  obtain ⟨fp, ds, h1, h2, h3, h4, -⟩ := hashesOf_authenticode_pairs env file names h
  exact ⟨fp, ds, h1, h2, h3, h4⟩

/-- The dictionary is determined by the names and the digests. -/
theorem hashesOf_authenticode_exact (env : Env) (file : Bytes) (names : List String) {oho ohs dir : Nat} (h : Header file oho ohs dir) :
    ∃ fp, (FP.new file).addAuthenticodeHashers names = (.ok true, fp) ∧ hashesOf env fp = .ok [("authentihash",
      Dict.ofPairs (names.map (fun n => (n, env.hash n (deleteSections file (omitted file oho ohs dir))))))] := by
  obtain ⟨fp, ds, h1, h2, h3, h4, v, rfl⟩ := hashesOf_authenticode_pairs env file names h
  refine ⟨fp, h1, ?_⟩
  rw [h2]
  have : names.map (fun n => (n, env.hash n v)) =
      names.map (fun n => (n, env.hash n (deleteSections file (omitted file oho ohs dir)))) := by
    apply List.map_congr_left
    intro n hn
    have k := h3 n
    rw [if_pos hn, Dict.get?_ofPairs] at k
    cases hx : (names.map (fun n => (n, env.hash n v))).reverse.find? (fun p => p.1 = n) with
    | none => rw [hx] at k; cases k
    | some p =>
      rw [hx] at k
      obtain ⟨m, -, rfl⟩ := List.mem_map.1 (List.mem_reverse.1 (List.mem_of_find?_eq_some hx))
      have : m = n := of_decide_eq_true (List.find?_some hx :)
      subst this
      exact congrArg (fun x => (m, x)) (Option.some.inj k)
  rw [this]

/-- `hashes()` without registrations. -/
theorem hashesOf_empty (env : Env) (file : Bytes) : hashesOf env (FP.new file) = .ok [] := rfl

/-- The authentihash of a file. -/
theorem computeExpected_header (env : Env) (file : Bytes) (alg : String) {oho ohs dir : Nat} (h : Header file oho ohs dir) :
    computeExpected env (some file) alg = .ok (env.hash alg (deleteSections file (omitted file oho ohs dir))) := by
  obtain ⟨fp, ds, h1, h2, h3, -⟩ := hashesOf_authenticode env file [alg] h
  unfold computeExpected
  simp only
  rw [h1]
  simp only [h2, bind, Except.bind]
  rw [h3, if_pos (by simp)]

theorem computeExpected_not_pe (env : Env) (file : Bytes) (alg : String) (h : ¬ ∃ oho ohs dir, Header file oho ohs dir) :
    computeExpected env (some file) alg = .error ⟨.runtimeError, "Can't return a single hash, use hashes() instead"⟩ := by
  unfold computeExpected
  simp only
  rw [C09_not_pe (FP.new file) [alg] h]
  simp only [hashesOf_empty, bind, Except.bind]

theorem computeExpected_ok {env : Env} {file : Option Bytes} {alg : String} {d : Bytes} :
    computeExpected env file alg = .ok d ↔
      ∃ f oho ohs dir, file = some f ∧ Header f oho ohs dir ∧ d = env.hash alg (deleteSections f (omitted f oho ohs dir)) := by
  cases file with
  | none => simp [computeExpected]
  | some f =>
    by_cases h : ∃ oho ohs dir, Header f oho ohs dir
    · obtain ⟨oho, ohs, dir, h⟩ := h
      rw [computeExpected_header env f alg h]
      constructor
      · intro e; cases e; exact ⟨f, oho, ohs, dir, rfl, h, rfl⟩
      · rintro ⟨f', a, b, c, e, h', rfl⟩
        cases e
        obtain ⟨rfl, rfl, rfl⟩ := header_unique h h'
        rfl
    · rw [computeExpected_not_pe env f alg h]
      constructor
      · intro e; cases e
      · rintro ⟨f', a, b, c, e, h', -⟩
        cases e
        exact absurd ⟨a, b, c, h'⟩ h

/-- The digest computed by `verify` is the one a client would get from the fingerprinter. -/
theorem computeExpected_authentihash {env : Env} {file : Option Bytes} {alg : String} {d : Bytes} {bs : Int} (hbs : 1 ≤ bs) :
    computeExpected env file alg = .ok d ↔ ∃ f, file = some f ∧ Authentihash env.hash alg bs f d := by
  rw [computeExpected_ok]
  constructor
  · rintro ⟨f, a, b, c, e, h1, h2⟩
    exact ⟨f, e, (C09_authentihash_iff env.hash alg bs hbs f d).2 ⟨a, b, c, h1, h2⟩⟩
  · rintro ⟨f, e, h⟩
    obtain ⟨a, b, c, h1, h2⟩ := (C09_authentihash_iff env.hash alg bs hbs f d).1 h
    exact ⟨f, a, b, c, e, h1, h2⟩

end Signify
