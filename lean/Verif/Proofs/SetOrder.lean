/-
The order in which a set of algorithms is iterated (C19).
-/
import Verif.Proofs.Added

set_option autoImplicit false

namespace Signify

open Spec

theorem NoDict.verifyLoop {check : ASD → M (List (List Cert))} (hc : ∀ a, NoDict (check a)) (mode : String) (l : List ASD)
    (chains : List (ASD × List (List Cert))) (e : Option Exc) : NoDict (verifyLoop check mode l chains e) := by
  induction l generalizing chains e with
  | nil => cases e <;> first | exact .pure _ | exact .raise _
  | cons a l ih =>
    unfold Signify.verifyLoop
    refine .bind (.attempt (hc a)) (fun r => ?_)
    split
    · split
      · exact .raise _
      · exact ih _ _
    · split
      · exact ih _ _
      · exact .pure _

theorem verifyOne_lookups (env : Env) (file : Bytes) {d d' : Dict String Bytes} (h : ∀ n, d.get? n = d'.get? n) (kwargs : VerifyArgs) :
    verifyOne env file d kwargs = verifyOne env file d' kwargs := by
  funext a
  unfold verifyOne
  rw [h]

theorem peVerify_order (order : List String → List String) (ho : ∀ l n, n ∈ order l ↔ n ∈ l) (env : Env) (cd : Codec) (file : Bytes)
    (args : PEVerifyArgs) (w : World) :
    (peVerifyInOrder order env cd file args w).1 = (peVerify env cd file args w).1 ∧
      SameLookups (peVerifyInOrder order env cd file args w).2 (peVerify env cd file args w).2 := by
  unfold peVerifyInOrder peVerify
  have hrefl : ∀ v : World, SameLookups v v := fun v => ⟨rfl, rfl, rfl, fun _ _ => rfl⟩
  cases hit : (iterSignedDatas cd file true args.ignoreParseErrors).toList with
  | error e =>
    rw [M.bind_error (show M.lift _ w = (.error e, w) from rfl), M.bind_error (show M.lift _ w = (.error e, w) from rfl)]
    exact ⟨rfl, hrefl _⟩
  | ok sds =>
    rw [M.bind_ok (show M.lift _ w = (.ok sds, w) from rfl), M.bind_ok (show M.lift _ w = (.ok sds, w) from rfl)]
    by_cases hne : sds.isEmpty = true
    · rw [if_pos hne, if_pos hne]
      exact ⟨rfl, hrefl _⟩
    · rw [if_neg hne, if_neg hne]
      by_cases hp : HashNames (providedBy w args)
      · obtain ⟨oho, ohs, dir, hh⟩ := header_of_considered (considered_iff.2 hit) (fun e => hne (List.isEmpty_iff.2 e))
        obtain ⟨d, h1, h2⟩ := calculateExpectedHashes_ok env file
          (order ((selectSignatures args.multiVerifyMode sds).map (fun a => a.d.core.digestAlg))) args w hp hh
        obtain ⟨d', h1', h2'⟩ := calculateExpectedHashes_ok env file
          ((selectSignatures args.multiVerifyMode sds).map (fun a => a.d.core.digestAlg)) args w hp hh
        have hd : ∀ n, d.get? n = d'.get? n := by
          intro n
          rw [h2, h2']
          by_cases hn : n ∈ (selectSignatures args.multiVerifyMode sds).map (fun a => a.d.core.digestAlg)
          · rw [if_pos hn, if_pos ((ho _ n).2 hn)]
          · rw [if_neg hn, if_neg (fun h => hn ((ho _ n).1 h))]
        rw [M.bind_ok h1, M.bind_ok h1', verifyOne_lookups env file hd]
        have hnd := NoDict.verifyLoop (noDict_verifyOne env file d' args.kwargs) args.multiVerifyMode (selectSignatures args.multiVerifyMode sds) [] none
        unfold withHashes
        cases args.expectedHashes with
        | none => exact ⟨rfl, hrefl _⟩
        | some i =>
          simp only
          rw [hnd w (fun j => if j = i then d else w.dicts j), hnd w (fun j => if j = i then d' else w.dicts j)]
          refine ⟨rfl, ⟨rfl, rfl, rfl, fun j n => ?_⟩⟩
          simp only
          split
          · exact hd n
          · rfl
      · rw [M.bind_error (calculateExpectedHashes_names env file _ args w hp), M.bind_error (calculateExpectedHashes_names env file _ args w hp)]
        exact ⟨rfl, hrefl _⟩

end Signify
