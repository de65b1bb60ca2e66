/-
C76: the command line of the fingerprinter.
-/
import Verif.Spec.Cli
import Verif.Props.SignedPE

set_option autoImplicit false

namespace Signify.Props

open Signify Spec

theorem whole_file (content : Bytes) : bytesOf content [⟨0, content.length⟩] = content := by
  simp [bytesOf, rangeBytes]

theorem generic_state (content : Bytes) :
    (FP.new content).addHashers ["md5", "sha1", "sha256", "sha512"] none "generic" =
      { file := content, blockSize := 1000000
        fingers := [⟨0, [⟨"md5", []⟩, ⟨"sha1", []⟩, ⟨"sha256", []⟩, ⟨"sha512", []⟩], "generic"⟩]
        heap := RangeHeap.set (fun _ => []) 0 [⟨0, content.length⟩], next := 1 } := rfl

theorem whole_wf (content : Bytes) : ∀ r ∈ [(⟨0, content.length⟩ : Range)], WF content r := by
  intro r hr
  rw [List.mem_singleton.1 hr]
  exact ⟨Int.le_refl _, by simp, .inr (Int.le_refl _)⟩

theorem generic_lines (a b c d : Bytes) :
    (sortedItems (Dict.ofPairs [("generic", Dict.ofPairs [("md5", a), ("sha1", b), ("sha256", c), ("sha512", d)])])).flatMap
        (fun kv => descriptionLines kv.1 kv.2) =
      ["  generic:", "    md5       : " ++ hexOf a, "    sha1      : " ++ hexOf b, "    sha256    : " ++ hexOf c,
       "    sha512    : " ++ hexOf d] := by
  simp [sortedItems, insertItem, Dict.ofPairs, Dict.update, Dict.set, descriptionLines, ljust]
  decide +kernel

theorem image_lines (a b c d x y z : Bytes) :
    (sortedItems (Dict.ofPairs [("generic", Dict.ofPairs [("md5", a), ("sha1", b), ("sha256", c), ("sha512", d)]),
        ("authentihash", Dict.ofPairs [("md5", x), ("sha1", y), ("sha256", z)])])).flatMap
        (fun kv => descriptionLines kv.1 kv.2) =
      ["  authentihash:", "    md5       : " ++ hexOf x, "    sha1      : " ++ hexOf y, "    sha256    : " ++ hexOf z,
       "  generic:", "    md5       : " ++ hexOf a, "    sha1      : " ++ hexOf b, "    sha256    : " ++ hexOf c,
       "    sha512    : " ++ hexOf d] := by
  simp [sortedItems, insertItem, Dict.ofPairs, Dict.update, Dict.set, descriptionLines, ljust]
  decide +kernel

theorem contentLines_ok (H : String → Bytes → Bytes) (content : Bytes) :
    ∃ fuel lines, Printed H content lines ∧ ∀ m, fuel ≤ m → contentLines H m content = some (.ok lines) := by
  unfold contentLines
  by_cases hh : ∃ oho ohs dir, Header content oho ohs dir
  · obtain ⟨oho, ohs, dir, hh⟩ := hh
    have he := addAuthenticode_eq ((FP.new content).addHashers ["md5", "sha1", "sha256", "sha512"] none "generic")
      ["md5", "sha1", "sha256"] (oho := oho) (ohs := ohs) (dir := dir) hh
    simp only [he]
    have hch := (omitOf_chain hh).1
    have hne := complement_ne_nil content.length 0 (omitted content oho ohs dir)
    rw [generic_state]
    simp only [register, FP.addHashers, RangeHeap.set, if_true, if_neg hne, List.map_cons, List.map_nil, List.cons_append, List.nil_append]
    generalize hfp : FP.mk _ _ _ _ _ = fp
    have hok : HeapOK fp := by
      subst hfp
      intro f hf
      simp only [List.mem_cons, List.not_mem_nil, or_false] at hf
      rcases hf with rfl | rfl
      · exact ⟨whole_wf content, .inl (by simp [refCount])⟩
      · exact ⟨complement_wf content _ 0 hch, .inl (by simp [refCount])⟩
    refine ⟨cost fp.heap fp.fingers + 1, _, .image oho ohs dir hh, fun m hm => ?_⟩
    obtain ⟨fp', h1, -⟩ := hashes_good H fp m hok (by subst hfp; show (0 : Int) < 1000000; decide) hm
    rw [h1]
    subst hfp
    simp only [List.map_cons, List.map_nil, List.nil_append]
    have e2 : bytesOf content (complementRanges content.length 0 (omitted content oho ohs dir)) =
        deleteSections content (omitted content oho ohs dir) := by
      rw [omitted, ← deleteSections_eq hch]
    have e3 : bytesOf content ((RangeHeap.set (fun _ => []) 0 [⟨0, content.length⟩]).set 1
        (complementRanges content.length 0 (omitted content oho ohs dir)) 0) = content := whole_file content
    have e4 : (RangeHeap.set (fun _ => []) 0 [⟨0, content.length⟩]).set 1
        (complementRanges content.length 0 (omitted content oho ohs dir)) 1 =
          complementRanges content.length 0 (omitted content oho ohs dir) := rfl
    simp only [e3, e4, e2, image_lines]
    rfl
  · simp only [C09_not_pe ((FP.new content).addHashers ["md5", "sha1", "sha256", "sha512"] none "generic")
      ["md5", "sha1", "sha256"] hh]
    rw [generic_state]
    generalize hfp : FP.mk _ _ _ _ _ = fp
    have hok : HeapOK fp := by
      subst hfp
      intro f hf
      rw [List.mem_singleton.1 hf]
      exact ⟨whole_wf content, .inl (by simp [refCount])⟩
    refine ⟨cost fp.heap fp.fingers + 1, _, .other hh, fun m hm => ?_⟩
    obtain ⟨fp', h1, -⟩ := hashes_good H fp m hok (by subst hfp; show (0 : Int) < 1000000; decide) hm
    rw [h1]
    subst hfp
    simp only [List.map_cons, List.map_nil, List.nil_append, RangeHeap.set, if_true, whole_file, generic_lines]
    rfl

/-- **C76**.  Whatever the files, `main` ends, and prints for each of them its digests, and those of the image if it is one, until a file
cannot be opened. -/
theorem C76_printed (H : String → Bytes → Bytes) (files : List (String × Except Exc Bytes)) :
    ∃ fuel out e, PrintedAll H files out e ∧ ∀ m, fuel ≤ m → fingerprintMain H m files = some (out, e) := by
  induction files with
  | nil => exact ⟨0, [], none, .done, fun _ _ => rfl⟩
  | cons f rest ih =>
    obtain ⟨name, c⟩ := f
    cases c with
    | error e => exact ⟨0, _, _, .stop name e rest, fun _ _ => rfl⟩
    | ok content =>
      obtain ⟨n, out, e, h1, h2⟩ := ih
      obtain ⟨k, lines, h3, h4⟩ := contentLines_ok H content
      refine ⟨max n k, _, e, .file name content rest lines out e h3 h1, fun m hm => ?_⟩
      rw [fingerprintMain, h4 m (by omega), h2 m (by omega)]

/-- What is to be printed is determined by the files. -/
theorem C76_unique (H : String → Bytes → Bytes) (files : List (String × Except Exc Bytes)) (out out' : List String) (e e' : Option Exc)
    (h : PrintedAll H files out e) (h' : PrintedAll H files out' e') : out = out' ∧ e = e' := by
  induction h generalizing out' e' with
  | done => cases h'; exact ⟨rfl, rfl⟩
  | stop => cases h'; exact ⟨rfl, rfl⟩
  | file name content rest lines more e h1 _ ih =>
    cases h' with
    | file _ _ _ lines' more' _ h1' h2' =>
      obtain ⟨rfl, rfl⟩ := ih _ _ h2'
      have : lines = lines' := by
        cases h1 with
        | other hn =>
          cases h1' with
          | other => rfl
          | image a b c hh => exact absurd ⟨a, b, c, hh⟩ hn
        | image a b c hh =>
          cases h1' with
          | other hn => exact absurd ⟨a, b, c, hh⟩ hn
          | image a' b' c' hh' =>
            obtain ⟨rfl, rfl, rfl⟩ := header_unique hh hh'
            rfl
      subst this
      exact ⟨rfl, rfl⟩

/-- A text file and a signed image, then a file that does not exist. -/
example : fingerprintMain (fun _ x => x.take 2) 10 [("a.txt", .ok [104, 105, 33]), ("b.exe", .ok exSigned), ("c", .error ⟨.exception, "No such file"⟩)] =
    some (["a.txt:", "  generic:", "    md5       : 6869", "    sha1      : 6869", "    sha256    : 6869", "    sha512    : 6869",
      "b.exe:", "  authentihash:", "    md5       : 4d5a", "    sha1      : 4d5a", "    sha256    : 4d5a",
      "  generic:", "    md5       : 4d5a", "    sha1      : 4d5a", "    sha256    : 4d5a", "    sha512    : 4d5a", "c:"],
      some ⟨.exception, "No such file"⟩) := by decide +kernel

end Signify.Props
