import Verif.Props.C80
import Verif.Props.C56
/-!
# C80: metadata which were passed over
-/

namespace Csvw.Props
open Csvw Spec Locate

section
variable {w : World} {url : Str}

/-- **C80** Locating the metadata for a URL which leads to no JSON document gives a warning if and only if the first document found (behind
the `Link` header or at one of the locations) does not describe the data. There is none for a JSON document or a local file. -/
theorem C80_located :
    (∀ (noHeader : Bool) (link : Option (Str × Option Str)) (lk : Option J) (lines : List Str) (docs : List (Option J)),
      w.getJson url = .error .valueError → isUrl url = true → w.head url = .ok (noHeader, link) → LinkDoc w url link lk → Locations w url lines →
      All2 (FoundAt w url) lines docs → (∀ md ∈ lk.toList ++ docs.filterMap id, Regular md) →
      (Warn.document w url none = true ↔ ∃ d r, lk.toList ++ docs.filterMap id = d :: r ∧ ¬ Describes d url)) ∧
    (∀ md, w.getJson url = .ok md → Warn.document w url none = false) ∧
    (isUrl url = false → Warn.document w url none = false) := by
  have hn : (nonEmpty (none : Option Str)).getD url = url := rfl
  refine ⟨?_, ?_, ?_⟩
  · intro noHeader link lk lines docs hj hu hh hl hs ho hr
    unfold Warn.document
    rw [hn, hj]
    simp only
    rcases C56_url hu hh hl hs ho hr with ⟨before, md, after, h1, h2, h3, h4⟩ | ⟨h1, h4⟩
    · rw [h4]
      simp only [decide_eq_true_eq]
      rw [h1]
      cases before with
      | nil =>
        simp only [ne_eq, not_true_eq_false, List.nil_append, List.cons.injEq, false_iff]
        rintro ⟨d, r, ⟨rfl, -⟩, hd⟩
        exact hd h2
      | cons b bs => exact ⟨fun _ => ⟨b, _, rfl, h3 b (by simp)⟩, fun _ => by simp⟩
    · rw [h4]
      simp only [decide_eq_true_eq]
      cases hl : lk.toList ++ docs.filterMap id with
      | nil => simp
      | cons b bs => exact ⟨fun _ => ⟨b, _, rfl, h1 b (by rw [hl]; simp)⟩, fun _ => by simp⟩
  · intro md h
    unfold Warn.document
    rw [hn, h]
  · intro h
    unfold Warn.document
    rw [hn]
    have : ∀ f, locateMetadata w url = .ok f → f.warned = false := by
      intro f hf
      unfold locateMetadata at hf
      rw [h] at hf
      simp only [Bool.false_eq_true, if_false] at hf
      unfold locateFile at hf
      split at hf
      · cases hg : w.getJson (url ++ "-metadata.json".toList) with
        | error e => rw [hg] at hf; cases hf
        | ok md => rw [hg] at hf; cases hf; rfl
      · cases hf; rfl
    split
    · split
      · next f hf => exact this f hf
      · rfl
    · rfl

/-- **C80** Hence the exit status is 1 if a document was passed over. -/
theorem C80_passed_over {ext : Ext} {x : MExt} {other : Base → Derived → J → Res Val} {lk : EncLookup} {o : OpenExt} {eq : Table.PyEq} {data : Str → Str}
    (hlk : lk "utf-8".toList = .ok ()) {noHeader : Bool} {link : Option (Str × Option Str)} {ld : Option J} {lines : List Str} {docs : List (Option J)}
    (hj : w.getJson url = .error .valueError) (hu : isUrl url = true) (hh : w.head url = .ok (noHeader, link)) (hl : LinkDoc w url link ld)
    (hs : Locations w url lines) (ho : All2 (FoundAt w url) lines docs) (hr : ∀ md ∈ ld.toList ++ docs.filterMap id, Regular md)
    {d : J} {r : List J} (hd : ld.toList ++ docs.filterMap id = d :: r) (hnd : ¬ Describes d url)
    {m : List (Str × J)} {nh : Bool} (hm : Opened.document w url none = .ok (.obj m, nh))
    (hk : DistinctKeys (.obj m)) {op : Opened} (h : Opened.init ext x other lk o w url none = .ok op) :
    csvwvalidate ext x other lk o w eq data url = .ok 1 :=
  C80_problems hlk hm hk h (.inl ((C80_located.1 _ _ _ _ _ hj hu hh hl hs ho hr).2 ⟨d, r, hd, hnd⟩))

end

/-- In the example for C56, with no JSON document at the URL, there is a warning. -/
example : Warn.document { exampleWorld with getJson := fun _ => .error .valueError } "http://x.org/t.csv".toList none = true := by
  decide +kernel

end Csvw.Props
