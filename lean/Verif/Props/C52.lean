import Verif.Spec.Builder
import Verif.Data.Wf
import Verif.Lemmas.Tables
/-!
# C52: the main region comes first

`BuildCountryCodeToRegionMap` (`Builder.regionMap`) for every collection of metadata.  Regions have non-empty identifiers, except in
the collection of alternate formats, from which no such map is built.
-/
namespace Verif.Props
open Verif Verif.Builder

/-- Identifiers of the entries marked as main, and of the others. -/
private def mains (ms : List Metadata) : List Str := (ms.filter (·.mainCountry)).map (·.id)
private def others (ms : List Metadata) : List Str := (ms.filter (fun m => !m.mainCountry)).map (·.id)

private theorem foldl_some (cc : Int) : ∀ (coll : List Metadata) (acc : List (Int × List Str)) (l : List Str), mapGet acc cc = some l →
    mapGet (coll.foldl addRegion acc) cc = some ((mains (Spec.entriesOf coll cc)).reverse ++ l ++ others (Spec.entriesOf coll cc)) := by
  intro coll
  induction coll with
  | nil => intro acc l h; simp [Spec.entriesOf, mains, others, h]
  | cons m coll ih =>
    intro acc l h
    rw [List.foldl_cons]
    by_cases hc : m.countryCode = cc
    · subst hc
      have he : Spec.entriesOf (m :: coll) m.countryCode = m :: Spec.entriesOf coll m.countryCode := by simp [Spec.entriesOf]
      rw [he]
      cases hm : m.mainCountry with
      | true =>
        rw [ih _ (m.id :: l) (by simp [addRegion, h, mapSet, mapGet, hm])]
        simp [mains, others, hm]
      | false =>
        rw [ih _ (l ++ [m.id]) (by simp [addRegion, h, mapSet, mapGet, hm])]
        simp [mains, others, hm]
    · have he : Spec.entriesOf (m :: coll) cc = Spec.entriesOf coll cc := by simp [Spec.entriesOf, hc]
      rw [he, ih _ l]
      unfold addRegion
      split <;> simp [mapSet, mapGet, hc, h]

private theorem foldl_none (cc : Int) : ∀ (coll : List Metadata) (acc : List (Int × List Str)), mapGet acc cc = none →
    mapGet (coll.foldl addRegion acc) cc = match Spec.entriesOf coll cc with
      | [] => none
      | m :: ms => some ((mains ms).reverse ++ (if m.id ≠ [] then [m.id] else []) ++ others ms) := by
  intro coll
  induction coll with
  | nil => intro acc h; simp [Spec.entriesOf, h]
  | cons m coll ih =>
    intro acc h
    rw [List.foldl_cons]
    by_cases hc : m.countryCode = cc
    · subst hc
      have he : Spec.entriesOf (m :: coll) m.countryCode = m :: Spec.entriesOf coll m.countryCode := by simp [Spec.entriesOf]
      rw [he, foldl_some _ _ _ (if m.id ≠ [] then [m.id] else []) (by simp [addRegion, h, mapSet, mapGet])]
    · have he : Spec.entriesOf (m :: coll) cc = Spec.entriesOf coll cc := by simp [Spec.entriesOf, hc]
      rw [he, ih]
      unfold addRegion
      split <;> simp [mapSet, mapGet, hc, h]

/-- A country code is in the map exactly if some entry of the collection has it. -/
theorem C52_keys (coll : List Metadata) (cc : Int) :
    (mapGet (regionMap coll) cc).isSome = true ↔ ∃ m ∈ coll, m.countryCode = cc := by
  rw [regionMap, foldl_none cc coll [] rfl]
  have : (∃ m ∈ coll, m.countryCode = cc) ↔ Spec.entriesOf coll cc ≠ [] := by
    simp [Spec.entriesOf]
  rw [this]
  cases Spec.entriesOf coll cc <;> simp

/-- The exact list of a country code: first the main regions after the first entry, the last one first; then the region of the first
entry; then the other regions in the order of the collection. -/
theorem C52_exact (coll : List Metadata) (cc : Int) (m : Metadata) (ms : List Metadata) (h : Spec.entriesOf coll cc = m :: ms)
    (hid : m.id ≠ []) :
    mapGet (regionMap coll) cc =
      some (((ms.filter (·.mainCountry)).map (·.id)).reverse ++ m.id :: (ms.filter (fun m => !m.mainCountry)).map (·.id)) := by
  rw [regionMap, foldl_none cc coll [] rfl, h]
  simp [mains, others, hid]

private theorem filter_perm (p : Metadata → Bool) : ∀ ms : List Metadata,
    ((ms.filter p).map (·.id) ++ (ms.filter (fun m => !p m)).map (·.id)).Perm (ms.map (·.id))
  | [] => by simp
  | m :: ms => by
    have ih := filter_perm p ms
    cases h : p m with
    | true => simpa [h] using ih
    | false =>
      simp only [List.filter_cons, h, Bool.not_false, if_true, List.map_cons, Bool.false_eq_true, if_false]
      exact List.perm_middle.trans (ih.cons _)

/-- Every region appears under its own code and under no other, exactly as often as in the collection. -/
theorem C52_regions (coll : List Metadata) (hid : ∀ m ∈ coll, m.id ≠ []) (cc : Int) :
    ((mapGet (regionMap coll) cc).getD []).Perm ((Spec.entriesOf coll cc).map (·.id)) := by
  cases h : Spec.entriesOf coll cc with
  | nil => rw [regionMap, foldl_none cc coll [] rfl, h]; simp
  | cons m ms =>
    have hm : m ∈ coll := by
      have : m ∈ Spec.entriesOf coll cc := by rw [h]; simp
      exact (List.mem_filter.1 this).1
    rw [C52_exact coll cc m ms h (hid m hm), Option.getD_some, List.map_cons]
    refine List.perm_middle.trans (List.Perm.cons _ ?_)
    exact ((List.reverse_perm _).append_right _).trans (filter_perm (·.mainCountry) ms)

/-- If exactly one region of a country code is marked as its main region then it is the first one of the list. -/
theorem C52_main_first (coll : List Metadata) (hid : ∀ m ∈ coll, m.id ≠ []) (cc : Int) (a b : List Metadata) (m : Metadata)
    (h : Spec.entriesOf coll cc = a ++ m :: b) (hm : m.mainCountry = true) (ha : ∀ x ∈ a ++ b, x.mainCountry = false) :
    ∃ l, mapGet (regionMap coll) cc = some (m.id :: l) := by
  have hmem : ∀ x ∈ Spec.entriesOf coll cc, x.id ≠ [] := fun x hx => hid x (List.mem_filter.1 hx).1
  have fnil : ∀ l : List Metadata, (∀ x ∈ l, x.mainCountry = false) → l.filter (·.mainCountry) = [] := by
    intro l hl
    rw [List.filter_eq_nil_iff]
    intro x hx; simp [hl x hx]
  cases a with
  | nil =>
    have hb := fnil b (fun x hx => ha x (by simp [hx]))
    exact ⟨_, (C52_exact coll cc m b h (hmem m (by rw [h]; simp))).trans (by rw [hb]; rfl)⟩
  | cons x a =>
    have h1 := fnil a (fun y hy => ha y (by simp [hy]))
    have h2 := fnil b (fun y hy => ha y (by simp [hy]))
    have he := C52_exact coll cc x (a ++ m :: b) h (hmem x (by rw [h]; simp))
    rw [List.filter_append, List.filter_cons, if_pos hm, h1, h2] at he
    exact ⟨_, he⟩

/-- Without a main region the list is in the order of the collection. -/
theorem C52_no_main (coll : List Metadata) (hid : ∀ m ∈ coll, m.id ≠ []) (cc : Int) (h : ∀ m ∈ Spec.entriesOf coll cc, m.mainCountry = false) :
    (mapGet (regionMap coll) cc).getD [] = (Spec.entriesOf coll cc).map (·.id) := by
  cases he : Spec.entriesOf coll cc with
  | nil => rw [regionMap, foldl_none cc coll [] rfl, he]; simp
  | cons m ms =>
    have hm : m ∈ coll := by
      have : m ∈ Spec.entriesOf coll cc := by rw [he]; simp
      exact (List.mem_filter.1 this).1
    rw [C52_exact coll cc m ms he (hid m hm), Option.getD_some]
    rw [he] at h
    have h1 : ms.filter (·.mainCountry) = [] := by
      rw [List.filter_eq_nil_iff]; intro x hx; simp [h x (by simp [hx])]
    have h2 : ms.filter (fun m => !m.mainCountry) = ms := by
      rw [List.filter_eq_self]; intro x hx; simp [h x (by simp [hx])]
    rw [h1, h2]; rfl

/-- The list of a country code, by the exact description. -/
private def expected (coll : List Metadata) (cc : Int) : List Str :=
  match Spec.entriesOf coll cc with
  | [] => []
  | m :: ms => if m.id = [] then [] else
    ((ms.filter (·.mainCountry)).map (·.id)).reverse ++ m.id :: (ms.filter (fun m => !m.mainCountry)).map (·.id)

private theorem expected_get (coll : List Metadata) (cc : Int) (l : List Str) (hl : l ≠ []) (h : expected coll cc = l) :
    mapGet (regionMap coll) cc = some l := by
  unfold expected at h
  split at h
  · exact absurd h.symm hl
  · rename_i m ms he
    split at h
    · exact absurd h.symm hl
    · rename_i hid
      rw [C52_exact coll cc m ms he hid, h]

private theorem shipped_expected : (Data.ccMap.all fun e => decide (expected Data.collection e.1 = e.2) && !e.2.isEmpty) = true := by
  simp only [expected, Spec.entriesOf, decide_int, decide_strs]
  kernel_rfl

private theorem shipped_codes : (Data.collection.all fun m => (mapGet Data.ccMap m.countryCode).isSome) = true := by
  simp only [mapGet_int]
  kernel_rfl

/-- The table of regions in the shipped data is the one that the builder makes from the shipped metadata. -/
theorem C52_shipped (cc : Int) : mapGet (regionMap Data.collection) cc = mapGet Data.ccMap cc := by
  cases h : mapGet Data.ccMap cc with
  | some l =>
    have := List.all_eq_true.1 shipped_expected _ (mapGet_mem h)
    simp only [Bool.and_eq_true, decide_eq_true_eq, Bool.not_eq_true', List.isEmpty_eq_false_iff] at this
    exact expected_get _ _ _ this.2 this.1
  | none =>
    cases hr : mapGet (regionMap Data.collection) cc with
    | none => rfl
    | some l =>
      obtain ⟨m, hm, hc⟩ := (C52_keys Data.collection cc).1 (by rw [hr]; rfl)
      have := List.all_eq_true.1 shipped_codes _ hm
      rw [hc, h] at this
      cases this

private def meta0 (id : Str) (cc : Int) (main : Bool) : Metadata := { id := id, countryCode := cc, mainCountry := main }

/-- Four regions: the main one of code 1 comes after another region of the code. -/
private def sample : List Metadata :=
  [meta0 (str!"AG") 1 false, meta0 (str!"GB") 44 true, meta0 (str!"US") 1 true, meta0 (str!"CA") 1 false, meta0 (str!"JE") 44 false]

example : ∀ m ∈ sample, m.id ≠ [] := by decide
example : Spec.entriesOf sample 1 = [meta0 (str!"AG") 1 false] ++ meta0 (str!"US") 1 true :: [meta0 (str!"CA") 1 false] := by decide
example : mapGet (regionMap sample) 1 = some [str!"US", str!"AG", str!"CA"] := by decide
example : mapGet (regionMap sample) 44 = some [str!"GB", str!"JE"] := by decide

end Verif.Props
