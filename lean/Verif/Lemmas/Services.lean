import Verif.Spec.Services
import Verif.Lemmas.ShortNumber
import Verif.Data.Shipped
/-!
# Lemmas about the services of short numbers
-/
namespace Verif
open Spec

theorem Data.wf_services : Data.shortMap.all (fun e => servicesOk e.2) = true := by kernel_rfl

theorem lengthsWithin_sound {f : Bool} {d g : Desc} (h : lengthsWithin f (some d) (some g) = true) {p : Pat} (hp : d.pattern = some p)
    {t : Str} (ha : p.re.Acc 0 t []) (hl : f = true → d.lengths = [] ∨ (t.length : Int) ∈ d.lengths) : (t.length : Int) ∈ g.lengths := by
  simp only [lengthsWithin, hp, Option.getD_some] at h
  cases hlens : p.re.lens with
  | none => simp [hlens] at h
  | some l =>
    simp only [hlens, List.all_eq_true, Bool.or_eq_true] at h
    rcases h _ (lens_acc p.re l hlens _ _ _ ha) with h | h
    · exact (memInt_iff _ _).1 h
    · cases f with
      | false => cases h
      | true =>
        cases hd : d.lengths with
        | nil => rw [hd] at h; cases h
        | cons a b =>
          rw [hd] at h
          rcases hl rfl with hl | hl
          · rw [hl] at hd; cases hd
          · rw [hd] at hl
            simp only [Bool.not_eq_true'] at h
            rw [(memInt_iff _ _).2 hl] at h; cases h

theorem matches_length {d g : Option Desc} (h : lengthsWithin true d g = true) (hg : ∃ y, g = some y) {t : Str} (ht : ShortMatches t d) :
    ∃ y, g = some y ∧ (t.length : Int) ∈ y.lengths := by
  obtain ⟨y, rfl⟩ := hg
  obtain ⟨x, p, rfl, hl, hp, _, ha⟩ := ht
  exact ⟨y, rfl, lengthsWithin_sound h hp ha fun _ => hl⟩

theorem descWithin_sound {d : Desc} {g : Option Desc} (h : descWithin (some d) g = true) {t : Str} (ht : ∀ u ∈ t, isDig u = true)
    (hw : ShortWhole t d) : ShortMatches t g := by
  obtain ⟨p, hp, hs, ha⟩ := hw
  simp only [descWithin, hp] at h
  cases hsrc : p.src with
  | nil => exact absurd hsrc hs
  | cons a b =>
    simp only [hsrc] at h
    cases g with
    | none => cases h
    | some y =>
      cases hq : y.pattern with
      | none => simp [hq] at h
      | some q =>
        simp only [hq, Bool.and_eq_true] at h
        obtain ⟨⟨⟨⟨h1, h2⟩, h3⟩, h4⟩, h5⟩ := h
        refine ⟨y, q, rfl, ?_, hq, ?_, ?_⟩
        · cases hy : y.lengths with
          | nil => exact .inl rfl
          | cons a b =>
            rw [hy] at h4
            have := lengthsWithin_sound h4 hp ha (by simp)
            rw [hy] at this
            exact .inr this
        · intro hn; rw [hn] at h1; cases h1
        · obtain ⟨r, hr, h⟩ := incl_sound h5 (by simpa using h2) (by simpa using h3) ht ⟨p.re, by simp, ha⟩
          simp only [List.mem_singleton] at hr
          subst hr; exact h

theorem descApart_sound {a b : Option Desc} (h : descApart a b = true) {t : Str} (ht : ∀ u ∈ t, isDig u = true) {x y : Desc}
    (hx : a = some x) (hy : b = some y) (hwx : ShortWhole t x) (hwy : ShortWhole t y) : False := by
  obtain ⟨p, hp, hp2, hp3⟩ := hwx
  obtain ⟨q, hq, hq2, hq3⟩ := hwy
  have e1 : p.src.isEmpty = false := by cases h : p.src with | nil => exact absurd h hp2 | cons => rfl
  have e2 : q.src.isEmpty = false := by cases h : q.src with | nil => exact absurd h hq2 | cons => rfl
  simp only [descApart, hx, hy, Option.bind_some, hp, hq, e1, e2, Bool.false_or, Bool.and_eq_true] at h
  refine noCommon_sound h.2 ?_ ht ?_
  · simp [h.1.1, h.1.2]
  · simp only [List.mem_cons, List.not_mem_nil, or_false, forall_eq_or_imp, forall_eq]
    exact ⟨⟨p.re, by simp, hp3⟩, ⟨q.re, by simp, hq3⟩⟩

theorem shortMatches_whole {t : Str} {d : Option Desc} (h : ShortMatches t d) : ∃ x, d = some x ∧ ShortWhole t x := by
  obtain ⟨x, p, h1, _, h2, h3, h4⟩ := h
  exact ⟨x, h1, p, h2, h3, h4⟩

theorem descApart_matches {a b : Option Desc} (h : descApart a b = true) {t : Str} (ht : ∀ u ∈ t, isDig u = true)
    (h1 : ShortMatches t a) (h2 : ShortMatches t b) : False := by
  obtain ⟨x, hx, h1⟩ := shortMatches_whole h1
  obtain ⟨y, hy, h2⟩ := shortMatches_whole h2
  exact descApart_sound h ht hx hy h1 h2

theorem shortRegionLoop_home (S : ShortMap) (nsn : Str) (hn : ∀ u ∈ nsn, isDig u = true) (rs : List Str) :
    (∃ pre r post m, rs = pre ++ r :: post ∧ shortRegionLoop S nsn rs = r ∧ mapGet S r = some m ∧ ShortMatches nsn m.shortCode ∧
      ∀ q ∈ pre, ∀ m, mapGet S q = some m → ¬ ShortMatches nsn m.shortCode) ∨
    (shortRegionLoop S nsn rs = [] ∧ ∀ q ∈ rs, ∀ m, mapGet S q = some m → ¬ ShortMatches nsn m.shortCode) := by
  induction rs with
  | nil => exact .inr ⟨rfl, by simp⟩
  | cons r rs ih =>
    have skip : (∀ m, mapGet S r = some m → ¬ ShortMatches nsn m.shortCode) → shortRegionLoop S nsn (r :: rs) = shortRegionLoop S nsn rs →
        (∃ pre r' post m, r :: rs = pre ++ r' :: post ∧ shortRegionLoop S nsn (r :: rs) = r' ∧ mapGet S r' = some m ∧
          ShortMatches nsn m.shortCode ∧ ∀ q ∈ pre, ∀ m, mapGet S q = some m → ¬ ShortMatches nsn m.shortCode) ∨
        (shortRegionLoop S nsn (r :: rs) = [] ∧ ∀ q ∈ r :: rs, ∀ m, mapGet S q = some m → ¬ ShortMatches nsn m.shortCode) := by
      intro hr he
      rw [he]
      rcases ih with ⟨pre, r', post, m, rfl, h1, h2, h3, h4⟩ | ⟨h1, h2⟩
      · refine .inl ⟨r :: pre, r', post, m, rfl, h1, h2, h3, ?_⟩
        intro q hq
        rcases List.mem_cons.1 hq with rfl | hq
        · exact hr
        · exact h4 q hq
      · refine .inr ⟨h1, ?_⟩
        intro q hq
        rcases List.mem_cons.1 hq with rfl | hq
        · exact hr
        · exact h2 q hq
    cases hm : mapGet S r with
    | none => exact skip (by simp [hm]) (by simp [shortRegionLoop, shortMeta, hm])
    | some m =>
      by_cases hs : ShortMatches nsn m.shortCode
      · refine .inl ⟨[], r, rs, m, rfl, ?_, hm, hs, by simp⟩
        simp only [shortRegionLoop, shortMeta, hm]
        rw [if_pos ((matchesPossible_iff _ hn _).2 hs)]
      · refine skip (fun m' h => by rw [hm] at h; cases h; exact hs) ?_
        simp only [shortRegionLoop, shortMeta, hm]
        rw [if_neg (fun h => hs ((matchesPossible_iff _ hn _).1 h))]

/-- The region `getRegionCodeForShortNumberFromRegionList` answers. -/
theorem shortRegion_home (S : ShortMap) (n : PhoneNumber) (hn : ∀ u ∈ nsnOf n, isDig u = true) (rs : List Str) (h0 : [] ∉ rs) (r : Str) :
    HomeOf S (nsnOf n) rs r ↔ shortRegionFromList S n rs = r ∧ r ≠ [] := by
  constructor
  · intro h
    generalize hrs : rs = rs' at h
    cases h with
    | only => subst hrs; exact ⟨rfl, fun h => h0 (by simp [h])⟩
    | @first pre post r m hl hm hs hpre =>
      have hne : r ≠ [] := fun h => h0 (by rw [hrs]; simp [h])
      refine ⟨?_, hne⟩
      have e : shortRegionFromList S n (pre ++ r :: post) = shortRegionLoop S (nsnOf n) (pre ++ r :: post) := by
        match h : pre ++ r :: post with
        | [] => rfl
        | [x] => rw [h] at hl; simp at hl
        | a :: b :: c => rfl
      rw [e]
      clear e hl hrs
      induction pre with
      | nil =>
        simp only [List.nil_append, shortRegionLoop, shortMeta, hm]
        rw [if_pos ((matchesPossible_iff _ hn _).2 hs)]
      | cons q pre ih =>
        have ih := ih fun q hq => hpre q (List.mem_cons_of_mem _ hq)
        simp only [List.cons_append, shortRegionLoop, shortMeta]
        cases hq : mapGet S q with
        | none => exact ih
        | some m' =>
          simp only
          rw [if_neg (fun h => hpre q (by simp) m' hq ((matchesPossible_iff _ hn _).1 h))]
          exact ih
  · rintro ⟨h, hne⟩
    match rs, h with
    | [], h => exact absurd h.symm hne
    | [x], h => cases h; exact .only
    | a :: b :: c, h =>
      replace h : shortRegionLoop S (nsnOf n) (a :: b :: c) = r := h
      rcases shortRegionLoop_home S (nsnOf n) hn (a :: b :: c) with ⟨pre, r', post, m, h1, h2, h3, h4, h5⟩ | ⟨h1, _⟩
      · rw [h2] at h
        subst h
        have hl : 1 < (pre ++ r' :: post).length := by rw [← h1]; simp
        rw [h1]
        exact .first hl h3 h4 h5
      · rw [h1] at h; exact absurd h.symm hne

end Verif
