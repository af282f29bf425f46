import Verif.Spec.Short
import Verif.Lemmas.Str
import Verif.Lemmas.Valid
import Verif.Lemmas.Fast
import Verif.Data.ShippedShort
/-!
# Lemmas about short numbers
-/
namespace Verif
open Spec

theorem matchNational_iff (t : Str) (d : Desc) (allow : Bool) :
    matchNational t (some d) allow = true ↔ ShortWhole t d ∨ (allow = true ∧ ShortPrefix t d) := by
  unfold matchNational ShortWhole ShortPrefix
  cases hp : d.pattern with
  | none =>
    have : (descPat (some d)) = .empty := by simp [descPat, hp]
    simp [this, Pat.empty]
  | some p =>
    have : descPat (some d) = p := by simp [descPat, hp]
    simp only [this, Option.some.injEq, exists_eq_left']
    by_cases hs : p.src = []
    · simp [hs]
    have hb := matchesAtStart_iff p.re t
    have hf := full_isMatch_iff p.re t
    have hw : p.re.Acc 0 t [] → ∃ w e, t = w ++ e ∧ p.re.Acc 0 w e := fun h => ⟨t, [], by simp, h⟩
    unfold Re.matchesAtStart at hb
    simp only [hs, if_false, ne_eq, not_false_eq_true, true_and]
    cases hfind : p.re.find t with
    | none =>
      rw [hfind] at hb
      simp only [Bool.false_eq_true, false_iff] at hb ⊢
      rintro (h | h)
      · exact hb (hw h)
      · exact hb h.2
    | some x =>
      rw [hfind] at hb
      by_cases h0 : x.start = 0
      · simp only [h0, not_true_eq_false, if_false, Bool.or_eq_true, hf]
        have hb := hb.1 (by simp [h0])
        constructor
        · rintro (h | h)
          · exact .inl h
          · exact .inr ⟨h, hb⟩
        · rintro (h | h)
          · exact .inl h
          · exact .inr h.1
      · simp only [h0, not_false_eq_true, if_true, Bool.false_eq_true, false_iff]
        have hb : ¬ ∃ w e, t = w ++ e ∧ p.re.Acc 0 w e := fun h => h0 (by simpa using hb.2 h)
        rintro (h | h)
        · exact hb (hw h)
        · exact hb h.2

theorem matchesPossible_iff (t : Str) (ht : ∀ u ∈ t, isDig u = true) (d : Option Desc) :
    matchesPossibleAndNational t d = true ↔ ShortMatches t d := by
  unfold ShortMatches
  cases d with
  | none => simp [matchesPossibleAndNational]
  | some d =>
    simp only [matchesPossibleAndNational, blen_digits ht, Option.some.injEq]
    by_cases hl : d.lengths ≠ [] ∧ (t.length : Int) ∉ d.lengths
    · rw [if_pos hl]
      simp only [Bool.false_eq_true, false_iff]
      rintro ⟨x, p, rfl, h1 | h1, _⟩
      · exact hl.1 h1
      · exact hl.2 h1
    · rw [if_neg hl, matchNational_iff]
      have hl' : d.lengths = [] ∨ (t.length : Int) ∈ d.lengths := by
        by_cases h : d.lengths = []
        · exact .inl h
        · exact .inr (Decidable.by_contra fun h2 => hl ⟨h, h2⟩)
      simp only [Bool.false_eq_true, false_and, or_false, ShortWhole]
      constructor
      · rintro ⟨p, h1, h2, h3⟩; exact ⟨d, p, rfl, hl', h1, h2, h3⟩
      · rintro ⟨x, p, rfl, _, h1, h2, h3⟩; exact ⟨p, h1, h2, h3⟩

theorem shortMeta_mem {S : ShortMap} {r : Str} {m : Metadata} (h : shortMeta S r = some m) : (r, m) ∈ S := mapGet_mem h

theorem memInt_iff (x : Nat) (l : List Int) : memInt x l = true ↔ (x : Int) ∈ l := by
  induction l with
  | nil => simp [memInt]
  | cons y t ih =>
    cases y with
    | ofNat y =>
      simp only [memInt]
      cases h : Nat.beq x y with
      | true => have := Nat.eq_of_beq_eq_true h; subst this; simp
      | false =>
        have := Nat.ne_of_beq_eq_false h
        have h2 : ¬ (x : Int) = (y : Int) := by omega
        simp [ih, h2]
    | negSucc y =>
      have h2 : ¬ (x : Int) = Int.negSucc y := by omega
      simp [memInt, ih, h2]

/-- A short code of a well-formed entry has a length of the general description. -/
theorem shortCode_length {m : Metadata} (h1 : shortGeneralOk m = true) (h2 : shortCodeLengthsOk m = true) {t : Str}
    (h : ShortMatches t m.shortCode) : ∃ g, m.general = some g ∧ (t.length : Int) ∈ g.lengths := by
  obtain ⟨c, p, hc, hl, hp, _, ha⟩ := h
  cases hg : m.general with
  | none => simp [shortGeneralOk, hg] at h1
  | some g =>
    refine ⟨g, rfl, ?_⟩
    simp only [shortCodeLengthsOk, hg, hc, hp, Option.getD_some] at h2
    cases hlens : p.re.lens with
    | none => simp [hlens] at h2
    | some l =>
      simp only [hlens, List.all_eq_true, Bool.or_eq_true] at h2
      rcases h2 _ (lens_acc p.re l hlens _ _ _ ha) with h | h
      · exact (memInt_iff _ _).1 h
      · cases hcl : c.lengths with
        | nil => simp [hcl] at h
        | cons a b =>
          rw [hcl] at h hl
          simp only [Bool.not_eq_true'] at h
          rcases hl with hl | hl
          · cases hl
          · rw [(memInt_iff _ _).2 hl] at h; cases h

theorem Data.wf_shortGeneral : Data.shortMap.all (fun e => shortGeneralOk e.2) = true := by kernel_rfl
theorem Data.wf_shortCodeLengths : Data.shortMap.all (fun e => shortCodeLengthsOk e.2) = true := by kernel_rfl

theorem hasPossibleLength_ok {m : Metadata} (h : shortGeneralOk m = true) (len : Nat) :
    ∃ g, m.general = some g ∧ hasPossibleLength m.general len = .ok (decide ((len : Int) ∈ g.lengths)) := by
  cases hg : m.general with
  | none => simp [shortGeneralOk, hg] at h
  | some g => exact ⟨g, rfl, rfl⟩

end Verif
