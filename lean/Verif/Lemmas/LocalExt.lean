import Verif.Lemmas.ExtFind
import Verif.Lemmas.LocalFind
import Verif.Spec.Mixed
/-!
# Numbers as written within a country, with an extension
-/
namespace Verif
open Spec

/-- The characters of a piece of text that is no date or list and has no brackets but parentheses. -/
def LocalChar (u : Nat) : Prop := u < 65280 ∧ u ∉ [47, 91, 92, 93]

theorem paired_brackets {s : Str} (hne : s ≠ []) (hmem : ∀ u ∈ s, LocalChar u) (hp : Paired s) : matchingBrackets.isMatch s = true := by
  refine (isMatch_iff _ _).2 ⟨[], s, [], by simp, ?_⟩
  have non : ∀ (c : Cls), c = ⟨true, [(40, 40), (91, 91), (65288, 65288), (65339, 65339), (41, 41), (93, 93), (65289, 65289), (65341, 65341)], []⟩ →
      ∀ u, LocalChar u → u ≠ 40 → u ≠ 41 → c.mem u = true := by
    rintro c rfl u ⟨hx, hy⟩ h1 h2
    have e : rune u = u := Props.rune_of_lt (by simp [badBase]; omega)
    simp only [List.mem_cons, List.not_mem_nil, or_false] at hy
    simp only [Cls.mem, Cls.has, e, inRanges_cons_self, show ∀ c, inRanges [] c = false from fun _ => rfl]
    simp
    omega
  rcases hp with ⟨h1, h2⟩ | ⟨x, y, z, rfl, hxyz, -, hy, hz⟩
  · refine ⟨[], s, rfl, ⟨rfl, rfl⟩, [], s, rfl, acc_opt.2 (.inl rfl), [], s, rfl, acc_opt.2 (.inl rfl), s, [], by simp, ?_, [], [], rfl,
      ⟨0, by simp, by simp, rfl⟩, [], [], rfl, acc_star_cls.2 (by simp), rfl, rfl⟩
    exact acc_plus_cls.2 ⟨hne, fun u hu => non _ rfl u (hmem u hu) (by rintro rfl; exact h1 hu) (by rintro rfl; exact h2 hu)⟩
  · have nx : ∀ u ∈ x, Cls.mem ⟨true, [(40, 40), (91, 91), (65288, 65288), (65339, 65339), (41, 41), (93, 93), (65289, 65289), (65341, 65341)], []⟩ u = true :=
      fun u hu => non _ rfl u (hmem u (by simp [hu])) (hxyz u (by simp [hu])).1 (hxyz u (by simp [hu])).2
    have ny : ∀ u ∈ y, Cls.mem ⟨true, [(40, 40), (91, 91), (65288, 65288), (65339, 65339), (41, 41), (93, 93), (65289, 65289), (65341, 65341)], []⟩ u = true :=
      fun u hu => non _ rfl u (hmem u (by simp [hu])) (hxyz u (by simp [hu])).1 (hxyz u (by simp [hu])).2
    have nz : ∀ u ∈ z, Cls.mem ⟨true, [(40, 40), (91, 91), (65288, 65288), (65339, 65339), (41, 41), (93, 93), (65289, 65289), (65341, 65341)], []⟩ u = true :=
      fun u hu => non _ rfl u (hmem u (by simp [hu])) (hxyz u (by simp [hu])).1 (hxyz u (by simp [hu])).2
    by_cases hx : x = []
    · subst hx
      refine ⟨[], _, rfl, ⟨rfl, rfl⟩, [40], y ++ 41 :: z, rfl, acc_opt.2 (.inr ⟨40, rfl, by decide⟩), y ++ [41], z, by simp,
        acc_opt.2 (.inr ⟨y, [41], rfl, acc_plus_cls.2 ⟨hy, ny⟩, 41, rfl, by decide⟩), z, [], by simp, acc_plus_cls.2 ⟨hz, nz⟩, [], [], rfl,
        ⟨0, by simp, by simp, rfl⟩, [], [], rfl, acc_star_cls.2 (by simp), rfl, rfl⟩
    · refine ⟨[], _, rfl, ⟨rfl, rfl⟩, [], _, rfl, acc_opt.2 (.inl rfl), [], _, rfl, acc_opt.2 (.inl rfl), x, 40 :: (y ++ 41 :: z), rfl,
        acc_plus_cls.2 ⟨hx, nx⟩, 40 :: (y ++ [41]), z, by simp, ⟨1, by simp, by simp, ?_⟩, z, [], by simp, acc_star_cls.2 nz, rfl, rfl⟩
      exact ⟨_, [], by simp, ⟨[40], y ++ [41], rfl, ⟨40, rfl, by decide⟩, y, [41], rfl, acc_plus_cls.2 ⟨hy, ny⟩, 41, rfl, by decide⟩, rfl⟩

theorem paired_pages {s : Str} (hp : Paired s) : pubPages.isMatch s = false := by
  cases h : pubPages.isMatch s with
  | false => rfl
  | true =>
    exfalso
    obtain ⟨a, w, e, h1, h2⟩ := (isMatch_iff _ _).1 h
    obtain ⟨w1, w', rfl, -, w2, w'', rfl, h3, w3, w3', rfl, -, w4, w4', rfl, -, w5, w6, rfl, ⟨c, rfl, hc⟩, -⟩ := h2
    obtain ⟨h3', h4⟩ := acc_plus_cls.1 h3
    have hc := (litCls_mem 40 (by decide) c).1 hc
    subst hc
    have h45 : 45 ∈ w2 := by
      cases w2 with
      | nil => exact absurd rfl h3'
      | cons v t => have := (litCls_mem 45 (by decide) v).1 (h4 v (by simp)); subst this; simp
    rcases hp with ⟨h5, -⟩ | ⟨x, y, z, hs, hxyz, hx, -, -⟩
    · exact h5 (by rw [h1]; simp)
    · have hs' : (a ++ (w1 ++ (w2 ++ (w3 ++ w4)))) ++ 40 :: (w6 ++ e) = x ++ 40 :: (y ++ 41 :: z) := by
        rw [show x ++ 40 :: (y ++ 41 :: z) = s from hs.symm, h1]; simp
      have h40 : ∀ u ∈ x ++ y ++ z, u ≠ 40 := fun u hu => (hxyz u hu).1
      rcases List.append_eq_append_iff.1 hs' with ⟨t, ht1, ht2⟩ | ⟨t, ht1, ht2⟩
      · exact hx (by rw [ht1]; simp; exact .inr (.inr (.inl h45)))
      · cases t with
        | nil => exact hx (by rw [List.append_nil] at ht1; rw [← ht1]; simp; exact .inr (.inr (.inl h45)))
        | cons v t =>
          have ht2 := (List.cons.inj ht2).2
          have : 40 ∈ y ++ 41 :: z := by rw [ht2]; simp
          rcases List.mem_append.1 this with h | h
          · exact h40 40 (by simp [h]) rfl
          · rcases List.mem_cons.1 h with h | h
            · cases h
            · exact h40 40 (by simp [h]) rfl

theorem localChar_date {s : Str} (hs : ∀ u ∈ s, LocalChar u) : slashSeparatedDates.isMatch s = false := by
  refine no_match_must (P := fun c => decide (c = ⟨false, [(47, 47)], []⟩)) (by decide +kernel) fun u hu c hc => ?_
  have : c = ⟨false, [(47, 47)], []⟩ := by simpa using hc
  have hx := (hs u hu).2
  cases hm : c.mem u with
  | false => rfl
  | true => rw [this] at hm; have := (litCls_mem 47 (by decide) u).1 hm; simp [this] at hx

theorem localChar_trim {s : Str} (hs : ∀ u ∈ s, LocalChar u) : trimAfterFirstMatch secondNumberStartPattern s = s := by
  unfold trimAfterFirstMatch
  split
  · rename_i x hx
    obtain ⟨a, w, e, h1, _, _, h4, _⟩ := findFrom_sound hx
    have hl : secondNumberStartPattern.minLen ≤ w.length := minLen_acc _ _ _ _ h4
    cases w with
    | nil => exact absurd hl (by decide)
    | cons u w =>
      have h5 := (hs u (by rw [h1]; simp)).2
      have := Finder.second_start (canStart_acc h4)
      simp only [List.mem_cons, List.not_mem_nil, or_false] at h5
      omega
  · rfl

theorem localExt_tail {x : Str × Nat} (hx : x ∈ extensionLabels) {ext : Str} (he : ∀ u ∈ ext, isDig u = true) : ∀ u ∈ x.1 ++ ext, PieceChar u := by
  have hok := List.all_eq_true.1 labels_ok x hx
  simp only [labelOk, Bool.and_eq_true, List.all_eq_true, Bool.not_eq_true', Nat.ble_eq, Bool.or_eq_true, List.isEmpty_eq_false_iff,
    List.any_eq_true, Nat.blt_eq] at hok
  intro u hu
  rcases List.mem_append.1 hu with h | h
  · obtain ⟨⟨-, k1⟩, k2⟩ := hok.1.1.1.1 u h
    exact ⟨k1, by simpa using k2⟩
  · have : 48 ≤ u ∧ u ≤ 57 := by simpa [isDig] using he u h
    refine ⟨by omega, ?_⟩
    simp only [List.mem_cons, List.not_mem_nil, or_false]; omega

theorem localExt_chars {lead : Bool} {s ext : Str} (hs : LocalExtension lead s ext) : ∀ u ∈ s, LocalChar u := by
  obtain ⟨w, x, rfl, hw, hx, he1, he2, he3⟩ := hs
  intro u hu
  rcases List.mem_append.1 hu with h | h
  · have := local_small (local_mem hw u h)
    refine ⟨by omega, ?_⟩
    simp only [List.mem_cons, List.not_mem_nil, or_false]; omega
  · obtain ⟨k1, k2⟩ := localExt_tail hx he3 u h
    simp only [List.mem_cons, List.not_mem_nil, or_false] at k2
    refine ⟨k1, ?_⟩
    simp only [List.mem_cons, List.not_mem_nil, or_false]; omega

theorem paired_append {s t : Str} (hs : Paired s) (ht : ∀ u ∈ t, u ≠ 40 ∧ u ≠ 41) : Paired (s ++ t) := by
  rcases hs with ⟨h1, h2⟩ | ⟨x, y, z, rfl, h1, h2, h3, h4⟩
  · refine .inl ⟨fun h => ?_, fun h => ?_⟩
    · rcases List.mem_append.1 h with h | h
      · exact h1 h
      · exact (ht _ h).1 rfl
    · rcases List.mem_append.1 h with h | h
      · exact h2 h
      · exact (ht _ h).2 rfl
  · refine .inr ⟨x, y, z ++ t, by simp, fun u hu => ?_, h2, h3, by simp [h4]⟩
    rw [← List.append_assoc] at hu
    rcases List.mem_append.1 hu with h | h
    · exact h1 u h
    · exact ht u h

theorem localExt_paired {lead : Bool} {s ext : Str} (hs : LocalExtension lead s ext) : Paired s := by
  obtain ⟨w, x, rfl, ⟨d, l, -, -, -, -, hw⟩, hx, he1, he2, he3⟩ := hs
  refine paired_append hw fun u hu => ?_
  obtain ⟨-, k2⟩ := localExt_tail hx he3 u hu
  simp only [List.mem_cons, List.not_mem_nil, or_false] at k2
  omega

theorem localExt_ne {lead : Bool} {s ext : Str} (hs : LocalExtension lead s ext) : s ≠ [] := by
  obtain ⟨w, x, rfl, -, -, he, -⟩ := hs
  have := List.length_pos_iff.1 he
  simp [this]

namespace Finder

theorem neighbours_localExt {F : Finder} {lead : Bool} {a s b : Str} (ht : F.text = a ++ (s ++ b)) (hs : lead = true → ∃ t, s = 40 :: t)
    (hc : Clear lead a b) : F.neighboursOk s a.length = true := by
  have hst : ∀ u, ¬ Sticky u → (isInvalidPunctuation (rune u) || isLatinLetter (rune u)) = false := fun u h =>
    Bool.eq_false_iff.2 fun h' => h ((Props.sticky_iff u).1 h')
  unfold neighboursOk
  dsimp only
  have e1 : F.text.take a.length = a := by rw [ht, List.take_left]
  have e2 : F.text.drop (a.length + s.length) = b := by
    rw [ht, ← List.append_assoc]
    exact List.drop_left' (by simp)
  rw [e1, e2]
  split
  · rename_i h
    exfalso
    obtain ⟨_, h2, h3⟩ := h
    cases lead with
    | true =>
      have : leadClassPattern.isMatch s = true := by
        obtain ⟨t, rfl⟩ := hs rfl
        refine (isMatch_iff _ _).2 ⟨[], [40], t, rfl, [], [40], rfl, ⟨rfl, rfl⟩, 40, rfl, by decide⟩
      unfold Re.isMatch at this
      cases hf : leadClassPattern.find s with
      | none => rw [hf] at this; cases this
      | some x => rw [hf] at h2; cases h2
    | false =>
      cases hl : a.getLast? with
      | none => rw [hl] at h3; cases h3
      | some u => rw [hl] at h3; simp [hst u (hc.2 rfl u hl)] at h3
  · cases hh : b.head? with
    | none => rfl
    | some u => simp [hst u (hc.1 u hh)]

end Finder
end Verif
