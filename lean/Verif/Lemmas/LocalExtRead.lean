import Verif.Lemmas.LocalExt
import Verif.Lemmas.LocalShape
/-!
# The national prefix is seen in the digits of a number and its extension
-/
namespace Verif
open Spec

/-- The digits of an extension. -/
def extDigits : Re := .rep (.cls ⟨false, [(48, 57)], []⟩) 1 (some 20) true

/-- The national prefix pattern of `M` accepts the digits the rule `p` writes before a number, and these digits and what follows them
are not a number of `M`: whatever follows, or else for a number of `m` that the rule is for and an extension. -/
def takenWith (M m : Metadata) (p : NumberFormat) : Bool :=
  let b := natDigits p
  let g := (descPat M.general).re
  !M.npParsing.src.isEmpty && M.npParsing.re.alts.any (fun a => a.noAnchor && a.full.isMatch b) && g.noAnchor &&
    (apart 3 [[g], [afterLit b anyDigits]] ||
      ((kindPats m :: ruleLang p).all (·.all (·.noAnchor)) &&
        apart 4 ([g] :: ((kindPats m :: ruleLang p).map fun G => G.map fun r => Re.cat r extDigits).map (·.map (afterLit b)))))

theorem digit_cls {u : Nat} (h : isDig u = true) : Cls.mem ⟨false, [(48, 57)], []⟩ u = true := by
  have h1 : 48 ≤ u ∧ u ≤ 57 := by simpa [isDig] using h
  have e : rune u = u := Props.rune_of_lt (by simp [badBase]; omega)
  simp [Cls.mem, Cls.has, inRanges, e, h1]

theorem takenWith_sound {M m : Metadata} {p : NumberFormat} {nsn ext : Str} (h : takenWith M m p = true) (hne : nsn ≠ [])
    (hd : ∀ u ∈ nsn, isDig u = true) (hk : OfKind m nsn) (hr : ∀ G ∈ ruleLang p, AccAny G nsn)
    (he1 : 1 ≤ ext.length) (he2 : ext.length ≤ 20) (he3 : ∀ u ∈ ext, isDig u = true) :
    (stripNationalPrefix (natDigits p ++ (nsn ++ ext)) M).1 = true := by
  simp only [takenWith, Bool.and_eq_true, Bool.not_eq_true', List.isEmpty_eq_false_iff, List.all_eq_true] at h
  obtain ⟨⟨⟨h1, h2⟩, h3⟩, h5⟩ := h
  have hb : ∀ u ∈ natDigits p, isDig u = true := fun u hu => (List.mem_filter.1 hu).2
  have hd2 : ∀ u ∈ nsn ++ ext, isDig u = true := by
    intro u hu
    rcases List.mem_append.1 hu with hu | hu
    · exact hd u hu
    · exact he3 u hu
  obtain ⟨a, ha, h2⟩ := List.any_eq_true.1 h2
  rw [Bool.and_eq_true] at h2
  have hacc : M.npParsing.re.atStart.Acc (0 + ([] : Str).length) (natDigits p) (nsn ++ ext) :=
    ⟨[], natDigits p, rfl, ⟨rfl, rfl⟩, acc_of_alts ha (noAnchor_acc h2.1 ((full_isMatch_iff _ _).1 h2.2))⟩
  have hall : ∀ u ∈ natDigits p ++ (nsn ++ ext), isDig u = true := by
    intro u hu
    rcases List.mem_append.1 hu with hu | hu
    · exact hb u hu
    · exact hd2 u hu
  have hgen : (descPat M.general).re.full.isMatch (natDigits p ++ (nsn ++ ext)) = false := by
    rw [Bool.eq_false_iff]
    intro hg
    rw [Bool.or_eq_true] at h5
    rcases h5 with h5 | h5
    · have hk' := afterLit_any hb (Gs := [[anyDigits]]) (w := nsn ++ ext) (fun G hG => by
        rw [List.mem_singleton] at hG; subst hG
        exact ⟨fun r hr => by rw [List.mem_singleton] at hr; subst hr; decide, _, by simp, anyDigits_acc hd2 0 []⟩)
      refine apart_sound h5 (w := natDigits p ++ (nsn ++ ext)) ?_ hall ?_
      · intro G hG
        rcases List.mem_cons.1 hG with rfl | hG
        · intro r hr; rw [List.mem_singleton] at hr; subst hr; exact h3
        · exact (hk' G (by simpa using hG)).1
      · intro G hG
        rcases List.mem_cons.1 hG with rfl | hG
        · exact ⟨_, by simp, (full_isMatch_iff _ _).1 hg⟩
        · exact (hk' G (by simpa using hG)).2
    · simp only [Bool.and_eq_true] at h5
      obtain ⟨h4, h5⟩ := h5
      have h4 : ∀ G ∈ kindPats m :: ruleLang p, ∀ r ∈ G, r.noAnchor = true := by
        intro G hG r hr
        exact List.all_eq_true.1 (List.all_eq_true.1 h4 G hG) r hr
      have hk' := afterLit_any hb (Gs := (kindPats m :: ruleLang p).map fun G => G.map fun r => Re.cat r extDigits) (w := nsn ++ ext) (fun G hG => by
        obtain ⟨G0, hG0, rfl⟩ := List.mem_map.1 hG
        have hacc0 : AccAny G0 nsn := by
          rcases List.mem_cons.1 hG0 with rfl | h
          · exact ofKind_acc hk
          · exact hr G0 h
        obtain ⟨r, hr1, hr2⟩ := hacc0
        refine ⟨fun r' hr' => ?_, _, List.mem_map_of_mem hr1, nsn, ext, rfl, noAnchor_acc (h4 _ hG0 r hr1) hr2, ?_⟩
        · obtain ⟨r0, hr0, rfl⟩ := List.mem_map.1 hr'
          have := h4 _ hG0 r0 hr0
          simp only [Re.noAnchor, Bool.and_eq_true]
          exact ⟨this, by decide⟩
        · exact acc_rep_cls.2 ⟨fun u hu => digit_cls (he3 u hu), he1, fun k hk => by cases hk; exact he2⟩)
      refine apart_sound h5 (w := natDigits p ++ (nsn ++ ext)) ?_ hall ?_
      · intro G hG
        rcases List.mem_cons.1 hG with rfl | hG
        · intro r hr; rw [List.mem_singleton] at hr; subst hr; exact h3
        · exact (hk' G hG).1
      · intro G hG
        rcases List.mem_cons.1 hG with rfl | hG
        · exact ⟨_, by simp, (full_isMatch_iff _ _).1 hg⟩
        · exact (hk' G hG).2
  unfold stripNationalPrefix
  rw [if_neg (by simp [hne, h1])]
  cases hf : M.npParsing.re.atStart.find (natDigits p ++ (nsn ++ ext)) with
  | none => exact absurd hacc (findFrom_none hf [] (natDigits p) (nsn ++ ext) (by simp))
  | some x =>
    simp only [hgen, Bool.false_eq_true, false_and, if_false]
    split <;> rfl

/-- The check on the rules of the main region of every code, with all its regions but the `natUnsettled`. -/
def localsExtOk (C : Container) : Bool :=
  C.ccToRegion.all fun e => match e.2 with
    | [] => true
    | r0 :: _ => match mapGet C.regionMeta r0 with
      | none => true
      | some M => e.2.all fun r => decide (r ∈ natUnsettled) || match mapGet C.regionMeta r with
        | none => true
        | some m => M.formats.all fun p => !asksPrefix p || takenWith M m p

end Verif
