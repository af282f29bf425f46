import Verif.Spec.Regions
import Verif.Lemmas.Valid
import Verif.Lemmas.ShortNumber
import Verif.Regex.Acc
/-!
# Lemmas about the region of a number
-/
namespace Verif
open Spec

/-- Under an entry with all descriptions, having a type means being valid. -/
theorem validUnder_iff {m : Metadata} (h : hasAllDescs m = true) {nsn : Str} (hn : AllDigits nsn) :
    ValidUnder nsn m ↔ ∃ t, numberTypeHelper nsn (some m) = .ok t ∧ t ≠ .unknown := by
  have hd : ∀ u ∈ nsn, isDig u = true := fun u hu => (isDig_iff u).2 (hn u hu)
  constructor
  · rintro ⟨hg, d, hdk, hm⟩
    obtain ⟨t, ht⟩ := numberTypeHelper_ok h hd
    refine ⟨t, ht, ?_⟩
    have hT := (Props.C30_type m h nsn hn t).1 ht
    rintro rfl
    simp only [validKinds, List.mem_append, List.mem_map, List.mem_singleton] at hdk
    generalize hu : NumType.unknown = u at hT
    cases hT with
    | notGeneral h => exact h hg
    | @special _ _ d' _ hg hs _ _ =>
      subst hu
      have : (d', NumType.unknown) ∈ specialKinds m := by rw [hs]; exact List.mem_append_right _ (List.mem_cons_self ..)
      simp [specialKinds] at this
    | both | fixed | mobile => cases hu
    | neither _ hs hf hmob =>
      rcases hdk with (⟨x, hx, rfl⟩ | rfl) | hdk
      · exact hs x hx hm
      · exact hf hm
      · rcases Bool.eq_false_or_eq_true m.sameMobileFixed with hsame | hsame
        · rw [hsame] at hdk; cases hdk
        · rw [hsame] at hdk hmob
          simp only [List.mem_singleton] at hdk
          subst hdk
          rcases hmob with h | h
          · cases h
          · exact h hm
  · rintro ⟨t, ht, hk⟩
    have hT := (Props.C30_type m h nsn hn t).1 ht
    cases hT with
    | notGeneral => exact absurd rfl hk
    | neither => exact absurd rfl hk
    | @special pre post d _ hg hs hd _ =>
      refine ⟨hg, d, ?_, hd⟩
      simp only [validKinds, hs, List.map_append, List.map_cons, List.mem_append, List.mem_cons]
      exact .inl (.inl (.inr (.inl trivial)))
    | both hg _ hf _ => exact ⟨hg, _, by simp [validKinds], hf⟩
    | fixed hg _ hf => exact ⟨hg, _, by simp [validKinds], hf⟩
    | mobile hg _ _ hsame hm => exact ⟨hg, m.mobile, by simp [validKinds, hsame], hm⟩

theorem lengthsImplied_sound {d : Desc} (h : lengthsImplied d = true) {w : Str} (ha : (d.pattern.getD ⟨[], .eps⟩).re.Acc 0 w []) :
    DescMatches w d := by
  refine ⟨?_, ha⟩
  unfold lengthsImplied at h
  cases hl : d.lengths with
  | nil => exact .inl rfl
  | cons a b =>
    right
    simp only [hl] at h
    cases hk : (d.pattern.getD ⟨[], .eps⟩).re.lens with
    | none => simp [hk] at h
    | some k =>
      simp only [hk, List.all_eq_true] at h
      exact (memInt_iff _ _).1 (h _ (lens_acc _ k hk _ _ _ ha))

theorem ofLengths_sound {l : List Int} {w : Str} (h : AccAny (ofLengths l) w) : (w.length : Int) ∈ l := by
  obtain ⟨r, hr, ha⟩ := h
  simp only [ofLengths, List.mem_flatMap] at hr
  obtain ⟨x, hx, hr⟩ := hr
  cases x with
  | negSucc k => cases hr
  | ofNat k =>
    simp only [List.mem_singleton] at hr
    subst hr
    obtain ⟨-, h1, h2⟩ := acc_rep_cls.1 ha
    have := h2 k rfl
    have e : w.length = k := by omega
    rw [e]; exact hx

theorem validPats_sound {m : Metadata} {w : Str} (h : ∀ N ∈ validPats m, AccAny N w) : ValidUnder w m := by
  unfold validPats at h
  cases hg : m.general with
  | none =>
    rw [hg] at h
    obtain ⟨r, hr, -⟩ := h [] (by simp)
    cases hr
  | some g =>
    rw [hg] at h
    have h1 := h [(g.pattern.getD ⟨[], .eps⟩).re] (by simp)
    obtain ⟨r, hr, ha⟩ := h1
    simp only [List.mem_singleton] at hr
    subst hr
    refine ⟨⟨g, hg, ?_⟩, ?_⟩
    · by_cases hi : lengthsImplied g = true
      · exact lengthsImplied_sound hi ha
      · refine ⟨.inr (ofLengths_sound (h _ ?_)), ha⟩
        simp [if_neg hi]
    · obtain ⟨r, hr, ha⟩ := h _ (List.mem_append_right _ (List.mem_singleton.2 rfl))
      obtain ⟨d, hd, hr⟩ := List.mem_flatMap.1 hr
      cases d with
      | none => cases hr
      | some d =>
        simp only at hr
        split at hr
        · rename_i hi
          simp only [List.mem_singleton] at hr
          subst hr
          exact ⟨some d, hd, d, rfl, lengthsImplied_sound hi ha⟩
        · cases hr

theorem descRe_complete {d : Option Desc} {w : Str} (h : Matches w d) : AccAny (descRe d) w := by
  obtain ⟨x, rfl, hl, ha⟩ := h
  unfold descRe
  simp only
  split
  · rename_i k hk
    rcases hl with hl | hl
    · rw [hl] at hk; cases hk
    · rw [hk] at hl
      simp only [List.mem_singleton] at hl
      omega
  · exact ⟨_, List.mem_singleton.2 rfl, ha⟩

theorem andMore_iff {r : Re} {w : Str} (hr : r.noAnchor = true) (hw : ∀ u ∈ w, isDig u = true) :
    AccAny [r.andMore] w ↔ ∃ a e, w = a ++ e ∧ r.Acc 0 a e := by
  constructor
  · rintro ⟨x, hx, ha⟩
    simp only [List.mem_singleton] at hx
    subst hx
    obtain ⟨a, e, rfl, h1, -⟩ := ha
    exact ⟨a, e, rfl, noAnchor_acc hr h1⟩
  · rintro ⟨a, e, rfl, h⟩
    exact ⟨_, List.mem_singleton.2 rfl, a, e, rfl, noAnchor_acc hr h, anyDigits_acc (fun u hu => hw u (by simp [hu])) _ _⟩

/-- The first entry that claims the number has it valid. -/
def GoodClaim (w : Str) : List Metadata → Prop
  | [] => False
  | m :: ms => (Claims w m ∧ ValidUnder w m) ∨ (¬ Claims w m ∧ GoodClaim w ms)

theorem claimedOk_sound {pos neg : List (List Re)} {ms : List Metadata} (h : claimedOk pos neg ms = true)
    (hms : ∀ m ∈ ms, noAnchors m = true) (hA : ∀ P ∈ pos, ∀ r ∈ P, r.noAnchor = true)
    (hB : ∀ N ∈ neg, ∀ r ∈ N, r.noAnchor = true) {w : Str} (hw : ∀ u ∈ w, isDig u = true)
    (hp : ∀ P ∈ pos, AccAny P w) (hn : ∀ N ∈ neg, ¬ AccAny N w) : GoodClaim w ms := by
  induction ms generalizing neg with
  | nil => exact excl_sound h hA hB hw hp hn
  | cons m ms ih =>
    have hm := hms m (by simp)
    have hms' : ∀ m ∈ ms, noAnchors m = true := fun q hq => hms q (List.mem_cons_of_mem _ hq)
    simp only [noAnchors, Bool.and_eq_true] at hm
    obtain ⟨⟨⟨hl, -⟩, hv⟩, -⟩ := hm
    have hvN : ∀ N ∈ validPats m, ∀ r ∈ N, r.noAnchor = true := fun N hN r hr =>
      List.all_eq_true.1 (List.all_eq_true.1 hv N hN) r hr
    have hl1 : ∀ r ∈ [m.leadingDigits.re.andMore], r.noAnchor = true := by
      intro r hr
      simp only [List.mem_singleton] at hr
      subst hr
      simp [Re.andMore, Re.noAnchor, hl, anyDigits]
    have hposl : AccAny [m.leadingDigits.re.andMore] w → ∀ P ∈ [m.leadingDigits.re.andMore] :: pos, AccAny P w := by
      intro h P hP
      rcases List.mem_cons.1 hP with rfl | hP
      · exact h
      · exact hp P hP
    have hAl : ∀ P ∈ [m.leadingDigits.re.andMore] :: pos, ∀ r ∈ P, r.noAnchor = true := by
      intro P hP
      rcases List.mem_cons.1 hP with rfl | hP
      · exact hl1
      · exact hA P hP
    have cons_neg : ∀ {N}, ¬ AccAny N w → ∀ N' ∈ N :: neg, ¬ AccAny N' w := by
      intro N h N' hN
      rcases List.mem_cons.1 hN with rfl | hN
      · exact h
      · exact hn _ hN
    have cons_B : ∀ {N : List Re}, (∀ r ∈ N, r.noAnchor = true) → ∀ N' ∈ N :: neg, ∀ r ∈ N', r.noAnchor = true := by
      intro N h N' hN
      rcases List.mem_cons.1 hN with rfl | hN
      · exact h
      · exact hB _ hN
    have single : ∀ {N : List Re}, excl fuel pos [N] = true → (∀ r ∈ N, r.noAnchor = true) → ¬ AccAny N w → False := by
      intro N he hN hna
      exact excl_sound he hA (by simpa using hN) hw hp (by simpa using hna)
    unfold claimedOk at h
    cases hs : m.leadingDigits.src with
    | cons a b =>
      simp only [hs] at h
      have hc : Claims w m ↔ AccAny [m.leadingDigits.re.andMore] w := by
        rw [andMore_iff hl hw]; simp [Claims, hs]
      by_cases hld : AccAny [m.leadingDigits.re.andMore] w
      · left
        refine ⟨hc.2 hld, ?_⟩
        split at h
        · rename_i he
          exact (excl_sound he hAl (by simp) hw (hposl hld) (by simp)).elim
        · rw [Bool.and_eq_true] at h
          refine Classical.byContradiction fun hnv => ?_
          have : ∃ N ∈ validPats m, ¬ AccAny N w := by
            refine Classical.byContradiction fun hne => hnv (validPats_sound fun N hN => ?_)
            exact Classical.byContradiction fun h => hne ⟨N, hN, h⟩
          obtain ⟨N, hN, hna⟩ := this
          exact excl_sound (List.all_eq_true.1 h.1 N hN) hAl (cons_B (hvN N hN)) hw (hposl hld) (cons_neg hna)
      · right
        refine ⟨fun h => hld (hc.1 h), ?_⟩
        split at h
        · exact ih h hms' hB hn
        · rw [Bool.and_eq_true, Bool.or_eq_true] at h
          rcases h.2 with h | h
          · exact (single h hl1 hld).elim
          · exact ih h hms' (cons_B hl1) (cons_neg hld)
    | nil =>
      simp only [hs] at h
      have hc : Claims w m ↔ ValidUnder w m := by simp [Claims, hs]
      by_cases hvu : ValidUnder w m
      · exact .inl ⟨hc.2 hvu, hvu⟩
      · right
        refine ⟨fun h => hvu (hc.1 h), ?_⟩
        have : ∃ N ∈ validPats m, ¬ AccAny N w := by
          refine Classical.byContradiction fun hne => hvu (validPats_sound fun N hN => ?_)
          exact Classical.byContradiction fun h => hne ⟨N, hN, h⟩
        obtain ⟨N, hN, hna⟩ := this
        have h := List.all_eq_true.1 h N hN
        rw [Bool.or_eq_true] at h
        rcases h with h | h
        · exact (single h (hvN N hN) hna).elim
        · exact ih h hms' (cons_B (hvN N hN)) (cons_neg hna)

theorem sharedOk_sound {ms : List Metadata} (h : sharedOk ms = true) {m : Metadata} (hm : m ∈ ms) {w : Str}
    (hw : ∀ u ∈ w, isDig u = true) (hv : ValidUnder w m) : GoodClaim w ms := by
  simp only [sharedOk, Bool.and_eq_true, List.all_eq_true] at h
  obtain ⟨h1, h2⟩ := h
  obtain ⟨hg, d, hd, hdm⟩ := hv
  have ha := h1 m hm
  simp only [noAnchors, Bool.and_eq_true, List.all_eq_true] at ha
  refine claimedOk_sound (h2 m hm d hd) h1 ?_ (by simp) hw ?_ (by simp)
  · simp only [List.mem_cons, List.not_mem_nil, or_false, forall_eq_or_imp, forall_eq]
    exact ⟨ha.1.1.2, ha.2 d hd⟩
  · simp only [List.mem_cons, List.not_mem_nil, or_false, forall_eq_or_imp, forall_eq]
    exact ⟨descRe_complete hg, descRe_complete hdm⟩

/-- One step of the search through the regions. -/
theorem regionFromList_cons {C : Container} (hd : C.allMeta.all hasAllDescs = true) {nsn : Str} (hn : ∀ u ∈ nsn, isDig u = true)
    {r : Str} {rs : List Str} {m : Metadata} (hm : C.metaForRegion r = some m) :
    (Claims nsn m → regionFromList C nsn (r :: rs) = .ok r) ∧
    (¬ Claims nsn m → regionFromList C nsn (r :: rs) = regionFromList C nsn rs) := by
  have ha := List.all_eq_true.1 hd m (Container.metaForRegion_mem hm)
  have hA : AllDigits nsn := fun u hu => (isDig_iff u).1 (hn u hu)
  obtain ⟨t, ht⟩ := numberTypeHelper_ok ha hn
  simp only [regionFromList, hm, ht, bind, Except.bind, pure, Except.pure]
  cases hs : m.leadingDigits.src with
  | cons a b =>
    have hc : Claims nsn m ↔ m.leadingDigits.re.atStart.isMatch nsn = true := by
      rw [atStart_isMatch_iff]; simp [Claims, hs]
    rw [hc, if_pos (by simp)]
    constructor
    · intro h; rw [if_pos h]
    · intro h; rw [if_neg h]
  | nil =>
    have hc : Claims nsn m ↔ t ≠ .unknown := by
      simp only [Claims, hs, ne_eq, not_true_eq_false, false_and, true_and, false_or, validUnder_iff ha hA, ht, Except.ok.injEq,
        exists_eq_left']
    rw [hc, if_neg (by simp)]
    constructor
    · intro h; rw [if_pos h]
    · intro h; rw [if_neg h]

end Verif
