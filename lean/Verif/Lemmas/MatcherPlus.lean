import Verif.Lemmas.MatcherFind
import Verif.Lemmas.MatcherTotal
import Verif.Props.C10
/-!
# The search accepts a number in international digits at every leniency
-/
namespace Verif
open Spec

/-! ## Positions -/

theorem indexOf_nil (s : Str) : indexOf s [] = some 0 := by unfold indexOf; rw [if_pos (by cases s <;> rfl)]

theorem indexOf_append_left (a b : Str) : indexOf (a ++ b) a = some 0 := by
  unfold indexOf
  rw [if_pos (List.isPrefixOf_iff_prefix.2 (List.prefix_append a b))]

theorem indexOf_char {x y : Str} {c : Nat} (h : c ∉ x) : indexOf (x ++ c :: y) [c] = some x.length := by
  induction x with
  | nil => exact indexOf_append_left [c] y
  | cons u x ih =>
    unfold indexOf
    rw [if_neg (by
      intro hp
      simp [List.isPrefixOf] at hp
      exact h (by simp [hp]))]
    rw [List.cons_append]
    dsimp only
    rw [ih (fun hm => h (by simp [hm]))]
    rfl

theorem indexOf_char_none {x : Str} {c : Nat} (h : c ∉ x) : indexOf x [c] = none := indexOf_none_of_head x c [] h

theorem contains_append_right (a b : Str) : contains (a ++ b) b = true := by
  unfold contains
  cases hi : indexOf (a ++ b) b with
  | some i => rfl
  | none =>
    have := indexOf_none hi a.length
    rw [List.drop_left, List.isPrefixOf_iff_prefix.2 (List.prefix_refl b)] at this
    cases this

/-! ## Hyphens -/

theorem splitHyphens_append {g : Str} (h : 45 ∉ g) (s : Str) : splitHyphens (g ++ 45 :: s) = g :: splitHyphens s := by
  induction g with
  | nil => simp [splitHyphens]
  | cons u g ih =>
    rw [List.cons_append, splitHyphens, if_neg (by rintro rfl; simp at h), ih (fun hm => h (by simp [hm]))]

theorem splitHyphens_one {g : Str} (h : 45 ∉ g) : splitHyphens g = [g] := by
  induction g with
  | nil => rfl
  | cons u g ih => rw [splitHyphens, if_neg (by rintro rfl; simp at h), ih (fun hm => h (by simp [hm]))]

theorem splitHyphens_intercalate {gs : List Str} (h0 : gs ≠ []) (h : ∀ g ∈ gs, 45 ∉ g) : splitHyphens (List.intercalate [45] gs) = gs := by
  induction gs with
  | nil => exact absurd rfl h0
  | cons g gs ih =>
    cases gs with
    | nil =>
      simp only [List.intercalate, List.intersperse, List.flatten_cons, List.flatten_nil, List.append_nil]
      exact splitHyphens_one (h g (by simp))
    | cons g' gs =>
      have e : List.intercalate [45] (g :: g' :: gs) = g ++ 45 :: List.intercalate [45] (g' :: gs) := by
        simp [List.intercalate, List.intersperse]
      rw [e, splitHyphens_append (h g (by simp)), ih (by simp) (fun x hx => h x (by simp [hx]))]

theorem mem_intercalate_hyphen {u : Nat} {gs : List Str} (h : u ∈ List.intercalate [45] gs) : u = 45 ∨ ∃ g ∈ gs, u ∈ g := by
  induction gs with
  | nil => simp [List.intercalate] at h
  | cons g gs ih =>
    cases gs with
    | nil =>
      simp only [List.intercalate, List.intersperse, List.flatten_cons, List.flatten_nil, List.append_nil] at h
      exact .inr ⟨g, by simp, h⟩
    | cons g' gs =>
      have e : List.intercalate [45] (g :: g' :: gs) = g ++ 45 :: List.intercalate [45] (g' :: gs) := by
        simp [List.intercalate, List.intersperse]
      rw [e] at h
      rcases List.mem_append.1 h with h | h
      · exact .inr ⟨g, by simp, h⟩
      · rcases List.mem_cons.1 h with h | h
        · exact .inl h
        · rcases ih h with h | ⟨x, hx, h⟩
          · exact .inl h
          · exact .inr ⟨x, by simp [hx], h⟩

/-- The groups of the RFC3966 form. -/
theorem nationalGroups_shipped (n : PhoneNumber) (hcc : Data.container.hasCC n.cc = true) (hraw : ¬ (n.nn = 0 ∧ n.raw ≠ []))
    (hx : n.ext = []) : ∃ gs, nationalGroups Data.container n = .ok gs ∧ gs ≠ [] ∧ gs.flatten = nsnOf n := by
  obtain ⟨body, hf, gs, h1, h2, h3, h4⟩ := Props.C17_shipped n hcc hraw
  have hdig : ∀ g ∈ gs, ∀ u ∈ g, isDig u = true := fun g hg u hu => nsnOf_isDig n u (by rw [← h3]; exact List.mem_flatten.2 ⟨g, hg, hu⟩)
  have hh : ∀ g ∈ gs, 45 ∉ g := fun g hg hm => by have := hdig g hg _ hm; revert this; decide
  have hb : ∀ u ∈ body, isDig u = true ∨ u = 45 := by
    intro u hu
    rw [h4] at hu
    rcases mem_intercalate_hyphen hu with h | ⟨g, hg, h⟩
    · exact .inr h
    · exact .inl (hdig g hg u h)
  have hpre : ∀ u ∈ str!"tel:+" ++ decimal n.cc.toNat, u ≠ 45 ∧ u ≠ 59 := by
    intro u hu
    rcases List.mem_append.1 hu with hu | hu
    · have : ∀ v ∈ str!"tel:+", v ≠ 45 ∧ v ≠ 59 := by decide
      exact this u hu
    · rw [← dec_eq_decimal] at hu
      have := dec_digits _ _ hu
      constructor <;> rintro rfl <;> revert this <;> decide
  refine ⟨gs, ?_, h1, h3⟩
  unfold nationalGroups
  have hxx : n.extension.getD [] = [] := hx
  rw [hf, hxx]
  simp only [if_true, List.append_nil]
  have e1 : indexOf (str!"tel:+" ++ decimal n.cc.toNat ++ str!"-" ++ body) [45] = some (str!"tel:+" ++ decimal n.cc.toNat).length := by
    rw [List.append_assoc]
    exact indexOf_char (fun hm => (hpre _ hm).1 rfl)
  have e2 : indexOf (str!"tel:+" ++ decimal n.cc.toNat ++ str!"-" ++ body) [59] = none := by
    refine indexOf_char_none ?_
    intro hm
    rcases List.mem_append.1 hm with hm | hm
    · rcases List.mem_append.1 hm with hm | hm
      · exact (hpre _ hm).2 rfl
      · revert hm; decide
    · rcases hb _ hm with h | h
      · revert h; decide
      · cases h
  rw [e1, e2]
  simp only [Option.map_some, Option.getD_some, Option.getD_none]
  rw [goSlice_of_le (by simp only [List.length_append]; have : (str!"-").length = 1 := rfl; omega) (Nat.le_refl _)]
  have e3 : slice (str!"tel:+" ++ decimal n.cc.toNat ++ str!"-" ++ body) ((str!"tel:+" ++ decimal n.cc.toNat).length + 1)
      (str!"tel:+" ++ decimal n.cc.toNat ++ str!"-" ++ body).length = body := by
    unfold slice
    have : (str!"tel:+" ++ decimal n.cc.toNat).length + 1 = (str!"tel:+" ++ decimal n.cc.toNat ++ str!"-").length := by
      rw [List.length_append (as := str!"tel:+" ++ decimal n.cc.toNat)]; rfl
    rw [this, List.drop_left, List.length_append, Nat.add_sub_cancel_left, List.take_length]
  rw [e3, h4]
  have := splitHyphens_intercalate h1 hh
  simp only [bind, Except.bind, pure, Except.pure]
  exact congrArg _ this

/-! ## Grouping -/

theorem groupedLoop_later {C : Container} {n : PhoneNumber} (hx : n.ext = []) (gs : List Str) :
    groupedLoop C n false gs gs.flatten = true := by
  induction gs with
  | nil => unfold groupedLoop contains; rw [hx, indexOf_nil]; rfl
  | cons g gs ih =>
    unfold groupedLoop
    rw [List.flatten_cons, indexOf_append_left]
    dsimp only
    rw [if_neg (by simp), Nat.zero_add, List.drop_left]
    exact ih

theorem groupedLoop_first {C : Container} {n : PhoneNumber} (hx : n.ext = []) {gs : List Str} (hg : gs ≠ []) (h : gs.flatten = nsnOf n) :
    groupedLoop C n true gs (nsnOf n) = true := by
  cases gs with
  | nil => exact absurd rfl hg
  | cons g gs =>
    unfold groupedLoop
    rw [← h, List.flatten_cons, indexOf_append_left]
    dsimp only
    split
    · rw [List.drop_zero]
      exact List.isPrefixOf_iff_prefix.2 (List.prefix_refl _)
    · rw [Nat.zero_add, List.drop_left]
      exact groupedLoop_later hx gs

theorem normalizeDigits_plus {d : Str} (h : ∀ u ∈ d, isDig u = true) : normalizeDigits true (43 :: d) = 43 :: d := by
  have e : ∀ {d : Str}, (∀ u ∈ d, isDig u = true) → normalizeDigits true d = d := by
    intro d h
    induction d with
    | nil => rfl
    | cons u d ih =>
      have := ih (fun v hv => h v (by simp [hv]))
      unfold normalizeDigits at this ⊢
      rw [List.flatMap_cons, rune_of_isDig (h u (by simp)), charDigit_of_isDig (h u (by simp)), this]
      rfl
  have := e h
  unfold normalizeDigits at this ⊢
  rw [List.flatMap_cons, this]
  rfl

theorem groupsRemain_plus {C : Container} {n : PhoneNumber} {c : Str} (hs : n.src ≠ .defaultCountry) (hc : decInt n.cc = c) (hc0 : c ≠ [])
    (hcd : ∀ u ∈ c, isDig u = true) (hx : n.ext = []) {gs : List Str} (hg : gs ≠ []) (h : gs.flatten = nsnOf n) :
    groupsRemainGrouped C n (43 :: (c ++ nsnOf n)) gs = .ok true := by
  have e : indexOf (43 :: (c ++ nsnOf n)) c = some 1 := by
    unfold indexOf
    rw [if_neg (by
      cases c with
      | nil => exact absurd rfl hc0
      | cons u c =>
        intro hp
        simp only [List.isPrefixOf, Bool.and_eq_true, beq_iff_eq] at hp
        have := hcd u (by simp)
        rw [hp.1] at this
        revert this; decide)]
    dsimp only
    rw [indexOf_append_left]
    rfl
  unfold groupsRemainGrouped
  rw [if_pos hs, hc, e]
  dsimp only
  have : (43 :: (c ++ nsnOf n)).drop (1 + c.length) = nsnOf n := by
    rw [Nat.add_comm, List.drop_succ_cons, List.drop_left]
  rw [this]
  simp only [bind, Except.bind, pure, Except.pure, groupedLoop_first hx hg h]

theorem splitNonDigits_plus {d : Str} (hd : ∀ u ∈ d, isDig u = true) (h0 : d ≠ []) : splitNonDigits (43 :: d) = [[], d] := by
  have hnd : ∀ u, isDig u = true → (⟨true, [(48, 57)], []⟩ : Cls).mem u = false := by
    intro u hu
    have h1 : 48 ≤ u ∧ u ≤ 57 := by simpa [isDig] using hu
    simp [Cls.mem, Cls.has, inRanges, rune_of_isDig hu, h1.1, h1.2]
  have hst : Stops ⟨true, [(48, 57)], []⟩ d := by
    intro u h
    cases d with
    | nil => cases h
    | cons v d => cases h; exact hnd u (hd u (by simp))
  have f1 : nonDigitsPattern.matchAt 0 (43 :: d) = some ⟨0, 1, [(1, 0, 1)]⟩ := by
    rw [matchAt_eq]
    have : ((Re.rep (.cls ⟨true, [(48, 57)], []⟩) 1 none true).runs ⟨0, 43 :: d, []⟩).head? = some ⟨1, d, []⟩ := by
      refine head?_flatMap (x := ⟨1, d, []⟩) (head?_flatMap (x := ⟨1, d, []⟩) rfl rfl) ?_
      exact optL_stop (runs_cls_stop hst)
    have e : nonDigitsPattern = .grp 1 (.rep (.cls ⟨true, [(48, 57)], []⟩) 1 none true) := rfl
    rw [e, Re.runs, List.head?_map, this]
    rfl
  have f2 : nonDigitsPattern.findFrom 1 d = none := by
    cases hf : nonDigitsPattern.findFrom 1 d with
    | none => rfl
    | some x =>
      obtain ⟨a, w, e, h1, _, _, h4, _⟩ := findFrom_sound hf
      have e : nonDigitsPattern = .grp 1 (.rep (.cls ⟨true, [(48, 57)], []⟩) 1 none true) := rfl
      rw [e] at h4
      obtain ⟨h5, h6⟩ := acc_plus_cls.1 (acc_grp.1 h4)
      cases w with
      | nil => exact absurd rfl h5
      | cons u w =>
        have := h6 u (by simp)
        rw [hnd u (hd u (by rw [h1]; simp))] at this
        cases this
  have f3 : nonDigitsPattern.findAll (43 :: d) = [⟨0, 1, [(1, 0, 1)]⟩] := by
    unfold Re.findAll
    rw [show (43 :: d).length + 2 = (d.length + 1) + 1 + 1 by simp]
    unfold findAllLoop
    rw [if_neg (by omega), List.drop_zero, Re.findFrom, f1]
    dsimp only
    rw [if_neg (by decide)]
    unfold findAllLoop
    rw [if_neg (by simp), List.drop_succ_cons, List.drop_zero, f2]
  unfold splitNonDigits Re.split
  rw [if_neg (by simp), f3]
  have hl : 0 ≠ (43 :: d).length := by simp
  simp only [splitLoop, ne_eq, Nat.one_ne_zero, not_false_eq_true, if_true, hl, List.drop_succ_cons, List.drop_zero]
  have : slice (43 :: d) 0 0 = [] := by simp [slice]
  rw [this]
  simp [h0]

theorem groupsExact_plus {n : PhoneNumber} {c : Str} (hcd : ∀ u ∈ c, isDig u = true) (hx : n.ext = []) (gs : List Str) :
    groupsExactlyPresent n (43 :: (c ++ nsnOf n)) gs = .ok true := by
  have hd : ∀ u ∈ c ++ nsnOf n, isDig u = true := by
    intro u hu
    rcases List.mem_append.1 hu with h | h
    · exact hcd u h
    · exact nsnOf_isDig n u h
  have h0 : c ++ nsnOf n ≠ [] := by
    rw [Props.nsnOf_eq]; simp [dec_ne_nil]
  unfold groupsExactlyPresent
  rw [splitNonDigits_plus hd h0]
  simp only [hx, ne_eq, not_true_eq_false, if_false]
  rw [if_neg (by simp)]
  simp only [List.reverse_cons, List.reverse_nil, List.nil_append, List.cons_append]
  rw [if_pos (contains_append_right c (nsnOf n))]

/-! ## All levels -/

theorem onlyValidX_digits {C : Container} {n : PhoneNumber} {s : Str} (h : ∀ u ∈ s, isX u = false) : onlyValidX C n s = .ok true := by
  induction s with
  | nil => rfl
  | cons u s ih =>
    have ih := ih (fun v hv => h v (by simp [hv]))
    cases s with
    | nil => rfl
    | cons v t =>
      unfold onlyValidX
      rw [h u (by simp)]
      exact ih

/-- A valid number that was read from its digits after a plus sign is accepted at every leniency. -/
theorem verify_plus (l : Leniency) (alt : List Metadata) (n : PhoneNumber) (hv : isValidNumber Data.container n = .ok true)
    (hs : n.src = .withPlusSign) (hx : n.ext = []) (hraw : ¬ (n.nn = 0 ∧ n.raw ≠ [])) :
    l.verify Data.container alt n (43 :: (decimal n.cc.toNat ++ nsnOf n)) = .ok true := by
  obtain ⟨r, m', hr, _, _⟩ := Props.valid_matches built_shipped Data.wf_tables Data.wf_allDescs n hv
  have hcc := regionsOf_hasCC hr
  have h0 : 0 ≤ n.cc := by have := (Props.prefixFree_spec Props.prefixFree_shipped hcc).1; omega
  have hsd : n.src ≠ .defaultCountry := by rw [hs]; decide
  have hcd : ∀ u ∈ decimal n.cc.toNat, isDig u = true := by rw [← dec_eq_decimal]; exact dec_digits _
  have hd : ∀ u ∈ decimal n.cc.toNat ++ nsnOf n, isDig u = true := by
    intro u hu
    rcases List.mem_append.1 hu with h | h
    · exact hcd u h
    · exact nsnOf_isDig n u h
  have hdi : ∀ u, isDig u = true → u ≠ 47 ∧ isX u = false := by
    intro u hu
    have h1 : 48 ≤ u ∧ u ≤ 57 := by simpa [isDig] using hu
    constructor
    · omega
    · simp [isX]; omega
  have hX : onlyValidX Data.container n (43 :: (decimal n.cc.toNat ++ nsnOf n)) = .ok true := by
    refine onlyValidX_digits fun u hu => ?_
    rcases List.mem_cons.1 hu with rfl | hu
    · rfl
    · exact (hdi u (hd u hu)).2
  have hP : nationalPrefixPresent Data.container n = true := by
    unfold nationalPrefixPresent
    rw [if_pos hsd]
  have hS : moreThanOneSlash n (43 :: (decimal n.cc.toNat ++ nsnOf n)) = false := by
    unfold moreThanOneSlash
    rw [indexOf_char_none]
    intro hm
    rcases List.mem_cons.1 hm with h | h
    · cases h
    · exact (hdi _ (hd _ h)).1 rfl
  have hC : verifyCommon Data.container n (43 :: (decimal n.cc.toNat ++ nsnOf n)) = .ok true := by
    unfold verifyCommon
    simp only [hv, hX, hS, hP, bind, Except.bind, pure, Except.pure]
    rfl
  obtain ⟨gs, hg1, hg2, hg3⟩ := nationalGroups_shipped n hcc hraw hx
  have hnorm := normalizeDigits_plus hd
  cases l with
  | possible => exact Props.C25_shipped n hv
  | valid =>
    unfold Leniency.verify
    simp only [hv, hX, hP, bind, Except.bind, pure, Except.pure]
    rfl
  | strictGrouping =>
    unfold Leniency.verify checkGrouping
    simp only [hC, hnorm, hg1, bind, Except.bind, pure, Except.pure]
    rw [groupsRemain_plus hsd (decInt_nonneg h0) (by rw [← dec_eq_decimal]; exact dec_ne_nil _) hcd hx hg2 hg3]
    rfl
  | exactGrouping =>
    unfold Leniency.verify checkGrouping
    simp only [hC, hnorm, hg1, bind, Except.bind, pure, Except.pure]
    rw [groupsExact_plus hcd hx]
    rfl

end Verif
