import Verif.Lemmas.Leniency
import Verif.Lemmas.Intl
import Verif.Lemmas.MatcherFind
import Verif.Props.C65
/-!
# Numbers written in blocks of digits
-/
namespace Verif.Spec

/-- How many characters of a template are not part of a `$1`, `$2`, …. -/
def literals : Str → Nat
  | [] => 0
  | [_] => 1
  | u :: d :: t => if u = 36 then literals t else 1 + literals (d :: t)

/-- A rule whose first group comes first and is not empty, with at most four other characters, all spaces, hyphens or dots. -/
def ruleSpaced (p : NumberFormat) : Bool :=
  Nat.ble (literals p.format) 4 && [36, 49].isPrefixOf p.format &&
    ((templateLiterals p.format).all fun u => Nat.beq u 32 || Nat.beq u 45 || Nat.beq u 46) &&
    match groupSizes p.pattern.re 1 with
    | some (g :: _) => Nat.blt 0 g.1 && Nat.ble g.1 g.2
    | _ => false

/-- The same for the formats other than NATIONAL of a metadata entry. -/
def intlSpaced (m : Metadata) : Bool := (intlRules m).all ruleSpaced

end Verif.Spec

namespace Verif
open Spec

theorem fill_count (groups : List Str) (hg : ∀ g ∈ groups, ∀ u ∈ g, isDig u = true) (t : Str) :
    ((fill groups t).filter fun u => !isDig u).length ≤ literals t := by
  fun_induction fill groups t with
  | case1 => simp [literals]
  | case2 u => simp only [List.filter_cons, literals]; split <;> simp
  | case3 d t ih =>
    rw [List.filter_append, List.length_append, literals, if_pos rfl]
    have : ((groups.getD (d - 49) []).filter fun u => !isDig u) = [] := by
      rw [List.filter_eq_nil_iff]
      intro u hu
      rw [List.getD_eq_getElem?_getD] at hu
      cases h : groups[d - 49]? with
      | none => rw [h] at hu; cases hu
      | some g => rw [h] at hu; simp [hg g (List.mem_of_getElem? h) u hu]
    rw [this]; simpa using ih
  | case4 u d t hu ih =>
    rw [literals, if_neg hu]
    rw [List.filter_cons]
    split
    · rw [List.length_cons]; omega
    · omega

theorem cut_mem (gs : List (Nat × Nat)) (s g : Str) (h : g ∈ cut gs s) (u : Nat) (hu : u ∈ g) : u ∈ s := by
  induction gs generalizing s with
  | nil => cases h
  | cons x gs ih =>
    rcases List.mem_cons.1 h with rfl | h
    · exact List.mem_of_mem_take hu
    · exact List.mem_of_mem_drop (ih _ h)

/-- A space, a hyphen or a dot. -/
def GapChar (u : Nat) : Prop := u = 32 ∨ u = 45 ∨ u = 46

/-- What INTERNATIONAL makes of the digits of a number: it begins and ends with a digit, and between them there are at most four
spaces, hyphens and dots. -/
theorem formatNsn_blocks (m : Metadata) (hlo : layoutOk m = true) (hm : intlFormatsOk m = true) (hl : intlLiteralsOk m = true) (he : intlEndsOk m = true)
    (hsp : intlSpaced m = true) (s : Str) (hs : ∀ u ∈ s, isDig u = true) (hne : s ≠ []) :
    (∀ u ∈ formatNsn s (some m) .international [], isDig u = true ∨ GapChar u) ∧
    (formatNsn s (some m) .international []).filter isDig = s ∧
    ((formatNsn s (some m) .international []).filter fun u => !isDig u).length ≤ 4 ∧
    (∃ u t, formatNsn s (some m) .international [] = u :: t ∧ isDig u = true) ∧
    (∃ a v, formatNsn s (some m) .international [] = a ++ [v] ∧ isDig v = true) ∧
    formatNsn s (some m) .rfc3966 [] = List.intercalate (str!"-") (digitGroups (formatNsn s (some m) .international [])) := by
  obtain ⟨h1, h2, -⟩ := formatNsn_spaced m hm hl he s hs hne
  have hrules : rulesFor m .international = intlRules m := by simp [rulesFor, intlRules]
  have hrules' : (if m.intlFormats = [] ∨ Fmt.international = .national then m.formats else m.intlFormats) = intlRules m := by simp [intlRules]
  have hrules'' : (if m.intlFormats = [] ∨ Fmt.rfc3966 = .national then m.formats else m.intlFormats) = intlRules m := by simp [intlRules]
  have hokr : ∀ p ∈ intlRules m, layoutRuleOk p = true := by
    simp only [layoutOk, Bool.and_eq_true, List.all_eq_true] at hlo
    intro p hp
    unfold intlRules at hp
    split at hp
    · exact hlo.1 p hp
    · exact hlo.2 p hp
  have hdigits : fields isDig s = [s] := by
    unfold fields
    have := fieldsAux_run isDig s [] [] hs
    rw [List.append_nil] at this
    rw [this]
    simp [fieldsAux, hne]
  unfold formatNsn at h1 h2 ⊢
  dsimp only at h1 h2 ⊢
  rw [hrules'] at h1 h2 ⊢
  rw [hrules'']
  cases hc : chooseFormat (intlRules m) s with
  | none =>
    refine ⟨fun u hu => .inl (hs u hu), List.filter_eq_self.2 hs, ?_, ?_, by rw [hc] at h2; exact h2, ?_⟩
    · rw [List.filter_eq_nil_iff.2 (fun u hu => by simp [hs u hu])]; simp
    · cases s with
      | nil => exact absurd rfl hne
      | cons u t => exact ⟨u, t, rfl, hs u (by simp)⟩
    · dsimp only
      unfold digitGroups; rw [hdigits]; simp [List.intercalate]
  | some p =>
    rw [hc] at h1 h2
    dsimp only at h1 h2 ⊢
    have hch := chooseFormat_chosen hokr hs (s := s)
    rw [hc] at hch
    have hp : p ∈ intlRules m := (chooseFormat_acc _ _ _ hc).1
    have hacc := (chooseFormat_acc _ _ _ hc).2
    have happ : Applies p s := by
      cases hch with
      | some _ h _ => exact h
    obtain ⟨gs, hg1, hg2, hg3⟩ := happ.1
    obtain ⟨gs', hg', hfill⟩ := formatNsnUsingPattern_eq (hokr p hp) hs happ .international (carrier := []) (by simp)
    rw [hg1] at hg'
    cases hg'
    have hsp' := List.all_eq_true.1 hsp p hp
    unfold ruleSpaced at hsp'
    rw [hg1] at hsp'
    simp only [Bool.and_eq_true, Nat.ble_eq, List.all_eq_true, Bool.or_eq_true, Nat.beq_eq] at hsp'
    obtain ⟨⟨⟨s1, s2⟩, s3⟩, s4⟩ := hsp'
    have htp : template p .international [] = p.format := by simp [template]
    have hti : ∀ x, tidy .international x = x := fun x => by simp [tidy]
    rw [htp, hti] at hfill
    have hin : formatInOrder p = true := by
      simp only [intlFormatsOk, Bool.and_eq_true] at hm
      exact List.all_eq_true.1 hm.1 p hp
    have hraw : formatNsnUsingPattern s p .international [] = p.pattern.re.replaceAll s p.format := by
      simp [formatNsnUsingPattern]
    have hgap : ∀ u ∈ formatNsnUsingPattern s p .international [], isDig u = true ∨ GapChar u := by
      intro u hu
      rw [hraw] at hu
      rcases replaceAll_mem hu with h | h
      · exact .inl (hs u h)
      · have := s3 u h
        exact .inr (by unfold GapChar; omega)
    refine ⟨hgap, ?_, ?_, ?_, h2, ?_⟩
    · rw [hraw]; exact replaceAll_inOrder p hin s hs hacc
    · rw [hfill]
      exact Nat.le_trans (fill_count _ (fun g hg u hu => hs u (cut_mem gs s g hg u hu)) _) s1
    · rw [hfill]
      obtain ⟨t, ht⟩ := List.isPrefixOf_iff_prefix.1 s2
      rw [← ht]
      simp only [List.cons_append, List.nil_append, fill, if_true]
      cases gs with
      | nil => simp at s4
      | cons g gs =>
        simp only [Bool.and_eq_true, Nat.blt_eq, Nat.ble_eq] at s4
        have hle : g.1 + least gs ≤ s.length := by simpa [least] using hg2
        obtain ⟨k, hk⟩ : ∃ k, min g.2 (s.length - least gs) = k + 1 := ⟨min g.2 (s.length - least gs) - 1, by omega⟩
        cases s with
        | nil => exact absurd rfl hne
        | cons u s' =>
          rw [cut, hk]
          exact ⟨u, _, rfl, hs u (by simp)⟩
    · have : formatNsnUsingPattern s p .rfc3966 [] = rfc3966Clean (formatNsnUsingPattern s p .international []) := by
        simp [formatNsnUsingPattern]
      rw [this, rfc3966Clean_eq]
      unfold digitGroups
      congr 1
      have key : ∀ (t cur : Str), (∀ u ∈ t, isDig u = true ∨ GapChar u) → fieldsAux (fun u => !isPunct (rune u)) t cur = fieldsAux isDig t cur := by
        intro t
        induction t with
        | nil => intro cur _; rfl
        | cons u t ih =>
          intro cur h
          have hu : (!isPunct (rune u)) = isDig u := by
            rcases h u (by simp) with h | h
            · rw [Props.isPunct_digit h, h]; rfl
            · have : ∀ u ∈ [32, 45, 46], (!isPunct (rune u)) = isDig u := by decide
              exact this u (by unfold GapChar at h; simp; omega)
          simp only [fieldsAux, hu]
          rw [ih _ (fun v hv => h v (by simp [hv])), ih _ (fun v hv => h v (by simp [hv]))]
      exact key _ _ hgap

/-- A text of digits, spaces, hyphens and dots that begins and ends with a digit and has few of the others is blocks and gaps. -/
theorem blocks_of (k : Nat) (w : Str) (hw : w.length ≤ k) (h1 : ∀ u ∈ w, isDig u = true ∨ GapChar u) (h2 : (w.filter isDig).length ≤ 20)
    (h3 : (w.filter fun u => !isDig u).length ≤ 4) (h4 : ∃ u t, w = u :: t ∧ isDig u = true) (h5 : ∃ a v, w = a ++ [v] ∧ isDig v = true) :
    ∃ (d : Str) (l : List (Str × Str)), w = d ++ l.flatMap (fun x => x.1 ++ x.2) ∧ Block d ∧ l.length ≤ (w.filter fun u => !isDig u).length ∧
      ∀ x ∈ l, Gap x.1 ∧ Block x.2 := by
  induction k generalizing w with
  | zero =>
    obtain ⟨u, t, rfl, -⟩ := h4
    simp at hw
  | succ k ih =>
    have hsplit : w = w.takeWhile isDig ++ w.dropWhile isDig := List.takeWhile_append_dropWhile.symm
    have hd : ∀ u ∈ w.takeWhile isDig, isDig u = true := fun u hu => mem_takeWhile_sat hu
    have hbl : Block (w.takeWhile isDig) := by
      refine ⟨?_, ?_, hd⟩
      · obtain ⟨u, t, rfl, hu⟩ := h4
        rw [List.takeWhile_cons_of_pos hu]; simp
      · refine Nat.le_trans ?_ h2
        conv => rhs; rw [hsplit]
        rw [List.filter_append, List.length_append, List.filter_eq_self.2 hd]; omega
    cases hr : w.dropWhile isDig with
    | nil =>
      refine ⟨w.takeWhile isDig, [], ?_, hbl, by simp, by simp⟩
      rw [hr] at hsplit
      simpa using hsplit
    | cons p r =>
      have hpd : isDig p = false := by
        have := List.head?_dropWhile_not isDig w
        rw [hr] at this
        simpa using this
      have hs2 : p :: r = (p :: r).takeWhile (fun u => !isDig u) ++ (p :: r).dropWhile (fun u => !isDig u) :=
        List.takeWhile_append_dropWhile.symm
      have hgd : ∀ u ∈ (p :: r).takeWhile (fun u => !isDig u), isDig u = false := fun u hu => by simpa using mem_takeWhile_sat hu
      generalize hG : (p :: r).takeWhile (fun u => !isDig u) = G at hs2 hgd
      generalize hR : (p :: r).dropWhile (fun u => !isDig u) = R at hs2
      have hw' : w = w.takeWhile isDig ++ (G ++ R) := by rw [← hs2, ← hr]; exact hsplit
      have hmem : ∀ u ∈ G ++ R, u ∈ w := fun u hu => by rw [hw']; exact List.mem_append_right _ hu
      have hG1 : 1 ≤ G.length := by
        rw [← hG, List.takeWhile_cons_of_pos (by simp [hpd])]; simp
      have hnd : (w.filter fun u => !isDig u) = G ++ R.filter fun u => !isDig u := by
        conv => lhs; rw [hw']
        rw [List.filter_append, List.filter_append, List.filter_eq_nil_iff.2 (fun u hu => by simp [hd u hu]), List.nil_append,
          List.filter_eq_self.2 (fun u hu => by simp [hgd u hu])]
      have hgap : Gap G := by
        refine ⟨hG1, ?_, fun u hu => ?_⟩
        · rw [hnd, List.length_append] at h3; omega
        · rcases h1 u (hmem u (List.mem_append_left _ hu)) with h | h
          · rw [hgd u hu] at h; cases h
          · exact h
      have hRne : ∃ u t, R = u :: t ∧ isDig u = true := by
        cases hRc : R with
        | nil =>
          exfalso
          obtain ⟨a, v, e, hv⟩ := h5
          rw [hRc, List.append_nil] at hw'
          have e1 : w.getLast? = some v := by rw [e]; simp
          have hGne : G ≠ [] := by intro h; rw [h] at hG1; simp at hG1
          obtain ⟨x, hx⟩ := List.getLast?_isSome.2 hGne |> Option.isSome_iff_exists.1
          rw [hw', List.getLast?_append, hx] at e1
          simp only [Option.some_or, Option.some.injEq] at e1
          have := hgd x (List.mem_of_getLast? hx)
          rw [e1, hv] at this
          cases this
        | cons u t =>
          refine ⟨u, t, rfl, ?_⟩
          have := List.head?_dropWhile_not (fun u => !isDig u) (p :: r)
          rw [hR, hRc] at this
          simpa using this
      have hR5 : ∃ a v, R = a ++ [v] ∧ isDig v = true := by
        obtain ⟨a, v, e, hv⟩ := h5
        obtain ⟨u, t, e', -⟩ := hRne
        have hRne' : R ≠ [] := by rw [e']; simp
        obtain ⟨x, hx⟩ := List.getLast?_isSome.2 hRne' |> Option.isSome_iff_exists.1
        obtain ⟨b, hb⟩ := List.getLast?_eq_some_iff.1 hx
        have e1 : w.getLast? = some v := by rw [e]; simp
        rw [hw', List.getLast?_append, List.getLast?_append, hx] at e1
        simp only [Option.some_or, Option.some.injEq] at e1
        exact ⟨b, x, hb, by rw [e1]; exact hv⟩
      obtain ⟨d, l, e, k1, k2, k3⟩ := ih R (by
          have e1 := congrArg List.length hw'
          have := hbl.1
          simp only [List.length_append] at e1
          omega) (fun u hu => h1 u (hmem u (List.mem_append_right _ hu)))
        (by
          refine Nat.le_trans ?_ h2
          conv => rhs; rw [hw']
          rw [List.filter_append, List.filter_append, List.length_append, List.length_append]; omega)
        (by rw [hnd, List.length_append] at h3; omega) hRne hR5
      refine ⟨w.takeWhile isDig, (G, d) :: l, ?_, hbl, ?_, ?_⟩
      · rw [hw']
        conv => lhs; rw [e]
        rw [← hw']
        simp [List.append_assoc]
      · rw [hnd, List.length_append, List.length_cons]; omega
      · intro x hx
        rcases List.mem_cons.1 hx with rfl | hx
        · exact ⟨hgap, k1⟩
        · exact k3 x hx

/-- The groups of digits of blocks and gaps. -/
theorem digitGroups_blocks (d : Str) (l : List (Str × Str)) (hd : Block d) (hl : ∀ x ∈ l, Gap x.1 ∧ Block x.2) :
    digitGroups (d ++ l.flatMap fun x => x.1 ++ x.2) = d :: l.map (·.2) := by
  unfold digitGroups fields
  have hd0 : d ≠ [] := by intro h; have := hd.1; rw [h] at this; simp at this
  induction l generalizing d with
  | nil =>
    rw [fieldsAux_run isDig d _ [] hd.2.2]
    simp [fieldsAux, hd0]
  | cons x l ih =>
    obtain ⟨⟨g1, g2, g3⟩, hb⟩ := hl x (by simp)
    have hg : ∀ u ∈ x.1, isDig u = false := by
      intro u hu
      rcases g3 u hu with rfl | rfl | rfl <;> decide
    have hx0 : x.2 ≠ [] := by intro h; have := hb.1; rw [h] at this; simp at this
    rw [fieldsAux_run isDig d _ [] hd.2.2, List.nil_append, fieldsAux_end isDig _ d hd0, List.flatMap_cons, List.append_assoc,
      fieldsAux_skip isDig x.1 _ hg, ih x.2 hb (fun y hy => hl y (by simp [hy])) hx0]
    · rfl
    · intro u hu
      cases hx1 : x.1 with
      | nil => rw [hx1] at g1; simp at g1
      | cons v t =>
        rw [List.flatMap_cons, hx1] at hu
        simp at hu
        subst hu
        exact hg v (by rw [hx1]; simp)

theorem inOrder_blocks (l : List (Str × Str)) : InOrder [] (l.map (·.2)) (l.flatMap fun x => x.1 ++ x.2) := by
  induction l with
  | nil => exact ⟨[], [], rfl⟩
  | cons x l ih => exact ⟨x.1, _, by simp, ih⟩

theorem gapChar_noDigit {u : Nat} (h : GapChar u ∨ u = 43) (v : Nat) : ¬ UnicodeDigit (rune u) v := by
  have : ∀ u ∈ [32, 45, 46, 43], charDigit (rune u) = none := by decide +kernel
  exact (charDigit_none_iff _).1 (this u (by unfold GapChar at h; simp; omega)) v

theorem asciiDigits_self (s : Str) (h : ∀ u ∈ s, isDig u = true ∨ GapChar u ∨ u = 43) : AsciiDigits s s := by
  induction s with
  | nil => exact .nil
  | cons u s ih =>
    have ih := ih (fun v hv => h v (by simp [hv]))
    rcases h u (by simp) with h | h
    · have : ∀ u, isDig u = true → charDigit (rune u) = some u := by
        intro u hu
        have hu' : 48 ≤ u ∧ u ≤ 57 := by simpa [isDig] using hu
        have : ∀ i ∈ List.range 10, charDigit (rune (48 + i)) = some (48 + i) := by decide +kernel
        have := this (u - 48) (by simp; omega)
        rwa [show 48 + (u - 48) = u by omega] at this
      obtain ⟨v, hv, e⟩ := (charDigit_iff _ _).1 (this u h)
      rw [show u :: s = (48 + v) :: s by rw [← e]]
      conv => lhs; rw [← e]
      exact .digit hv ih
    · have hr : rune u = u := rune_of_lt (by unfold GapChar at h; omega)
      have := AsciiDigits.other (u := u) (fun v => gapChar_noDigit h v) ih
      rwa [hr] at this

end Verif
