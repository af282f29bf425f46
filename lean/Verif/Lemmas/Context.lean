import Verif.Spec.Context
import Verif.Lemmas.Extract
import Verif.Lemmas.ParseCore
import Verif.Regex.Acc
/-!
# The phone-context patterns accept what the specification says
-/
namespace Verif
open Spec

def hyC : Cls := ⟨false, [(45, 45)], []⟩
def dotC : Cls := ⟨false, [(46, 46)], []⟩
def ndC : Cls := ⟨false, [], [.nd]⟩
def visC : Cls := ⟨false, [(45, 45), (46, 46), (40, 40), (41, 41)], []⟩
def alphaC : Cls := ⟨false, validAlpha.map fun c => (c, c), []⟩
def alnumC : Cls := ⟨false, validAlpha.map fun c => (c, c), [.nd]⟩

/-- `((\-)*[alnum])*` -/
def tailRe (i j : Nat) : Re := .rep (.grp i (.cat (.rep (.grp j (.cls hyC)) 0 none true) (.cls alnumC))) 0 none true

theorem domain_eq : rfc3966DomainnamePattern =
    .cat .bos (.cat (.rep (.grp 1 (.cat (.rep (.cls alnumC) 1 none true) (.cat (tailRe 2 3) (.cls dotC)))) 0 none true)
      (.cat (.rep (.cls alphaC) 1 none true) (.cat (tailRe 4 5) (.cat (.rep (.cls dotC) 0 (some 1) true) .eos)))) := by decide +kernel

/-- `(\p{Nd}|[\-\.\(\)]?)*` -/
def phoneDigitRe (i : Nat) : Re := .rep (.grp i (.alt (.cls ndC) (.rep (.cls visC) 0 (some 1) true))) 0 none true

theorem global_eq : rfc3966GlobalNumberDigitsPattern =
    .cat .bos (.cat (.cls ⟨false, [(43, 43)], []⟩) (.cat (phoneDigitRe 1) (.cat (.cls ndC) (.cat (phoneDigitRe 2) .eos)))) := by
  decide +kernel

theorem inRanges_self (l : List Nat) (c : Nat) : inRanges (l.map fun c => (c, c)) c = decide (c ∈ l) := by
  induction l with
  | nil => rfl
  | cons a t ih => simp only [List.map_cons, inRanges_cons_self, ih, List.mem_cons, Bool.decide_or]

theorem mem_validAlpha (u : Nat) : u ∈ validAlpha ↔ isLetter u = true := by
  by_cases h : u < 128
  · have : ∀ u < 128, (u ∈ validAlpha ↔ isLetter u = true) := by decide +kernel
    exact this u h
  · have h1 : ∀ u ∈ validAlpha, u < 128 := by decide +kernel
    have h2 : isLetter u = false := by simp [isLetter]; omega
    rw [h2]; simp; intro hu; exact h (h1 u hu)

theorem rune_of_lt {u : Nat} (h : u < 128) : rune u = u := by unfold rune; rw [if_pos (by simp [badBase]; omega)]

theorem letter_rune (u : Nat) : isLetter (rune u) = isLetter u := by
  by_cases h : u < 128
  · rw [rune_of_lt h]
  · have h1 : isLetter u = false := by simp [isLetter]; omega
    have h2 : isLetter (rune u) = false := by
      unfold rune; split
      · exact h1
      · decide
    rw [h1, h2]

theorem alphaC_mem (u : Nat) : alphaC.mem u = isLetter u := by
  have h : alphaC.mem u = decide (rune u ∈ validAlpha) := by
    simp [Cls.mem, Cls.has, alphaC, inRanges_self]
  rw [h, ← letter_rune, Bool.eq_iff_iff, decide_eq_true_eq, mem_validAlpha]

theorem alnumC_mem (u : Nat) : alnumC.mem u = isAlnum u := by
  have h : alnumC.mem u = (decide (rune u ∈ validAlpha) || isAnyDigit u) := by
    simp [Cls.mem, Cls.has, alnumC, inRanges_self, UProp.mem, isAnyDigit]
  have h2 : decide (rune u ∈ validAlpha) = isLetter u := by
    rw [← letter_rune, Bool.eq_iff_iff, decide_eq_true_eq, mem_validAlpha]
  rw [h, h2]; rfl

theorem ndC_mem (u : Nat) : ndC.mem u = isAnyDigit u := by
  have inil : ∀ c, inRanges [] c = false := fun _ => rfl
  simp [Cls.mem, Cls.has, ndC, inil, UProp.mem, isAnyDigit]

theorem visC_mem (u : Nat) : visC.mem u = true ↔ isVisual u = true := by
  have inil : ∀ c, inRanges [] c = false := fun _ => rfl
  simp only [isVisual, decide_eq_true_eq]
  constructor
  · intro h
    simp [Cls.mem, Cls.has, visC, inRanges_cons_self, inil] at h
    rcases h with h | h | h | h <;> (have := rune_ascii h (by decide); subst this; decide)
  · intro h
    simp only [List.mem_cons, List.not_mem_nil, or_false] at h
    rcases h with rfl | rfl | rfl | rfl <;> decide

theorem hyC_mem (u : Nat) : hyC.mem u = true ↔ u = 45 := litCls_mem 45 (by decide) u
theorem dotC_mem (u : Nat) : dotC.mem u = true ↔ u = 46 := litCls_mem 46 (by decide) u

/-! ## Repetition of something position-independent -/

/-- Concatenations of members of a language. -/
inductive Star (P : Str → Prop) : Str → Prop
  | nil : Star P []
  | cons {a b : Str} (h : P a) (r : Star P b) : Star P (a ++ b)

theorem acc_star {r : Re} {P : Str → Prop} (h : ∀ p w e, r.Acc p w e ↔ P w) {g : Bool} {p : Nat} {w e : Str} :
    (Re.rep r 0 none g).Acc p w e ↔ Star P w := by
  show (∃ k, 0 ≤ k ∧ (∀ x, none = some x → k ≤ 0 + (x - 0)) ∧ iterP r.Acc k p w e) ↔ _
  constructor
  · rintro ⟨k, -, -, hk⟩
    induction k generalizing p w with
    | zero => simp only [iterP] at hk; subst hk; exact .nil
    | succ k ih =>
      obtain ⟨w1, w2, rfl, h1, h2⟩ := hk
      exact .cons ((h _ _ _).1 h1) (ih h2)
  · intro hs
    induction hs generalizing p with
    | nil => exact ⟨0, by omega, by simp, rfl⟩
    | cons ha _ ih =>
      rename_i a b _
      obtain ⟨k, -, -, hk⟩ := ih (p := p + a.length)
      exact ⟨k + 1, by omega, by simp, a, b, rfl, (h _ _ _).2 ha, hk⟩

theorem star_single {q : Nat → Bool} {w : Str} : Star (fun a => ∃ u, a = [u] ∧ q u = true) w ↔ ∀ u ∈ w, q u = true := by
  constructor
  · intro h
    induction h with
    | nil => simp
    | cons h _ ih => obtain ⟨u, rfl, hu⟩ := h; simpa [hu] using ih
  · intro h
    induction w with
    | nil => exact .nil
    | cons u t ih => exact .cons (a := [u]) ⟨u, rfl, h u (by simp)⟩ (ih fun v hv => h v (by simp [hv]))

theorem tail_body (i j p : Nat) (w e : Str) : (Re.grp i (.cat (.rep (.grp j (.cls hyC)) 0 none true) (.cls alnumC))).Acc p w e ↔
    ∃ t u, w = t ++ [u] ∧ (∀ v ∈ t, v = 45) ∧ isAlnum u = true := by
  show (∃ w1 w2, w = w1 ++ w2 ∧ (Re.rep (.grp j (.cls hyC)) 0 none true).Acc p w1 (w2 ++ e) ∧ (Re.cls alnumC).Acc (p + w1.length) w2 e) ↔ _
  have hst : ∀ {p w e}, (Re.rep (.grp j (.cls hyC)) 0 none true).Acc p w e ↔ ∀ v ∈ w, v = 45 := by
    intro p w e
    rw [acc_star (P := fun a => ∃ u, a = [u] ∧ hyC.mem u = true) (fun _ _ _ => Iff.rfl), star_single]
    simp only [hyC_mem]
  constructor
  · rintro ⟨w1, w2, rfl, h1, u, rfl, hu⟩
    exact ⟨w1, u, rfl, hst.1 h1, by rw [← alnumC_mem]; exact hu⟩
  · rintro ⟨t, u, rfl, h1, h2⟩
    exact ⟨t, [u], rfl, hst.2 h1, u, rfl, by rw [alnumC_mem]; exact h2⟩

/-- Letters, digits and hyphens, not ending with a hyphen. -/
def TailP (w : Str) : Prop := (∀ u ∈ w, isAlnum u = true ∨ u = 45) ∧ (w = [] ∨ ∃ t u, w = t ++ [u] ∧ isAlnum u = true)

theorem star_tail {w : Str} : Star (fun a => ∃ t u, a = t ++ [u] ∧ (∀ v ∈ t, v = 45) ∧ isAlnum u = true) w ↔ TailP w := by
  constructor
  · intro h
    induction h with
    | nil => exact ⟨by simp, .inl rfl⟩
    | cons h _ ih =>
      obtain ⟨t, u, rfl, h1, h2⟩ := h
      obtain ⟨h3, h4⟩ := ih
      refine ⟨fun v hv => ?_, .inr ?_⟩
      · simp only [List.mem_append, List.mem_singleton] at hv
        rcases hv with (hv | rfl) | hv
        · exact .inr (h1 v hv)
        · exact .inl h2
        · exact h3 v hv
      · rcases h4 with rfl | ⟨t', u', rfl, h5⟩
        · exact ⟨t, u, by simp, h2⟩
        · exact ⟨t ++ [u] ++ t', u', by simp, h5⟩
  · rintro ⟨h1, h2⟩
    generalize hk : w.length = k
    induction k using Nat.strongRecOn generalizing w with
    | ind k ih =>
      rcases h2 with rfl | ⟨t, u, rfl, hu⟩
      · exact .nil
      · -- split after the hyphens at the front
        have hsp : t ++ [u] = ((t ++ [u]).takeWhile (· == 45)) ++ ((t ++ [u]).dropWhile (· == 45)) := (List.takeWhile_append_dropWhile).symm
        cases hd : (t ++ [u]).dropWhile (· == 45) with
        | nil =>
          have h45 : ∀ v ∈ t ++ [u], v = 45 := by
            intro v hv
            rw [hd, List.append_nil] at hsp
            rw [hsp] at hv
            have := List.all_eq_true.1 (List.all_takeWhile (p := (· == 45)) (l := t ++ [u])) v hv
            simpa using this
          have : u = 45 := h45 u (by simp)
          subst this
          exact absurd hu (by decide +kernel)
        | cons v r =>
          rw [hd] at hsp
          have hv45 : v ≠ 45 := by
            have := List.head_dropWhile_not (p := (· == 45)) (l := t ++ [u]) (by rw [hd]; simp)
            simp only [hd, List.head_cons] at this
            simpa using this
          have hv : isAlnum v = true := (h1 v (by rw [hsp]; simp)).resolve_right hv45
          have hst : ∀ x ∈ (t ++ [u]).takeWhile (· == 45), x = 45 := by
            intro x hx
            have := List.all_eq_true.1 (List.all_takeWhile (p := (· == 45)) (l := t ++ [u])) x hx
            simpa using this
          rw [hsp, show ∀ a : Str, a ++ v :: r = (a ++ [v]) ++ r by simp]
          refine .cons ⟨_, v, rfl, hst, hv⟩ (ih r.length ?_ (fun x hx => h1 x (by rw [hsp]; simp [hx])) ?_ rfl)
          · have := congrArg List.length hsp
            simp only [List.length_append, List.length_cons, List.length_nil] at this hk
            omega
          · cases hr : r with
            | nil => exact .inl rfl
            | cons x y =>
              right
              have hne : r ≠ [] := by rw [hr]; simp
              refine ⟨r.dropLast, r.getLast hne, ?_, ?_⟩
              · rw [List.dropLast_concat_getLast hne, hr]
              · have := congrArg List.getLast? hsp
                simp only [List.getLast?_append, List.getLast?_cons, Option.some_or] at this
                rw [List.getLast?_eq_some_getLast hne] at this
                simp at this
                rw [← this]; exact hu

theorem acc_tail {i j p : Nat} {w e : Str} : (tailRe i j).Acc p w e ↔ TailP w := by
  unfold tailRe
  rw [acc_star (fun p w e => tail_body i j p w e), star_tail]

/-- A label: `[first]+((\-)*[alnum])*`. -/
theorem label_iff {c : Cls} {first : Nat → Bool} (hc : ∀ u, c.mem u = first u) (hf : ∀ u, first u = true → isAlnum u = true) {w : Str} :
    (∃ w1 w2, w = w1 ++ w2 ∧ (w1 ≠ [] ∧ ∀ u ∈ w1, c.mem u = true) ∧ TailP w2) ↔ Label first w := by
  constructor
  · rintro ⟨w1, w2, rfl, ⟨h1, h2⟩, h3, h4⟩
    simp only [hc] at h2
    refine ⟨fun u hu => ?_, ?_, ?_⟩
    · rcases List.mem_append.1 hu with hu | hu
      · exact .inl (hf u (h2 u hu))
      · exact h3 u hu
    · cases w1 with
      | nil => exact absurd rfl h1
      | cons u t => exact ⟨u, t ++ w2, rfl, h2 u (by simp)⟩
    · rcases h4 with rfl | ⟨t, u, rfl, hu⟩
      · exact ⟨w1.dropLast, w1.getLast h1, by simp [List.dropLast_concat_getLast h1], hf _ (h2 _ (List.getLast_mem h1))⟩
      · exact ⟨w1 ++ t, u, by simp, hu⟩
  · rintro ⟨h1, ⟨u, t, rfl, hu⟩, t', u', h2, hu'⟩
    refine ⟨[u], t, rfl, ⟨by simp, by simpa [hc] using hu⟩, fun v hv => h1 v (by simp [hv]), ?_⟩
    cases t with
    | nil => exact .inl rfl
    | cons v r =>
      right
      cases t' with
      | nil => simp at h2
      | cons a b =>
        simp only [List.cons_append, List.cons.injEq] at h2
        exact ⟨b, u', h2.2, hu'⟩

theorem alnum_of_letter {u : Nat} (h : isLetter u = true) : isAlnum u = true := by simp [isAlnum, h]

theorem star_labels {w : Str} : Star (fun a => ∃ l, a = l ++ [46] ∧ Label isAlnum l) w ↔
    ∃ ls : List Str, w = (ls.map (· ++ [46])).flatten ∧ ∀ l ∈ ls, Label isAlnum l := by
  constructor
  · intro h
    induction h with
    | nil => exact ⟨[], rfl, by simp⟩
    | cons h _ ih =>
      obtain ⟨l, rfl, hl⟩ := h
      obtain ⟨ls, rfl, hls⟩ := ih
      exact ⟨l :: ls, by simp, by simpa [hl] using hls⟩
  · rintro ⟨ls, rfl, hls⟩
    induction ls with
    | nil => exact .nil
    | cons l ls ih =>
      simp only [List.map_cons, List.flatten_cons]
      exact .cons ⟨l, rfl, hls l (by simp)⟩ (ih fun x hx => hls x (by simp [hx]))

theorem domain_body (p : Nat) (w e : Str) :
    (Re.grp 1 (.cat (.rep (.cls alnumC) 1 none true) (.cat (tailRe 2 3) (.cls dotC)))).Acc p w e ↔ ∃ l, w = l ++ [46] ∧ Label isAlnum l := by
  constructor
  · rintro ⟨w1, w2, rfl, h1, w3, w4, rfl, h2, u, rfl, hu⟩
    refine ⟨w1 ++ w3, ?_, (label_iff alnumC_mem (fun _ h => h)).1 ⟨w1, w3, rfl, acc_plus_cls.1 h1, acc_tail.1 h2⟩⟩
    rw [(dotC_mem u).1 hu]; simp
  · rintro ⟨l, rfl, hl⟩
    obtain ⟨w1, w2, rfl, h1, h2⟩ := (label_iff alnumC_mem (fun _ h => h)).2 hl
    exact ⟨w1, w2 ++ [46], by simp, acc_plus_cls.2 h1, w2, [46], rfl, acc_tail.2 h2, 46, rfl, (dotC_mem 46).2 rfl⟩

theorem domain_isMatch_iff (s : Str) : rfc3966DomainnamePattern.isMatch s = true ↔ Domain s := by
  rw [isMatch_iff, domain_eq]
  constructor
  · rintro ⟨a, w, e, hs, b, w1, rfl, ⟨h0, rfl⟩, w2, w3, rfl, h2, w4, w5, rfl, h3, w6, w7, rfl, h4, w8, w9, rfl, h5, rfl, h6⟩
    have : a = [] := List.length_eq_zero_iff.mp h0
    subst this h6
    obtain ⟨ls, hls1, hls2⟩ := star_labels.1 ((acc_star domain_body).1 h2)
    refine ⟨ls, w4 ++ w6, w8, ?_, hls2, (label_iff alphaC_mem (fun _ h => alnum_of_letter h)).1 ⟨w4, w6, rfl, acc_plus_cls.1 h3, acc_tail.1 h4⟩, ?_⟩
    · rw [hs, hls1]; simp
    · rcases acc_opt.1 h5 with rfl | ⟨u, rfl, hu⟩
      · exact .inl rfl
      · rw [(dotC_mem u).1 hu]; exact .inr rfl
  · rintro ⟨ls, top, dot, rfl, hls, htop, hdot⟩
    obtain ⟨w4, w6, rfl, h1, h2⟩ := (label_iff alphaC_mem (fun _ h => alnum_of_letter h)).2 htop
    refine ⟨[], _, [], by simp; rfl, [], _, rfl, ⟨rfl, rfl⟩, _, w4 ++ (w6 ++ dot), by simp, (acc_star domain_body).2 (star_labels.2 ⟨ls, rfl, hls⟩), w4, w6 ++ dot, rfl,
      acc_plus_cls.2 h1, w6, dot, rfl, acc_tail.2 h2, dot, [], by simp, ?_, rfl, rfl⟩
    rcases hdot with rfl | rfl
    · exact acc_opt.2 (.inl rfl)
    · exact acc_opt.2 (.inr ⟨46, rfl, (dotC_mem 46).2 rfl⟩)

theorem acc_phoneDigit {i p : Nat} {w e : Str} : (phoneDigitRe i).Acc p w e ↔ ∀ u ∈ w, isAnyDigit u = true ∨ isVisual u = true := by
  unfold phoneDigitRe
  rw [acc_star (P := fun w => w = [] ∨ ∃ u, w = [u] ∧ (isAnyDigit u = true ∨ isVisual u = true))]
  · constructor
    · intro h
      induction h with
      | nil => simp
      | cons h _ ih =>
        rcases h with rfl | ⟨u, rfl, hu⟩
        · simpa using ih
        · intro v hv
          rcases List.mem_cons.1 hv with rfl | hv
          · exact hu
          · exact ih v hv
    · intro h
      induction w with
      | nil => exact .nil
      | cons u t ih => exact .cons (a := [u]) (.inr ⟨u, rfl, h u (by simp)⟩) (ih fun v hv => h v (by simp [hv]))
  · intro p w e
    show ((Re.cls ndC).Acc p w e ∨ (Re.rep (.cls visC) 0 (some 1) true).Acc p w e) ↔ _
    rw [acc_opt]
    constructor
    · rintro (⟨u, rfl, hu⟩ | rfl | ⟨u, rfl, hu⟩)
      · exact .inr ⟨u, rfl, .inl (by rw [← ndC_mem]; exact hu)⟩
      · exact .inl rfl
      · exact .inr ⟨u, rfl, .inr ((visC_mem u).1 hu)⟩
    · rintro (rfl | ⟨u, rfl, hu | hu⟩)
      · exact .inr (.inl rfl)
      · exact .inl ⟨u, rfl, by rw [ndC_mem]; exact hu⟩
      · exact .inr (.inr ⟨u, rfl, (visC_mem u).2 hu⟩)

theorem global_isMatch_iff (s : Str) : rfc3966GlobalNumberDigitsPattern.isMatch s = true ↔ GlobalDigits s := by
  rw [isMatch_iff, global_eq]
  constructor
  · rintro ⟨a, w, e, hs, b, w1, rfl, ⟨h0, rfl⟩, w2, w3, rfl, ⟨u, rfl, hu⟩, w4, w5, rfl, h3, w6, w7, rfl, ⟨v, rfl, hv⟩, w8, w9, rfl, h5, rfl, h6⟩
    have : a = [] := List.length_eq_zero_iff.mp h0
    subst this h6
    have hu := (litCls_mem 43 (by decide) u).1 hu
    subst hu
    rw [ndC_mem] at hv
    refine ⟨w4 ++ v :: w8, by rw [hs]; simp, fun x hx => ?_, v, by simp, hv⟩
    rcases List.mem_append.1 hx with hx | hx
    · exact acc_phoneDigit.1 h3 x hx
    · rcases List.mem_cons.1 hx with rfl | hx
      · exact .inl hv
      · exact acc_phoneDigit.1 h5 x hx
  · rintro ⟨b, rfl, h1, v, hv, hv2⟩
    obtain ⟨w4, w8, rfl⟩ := List.append_of_mem hv
    exact ⟨[], _, [], by simp; rfl, [], _, rfl, ⟨rfl, rfl⟩, [43], w4 ++ ([v] ++ (w8 ++ [])), by simp, ⟨43, rfl, (litCls_mem 43 (by decide) 43).2 rfl⟩,
      w4, [v] ++ (w8 ++ []), rfl, acc_phoneDigit.2 fun x hx => h1 x (by simp [hx]), [v], w8 ++ [], rfl, ⟨v, rfl, by rw [ndC_mem]; exact hv2⟩,
      w8, [], rfl, acc_phoneDigit.2 fun x hx => h1 x (by simp [hx]), rfl, rfl⟩

/-- A context is accepted iff it is global-number-digits or a domain name. -/
theorem isPhoneContextValid_iff (ctx : Str) : isPhoneContextValid ctx = true ↔ GlobalDigits ctx ∨ Domain ctx := by
  unfold isPhoneContextValid
  split
  · rename_i h
    subst h
    constructor
    · intro h; cases h
    · rintro (⟨b, h, _⟩ | ⟨ls, top, dot, h, _, ⟨_, ⟨u, t, rfl, _⟩, _⟩, _⟩)
      · cases h
      · have := congrArg List.length h; simp at this
  · rw [Bool.or_eq_true, global_isMatch_iff, domain_isMatch_iff]

/-! ## Occurrences -/

theorem indexOf_first_occ {c : Nat} {q a b : Str} (hc : c ∉ q) (h : NotIn (c :: q) a) : indexOf (a ++ (c :: q) ++ b) (c :: q) = some a.length := by
  induction a with
  | nil =>
    unfold indexOf
    simp
  | cons u a ih =>
    have ih := ih (fun ⟨x, y, hxy⟩ => h ⟨u :: x, y, by simp [hxy]⟩)
    simp only [List.cons_append]
    unfold indexOf
    rw [if_neg]
    · simp only [List.append_assoc, List.cons_append] at ih
      simp [ih]
    · intro hp
      rw [List.isPrefixOf_iff_prefix] at hp
      obtain ⟨t, ht⟩ := hp
      simp only [List.cons_append, List.cons.injEq] at ht
      obtain ⟨rfl, ht⟩ := ht
      by_cases hl : q.length ≤ a.length
      · apply h
        refine ⟨[], a.drop q.length, ?_⟩
        have : (q ++ t).take q.length = (a ++ c :: q ++ b).take q.length := by rw [ht]
        rw [List.append_assoc, List.take_append_of_le_length hl] at this
        simp only [List.take_left] at this
        simp only [List.nil_append, List.cons_append, List.cons.injEq, true_and]
        rw [← List.take_append_drop q.length a, ← this]; simp
      · apply hc
        have h1 : (q ++ t)[a.length]? = some c := by rw [ht]; simp
        rw [List.getElem?_append_left (by omega)] at h1
        exact List.mem_of_getElem? h1

theorem indexOf_notIn {p s : Str} (h : NotIn p s) : indexOf s p = none := by
  cases hi : indexOf s p with
  | none => rfl
  | some i =>
    obtain ⟨t, ht⟩ := indexOf_prefix hi
    exact absurd ⟨s.take i, t, by rw [List.append_assoc, ← ht, List.take_append_drop]⟩ h

theorem indexOf_start {p b : Str} : indexOf (p ++ b) p = some 0 := by
  cases h : p ++ b with
  | nil => obtain ⟨rfl, rfl⟩ := List.append_eq_nil_iff.1 h; rfl
  | cons u t =>
    unfold indexOf
    rw [if_pos]
    rw [List.isPrefixOf_iff_prefix]
    exact ⟨b, h⟩

theorem takeWhile_upTo (s : Str) (c : Nat) : s.takeWhile (· ≠ c) = upTo c s := by
  induction s with
  | nil => rfl
  | cons u t ih =>
    simp only [upTo, List.takeWhile_cons]
    by_cases h : u = c
    · simp [h]
    · simp only [h, ne_eq, not_false_eq_true, decide_true, if_true, if_false]
      rw [← ih]

theorem dropIsub_upto {s t : Str} (h : Upto (str!";isub=") s t) : dropIsub s = t := by
  unfold dropIsub
  cases h with
  | none h => rw [show rfcIsub = str!";isub=" from rfl, indexOf_notIn h]
  | start => rw [show rfcIsub = str!";isub=" from rfl, indexOf_start]; rfl
  | some h h0 =>
    rename_i b
    have := indexOf_first_occ (c := 59) (q := str!"isub=") (b := b) (by decide) h
    rw [show rfcIsub = 59 :: str!"isub=" from rfl, show (str!";isub=" : Str) = 59 :: str!"isub=" from rfl, this]
    have hpos : t.length > 0 := List.length_pos_iff.2 h0
    simp only [hpos, if_true]
    rw [List.append_assoc, List.take_left]

/-- The context that is looked at. -/
theorem extractPhoneContext_eq {pre rest : Str} :
    extractPhoneContext (pre ++ str!";phone-context=" ++ rest) (some pre.length) = upTo 59 rest := by
  simp only [extractPhoneContext]
  have hd : (pre ++ str!";phone-context=" ++ rest).drop (pre.length + rfcPhoneContext.length) = rest := by
    rw [show rfcPhoneContext = str!";phone-context=" from rfl, ← List.length_append, List.drop_left]
  rw [hd, takeWhile_upTo]
  split
  · rename_i hl
    have : rest = [] := by
      simp only [List.length_append] at hl
      exact List.length_eq_zero_iff.1 (by rw [show rfcPhoneContext = str!";phone-context=" from rfl] at hl; omega)
    rw [this]; rfl
  · rfl

theorem indexOf_context {pre rest : Str} (h : NotIn (str!";phone-context=") pre) :
    indexOf (pre ++ str!";phone-context=" ++ rest) rfcPhoneContext = some pre.length :=
  indexOf_first_occ (c := 59) (q := str!"phone-context=") (b := rest) (by decide) h

theorem build_invalid {pre rest : Str} (h : NotIn (str!";phone-context=") pre) (hv : ¬ ValidContext (upTo ';'.toNat rest)) :
    buildNationalNumber (pre ++ str!";phone-context=" ++ rest) = .ok (.error .notANumber) := by
  unfold buildNationalNumber
  simp only [indexOf_context h, extractPhoneContext_eq]
  rw [if_pos]
  refine ⟨rfl, ?_⟩
  rw [Bool.not_eq_true', Bool.eq_false_iff]
  exact fun hc => hv ((isPhoneContextValid_iff _).1 hc)

/-- "tel:" is found before the context, or not at all. -/
theorem body_eq {pre rest body : Str} (hb : After (str!"tel:") pre body) :
    goSlice (pre ++ str!";phone-context=" ++ rest)
      (match indexOf (pre ++ str!";phone-context=" ++ rest) rfcPrefix with
        | some j => if j < pre.length then j + rfcPrefix.length else 0
        | none => 0) pre.length = .ok body := by
  have hlen : pre.length ≤ (pre ++ str!";phone-context=" ++ rest).length := by simp only [List.length_append]; omega
  cases hb with
  | none hn =>
    have h0 : (match indexOf (pre ++ str!";phone-context=" ++ rest) rfcPrefix with
        | some j => if j < pre.length then j + rfcPrefix.length else 0
        | none => 0) = 0 := by
      cases hi : indexOf (pre ++ str!";phone-context=" ++ rest) rfcPrefix with
      | none => rfl
      | some j =>
        simp only
        rw [if_neg]
        intro hj
        obtain ⟨t, ht⟩ := indexOf_prefix hi
        -- an occurrence that begins before the context also ends before it
        have hsub : j + 4 ≤ pre.length := by
          apply Classical.byContradiction
          intro hlt
          have h1 : (pre ++ str!";phone-context=" ++ rest)[pre.length]? = some 59 := by
            rw [List.append_assoc, List.getElem?_append_right (Nat.le_refl _)]; simp
          have h2 := indexOf_getElem? (k := pre.length - j) hi (by
            show pre.length - j < 4; omega)
          rw [show j + (pre.length - j) = pre.length by omega, h1] at h2
          have h3 : (59 : Nat) ∈ rfcPrefix := List.mem_of_getElem? h2.symm
          exact absurd h3 (by decide)
        apply hn
        refine ⟨pre.take j, pre.drop (j + 4), ?_⟩
        rw [List.append_assoc, List.drop_append_of_le_length (by omega)] at ht
        have h4 : (pre.drop j).take 4 = str!"tel:" := by
          have := congrArg (List.take 4) ht
          rw [List.take_append_of_le_length (by simp; omega)] at this
          rw [this]; rfl
        rw [← h4, ← List.drop_drop, List.append_assoc, List.take_append_drop, List.take_append_drop]
    rw [h0, goSlice, if_pos ⟨by omega, hlen⟩]
    simp [slice]
  | some hn =>
    rename_i a
    have hidx : indexOf (a ++ str!"tel:" ++ body ++ str!";phone-context=" ++ rest) rfcPrefix = some a.length := by
      have := indexOf_first_occ (c := 116) (q := str!"el:") (b := body ++ str!";phone-context=" ++ rest) (by decide) hn
      simp only [List.append_assoc] at this ⊢
      exact this
    rw [hidx]
    have h1 : a.length < (a ++ str!"tel:" ++ body).length := by simp only [List.length_append]; simp; omega
    simp only [h1, if_true]
    have h2 : a.length + rfcPrefix.length = (a ++ str!"tel:").length := by rw [List.length_append]; rfl
    rw [h2, goSlice, if_pos ⟨by simp only [List.length_append]; omega, hlen⟩]
    have : slice (a ++ str!"tel:" ++ body ++ str!";phone-context=" ++ rest) (a ++ str!"tel:").length (a ++ str!"tel:" ++ body).length = body := by
      have hl : (a ++ str!"tel:" ++ body).length - (a ++ str!"tel:").length = body.length := by
        rw [List.length_append (as := a ++ str!"tel:")]; omega
      rw [slice, hl, List.append_assoc (a ++ str!"tel:" ++ body), List.append_assoc (a ++ str!"tel:"), List.drop_left, List.take_left]
    rw [this]

theorem global_head {ctx : Str} (h : GlobalDigits ctx) : ∃ t, ctx = 43 :: t := by
  obtain ⟨b, rfl, _⟩ := h; exact ⟨b, rfl⟩

theorem domain_head {ctx : Str} (h : Domain ctx) : ∃ u t, ctx = u :: t ∧ u ≠ 43 := by
  have hal : ∀ u, isAlnum u = true → u ≠ 43 := by
    rintro u hu rfl
    exact absurd hu (by decide +kernel)
  obtain ⟨ls, top, dot, rfl, hls, ⟨_, ⟨u, t, rfl, hu⟩, _⟩, _⟩ := h
  cases ls with
  | nil => exact ⟨u, t ++ dot, by simp, hal u (alnum_of_letter hu)⟩
  | cons l ls =>
    obtain ⟨_, ⟨v, w, rfl, hv⟩, _⟩ := hls l (by simp)
    exact ⟨v, w ++ [46] ++ ((ls.map (· ++ [46])).flatten ++ u :: t ++ dot), by simp, hal v hv⟩

theorem analysed_build {s t : Str} (h : Analysed s t) : buildNationalNumber s = .ok (.ok t) := by
  cases h with
  | plus h h0 hc hg hb ht =>
    rename_i pre rest ctx body
    have hv : isPhoneContextValid ctx = true := (isPhoneContextValid_iff _).2 (.inl hg)
    obtain ⟨i, hi⟩ : ∃ i, pre.length = i + 1 := ⟨pre.length - 1, by have := List.length_pos_iff.2 h0; omega⟩
    have hbody := body_eq (rest := rest) hb
    obtain ⟨b, hb'⟩ := global_head hg
    have hctx : upTo 59 rest = ctx := hc
    unfold buildNationalNumber
    simp only [indexOf_context h, extractPhoneContext_eq, hctx, hv, Bool.not_true, Bool.false_eq_true, and_false, if_false]
    rw [hi] at hbody ⊢
    simp only [hb'] at ht ⊢
    cases hj : indexOf (pre ++ str!";phone-context=" ++ rest) rfcPrefix with
    | none =>
      simp only [hj] at hbody
      simp only [hbody, bind, Except.bind, if_true, pure, Except.pure, dropIsub_upto ht]
    | some j =>
      simp only [hj] at hbody
      simp only [hbody, bind, Except.bind, if_true, pure, Except.pure, dropIsub_upto ht]
  | domain h h0 hd hb ht =>
    rename_i pre rest body
    have hv : isPhoneContextValid (upTo 59 rest) = true := (isPhoneContextValid_iff _).2 (.inr hd)
    obtain ⟨i, hi⟩ : ∃ i, pre.length = i + 1 := ⟨pre.length - 1, by have := List.length_pos_iff.2 h0; omega⟩
    have hbody := body_eq (rest := rest) hb
    obtain ⟨u, b, hb', hu⟩ := domain_head hd
    have hctx : upTo 59 rest = u :: b := hb'
    unfold buildNationalNumber
    simp only [indexOf_context h, extractPhoneContext_eq, hv, Bool.not_true, Bool.false_eq_true, and_false, if_false]
    rw [hi] at hbody ⊢
    simp only [hctx]
    cases hj : indexOf (pre ++ str!";phone-context=" ++ rest) rfcPrefix with
    | none =>
      simp only [hj] at hbody
      simp only [hbody, bind, Except.bind, hu, if_false, pure, Except.pure, List.nil_append, dropIsub_upto ht]
    | some j =>
      simp only [hj] at hbody
      simp only [hbody, bind, Except.bind, hu, if_false, pure, Except.pure, List.nil_append, dropIsub_upto ht]
  | plain h ht =>
    unfold buildNationalNumber
    rw [show rfcPhoneContext = str!";phone-context=" from rfl, indexOf_notIn h]
    simp only [Option.isSome_none, Bool.false_eq_true, false_and, if_false, extractPossibleNumber_eq, dropIsub_upto ht]

theorem prefix_self (p b : Str) : p.isPrefixOf (p ++ b) = true := by
  rw [List.isPrefixOf_iff_prefix]; exact ⟨b, rfl⟩

/-- Everything is analysed in one way, except a valid context at the very beginning and an invalid context. -/
theorem notIn_or (c : Nat) (q s : Str) : NotIn (c :: q) s ∨ ∃ a b, s = a ++ (c :: q) ++ b ∧ NotIn (c :: q) a := by
  cases hi : indexOf s (c :: q) with
  | none =>
    left
    rintro ⟨a, b, rfl⟩
    have := indexOf_none hi a.length
    rw [List.append_assoc, List.drop_left, prefix_self] at this
    cases this
  | some i =>
    right
    obtain ⟨t, ht⟩ := indexOf_prefix hi
    refine ⟨s.take i, t, by rw [List.append_assoc, ← ht, List.take_append_drop], ?_⟩
    rintro ⟨a, b, hab⟩
    have hlen := congrArg List.length hab
    simp only [List.length_take, List.length_append, List.length_cons] at hlen
    have hj : a.length < i := by omega
    have := indexOf_first hi hj
    have hs : s = a ++ ((c :: q) ++ (b ++ s.drop i)) := by
      have := (List.take_append_drop i s).symm
      rw [hab] at this
      simpa only [List.append_assoc] using this
    rw [hs, List.drop_left, prefix_self] at this
    cases this

end Verif
