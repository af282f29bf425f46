import Verif.Regex.Lang
import Verif.Regex.Static
import Verif.Lemmas.Dec
/-!
# Patterns made of digit groups

The formatting patterns of the metadata are sequences of capture groups of `\d{m,n}`.  On a string of digits such a pattern, used
without anchors, matches the longest possible prefix, and its groups are consecutive.
-/
namespace Verif

/-- The class contains all ASCII digits. -/
def Cls.hasDigits (c : Cls) : Bool := (List.range 10).all fun d => c.has (48 + d)

theorem Cls.hasDigits_mem {c : Cls} (h : c.hasDigits = true) {u : Nat} (hu : isDig u = true) : c.mem u = true := by
  simp only [isDig, Bool.and_eq_true, decide_eq_true_eq] at hu
  have := List.all_eq_true.1 h (u - 48) (by simp; omega)
  rw [show 48 + (u - 48) = u by omega] at this
  unfold Cls.mem rune
  rw [if_pos (by unfold badBase; omega)]
  exact this

/-- A sequence of digit classes with bounded greedy repetition, with groups. -/
def Re.uni : Re → Bool
  | .eps => true
  | .cls c => c.hasDigits
  | .cat a b => a.uni && b.uni
  | .rep (.cls c) mn (some mx) true => c.hasDigits && decide (mn ≤ mx)
  | .grp _ r => r.uni
  | _ => false

theorem findSome?_eq_find? {α β : Type} (l : List α) (g : α → Option β) (P : α → Bool) (h : ∀ a ∈ l, P a = (g a).isSome) :
    l.findSome? g = (l.find? P).bind g := by
  induction l with
  | nil => rfl
  | cons a l ih =>
    have ha := h a (by simp)
    cases hg : g a with
    | none => simp [hg, ha, ih (fun b hb => h b (by simp [hb]))]
    | some b => simp [hg, ha]

theorem iterL_cls {c : Cls} (hc : c.hasDigits = true) (n : Nat) (p : Nat) (s : Str) (caps) (hs : ∀ u ∈ s, isDig u = true) :
    iterL (Re.cls c).runs n ⟨p, s, caps⟩ = if n ≤ s.length then [⟨p + n, s.drop n, caps⟩] else [] := by
  induction n generalizing p s with
  | zero => simp [iterL]
  | succ n ih =>
    cases s with
    | nil => simp [iterL, Re.runs]
    | cons u t =>
      have hu := Cls.hasDigits_mem hc (hs u (by simp))
      have h1 : (Re.cls c).runs ⟨p, u :: t, caps⟩ = [⟨p + 1, t, caps⟩] := by simp [Re.runs, hu]
      rw [iterL, h1]
      simp only [List.flatMap_cons, List.flatMap_nil, List.append_nil, List.length_cons, List.drop_succ_cons]
      rw [ih (p + 1) t (fun v hv => hs v (by simp [hv]))]
      by_cases h : n ≤ t.length
      · rw [if_pos h, if_pos (by omega)]; simp; omega
      · rw [if_neg h, if_neg (by omega)]

theorem optL_cls_le (c : Cls) (n : Nat) (st : MSt) : ∀ st' ∈ optL (Re.cls c).runs true n st, st'.rest.length ≤ st.rest.length := by
  intro st' h
  obtain ⟨k, -, w, hw, -⟩ := optL_sound (fun st => runs_sound (.cls c) st) true n st st' h
  have := congrArg List.length hw
  simp at this; omega

theorem optL_cls_find {c : Cls} (hc : c.hasDigits = true) (n q : Nat) (p : Nat) (s : Str) (caps) (hs : ∀ u ∈ s, isDig u = true)
    (hq : q ≤ s.length) :
    ∃ st', (optL (Re.cls c).runs true n ⟨p, s, caps⟩).find? (fun st => decide (q ≤ st.rest.length)) = some st' ∧
      st'.rest = s.drop (min n (s.length - q)) := by
  induction n generalizing p s with
  | zero => exact ⟨⟨p, s, caps⟩, by simp [optL, hq], by simp⟩
  | succ n ih =>
    cases s with
    | nil => exact ⟨⟨p, [], caps⟩, by simp at hq; simp [optL, Re.runs, hq], by simp⟩
    | cons u t =>
      have hu := Cls.hasDigits_mem hc (hs u (by simp))
      have hfl : (List.filter (fun st' : MSt => decide (st'.rest.length < (u :: t).length)) ((Re.cls c).runs ⟨p, u :: t, caps⟩)).flatMap
          (optL (Re.cls c).runs true n) = optL (Re.cls c).runs true n ⟨p + 1, t, caps⟩ := by
        simp [Re.runs, hu]
      simp only [optL, if_true]
      rw [hfl, List.find?_append]
      by_cases h : q ≤ t.length
      · obtain ⟨st', h1, h2⟩ := ih (p + 1) t (fun v hv => hs v (by simp [hv])) h
        refine ⟨st', by simp [h1], ?_⟩
        rw [h2, List.length_cons, show min (n + 1) (t.length + 1 - q) = min n (t.length - q) + 1 by omega, List.drop_succ_cons]
      · have hnone : (optL (Re.cls c).runs true n ⟨p + 1, t, caps⟩).find? (fun st => decide (q ≤ st.rest.length)) = none := by
          rw [List.find?_eq_none]
          intro st' h'
          have := optL_cls_le c n _ st' h'
          simp at this ⊢; omega
        simp only [List.length_cons] at hq
        refine ⟨⟨p, u :: t, caps⟩, by simp [hnone]; omega, ?_⟩
        rw [List.length_cons, show min (n + 1) (t.length + 1 - q) = 0 by omega]; rfl

/-- The first way (in priority order) for a sequence of digit groups to match so that `q` digits are left is the longest one. -/
theorem uni_find (r : Re) (hr : r.uni = true) (M : Nat) (hM : r.maxLen = some M) (s : Str) (hs : ∀ u ∈ s, isDig u = true) (q : Nat)
    (hq : r.minLen + q ≤ s.length) (p : Nat) (caps) :
    ∃ st', (r.runs ⟨p, s, caps⟩).find? (fun st => decide (q ≤ st.rest.length)) = some st' ∧ st'.rest = s.drop (min M (s.length - q)) := by
  induction r generalizing M s q p caps with
  | eps =>
    simp only [Re.maxLen, Option.some.injEq] at hM; subst hM
    simp only [Re.minLen, Nat.zero_add] at hq
    exact ⟨⟨p, s, caps⟩, by simp [Re.runs, hq], by simp⟩
  | cls c =>
    simp only [Re.maxLen, Option.some.injEq] at hM; subst hM
    simp only [Re.minLen] at hq
    cases s with
    | nil => simp at hq
    | cons u t =>
      have hu := Cls.hasDigits_mem hr (hs u (by simp))
      simp only [List.length_cons] at hq
      refine ⟨⟨p + 1, t, caps⟩, by simp [Re.runs, hu]; omega, ?_⟩
      rw [List.length_cons, show min 1 (t.length + 1 - q) = 1 by omega]; rfl
  | cat a b iha ihb =>
    simp only [Re.uni, Bool.and_eq_true] at hr
    simp only [Re.maxLen] at hM
    cases hMa : a.maxLen with
    | none => simp [hMa] at hM
    | some Ma =>
      cases hMb : b.maxLen with
      | none => simp [hMa, hMb] at hM
      | some Mb =>
        simp only [hMa, hMb, Option.some.injEq] at hM; subst hM
        simp only [Re.minLen] at hq
        obtain ⟨st1, h1, h2⟩ := iha hr.1 Ma hMa s hs (q + b.minLen) (by omega) p caps
        -- the remaining text after any run of `a`
        have hrest : ∀ st ∈ a.runs ⟨p, s, caps⟩, ∀ u ∈ st.rest, isDig u = true := by
          intro st hst u hu
          obtain ⟨w, hw, -⟩ := runs_sound a _ st hst
          simp only at hw
          exact hs u (by rw [hw]; simp [hu])
        have hsome : ∀ st ∈ a.runs ⟨p, s, caps⟩, decide (q + b.minLen ≤ st.rest.length) =
            ((b.runs st).find? (fun st => decide (q ≤ st.rest.length))).isSome := by
          intro st hst
          by_cases hle : q + b.minLen ≤ st.rest.length
          · obtain ⟨st', e, -⟩ := ihb hr.2 Mb hMb st.rest (hrest st hst) q (by omega) st.pos st.caps
            rw [e]; simp [hle]
          · have : (b.runs st).find? (fun st => decide (q ≤ st.rest.length)) = none := by
              rw [List.find?_eq_none]
              intro st' h'
              obtain ⟨w, hw, -, hacc⟩ := runs_sound b st st' h'
              have hm := minLen_acc b _ _ _ hacc
              have := congrArg List.length hw
              simp at this ⊢; omega
            rw [this]; simp [hle]
        have hst1 : st1 ∈ a.runs ⟨p, s, caps⟩ := List.mem_of_find?_eq_some h1
        have hl1 : st1.rest.length = s.length - min Ma (s.length - (q + b.minLen)) := by rw [h2, List.length_drop]
        obtain ⟨st2, h3, h4⟩ := ihb hr.2 Mb hMb st1.rest (hrest st1 hst1) q (by omega) st1.pos st1.caps
        refine ⟨st2, ?_, ?_⟩
        · simp only [Re.runs]
          rw [List.find?_flatMap, findSome?_eq_find? _ _ _ hsome, h1]
          exact h3
        · have hM := maxLen_acc b Mb hMb
          have hmm : b.minLen ≤ Mb := by
            obtain ⟨w, hw, -, hacc⟩ := runs_sound b _ st2 (List.mem_of_find?_eq_some h3)
            have h5 := hM _ _ _ hacc
            have h6 := minLen_acc b _ _ _ hacc
            omega
          rw [h4, h2, List.drop_drop, List.length_drop]
          congr 1
          omega
  | alt a b => cases hr
  | rep r mn mx g _ =>
    cases r with
    | cls c =>
      cases mx with
      | none => cases hr
      | some mx =>
        cases g with
        | false => cases hr
        | true =>
          simp only [Re.uni, Bool.and_eq_true, decide_eq_true_eq] at hr
          simp only [Re.maxLen, Option.some.injEq] at hM
          simp only [Re.minLen] at hq
          have hmn : mn ≤ s.length := by omega
          obtain ⟨st', h1, h2⟩ := optL_cls_find hr.1 (mx - mn) q (p + mn) (s.drop mn) caps (fun u hu => hs u (List.mem_of_mem_drop hu))
            (by rw [List.length_drop]; omega)
          refine ⟨st', ?_, ?_⟩
          · rw [Re.runs, iterL_cls hr.1 mn p s caps hs, if_pos hmn]
            simpa using h1
          · rw [h2, List.drop_drop, List.length_drop]
            congr 1
            omega
    | _ => cases hr
  | grp n r ih =>
    obtain ⟨st', h1, h2⟩ := ih hr M hM s hs q hq p caps
    refine ⟨{ st' with caps := (n, p, st'.pos) :: st'.caps }, ?_, ?_⟩
    · simp only [Re.runs]
      rw [List.find?_map]
      rw [show ((fun st : MSt => decide (q ≤ st.rest.length)) ∘ fun st' : MSt => { st' with caps := (n, p, st'.pos) :: st'.caps }) =
        fun st : MSt => decide (q ≤ st.rest.length) from rfl, h1]
      rfl
    · exact h2
  | bos => cases hr
  | eos => cases hr

/-! ## Captures of a sequence of groups -/

/-- The numbers of the groups of a sequence of groups, in order. -/
def Re.tops : Re → Option (List Nat)
  | .grp n r => if r.groups = 0 then some [n] else none
  | .cat a b => match a.tops, b.tops with | some x, some y => some (x ++ y) | _, _ => none
  | _ => none

theorem groupBodies_nil (r : Re) (h : r.groups = 0) (n : Nat) : r.groupBodies n = [] := by
  induction r with
  | cat a b iha ihb =>
    simp only [Re.groups, Nat.add_eq_zero_iff] at h
    simp [Re.groupBodies, iha h.1, ihb h.2]
  | alt a b iha ihb =>
    simp only [Re.groups, Nat.add_eq_zero_iff] at h
    simp [Re.groupBodies, iha h.1, ihb h.2]
  | rep r _ _ _ ih => exact ih h
  | grp => simp [Re.groups] at h
  | _ => rfl

theorem runs_caps_none (r : Re) (h : r.groups = 0) (st : MSt) : ∀ st' ∈ r.runs st, st'.caps = st.caps := by
  intro st' hst
  obtain ⟨cs, h1, h2⟩ := runs_caps r st st' hst
  cases cs with
  | nil => simpa using h1
  | cons c cs =>
    obtain ⟨r', hr', -⟩ := h2 c (by simp)
    simp only [groupBodies_nil r h] at hr'
    cases hr'

/-- Consecutive spans from `a` to `b`. -/
def Chain : Nat → List (Nat × Nat) → Nat → Prop
  | a, [], b => a = b
  | a, (x, y) :: t, b => x = a ∧ x ≤ y ∧ Chain y t b

theorem Chain.append {a b c : Nat} {l1 l2 : List (Nat × Nat)} (h1 : Chain a l1 b) (h2 : Chain b l2 c) : Chain a (l1 ++ l2) c := by
  induction l1 generalizing a with
  | nil => simp only [Chain] at h1; subst h1; exact h2
  | cons p t ih => obtain ⟨x, y⟩ := p; exact ⟨h1.1, h1.2.1, ih h1.2.2⟩

theorem tops_caps (r : Re) (ns : List Nat) (h : r.tops = some ns) (st st' : MSt) (hr : st' ∈ r.runs st) :
    ∃ spans : List (Nat × Nat), spans.length = ns.length ∧ st'.caps = (ns.zip spans).reverse ++ st.caps ∧ Chain st.pos spans st'.pos := by
  induction r generalizing ns st st' with
  | grp n r _ =>
    simp only [Re.tops] at h
    split at h
    · rename_i h0
      cases h
      simp only [Re.runs, List.mem_map] at hr
      obtain ⟨s1, h1, rfl⟩ := hr
      obtain ⟨w, -, hp, -⟩ := runs_sound r st s1 h1
      refine ⟨[(st.pos, s1.pos)], rfl, ?_, rfl, by omega, rfl⟩
      simp [runs_caps_none r h0 st s1 h1]
    · cases h
  | cat a b iha ihb =>
    simp only [Re.tops] at h
    cases hA : a.tops with
    | none => simp [hA] at h
    | some xs =>
      cases hB : b.tops with
      | none => simp [hA, hB] at h
      | some ys =>
        simp only [hA, hB, Option.some.injEq] at h; subst h
        simp only [Re.runs, List.mem_flatMap] at hr
        obtain ⟨s1, h1, h2⟩ := hr
        obtain ⟨sp1, a1, a2, a3⟩ := iha xs hA st s1 h1
        obtain ⟨sp2, b1, b2, b3⟩ := ihb ys hB s1 st' h2
        refine ⟨sp1 ++ sp2, by simp [a1, b1], ?_, a3.append b3⟩
        rw [b2, a2, List.zip_append a1.symm]
        simp
  | _ => cases h

theorem Chain.le {a b : Nat} {l : List (Nat × Nat)} (h : Chain a l b) : a ≤ b := by
  induction l generalizing a with
  | nil => simp only [Chain] at h; omega
  | cons p t ih => obtain ⟨x, y⟩ := p; obtain ⟨h1, h2, h3⟩ := h; have := ih h3; omega

theorem slice_append {s : Str} {a b c : Nat} (h1 : a ≤ b) (h2 : b ≤ c) : slice s a b ++ slice s b c = slice s a c := by
  unfold slice
  rw [show s.drop b = (s.drop a).drop (b - a) by rw [List.drop_drop]; congr 1; omega]
  rw [← List.take_add]
  congr 1; omega

theorem Chain.slices {s : Str} {a b : Nat} {l : List (Nat × Nat)} (h : Chain a l b) :
    l.flatMap (fun p => slice s p.1 p.2) = slice s a b := by
  induction l generalizing a with
  | nil => simp only [Chain] at h; subst h; simp [slice]
  | cons p t ih =>
    obtain ⟨x, y⟩ := p; obtain ⟨rfl, h2, h3⟩ := h
    simp only [List.flatMap_cons]
    rw [ih h3, slice_append h2 h3.le]

/-- A sequence of groups that accepts the whole string of digits: without anchors it still matches the whole string, with
consecutive groups. -/
theorem uni_match (r : Re) (hr : r.uni = true) (ns : List Nat) (hn : r.tops = some ns) (s : Str) (hs : ∀ u ∈ s, isDig u = true)
    (ha : r.Acc 0 s []) (M : Nat) (hM : r.maxLen = some M) :
    ∃ x spans, r.find s = some x ∧ x.start = 0 ∧ x.stop = s.length ∧ spans.length = ns.length ∧ x.caps = (ns.zip spans).reverse ∧
      Chain 0 spans s.length := by
  obtain ⟨st', h1, h2⟩ := uni_find r hr M hM s hs 0 (by have := minLen_acc r _ _ _ ha; omega) 0 []
  have hmem := List.mem_of_find?_eq_some h1
  have hle := maxLen_acc r M hM _ _ _ ha
  have hrest : st'.rest = [] := by rw [h2]; simp; omega
  have hhead : (r.runs ⟨0, s, []⟩).head? = some st' := by
    cases hl : r.runs ⟨0, s, []⟩ with
    | nil => rw [hl] at h1; cases h1
    | cons y ys => rw [hl] at h1; simpa using h1
  have hm : r.matchAt 0 s = some ⟨0, st'.pos, st'.caps⟩ := by rw [matchAt_eq, hhead]; rfl
  have hf : r.find s = some ⟨0, st'.pos, st'.caps⟩ := by
    unfold Re.find
    cases s with
    | nil => exact hm
    | cons u t => simp [Re.findFrom, hm]
  obtain ⟨w, hw, hp, -⟩ := runs_sound r _ st' hmem
  simp only [hrest, List.append_nil, Nat.zero_add] at hw hp
  subst hw
  obtain ⟨spans, c1, c2, c3⟩ := tops_caps r ns hn _ st' hmem
  refine ⟨_, spans, hf, rfl, hp, c1, by simpa using c2, ?_⟩
  simp only [hp] at c3; exact c3

end Verif
