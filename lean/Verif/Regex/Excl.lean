import Verif.Regex.Incl
/-!
# Texts accepted by some patterns and not by others

`excl f pos neg` is a check that no digit string is accepted by (one pattern of) each list of `pos` and by none of the lists of `neg`.
It follows the derivatives and stops where a list of `pos` is contained in one of `neg`.
-/
namespace Verif

/-- Equality of lists of ranges, by `Nat.beq`. -/
def sameRanges : List (Nat × Nat) → List (Nat × Nat) → Bool
  | [], [] => true
  | a :: s, b :: t => Nat.beq a.1 b.1 && Nat.beq a.2 b.2 && sameRanges s t
  | _, _ => false

/-- Equality of patterns (`false` is no answer). -/
def Re.same : Re → Re → Bool
  | .eps, .eps => true
  | .cls a, .cls b => a.props.isEmpty && b.props.isEmpty && !a.neg && !b.neg && sameRanges a.ranges b.ranges
  | .cat a b, .cat c d => Re.same a c && Re.same b d
  | .alt a b, .alt c d => Re.same a c && Re.same b d
  | .rep a m (some n) g, .rep b k (some l) h => Nat.beq m k && Nat.beq n l && (match g, h with | true, true => true | false, false => true | _, _ => false) && Re.same a b
  | .rep a m none g, .rep b k none h => Nat.beq m k && (match g, h with | true, true => true | false, false => true | _, _ => false) && Re.same a b
  | .grp n a, .grp k b => Nat.beq n k && Re.same a b
  | _, _ => false

theorem sameRanges_eq {a b : List (Nat × Nat)} (h : sameRanges a b = true) : a = b := by
  fun_induction sameRanges a b with
  | case1 => rfl
  | case2 a s b t ih =>
    simp only [Bool.and_eq_true] at h
    rw [ih h.2, show a = b from Prod.ext (Nat.eq_of_beq_eq_true h.1.1) (Nat.eq_of_beq_eq_true h.1.2)]
  | case3 => cases h

theorem Re.same_eq {a b : Re} (h : a.same b = true) : a = b := by
  have hb : ∀ {g h : Bool}, (match g, h with | true, true => true | false, false => true | _, _ => false) = true → g = h := by
    intro g h; cases g <;> cases h <;> simp
  fun_induction Re.same a b with
  | case1 => rfl
  | case2 a b =>
    simp only [Bool.and_eq_true, List.isEmpty_iff, Bool.not_eq_true'] at h
    obtain ⟨⟨⟨⟨h1, h2⟩, h3⟩, h4⟩, h5⟩ := h
    have := sameRanges_eq h5
    cases a; cases b
    simp_all
  | case3 a b c d iha ihb => simp only [Bool.and_eq_true] at h; rw [iha h.1, ihb h.2]
  | case4 a b c d iha ihb => simp only [Bool.and_eq_true] at h; rw [iha h.1, ihb h.2]
  | case5 a m n g b k l h' ih =>
    simp only [Bool.and_eq_true] at h
    rw [ih h.2, Nat.eq_of_beq_eq_true h.1.1.1, Nat.eq_of_beq_eq_true h.1.1.2, hb h.1.2]
  | case6 a m g b k h' ih =>
    simp only [Bool.and_eq_true] at h
    rw [ih h.2, Nat.eq_of_beq_eq_true h.1.1, hb h.1.2]
  | case7 n a k b ih => simp only [Bool.and_eq_true] at h; rw [ih h.2, Nat.eq_of_beq_eq_true h.1]
  | case8 => cases h

/-- A text of digits and nothing else. -/
def anyDigits : Re := .rep (.cls ⟨false, [(48, 57)], []⟩) 0 none true

/-- A text beginning with one the pattern accepts. -/
def Re.andMore (r : Re) : Re := .cat r anyDigits

/-- Every pattern of `P` is in `N`, or `N` accepts all digit strings. -/
def within (P N : List Re) : Bool := P.all fun a => N.any (a.same ·)

/-- Nothing can be accepted. -/
def exclDone (pos neg : List (List Re)) : Bool :=
  pos.any (·.isEmpty) || neg.any (fun N => N.any (anyDigits.same ·) || pos.any fun P => within P N)

/-- Equality of lists of patterns (`false` is no answer). -/
def sameList : List Re → List Re → Bool
  | [], [] => true
  | a :: s, b :: t => a.same b && sameList s t
  | _, _ => false

/-- Equality of lists of lists of patterns (`false` is no answer). -/
def sameLists : List (List Re) → List (List Re) → Bool
  | [], [] => true
  | a :: s, b :: t => sameList a b && sameLists s t
  | _, _ => false

/-- `g` holds of every pair; equal neighbours are looked at once. -/
def allDistinct (g : List (List Re) → List (List Re) → Bool) (q : List (List Re)) (m : List (List Re)) :
    List (List (List Re) × List (List Re)) → Bool
  | [] => true
  | x :: xs => (sameLists x.1 q && sameLists x.2 m || g x.1 x.2) && allDistinct g x.1 x.2 xs

/-- No digit string is accepted by a pattern of each list of `pos` and by no pattern of the lists of `neg` (`false` is no answer). -/
def excl : Nat → List (List Re) → List (List Re) → Bool
  | 0, pos, neg => exclDone pos neg
  | f + 1, pos, neg => exclDone pos neg ||
      ((!pos.all (·.any (·.nullable)) || neg.any (·.any (·.nullable))) &&
        match digitUnits.map fun u => (pos.map (pds u), neg.map (pds u)) with
        | [] => true
        | x :: xs => excl f x.1 x.2 && allDistinct (excl f) x.1 x.2 xs)

theorem sameList_eq {a b : List Re} (h : sameList a b = true) : a = b := by
  fun_induction sameList a b with
  | case1 => rfl
  | case2 a s b t ih => simp only [Bool.and_eq_true] at h; rw [Re.same_eq h.1, ih h.2]
  | case3 => cases h

theorem sameLists_eq {a b : List (List Re)} (h : sameLists a b = true) : a = b := by
  fun_induction sameLists a b with
  | case1 => rfl
  | case2 a s b t ih => simp only [Bool.and_eq_true] at h; rw [sameList_eq h.1, ih h.2]
  | case3 => cases h

theorem allDistinct_all {g : List (List Re) → List (List Re) → Bool} {q m : List (List Re)} {l : List (List (List Re) × List (List Re))}
    (h : allDistinct g q m l = true) (h0 : g q m = true) : ∀ x ∈ l, g x.1 x.2 = true := by
  induction l generalizing q m with
  | nil => simp
  | cons y l ih =>
    simp only [allDistinct, Bool.and_eq_true, Bool.or_eq_true] at h
    have hy : g y.1 y.2 = true := by
      rcases h.1 with h1 | h1
      · rw [sameLists_eq h1.1, sameLists_eq h1.2]; exact h0
      · exact h1
    intro x hx
    rcases List.mem_cons.1 hx with rfl | hx
    · exact hy
    · exact ih h.2 hy x hx

theorem anyDigits_acc {w : Str} (h : ∀ u ∈ w, isDig u = true) (p : Nat) (e : Str) : anyDigits.Acc p w e := by
  refine ⟨w.length, by simp, by simp, ?_⟩
  induction w generalizing p with
  | nil => rfl
  | cons u w ih =>
    refine ⟨[u], w, rfl, ⟨u, rfl, ?_⟩, ih (fun v hv => h v (by simp [hv])) _⟩
    have := mem_digitUnits (h u (by simp))
    exact (show ∀ u ∈ digitUnits, Cls.mem ⟨false, [(48, 57)], []⟩ u = true by decide) u this

theorem exclDone_sound {pos neg : List (List Re)} (h : exclDone pos neg = true) {w : Str} (hw : ∀ u ∈ w, isDig u = true)
    (hp : ∀ P ∈ pos, AccAny P w) (hn : ∀ N ∈ neg, ¬ AccAny N w) : False := by
  simp only [exclDone, Bool.or_eq_true, List.any_eq_true] at h
  rcases h with ⟨P, hP, h⟩ | ⟨N, hN, h⟩
  · obtain ⟨r, hr, -⟩ := hp P hP
    cases P with
    | nil => cases hr
    | cons => cases h
  · refine hn N hN ?_
    rcases h with ⟨r, hr, h⟩ | ⟨P, hP, h⟩
    · rw [← Re.same_eq h] at hr
      exact ⟨_, hr, anyDigits_acc hw _ _⟩
    · obtain ⟨r, hr, ha⟩ := hp P hP
      obtain ⟨b, hb, h⟩ := List.any_eq_true.1 (List.all_eq_true.1 h r hr)
      rw [← Re.same_eq h] at hb
      exact ⟨r, hb, ha⟩

theorem excl_sound {f : Nat} {pos neg : List (List Re)} (h : excl f pos neg = true) (hA : ∀ P ∈ pos, ∀ r ∈ P, r.noAnchor = true)
    (hB : ∀ N ∈ neg, ∀ r ∈ N, r.noAnchor = true) {w : Str} (hw : ∀ u ∈ w, isDig u = true)
    (hp : ∀ P ∈ pos, AccAny P w) (hn : ∀ N ∈ neg, ¬ AccAny N w) : False := by
  induction f generalizing pos neg w with
  | zero => exact exclDone_sound h hw hp hn
  | succ f ih =>
    simp only [excl, Bool.or_eq_true] at h
    rcases h with h | h
    · exact exclDone_sound h hw hp hn
    rw [Bool.and_eq_true] at h
    obtain ⟨h1, h2⟩ := h
    cases w with
    | nil =>
      simp only [Bool.or_eq_true, Bool.not_eq_true'] at h1
      rcases h1 with h1 | h1
      · rw [← Bool.not_eq_true, List.all_eq_true] at h1
        refine h1 fun P hP => ?_
        obtain ⟨r, hr, ha⟩ := hp P hP
        exact List.any_eq_true.2 ⟨r, hr, nullable_acc ha⟩
      · obtain ⟨N, hN, h1⟩ := List.any_eq_true.1 h1
        obtain ⟨r, hr, h1⟩ := List.any_eq_true.1 h1
        exact hn N hN ⟨r, hr, nullable_complete (hB N hN r hr) h1 _ _⟩
    | cons u w =>
      have key : excl f (pos.map (pds u)) (neg.map (pds u)) = true := by
        have hu : (pos.map (pds u), neg.map (pds u)) ∈ digitUnits.map fun u => (pos.map (pds u), neg.map (pds u)) :=
          List.mem_map.2 ⟨u, mem_digitUnits (hw u (by simp)), rfl⟩
        generalize (digitUnits.map fun u => (pos.map (pds u), neg.map (pds u))) = l at h2 hu
        cases l with
        | nil => cases hu
        | cons x xs =>
          simp only [Bool.and_eq_true] at h2
          rcases List.mem_cons.1 hu with hu | hu
          · have := h2.1; rw [← hu] at this; exact this
          · exact allDistinct_all h2.2 h2.1 _ hu
      refine ih (w := w) key ?_ ?_ (fun v hv => hw v (by simp [hv])) ?_ ?_
      · intro P hP
        obtain ⟨Q, hQ, rfl⟩ := List.mem_map.1 hP
        exact pds_noAnchor (hA Q hQ) u
      · intro P hP
        obtain ⟨Q, hQ, rfl⟩ := List.mem_map.1 hP
        exact pds_noAnchor (hB Q hQ) u
      · intro P hP
        obtain ⟨Q, hQ, rfl⟩ := List.mem_map.1 hP
        exact pds_acc (hA Q hQ) (hp Q hQ)
      · intro P hP hc
        obtain ⟨Q, hQ, rfl⟩ := List.mem_map.1 hP
        obtain ⟨x, hx, hx2⟩ := hc
        obtain ⟨b, hb, hx3⟩ := List.mem_flatMap.1 hx
        exact hn Q hQ ⟨b, hb, pd_complete (hB Q hQ b hb) hx3 (noAnchor_acc (pd_noAnchor (hB Q hQ b hb) u x hx3) hx2)⟩

end Verif
