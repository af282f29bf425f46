import Verif.Regex.First
import Verif.Regex.Lens
/-!
# Derivatives of patterns

`Re.pd r u` is a list of patterns that together accept the rest of every text beginning with `u` that `r` accepts.  On top of it: a
check that of two patterns the first accepts a beginning of a text of the second only under given circumstances, and a check that
several patterns have no common text.  Only digits are considered.  The patterns must have no anchors.
-/
namespace Verif

/-- Concatenation without a leading empty pattern. -/
def Re.seq (a b : Re) : Re := match a with | .eps => b | a => .cat a b

/-- What is left to accept after the unit `u`. -/
def Re.pd (u : Nat) : Re → List Re
  | .eps | .bos | .eos => []
  | .cls c => match c.mem u with | true => [.eps] | false => []
  | .cat a b => match a.nullable with
    | true => (a.pd u).map (·.seq b) ++ b.pd u
    | false => (a.pd u).map (·.seq b)
  | .alt a b => a.pd u ++ b.pd u
  | .grp _ r => r.pd u
  | .rep r mn mx g => match mx with
    | some 0 => match mn with
      | 0 => []
      | mn + 1 => (r.pd u).map (·.seq (.rep r mn (some 0) g))
    | some (x + 1) => (r.pd u).map (·.seq (.rep r (mn - 1) (some x) g))
    | none => (r.pd u).map (·.seq (.rep r (mn - 1) none g))

theorem acc_seq {a b : Re} {p : Nat} {w e : Str} : (a.seq b).Acc p w e ↔ (Re.cat a b).Acc p w e := by
  unfold Re.seq
  split
  · constructor
    · exact fun h => ⟨[], w, rfl, rfl, h⟩
    · rintro ⟨w1, w2, rfl, h1, h2⟩
      obtain rfl : w1 = [] := h1
      exact h2
  · rfl

theorem noAnchor_seq {a b : Re} (ha : a.noAnchor = true) (hb : b.noAnchor = true) : (a.seq b).noAnchor = true := by
  unfold Re.seq
  split
  · exact hb
  · simp [Re.noAnchor, ha, hb]

/-- Iterations of which the first non-empty one is brought to the front. -/
theorem iterP_front {r : Re} (hr : r.noAnchor = true) {k p : Nat} {u : Nat} {w e : Str} (h : iterP r.Acc k p (u :: w) e) :
    ∃ j w1 w2, k = j + 1 ∧ w = w1 ++ w2 ∧ r.Acc p (u :: w1) (w2 ++ e) ∧ iterP r.Acc j (p + (u :: w1).length) w2 e := by
  induction k generalizing p with
  | zero => cases h
  | succ k ih =>
    obtain ⟨w1, w2, h1, h2, h3⟩ := h
    cases w1 with
    | nil =>
      simp only [List.nil_append] at h1
      subst h1
      obtain ⟨j, v1, v2, rfl, rfl, h4, h5⟩ := ih h3
      exact ⟨j + 1, v1, v2, rfl, rfl, by simpa using h4, [], v2, rfl, noAnchor_acc hr h2, by simpa using h5⟩
    | cons v w1 =>
      simp only [List.cons_append, List.cons.injEq] at h1
      obtain ⟨rfl, rfl⟩ := h1
      exact ⟨k, w1, w2, rfl, rfl, h2, h3⟩

theorem pd_noAnchor {r : Re} (hr : r.noAnchor = true) (u : Nat) : ∀ x ∈ r.pd u, x.noAnchor = true := by
  induction r with
  | eps | bos | eos => simp [Re.pd]
  | cls c => simp only [Re.pd]; split <;> simp [Re.noAnchor]
  | cat a b iha ihb =>
    simp only [Re.noAnchor, Bool.and_eq_true] at hr
    intro x hx
    have hx : x ∈ (a.pd u).map (·.seq b) ∨ x ∈ b.pd u := by
      simp only [Re.pd] at hx
      split at hx
      · exact List.mem_append.1 hx
      · exact .inl hx
    rcases hx with hx | hx
    · obtain ⟨y, hy, rfl⟩ := List.mem_map.1 hx
      exact noAnchor_seq (iha hr.1 y hy) hr.2
    · exact ihb hr.2 x hx
  | alt a b iha ihb =>
    simp only [Re.noAnchor, Bool.and_eq_true] at hr
    intro x hx
    rcases List.mem_append.1 hx with hx | hx
    · exact iha hr.1 x hx
    · exact ihb hr.2 x hx
  | grp n r ih => exact ih hr
  | rep r mn mx g ih =>
    intro x hx
    simp only [Re.pd] at hx
    have hr0 : ∀ a b, (Re.rep r a b g).noAnchor = true := fun _ _ => hr
    have : ∃ r', r'.noAnchor = true ∧ x ∈ (r.pd u).map (·.seq r') := by
      split at hx
      · split at hx
        · cases hx
        · exact ⟨_, hr0 _ _, hx⟩
      · exact ⟨_, hr0 _ _, hx⟩
      · exact ⟨_, hr0 _ _, hx⟩
    obtain ⟨r', hr', hx⟩ := this
    obtain ⟨y, hy, rfl⟩ := List.mem_map.1 hx
    exact noAnchor_seq (ih hr y hy) hr'

/-- Derivatives accept the rest. -/
theorem pd_acc {r : Re} (hr : r.noAnchor = true) {p u : Nat} {w e : Str} (h : r.Acc p (u :: w) e) : ∃ x ∈ r.pd u, x.Acc (p + 1) w e := by
  induction r generalizing p w e with
  | eps => cases h
  | bos => cases h.2
  | eos => cases h.1
  | cls c =>
    obtain ⟨v, hv, hc⟩ := h
    simp only [List.cons.injEq] at hv
    obtain ⟨rfl, rfl⟩ := hv
    exact ⟨.eps, by simp [Re.pd, hc], rfl⟩
  | cat a b iha ihb =>
    simp only [Re.noAnchor, Bool.and_eq_true] at hr
    obtain ⟨w1, w2, h1, h2, h3⟩ := h
    cases w1 with
    | nil =>
      simp only [List.nil_append] at h1
      subst h1
      obtain ⟨x, hx, h4⟩ := ihb hr.2 h3
      refine ⟨x, ?_, by simpa using h4⟩
      simp only [Re.pd, nullable_acc h2]
      exact List.mem_append_right _ hx
    | cons v w1 =>
      simp only [List.cons_append, List.cons.injEq] at h1
      obtain ⟨rfl, rfl⟩ := h1
      obtain ⟨x, hx, h4⟩ := iha hr.1 h2
      refine ⟨x.seq b, ?_, acc_seq.2 ⟨w1, w2, rfl, h4, ?_⟩⟩
      · simp only [Re.pd]
        split
        · exact List.mem_append_left _ (List.mem_map_of_mem hx)
        · exact List.mem_map_of_mem hx
      · have : p + 1 + w1.length = p + (u :: w1).length := by simp; omega
        rw [this]; exact h3
  | alt a b iha ihb =>
    simp only [Re.noAnchor, Bool.and_eq_true] at hr
    rcases h with h | h
    · obtain ⟨x, hx, h4⟩ := iha hr.1 h; exact ⟨x, List.mem_append_left _ hx, h4⟩
    · obtain ⟨x, hx, h4⟩ := ihb hr.2 h; exact ⟨x, List.mem_append_right _ hx, h4⟩
  | grp n r ih => exact ih hr h
  | rep r mn mx g ih =>
    obtain ⟨k, h1, h2, h3⟩ := h
    obtain ⟨j, w1, w2, rfl, rfl, h4, h5⟩ := iterP_front (r := r) hr h3
    obtain ⟨x, hx, h6⟩ := ih hr h4
    have e1 : p + 1 + w1.length = p + (u :: w1).length := by simp; omega
    simp only [Re.pd]
    split
    · have := h2 0 rfl
      split
      · omega
      · refine ⟨_, List.mem_map_of_mem hx, acc_seq.2 ⟨w1, w2, rfl, h6, j, by omega, ?_, by rw [e1]; exact h5⟩⟩
        intro y hy; cases hy; omega
    · rename_i z
      refine ⟨_, List.mem_map_of_mem hx, acc_seq.2 ⟨w1, w2, rfl, h6, j, by omega, ?_, by rw [e1]; exact h5⟩⟩
      intro y hy; have := h2 (z + 1) rfl; cases hy; omega
    · exact ⟨_, List.mem_map_of_mem hx, acc_seq.2 ⟨w1, w2, rfl, h6, j, by omega, by simp, by rw [e1]; exact h5⟩⟩

/-- The derivatives of a list of patterns. -/
def pds (u : Nat) (l : List Re) : List Re := l.flatMap (Re.pd u)

/-- A digit string is accepted by one of the patterns. -/
def AccAny (l : List Re) (w : Str) : Prop := ∃ r ∈ l, r.Acc 0 w []

theorem pds_noAnchor {l : List Re} (h : ∀ r ∈ l, r.noAnchor = true) (u : Nat) : ∀ r ∈ pds u l, r.noAnchor = true := by
  intro x hx
  obtain ⟨r, hr, hx⟩ := List.mem_flatMap.1 hx
  exact pd_noAnchor (h r hr) u x hx

theorem pds_acc {l : List Re} (h : ∀ r ∈ l, r.noAnchor = true) {u : Nat} {w : Str} (ha : AccAny l (u :: w)) : AccAny (pds u l) w := by
  obtain ⟨r, hr, ha⟩ := ha
  obtain ⟨x, hx, hx2⟩ := pd_acc (h r hr) ha
  exact ⟨x, List.mem_flatMap.2 ⟨r, hr, hx⟩, noAnchor_acc (pd_noAnchor (h r hr) u x hx) hx2⟩

/-- The digits. -/
def digitUnits : List Nat := [48, 49, 50, 51, 52, 53, 54, 55, 56, 57]

theorem mem_digitUnits {u : Nat} (h : isDig u = true) : u ∈ digitUnits := by
  simp only [isDig, Bool.and_eq_true, decide_eq_true_eq] at h
  simp only [digitUnits, List.mem_cons, List.not_mem_nil, or_false]
  omega

/-- No digit string is accepted by one pattern of each of the lists (`false` is no answer). -/
def noCommon : Nat → List (List Re) → Bool
  | 0, Gs => Gs.any (·.isEmpty)
  | f + 1, Gs => Gs.any (·.isEmpty) ||
      (!Gs.all (·.any (·.nullable)) && digitUnits.all fun u => noCommon f (Gs.map (pds u)))

theorem noCommon_sound {f : Nat} {Gs : List (List Re)} (h : noCommon f Gs = true) (hG : ∀ G ∈ Gs, ∀ r ∈ G, r.noAnchor = true) {w : Str}
    (hw : ∀ u ∈ w, isDig u = true) : ¬ ∀ G ∈ Gs, AccAny G w := by
  intro hc
  have hne : Gs.any (·.isEmpty) = false := by
    rw [List.any_eq_false]
    intro G hG
    obtain ⟨r, hr, -⟩ := hc G hG
    cases G with
    | nil => cases hr
    | cons => simp
  induction f generalizing Gs w with
  | zero => rw [noCommon, hne] at h; cases h
  | succ f ih =>
    rw [noCommon, hne, Bool.false_or, Bool.and_eq_true] at h
    cases w with
    | nil =>
      have : Gs.all (·.any (·.nullable)) = true := by
        rw [List.all_eq_true]
        intro G hG
        obtain ⟨r, hr, ha⟩ := hc G hG
        exact List.any_eq_true.2 ⟨r, hr, nullable_acc ha⟩
      simp [this] at h
    | cons u w =>
      have hu := List.all_eq_true.1 h.2 u (mem_digitUnits (hw u (by simp)))
      have hG' : ∀ G ∈ Gs.map (pds u), ∀ r ∈ G, r.noAnchor = true := by
        intro G hg
        obtain ⟨G0, h0, rfl⟩ := List.mem_map.1 hg
        exact pds_noAnchor (hG G0 h0) u
      have hc' : ∀ G ∈ Gs.map (pds u), AccAny G w := by
        intro G hg
        obtain ⟨G0, h0, rfl⟩ := List.mem_map.1 hg
        exact pds_acc (hG G0 h0) (hc G0 h0)
      refine ih hu hG' (fun v hv => hw v (by simp [hv])) hc' ?_
      rw [List.any_eq_false]
      intro G hg
      obtain ⟨r, hr, -⟩ := hc' G hg
      cases G with
      | nil => cases hr
      | cons => simp

/-- Whenever one of the patterns `A` accepts a beginning of a digit string that is accepted by one pattern of each of the lists
`Gs`, `ok` holds of the length of the beginning and of patterns for the rest. -/
def heads (ok : Nat → List (List Re) → Bool) : Nat → Nat → List Re → List (List Re) → Bool
  | 0, _, A, Gs => A.isEmpty || Gs.any (·.isEmpty)
  | f + 1, d, A, Gs => A.isEmpty || Gs.any (·.isEmpty) ||
      ((!A.any (·.nullable) || ok d Gs) && digitUnits.all fun u => heads ok f (d + 1) (pds u A) (Gs.map (pds u)))

theorem heads_sound {ok : Nat → List (List Re) → Bool} {f d : Nat} {A : List Re} {Gs : List (List Re)} (h : heads ok f d A Gs = true)
    (hA : ∀ r ∈ A, r.noAnchor = true) (hG : ∀ G ∈ Gs, ∀ r ∈ G, r.noAnchor = true) {w e : Str} (hw : ∀ u ∈ w, isDig u = true)
    (ha : AccAny A w) (hc : ∀ G ∈ Gs, AccAny G (w ++ e)) :
    ∃ Gs', ok (d + w.length) Gs' = true ∧ (∀ G ∈ Gs', ∀ r ∈ G, r.noAnchor = true) ∧ ∀ G ∈ Gs', AccAny G e := by
  have hA0 : A.isEmpty = false := by
    obtain ⟨r, hr, -⟩ := ha
    cases A with
    | nil => cases hr
    | cons => rfl
  have hne : Gs.any (·.isEmpty) = false := by
    rw [List.any_eq_false]
    intro G hG
    obtain ⟨r, hr, -⟩ := hc G hG
    cases G with
    | nil => cases hr
    | cons => simp
  induction f generalizing d A Gs w with
  | zero => rw [heads, hne, hA0] at h; cases h
  | succ f ih =>
    rw [heads, hne, hA0, Bool.false_or, Bool.false_or, Bool.and_eq_true] at h
    cases w with
    | nil =>
      have : A.any (·.nullable) = true := by
        obtain ⟨r, hr, ha⟩ := ha
        exact List.any_eq_true.2 ⟨r, hr, nullable_acc ha⟩
      rw [this] at h
      exact ⟨Gs, by simpa using h.1, hG, hc⟩
    | cons u w =>
      have hu := List.all_eq_true.1 h.2 u (mem_digitUnits (hw u (by simp)))
      have ha' := pds_acc hA ha
      have hG' : ∀ G ∈ Gs.map (pds u), ∀ r ∈ G, r.noAnchor = true := by
        intro G hg
        obtain ⟨G0, h0, rfl⟩ := List.mem_map.1 hg
        exact pds_noAnchor (hG G0 h0) u
      have hc' : ∀ G ∈ Gs.map (pds u), AccAny G (w ++ e) := by
        intro G hg
        obtain ⟨G0, h0, rfl⟩ := List.mem_map.1 hg
        exact pds_acc (hG G0 h0) (hc G0 h0)
      obtain ⟨Gs', k1, k2, k3⟩ := ih hu (pds_noAnchor hA u) hG' (fun v hv => hw v (by simp [hv])) ha' hc' (by
        obtain ⟨r, hr, -⟩ := ha'
        generalize pds u A = B at hr
        cases B with
        | nil => cases hr
        | cons => rfl) (by
        rw [List.any_eq_false]
        intro G hg
        obtain ⟨r, hr, -⟩ := hc' G hg
        cases G with
        | nil => cases hr
        | cons => simp)
      exact ⟨Gs', by rw [← k1]; congr 1; simp; omega, k2, k3⟩

/-- A pattern that accepts only at the end of the text. -/
def Re.endsEos : Re → Bool
  | .eos => true
  | .cat _ b => b.endsEos
  | .alt a b => a.endsEos && b.endsEos
  | .grp _ r => r.endsEos
  | _ => false

theorem endsEos_acc {r : Re} (hr : r.endsEos = true) {p : Nat} {w e : Str} (h : r.Acc p w e) : e = [] := by
  induction r generalizing p w with
  | eos => exact h.2
  | cat a b _ ihb => obtain ⟨w1, w2, -, -, h2⟩ := h; exact ihb hr h2
  | alt a b iha ihb =>
    simp only [Re.endsEos, Bool.and_eq_true] at hr
    rcases h with h | h
    · exact iha hr.1 h
    · exact ihb hr.2 h
  | grp n r ih => exact ih hr h
  | _ => cases hr

end Verif
