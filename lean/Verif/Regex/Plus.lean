import Verif.Regex.Lang
import Verif.Regex.Uni
import Verif.Spec.Fields
/-!
# Patterns of the form `c+`

The matches of a one-or-more repetition of a character class are the maximal runs of the class.
-/
namespace Verif
open Spec

theorem mem_takeWhile_sat {P : Nat → Bool} {s : Str} {u : Nat} (h : u ∈ s.takeWhile P) : P u = true := by
  induction s with
  | nil => cases h
  | cons v s ih =>
    simp only [List.takeWhile_cons] at h
    split at h
    · rename_i hv
      rcases List.mem_cons.1 h with h | h
      · subst h; exact hv
      · exact ih h
    · cases h

theorem drop_takeWhile (P : Nat → Bool) (s : Str) : s.drop (s.takeWhile P).length = s.dropWhile P := by
  induction s with
  | nil => rfl
  | cons v s ih => cases hv : P v <;> simp [hv, ih]

theorem take_takeWhile (P : Nat → Bool) (s : Str) : s.take (s.takeWhile P).length = s.takeWhile P := by
  induction s with
  | nil => rfl
  | cons v s ih => cases hv : P v <;> simp [hv, ih]

theorem length_takeWhile_le (P : Nat → Bool) (s : Str) : (s.takeWhile P).length ≤ s.length :=
  (List.takeWhile_prefix P).length_le

/-! ## Maximal runs -/

theorem fieldsAux_skip (P : Nat → Bool) (a t : Str) (ha : ∀ u ∈ a, P u = false) : fieldsAux P (a ++ t) [] = fieldsAux P t [] := by
  induction a with
  | nil => rfl
  | cons u a ih =>
    simp only [List.cons_append, fieldsAux, ha u (by simp)]
    simpa using ih (fun v hv => ha v (by simp [hv]))

theorem fieldsAux_run (P : Nat → Bool) (b t cur : Str) (hb : ∀ u ∈ b, P u = true) :
    fieldsAux P (b ++ t) cur = fieldsAux P t (cur ++ b) := by
  induction b generalizing cur with
  | nil => simp
  | cons u b ih =>
    simp only [List.cons_append, fieldsAux, hb u (by simp), if_true]
    rw [ih _ (fun v hv => hb v (by simp [hv]))]
    simp

theorem fieldsAux_end (P : Nat → Bool) (t cur : Str) (hc : cur ≠ []) (ht : ∀ u ∈ t.head?, P u = false) :
    fieldsAux P t cur = cur :: fieldsAux P t [] := by
  cases t with
  | nil => simp [fieldsAux, hc]
  | cons u t =>
    have := ht u (by simp)
    simp [fieldsAux, this, hc]

theorem fields_flatten_aux (P : Nat → Bool) (s cur : Str) : (fieldsAux P s cur).flatten = cur ++ s.filter P := by
  induction s generalizing cur with
  | nil => by_cases h : cur = [] <;> simp [fieldsAux, h]
  | cons u t ih =>
    simp only [fieldsAux]
    cases hu : P u with
    | true => simp [ih, hu]
    | false => by_cases h : cur = [] <;> simp [ih, hu, h]

/-- The runs together are the characters satisfying `P`. -/
theorem fields_flatten (P : Nat → Bool) (s : Str) : (fields P s).flatten = s.filter P := fields_flatten_aux P s []

theorem fields_ne_nil_aux (P : Nat → Bool) (s cur : Str) : ∀ w ∈ fieldsAux P s cur, w ≠ [] := by
  induction s generalizing cur with
  | nil => by_cases h : cur = [] <;> simp [fieldsAux, h]
  | cons u t ih =>
    intro w hw
    simp only [fieldsAux] at hw
    split at hw
    · exact ih _ w hw
    · rcases List.mem_append.1 hw with h | h
      · split at h
        · cases h
        · rename_i hc; simp at h; subst h; exact hc
      · exact ih _ w h

theorem fields_ne_nil (P : Nat → Bool) (s : Str) : ∀ w ∈ fields P s, w ≠ [] := fields_ne_nil_aux P s []

theorem fields_all (P : Nat → Bool) (s : Str) : ∀ w ∈ fields P s, ∀ u ∈ w, P u = true := by
  intro w hw u hu
  have : u ∈ (fields P s).flatten := List.mem_flatten.2 ⟨w, hw, hu⟩
  rw [fields_flatten] at this
  exact (List.mem_filter.1 this).2

/-- One step: skip, then take a maximal run. -/
theorem fields_step (P : Nat → Bool) (s : Str) :
    fields P s = match s.dropWhile (fun u => !P u) with
      | [] => []
      | u :: t => (u :: t).takeWhile P :: fields P ((u :: t).dropWhile P) := by
  have h0 : fields P s = fields P (s.dropWhile fun u => !P u) := by
    conv => lhs; rw [← List.takeWhile_append_dropWhile (p := fun u => !P u) (l := s)]
    unfold fields
    rw [fieldsAux_skip]
    intro u hu
    have := mem_takeWhile_sat hu
    simpa using this
  rw [h0]
  cases hd : s.dropWhile (fun u => !P u) with
  | nil => rfl
  | cons u t =>
    have hu : P u = true := by
      have := List.head?_dropWhile_not (fun u => !P u) s
      rw [hd] at this
      simpa using this
    simp only
    conv => lhs; rw [← List.takeWhile_append_dropWhile (p := P) (l := u :: t)]
    unfold fields
    rw [fieldsAux_run _ _ _ _ (fun v hv => mem_takeWhile_sat hv), List.nil_append, fieldsAux_end]
    · simp [hu]
    · intro v hv
      have := List.head?_dropWhile_not P (u :: t)
      rw [Option.mem_def] at hv
      rw [hv] at this
      simpa using this

/-! ## Greedy repetition of a class -/

theorem optL_cls_head (c : Cls) (n : Nat) (p : Nat) (s : Str) (caps) (hn : s.length ≤ n) :
    (optL (Re.cls c).runs true n ⟨p, s, caps⟩).head? =
      some ⟨p + (s.takeWhile c.mem).length, s.dropWhile c.mem, caps⟩ := by
  induction n generalizing p s with
  | zero =>
    have : s = [] := List.length_eq_zero_iff.mp (by omega)
    subst this; simp [optL]
  | succ n ih =>
    cases s with
    | nil => simp [optL, Re.runs]
    | cons u t =>
      simp only [optL, if_true]
      cases hu : c.mem u with
      | true =>
        have hfl : (List.filter (fun st' : MSt => decide (st'.rest.length < (u :: t).length)) ((Re.cls c).runs ⟨p, u :: t, caps⟩)).flatMap
            (optL (Re.cls c).runs true n) = optL (Re.cls c).runs true n ⟨p + 1, t, caps⟩ := by
          simp [Re.runs, hu]
        rw [hfl, List.head?_append, ih (p + 1) t (by simp at hn; omega)]
        simp [hu]; omega
      | false =>
        have hfl : (List.filter (fun st' : MSt => decide (st'.rest.length < (u :: t).length)) ((Re.cls c).runs ⟨p, u :: t, caps⟩)).flatMap
            (optL (Re.cls c).runs true n) = [] := by
          simp [Re.runs, hu]
        rw [hfl]
        simp [hu]

theorem plus_head (c : Cls) (p : Nat) (s : Str) (caps) :
    ((Re.rep (.cls c) 1 none true).runs ⟨p, s, caps⟩).head? =
      if (s.takeWhile c.mem) = [] then none else some ⟨p + (s.takeWhile c.mem).length, s.dropWhile c.mem, caps⟩ := by
  cases s with
  | nil => simp [Re.runs, iterL]
  | cons u t =>
    cases hu : c.mem u with
    | true =>
      have h1 : (Re.cls c).runs ⟨p, u :: t, caps⟩ = [⟨p + 1, t, caps⟩] := by simp [Re.runs, hu]
      rw [Re.runs]
      simp only [iterL, h1, List.flatMap_cons, List.flatMap_nil, List.append_nil]
      rw [optL_cls_head c _ _ _ _ (Nat.le_refl _)]
      simp [hu]; omega
    | false =>
      have h1 : (Re.cls c).runs ⟨p, u :: t, caps⟩ = [] := by simp [Re.runs, hu]
      rw [Re.runs]
      simp [iterL, h1, hu]

/-- `r` matches, at a given position, exactly the maximal run of `P` there, if it is not empty. -/
def PlusOf (r : Re) (P : Nat → Bool) : Prop :=
  ∀ p s, (r.matchAt p s).map (fun x => (x.start, x.stop)) =
    if s.takeWhile P = [] then none else some (p, p + (s.takeWhile P).length)

theorem plusOf (c : Cls) : PlusOf (.rep (.cls c) 1 none true) c.mem := by
  intro p s
  rw [matchAt_eq, plus_head]
  split <;> simp

theorem plusOf_grp (n : Nat) (c : Cls) : PlusOf (.grp n (.rep (.cls c) 1 none true)) c.mem := by
  intro p s
  rw [matchAt_eq, Re.runs, List.head?_map, plus_head]
  split <;> simp

theorem PlusOf.matchAt_none {r : Re} {P : Nat → Bool} (h : PlusOf r P) (p : Nat) (s : Str) (hs : s.takeWhile P = []) : r.matchAt p s = none := by
  have := h p s
  rw [if_pos hs] at this
  simpa using this

theorem PlusOf.matchAt_some {r : Re} {P : Nat → Bool} (h : PlusOf r P) (p : Nat) (s : Str) (hs : s.takeWhile P ≠ []) :
    ∃ x, r.matchAt p s = some x ∧ x.start = p ∧ x.stop = p + (s.takeWhile P).length := by
  have := h p s
  rw [if_neg hs] at this
  simp only [Option.map_eq_some_iff, Prod.mk.injEq] at this
  exact this

theorem PlusOf.findFrom {r : Re} {P : Nat → Bool} (h : PlusOf r P) (p : Nat) (s : Str) :
    match s.dropWhile (fun u => !P u) with
    | [] => r.findFrom p s = none
    | u :: t => ∃ x, r.findFrom p s = some x ∧ x.start = p + (s.takeWhile fun u => !P u).length ∧
        x.stop = x.start + ((u :: t).takeWhile P).length := by
  induction s generalizing p with
  | nil => simpa [Re.findFrom] using h.matchAt_none p [] rfl
  | cons v s ih =>
    cases hv : P v with
    | true =>
      simp only [List.dropWhile_cons, hv, Bool.not_true, Bool.false_eq_true, if_false, List.takeWhile_cons, List.length_nil]
      obtain ⟨x, h1, h2, h3⟩ := h.matchAt_some p (v :: s) (by simp [hv])
      refine ⟨x, by rw [Re.findFrom, h1], by simp [h2], ?_⟩
      rw [h3, h2]; simp [hv]
    | false =>
      have hn := h.matchAt_none p (v :: s) (by simp [hv])
      have := ih (p + 1)
      simp only [List.dropWhile_cons, hv, Bool.not_false, if_true, List.takeWhile_cons]
      split
      · rename_i he
        rw [he] at this
        simp only at this
        rw [Re.findFrom, hn]; exact this
      · rename_i u t he
        rw [he] at this
        simp only at this
        obtain ⟨x, h1, h2, h3⟩ := this
        refine ⟨x, by rw [Re.findFrom, hn]; exact h1, by simp [h2]; omega, by rw [h3, List.takeWhile_cons]⟩

theorem PlusOf.loop {r : Re} {P : Nat → Bool} (h : PlusOf r P) (s : Str) (f pos : Nat) (prev : Option Nat)
    (hf : s.length - pos < f) (hp : pos ≤ s.length) :
    (findAllLoop r s f pos prev).map (fun x => slice s x.start x.stop) = fields P (s.drop pos) := by
  induction f generalizing pos prev with
  | zero => omega
  | succ f ih =>
    rw [findAllLoop, if_neg (by omega), fields_step]
    have hff := h.findFrom pos (s.drop pos)
    cases hd : (s.drop pos).dropWhile (fun u => !P u) with
    | nil =>
      rw [hd] at hff
      simp only at hff
      simp [hff]
    | cons u t =>
      rw [hd] at hff
      obtain ⟨x, h1, h2, h3⟩ := hff
      have hu : P u = true := by
        have := List.head?_dropWhile_not (fun u => !P u) (s.drop pos)
        rw [hd] at this
        simpa using this
      have hlen : 0 < ((u :: t).takeWhile P).length := by simp [hu]
      have hsplit : s.drop pos = (s.drop pos).takeWhile (fun u => !P u) ++ (u :: t) := by
        conv => lhs; rw [← List.takeWhile_append_dropWhile (p := fun u => !P u) (l := s.drop pos), hd]
      have hdrop : s.drop x.start = u :: t := by
        rw [h2, ← List.drop_drop, hsplit]
        conv => lhs; arg 1; rw [← hsplit]
        simp
      have hdrop2 : s.drop x.stop = (u :: t).dropWhile P := by
        rw [h3, ← List.drop_drop, hdrop, drop_takeWhile]
      have hstop : x.stop ≤ s.length := by
        have e1 := congrArg List.length hdrop
        have e2 := length_takeWhile_le P (u :: t)
        simp only [List.length_drop] at e1
        have : (u :: t).length = t.length + 1 := rfl
        omega
      simp only [h1]
      rw [if_neg (by omega), List.map_cons, ih _ _ (by omega) hstop, hdrop2]
      congr 1
      unfold slice
      rw [hdrop, h3, Nat.add_sub_cancel_left, take_takeWhile]

/-- All matches of `c+` are the maximal runs of `c`. -/
theorem PlusOf.findAll {r : Re} {P : Nat → Bool} (h : PlusOf r P) (s : Str) :
    (r.findAll s).map (fun x => slice s x.start x.stop) = fields P s := by
  have := h.loop s (s.length + 2) 0 none (by omega) (by omega)
  simpa [Re.findAll] using this

/-! ## Splitting -/

theorem piecesAux_run (P : Nat → Bool) (a t cur : Str) (ha : ∀ u ∈ a, P u = false) :
    piecesAux P (a ++ t) false cur = piecesAux P t false (cur ++ a) := by
  induction a generalizing cur with
  | nil => simp
  | cons u a ih =>
    simp only [List.cons_append, piecesAux, ha u (by simp)]
    rw [if_neg (by simp), ih _ (fun v hv => ha v (by simp [hv]))]
    simp

theorem piecesAux_sep (P : Nat → Bool) (a t cur : Str) (ha : ∀ u ∈ a, P u = true) :
    piecesAux P (a ++ t) true cur = piecesAux P t true cur := by
  induction a with
  | nil => rfl
  | cons u a ih =>
    simp only [List.cons_append, piecesAux, ha u (by simp), if_true]
    exact ih (fun v hv => ha v (by simp [hv]))

theorem piecesAux_mode (P : Nat → Bool) (t : Str) (ht : ∀ u ∈ t.head?, P u = false) (cur : Str) :
    piecesAux P t true cur = piecesAux P t false cur := by
  cases t with
  | nil => rfl
  | cons u t => simp [piecesAux, ht u (by simp)]

theorem pieces_flatten_aux (P : Nat → Bool) (s : Str) (b : Bool) (cur : Str) :
    (piecesAux P s b cur).flatten = cur ++ s.filter (fun u => !P u) := by
  induction s generalizing b cur with
  | nil => simp [piecesAux]
  | cons u t ih =>
    cases b <;> simp only [piecesAux] <;> cases hu : P u <;> simp [ih, hu]

/-- The pieces together are the characters that do not satisfy `P`. -/
theorem pieces_flatten (P : Nat → Bool) (s : Str) : (pieces P s).flatten = s.filter (fun u => !P u) := by
  simp [pieces, pieces_flatten_aux]

/-- One step: up to the first separator. -/
theorem pieces_step (P : Nat → Bool) (s : Str) :
    pieces P s = match s.dropWhile (fun u => !P u) with
      | [] => [s]
      | u :: t => s.takeWhile (fun u => !P u) :: pieces P ((u :: t).dropWhile P) := by
  have h0 : pieces P s = piecesAux P (s.dropWhile fun u => !P u) false (s.takeWhile fun u => !P u) := by
    conv => lhs; rw [← List.takeWhile_append_dropWhile (p := fun u => !P u) (l := s)]
    unfold pieces
    rw [piecesAux_run, List.nil_append]
    intro u hu
    have := mem_takeWhile_sat hu
    simpa using this
  rw [h0]
  cases hd : s.dropWhile (fun u => !P u) with
  | nil =>
    simp only [piecesAux, List.cons.injEq, and_true]
    have := List.takeWhile_append_dropWhile (p := fun u => !P u) (l := s)
    rw [hd] at this
    simpa using this
  | cons u t =>
    have hu : P u = true := by
      have := List.head?_dropWhile_not (fun u => !P u) s
      rw [hd] at this
      simpa using this
    simp only [piecesAux, hu, if_true, List.cons.injEq, true_and]
    conv => lhs; rw [← List.takeWhile_append_dropWhile (p := P) (l := t)]
    rw [piecesAux_sep _ _ _ _ (fun v hv => mem_takeWhile_sat hv), piecesAux_mode]
    · simp [pieces, hu]
    · intro v hv
      have := List.head?_dropWhile_not P t
      rw [Option.mem_def] at hv
      rw [hv] at this
      simpa using this

theorem PlusOf.splitLoop {r : Re} {P : Nat → Bool} (h : PlusOf r P) (s : Str) (f pos fin : Nat) (prev : Option Nat)
    (hf : s.length - pos < f) (hp : pos ≤ s.length) (hfin : fin < s.length) :
    splitLoop s (findAllLoop r s f pos prev) pos fin = pieces P (s.drop pos) := by
  induction f generalizing pos fin prev with
  | zero => omega
  | succ f ih =>
    rw [findAllLoop, if_neg (by omega), pieces_step]
    have hff := h.findFrom pos (s.drop pos)
    cases hd : (s.drop pos).dropWhile (fun u => !P u) with
    | nil =>
      rw [hd] at hff
      simp only at hff
      simp only [hff, Verif.splitLoop]
      rw [if_pos (by omega)]
    | cons u t =>
      rw [hd] at hff
      obtain ⟨x, h1, h2, h3⟩ := hff
      have hu : P u = true := by
        have := List.head?_dropWhile_not (fun u => !P u) (s.drop pos)
        rw [hd] at this
        simpa using this
      have hlen : 0 < ((u :: t).takeWhile P).length := by simp [hu]
      have hdrop : s.drop x.start = u :: t := by
        rw [h2, ← List.drop_drop, drop_takeWhile, hd]
      have hdrop2 : s.drop x.stop = (u :: t).dropWhile P := by
        rw [h3, ← List.drop_drop, hdrop, drop_takeWhile]
      have hstop : x.start < s.length ∧ x.stop ≤ s.length := by
        have e1 := congrArg List.length hdrop
        have e2 := length_takeWhile_le P (u :: t)
        simp only [List.length_drop] at e1
        have : (u :: t).length = t.length + 1 := rfl
        omega
      simp only [h1]
      rw [if_neg (by omega), Verif.splitLoop, if_pos (by omega), ih _ _ _ (by omega) hstop.2 hstop.1, hdrop2]
      congr 1
      unfold slice
      rw [h2, Nat.add_sub_cancel_left, take_takeWhile]

/-- Splitting at `c+` gives the pieces between the maximal runs of `c`. -/
theorem PlusOf.split {r : Re} {P : Nat → Bool} (h : PlusOf r P) (s : Str) : r.split s = pieces P s := by
  unfold Re.split
  split
  · rename_i h0; subst h0; rfl
  · rename_i h0
    have := List.length_pos_iff.2 h0
    have := h.splitLoop s (s.length + 2) 0 0 none (by omega) (by omega) (by omega)
    simpa [Re.findAll] using this

end Verif
