import Verif.Regex.First
/-!
# The match a greedy search prefers
-/
namespace Verif

/-- `st'` is the preferred result of `f` at `st`. -/
def First (f : MSt → List MSt) (st st' : MSt) : Prop := (f st).head? = some st'

theorem head?_flatMap {α β : Type} {l : List α} {f : α → List β} {x : α} {y : β} (h1 : l.head? = some x) (h2 : (f x).head? = some y) :
    (l.flatMap f).head? = some y := by
  cases l with
  | nil => cases h1
  | cons a t =>
    cases h1
    rw [List.flatMap_cons]
    cases hf : f x with
    | nil => rw [hf] at h2; cases h2
    | cons b t' => rw [hf] at h2; cases h2; rfl

theorem first_cat {a b : Re} {s1 s2 s3 : MSt} (h1 : First a.runs s1 s2) (h2 : First b.runs s2 s3) : First (Re.cat a b).runs s1 s3 :=
  head?_flatMap h1 h2

theorem first_cls {c : Cls} {u p : Nat} {t : Str} {cs : List (Nat × Nat × Nat)} (h : c.mem u = true) :
    First (Re.cls c).runs ⟨p, u :: t, cs⟩ ⟨p + 1, t, cs⟩ := by
  simp [First, Re.runs, h]

theorem optL_step {body : MSt → List MSt} {n : Nat} {s1 s2 s3 : MSt} (h1 : First body s1 s2) (hl : s2.rest.length < s1.rest.length)
    (h2 : First (optL body true n) s2 s3) : First (optL body true (n + 1)) s1 s3 := by
  unfold First optL
  simp only [if_true]
  rw [List.head?_append]
  have : ((body s1).filter fun st' => decide (st'.rest.length < s1.rest.length)).head? = some s2 := by
    unfold First at h1
    cases hb : body s1 with
    | nil => rw [hb] at h1; cases h1
    | cons x t =>
      rw [hb] at h1
      cases h1
      rw [List.filter_cons_of_pos (by simpa using hl)]
      rfl
  rw [head?_flatMap this h2]
  rfl

theorem optL_stop {body : MSt → List MSt} {n : Nat} {st : MSt} (h : body st = []) : First (optL body true n) st st := by
  cases n with
  | zero => rfl
  | succ n => unfold First optL; rw [h]; rfl

/-- Nothing is accepted, so nothing is found. -/
theorem runs_nil {r : Re} {st : MSt} (h : ∀ w e, st.rest = w ++ e → ¬ r.Acc st.pos w e) : r.runs st = [] := by
  cases hr : r.runs st with
  | nil => rfl
  | cons x t =>
    obtain ⟨w, h1, _, h3⟩ := runs_sound r st x (by rw [hr]; exact List.mem_cons_self ..)
    exact absurd h3 (h w _ h1)

/-- The unit after the word does not let the loop go on. -/
def Stops (c : Cls) (e : Str) : Prop := ∀ u, e.head? = some u → c.mem u = false

theorem runs_cls_stop {c : Cls} {p : Nat} {e : Str} {cs : List (Nat × Nat × Nat)} (h : Stops c e) : (Re.cls c).runs ⟨p, e, cs⟩ = [] := by
  cases e with
  | nil => rfl
  | cons u t => simp [Re.runs, h u rfl]

theorem optL_cls_first {c : Cls} {w : Str} (hw : ∀ u ∈ w, c.mem u = true) (n p : Nat) (e : Str) (cs : List (Nat × Nat × Nat))
    (hn : w.length ≤ n) (he : w.length = n ∨ Stops c e) : First (optL (Re.cls c).runs true n) ⟨p, w ++ e, cs⟩ ⟨p + w.length, e, cs⟩ := by
  induction w generalizing n p with
  | nil =>
    rcases he with rfl | he
    · rfl
    · exact optL_stop (runs_cls_stop he)
  | cons u w ih =>
    cases n with
    | zero => simp at hn
    | succ n =>
      refine optL_step (first_cls (hw u (by simp))) (by simp) ?_
      have := ih (fun v hv => hw v (by simp [hv])) n (p + 1) (by simpa using hn) (by simpa using he)
      simpa [Nat.add_assoc, Nat.add_comm 1] using this

theorem iterL_cls_first {c : Cls} {w : Str} (hw : ∀ u ∈ w, c.mem u = true) (p : Nat) (e : Str) (cs : List (Nat × Nat × Nat)) :
    First (iterL (Re.cls c).runs w.length) ⟨p, w ++ e, cs⟩ ⟨p + w.length, e, cs⟩ := by
  induction w generalizing p with
  | nil => rfl
  | cons u w ih =>
    refine head?_flatMap (first_cls (hw u (by simp))) ?_
    have := ih (fun v hv => hw v (by simp [hv])) (p + 1)
    rw [show p + 1 + w.length = p + (u :: w).length by simp; omega] at this
    exact this

/-- A greedy class takes all it can. -/
theorem first_rep_cls {c : Cls} {w : Str} (hw : ∀ u ∈ w, c.mem u = true) (mn x p : Nat) (e : Str) (cs : List (Nat × Nat × Nat))
    (h1 : mn ≤ w.length) (h2 : w.length ≤ x) (he : w.length = x ∨ Stops c e) :
    First (Re.rep (.cls c) mn (some x) true).runs ⟨p, w ++ e, cs⟩ ⟨p + w.length, e, cs⟩ := by
  have e1 : w = w.take mn ++ w.drop mn := (List.take_append_drop _ _).symm
  have hl : (w.take mn).length = mn := List.length_take_of_le h1
  have hd : (w.drop mn).length = w.length - mn := List.length_drop
  refine head?_flatMap (x := ⟨p + mn, w.drop mn ++ e, cs⟩) ?_ ?_
  · have := iterL_cls_first (c := c) (w := w.take mn) (fun u hu => hw u (List.mem_of_mem_take hu)) p (w.drop mn ++ e) cs
    rw [hl] at this
    rw [← List.append_assoc, List.take_append_drop] at this
    exact this
  · have := optL_cls_first (c := c) (w := w.drop mn) (fun u hu => hw u (List.mem_of_mem_drop hu)) (x - mn) (p + mn) e cs (by omega)
      (he.imp (fun h => by omega) id)
    rw [hd] at this
    rw [show p + mn + (w.length - mn) = p + w.length by omega] at this
    exact this

theorem first_rep0 {r : Re} {n : Nat} {st st' : MSt} (h : First (optL r.runs true n) st st') :
    First (Re.rep r 0 (some n) true).runs st st' := by
  refine head?_flatMap (x := st) rfl ?_
  exact h

theorem first_rep0_stop {r : Re} {n : Nat} {st : MSt} (h : r.runs st = []) : First (Re.rep r 0 (some n) true).runs st st :=
  first_rep0 (optL_stop h)

theorem matchAt_first {r : Re} {p q : Nat} {s e : Str} {cs : List (Nat × Nat × Nat)} (h : First r.runs ⟨p, s, []⟩ ⟨q, e, cs⟩) :
    r.matchAt p s = some ⟨p, q, cs⟩ := by
  rw [matchAt_eq, h]
  rfl

/-- Positions where no match can start are skipped. -/
theorem findFrom_skip {r : Re} (hm : 0 < r.minLen) {a : Str} (ha : ∀ u ∈ a, r.canStart u = false) (p : Nat) (s : Str) :
    r.findFrom p (a ++ s) = r.findFrom (p + a.length) s := by
  induction a generalizing p with
  | nil => rfl
  | cons u a ih =>
    have hn : r.matchAt p (u :: a ++ s) = none := by
      cases hx : r.matchAt p (u :: a ++ s) with
      | none => rfl
      | some x =>
        obtain ⟨_, w, e, h1, _, h3⟩ := matchAt_sound hx
        have := minLen_acc _ _ _ _ h3
        cases w with
        | nil => simp at this; omega
        | cons v w =>
          obtain ⟨rfl, _⟩ := List.cons.inj h1
          have := canStart_acc h3
          rw [ha u (by simp)] at this
          cases this
    rw [List.cons_append, Re.findFrom]
    rw [List.cons_append] at hn
    rw [hn]
    dsimp only
    rw [ih (fun v hv => ha v (by simp [hv]))]
    simp [Nat.add_assoc, Nat.add_comm 1]

/-! ## Units every accepted word has -/

/-- Every accepted word has a unit accepted by a class that satisfies `P`. -/
def Re.must (P : Cls → Bool) : Re → Bool
  | .eps | .bos | .eos => false
  | .cls c => P c
  | .cat a b => a.must P || b.must P
  | .alt a b => a.must P && b.must P
  | .rep r mn _ _ => decide (0 < mn) && r.must P
  | .grp _ r => r.must P

theorem must_acc {P : Cls → Bool} (r : Re) (hr : r.must P = true) (p : Nat) (w e : Str) (h : r.Acc p w e) :
    ∃ u ∈ w, ∃ c, P c = true ∧ c.mem u = true := by
  induction r generalizing p w e with
  | eps | bos | eos => cases hr
  | cls c => obtain ⟨u, rfl, hu⟩ := h; exact ⟨u, by simp, c, hr, hu⟩
  | cat a b iha ihb =>
    obtain ⟨w1, w2, rfl, h1, h2⟩ := h
    rcases Bool.or_eq_true _ _ ▸ hr with hr | hr
    · obtain ⟨u, hu, h⟩ := iha hr _ _ _ h1; exact ⟨u, by simp [hu], h⟩
    · obtain ⟨u, hu, h⟩ := ihb hr _ _ _ h2; exact ⟨u, by simp [hu], h⟩
  | alt a b iha ihb =>
    obtain ⟨hra, hrb⟩ := Bool.and_eq_true _ _ ▸ hr
    rcases h with h | h
    · exact iha hra _ _ _ h
    · exact ihb hrb _ _ _ h
  | rep r mn mx g ih =>
    simp only [Re.must, Bool.and_eq_true, decide_eq_true_eq] at hr
    obtain ⟨k, hk, _, h⟩ := h
    cases k with
    | zero => omega
    | succ k =>
      obtain ⟨w1, w2, rfl, h1, _⟩ := h
      obtain ⟨u, hu, h⟩ := ih hr.2 _ _ _ h1
      exact ⟨u, by simp [hu], h⟩
  | grp n r ih => exact ih hr _ _ _ h

end Verif
