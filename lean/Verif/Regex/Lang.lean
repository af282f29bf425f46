import Verif.Regex.Sem
/-!
# Regular expressions: declarative specification and its agreement with the matcher

`Re.Acc r p w e` says that `r` accepts the text `w` when `w` starts at position `p` of the subject and `e` follows it.  (The position and
the rest of the subject matter only for `^` and `$`.)  The definition does not mention priorities, backtracking or
captures.  `Re.runs` lists all ways to match in priority order; `m_eq_runs` says that the backtracking matcher returns the
first success in that list; `runs_sound` and `runs_complete` say that the list contains exactly the accepted texts.
-/
namespace Verif

/-- `k` consecutive texts accepted by `P`. -/
def iterP (P : Nat → Str → Str → Prop) : Nat → Nat → Str → Str → Prop
  | 0, _, w, _ => w = []
  | k + 1, p, w, e => ∃ w1 w2, w = w1 ++ w2 ∧ P p w1 (w2 ++ e) ∧ iterP P k (p + w1.length) w2 e

/-- The declarative meaning of a regular expression. -/
def Re.Acc : Re → Nat → Str → Str → Prop
  | .eps, _, w, _ => w = []
  | .cls c, _, w, _ => ∃ u, w = [u] ∧ c.mem u = true
  | .cat a b, p, w, e => ∃ w1 w2, w = w1 ++ w2 ∧ a.Acc p w1 (w2 ++ e) ∧ b.Acc (p + w1.length) w2 e
  | .alt a b, p, w, e => a.Acc p w e ∨ b.Acc p w e
  | .rep r mn mx _, p, w, e => ∃ k, mn ≤ k ∧ (∀ x, mx = some x → k ≤ mn + (x - mn)) ∧ iterP r.Acc k p w e
  | .grp _ r, p, w, e => r.Acc p w e
  | .bos, p, w, _ => p = 0 ∧ w = []
  | .eos, _, w, e => w = [] ∧ e = []

/-! ## All matches in priority order -/

/-- All results of `n` mandatory iterations. -/
def iterL (body : MSt → List MSt) : Nat → MSt → List MSt
  | 0, st => [st]
  | n + 1, st => (body st).flatMap (iterL body n)

/-- All results of up to `n` optional iterations. -/
def optL (body : MSt → List MSt) (greedy : Bool) : Nat → MSt → List MSt
  | 0, st => [st]
  | n + 1, st =>
    let more := ((body st).filter (fun st' => decide (st'.rest.length < st.rest.length))).flatMap (optL body greedy n)
    if greedy then more ++ [st] else st :: more

/-- All ways to match, in priority order. -/
def Re.runs : Re → MSt → List MSt
  | .eps, st => [st]
  | .cls c, st =>
    match st.rest with
    | [] => []
    | u :: t => if c.mem u then [⟨st.pos + 1, t, st.caps⟩] else []
  | .cat a b, st => (a.runs st).flatMap b.runs
  | .alt a b, st => a.runs st ++ b.runs st
  | .rep r mn mx g, st =>
    (iterL r.runs mn st).flatMap fun st' => optL r.runs g (match mx with | some x => x - mn | none => st'.rest.length) st'
  | .grp n r, st => (r.runs st).map fun st' => { st' with caps := (n, st.pos, st'.pos) :: st'.caps }
  | .bos, st => if st.pos = 0 then [st] else []
  | .eos, st => if st.rest = [] then [st] else []

theorem findSome?_flatMap' {α β γ : Type} (l : List α) (f : α → List β) (k : β → Option γ) :
    (l.flatMap f).findSome? k = l.findSome? (fun a => (f a).findSome? k) := by
  induction l with
  | nil => rfl
  | cons a l ih =>
    simp only [List.flatMap_cons, List.findSome?_append, List.findSome?_cons, ih]
    cases (f a).findSome? k <;> rfl

theorem iterM_eq {β : Type} {bm : MSt → (MSt → Option β) → Option β} {bl : MSt → List MSt}
    (h : ∀ st k, bm st k = (bl st).findSome? k) (n : Nat) (st : MSt) (k : MSt → Option β) :
    iterM bm n st k = (iterL bl n st).findSome? k := by
  induction n generalizing st with
  | zero => simp [iterM, iterL]
  | succ n ih => simp only [iterM, iterL, h, findSome?_flatMap', ih]

theorem findSome?_filter_if {γ β : Type} (l : List γ) (P : γ → Prop) [DecidablePred P] (k : γ → Option β) :
    l.findSome? (fun a => if P a then k a else none) = (l.filter (fun a => decide (P a))).findSome? k := by
  induction l with
  | nil => rfl
  | cons a l ih =>
    by_cases h : P a
    · simp [h, List.findSome?_cons, ih]
    · simp [h, ih]

theorem optM_eq {β : Type} {bm : MSt → (MSt → Option β) → Option β} {bl : MSt → List MSt}
    (h : ∀ st k, bm st k = (bl st).findSome? k) (g : Bool) (n : Nat) (st : MSt) (k : MSt → Option β) :
    optM bm g n st k = (optL bl g n st).findSome? k := by
  induction n generalizing st with
  | zero => simp [optM, optL]
  | succ n ih =>
    have hb : bm st (fun st' => if st'.rest.length < st.rest.length then optM bm g n st' k else none) =
        (((bl st).filter (fun st' => decide (st'.rest.length < st.rest.length))).flatMap (optL bl g n)).findSome? k := by
      rw [h, findSome?_flatMap', findSome?_filter_if]
      congr 1; funext st'; exact ih st'
    cases g with
    | true =>
      simp only [optM, optL, hb, if_true, List.findSome?_append]
      cases (List.findSome? k (List.flatMap (optL bl true n)
        (List.filter (fun st' => decide (st'.rest.length < st.rest.length)) (bl st)))) <;> simp
    | false =>
      simp only [optM, optL, hb]
      simp only [Bool.false_eq_true, if_false, List.findSome?_cons]
      cases k st <;> rfl

/-- The backtracking matcher returns the first success in priority order. -/
theorem m_eq_runs {β : Type} (r : Re) (st : MSt) (k : MSt → Option β) : r.m st k = (r.runs st).findSome? k := by
  induction r generalizing st k with
  | eps => simp [Re.m, Re.runs]
  | cls c =>
    simp only [Re.m, Re.runs]
    cases st.rest with
    | nil => rfl
    | cons u t => by_cases h : c.mem u = true <;> simp [h]
  | cat a b iha ihb => simp only [Re.m, Re.runs, findSome?_flatMap', iha, ihb]
  | alt a b iha ihb =>
    simp only [Re.m, Re.runs, List.findSome?_append, iha, ihb]
    cases (a.runs st).findSome? k <;> rfl
  | rep r mn mx g ih =>
    simp only [Re.m, Re.runs, findSome?_flatMap']
    rw [iterM_eq (bl := r.runs) (fun st k => ih st k)]
    congr 1; funext st'
    rw [optM_eq (bl := r.runs) (fun st k => ih st k)]
    cases mx <;> rfl
  | grp n r ih =>
    simp only [Re.m, Re.runs, ih, List.findSome?_map]
    rfl
  | bos => simp only [Re.m, Re.runs]; split <;> simp
  | eos => simp only [Re.m, Re.runs]; split <;> simp

/-! ## Soundness -/

/-- `st'` is reached from `st` by consuming a text accepted by `P`. -/
def Reach (P : Nat → Str → Str → Prop) (st st' : MSt) : Prop :=
  ∃ w, st.rest = w ++ st'.rest ∧ st'.pos = st.pos + w.length ∧ P st.pos w st'.rest

theorem iterL_sound {body : MSt → List MSt} {P : Nat → Str → Str → Prop} (h : ∀ st, ∀ st' ∈ body st, Reach P st st')
    (n : Nat) (st : MSt) : ∀ st' ∈ iterL body n st, Reach (iterP P n) st st' := by
  induction n generalizing st with
  | zero =>
    intro st' h'
    simp only [iterL, List.mem_singleton] at h'
    subst h'
    exact ⟨[], by simp, by simp, rfl⟩
  | succ n ih =>
    intro st' h'
    simp only [iterL, List.mem_flatMap] at h'
    obtain ⟨s1, h1, h2⟩ := h'
    obtain ⟨w1, e1, p1, a1⟩ := h st s1 h1
    obtain ⟨w2, e2, p2, a2⟩ := ih s1 st' h2
    refine ⟨w1 ++ w2, by rw [e1, e2]; simp, by rw [p2, p1]; simp; omega, w1, w2, rfl, ?_, ?_⟩
    · rw [← e2]; exact a1
    · rw [← p1]; exact a2

theorem optL_sound {body : MSt → List MSt} {P : Nat → Str → Str → Prop} (h : ∀ st, ∀ st' ∈ body st, Reach P st st')
    (g : Bool) (n : Nat) (st : MSt) : ∀ st' ∈ optL body g n st, ∃ k, k ≤ n ∧ Reach (iterP P k) st st' := by
  induction n generalizing st with
  | zero =>
    intro st' h'
    simp only [optL, List.mem_singleton] at h'
    subst h'
    exact ⟨0, by omega, [], by simp, by simp, rfl⟩
  | succ n ih =>
    intro st' h'
    have h2 : st' ∈ ((body st).filter (fun st' => decide (st'.rest.length < st.rest.length))).flatMap (optL body g n) ∨ st' = st := by
      simp only [optL] at h'
      cases g with
      | true => simpa using h'
      | false => simp at h'; rcases h' with h' | h'
                 · exact .inr h'
                 · left; simpa using h'
    rcases h2 with h2 | h2
    · simp only [List.mem_flatMap, List.mem_filter] at h2
      obtain ⟨s1, ⟨h1, _⟩, h2⟩ := h2
      obtain ⟨w1, e1, p1, a1⟩ := h st s1 h1
      obtain ⟨k, hk, w2, e2, p2, a2⟩ := ih s1 st' h2
      refine ⟨k + 1, by omega, w1 ++ w2, by rw [e1, e2]; simp, by rw [p2, p1]; simp; omega, w1, w2, rfl, ?_, ?_⟩
      · rw [← e2]; exact a1
      · rw [← p1]; exact a2
    · subst h2
      exact ⟨0, by omega, [], by simp, by simp, rfl⟩

theorem iterP_add {P : Nat → Str → Str → Prop} (a b p : Nat) (w1 w2 e : Str) (h1 : iterP P a p w1 (w2 ++ e))
    (h2 : iterP P b (p + w1.length) w2 e) : iterP P (a + b) p (w1 ++ w2) e := by
  induction a generalizing p w1 with
  | zero =>
    simp only [iterP] at h1
    subst h1; simpa using h2
  | succ a ih =>
    simp only [iterP] at h1
    obtain ⟨x, y, rfl, hx, hy⟩ := h1
    rw [show a + 1 + b = (a + b) + 1 by omega]
    refine ⟨x, y ++ w2, by simp, by simpa using hx, ih _ _ hy ?_⟩
    simpa [Nat.add_assoc] using h2

theorem runs_sound (r : Re) (st : MSt) : ∀ st' ∈ r.runs st, Reach r.Acc st st' := by
  induction r generalizing st with
  | eps => intro st' h; simp only [Re.runs, List.mem_singleton] at h; subst h; exact ⟨[], by simp, by simp, rfl⟩
  | cls c =>
    intro st' h
    simp only [Re.runs] at h
    cases hr : st.rest with
    | nil => rw [hr] at h; simp at h
    | cons u t =>
      rw [hr] at h
      by_cases hc : c.mem u = true
      · simp [hc] at h; subst h; exact ⟨[u], by simp [hr], by simp, u, rfl, hc⟩
      · simp [hc] at h
  | cat a b iha ihb =>
    intro st' h
    simp only [Re.runs, List.mem_flatMap] at h
    obtain ⟨s1, h1, h2⟩ := h
    obtain ⟨w1, e1, p1, a1⟩ := iha st s1 h1
    obtain ⟨w2, e2, p2, a2⟩ := ihb s1 st' h2
    refine ⟨w1 ++ w2, by rw [e1, e2]; simp, by rw [p2, p1]; simp; omega, w1, w2, rfl, ?_, ?_⟩
    · rw [← e2]; exact a1
    · rw [← p1]; exact a2
  | alt a b iha ihb =>
    intro st' h
    simp only [Re.runs, List.mem_append] at h
    rcases h with h | h
    · obtain ⟨w, e, p, x⟩ := iha st st' h; exact ⟨w, e, p, .inl x⟩
    · obtain ⟨w, e, p, x⟩ := ihb st st' h; exact ⟨w, e, p, .inr x⟩
  | rep r mn mx g ih =>
    intro st' h
    simp only [Re.runs, List.mem_flatMap] at h
    obtain ⟨s1, h1, h2⟩ := h
    obtain ⟨w1, e1, p1, a1⟩ := iterL_sound (fun st => ih st) mn st s1 h1
    obtain ⟨k, hk, w2, e2, p2, a2⟩ := optL_sound (fun st => ih st) g _ s1 st' h2
    refine ⟨w1 ++ w2, by rw [e1, e2]; simp, by rw [p2, p1]; simp; omega, mn + k, by omega, ?_, ?_⟩
    · intro x hx; subst hx; simp only at hk; omega
    · exact iterP_add _ _ _ _ _ _ (by rw [← e2]; exact a1) (by rw [← p1]; exact a2)
  | grp n r ih =>
    intro st' h
    simp only [Re.runs, List.mem_map] at h
    obtain ⟨s1, h1, rfl⟩ := h
    obtain ⟨w, e, p, x⟩ := ih st s1 h1
    exact ⟨w, e, p, x⟩
  | bos =>
    intro st' h
    simp only [Re.runs] at h
    split at h
    · rename_i h0; simp at h; subst h; exact ⟨[], by simp, by simp, h0, rfl⟩
    · simp at h
  | eos =>
    intro st' h
    simp only [Re.runs] at h
    split at h
    · rename_i h0; simp at h; subst h; exact ⟨[], by simp, by simp, rfl, h0⟩
    · simp at h

/-! ## Completeness -/

/-- Every accepted text is found by `body`. -/
def Finds (body : MSt → List MSt) (P : Nat → Str → Str → Prop) : Prop :=
  ∀ p w e caps, P p w e → ∃ caps', (⟨p + w.length, e, caps'⟩ : MSt) ∈ body ⟨p, w ++ e, caps⟩

theorem iterL_complete {body : MSt → List MSt} {P : Nat → Str → Str → Prop} (h : Finds body P) (n : Nat) :
    Finds (iterL body n) (iterP P n) := by
  induction n with
  | zero => intro p w e caps hw; simp only [iterP] at hw; subst hw; exact ⟨caps, by simp [iterL]⟩
  | succ n ih =>
    intro p w e caps hw
    obtain ⟨w1, w2, rfl, h1, h2⟩ := hw
    obtain ⟨c1, m1⟩ := h p w1 (w2 ++ e) caps h1
    obtain ⟨c2, m2⟩ := ih _ w2 e c1 h2
    refine ⟨c2, ?_⟩
    simp only [iterL, List.mem_flatMap]
    refine ⟨_, by simpa using m1, ?_⟩
    simpa [Nat.add_assoc] using m2

/-- Empty iterations can be dropped. -/
theorem iterP_nonempty {P : Nat → Str → Str → Prop} (k p : Nat) (w e : Str) (h : iterP P k p w e) :
    ∃ k', k' ≤ k ∧ k' ≤ w.length ∧ iterP (fun p w e => P p w e ∧ w ≠ []) k' p w e := by
  induction k generalizing p w with
  | zero => exact ⟨0, by omega, by omega, h⟩
  | succ k ih =>
    obtain ⟨w1, w2, rfl, h1, h2⟩ := h
    obtain ⟨k', hk, hl, hk2⟩ := ih _ _ h2
    by_cases hw : w1 = []
    · subst hw
      refine ⟨k', by omega, by simpa using hl, ?_⟩
      simpa using hk2
    · have : 0 < w1.length := List.length_pos_iff.2 hw
      exact ⟨k' + 1, by omega, by simp; omega, w1, w2, rfl, ⟨h1, hw⟩, hk2⟩

theorem optL_complete {body : MSt → List MSt} {P : Nat → Str → Str → Prop} (h : Finds body P) (g : Bool) (n k : Nat)
    (hk : k ≤ n) : Finds (optL body g n) (iterP (fun p w e => P p w e ∧ w ≠ []) k) := by
  induction n generalizing k with
  | zero =>
    intro p w e caps hw
    obtain rfl : k = 0 := by omega
    simp only [iterP] at hw; subst hw; exact ⟨caps, by simp [optL]⟩
  | succ n ih =>
    intro p w e caps hw
    cases k with
    | zero =>
      simp only [iterP] at hw; subst hw
      refine ⟨caps, ?_⟩
      cases g <;> simp [optL]
    | succ k =>
      obtain ⟨w1, w2, rfl, ⟨h1, hne⟩, h2⟩ := hw
      obtain ⟨c1, m1⟩ := h p w1 (w2 ++ e) caps h1
      obtain ⟨c2, m2⟩ := ih k (by omega) _ w2 e c1 h2
      refine ⟨c2, ?_⟩
      have : 0 < w1.length := List.length_pos_iff.2 hne
      have key : (⟨p + (w1 ++ w2).length, e, c2⟩ : MSt) ∈
          ((body ⟨p, w1 ++ w2 ++ e, caps⟩).filter
            (fun st' => decide (st'.rest.length < (w1 ++ w2 ++ e).length))).flatMap (optL body g n) := by
        simp only [List.mem_flatMap, List.mem_filter]
        refine ⟨_, ⟨by simpa using m1, ?_⟩, ?_⟩
        · simp; omega
        · simpa [Nat.add_assoc] using m2
      simp only [optL]
      cases g
      · simp only [Bool.false_eq_true, if_false]; exact List.mem_cons_of_mem _ key
      · simp only [if_true]; exact List.mem_append_left _ key

theorem iterP_split {P : Nat → Str → Str → Prop} (a b p : Nat) (w e : Str) (h : iterP P (a + b) p w e) :
    ∃ w1 w2, w = w1 ++ w2 ∧ iterP P a p w1 (w2 ++ e) ∧ iterP P b (p + w1.length) w2 e := by
  induction a generalizing p w with
  | zero => exact ⟨[], w, rfl, rfl, by simpa using h⟩
  | succ a ih =>
    rw [show a + 1 + b = (a + b) + 1 by omega] at h
    obtain ⟨x, y, rfl, hx, hy⟩ := h
    obtain ⟨w1, w2, rfl, h1, h2⟩ := ih _ _ hy
    exact ⟨x ++ w1, w2, by simp, ⟨x, w1, rfl, by simpa using hx, h1⟩, by simpa [Nat.add_assoc] using h2⟩

theorem runs_complete (r : Re) : Finds r.runs r.Acc := by
  induction r with
  | eps => intro p w e caps h; simp only [Re.Acc] at h; subst h; exact ⟨caps, by simp [Re.runs]⟩
  | cls c =>
    intro p w e caps h
    obtain ⟨u, rfl, hc⟩ := h
    exact ⟨caps, by simp [Re.runs, hc]⟩
  | cat a b iha ihb =>
    intro p w e caps h
    obtain ⟨w1, w2, rfl, h1, h2⟩ := h
    obtain ⟨c1, m1⟩ := iha p w1 (w2 ++ e) caps h1
    obtain ⟨c2, m2⟩ := ihb _ w2 e c1 h2
    refine ⟨c2, ?_⟩
    simp only [Re.runs, List.mem_flatMap]
    exact ⟨_, by simpa using m1, by simpa [Nat.add_assoc] using m2⟩
  | alt a b iha ihb =>
    intro p w e caps h
    rcases h with h | h
    · obtain ⟨c, m⟩ := iha p w e caps h; exact ⟨c, by simp [Re.runs, m]⟩
    · obtain ⟨c, m⟩ := ihb p w e caps h; exact ⟨c, by simp [Re.runs, m]⟩
  | rep r mn mx g ih =>
    intro p w e caps h
    obtain ⟨k, h1, h2, h3⟩ := h
    obtain ⟨k, rfl⟩ : ∃ k', k = mn + k' := ⟨k - mn, by omega⟩
    obtain ⟨w1, w2, rfl, ha, hb⟩ := iterP_split _ _ _ _ _ h3
    obtain ⟨k', hk, hl, hk2⟩ := iterP_nonempty _ _ _ _ hb
    obtain ⟨c1, m1⟩ := iterL_complete ih mn p w1 (w2 ++ e) caps ha
    have hn : k' ≤ (match (generalizing := false) mx with | some x => x - mn | none => (w2 ++ e).length) := by
      cases mx with
      | none => simp; omega
      | some x => have := h2 x rfl; simp only; omega
    obtain ⟨c2, m2⟩ := optL_complete ih g _ k' hn _ w2 e c1 hk2
    refine ⟨c2, ?_⟩
    simp only [Re.runs, List.mem_flatMap]
    exact ⟨_, by simpa using m1, by simpa [Nat.add_assoc] using m2⟩
  | grp n r ih =>
    intro p w e caps h
    obtain ⟨c, m⟩ := ih p w e caps h
    refine ⟨(n, p, p + w.length) :: c, ?_⟩
    simp only [Re.runs, List.mem_map]
    exact ⟨_, m, rfl⟩
  | bos =>
    intro p w e caps h
    obtain ⟨rfl, rfl⟩ := h
    exact ⟨caps, by simp [Re.runs]⟩
  | eos =>
    intro p w e caps h
    obtain ⟨rfl, rfl⟩ := h
    exact ⟨caps, by simp [Re.runs]⟩

/-! ## Captures -/

/-- The sub-expressions captured by group `n`. -/
def Re.groupBodies (n : Nat) : Re → List Re
  | .cat a b | .alt a b => a.groupBodies n ++ b.groupBodies n
  | .rep r _ _ _ => r.groupBodies n
  | .grp i r => if i = n then r :: r.groupBodies n else r.groupBodies n
  | _ => []

/-- The capture `(n, a, b)` made between `st` and `st'` covers a part of the consumed text accepted by a body of group `n`. -/
def CapOk (bodies : Nat → List Re) (st st' : MSt) (c : Nat × Nat × Nat) : Prop :=
  ∃ r ∈ bodies c.1, ∃ x w e, st.rest = x ++ (w ++ (e ++ st'.rest)) ∧ c.2.1 = st.pos + x.length ∧ c.2.2 = c.2.1 + w.length ∧
    r.Acc c.2.1 w (e ++ st'.rest)

/-- All captures made between `st` and `st'` are of this kind. -/
def CapsOk (bodies : Nat → List Re) (st st' : MSt) : Prop :=
  ∃ cs, st'.caps = cs ++ st.caps ∧ ∀ c ∈ cs, CapOk bodies st st' c

theorem CapOk.mono {b1 b2 : Nat → List Re} (h : ∀ n, ∀ r ∈ b1 n, r ∈ b2 n) {st st' c} (hc : CapOk b1 st st' c) :
    CapOk b2 st st' c := by
  obtain ⟨r, hr, rest⟩ := hc; exact ⟨r, h _ r hr, rest⟩

theorem CapsOk.mono {b1 b2 : Nat → List Re} (h : ∀ n, ∀ r ∈ b1 n, r ∈ b2 n) {st st'} (hc : CapsOk b1 st st') :
    CapsOk b2 st st' := by
  obtain ⟨cs, h1, h2⟩ := hc; exact ⟨cs, h1, fun c hc => (h2 c hc).mono h⟩

theorem CapsOk.trans {b : Nat → List Re} {P Q : Nat → Str → Str → Prop} {s1 s2 s3 : MSt} (h12 : CapsOk b s1 s2)
    (h23 : CapsOk b s2 s3) (r12 : Reach P s1 s2) (r23 : Reach Q s2 s3) : CapsOk b s1 s3 := by
  obtain ⟨c1, e1, k1⟩ := h12
  obtain ⟨c2, e2, k2⟩ := h23
  obtain ⟨w1, x1, p1, _⟩ := r12
  obtain ⟨w2, x2, p2, _⟩ := r23
  refine ⟨c2 ++ c1, by rw [e2, e1]; simp, ?_⟩
  intro c hc
  rcases List.mem_append.mp hc with hc | hc
  · obtain ⟨r, hr, x, w, e, h1, h2, h3, h4⟩ := k2 c hc
    exact ⟨r, hr, w1 ++ x, w, e, by rw [x1, h1]; simp, by rw [h2, p1]; simp; omega, h3, h4⟩
  · obtain ⟨r, hr, x, w, e, h1, h2, h3, h4⟩ := k1 c hc
    exact ⟨r, hr, x, w, e ++ w2, by rw [h1, x2]; simp, h2, h3, by rw [x2] at h4; simpa using h4⟩

theorem CapsOk.refl (b : Nat → List Re) (st : MSt) : CapsOk b st st := ⟨[], rfl, by simp⟩

theorem iterL_caps {body : MSt → List MSt} {P : Nat → Str → Str → Prop} {b : Nat → List Re}
    (h : ∀ st, ∀ st' ∈ body st, Reach P st st') (hc : ∀ st, ∀ st' ∈ body st, CapsOk b st st')
    (n : Nat) (st : MSt) : ∀ st' ∈ iterL body n st, CapsOk b st st' := by
  induction n generalizing st with
  | zero => intro st' h'; simp only [iterL, List.mem_singleton] at h'; subst h'; exact .refl b _
  | succ n ih =>
    intro st' h'
    simp only [iterL, List.mem_flatMap] at h'
    obtain ⟨s1, h1, h2⟩ := h'
    exact (hc st s1 h1).trans (ih s1 st' h2) (h st s1 h1) (iterL_sound h n s1 st' h2)

theorem optL_caps {body : MSt → List MSt} {P : Nat → Str → Str → Prop} {b : Nat → List Re}
    (h : ∀ st, ∀ st' ∈ body st, Reach P st st') (hc : ∀ st, ∀ st' ∈ body st, CapsOk b st st')
    (g : Bool) (n : Nat) (st : MSt) : ∀ st' ∈ optL body g n st, CapsOk b st st' := by
  induction n generalizing st with
  | zero => intro st' h'; simp only [optL, List.mem_singleton] at h'; subst h'; exact .refl b _
  | succ n ih =>
    intro st' h'
    have h2 : st' ∈ ((body st).filter (fun st' => decide (st'.rest.length < st.rest.length))).flatMap (optL body g n) ∨ st' = st := by
      simp only [optL] at h'
      cases g with
      | true => simpa using h'
      | false => simp at h'; rcases h' with h' | h'
                 · exact .inr h'
                 · left; simpa using h'
    rcases h2 with h2 | h2
    · simp only [List.mem_flatMap, List.mem_filter] at h2
      obtain ⟨s1, ⟨h1, _⟩, h2⟩ := h2
      obtain ⟨k, _, hr⟩ := optL_sound h g n s1 st' h2
      exact (hc st s1 h1).trans (ih s1 st' h2) (h st s1 h1) hr
    · subst h2; exact .refl b _

theorem runs_caps (r : Re) (st : MSt) : ∀ st' ∈ r.runs st, CapsOk (fun n => r.groupBodies n) st st' := by
  induction r generalizing st with
  | eps => intro st' h; simp only [Re.runs, List.mem_singleton] at h; subst h; exact .refl _ _
  | cls c =>
    intro st' h
    simp only [Re.runs] at h
    cases hr : st.rest with
    | nil => rw [hr] at h; simp at h
    | cons u t =>
      rw [hr] at h
      by_cases hc : c.mem u = true
      · simp [hc] at h; subst h; exact ⟨[], rfl, by simp⟩
      · simp [hc] at h
  | cat a b iha ihb =>
    intro st' h
    simp only [Re.runs, List.mem_flatMap] at h
    obtain ⟨s1, h1, h2⟩ := h
    refine CapsOk.trans ((iha st s1 h1).mono ?_) ((ihb s1 st' h2).mono ?_) (runs_sound a st s1 h1) (runs_sound b s1 st' h2)
    · intro n r hr; simp [Re.groupBodies, hr]
    · intro n r hr; simp [Re.groupBodies, hr]
  | alt a b iha ihb =>
    intro st' h
    simp only [Re.runs, List.mem_append] at h
    rcases h with h | h
    · refine (iha st st' h).mono ?_
      intro n r hr; simp [Re.groupBodies, hr]
    · refine (ihb st st' h).mono ?_
      intro n r hr; simp [Re.groupBodies, hr]
  | rep r mn mx g ih =>
    intro st' h
    simp only [Re.runs, List.mem_flatMap] at h
    obtain ⟨s1, h1, h2⟩ := h
    have hs : ∀ st, ∀ st' ∈ r.runs st, Reach r.Acc st st' := fun st => runs_sound r st
    obtain ⟨k, _, hk⟩ := optL_sound hs g _ s1 st' h2
    exact CapsOk.trans (iterL_caps hs (fun st => ih st) mn st s1 h1) (optL_caps hs (fun st => ih st) g _ s1 st' h2)
      (iterL_sound hs mn st s1 h1) hk
  | grp n r ih =>
    intro st' h
    simp only [Re.runs, List.mem_map] at h
    obtain ⟨s1, h1, rfl⟩ := h
    obtain ⟨cs, hc1, hc2⟩ := ih st s1 h1
    obtain ⟨w, e, p, x⟩ := runs_sound r st s1 h1
    refine ⟨(n, st.pos, s1.pos) :: cs, by simp [hc1], ?_⟩
    intro c hc
    rcases List.mem_cons.mp hc with rfl | hc
    · exact ⟨r, by simp [Re.groupBodies], [], w, [], by simpa using e, by simp, by simpa using p, by simpa using x⟩
    · obtain ⟨r', hr', rest⟩ := hc2 c hc
      refine ⟨r', ?_, rest⟩
      by_cases hi : n = c.1 <;> simp [Re.groupBodies, hi, hr']
  | bos =>
    intro st' h
    simp only [Re.runs] at h
    split at h
    · simp at h; subst h; exact .refl _ _
    · simp at h
  | eos =>
    intro st' h
    simp only [Re.runs] at h
    split at h
    · simp at h; subst h; exact .refl _ _
    · simp at h

/-! ## Consequences for the matching functions -/

theorem matchAt_eq (r : Re) (p : Nat) (s : Str) :
    r.matchAt p s = ((r.runs ⟨p, s, []⟩).head?).map fun st => ⟨p, st.pos, st.caps⟩ := by
  rw [Re.matchAt, m_eq_runs]
  cases r.runs ⟨p, s, []⟩ <;> simp

theorem matchAt_sound {r : Re} {p : Nat} {s : Str} {x : Match} (h : r.matchAt p s = some x) :
    x.start = p ∧ ∃ w e, s = w ++ e ∧ x.stop = p + w.length ∧ r.Acc p w e := by
  rw [matchAt_eq] at h
  simp only [Option.map_eq_some_iff] at h
  obtain ⟨st, h1, rfl⟩ := h
  obtain ⟨w, e1, p1, a1⟩ := runs_sound r _ st (List.mem_of_mem_head? h1)
  exact ⟨rfl, w, st.rest, e1, p1, a1⟩

theorem matchAt_none {r : Re} {p : Nat} {s : Str} (h : r.matchAt p s = none) (w e : Str) (hs : s = w ++ e) : ¬ r.Acc p w e := by
  intro ha
  obtain ⟨c, m⟩ := runs_complete r p w e [] ha
  rw [matchAt_eq] at h
  simp only [Option.map_eq_none_iff, List.head?_eq_none_iff] at h
  rw [hs] at h; rw [h] at m; cases m

theorem findFrom_sound {r : Re} {p : Nat} {s : Str} {x : Match} (h : r.findFrom p s = some x) :
    ∃ a w e, s = a ++ (w ++ e) ∧ x.start = p + a.length ∧ x.stop = x.start + w.length ∧ r.Acc x.start w e ∧
      r.matchAt x.start (w ++ e) = some x := by
  induction s generalizing p with
  | nil =>
    simp only [Re.findFrom] at h
    obtain ⟨h1, w, e, h2, h3, h4⟩ := matchAt_sound h
    exact ⟨[], w, e, by simpa using h2, by simp [h1], by rw [h3, h1], by rw [h1]; exact h4, by rw [h1, ← h2]; exact h⟩
  | cons u t ih =>
    simp only [Re.findFrom] at h
    split at h
    · rename_i y hy
      cases h
      obtain ⟨h1, w, e, h2, h3, h4⟩ := matchAt_sound hy
      exact ⟨[], w, e, by simpa using h2, by simp [h1], by rw [h3, h1], by rw [h1]; exact h4, by rw [h1, ← h2]; exact hy⟩
    · obtain ⟨a, w, e, h1, h2, h3, h4, h5⟩ := ih h
      exact ⟨u :: a, w, e, by simp [h1], by simp [h2]; omega, h3, h4, h5⟩

/-- No match starts before the one found. -/
theorem findFrom_leftmost {r : Re} {p : Nat} {s : Str} {x : Match} (h : r.findFrom p s = some x) (a w e : Str)
    (hs : s = a ++ (w ++ e)) (hlt : p + a.length < x.start) : ¬ r.Acc (p + a.length) w e := by
  induction s generalizing p a with
  | nil =>
    simp only [Re.findFrom] at h
    have := (matchAt_sound h).1
    omega
  | cons u t ih =>
    simp only [Re.findFrom] at h
    split at h
    · rename_i y hy
      cases h
      have := (matchAt_sound hy).1
      omega
    · rename_i hn
      cases a with
      | nil => simpa using matchAt_none hn w e (by simpa using hs)
      | cons v a =>
        simp only [List.cons_append, List.cons.injEq] at hs
        have := ih h a hs.2 (by simp at hlt; omega)
        simpa [Nat.add_assoc, Nat.add_comm 1] using this

theorem findFrom_none {r : Re} {p : Nat} {s : Str} (h : r.findFrom p s = none) (a w e : Str) (hs : s = a ++ (w ++ e)) :
    ¬ r.Acc (p + a.length) w e := by
  induction s generalizing p a with
  | nil =>
    simp only [Re.findFrom] at h
    have h0 : a = [] ∧ w ++ e = [] := by simpa using hs
    simpa [h0.1] using matchAt_none h w e h0.2.symm
  | cons u t ih =>
    simp only [Re.findFrom] at h
    split at h
    · cases h
    · rename_i hn
      cases a with
      | nil => simpa using matchAt_none hn w e (by simpa using hs)
      | cons v a =>
        simp only [List.cons_append, List.cons.injEq] at hs
        have := ih h a hs.2
        simpa [Nat.add_assoc, Nat.add_comm 1] using this

/-- `MatchString` is true iff some part of the subject is accepted. -/
theorem isMatch_iff (r : Re) (s : Str) : r.isMatch s = true ↔ ∃ a w e, s = a ++ (w ++ e) ∧ r.Acc a.length w e := by
  unfold Re.isMatch Re.find
  constructor
  · intro h
    obtain ⟨x, hx⟩ := Option.isSome_iff_exists.1 h
    obtain ⟨a, w, e, h1, h2, _, h4, _⟩ := findFrom_sound hx
    exact ⟨a, w, e, h1, by rw [h2] at h4; simpa using h4⟩
  · rintro ⟨a, w, e, h1, h2⟩
    cases h : r.findFrom 0 s with
    | some x => rfl
    | none => exact absurd (by simpa using h2) (findFrom_none h a w e h1)

/-- `^(?:r)$` matches iff `r` accepts the whole subject. -/
theorem full_isMatch_iff (r : Re) (s : Str) : r.full.isMatch s = true ↔ r.Acc 0 s [] := by
  rw [isMatch_iff]
  constructor
  · rintro ⟨a, w, e, hs, w1, w2, rfl, ⟨h0, rfl⟩, w3, w4, rfl, h3, rfl, h4⟩
    have : a = [] := List.length_eq_zero_iff.mp h0
    subst this
    subst h4
    simp at hs h3
    subst hs; exact h3
  · intro h
    exact ⟨[], s, [], by simp, [], s, by simp, ⟨rfl, rfl⟩, s, [], by simp, by simpa using h, rfl, rfl⟩

/-- `^(?:r)` matches iff `r` accepts a prefix of the subject. -/
theorem atStart_isMatch_iff (r : Re) (s : Str) : r.atStart.isMatch s = true ↔ ∃ w e, s = w ++ e ∧ r.Acc 0 w e := by
  rw [isMatch_iff]
  constructor
  · rintro ⟨a, w, e, hs, w1, w2, rfl, ⟨h0, rfl⟩, h3⟩
    have : a = [] := List.length_eq_zero_iff.mp h0
    subst this
    exact ⟨w2, e, by simpa using hs, by simpa using h3⟩
  · rintro ⟨w, e, hs, h⟩
    exact ⟨[], w, e, by simpa using hs, [], w, by simp, ⟨rfl, rfl⟩, by simpa using h⟩

/-- The idiom `FindStringIndex(s)[0] == 0` holds iff a prefix of the subject is accepted. -/
theorem matchesAtStart_iff (r : Re) (s : Str) : r.matchesAtStart s = true ↔ ∃ w e, s = w ++ e ∧ r.Acc 0 w e := by
  unfold Re.matchesAtStart Re.find
  constructor
  · intro h
    split at h
    · rename_i x hx
      obtain ⟨a, w, e, h1, h2, _, h4, _⟩ := findFrom_sound hx
      have h0 : x.start = 0 := by simpa using h
      have : a = [] := List.length_eq_zero_iff.mp (by omega)
      subst this
      exact ⟨w, e, by simpa using h1, by rw [h0] at h4; exact h4⟩
    · cases h
  · rintro ⟨w, e, hs, ha⟩
    cases h : r.findFrom 0 s with
    | none => exact absurd (by simpa using ha) (findFrom_none h [] w e (by simpa using hs))
    | some x =>
      by_cases h0 : x.start = 0
      · simp [h0]
      · exact absurd (by simpa using ha) (findFrom_leftmost h [] w e (by simpa using hs) (by simp; omega))

/-- What a capture group holds after a successful match: text inside the match accepted by a body of the group. -/
theorem matchAt_span {r : Re} {p : Nat} {s : Str} {x : Match} (h : r.matchAt p s = some x) (n a b : Nat) (hn : n ≠ 0)
    (hx : x.span n = some (a, b)) :
    ∃ r' ∈ r.groupBodies n, ∃ y w e, s = y ++ (w ++ e) ∧ a = p + y.length ∧ b = a + w.length ∧ b ≤ x.stop ∧ r'.Acc a w e := by
  rw [matchAt_eq] at h
  simp only [Option.map_eq_some_iff] at h
  obtain ⟨st, h1, rfl⟩ := h
  have hm := List.mem_of_mem_head? h1
  obtain ⟨cs, hc1, hc2⟩ := runs_caps r _ st hm
  obtain ⟨w0, e0, p0, _⟩ := runs_sound r _ st hm
  simp only [Match.span, hn, if_false, Option.map_eq_some_iff] at hx
  obtain ⟨c, hc, hab⟩ := hx
  have hmem := List.mem_of_find?_eq_some hc
  have hcn := List.find?_some hc
  rw [hc1] at hmem
  simp only [List.append_nil] at hmem
  obtain ⟨r', hr', y, w, e, k1, k2, k3, k4⟩ := hc2 c hmem
  simp only [beq_iff_eq] at hcn
  rw [hcn] at hr'
  have ha : c.2.1 = a := by rw [hab]
  have hb : c.2.2 = b := by rw [hab]
  rw [ha] at k2 k3 k4; rw [hb] at k3
  simp only at k1 k2 e0 p0
  refine ⟨r', hr', y, w, e ++ st.rest, k1, k2, k3, ?_, k4⟩
  have := congrArg List.length (k1.symm.trans e0)
  simp at this
  simp only; omega

end Verif
