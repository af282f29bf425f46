import Verif.Regex.Lang
import Verif.Regex.Lens
/-!
# Matching when only the beginning of the subject is known

`Re.runsA r st` lists what `Re.runs` yields when the subject continues after the known units of `st` in an unknown way: an exact
state, or `none` for "some list of states, all at or after the end of the known part".
-/
namespace Verif

/-- Continue from exact states only. -/
def liftA (f : MSt → List (Option MSt)) : Option MSt → List (Option MSt)
  | none => [none]
  | some st => f st

/-- `iterL` with a partly known subject. -/
def iterA (body : MSt → List (Option MSt)) : Nat → MSt → List (Option MSt)
  | 0, st => [some st]
  | n + 1, st => (body st).flatMap (liftA (iterA body n))

/-- Did this result consume something since the remaining length was `n`? -/
def progressA (n : Nat) : Option MSt → Bool
  | none => true
  | some st' => decide (st'.rest.length < n)

/-- `optL` with a partly known subject. -/
def optA (body : MSt → List (Option MSt)) (greedy : Bool) : Nat → MSt → List (Option MSt)
  | 0, st => [some st]
  | n + 1, st =>
    let more := ((body st).filter (progressA st.rest.length)).flatMap (liftA (optA body greedy n))
    if greedy then more ++ [some st] else some st :: more

/-- `Re.runs` with a partly known subject; loops must be bounded. -/
def Re.runsA : Re → MSt → List (Option MSt)
  | .eps, st => [some st]
  | .cls c, st =>
    match st.rest with
    | [] => [none]
    | u :: t => if c.mem u then [some ⟨st.pos + 1, t, st.caps⟩] else []
  | .cat a b, st => (a.runsA st).flatMap (liftA b.runsA)
  | .alt a b, st => a.runsA st ++ b.runsA st
  | .rep r mn mx g, st =>
    (iterA r.runsA mn st).flatMap (liftA fun st' => optA r.runsA g (match mx with | some x => x - mn | none => 0) st')
  | .grp n r, st => (r.runsA st).map (Option.map fun st' => { st' with caps := (n, st.pos, st'.pos) :: st'.caps })
  | .bos, st => if st.pos = 0 then [some st] else []
  | .eos, st => if st.rest = [] then [none] else []

/-- All loops have an upper bound. -/
def Re.boundedLoops : Re → Bool
  | .rep _ _ none _ => false
  | .rep r _ (some _) _ => r.boundedLoops
  | .cat a b | .alt a b => a.boundedLoops && b.boundedLoops
  | .grp _ r => r.boundedLoops
  | _ => true

/-- The state with the unknown continuation filled in. -/
def MSt.ext (st : MSt) (t : Str) : MSt := { st with rest := st.rest ++ t }

/-- What a list of partial results stands for, given the continuation `t` and the end `w` of the known part. -/
inductive RelA (t : Str) (w : Nat) : List (Option MSt) → List MSt → Prop
  | nil : RelA t w [] []
  | exact {l L} (s : MSt) (h : s.pos + s.rest.length = w) (hr : RelA t w l L) : RelA t w (some s :: l) (s.ext t :: L)
  | maybe {l L} (m : List MSt) (h : ∀ s ∈ m, w ≤ s.pos) (hr : RelA t w l L) : RelA t w (none :: l) (m ++ L)

namespace RelA
variable {t : Str} {w : Nat}

theorem append {l L l' L'} (h : RelA t w l L) (h' : RelA t w l' L') : RelA t w (l ++ l') (L ++ L') := by
  induction h with
  | nil => exact h'
  | exact s hs _ ih => exact .exact s hs ih
  | maybe m hm _ ih => rw [List.append_assoc]; exact .maybe m hm ih

theorem one (s : MSt) (h : s.pos + s.rest.length = w) : RelA t w [some s] [s.ext t] := .exact s h .nil

theorem unknown (m : List MSt) (h : ∀ s ∈ m, w ≤ s.pos) : RelA t w [none] m := by
  have := RelA.maybe (t := t) m h .nil
  rwa [List.append_nil] at this

theorem flatMap {l L} (h : RelA t w l L) {f : MSt → List (Option MSt)} {F : MSt → List MSt}
    (hf : ∀ s, s.pos + s.rest.length = w → RelA t w (f s) (F (s.ext t))) (hF : ∀ s, ∀ s' ∈ F s, s.pos ≤ s'.pos) :
    RelA t w (l.flatMap (liftA f)) (L.flatMap F) := by
  induction h with
  | nil => exact .nil
  | exact s hs _ ih =>
    rw [List.flatMap_cons, List.flatMap_cons]
    exact (hf s hs).append ih
  | maybe m hm _ ih =>
    rw [List.flatMap_cons, List.flatMap_append]
    refine append (unknown _ ?_) ih
    intro s hs
    obtain ⟨s0, h0, h1⟩ := List.mem_flatMap.1 hs
    exact Nat.le_trans (hm s0 h0) (hF s0 s h1)

theorem filter {l L} (h : RelA t w l L) (n : Nat) :
    RelA t w (l.filter (progressA n)) (L.filter fun s => decide (s.rest.length < n + t.length)) := by
  induction h with
  | nil => exact .nil
  | exact s hs _ ih =>
    by_cases hn : s.rest.length < n
    · rw [List.filter_cons_of_pos (by simp [progressA, hn]), List.filter_cons_of_pos (by simp [MSt.ext, hn])]
      exact .exact s hs ih
    · rw [List.filter_cons_of_neg (by simp [progressA, hn]), List.filter_cons_of_neg (by simp [MSt.ext]; omega)]
      exact ih
  | maybe m hm _ ih =>
    rw [List.filter_cons_of_pos (by rfl), List.filter_append]
    exact .maybe _ (fun s hs => hm s (List.mem_filter.1 hs).1) ih

theorem map {l L} (h : RelA t w l L) (f : MSt → MSt) (h1 : ∀ s, (f s).pos = s.pos) (h2 : ∀ s, (f s).rest = s.rest)
    (h3 : ∀ s, f (s.ext t) = (f s).ext t) : RelA t w (l.map (Option.map f)) (L.map f) := by
  induction h with
  | nil => exact .nil
  | exact s hs _ ih =>
    rw [List.map_cons, List.map_cons, h3]
    exact .exact (f s) (by rw [h1, h2]; exact hs) ih
  | maybe m hm _ ih =>
    rw [List.map_cons, List.map_append]
    refine .maybe _ ?_ ih
    intro s hs
    obtain ⟨s0, h0, rfl⟩ := List.mem_map.1 hs
    rw [h1]; exact hm s0 h0

end RelA

theorem runs_pos (r : Re) (st s : MSt) (h : s ∈ r.runs st) : st.pos ≤ s.pos := by
  obtain ⟨w, _, p, _⟩ := runs_sound r _ s h
  omega

theorem iterL_pos {body : MSt → List MSt} (hb : ∀ st, ∀ s ∈ body st, st.pos ≤ s.pos) (n : Nat) (st s : MSt)
    (h : s ∈ iterL body n st) : st.pos ≤ s.pos := by
  induction n generalizing st with
  | zero => simp only [iterL, List.mem_singleton] at h; subst h; exact Nat.le_refl _
  | succ n ih =>
    simp only [iterL, List.mem_flatMap] at h
    obtain ⟨s0, h0, h1⟩ := h
    exact Nat.le_trans (hb st s0 h0) (ih s0 h1)

theorem optL_pos {body : MSt → List MSt} (hb : ∀ st, ∀ s ∈ body st, st.pos ≤ s.pos) (g : Bool) (n : Nat) (st s : MSt)
    (h : s ∈ optL body g n st) : st.pos ≤ s.pos := by
  induction n generalizing st with
  | zero => simp only [optL, List.mem_singleton] at h; subst h; exact Nat.le_refl _
  | succ n ih =>
    simp only [optL] at h
    have hm : s = st ∨ s ∈ ((body st).filter (fun st' => decide (st'.rest.length < st.rest.length))).flatMap (optL body g n) := by
      split at h
      · rcases List.mem_append.1 h with h | h
        · exact .inr h
        · exact .inl (List.mem_singleton.1 h)
      · exact List.mem_cons.1 h
    rcases hm with rfl | hm
    · exact Nat.le_refl _
    · obtain ⟨s0, h0, h1⟩ := List.mem_flatMap.1 hm
      exact Nat.le_trans (hb st s0 (List.mem_filter.1 h0).1) (ih s0 h1)

theorem iterA_rel {t : Str} {w : Nat} {body : MSt → List (Option MSt)} {Body : MSt → List MSt}
    (h : ∀ s, s.pos + s.rest.length = w → RelA t w (body s) (Body (s.ext t))) (hb : ∀ st, ∀ s ∈ Body st, st.pos ≤ s.pos)
    (n : Nat) (s : MSt) (hs : s.pos + s.rest.length = w) : RelA t w (iterA body n s) (iterL Body n (s.ext t)) := by
  induction n generalizing s with
  | zero => exact .one s hs
  | succ n ih => exact (h s hs).flatMap ih (iterL_pos hb n)

theorem optA_rel {t : Str} {w : Nat} {body : MSt → List (Option MSt)} {Body : MSt → List MSt}
    (h : ∀ s, s.pos + s.rest.length = w → RelA t w (body s) (Body (s.ext t))) (hb : ∀ st, ∀ s ∈ Body st, st.pos ≤ s.pos)
    (g : Bool) (n : Nat) (s : MSt) (hs : s.pos + s.rest.length = w) :
    RelA t w (optA body g n s) (optL Body g n (s.ext t)) := by
  induction n generalizing s with
  | zero => exact .one s hs
  | succ n ih =>
    have hm := ((h s hs).filter s.rest.length).flatMap ih (optL_pos hb g n)
    have hlen : (s.ext t).rest.length = s.rest.length + t.length := by simp [MSt.ext]
    simp only [optA, optL, hlen]
    cases g with
    | true => exact hm.append (.one s hs)
    | false => exact .exact s hs hm

/-- The partial results stand for the results on every continuation. -/
theorem runsA_rel (r : Re) (hr : r.boundedLoops = true) (t : Str) (w : Nat) (s : MSt) (hs : s.pos + s.rest.length = w) :
    RelA t w (r.runsA s) (r.runs (s.ext t)) := by
  induction r generalizing s with
  | eps => exact .one s hs
  | cls c =>
    obtain ⟨p, rest, caps⟩ := s
    cases rest with
    | nil =>
      refine .unknown _ fun s' h' => ?_
      have := runs_pos _ _ _ h'
      simpa [MSt.ext, ← hs] using this
    | cons u rest =>
      simp only [Re.runsA, Re.runs, MSt.ext, List.cons_append]
      by_cases hc : c.mem u = true
      · simp only [hc, if_true]
        refine .one (t := t) (w := w) ⟨p + 1, rest, caps⟩ ?_
        simp only [List.length_cons] at hs ⊢; omega
      · simp only [hc, if_neg (Bool.false_ne_true)]
        exact .nil
  | cat a b iha ihb =>
    simp only [Re.boundedLoops, Bool.and_eq_true] at hr
    exact (iha hr.1 s hs).flatMap (ihb hr.2) (runs_pos b)
  | alt a b iha ihb =>
    simp only [Re.boundedLoops, Bool.and_eq_true] at hr
    exact (iha hr.1 s hs).append (ihb hr.2 s hs)
  | rep r mn mx g ih =>
    cases mx with
    | none => cases hr
    | some x =>
      exact (iterA_rel (ih hr) (runs_pos r) mn s hs).flatMap (optA_rel (ih hr) (runs_pos r) g (x - mn))
        (optL_pos (runs_pos r) g (x - mn))
  | grp n r ih =>
    exact (ih hr s hs).map (fun st' => { st' with caps := (n, s.pos, st'.pos) :: st'.caps }) (fun _ => rfl) (fun _ => rfl)
      (fun _ => rfl)
  | bos =>
    simp only [Re.runsA, Re.runs, MSt.ext]
    by_cases h0 : s.pos = 0
    · simp only [h0, if_true]
      have h := RelA.one (t := t) s hs
      simpa [MSt.ext, h0] using h
    · simp only [h0, if_false]
      exact .nil
  | eos =>
    obtain ⟨p, rest, caps⟩ := s
    cases rest with
    | nil =>
      refine .unknown _ fun s' h' => ?_
      have := runs_pos _ _ _ h'
      simpa [MSt.ext, ← hs] using this
    | cons u rest =>
      simp only [Re.runsA, Re.runs, MSt.ext, List.cons_append, reduceCtorEq, if_false]
      exact .nil

/-- The first exact partial result. -/
def firstExact : List (Option MSt) → Option MSt
  | [] => none
  | none :: l => firstExact l
  | some s :: _ => some s

theorem RelA.firstExact {t : Str} {w : Nat} {l L} (h : RelA t w l L) {s : MSt} (hf : firstExact l = some s) :
    ∃ s' L', L = s' :: L' ∧ (s' = s.ext t ∨ w ≤ s'.pos) := by
  induction h with
  | nil => cases hf
  | exact s0 _ _ _ => cases hf; exact ⟨_, _, rfl, .inl rfl⟩
  | maybe m hm _ ih =>
    cases m with
    | nil => exact ih hf
    | cons s0 m => exact ⟨s0, _, rfl, .inr (hm s0 (List.mem_cons_self ..))⟩

/-- What `^(?:r)` finds. -/
theorem atStart_find (r : Re) (s : Str) :
    r.atStart.find s = (r.runs ⟨0, s, []⟩).head?.map fun st => ⟨0, st.pos, st.caps⟩ := by
  have hno : ∀ (s : Str) (p : Nat), p ≠ 0 → r.atStart.findFrom p s = none := by
    intro s
    induction s with
    | nil => intro p hp; rw [Re.findFrom, matchAt_eq]; simp [Re.atStart, Re.runs, hp]
    | cons u s ih =>
      intro p hp
      rw [Re.findFrom, matchAt_eq, ih (p + 1) (by omega)]
      simp [Re.atStart, Re.runs, hp]
  have h0 : ∀ s, r.atStart.matchAt 0 s = (r.runs ⟨0, s, []⟩).head?.map fun st => ⟨0, st.pos, st.caps⟩ := by
    intro s; rw [matchAt_eq]; simp [Re.atStart, Re.runs]
  cases s with
  | nil => rw [Re.find, Re.findFrom, h0]
  | cons u s =>
    rw [Re.find, Re.findFrom, h0, hno s (0 + 1) (by omega)]
    split
    · rename_i x hx; exact hx.symm
    · rename_i hx; exact hx.symm

/-- The end of what `^(?:r)` finds, 0 for nothing. -/
def Re.startLen (r : Re) (s : Str) : Nat :=
  match r.atStart.find s with
  | some x => x.stop
  | none => 0

theorem startLen_eq (r : Re) (s : Str) : r.startLen s = match (r.runs ⟨0, s, []⟩).head? with | some st => st.pos | none => 0 := by
  rw [Re.startLen, atStart_find]
  cases (r.runs ⟨0, s, []⟩).head? <;> rfl

/-- Does the known part `p` alone decide what is found at the start, whatever follows?  (Or is nothing found in it and nothing
in any continuation.) -/
def Re.decided (r : Re) (p : Str) : Option Nat :=
  match r.runsA ⟨0, p, []⟩ with
  | [] => some 0
  | some s :: _ => some s.pos
  | none :: _ => none

theorem decided_spec {r : Re} (hr : r.boundedLoops = true) {p : Str} {n : Nat} (h : r.decided p = some n) (t : Str) :
    r.startLen (p ++ t) = n := by
  have hrel := runsA_rel r hr t p.length ⟨0, p, []⟩ (by simp)
  rw [startLen_eq, show (⟨0, p ++ t, []⟩ : MSt) = (⟨0, p, []⟩ : MSt).ext t from rfl]
  unfold Re.decided at h
  generalize r.runsA ⟨0, p, []⟩ = l at hrel h
  generalize r.runs ((⟨0, p, []⟩ : MSt).ext t) = L at hrel
  cases hrel with
  | nil => simpa using h
  | exact s _ _ => simpa [MSt.ext] using h
  | maybe => cases h

/-- Whatever follows `p`, something is found at the start that is at least as long as `p`. -/
def Re.covers (r : Re) (p : Str) : Bool :=
  match firstExact (r.runsA ⟨0, p, []⟩) with
  | some s => decide (p.length ≤ s.pos)
  | none => false

theorem covers_spec {r : Re} (hr : r.boundedLoops = true) {p : Str} (h : r.covers p = true) (t : Str) :
    p.length ≤ r.startLen (p ++ t) := by
  have hrel := runsA_rel r hr t p.length ⟨0, p, []⟩ (by simp)
  rw [startLen_eq, show (⟨0, p ++ t, []⟩ : MSt) = (⟨0, p, []⟩ : MSt).ext t from rfl]
  unfold Re.covers at h
  split at h
  · rename_i s hs
    obtain ⟨s', L', hL, hs'⟩ := hrel.firstExact hs
    rw [hL]
    simp only [List.head?_cons]
    rcases hs' with rfl | hs'
    · simpa [MSt.ext] using h
    · exact hs'
  · cases h

/-- Without anchors, finding something at the start of a text means finding something at the start of every continuation. -/
theorem atStart_find_mono {r : Re} (hr : r.noAnchor = true) {p : Str} (h : (r.atStart.find p).isSome = true) (t : Str) :
    (r.atStart.find (p ++ t)).isSome = true := by
  have h1 := (atStart_isMatch_iff r p).1 h
  obtain ⟨w, e, rfl, ha⟩ := h1
  exact (atStart_isMatch_iff r _).2 ⟨w, e ++ t, by simp, noAnchor_acc hr ha⟩

end Verif
