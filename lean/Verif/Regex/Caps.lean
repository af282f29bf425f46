import Verif.Regex.Uni
import Verif.Regex.Lens
/-!
# What a match captures, and replacing a match at the beginning

`Re.capLens n r` lists the possible pairs of the length of a match of `r` and the length of what its group `n` captured.
-/
namespace Verif

/-- The latest capture of group `n`. -/
def MSt.cap (n : Nat) (st : MSt) : Option (Nat × Nat) := (st.caps.find? (·.1 == n)).map (·.2)

/-- Possible lengths of a match with the length of the capture of group `n` (`none`: the group takes no part); `none` if no bound
is known. -/
def Re.capLens (n : Nat) : Re → Option (List (Nat × Option Nat))
  | .eps | .bos | .eos => some [(0, none)]
  | .cls _ => some [(1, none)]
  | .cat a b => match a.capLens n, b.capLens n with
    | some x, some y => some (x.flatMap fun p => y.map fun q => (p.1 + q.1, q.2 <|> p.2))
    | _, _ => none
  | .alt a b => match a.capLens n, b.capLens n with | some x, some y => some (x ++ y) | _, _ => none
  | .rep r mn mx g => match r.groups with
    | 0 => (Re.rep r mn mx g).lens.map (·.map (·, none))
    | _ + 1 => match mn, mx with
      | 0, some 1 => (r.capLens n).map ((0, none) :: ·)
      | _, _ => none
  | .grp k r => match Nat.beq k n with
    | true => r.lens.map (·.map fun l => (l, some l))
    | false => r.capLens n

/-- A pair describes how a match went. -/
def CapStep (n : Nat) (L : List (Nat × Option Nat)) (st st' : MSt) : Prop :=
  ∃ l c, (l, c) ∈ L ∧ st'.pos = st.pos + l ∧
    ((c = none ∧ st'.cap n = st.cap n) ∨ ∃ k a, c = some k ∧ st'.cap n = some (a, a + k))

theorem capStep_lens {n : Nat} {r : Re} {ls : List Nat} (hl : r.lens = some ls) {st st' : MSt} (h : st' ∈ r.runs st)
    (hc : st'.caps = st.caps) : CapStep n (ls.map (·, none)) st st' := by
  obtain ⟨w, e1, p1, a1⟩ := runs_sound r st st' h
  exact ⟨w.length, none, List.mem_map_of_mem (lens_acc r ls hl _ _ _ a1), p1, .inl ⟨rfl, by simp only [MSt.cap, hc]⟩⟩

theorem capLens_runs {n : Nat} {r : Re} {L : List (Nat × Option Nat)} (h : r.capLens n = some L) {st st' : MSt} (hm : st' ∈ r.runs st) :
    CapStep n L st st' := by
  induction r generalizing L st st' with
  | eps | bos | eos =>
    simp only [Re.capLens, Option.some.injEq] at h
    subst h
    exact capStep_lens (ls := [0]) rfl hm (runs_caps_none _ rfl _ _ hm)
  | cls c =>
    simp only [Re.capLens, Option.some.injEq] at h
    subst h
    exact capStep_lens (ls := [1]) rfl hm (runs_caps_none _ rfl _ _ hm)
  | cat a b iha ihb =>
    simp only [Re.capLens] at h
    split at h
    · rename_i x y hx hy
      simp only [Option.some.injEq] at h
      subst h
      obtain ⟨s1, h1, h2⟩ := List.mem_flatMap.1 hm
      obtain ⟨l1, c1, m1, p1, k1⟩ := iha hx h1
      obtain ⟨l2, c2, m2, p2, k2⟩ := ihb hy h2
      refine ⟨l1 + l2, c2 <|> c1, List.mem_flatMap.2 ⟨_, m1, List.mem_map.2 ⟨_, m2, rfl⟩⟩, by omega, ?_⟩
      rcases k2 with ⟨rfl, k2⟩ | ⟨k, a, rfl, k2⟩
      · rw [k2]
        rcases k1 with ⟨rfl, k1⟩ | ⟨k, a, rfl, k1⟩
        · exact .inl ⟨rfl, k1⟩
        · exact .inr ⟨k, a, rfl, k1⟩
      · exact .inr ⟨k, a, rfl, k2⟩
    · cases h
  | alt a b iha ihb =>
    simp only [Re.capLens] at h
    split at h
    · rename_i x y hx hy
      simp only [Option.some.injEq] at h
      subst h
      rcases List.mem_append.1 hm with hm | hm
      · obtain ⟨l, c, m1, k⟩ := iha hx hm
        exact ⟨l, c, List.mem_append_left _ m1, k⟩
      · obtain ⟨l, c, m1, k⟩ := ihb hy hm
        exact ⟨l, c, List.mem_append_right _ m1, k⟩
    · cases h
  | grp k r ih =>
    obtain ⟨s1, h1, rfl⟩ := List.mem_map.1 hm
    simp only [Re.capLens] at h
    split at h
    · rename_i hk
      have hk := Nat.eq_of_beq_eq_true hk
      subst hk
      obtain ⟨ls, hl, rfl⟩ := Option.map_eq_some_iff.1 h
      obtain ⟨w, e1, p1, a1⟩ := runs_sound r st s1 h1
      refine ⟨w.length, some w.length, List.mem_map_of_mem (lens_acc r ls hl _ _ _ a1), p1, .inr ⟨_, st.pos, rfl, ?_⟩⟩
      simp [MSt.cap, p1]
    · rename_i hk
      have hk := Nat.ne_of_beq_eq_false hk
      obtain ⟨l, c, m1, p1, k1⟩ := ih h h1
      have hk' : (k == n) = false := by simpa using hk
      have : ({ s1 with caps := (k, st.pos, s1.pos) :: s1.caps } : MSt).cap n = s1.cap n := by
        simp [MSt.cap, hk']
      exact ⟨l, c, m1, p1, by rw [this]; exact k1⟩
  | rep r mn mx g ih =>
    simp only [Re.capLens] at h
    split at h
    · rename_i hg
      obtain ⟨ls, hl, rfl⟩ := Option.map_eq_some_iff.1 h
      exact capStep_lens hl hm (runs_caps_none (.rep r mn mx g) hg _ _ hm)
    · split at h
      · obtain ⟨L', hL, rfl⟩ := Option.map_eq_some_iff.1 h
        simp only [Re.runs, iterL, List.flatMap_cons, List.flatMap_nil, List.append_nil, optL, Nat.sub_zero] at hm
        have : st' = st ∨ st' ∈ r.runs st := by
          cases g <;> simp at hm <;> grind
        rcases this with rfl | hm
        · exact ⟨0, none, by simp, rfl, .inl ⟨rfl, rfl⟩⟩
        · obtain ⟨l, c, m1, k⟩ := ih hL hm
          exact ⟨l, c, List.mem_cons_of_mem _ m1, k⟩
      · cases h

/-- A match anchored at the beginning: its length and what its group `n` captured are one of the pairs. -/
theorem atStart_caps {n : Nat} (hn : n ≠ 0) {r : Re} {L : List (Nat × Option Nat)} (h : r.capLens n = some L) {s : Str} {x : Match}
    (hx : r.atStart.find s = some x) :
    ∃ c, (x.stop, c) ∈ L ∧ ((c = none ∧ x.span n = none) ∨ ∃ k a, c = some k ∧ x.span n = some (a, a + k)) := by
  have hm : r.atStart.matchAt 0 s = some x := by
    obtain ⟨a, w, e, h1, h2, -, h4, h5⟩ := findFrom_sound hx
    obtain ⟨w1, w2, -, ⟨h5', -⟩, -⟩ := h4
    have ha : a = [] := List.length_eq_zero_iff.mp (by omega)
    subst ha
    rw [h5'] at h5
    simpa [h1] using h5
  rw [matchAt_eq] at hm
  obtain ⟨st, h1, rfl⟩ := Option.map_eq_some_iff.1 hm
  have h2 : st ∈ r.runs ⟨0, s, []⟩ := by
    have := List.mem_of_mem_head? h1
    simpa [Re.atStart, Re.runs] using this
  obtain ⟨l, c, m1, p1, k1⟩ := capLens_runs h h2
  simp only [Nat.zero_add] at p1
  refine ⟨c, by simpa [p1] using m1, ?_⟩
  simp only [Match.span, hn, if_false]
  exact k1

theorem atStart_findFrom_none {r : Re} {p : Nat} (hp : 0 < p) (s : Str) : r.atStart.findFrom p s = none := by
  cases hf : r.atStart.findFrom p s with
  | none => rfl
  | some y =>
    obtain ⟨a, w, e, -, h1, -, ⟨w1, w2, -, ⟨h, -⟩, -⟩, -⟩ := findFrom_sound hf
    omega

/-- Replacing the match at the beginning. -/
theorem atStart_replaceAll {r : Re} {s : Str} {x : Match} (hx : r.atStart.find s = some x) (t : Str) :
    r.atStart.replaceAll s t = expand x s t ++ s.drop x.stop := by
  obtain ⟨a, w, e, h1, h2, h3, ⟨w1, w2, -, ⟨h4, -⟩, -⟩, -⟩ := findFrom_sound hx
  have hx0 : x.start = 0 := by omega
  unfold Re.replaceAll
  rw [show s.length + 2 = (s.length + 1) + 1 from rfl, replaceLoop]
  rw [if_neg (by omega)]
  unfold Re.find at hx
  simp only [List.drop_zero, hx, hx0]
  rw [if_pos (.inr trivial)]
  have : ∀ p, 0 < p → replaceLoop r.atStart s (fun x => expand x s t) (s.length + 1) p x.stop = s.drop x.stop := by
    intro p hp
    rw [replaceLoop]
    split
    · rfl
    · rw [atStart_findFrom_none hp]
  rw [this _ (by split <;> omega)]
  simp [slice]

theorem expandLoop_front (x : Match) (s : Str) {t1 t2 : Str} (h : ∀ u ∈ t1, u ≠ 36) (f : Nat) (hf : (t1 ++ t2).length < f) :
    expandLoop x s f (t1 ++ t2) = t1 ++ expandLoop x s (f - t1.length) t2 := by
  induction t1 generalizing f with
  | nil => rfl
  | cons u t1 ih =>
    cases f with
    | zero => simp at hf
    | succ f =>
      have hu : u ≠ 36 := h u (by simp)
      rw [List.cons_append, expandLoop.eq_def]
      simp only [List.cons_append, List.length_cons] at hf ⊢
      split <;> simp_all <;> grind

/-- The template is literal text followed by the reference to group `k`. -/
def tmplPre (k : Nat) (t : Str) : Option Str :=
  match t.reverse with
  | d :: 36 :: p => if Nat.beq d (48 + k) && Nat.blt 0 k && Nat.blt k 10 && p.all (fun u => !Nat.beq u 36) then some p.reverse else none
  | _ => none

theorem tmplPre_expand {k : Nat} {t p : Str} (h : tmplPre k t = some p) (x : Match) (s : Str) : expand x s t = p ++ x.group s k := by
  unfold tmplPre at h
  split at h
  · rename_i d q hr
    split at h
    · rename_i hc
      simp only [Bool.and_eq_true, Nat.beq_eq, Nat.blt_eq, List.all_eq_true, Bool.not_eq_true'] at hc
      obtain ⟨⟨⟨rfl, h1⟩, h2⟩, h3⟩ := hc
      simp only [Option.some.injEq] at h
      subst h
      have ht : t = q.reverse ++ [36, 48 + k] := by
        have := congrArg List.reverse hr
        simpa using this
      subst ht
      unfold expand
      rw [expandLoop_front x s (t1 := q.reverse) (t2 := [36, 48 + k]) (fun u hu => Nat.ne_of_beq_eq_false (h3 u (by simpa using hu))) _ (by omega)]
      congr 1
      have hk : k = 1 ∨ k = 2 ∨ k = 3 ∨ k = 4 ∨ k = 5 ∨ k = 6 ∨ k = 7 ∨ k = 8 ∨ k = 9 := by omega
      have hf : (q.reverse ++ [36, 48 + k]).length + 1 - q.reverse.length = 3 := by simp; omega
      rw [hf]
      have hn : ∀ i, i < 10 → List.takeWhile isNameChar [48 + i] = [48 + i] := by decide +kernel
      have hn := hn k h2
      rcases hk with rfl | rfl | rfl | rfl | rfl | rfl | rfl | rfl | rfl <;>
        simp only [Nat.reduceAdd] at hn <;> simp [expandLoop, hn, templateVar, digVal, isDig]
    · cases h
  · cases h

/-- The pattern with the end anchor ignored. -/
def Re.dropEos : Re → Re
  | .eos => .eps
  | .cat a b => .cat a.dropEos b.dropEos
  | .alt a b => .alt a.dropEos b.dropEos
  | .rep r mn mx g => .rep r.dropEos mn mx g
  | .grp n r => .grp n r.dropEos
  | r => r

theorem iterP_mono {P Q : Nat → Str → Str → Prop} (h : ∀ p w e, P p w e → Q p w e) {k p : Nat} {w e : Str} (hp : iterP P k p w e) :
    iterP Q k p w e := by
  induction k generalizing p w with
  | zero => exact hp
  | succ k ih =>
    obtain ⟨w1, w2, h1, h2, h3⟩ := hp
    exact ⟨w1, w2, h1, h _ _ _ h2, ih h3⟩

theorem dropEos_acc {r : Re} {p : Nat} {w e : Str} (h : r.Acc p w e) : r.dropEos.Acc p w e := by
  induction r generalizing p w e with
  | eos => exact h.1
  | eps | bos | cls => exact h
  | cat a b iha ihb =>
    obtain ⟨w1, w2, h1, h2, h3⟩ := h
    exact ⟨w1, w2, h1, iha h2, ihb h3⟩
  | alt a b iha ihb => exact h.imp iha ihb
  | grp n r ih => exact ih h
  | rep r mn mx g ih =>
    obtain ⟨k, h1, h2, h3⟩ := h
    exact ⟨k, h1, h2, iterP_mono (fun _ _ _ => ih) h3⟩

end Verif
