import Verif.Regex.Lens
import Verif.Regex.Static
/-!
# Bounded regular expressions: only the first units matter

If no match of `r` is longer than `w`, then the matches at the start of `w ++ e` are those at the start of `w`, in the same order.
-/
namespace Verif

/-- The state with more text at the end. -/
def MSt.more (e : Str) (st : MSt) : MSt := { st with rest := st.rest ++ e }

/-- `f` looks at `M` units at most. -/
structure Local (f : MSt → List MSt) (M : Nat) (e : Str) : Prop where
  eq : ∀ st, M ≤ st.rest.length → f (st.more e) = (f st).map (·.more e)
  len : ∀ st, ∀ st' ∈ f st, st.rest.length ≤ st'.rest.length + M

theorem flatMap_local {l : List MSt} {g : MSt → List MSt} {e : Str} (h : ∀ st ∈ l, g (st.more e) = (g st).map (·.more e)) :
    (l.map (·.more e)).flatMap g = (l.flatMap g).map (·.more e) := by
  induction l with
  | nil => rfl
  | cons a l ih =>
    simp only [List.map_cons, List.flatMap_cons, List.map_append]
    rw [h a (by simp), ih fun st hst => h st (by simp [hst])]

theorem iterL_local {f : MSt → List MSt} {M : Nat} {e : Str} (h : Local f M e) (k : Nat) : Local (iterL f k) (k * M) e := by
  induction k with
  | zero => exact ⟨fun st _ => rfl, fun st st' hst => by simp only [iterL, List.mem_singleton] at hst; subst hst; omega⟩
  | succ k ih =>
    refine ⟨fun st hl => ?_, fun st st' hst => ?_⟩
    · rw [Nat.succ_mul] at hl
      simp only [iterL]
      rw [h.eq st (by omega), flatMap_local]
      intro st' hst
      have := h.len st st' hst
      exact ih.eq st' (by omega)
    · simp only [iterL, List.mem_flatMap] at hst
      obtain ⟨s1, h1, h2⟩ := hst
      have := h.len _ _ h1
      have := ih.len _ _ h2
      rw [Nat.succ_mul]
      omega

theorem optL_local {f : MSt → List MSt} {M : Nat} {e : Str} (h : Local f M e) (g : Bool) (k : Nat) : Local (optL f g k) (k * M) e := by
  induction k with
  | zero => exact ⟨fun st _ => rfl, fun st st' hst => by simp only [optL, List.mem_singleton] at hst; subst hst; omega⟩
  | succ k ih =>
    refine ⟨fun st hl => ?_, fun st st' hst => ?_⟩
    · rw [Nat.succ_mul] at hl
      have key : ((f (st.more e)).filter (fun st' => decide (st'.rest.length < (st.more e).rest.length))).flatMap (optL f g k) =
          (((f st).filter (fun st' => decide (st'.rest.length < st.rest.length))).flatMap (optL f g k)).map (·.more e) := by
        rw [h.eq st (by omega), List.filter_map, flatMap_local]
        · congr 2
          refine List.filter_congr fun x _ => ?_
          simp [MSt.more]
        · intro st' hst
          have := h.len st st' (List.mem_filter.1 hst).1
          exact ih.eq st' (by omega)
      simp only [optL, key]
      cases g <;> simp
    · have key : st' = st ∨ ∃ s1 ∈ f st, st' ∈ optL f g k s1 := by
        simp only [optL] at hst
        cases g
        · simp only [Bool.false_eq_true, if_false, List.mem_cons, List.mem_flatMap, List.mem_filter] at hst
          rcases hst with rfl | ⟨s1, h1, h2⟩
          · exact .inl rfl
          · exact .inr ⟨s1, h1.1, h2⟩
        · simp only [if_true, List.mem_append, List.mem_singleton, List.mem_flatMap, List.mem_filter] at hst
          rcases hst with ⟨s1, h1, h2⟩ | rfl
          · exact .inr ⟨s1, h1.1, h2⟩
          · exact .inl rfl
      rcases key with rfl | ⟨s1, h1, h2⟩
      · omega
      · have := h.len _ _ h1
        have := ih.len _ _ h2
        rw [Nat.succ_mul]
        omega

theorem runs_local (e : Str) (r : Re) (hn : r.noAnchor = true) (M : Nat) (hM : r.maxLen = some M) : Local r.runs M e := by
  refine ⟨?_, fun st st' hst => ?_⟩
  · induction r generalizing M with
    | eps => intro st _; rfl
    | bos => cases hn
    | eos => cases hn
    | cls c =>
      intro st hl
      simp only [Re.maxLen, Option.some.injEq] at hM
      obtain ⟨p, w, cs⟩ := st
      cases w with
      | nil => simp only [List.length_nil] at hl; omega
      | cons u w =>
        simp only [Re.runs, MSt.more, List.cons_append]
        split <;> rfl
    | cat a b iha ihb =>
      intro st hl
      simp only [Re.noAnchor, Bool.and_eq_true] at hn
      simp only [Re.maxLen] at hM
      split at hM
      · rename_i x y hx hy
        obtain rfl := Option.some.inj hM
        simp only [Re.runs]
        rw [iha hn.1 x hx st (by omega), flatMap_local]
        intro st' hst
        obtain ⟨w, h1, -, h2⟩ := runs_sound a st st' hst
        have := maxLen_acc a x hx _ _ _ h2
        have := congrArg List.length h1
        rw [List.length_append] at this
        exact ihb hn.2 y hy st' (by omega)
      · cases hM
    | alt a b iha ihb =>
      intro st hl
      simp only [Re.noAnchor, Bool.and_eq_true] at hn
      simp only [Re.maxLen] at hM
      split at hM
      · rename_i x y hx hy
        obtain rfl := Option.some.inj hM
        simp only [Re.runs, List.map_append]
        rw [iha hn.1 x hx st (by omega), ihb hn.2 y hy st (by omega)]
      · cases hM
    | rep r mn mx g ih =>
      intro st hl
      simp only [Re.noAnchor] at hn
      simp only [Re.maxLen] at hM
      split at hM
      · rename_i x k hx
        obtain rfl := Option.some.inj hM
        have hL : Local r.runs x e := by
          refine ⟨ih hn x hx, fun st st' hst => ?_⟩
          obtain ⟨w, h1, -, h2⟩ := runs_sound r st st' hst
          have := maxLen_acc r x hx _ _ _ h2
          have := congrArg List.length h1
          rw [List.length_append] at this
          omega
        simp only [Re.runs]
        rw [Nat.add_mul] at hl
        rw [(iterL_local hL mn).eq st (by omega), flatMap_local]
        intro st' hst
        have := (iterL_local hL mn).len _ _ hst
        exact (optL_local hL g (k - mn)).eq st' (by omega)
      · cases hM
    | grp n r ih =>
      intro st hl
      simp only [Re.runs]
      rw [ih hn M hM st hl, List.map_map, List.map_map]
      rfl
  · obtain ⟨w, h1, -, h2⟩ := runs_sound r st st' hst
    have := maxLen_acc r M hM _ _ _ h2
    have := congrArg List.length h1
    rw [List.length_append] at this
    omega

/-- The match at the start depends on the first units only. -/
theorem matchAt_local {r : Re} (hn : r.noAnchor = true) {M : Nat} (hM : r.maxLen = some M) {w : Str} (h : M ≤ w.length) (p : Nat) (e : Str) :
    r.matchAt p (w ++ e) = r.matchAt p w := by
  have := (runs_local e r hn M hM).eq ⟨p, w, []⟩ h
  rw [matchAt_eq, matchAt_eq, show (⟨p, w ++ e, []⟩ : MSt) = MSt.more e ⟨p, w, []⟩ from rfl, this]
  cases r.runs ⟨p, w, []⟩ <;> rfl

end Verif
