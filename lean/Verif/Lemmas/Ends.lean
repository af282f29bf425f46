import Verif.Spec.OnceFail
/-!
# Executions that come to an end
-/
namespace Verif
open Spec

/-- The weights of the goroutines, added up, after one of them moves. -/
theorem weight_set {π : Type} (w : π → Nat) {ts : List π} {t : Nat} {pc pc' : π} (h : ts[t]? = some pc) :
    ((ts.set t pc').map w).sum + w pc = (ts.map w).sum + w pc' := by
  induction ts generalizing t with
  | nil => simp at h
  | cons q r ih =>
    cases t with
    | zero =>
      simp only [List.getElem?_cons_zero, Option.some.injEq] at h; subst h
      simp only [List.set_cons_zero, List.map_cons, List.sum_cons]; omega
    | succ t =>
      simp only [List.getElem?_cons_succ] at h
      simp only [List.set_cons_succ, List.map_cons, List.sum_cons]
      have := ih h; omega

theorem weight_lt {π : Type} (w : π → Nat) {ts : List π} {t : Nat} {pc pc' : π} (h : ts[t]? = some pc) (hl : w pc' < w pc) :
    ((ts.set t pc').map w).sum < (ts.map w).sum := by
  have := weight_set w (pc' := pc') h; omega

/-- If, while not at rest, some step other than a call decreases a measure, then every execution can come to rest without calls. -/
theorem run_ends {σ α β : Type} {step : Steps σ α β} {init : σ} (m : σ → Nat) (rest : σ → Prop)
    (prog : ∀ tr s, Run step init tr s → ¬ rest s → ∃ e s', step s e s' ∧ m s' < m s ∧ ∀ u a, e ≠ some (u, .call a)) (n : Nat) :
    ∀ tr s, Run step init tr s → m s ≤ n → ∃ tr' s', Run step init (tr ++ tr') s' ∧ callsMade tr' = 0 ∧ rest s' := by
  induction n with
  | zero =>
    intro tr s h hn
    by_cases hx : rest s
    · exact ⟨[], s, by simpa using h, rfl, hx⟩
    · obtain ⟨_, _, _, hl, _⟩ := prog tr s h hx
      omega
  | succ n ih =>
    intro tr s h hn
    by_cases hx : rest s
    · exact ⟨[], s, by simpa using h, rfl, hx⟩
    · obtain ⟨e, s', hs, hl, hc⟩ := prog tr s h hx
      cases e with
      | none => exact ih _ _ (.silent h hs) (by omega)
      | some e =>
        obtain ⟨tr', s'', hr, h0, hi⟩ := ih _ _ (.event h hs) (by omega)
        refine ⟨e :: tr', s'', by simpa using hr, ?_, hi⟩
        obtain ⟨u, o⟩ := e
        cases o with
        | call a => exact absurd rfl (hc u a)
        | ret b => simpa [callsMade, List.countP_cons] using h0

end Verif
