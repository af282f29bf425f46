import Verif.Model.OnceFail
import Verif.Spec.OnceFail
import Verif.Lemmas.Conc
/-!
# The invariant of tables loaded once
-/
namespace Verif
open Spec
namespace OnceFail

variable {σ α β : Type}

/-- The table after all updates. -/
def run (us : List (σ → σ)) (x : σ) : σ := us.foldl (fun y u => u y) x

def Pc.pend : Pc σ α β → Option α
  | .idle => none
  | .enter a | .slow a | .locked a | .running a _ | .unlocking a _ | .ready a _ | .leaving a _ _ => some a

def Pc.busy (pc : Pc σ α β) : Bool := pc.pend.isSome

def Pc.holds : Pc σ α β → Bool
  | .locked _ | .running _ _ | .unlocking _ _ => true
  | _ => false

/-- The call runs or has run the loading function. -/
def Pc.ran : Pc σ α β → Bool
  | .running _ _ => true
  | .unlocking _ r | .ready _ r | .leaving _ r _ => r
  | _ => false

/-- What a goroutine knows. -/
def Pc.good (updates : List (σ → σ)) (outcome : α → Bool → σ → β) (x : σ) (table : σ) (done : Bool) : Pc σ α β → Prop
  | .idle | .enter _ | .slow _ => True
  | .locked _ => done = false → table = x
  | .running _ us => done = false ∧ run us table = run updates x
  | .unlocking _ _ | .ready _ _ => done = true
  | .leaving a r b => done = true ∧ b = outcome a r (run updates x)

structure Inv (updates : List (σ → σ)) (outcome : α → Bool → σ → β) (x : σ) (tr : List (Nat × Op α β)) (s : St σ α β) : Prop where
  done : s.done = true → s.table = run updates x
  free : s.done = false → s.locked = false → s.table = x
  good : ∀ (t : Nat) (pc : Pc σ α β), s.threads[t]? = some pc → pc.good updates outcome x s.table s.done
  mutex : s.threads.countP Pc.holds = if s.locked then 1 else 0
  answers : ∀ (t : Nat) (pc : Pc σ α β), s.threads[t]? = some pc →
    Answers (fun a b => ∃ r, b = outcome a r (run updates x)) (ofThread t tr) pc.pend
  fresh : ∀ t, s.threads.length ≤ t → ofThread t tr = []

variable {updates : List (σ → σ)} {outcome : α → Bool → σ → β} {x : σ}

theorem Inv.move {tr : List (Nat × Op α β)} {s : St σ α β} (i : Inv updates outcome x tr s) {t : Nat} {pc pc' : Pc σ α β}
    (h : s.threads[t]? = some pc) (hp : pc'.pend = pc.pend) (hh : pc'.holds = pc.holds)
    (hg : pc'.good updates outcome x s.table s.done) : Inv updates outcome x tr (s.go t pc') := by
  refine ⟨i.done, i.free, forall_set i.good hg, ?_, answers_step _ _ i.answers h hp, ?_⟩
  · have h1 := countP_move Pc.holds (pc' := pc') h
    rw [hh] at h1
    have h2 := i.mutex
    rw [St.go]; dsimp only; omega
  · intro u hu; simp [St.go] at hu; exact i.fresh u hu

/-- While one goroutine holds the lock, the others do not depend on the table being unfinished. -/
theorem good_other {s : St σ α β} {tr : List (Nat × Op α β)} (i : Inv updates outcome x tr s) {t : Nat} {pc : Pc σ α β} (h : s.threads[t]? = some pc)
    (hh : pc.holds = true) {pc' : Pc σ α β} {table : σ} {done : Bool} (hd : s.done = true → done = true)
    (hg : pc'.good updates outcome x table done) :
    ∀ (u : Nat) (q : Pc σ α β), (s.threads.set t pc')[u]? = some q → q.good updates outcome x table done := by
  intro u q hu
  rw [List.getElem?_set] at hu
  split at hu
  · split at hu
    · obtain rfl := Option.some.inj hu; exact hg
    · cases hu
  · rename_i hne
    have hq := i.good _ _ hu
    have hn : q.holds = false := by
      cases hh' : q.holds with
      | false => rfl
      | true =>
        have := countP_two h hu hne hh hh'
        have h2 := i.mutex
        split at h2 <;> omega
    cases q with
    | ready a => exact hd hq
    | leaving a r b => exact ⟨hd hq.1, hq.2⟩
    | idle => trivial
    | enter a => trivial
    | slow a => trivial
    | locked a => cases hn
    | running a us => cases hn
    | unlocking a => cases hn

theorem inv_run {tr : List (Nat × Op α β)} {s : St σ α β} (h : Run (Step updates outcome) (init x) tr s) :
    Inv updates outcome x tr s := by
  induction h with
  | start => exact ⟨by simp [init], by simp [init], by simp [init], by simp [init], by simp [init], by simp [ofThread]⟩
  | silent _ hs ih =>
    rename_i s₀ _ _
    cases hs with
    | spawn =>
      refine ⟨ih.done, ih.free, forall_append ih.good trivial, ?_, answers_spawn _ _ ih.answers ih.fresh rfl, ?_⟩
      · simpa [Pc.holds] using ih.mutex
      · intro t ht; simp at ht; exact ih.fresh t (by omega)
    | fast _ t a h hd => exact ih.move h rfl rfl hd
    | slow _ t a h hd => exact ih.move h rfl rfl trivial
    | lock _ t a h hl =>
      refine ⟨ih.done, ?_, forall_set ih.good (fun hd => ih.free hd hl), ?_, answers_step _ _ ih.answers h rfl, ?_⟩
      · intro _ h0; cases h0
      · have h1 := countP_move Pc.holds (pc' := .locked a) h
        simp [Pc.holds] at h1
        have h2 := ih.mutex
        rw [hl] at h2; simp only [Bool.false_eq_true, if_false] at h2
        simp only [St.go, if_true]; omega
      · intro u hu; simp [St.go] at hu; exact ih.fresh u hu
    | skip _ t a h hd => exact ih.move h rfl rfl hd
    | start _ t a h hd =>
      have hg : _ → _ := ih.good _ _ h
      exact ih.move h rfl rfl ⟨hd, by rw [hg hd]⟩
    | update _ t a u us h =>
      have hg : _ ∧ _ := ih.good _ _ h
      have hlock : s₀.locked = true := by
        have hpos := countP_pos_of_get (p := Pc.holds) h rfl
        have h2 := ih.mutex
        split at h2
        · assumption
        · omega
      refine ⟨?_, ?_, good_other ih h rfl (by intro h; exact h) ⟨hg.1, hg.2⟩, ?_, answers_step _ _ ih.answers h rfl, ?_⟩
      · intro hd; rw [St.go] at hd; dsimp only at hd; rw [hg.1] at hd; cases hd
      · intro _ h0; rw [St.go] at h0; dsimp only at h0; rw [hlock] at h0; cases h0
      · have h1 := countP_move Pc.holds (pc' := .running a us) h
        simp [Pc.holds] at h1
        rw [St.go]; dsimp only; rw [h1]; exact ih.mutex
      · intro u hu; simp [St.go] at hu; exact ih.fresh u hu
    | finish _ t a h =>
      have hg : _ ∧ _ := ih.good _ _ h
      refine ⟨?_, ?_, good_other ih h rfl (fun _ => rfl) rfl, ?_, answers_step _ _ ih.answers h rfl, ?_⟩
      · intro _; exact hg.2
      · intro h0; cases h0
      · have h1 := countP_move Pc.holds (pc' := .unlocking a true) h
        simp [Pc.holds] at h1
        rw [St.go]; dsimp only; rw [h1]; exact ih.mutex
      · intro u hu; simp [St.go] at hu; exact ih.fresh u hu
    | unlock _ t a ran h =>
      have hg : s₀.done = true := ih.good _ _ h
      have hpos := countP_pos_of_get (p := Pc.holds) h rfl
      refine ⟨ih.done, ?_, forall_set ih.good hg, ?_, answers_step _ _ ih.answers h rfl, ?_⟩
      · intro h0; rw [St.go] at h0; dsimp only at h0; rw [hg] at h0; cases h0
      · have h1 := countP_move Pc.holds (pc' := .ready a ran) h
        simp [Pc.holds] at h1
        have h2 := ih.mutex
        rw [St.go]; dsimp only
        split at h2
        · simp only [Bool.false_eq_true, if_false]; omega
        · omega
      · intro u hu; simp [St.go] at hu; exact ih.fresh u hu
    | read _ t a ran h =>
      have hg : s₀.done = true := ih.good _ _ h
      exact ih.move h rfl rfl ⟨hg, by rw [ih.done hg]⟩
  | event _ hs ih =>
    cases hs with
    | call _ t a h =>
      refine ⟨ih.done, ih.free, forall_set ih.good trivial, ?_, answers_call _ _ ih.answers h rfl a rfl, ?_⟩
      · have h1 := countP_move Pc.holds (pc' := .enter a) h
        simp [Pc.holds] at h1
        rw [St.go]; dsimp only; rw [h1]; exact ih.mutex
      · simp only [St.go, List.length_set]; exact fresh_event ih.fresh (lt_of_get h) _
    | ret _ t a r b h =>
      have hg : _ ∧ _ := ih.good _ _ h
      refine ⟨ih.done, ih.free, forall_set ih.good trivial, ?_, answers_ret _ _ ih.answers h a b rfl rfl ⟨r, hg.2⟩, ?_⟩
      · have h1 := countP_move Pc.holds (pc' := .idle) h
        simp [Pc.holds] at h1
        rw [St.go]; dsimp only; rw [h1]; exact ih.mutex
      · simp only [St.go, List.length_set]; exact fresh_event ih.fresh (lt_of_get h) _

/-- As long as the table is not loaded, a call that runs the loading function holds the lock. -/
theorem Inv.ran_le {tr : List (Nat × Op α β)} {s : St σ α β} (i : Inv updates outcome x tr s) (hd : s.done = false) :
    s.threads.countP Pc.ran ≤ 1 := by
  have h : s.threads.countP Pc.ran ≤ s.threads.countP Pc.holds := by
    apply List.countP_mono_left
    intro pc hm hr
    obtain ⟨t, ht⟩ := List.getElem?_of_mem hm
    have hg := i.good _ _ ht
    cases pc with
    | ready a r => have hg : s.done = true := hg; rw [hd] at hg; cases hg
    | leaving a r b => have hg : s.done = true := hg.1; rw [hd] at hg; cases hg
    | running a us => rfl
    | unlocking a r => rfl
    | _ => cases hr
  have := i.mutex
  split at this <;> omega

/-- Calls made, calls ended, and the ones that ended in the special way. -/
structure Counts (special : β → Bool) (tr : List (Nat × Op α β)) (s : St σ α β) : Prop where
  balance : callsMade tr = ended (fun _ => true) tr + s.threads.countP Pc.busy
  before : s.done = false → ended (fun _ => true) tr = 0
  after : s.done = true → s.threads.countP Pc.ran + ended special tr = 1

theorem ended_le (p : β → Bool) (tr : List (Nat × Op α β)) : ended p tr ≤ ended (fun _ => true) tr := by
  unfold ended
  apply List.countP_mono_left
  intro e _ h
  cases e with | mk t o => cases o with
    | call a => cases h
    | ret b => rfl

theorem Counts.move {special : β → Bool} {tr : List (Nat × Op α β)} {s : St σ α β} (c : Counts special tr s) {t : Nat}
    {pc pc' : Pc σ α β} (h : s.threads[t]? = some pc) (hp : pc'.busy = pc.busy) (hr : pc'.ran = pc.ran ∨ s.done = false) :
    Counts special tr (s.go t pc') := by
  have h1 := countP_move Pc.busy (pc' := pc') h
  rw [hp] at h1
  refine ⟨?_, c.before, ?_⟩
  · have := c.balance; simp only [St.go]; omega
  · intro hd
    rcases hr with hr | hr
    · have h2 := countP_move Pc.ran (pc' := pc') h
      rw [hr] at h2
      have := c.after hd; simp only [St.go]; omega
    · simp only [St.go] at hd; rw [hr] at hd; cases hd

theorem counts_run {special : β → Bool} (hsp : ∀ a r, special (outcome a r (run updates x)) = r)
    {tr : List (Nat × Op α β)} {s : St σ α β} (h : Run (Step updates outcome) (init x) tr s) : Counts special tr s := by
  induction h with
  | start => exact ⟨by simp [init, callsMade, ended], by simp [init, ended], by simp [init]⟩
  | silent hr hs ih =>
    rename_i s₀ _
    have i := inv_run hr
    cases hs with
    | spawn =>
      refine ⟨?_, ih.before, ?_⟩
      · simpa [Pc.busy, Pc.pend] using ih.balance
      · intro hd; simpa [Pc.ran] using ih.after hd
    | fast _ t a h hd => exact ih.move h rfl (.inl rfl)
    | slow _ t a h hd => exact ih.move h rfl (.inl rfl)
    | lock _ t a h hl =>
      have := ih.move (pc' := .locked a) h rfl (.inl rfl)
      exact ⟨this.balance, this.before, this.after⟩
    | skip _ t a h hd => exact ih.move h rfl (.inl rfl)
    | start _ t a h hd => exact ih.move h rfl (.inr hd)
    | update _ t a u us h =>
      have := ih.move (pc' := .running a us) h rfl (.inl rfl)
      exact ⟨this.balance, this.before, this.after⟩
    | finish _ t a h =>
      have hg : _ ∧ _ := i.good _ _ h
      have h1 := countP_move Pc.busy (pc' := .unlocking a true) h
      have h2 := countP_move Pc.ran (pc' := .unlocking a true) h
      simp [Pc.busy, Pc.pend] at h1
      simp [Pc.ran] at h2
      have hb := ih.balance
      have hz := ih.before hg.1
      have hl := i.ran_le hg.1
      have hpos := countP_pos_of_get (p := Pc.ran) h rfl
      have he := ended_le special ‹_›
      refine ⟨?_, ?_, ?_⟩
      · simp only [St.go]
        have e : (List.set s₀.threads t (Pc.unlocking a true)).countP Pc.busy = s₀.threads.countP Pc.busy := h1
        rw [e]; exact hb
      · intro h0; cases h0
      · intro _
        simp only [St.go]
        have e : (List.set s₀.threads t (Pc.unlocking a true)).countP Pc.ran = s₀.threads.countP Pc.ran := h2
        rw [e]; omega
    | unlock _ t a ran h =>
      have := ih.move (pc' := .ready a ran) h rfl (.inl rfl)
      exact ⟨this.balance, this.before, this.after⟩
    | read _ t a ran h => exact ih.move h rfl (.inl rfl)
  | event hr hs ih =>
    rename_i s₀ _ _
    have i := inv_run hr
    cases hs with
    | call _ t a h =>
      have h1 := countP_move Pc.busy (pc' := .enter a) h
      have h2 := countP_move Pc.ran (pc' := .enter a) h
      have b0 : Pc.busy (Pc.idle : Pc σ α β) = false := rfl
      have b1 : Pc.busy (Pc.enter a : Pc σ α β) = true := rfl
      have r0 : Pc.ran (Pc.idle : Pc σ α β) = false := rfl
      have r1 : Pc.ran (Pc.enter a : Pc σ α β) = false := rfl
      rw [b0, b1] at h1
      rw [r0, r1] at h2
      simp only [Bool.false_eq_true, if_false, if_true] at h1 h2
      refine ⟨?_, ?_, ?_⟩
      · have := ih.balance
        simp only [callsMade, ended, List.countP_append, List.countP_singleton, St.go] at this ⊢
        simp only [if_true, Bool.false_eq_true, if_false]
        omega
      · intro hd
        have := ih.before hd
        simp only [ended, List.countP_append, List.countP_singleton] at this ⊢
        simpa using this
      · intro hd
        have := ih.after hd
        simp only [ended, List.countP_append, List.countP_singleton, St.go] at this ⊢
        simp only [Bool.false_eq_true, if_false]
        omega
    | ret _ t a r b h =>
      have hg : _ ∧ _ := i.good _ _ h
      have h1 := countP_move Pc.busy (pc' := .idle) h
      have h2 := countP_move Pc.ran (pc' := .idle) h
      have b0 : Pc.busy (Pc.idle : Pc σ α β) = false := rfl
      have b1 : Pc.busy (Pc.leaving a r b : Pc σ α β) = true := rfl
      have r0 : Pc.ran (Pc.idle : Pc σ α β) = false := rfl
      have r1 : Pc.ran (Pc.leaving a r b : Pc σ α β) = r := rfl
      have hb : special b = r := by rw [hg.2]; exact hsp a r
      rw [b0, b1] at h1
      rw [r0, r1] at h2
      simp only [Bool.false_eq_true, if_false, if_true] at h1 h2
      refine ⟨?_, ?_, ?_⟩
      · have := ih.balance
        simp only [callsMade, ended, List.countP_append, List.countP_singleton, St.go] at this ⊢
        simp only [if_true, Bool.false_eq_true, if_false]
        omega
      · intro hd; simp only [St.go] at hd; rw [hg.1] at hd; cases hd
      · intro hd
        have := ih.after hd
        simp only [ended, List.countP_append, List.countP_singleton, St.go, hb] at this ⊢
        omega

/-! ## Every call ends -/

/-- How many steps a goroutine still has to take. -/
def Pc.left (n : Nat) : Pc σ α β → Nat
  | .idle => 0
  | .enter _ => n + 8
  | .slow _ => n + 7
  | .locked _ => n + 6
  | .running _ us => us.length + 4
  | .unlocking _ _ => 3
  | .ready _ _ => 2
  | .leaving _ _ _ => 1

def St.left (n : Nat) (s : St σ α β) : Nat := (s.threads.map (Pc.left n)).sum

theorem left_set (n : Nat) {ts : List (Pc σ α β)} {t : Nat} {pc pc' : Pc σ α β} (h : ts[t]? = some pc)
    (hl : pc'.left n < pc.left n) : ((ts.set t pc').map (Pc.left n)).sum < (ts.map (Pc.left n)).sum := by
  induction ts generalizing t with
  | nil => simp at h
  | cons q r ih =>
    cases t with
    | zero =>
      simp only [List.getElem?_cons_zero, Option.some.injEq] at h; subst h
      simp only [List.set_cons_zero, List.map_cons, List.sum_cons]; omega
    | succ t =>
      simp only [List.getElem?_cons_succ] at h
      simp only [List.set_cons_succ, List.map_cons, List.sum_cons]
      have := ih h; omega

/-- Some goroutine that is in a call can take a step towards its end. -/
theorem progress {tr : List (Nat × Op α β)} {s : St σ α β} (i : Inv updates outcome x tr s) {t : Nat} {pc : Pc σ α β}
    (h : s.threads[t]? = some pc) (hb : pc ≠ .idle) :
    ∃ e s', Step updates outcome s e s' ∧ s'.left updates.length < s.left updates.length ∧
      s'.threads.length = s.threads.length ∧ ∀ u a, e ≠ some (u, .call a) := by
  -- a goroutine that does not have to wait
  have key : ∀ (t : Nat) (pc : Pc σ α β), s.threads[t]? = some pc → pc ≠ .idle → (∀ a, pc = .slow a → s.locked = false) →
      ∃ e s', Step updates outcome s e s' ∧ s'.left updates.length < s.left updates.length ∧
        s'.threads.length = s.threads.length ∧ ∀ u a, e ≠ some (u, .call a) := by
    intro t pc h hb hw
    cases pc with
    | idle => exact absurd rfl hb
    | enter a =>
      cases hd : s.done with
      | true => exact ⟨_, _, .fast s t a h hd, left_set _ h (by simp [Pc.left]), by simp [St.go], by intro u a h; cases h⟩
      | false => exact ⟨_, _, .slow s t a h hd, left_set _ h (by simp [Pc.left]), by simp [St.go], by intro u a h; cases h⟩
    | slow a => exact ⟨_, _, .lock s t a h (hw a rfl), left_set _ h (by simp [Pc.left]), by simp [St.go], by intro u a h; cases h⟩
    | locked a =>
      cases hd : s.done with
      | true => exact ⟨_, _, .skip s t a h hd, left_set _ h (by simp [Pc.left]), by simp [St.go], by intro u a h; cases h⟩
      | false => exact ⟨_, _, .start s t a h hd, left_set _ h (by simp [Pc.left]), by simp [St.go], by intro u a h; cases h⟩
    | running a us =>
      cases us with
      | nil => exact ⟨_, _, .finish s t a h, left_set _ h (by simp [Pc.left]), by simp [St.go], by intro u a h; cases h⟩
      | cons u us => exact ⟨_, _, .update s t a u us h, left_set _ h (by simp [Pc.left]), by simp [St.go], by intro u a h; cases h⟩
    | unlocking a r => exact ⟨_, _, .unlock s t a r h, left_set _ h (by simp [Pc.left]), by simp [St.go], by intro u a h; cases h⟩
    | ready a r => exact ⟨_, _, .read s t a r h, left_set _ h (by simp [Pc.left]), by simp [St.go], by intro u a h; cases h⟩
    | leaving a r b =>
      exact ⟨_, _, .ret s t a r b h, left_set _ h (by simp [Pc.left]), by simp [St.go], by intro u a h; simp at h⟩
  cases hl : s.locked with
  | false => exact key t pc h hb (fun _ _ => hl)
  | true =>
    have hm := i.mutex
    rw [hl] at hm; simp only [if_true] at hm
    obtain ⟨u, q, hu, hq⟩ := countP_pos_get (p := Pc.holds) (ts := s.threads) (by omega)
    exact key u q hu (by intro h0; subst h0; cases hq) (by intro a h0; subst h0; cases hq)

/-- Every execution can be continued, without further calls, until all calls have ended. -/
theorem finish_all (n : Nat) {tr : List (Nat × Op α β)} {s : St σ α β} (h : Run (Step updates outcome) (init x) tr s)
    (hn : s.left updates.length ≤ n) :
    ∃ tr' s', Run (Step updates outcome) (init x) (tr ++ tr') s' ∧ callsMade tr' = 0 ∧
      ∀ (t : Nat) (pc : Pc σ α β), s'.threads[t]? = some pc → pc = .idle := by
  induction n generalizing tr s with
  | zero =>
    by_cases hx : ∃ (t : Nat) (pc : Pc σ α β), s.threads[t]? = some pc ∧ pc ≠ .idle
    · obtain ⟨t, pc, ht, hb⟩ := hx
      obtain ⟨_, _, _, hl, _⟩ := progress (inv_run h) ht hb
      omega
    · exact ⟨[], s, by simpa using h, rfl, fun t pc ht => Classical.byContradiction fun hc => hx ⟨t, pc, ht, hc⟩⟩
  | succ n ih =>
    by_cases hx : ∃ (t : Nat) (pc : Pc σ α β), s.threads[t]? = some pc ∧ pc ≠ .idle
    · obtain ⟨t, pc, ht, hb⟩ := hx
      obtain ⟨e, s', hs, hl, _, hc⟩ := progress (inv_run h) ht hb
      cases e with
      | none => exact ih (.silent h hs) (by omega)
      | some e =>
        obtain ⟨tr', s'', hr, h0, hi⟩ := ih (.event h hs) (by omega)
        refine ⟨e :: tr', s'', by simpa using hr, ?_, hi⟩
        obtain ⟨u, o⟩ := e
        cases o with
        | call a => exact absurd rfl (hc u a)
        | ret b => simpa [callsMade, List.countP_cons] using h0
    · exact ⟨[], s, by simpa using h, rfl, fun t pc ht => Classical.byContradiction fun hc => hx ⟨t, pc, ht, hc⟩⟩

end OnceFail
end Verif
