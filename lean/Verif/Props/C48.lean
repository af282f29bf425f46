import Verif.Model.RegexCache
import Verif.Lemmas.Conc
/-!
# C48: the regex cache is transparent under concurrency
-/
namespace Verif
open Spec
namespace RegexCache

variable {ρ : Type}

/-- The pattern a goroutine is asking for. -/
def Pc.pend : Pc ρ → Option Str
  | .idle => none
  | .enter p | .reading p | .read p _ | .checked p _ | .compiled p _ | .writing p _ | .wrote p _ | .leaving p _ => some p

/-- What a goroutine has in its hands was compiled from the pattern it asks for. -/
def Pc.good (compile : Str → Option ρ) : Pc ρ → Prop
  | .idle | .enter _ | .reading _ => True
  | .read p v | .checked p v => ∀ r, v = some r → compile p = some r
  | .compiled p r | .writing p r | .wrote p r | .leaving p r => compile p = some r

def Pc.holdsR : Pc ρ → Bool
  | .reading _ | .read _ _ => true
  | _ => false
def Pc.holdsW : Pc ρ → Bool
  | .writing _ _ | .wrote _ _ => true
  | _ => false

structure Inv (compile : Str → Option ρ) (tr : List (Nat × Op Str (Option ρ))) (s : St ρ) : Prop where
  cache : ∀ p r, mapGet s.cache p = some r → compile p = some r
  good : ∀ (t : Nat) (pc : Pc ρ), s.threads[t]? = some pc → pc.good compile
  readers : s.threads.countP Pc.holdsR = s.readers
  writers : s.threads.countP Pc.holdsW = if s.writer then 1 else 0
  excl : s.writer = true → s.readers = 0
  answers : ∀ (t : Nat) (pc : Pc ρ), s.threads[t]? = some pc → Answers (fun p r => r = compile p) (ofThread t tr) pc.pend
  fresh : ∀ t, s.threads.length ≤ t → ofThread t tr = []

theorem good_set {compile : Str → Option ρ} {ts : List (Pc ρ)} (h : ∀ (t : Nat) (pc : Pc ρ), ts[t]? = some pc → pc.good compile) {t : Nat} {pc' : Pc ρ}
    (h' : pc'.good compile) : ∀ (u : Nat) (pc : Pc ρ), (ts.set t pc')[u]? = some pc → pc.good compile := by
  intro u pc hu
  rw [List.getElem?_set] at hu
  split at hu
  · split at hu
    · obtain rfl := Option.some.inj hu; exact h'
    · cases hu
  · exact h _ _ hu

theorem inv_run {compile : Str → Option ρ} {tr : List (Nat × Op Str (Option ρ))} {s : St ρ} (h : Run (Step compile) init tr s) :
    Inv compile tr s := by
  induction h with
  | start => exact ⟨by simp [init, mapGet], by simp [init], by simp [init], by simp [init], by simp [init], by simp [init], by simp [ofThread]⟩
  | silent _ hs ih =>
    cases hs with
    | spawn =>
      refine ⟨ih.cache, ?_, ?_, ?_, ih.excl, ?_, ?_⟩
      · intro t pc h
        rw [List.getElem?_append] at h
        split at h
        · exact ih.good _ _ h
        · obtain rfl : pc = .idle := by
            have := List.mem_of_getElem? h; simpa using this
          trivial
      · simpa [Pc.holdsR] using ih.readers
      · simpa [Pc.holdsW] using ih.writers
      · intro t pc h
        rw [List.getElem?_append] at h
        split at h
        · exact ih.answers _ _ h
        · rename_i hl
          obtain rfl : pc = .idle := by
            have := List.mem_of_getElem? h; simpa using this
          rw [ih.fresh t (by omega)]; exact .none
      · intro t ht; simp at ht; exact ih.fresh t (by omega)
    | rlock _ t p h hw =>
      have h1 := countP_move Pc.holdsR (pc' := .reading p) h
      have h2 := countP_move Pc.holdsW (pc' := .reading p) h
      simp [Pc.holdsR] at h1; simp [Pc.holdsW] at h2
      refine ⟨ih.cache, good_set ih.good trivial, ?_, ?_, ?_, answers_step _ _ ih.answers h rfl, ?_⟩
      · have := ih.readers; simp [St.go]; omega
      · rw [St.go]; dsimp only; rw [h2]; exact ih.writers
      · simp [St.go, hw]
      · intro u hu; simp [St.go] at hu; exact ih.fresh u hu
    | read _ t p h =>
      rename_i s₀ _
      have h1 := countP_move Pc.holdsR (pc' := .read p (mapGet s₀.cache p)) h
      have h2 := countP_move Pc.holdsW (pc' := .read p (mapGet s₀.cache p)) h
      simp [Pc.holdsR] at h1; simp [Pc.holdsW] at h2
      refine ⟨ih.cache, good_set ih.good (fun r => ih.cache p r), ?_, ?_, ih.excl, answers_step _ _ ih.answers h rfl, ?_⟩
      · rw [St.go]; dsimp only; rw [h1]; exact ih.readers
      · rw [St.go]; dsimp only; rw [h2]; exact ih.writers
      · intro u hu; simp [St.go] at hu; exact ih.fresh u hu
    | runlock _ t p v h =>
      have h1 := countP_move Pc.holdsR (pc' := .checked p v) h
      have h2 := countP_move Pc.holdsW (pc' := .checked p v) h
      simp [Pc.holdsR] at h1; simp [Pc.holdsW] at h2
      refine ⟨ih.cache, good_set ih.good (by have hg := ih.good _ _ h; simpa [Pc.good] using hg), ?_, ?_, ?_, answers_step _ _ ih.answers h rfl, ?_⟩
      · have := ih.readers; simp [St.go]; omega
      · rw [St.go]; dsimp only; rw [h2]; exact ih.writers
      · intro hw; have := ih.excl hw; simp; omega
      · intro u hu; simp [St.go] at hu; exact ih.fresh u hu
    | found _ t p r h =>
      have h1 := countP_move Pc.holdsR (pc' := .leaving p r) h
      have h2 := countP_move Pc.holdsW (pc' := .leaving p r) h
      simp [Pc.holdsR] at h1; simp [Pc.holdsW] at h2
      refine ⟨ih.cache, good_set ih.good (ih.good _ _ h r rfl), ?_, ?_, ih.excl, answers_step _ _ ih.answers h rfl, ?_⟩
      · rw [St.go]; dsimp only; rw [h1]; exact ih.readers
      · rw [St.go]; dsimp only; rw [h2]; exact ih.writers
      · intro u hu; simp [St.go] at hu; exact ih.fresh u hu
    | compile _ t p r h hc =>
      have h1 := countP_move Pc.holdsR (pc' := .compiled p r) h
      have h2 := countP_move Pc.holdsW (pc' := .compiled p r) h
      simp [Pc.holdsR] at h1; simp [Pc.holdsW] at h2
      refine ⟨ih.cache, good_set ih.good hc, ?_, ?_, ih.excl, answers_step _ _ ih.answers h rfl, ?_⟩
      · rw [St.go]; dsimp only; rw [h1]; exact ih.readers
      · rw [St.go]; dsimp only; rw [h2]; exact ih.writers
      · intro u hu; simp [St.go] at hu; exact ih.fresh u hu
    | lock _ t p r h hw hr =>
      have h1 := countP_move Pc.holdsR (pc' := .writing p r) h
      have h2 := countP_move Pc.holdsW (pc' := .writing p r) h
      simp [Pc.holdsR] at h1; simp [Pc.holdsW] at h2
      refine ⟨ih.cache, good_set ih.good (by have hg := ih.good _ _ h; simpa [Pc.good] using hg), ?_, ?_, ?_, answers_step _ _ ih.answers h rfl, ?_⟩
      · have := ih.readers; simp [St.go]; omega
      · have := ih.writers; simp [hw] at this; simp only [St.go, if_true]; rw [h2]; simpa using this
      · simp [St.go, hr]
      · intro u hu; simp [St.go] at hu; exact ih.fresh u hu
    | write _ t p r h =>
      have h1 := countP_move Pc.holdsR (pc' := .wrote p r) h
      have h2 := countP_move Pc.holdsW (pc' := .wrote p r) h
      simp [Pc.holdsR] at h1; simp [Pc.holdsW] at h2
      have hg : _ = _ := ih.good _ _ h
      refine ⟨?_, good_set ih.good hg, ?_, ?_, ih.excl, answers_step _ _ ih.answers h rfl, ?_⟩
      · intro q x hx
        simp only [mapSet, mapGet] at hx
        split at hx
        · rename_i hq; obtain rfl := Option.some.inj hx; rw [← hq]; exact hg
        · exact ih.cache _ _ hx
      · rw [St.go]; dsimp only; rw [h1]; exact ih.readers
      · rw [St.go]; dsimp only; rw [h2]; exact ih.writers
      · intro u hu; simp [St.go] at hu; exact ih.fresh u hu
    | unlock _ t p r h =>
      have h1 := countP_move Pc.holdsR (pc' := .leaving p r) h
      have h2 := countP_move Pc.holdsW (pc' := .leaving p r) h
      simp [Pc.holdsR] at h1; simp [Pc.holdsW] at h2
      have hpos := countP_pos_of_get (p := Pc.holdsW) h rfl
      refine ⟨ih.cache, good_set ih.good (by have hg := ih.good _ _ h; simpa [Pc.good] using hg), ?_, ?_, ?_, answers_step _ _ ih.answers h rfl, ?_⟩
      · rw [St.go]; dsimp only; rw [h1]; exact ih.readers
      · have := ih.writers
        rw [St.go]; dsimp only
        split at this
        · simp only [Bool.false_eq_true, if_false]; omega
        · omega
      · simp
      · intro u hu; simp [St.go] at hu; exact ih.fresh u hu
  | event _ hs ih =>
    cases hs with
    | call _ t p h =>
      have h1 := countP_move Pc.holdsR (pc' := .enter p) h
      have h2 := countP_move Pc.holdsW (pc' := .enter p) h
      simp [Pc.holdsR] at h1; simp [Pc.holdsW] at h2
      refine ⟨ih.cache, good_set ih.good trivial, ?_, ?_, ih.excl, answers_call _ _ ih.answers h rfl p rfl, ?_⟩
      · rw [St.go]; dsimp only; rw [h1]; exact ih.readers
      · rw [St.go]; dsimp only; rw [h2]; exact ih.writers
      · simp only [St.go, List.length_set]; exact fresh_event ih.fresh (lt_of_get h) _
    | panic _ t p h hc =>
      have h1 := countP_move Pc.holdsR (pc' := .idle) h
      have h2 := countP_move Pc.holdsW (pc' := .idle) h
      simp [Pc.holdsR] at h1; simp [Pc.holdsW] at h2
      refine ⟨ih.cache, good_set ih.good trivial, ?_, ?_, ih.excl, answers_ret _ _ ih.answers h p none rfl rfl hc.symm, ?_⟩
      · rw [St.go]; dsimp only; rw [h1]; exact ih.readers
      · rw [St.go]; dsimp only; rw [h2]; exact ih.writers
      · simp only [St.go, List.length_set]; exact fresh_event ih.fresh (lt_of_get h) _
    | ret _ t p r h =>
      have h1 := countP_move Pc.holdsR (pc' := .idle) h
      have h2 := countP_move Pc.holdsW (pc' := .idle) h
      simp [Pc.holdsR] at h1; simp [Pc.holdsW] at h2
      have hg : _ = _ := ih.good _ _ h
      refine ⟨ih.cache, good_set ih.good trivial, ?_, ?_, ih.excl, answers_ret _ _ ih.answers h p (some r) rfl rfl hg.symm, ?_⟩
      · rw [St.go]; dsimp only; rw [h1]; exact ih.readers
      · rw [St.go]; dsimp only; rw [h2]; exact ih.writers
      · simp only [St.go, List.length_set]; exact fresh_event ih.fresh (lt_of_get h) _

/-- The accesses to the map a goroutine is about to make. -/
def Pc.reads : Pc ρ → Bool
  | .reading _ => true
  | _ => false
def Pc.writes : Pc ρ → Bool
  | .writing _ _ => true
  | _ => false

/-- Some goroutine inside a call can make a step of its own (and does not lose track of what it was asked for). -/
def CanMove (compile : Str → Option ρ) (s : St ρ) : Prop :=
  ∃ (u : Nat) (pc pc' : Pc ρ) (e : Option (Nat × Op Str (Option ρ))) (s' : St ρ),
    s.threads[u]? = some pc ∧ pc ≠ .idle ∧ Step compile s e s' ∧ s'.threads[u]? = some pc' ∧
      (pc' = .idle ∨ pc'.pend = pc.pend) ∧ s'.threads = s.threads.set u pc'

end RegexCache

namespace Props
open RegexCache

variable {ρ : Type}

/-- In every execution, whatever the number of goroutines and however their steps interleave, each goroutine sees what it would
see if every call simply compiled its pattern: the regular expression compiled from the pattern it asked for, or a panic (`none`)
exactly for an invalid pattern. -/
theorem C48_transparent (compile : Str → Option ρ) (tr : List (Nat × Op Str (Option ρ))) (s : St ρ)
    (h : Run (Step compile) init tr s) (t : Nat) :
    ∃ waiting, Answers (fun p r => r = compile p) (ofThread t tr) waiting := by
  by_cases ht : t < s.threads.length
  · exact ⟨_, (inv_run h).answers t _ (List.getElem?_eq_getElem ht)⟩
  · exact ⟨none, by rw [(inv_run h).fresh t (by omega)]; exact .none⟩

/-- The cache never contains anything but the compilation of its key; in particular an invalid pattern is never cached. -/
theorem C48_cache (compile : Str → Option ρ) (tr : List (Nat × Op Str (Option ρ))) (s : St ρ) (h : Run (Step compile) init tr s)
    (p : Str) : ∀ r, mapGet s.cache p = some r → compile p = some r := (inv_run h).cache p

/-- No data race: while one goroutine is about to write the map, no other is about to read or write it. -/
theorem C48_no_race (compile : Str → Option ρ) (tr : List (Nat × Op Str (Option ρ))) (s : St ρ) (h : Run (Step compile) init tr s)
    (t u : Nat) (a b : Pc ρ) (ha : s.threads[t]? = some a) (hb : s.threads[u]? = some b) (hne : t ≠ u) :
    ¬ (a.writes = true ∧ (b.reads = true ∨ b.writes = true)) := by
  have i := inv_run h
  rintro ⟨hw, hrw⟩
  have ha' : a.holdsW = true := by cases a <;> simp_all [Pc.writes, Pc.holdsW]
  have h1 := i.writers
  have hpos := countP_pos_of_get ha ha'
  have hwr : s.writer = true := by
    cases hx : s.writer with
    | true => rfl
    | false => rw [hx] at h1; simp only [Bool.false_eq_true, if_false] at h1; omega
  rcases hrw with hr | hw'
  · have hb' : b.holdsR = true := by cases b <;> simp_all [Pc.reads, Pc.holdsR]
    have := countP_pos_of_get hb hb'
    have h2 := i.excl hwr
    have h3 := i.readers
    omega
  · have hb' : b.holdsW = true := by cases b <;> simp_all [Pc.writes, Pc.holdsW]
    have := countP_two ha hb hne ha' hb'
    rw [hwr] at h1
    simp only [if_true] at h1; omega

/-- No deadlock: whenever some goroutine is inside a call, some goroutine inside a call can make a step. -/
theorem C48_no_deadlock (compile : Str → Option ρ) (tr : List (Nat × Op Str (Option ρ))) (s : St ρ) (h : Run (Step compile) init tr s)
    (t : Nat) (pc : Pc ρ) (ht : s.threads[t]? = some pc) (hpc : pc ≠ .idle) :
    CanMove compile s := by
  have i := inv_run h
  -- a goroutine that holds the lock, or waits for nothing, can go on
  have free : ∀ (u : Nat) (q : Pc ρ), s.threads[u]? = some q → q ≠ .idle → (∀ p, q ≠ .enter p) → (∀ p r, q ≠ .compiled p r) →
      CanMove compile s := by
    intro u q hu h1 h2 h3
    have hl := lt_of_get hu
    cases q with
    | idle => exact absurd rfl h1
    | enter p => exact absurd rfl (h2 p)
    | compiled p r => exact absurd rfl (h3 p r)
    | reading p => exact ⟨u, _, .read p (mapGet s.cache p), _, _, hu, h1, .read s u p hu, by simp [St.go, hl], .inr rfl, rfl⟩
    | read p v => exact ⟨u, _, .checked p v, _, _, hu, h1, .runlock s u p v hu, by simp [St.go, hl], .inr rfl, rfl⟩
    | checked p v =>
      cases v with
      | some r => exact ⟨u, _, .leaving p r, _, _, hu, h1, .found s u p r hu, by simp [St.go, hl], .inr rfl, rfl⟩
      | none =>
        cases hc : compile p with
        | some r => exact ⟨u, _, .compiled p r, _, _, hu, h1, .compile s u p r hu hc, by simp [St.go, hl], .inr rfl, rfl⟩
        | none => exact ⟨u, _, .idle, _, _, hu, h1, .panic s u p hu hc, by simp [St.go, hl], .inl rfl, rfl⟩
    | writing p r => exact ⟨u, _, .wrote p r, _, _, hu, h1, .write s u p r hu, by simp [St.go, hl], .inr rfl, rfl⟩
    | wrote p r => exact ⟨u, _, .leaving p r, _, _, hu, h1, .unlock s u p r hu, by simp [St.go, hl], .inr rfl, rfl⟩
    | leaving p r => exact ⟨u, _, .idle, _, _, hu, h1, .ret s u p r hu, by simp [St.go, hl], .inl rfl, rfl⟩
  have heldW : s.writer = true → ∃ (u : Nat) (q : Pc ρ), s.threads[u]? = some q ∧ q.holdsW = true := by
    intro hw
    apply countP_pos_get
    have := i.writers; rw [hw] at this; simp only [if_true] at this; omega
  have heldR : s.readers ≠ 0 → ∃ (u : Nat) (q : Pc ρ), s.threads[u]? = some q ∧ q.holdsR = true := by
    intro hr
    apply countP_pos_get
    have := i.readers; omega
  have fromW : s.writer = true → CanMove compile s := fun hw => by
    obtain ⟨u, q, hu, hq⟩ := heldW hw
    exact free u q hu (by rintro rfl; cases hq) (by rintro p rfl; cases hq) (by rintro p r rfl; cases hq)
  have hl := lt_of_get ht
  by_cases he : ∃ p, pc = .enter p
  · obtain ⟨p, rfl⟩ := he
    cases hw : s.writer with
    | true => exact fromW hw
    | false => exact ⟨t, _, .reading p, _, _, ht, hpc, .rlock s t p ht hw, by simp [St.go, hl], .inr rfl, rfl⟩
  · by_cases hc : ∃ p r, pc = .compiled p r
    · obtain ⟨p, r, rfl⟩ := hc
      cases hw : s.writer with
      | true => exact fromW hw
      | false =>
        by_cases hr : s.readers = 0
        · exact ⟨t, _, .writing p r, _, _, ht, hpc, .lock s t p r ht hw hr, by simp [St.go, hl], .inr rfl, rfl⟩
        · obtain ⟨u, q, hu, hq⟩ := heldR hr
          exact free u q hu (by rintro rfl; cases hq) (by rintro p rfl; cases hq) (by rintro p r rfl; cases hq)
    · exact free t pc ht hpc (fun p h => he ⟨p, h⟩) (fun p r h => hc ⟨p, r, h⟩)

/-- A concrete execution: two goroutines ask for the same pattern, both miss, both compile, both write; the first then asks
again and finds it, the second asks for an invalid pattern and panics. -/
example : ∃ s, Run (Step (fun p : Str => if p = [40] then none else some p.length)) init
    [(0, .call [97]), (1, .call [97]), (0, .ret (some 1)), (1, .ret (some 1)), (0, .call [97]), (1, .call [40]), (0, .ret (some 1)),
      (1, .ret none)] s := by
  let c := fun p : Str => if p = [40] then none else some p.length
  have h := Run.start (step := Step c) (init := init)
  have h := h.silent (.spawn _)
  have h := h.silent (.spawn _)
  have h := h.event (.call _ 0 [97] rfl)
  have h := h.event (.call _ 1 [97] rfl)
  have h := h.silent (.rlock _ 0 [97] rfl rfl)
  have h := h.silent (.rlock _ 1 [97] rfl rfl)
  have h := h.silent (.read _ 0 [97] rfl)
  have h := h.silent (.read _ 1 [97] rfl)
  have h := h.silent (.runlock _ 0 [97] none rfl)
  have h := h.silent (.runlock _ 1 [97] none rfl)
  have h := h.silent (.compile _ 0 [97] 1 rfl rfl)
  have h := h.silent (.compile _ 1 [97] 1 rfl rfl)
  have h := h.silent (.lock _ 0 [97] 1 rfl rfl rfl)
  have h := h.silent (.write _ 0 [97] 1 rfl)
  have h := h.silent (.unlock _ 0 [97] 1 rfl)
  have h := h.silent (.lock _ 1 [97] 1 rfl rfl rfl)
  have h := h.silent (.write _ 1 [97] 1 rfl)
  have h := h.silent (.unlock _ 1 [97] 1 rfl)
  have h := h.event (.ret _ 0 [97] 1 rfl)
  have h := h.event (.ret _ 1 [97] 1 rfl)
  have h := h.event (.call _ 0 [97] rfl)
  have h := h.event (.call _ 1 [40] rfl)
  have h := h.silent (.rlock _ 0 [97] rfl rfl)
  have h := h.silent (.read _ 0 [97] rfl)
  have h := h.silent (.runlock _ 0 [97] (some 1) rfl)
  have h := h.silent (.found _ 0 [97] 1 rfl)
  have h := h.silent (.rlock _ 1 [40] rfl rfl)
  have h := h.silent (.read _ 1 [40] rfl)
  have h := h.silent (.runlock _ 1 [40] none rfl)
  have h := h.event (.ret _ 0 [97] 1 rfl)
  have h := h.event (.panic _ 1 [40] rfl rfl)
  exact ⟨_, h⟩

end Props
end Verif
