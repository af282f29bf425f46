import Verif.Model.Once
import Verif.Lemmas.Conc
/-!
# C58: tables loaded on first use are seen complete by every goroutine
-/
namespace Verif
open Spec
namespace Once

variable {σ α β : Type}

/-- The table after all updates. -/
def run (us : List (σ → σ)) (x : σ) : σ := us.foldl (fun y u => u y) x

def Pc.pend : Pc σ α β → Option α
  | .idle => none
  | .enter a | .slow a | .locked a | .running a _ | .unlocking a | .ready a | .leaving a _ => some a

def Pc.holds : Pc σ α β → Bool
  | .locked _ | .running _ _ | .unlocking _ => true
  | _ => false

/-- What a goroutine knows. -/
def Pc.good (updates : List (σ → σ)) (read : α → σ → β) (x : σ) (table : σ) (done : Bool) : Pc σ α β → Prop
  | .idle | .enter _ | .slow _ => True
  | .locked _ => done = false → table = x
  | .running _ us => done = false ∧ run us table = run updates x
  | .unlocking _ | .ready _ => done = true
  | .leaving a b => done = true ∧ b = read a (run updates x)

structure Inv (updates : List (σ → σ)) (read : α → σ → β) (x : σ) (tr : List (Nat × Op α β)) (s : St σ α β) : Prop where
  done : s.done = true → s.table = run updates x
  free : s.done = false → s.locked = false → s.table = x
  good : ∀ (t : Nat) (pc : Pc σ α β), s.threads[t]? = some pc → pc.good updates read x s.table s.done
  mutex : s.threads.countP Pc.holds = if s.locked then 1 else 0
  answers : ∀ (t : Nat) (pc : Pc σ α β), s.threads[t]? = some pc → Answers (fun a b => b = read a (run updates x)) (ofThread t tr) pc.pend
  fresh : ∀ t, s.threads.length ≤ t → ofThread t tr = []

variable {updates : List (σ → σ)} {read : α → σ → β} {x : σ}

theorem Inv.move {tr : List (Nat × Op α β)} {s : St σ α β} (i : Inv updates read x tr s) {t : Nat} {pc pc' : Pc σ α β}
    (h : s.threads[t]? = some pc) (hp : pc'.pend = pc.pend) (hh : pc'.holds = pc.holds)
    (hg : pc'.good updates read x s.table s.done) : Inv updates read x tr (s.go t pc') := by
  refine ⟨i.done, i.free, forall_set i.good hg, ?_, answers_step _ _ i.answers h hp, ?_⟩
  · have h1 := countP_move Pc.holds (pc' := pc') h
    rw [hh] at h1
    have h2 := i.mutex
    rw [St.go]; dsimp only; omega
  · intro u hu; simp [St.go] at hu; exact i.fresh u hu

/-- While one goroutine holds the lock, the others do not depend on the table being unfinished. -/
theorem good_other {s : St σ α β} {tr : List (Nat × Op α β)} (i : Inv updates read x tr s) {t : Nat} {pc : Pc σ α β} (h : s.threads[t]? = some pc)
    (hh : pc.holds = true) {pc' : Pc σ α β} {table : σ} {done : Bool} (hd : s.done = true → done = true)
    (hg : pc'.good updates read x table done) :
    ∀ (u : Nat) (q : Pc σ α β), (s.threads.set t pc')[u]? = some q → q.good updates read x table done := by
  intro u q hu
  rw [List.getElem?_set] at hu
  split at hu
  · split at hu
    · obtain rfl := Option.some.inj hu; exact hg
    · cases hu
  · rename_i hne
    have hq := i.good _ _ hu
    have hn : q.holds = false := by
      cases hh' : q.holds with
      | false => rfl
      | true =>
        have := countP_two h hu hne hh hh'
        have h2 := i.mutex
        split at h2 <;> omega
    cases q with
    | ready a => exact hd hq
    | leaving a b => exact ⟨hd hq.1, hq.2⟩
    | idle => trivial
    | enter a => trivial
    | slow a => trivial
    | locked a => cases hn
    | running a us => cases hn
    | unlocking a => cases hn

theorem inv_run {tr : List (Nat × Op α β)} {s : St σ α β} (h : Run (Step updates read) (init x) tr s) : Inv updates read x tr s := by
  induction h with
  | start => exact ⟨by simp [init], by simp [init], by simp [init], by simp [init], by simp [init], by simp [ofThread]⟩
  | silent _ hs ih =>
    rename_i s₀ _ _
    cases hs with
    | spawn =>
      refine ⟨ih.done, ih.free, forall_append ih.good trivial, ?_, answers_spawn _ _ ih.answers ih.fresh rfl, ?_⟩
      · simpa [Pc.holds] using ih.mutex
      · intro t ht; simp at ht; exact ih.fresh t (by omega)
    | fast _ t a h hd => exact ih.move h rfl rfl hd
    | slow _ t a h hd => exact ih.move h rfl rfl trivial
    | lock _ t a h hl =>
      refine ⟨ih.done, ?_, forall_set ih.good (fun hd => ih.free hd hl), ?_, answers_step _ _ ih.answers h rfl, ?_⟩
      · intro _ h0; cases h0
      · have h1 := countP_move Pc.holds (pc' := .locked a) h
        simp [Pc.holds] at h1
        have h2 := ih.mutex
        rw [hl] at h2; simp only [Bool.false_eq_true, if_false] at h2
        simp only [St.go, if_true]; omega
      · intro u hu; simp [St.go] at hu; exact ih.fresh u hu
    | skip _ t a h hd => exact ih.move h rfl rfl hd
    | start _ t a h hd =>
      have hg : _ → _ := ih.good _ _ h
      exact ih.move h rfl rfl ⟨hd, by rw [hg hd]⟩
    | update _ t a u us h =>
      have hg : _ ∧ _ := ih.good _ _ h
      have hlock : s₀.locked = true := by
        have hpos := countP_pos_of_get (p := Pc.holds) h rfl
        have h2 := ih.mutex
        split at h2
        · assumption
        · omega
      refine ⟨?_, ?_, good_other ih h rfl (by intro h; exact h) ⟨hg.1, hg.2⟩, ?_, answers_step _ _ ih.answers h rfl, ?_⟩
      · intro hd; rw [St.go] at hd; dsimp only at hd; rw [hg.1] at hd; cases hd
      · intro _ h0; rw [St.go] at h0; dsimp only at h0; rw [hlock] at h0; cases h0
      · have h1 := countP_move Pc.holds (pc' := .running a us) h
        simp [Pc.holds] at h1
        rw [St.go]; dsimp only; rw [h1]; exact ih.mutex
      · intro u hu; simp [St.go] at hu; exact ih.fresh u hu
    | finish _ t a h =>
      have hg : _ ∧ _ := ih.good _ _ h
      refine ⟨?_, ?_, good_other ih h rfl (fun _ => rfl) rfl, ?_, answers_step _ _ ih.answers h rfl, ?_⟩
      · intro _; exact hg.2
      · intro h0; cases h0
      · have h1 := countP_move Pc.holds (pc' := .unlocking a) h
        simp [Pc.holds] at h1
        rw [St.go]; dsimp only; rw [h1]; exact ih.mutex
      · intro u hu; simp [St.go] at hu; exact ih.fresh u hu
    | unlock _ t a h =>
      have hg : s₀.done = true := ih.good _ _ h
      have hpos := countP_pos_of_get (p := Pc.holds) h rfl
      refine ⟨ih.done, ?_, forall_set ih.good hg, ?_, answers_step _ _ ih.answers h rfl, ?_⟩
      · intro h0; rw [St.go] at h0; dsimp only at h0; rw [hg] at h0; cases h0
      · have h1 := countP_move Pc.holds (pc' := .ready a) h
        simp [Pc.holds] at h1
        have h2 := ih.mutex
        rw [St.go]; dsimp only
        split at h2
        · simp only [Bool.false_eq_true, if_false]; omega
        · omega
      · intro u hu; simp [St.go] at hu; exact ih.fresh u hu
    | read _ t a h =>
      have hg : s₀.done = true := ih.good _ _ h
      exact ih.move h rfl rfl ⟨hg, by rw [ih.done hg]⟩
  | event _ hs ih =>
    cases hs with
    | call _ t a h =>
      refine ⟨ih.done, ih.free, forall_set ih.good trivial, ?_, answers_call _ _ ih.answers h rfl a rfl, ?_⟩
      · have h1 := countP_move Pc.holds (pc' := .enter a) h
        simp [Pc.holds] at h1
        rw [St.go]; dsimp only; rw [h1]; exact ih.mutex
      · simp only [St.go, List.length_set]; exact fresh_event ih.fresh (lt_of_get h) _
    | ret _ t a b h =>
      have hg : _ ∧ _ := ih.good _ _ h
      refine ⟨ih.done, ih.free, forall_set ih.good trivial, ?_, answers_ret _ _ ih.answers h a b rfl rfl hg.2, ?_⟩
      · have h1 := countP_move Pc.holds (pc' := .idle) h
        simp [Pc.holds] at h1
        rw [St.go]; dsimp only; rw [h1]; exact ih.mutex
      · simp only [St.go, List.length_set]; exact fresh_event ih.fresh (lt_of_get h) _

/-- A goroutine is about to change the table / to read it. -/
def Pc.writes : Pc σ α β → Bool
  | .running _ (_ :: _) => true
  | _ => false
def Pc.reads : Pc σ α β → Bool
  | .ready _ => true
  | _ => false

theorem run_mapSet (coll : List Metadata) (acc : List (Int × Metadata)) :
    run (alternateUpdates coll) acc = (coll.map (fun m => (m.countryCode, m))).reverse ++ acc := by
  unfold run alternateUpdates
  induction coll generalizing acc with
  | nil => rfl
  | cons m r ih =>
    simp only [List.map_cons, List.foldl_cons]
    rw [ih]; simp [mapSet]

end Once

namespace Props
open Once

variable {σ α β : Type}

/-- In every execution, whatever the number of goroutines and however their steps interleave, each call reads the completely filled
table: its result is what the same call gives on the table after all updates. -/
theorem C58_complete (updates : List (σ → σ)) (read : α → σ → β) (x : σ) (tr : List (Nat × Op α β)) (s : St σ α β)
    (h : Run (Step updates read) (init x) tr s) (t : Nat) :
    ∃ waiting, Answers (fun a b => b = read a (updates.foldl (fun y u => u y) x)) (ofThread t tr) waiting := by
  by_cases ht : t < s.threads.length
  · exact ⟨_, (inv_run h).answers t _ (List.getElem?_eq_getElem ht)⟩
  · exact ⟨none, by rw [(inv_run h).fresh t (by omega)]; exact .none⟩

/-- No data race: while one goroutine is about to change the table, no other is about to change or read it. -/
theorem C58_no_race (updates : List (σ → σ)) (read : α → σ → β) (x : σ) (tr : List (Nat × Op α β)) (s : St σ α β)
    (h : Run (Step updates read) (init x) tr s) (t u : Nat) (a b : Pc σ α β) (ha : s.threads[t]? = some a) (hb : s.threads[u]? = some b)
    (hne : t ≠ u) : ¬ (a.writes = true ∧ (b.reads = true ∨ b.writes = true)) := by
  have i := inv_run h
  rintro ⟨hw, hr⟩
  cases a with
  | running a us =>
    have hg : _ ∧ _ := i.good _ _ ha
    cases b with
    | ready b =>
      have hb' : s.done = true := i.good _ _ hb
      rw [hg.1] at hb'; cases hb'
    | running b vs =>
      have := countP_two (p := Pc.holds) ha hb hne rfl rfl
      have hm := i.mutex
      split at hm <;> omega
    | _ => simp [Pc.reads, Pc.writes] at hr
  | _ => simp [Pc.writes] at hw

/-- The loading function is run at most once: its updates are never started again once it is done. -/
theorem C58_once (updates : List (σ → σ)) (read : α → σ → β) (x : σ) (tr : List (Nat × Op α β)) (s s' : St σ α β)
    (h : Run (Step updates read) (init x) tr s) (hd : s.done = true) (e : Option (Nat × Op α β)) (hs : Step updates read s e s') :
    s'.table = s.table ∧ s'.done = true := by
  have i := inv_run h
  cases hs with
  | update _ t a u us ht =>
    have hg : _ ∧ _ := i.good _ _ ht
    rw [hg.1] at hd; cases hd
  | finish _ t a ht => exact ⟨rfl, rfl⟩
  | _ => exact ⟨rfl, hd⟩

/-- Time zone lookups: every call, from any goroutine, looks the number up in the table that a direct load of the file gives (and
fails if that load fails). -/
theorem C58_timezones (dc : Int → Nat) (file : Bytes) (tr : List (Nat × Op Str (Option (List Bytes))))
    (s : St (Option (Loaded (List Bytes))) Str (Option (List Bytes)))
    (h : Run (Step (timezoneUpdates dc file) (fun number tz => lookupTimeZones tz number)) (init none) tr s) (t : Nat) :
    ∃ waiting, Answers (fun number r => r = match loadIntArrayMap dc file with
        | .ok m => lookupTimeZones (some m) number
        | .error _ => none) (ofThread t tr) waiting := by
  obtain ⟨w, hw⟩ := C58_complete _ _ _ tr s h t
  refine ⟨w, ?_⟩
  have he : ∀ number, lookupTimeZones (List.foldl (fun y u => u y) none (timezoneUpdates dc file)) number =
      match loadIntArrayMap dc file with | .ok m => lookupTimeZones (some m) number | .error _ => none := by
    intro number
    simp only [timezoneUpdates, List.foldl_cons, List.foldl_nil]
    cases loadIntArrayMap dc file with
    | ok m => rfl
    | error e => rfl
  simpa only [he] using hw

/-- Alternate formats: every call, from any goroutine, gets the entry of its country code from the complete table: the last entry
of the data with this code. -/
theorem C58_alternate (coll : List Metadata) (tr : List (Nat × Op Int (Option Metadata)))
    (s : St (List (Int × Metadata)) Int (Option Metadata))
    (h : Run (Step (alternateUpdates coll) (fun cc m => mapGet m cc)) (init []) tr s) (t : Nat) :
    ∃ waiting, Answers (fun cc r => r = coll.reverse.find? (fun m => m.countryCode = cc)) (ofThread t tr) waiting := by
  obtain ⟨w, hw⟩ := C58_complete _ _ _ tr s h t
  refine ⟨w, ?_⟩
  have he : ∀ cc : Int, mapGet (List.foldl (fun y u => u y) [] (alternateUpdates coll)) cc = coll.reverse.find? (fun m => m.countryCode = cc) := by
    intro cc
    have h1 : List.foldl (fun y u => u y) [] (alternateUpdates coll) = (coll.map (fun m => (m.countryCode, m))).reverse := by
      have := run_mapSet coll []; simpa [run] using this
    rw [h1, ← List.map_reverse]
    generalize coll.reverse = l
    induction l with
    | nil => rfl
    | cons m r ih =>
      simp only [List.map_cons, mapGet, List.find?_cons, ih]
      by_cases hc : m.countryCode = cc <;> simp [hc]
  simpa only [he] using hw

/-- A concrete execution: a goroutine is filling the table (two updates) while another one asks; it waits and sees both. -/
example : ∃ s, Run (Step [fun l : List Nat => 1 :: l, fun l => 2 :: l] (fun (a : Nat) l => (a, l.length))) (init [])
    [(0, .call 5), (1, .call 6), (1, .ret (6, 2)), (0, .ret (5, 2))] s := by
  have h := Run.start (step := Step [fun l : List Nat => 1 :: l, fun l => 2 :: l] (fun (a : Nat) l => (a, l.length))) (init := init [])
  have h := h.silent (.spawn _)
  have h := h.silent (.spawn _)
  have h := h.event (.call _ 0 5 rfl)
  have h := h.silent (.slow _ 0 5 rfl rfl)
  have h := h.silent (.lock _ 0 5 rfl rfl)
  have h := h.silent (.start _ 0 5 rfl rfl)
  have h := h.silent (.update _ 0 5 _ _ rfl)
  have h := h.event (.call _ 1 6 rfl)
  have h := h.silent (.slow _ 1 6 rfl rfl)
  have h := h.silent (.update _ 0 5 _ _ rfl)
  have h := h.silent (.finish _ 0 5 rfl)
  have h := h.silent (.unlock _ 0 5 rfl)
  have h := h.silent (.lock _ 1 6 rfl rfl)
  have h := h.silent (.skip _ 1 6 rfl rfl)
  have h := h.silent (.unlock _ 1 6 rfl)
  have h := h.silent (.read _ 1 6 rfl)
  have h := h.event (.ret _ 1 6 _ rfl)
  have h := h.silent (.read _ 0 5 rfl)
  have h := h.event (.ret _ 0 5 _ rfl)
  exact ⟨_, h⟩

end Props
end Verif
