import Verif.Model.PrefixLoader
import Verif.Lemmas.Conc
/-!
# C49: lazy prefix loading is consistent under concurrency
-/
namespace Verif
open Spec
namespace PrefixLoader

variable {η μ : Type}

/-- A direct load of the file of a language, without cache: nothing if there is no file, its contents, or the error. -/
def direct (file : Str → Option Bytes) (load : Bytes → Except η μ) (l : Str) : Res η μ :=
  match file l with
  | none => .ok none
  | some d => match load d with
    | .ok m => .ok (some m)
    | .error e => .error (.load e)

/-- What a lookup of `l` may return: the result of a direct load, or the failure of the file system. -/
def Allowed (file : Str → Option Bytes) (load : Bytes → Except η μ) (l : Str) (r : Res η μ) : Prop :=
  r = direct file load l ∨ r = .error .io

/-- The language a goroutine is asking for. -/
def Pc.pend : Pc η μ → Option Str
  | .idle => none
  | .enter l | .locked l | .missed l | .data l _ | .storing l _ | .stored l | .unlocking l _ | .leaving l _ => some l

def Pc.holds : Pc η μ → Bool
  | .locked _ | .missed _ | .data _ _ | .storing _ _ | .stored _ | .unlocking _ _ => true
  | _ => false

/-- What a goroutine knows. -/
def Pc.good (file : Str → Option Bytes) (load : Bytes → Except η μ) (cache : List (Str × Option μ)) : Pc η μ → Prop
  | .idle | .enter _ | .locked _ => True
  | .missed l => mapGet cache l = none
  | .data l d => d = file l ∧ mapGet cache l = none
  | .storing l m => direct file load l = .ok m ∧ mapGet cache l = none
  | .stored l => ∃ m, direct file load l = .ok m ∧ mapGet cache l = some m
  | .unlocking l r | .leaving l r => Allowed file load l r ∧ ∀ m, r = .ok m → mapGet cache l = some m

structure Inv (file : Str → Option Bytes) (load : Bytes → Except η μ) (tr : List (Nat × Op Str (Res η μ))) (s : St η μ) : Prop where
  cache : ∀ l m, mapGet s.cache l = some m → direct file load l = .ok m
  good : ∀ (t : Nat) (pc : Pc η μ), s.threads[t]? = some pc → pc.good file load s.cache
  mutex : s.threads.countP Pc.holds = if s.locked then 1 else 0
  answers : ∀ (t : Nat) (pc : Pc η μ), s.threads[t]? = some pc → Answers (Allowed file load) (ofThread t tr) pc.pend
  fresh : ∀ t, s.threads.length ≤ t → ofThread t tr = []

variable {file : Str → Option Bytes} {load : Bytes → Except η μ}

/-- A step that does not touch the lock nor the cache. -/
theorem Inv.move {tr : List (Nat × Op Str (Res η μ))} {s : St η μ} (i : Inv file load tr s) {t : Nat} {pc pc' : Pc η μ}
    (h : s.threads[t]? = some pc) (hp : pc'.pend = pc.pend) (hh : pc'.holds = pc.holds) (hg : pc'.good file load s.cache) :
    Inv file load tr (s.go t pc') := by
  refine ⟨i.cache, forall_set i.good hg, ?_, answers_step _ _ i.answers h hp, ?_⟩
  · have h1 := countP_move Pc.holds (pc' := pc') h
    rw [hh] at h1
    have h2 := i.mutex
    rw [St.go]; dsimp only; omega
  · intro u hu; simp [St.go] at hu; exact i.fresh u hu

/-- Only the holder of the lock knows anything about the cache that a new entry could change. -/
theorem good_store {l : Str} {m : Option μ} {cache : List (Str × Option μ)} {pc : Pc η μ} (hn : mapGet cache l = none)
    (hh : pc.holds = false) (hg : pc.good file load cache) : pc.good file load (mapSet cache l m) := by
  cases pc with
  | leaving l' r =>
    refine ⟨hg.1, fun x hx => ?_⟩
    have := hg.2 x hx
    simp only [mapSet, mapGet]
    split
    · rename_i h; subst h; rw [hn] at this; cases this
    · exact this
  | _ => simp_all [Pc.holds, Pc.good]

theorem inv_run {tr : List (Nat × Op Str (Res η μ))} {s : St η μ} (h : Run (Step file load) init tr s) : Inv file load tr s := by
  induction h with
  | start => exact ⟨by simp [init, mapGet], by simp [init], by simp [init], by simp [init], by simp [ofThread]⟩
  | silent _ hs ih =>
    rename_i s₀ _ _
    cases hs with
    | spawn =>
      refine ⟨ih.cache, forall_append ih.good trivial, ?_, answers_spawn _ _ ih.answers ih.fresh rfl, ?_⟩
      · simpa [Pc.holds] using ih.mutex
      · intro t ht; simp at ht; exact ih.fresh t (by omega)
    | lock _ t l h hl =>
      refine ⟨ih.cache, forall_set ih.good trivial, ?_, answers_step _ _ ih.answers h rfl, ?_⟩
      · have h1 := countP_move Pc.holds (pc' := .locked l) h
        simp [Pc.holds] at h1
        have h2 := ih.mutex
        rw [hl] at h2; simp only [Bool.false_eq_true, if_false] at h2
        simp only [St.go, if_true]; omega
      · intro u hu; simp [St.go] at hu; exact ih.fresh u hu
    | hit _ t l v h hv => exact ih.move h rfl rfl ⟨.inl (ih.cache l v hv).symm, by rintro m ⟨⟩; exact hv⟩
    | miss _ t l h hn => exact ih.move h rfl rfl hn
    | readFile _ t l h => exact ih.move h rfl rfl ⟨rfl, (ih.good _ _ h : _ = _)⟩
    | readFails _ t l h => exact ih.move h rfl rfl ⟨.inr rfl, by rintro m ⟨⟩⟩
    | load _ t l d m h hl =>
      have hg : _ ∧ _ := ih.good _ _ h
      exact ih.move h rfl rfl ⟨by simp [direct, ← hg.1, hl], hg.2⟩
    | loadFails _ t l d e h hl =>
      have hg : _ ∧ _ := ih.good _ _ h
      exact ih.move h rfl rfl ⟨.inl (by simp [direct, ← hg.1, hl]), by rintro m ⟨⟩⟩
    | noData _ t l h =>
      have hg : _ ∧ _ := ih.good _ _ h
      exact ih.move h rfl rfl ⟨by simp [direct, ← hg.1], hg.2⟩
    | store _ t l m h =>
      have hg : _ ∧ _ := ih.good _ _ h
      refine ⟨?_, ?_, ?_, answers_step _ _ ih.answers h rfl, ?_⟩
      · intro q x hx
        simp only [mapSet, mapGet] at hx
        split at hx
        · rename_i hq; obtain rfl := Option.some.inj hx; rw [← hq]; exact hg.1
        · exact ih.cache _ _ hx
      · intro u pc hu
        simp only [St.go, List.getElem?_set] at hu
        split at hu
        · split at hu
          · obtain rfl := Option.some.inj hu
            exact ⟨m, hg.1, by simp [mapSet, mapGet]⟩
          · cases hu
        · rename_i hne
          refine good_store hg.2 ?_ (ih.good _ _ hu)
          cases hh : pc.holds with
          | false => rfl
          | true =>
            have := countP_two h hu hne rfl hh
            have h2 := ih.mutex
            split at h2 <;> omega
      · have h1 := countP_move Pc.holds (pc' := .stored l) h
        simp [Pc.holds] at h1
        rw [St.go]; dsimp only; rw [h1]; exact ih.mutex
      · intro u hu; simp [St.go] at hu; exact ih.fresh u hu
    | reread _ t l h =>
      obtain ⟨m, hd, hm⟩ : ∃ _, _ := ih.good _ _ h
      refine ih.move h rfl rfl ?_
      rw [hm]
      exact ⟨.inl hd.symm, by rintro m' ⟨⟩; exact hm⟩
    | unlock _ t l r h =>
      have hpos := countP_pos_of_get (p := Pc.holds) h rfl
      refine ⟨ih.cache, forall_set ih.good (by have hg := ih.good _ _ h; exact hg), ?_, answers_step _ _ ih.answers h rfl, ?_⟩
      · have h1 := countP_move Pc.holds (pc' := .leaving l r) h
        simp [Pc.holds] at h1
        have h2 := ih.mutex
        rw [St.go]; dsimp only
        split at h2
        · simp only [Bool.false_eq_true, if_false]; omega
        · omega
      · intro u hu; simp [St.go] at hu; exact ih.fresh u hu
  | event _ hs ih =>
    cases hs with
    | call _ t l h =>
      refine ⟨ih.cache, forall_set ih.good trivial, ?_, answers_call _ _ ih.answers h rfl l rfl, ?_⟩
      · have h1 := countP_move Pc.holds (pc' := .enter l) h
        simp [Pc.holds] at h1
        rw [St.go]; dsimp only; rw [h1]; exact ih.mutex
      · simp only [St.go, List.length_set]; exact fresh_event ih.fresh (lt_of_get h) _
    | ret _ t l r h =>
      have hg : _ ∧ _ := ih.good _ _ h
      refine ⟨ih.cache, forall_set ih.good trivial, ?_, answers_ret _ _ ih.answers h l r rfl rfl hg.1, ?_⟩
      · have h1 := countP_move Pc.holds (pc' := .idle) h
        simp [Pc.holds] at h1
        rw [St.go]; dsimp only; rw [h1]; exact ih.mutex
      · simp only [St.go, List.length_set]; exact fresh_event ih.fresh (lt_of_get h) _

/-- A goroutine is about to read or write the map. -/
def Pc.accesses : Pc η μ → Bool
  | .locked _ | .storing _ _ | .stored _ => true
  | _ => false

/-- Some goroutine inside a call can make a step of its own. -/
def CanMove (file : Str → Option Bytes) (load : Bytes → Except η μ) (s : St η μ) : Prop :=
  ∃ (u : Nat) (pc pc' : Pc η μ) (e : Option (Nat × Op Str (Res η μ))) (s' : St η μ),
    s.threads[u]? = some pc ∧ pc ≠ .idle ∧ Step file load s e s' ∧ s'.threads[u]? = some pc' ∧
      (pc' = .idle ∨ pc'.pend = pc.pend) ∧ s'.threads = s.threads.set u pc'

end PrefixLoader

namespace Props
open PrefixLoader

variable {η μ : Type} (file : Str → Option Bytes) (load : Bytes → Except η μ)

/-- In every execution, whatever the number of goroutines, however their steps interleave and whichever reads fail, each lookup
returns what a direct load of the file gives (no data for a missing file), or the failure of the file system. -/
theorem C49_consistent (tr : List (Nat × Op Str (Res η μ))) (s : St η μ) (h : Run (Step file load) init tr s) (t : Nat) :
    ∃ waiting, Answers (fun l r => r = direct file load l ∨ r = .error .io) (ofThread t tr) waiting := by
  by_cases ht : t < s.threads.length
  · exact ⟨_, (inv_run h).answers t _ (List.getElem?_eq_getElem ht)⟩
  · exact ⟨none, by rw [(inv_run h).fresh t (by omega)]; exact .none⟩

/-- What is cached is the result of a successful direct load: a language whose file cannot be loaded is never cached, a language
without a file is cached as having no data. -/
theorem C49_cache (tr : List (Nat × Op Str (Res η μ))) (s : St η μ) (h : Run (Step file load) init tr s) (l : Str) (m : Option μ)
    (hm : mapGet s.cache l = some m) : direct file load l = .ok m := (inv_run h).cache l m hm

/-- Whenever a lookup of `l` returns successfully, its result is in the cache. -/
theorem C49_cached (tr : List (Nat × Op Str (Res η μ))) (s s' : St η μ) (h : Run (Step file load) init tr s) (t : Nat)
    (m : Option μ) (hs : Step file load s (some (t, .ret (.ok m))) s') :
    ∃ l, s.threads[t]? = some (.leaving l (.ok m)) ∧ mapGet s'.cache l = some m := by
  cases hs with
  | ret _ _ l _ ht =>
    have hg : _ ∧ _ := (inv_run h).good _ _ ht
    exact ⟨l, ht, hg.2 m rfl⟩

/-- What is in the cache stays there, unchanged: after one success, no later failure of the file system is noticed. -/
theorem C49_stable (tr : List (Nat × Op Str (Res η μ))) (s s' : St η μ) (h : Run (Step file load) init tr s)
    (e : Option (Nat × Op Str (Res η μ))) (hs : Step file load s e s') (l : Str) (m : Option μ) (hm : mapGet s.cache l = some m) :
    mapGet s'.cache l = some m := by
  cases hs with
  | store _ t l' m' ht =>
    have hg : _ ∧ _ := (inv_run h).good _ _ ht
    simp only [mapSet, mapGet]
    split
    · rename_i hl; subst hl; rw [hg.2] at hm; cases hm
    · exact hm
  | _ => exact hm

/-- No data race: at most one goroutine at a time is about to access the map. -/
theorem C49_no_race (tr : List (Nat × Op Str (Res η μ))) (s : St η μ) (h : Run (Step file load) init tr s)
    (t u : Nat) (a b : Pc η μ) (ha : s.threads[t]? = some a) (hb : s.threads[u]? = some b) (hne : t ≠ u) :
    ¬ (a.accesses = true ∧ b.accesses = true) := by
  rintro ⟨h1, h2⟩
  have := countP_two (p := Pc.holds) ha hb hne (by cases a <;> simp_all [Pc.accesses, Pc.holds])
    (by cases b <;> simp_all [Pc.accesses, Pc.holds])
  have hm := (inv_run h).mutex
  split at hm <;> omega

/-- No deadlock: whenever some goroutine is inside a call, some goroutine inside a call can make a step. -/
theorem C49_no_deadlock (tr : List (Nat × Op Str (Res η μ))) (s : St η μ) (h : Run (Step file load) init tr s)
    (t : Nat) (pc : Pc η μ) (ht : s.threads[t]? = some pc) (hpc : pc ≠ .idle) : CanMove file load s := by
  have i := inv_run h
  have free : ∀ (u : Nat) (q : Pc η μ), s.threads[u]? = some q → q ≠ .idle → (∀ l, q ≠ .enter l) → CanMove file load s := by
    intro u q hu h1 h2
    have hl := lt_of_get hu
    cases q with
    | idle => exact absurd rfl h1
    | enter l => exact absurd rfl (h2 l)
    | locked l =>
      cases hm : mapGet s.cache l with
      | some v => exact ⟨u, _, .unlocking l (.ok v), _, _, hu, h1, .hit s u l v hu hm, by simp [St.go, hl], .inr rfl, rfl⟩
      | none => exact ⟨u, _, .missed l, _, _, hu, h1, .miss s u l hu hm, by simp [St.go, hl], .inr rfl, rfl⟩
    | missed l => exact ⟨u, _, .data l (file l), _, _, hu, h1, .readFile s u l hu, by simp [St.go, hl], .inr rfl, rfl⟩
    | data l d =>
      cases d with
      | none => exact ⟨u, _, .storing l none, _, _, hu, h1, .noData s u l hu, by simp [St.go, hl], .inr rfl, rfl⟩
      | some d =>
        cases hd : load d with
        | ok m => exact ⟨u, _, .storing l (some m), _, _, hu, h1, .load s u l d m hu hd, by simp [St.go, hl], .inr rfl, rfl⟩
        | error e =>
          exact ⟨u, _, .unlocking l (.error (.load e)), _, _, hu, h1, .loadFails s u l d e hu hd, by simp [St.go, hl], .inr rfl, rfl⟩
    | storing l m => exact ⟨u, _, .stored l, _, _, hu, h1, .store s u l m hu, by simp [St.go, hl], .inr rfl, rfl⟩
    | stored l =>
      exact ⟨u, _, .unlocking l (.ok (mapGet s.cache l).join), _, _, hu, h1, .reread s u l hu,
        by simp [St.go, hl], .inr rfl, rfl⟩
    | unlocking l r => exact ⟨u, _, .leaving l r, _, _, hu, h1, .unlock s u l r hu, by simp [St.go, hl], .inr rfl, rfl⟩
    | leaving l r => exact ⟨u, _, .idle, _, _, hu, h1, .ret s u l r hu, by simp [St.go, hl], .inl rfl, rfl⟩
  have hl := lt_of_get ht
  by_cases he : ∃ l, pc = .enter l
  · obtain ⟨l, rfl⟩ := he
    cases hw : s.locked with
    | true =>
      obtain ⟨u, q, hu, hq⟩ : ∃ (u : Nat) (q : Pc η μ), s.threads[u]? = some q ∧ q.holds = true := by
        apply countP_pos_get
        have := i.mutex; rw [hw] at this; simp only [if_true] at this; omega
      exact free u q hu (by rintro rfl; cases hq) (by rintro l rfl; cases hq)
    | false => exact ⟨t, _, .locked l, _, _, ht, hpc, .lock s t l ht hw, by simp [St.go, hl], .inr rfl, rfl⟩
  · exact free t pc ht hpc (fun l h => he ⟨l, h⟩)

/-- With the loader of the repository: a successful lookup gives the table that `LoadPrefixMap` makes of the file. -/
theorem C49_loader (dc : Int → Nat) (unzip : Bytes → Bytes) (tr : List (Nat × Op Str (Res LoadErr (Loaded Bytes)))) (s : St LoadErr (Loaded Bytes))
    (h : Run (Step file (fun d => loadPrefixMap dc (unzip d))) init tr s) (t : Nat) :
    ∃ waiting, Answers (fun l r => match r with
        | .ok none => file l = none
        | .ok (some m) => ∃ d, file l = some d ∧ loadPrefixMap dc (unzip d) = .ok m
        | .error .io => True
        | .error (.load e) => ∃ d, file l = some d ∧ loadPrefixMap dc (unzip d) = .error e) (ofThread t tr) waiting := by
  obtain ⟨w, hw⟩ := C49_consistent file (fun d => loadPrefixMap dc (unzip d)) tr s h t
  refine ⟨w, ?_⟩
  clear h
  generalize ofThread t tr = l at hw
  induction hw with
  | none => exact .none
  | call a _ ih => exact .call a ih
  | ret b _ hok ih =>
    refine .ret b ih ?_
    rcases hok with rfl | rfl
    · rename_i a _
      unfold direct
      cases file a with
      | none => rfl
      | some d =>
        dsimp only
        cases hl : loadPrefixMap dc (unzip d) with
        | ok m => exact ⟨d, rfl, hl⟩
        | error e => exact ⟨d, rfl, hl⟩
    · trivial

/-- A concrete execution: two goroutines ask for a language; the first read fails and is not cached, the second goroutine loads the
file, the first asks again and finds the table. -/
example : ∃ s, Run (Step (η := Unit) (fun l : Str => if l = [101] then some [7] else none) (fun d => .ok d.length)) init
    [(0, .call [101]), (1, .call [101]), (0, .ret (.error .io)), (1, .ret (.ok (some 1))), (0, .call [101]), (0, .ret (.ok (some 1)))] s := by
  let f := fun l : Str => if l = [101] then some [7] else none
  let g := fun d : Bytes => (.ok d.length : Except Unit Nat)
  have h := Run.start (step := Step f g) (init := init)
  have h := h.silent (.spawn _)
  have h := h.silent (.spawn _)
  have h := h.event (.call _ 0 [101] rfl)
  have h := h.event (.call _ 1 [101] rfl)
  have h := h.silent (.lock _ 0 [101] rfl rfl)
  have h := h.silent (.miss _ 0 [101] rfl rfl)
  have h := h.silent (.readFails _ 0 [101] rfl)
  have h := h.silent (.unlock _ 0 [101] _ rfl)
  have h := h.silent (.lock _ 1 [101] rfl rfl)
  have h := h.event (.ret _ 0 [101] _ rfl)
  have h := h.silent (.miss _ 1 [101] rfl rfl)
  have h := h.silent (.readFile _ 1 [101] rfl)
  have h := h.silent (.load _ 1 [101] [7] 1 rfl rfl)
  have h := h.silent (.store _ 1 [101] _ rfl)
  have h := h.silent (.reread _ 1 [101] rfl)
  have h := h.silent (.unlock _ 1 [101] _ rfl)
  have h := h.event (.ret _ 1 [101] _ rfl)
  have h := h.event (.call _ 0 [101] rfl)
  have h := h.silent (.lock _ 0 [101] rfl rfl)
  have h := h.silent (.hit _ 0 [101] (some 1) rfl rfl)
  have h := h.silent (.unlock _ 0 [101] _ rfl)
  have h := h.event (.ret _ 0 [101] _ rfl)
  exact ⟨_, h⟩

/-- A language without a file is asked for. -/
example : ∃ s, Run (Step (η := Unit) (fun l : Str => if l = [101] then some [7] else none) (fun d => .ok d.length)) init
    [(0, .call [102]), (0, .ret (.ok none))] s ∧ mapGet s.cache [102] = some none := by
  let f := fun l : Str => if l = [101] then some [7] else none
  let g := fun d : Bytes => (.ok d.length : Except Unit Nat)
  have h := Run.start (step := Step f g) (init := init)
  have h := h.silent (.spawn _)
  have h := h.event (.call _ 0 [102] rfl)
  have h := h.silent (.lock _ 0 [102] rfl rfl)
  have h := h.silent (.miss _ 0 [102] rfl rfl)
  have h := h.silent (.readFile _ 0 [102] rfl)
  have h := h.silent (.noData _ 0 [102] rfl)
  have h := h.silent (.store _ 0 [102] _ rfl)
  have h := h.silent (.reread _ 0 [102] rfl)
  have h := h.silent (.unlock _ 0 [102] _ rfl)
  have h := h.event (.ret _ 0 [102] _ rfl)
  exact ⟨_, h, rfl⟩

end Props
end Verif
