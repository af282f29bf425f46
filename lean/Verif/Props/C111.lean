import Verif.Lemmas.OnceFail
/-!
# C111: what a table that cannot be loaded does to its users

The time zone table and the table of alternate formats are loaded by the first call that needs them.  If the data cannot be read,
every time zone lookup fails, but only one of them tells why; and exactly one lookup of alternate formats panics, while all the others
find no alternate formats, as if there were none.  No call waits for ever, whether the loading function succeeds, fails or panics.
-/
namespace Verif
open Spec
namespace OnceFail

variable {σ α β : Type} {updates : List (σ → σ)} {outcome : α → Bool → σ → β} {x : σ}

theorem answers_mono {P Q : α → β → Prop} (hpq : ∀ a b, P a b → Q a b) {l : List (Op α β)} {w : Option α} (h : Answers P l w) :
    Answers Q l w := by
  induction h with
  | none => exact .none
  | call a _ ih => exact .call a ih
  | ret b _ hp ih => exact .ret b ih (hpq _ _ hp)

theorem answers_of {tr : List (Nat × Op α β)} {s : St σ α β} (h : Run (Step updates outcome) (init x) tr s) (P : α → β → Prop)
    (hP : ∀ a r, P a (outcome a r (run updates x))) (t : Nat) : ∃ waiting, Answers P (ofThread t tr) waiting := by
  by_cases ht : t < s.threads.length
  · exact ⟨_, answers_mono (fun a b ⟨r, hb⟩ => hb ▸ hP a r) ((inv_run h).answers t _ (List.getElem?_eq_getElem ht))⟩
  · exact ⟨none, by rw [(inv_run h).fresh t (by omega)]; exact .none⟩

theorem one_of {tr : List (Nat × Op α β)} {s : St σ α β} (h : Run (Step updates outcome) (init x) tr s) (special : β → Bool)
    (hsp : ∀ a r, special (outcome a r (run updates x)) = r) :
    ended special tr ≤ 1 ∧ (callsMade tr ≠ 0 → ended (fun _ => true) tr = callsMade tr → ended special tr = 1) := by
  have c := counts_run hsp h
  have hle := ended_le special tr
  cases hd : s.done with
  | false =>
    have := c.before hd
    exact ⟨by omega, fun h1 h2 => by omega⟩
  | true =>
    have ha := c.after hd
    refine ⟨by omega, fun h1 h2 => ?_⟩
    have hb := c.balance
    have h0 : s.threads.countP Pc.busy = 0 := by omega
    have hle : s.threads.countP Pc.ran ≤ s.threads.countP Pc.busy := by
      apply List.countP_mono_left
      intro pc _ hr
      cases pc <;> first | rfl | cases hr
    omega

theorem alt_table (coll : List Wire.PbMetadata) (acc : List (Int × Wire.PbMetadata)) :
    List.foldl (fun y u => u y) acc (coll.map (fun m acc => mapSet acc (m.countryCode.getD 0) m)) =
      (coll.map (fun m => (m.countryCode.getD 0, m))).reverse ++ acc := by
  induction coll generalizing acc with
  | nil => rfl
  | cons m r ih =>
    simp only [List.map_cons, List.foldl_cons]
    rw [ih]; simp [mapSet]

theorem mapGet_find (l : List Wire.PbMetadata) (cc : Int) :
    mapGet (l.map (fun m => (m.countryCode.getD 0, m))) cc = l.find? (fun m => m.countryCode.getD 0 = cc) := by
  induction l with
  | nil => rfl
  | cons m r ih =>
    simp only [List.map_cons, mapGet, List.find?_cons, ih]
    by_cases hc : m.countryCode.getD 0 = cc <;> simp [hc]

theorem left_set_eq (n : Nat) {ts : List (Pc σ α β)} {t : Nat} {pc pc' : Pc σ α β} (h : ts[t]? = some pc) :
    ((ts.set t pc').map (Pc.left n)).sum + pc.left n = (ts.map (Pc.left n)).sum + pc'.left n := by
  induction ts generalizing t with
  | nil => simp at h
  | cons q r ih =>
    cases t with
    | zero =>
      simp only [List.getElem?_cons_zero, Option.some.injEq] at h; subst h
      simp only [List.set_cons_zero, List.map_cons, List.sum_cons]; omega
    | succ t =>
      simp only [List.getElem?_cons_succ] at h
      simp only [List.set_cons_succ, List.map_cons, List.sum_cons]
      have := ih h; omega

end OnceFail

namespace Props
open OnceFail

/-- The steps of goroutines that look up time zones in the file / alternate formats in the file. -/
abbrev ZonesStep (dc : Int → Nat) (file : Bytes) := Step (timezoneUpdates dc file) (zonesOutcome dc file)
abbrev AltStep (file : Option Bytes) := Step (altUpdates file) (altOutcome file)

/-- A time zone lookup that tells why the table could not be loaded; a lookup of alternate formats that panics. -/
def tellsCause : ZonesResult → Bool
  | .notLoaded (some _) => true
  | _ => false
def isPanic : AltResult → Bool
  | .panics => true
  | _ => false

/-- Time zones, file readable: every call, in every schedule, is answered from the loaded table and none fails for want of it. -/
theorem C111_zones_loaded (dc : Int → Nat) (file : Bytes) (m : Loaded (List Bytes)) (hm : loadIntArrayMap dc file = .ok m)
    (tr : List (Nat × Op Str ZonesResult)) (s : St (Option (Loaded (List Bytes))) Str ZonesResult)
    (h : Run (ZonesStep dc file) (init none) tr s) (t : Nat) :
    ∃ waiting, Answers (fun number r => r = .answer (lookupTimeZones (some m) number)) (ofThread t tr) waiting := by
  refine answers_of h _ (fun a r => ?_) t
  simp only [run, timezoneUpdates, List.foldl_cons, List.foldl_nil, hm, zonesOutcome]

/-- Time zones, file not readable: every call fails, with the cause or without. -/
theorem C111_zones_failed (dc : Int → Nat) (file : Bytes) (e : LoadErr) (he : loadIntArrayMap dc file = .error e)
    (tr : List (Nat × Op Str ZonesResult)) (s : St (Option (Loaded (List Bytes))) Str ZonesResult)
    (h : Run (ZonesStep dc file) (init none) tr s) (t : Nat) :
    ∃ waiting, Answers (fun _ r => r = .notLoaded (some e) ∨ r = .notLoaded none) (ofThread t tr) waiting := by
  refine answers_of h _ (fun a r => ?_) t
  simp only [run, timezoneUpdates, List.foldl_cons, List.foldl_nil, he, zonesOutcome]
  cases r <;> simp

/-- … and only one call ever tells the cause: exactly one, once all calls made have ended. -/
theorem C111_zones_cause (dc : Int → Nat) (file : Bytes) (e : LoadErr) (he : loadIntArrayMap dc file = .error e)
    (tr : List (Nat × Op Str ZonesResult)) (s : St (Option (Loaded (List Bytes))) Str ZonesResult)
    (h : Run (ZonesStep dc file) (init none) tr s) :
    ended tellsCause tr ≤ 1 ∧ (callsMade tr ≠ 0 → ended (fun _ => true) tr = callsMade tr → ended tellsCause tr = 1) := by
  refine one_of h _ (fun a r => ?_)
  simp only [run, timezoneUpdates, List.foldl_cons, List.foldl_nil, he, zonesOutcome]
  cases r <;> rfl

/-- Alternate formats, data readable: no call panics and each gets the last entry of its country code. -/
theorem C111_alternate_loaded (raw : Bytes) (coll : List Wire.PbMetadata) (hc : Wire.unmarshalCollection raw = some coll)
    (tr : List (Nat × Op Int AltResult)) (s : St (List (Int × Wire.PbMetadata)) Int AltResult)
    (h : Run (AltStep (some raw)) (init []) tr s) (t : Nat) :
    ∃ waiting, Answers (fun cc r => r = .entry (coll.reverse.find? (fun m => m.countryCode.getD 0 = cc))) (ofThread t tr) waiting := by
  refine answers_of h _ (fun cc r => ?_) t
  by_cases h0 : raw = []
  · subst h0
    have : coll = [] := by
      have h1 : Wire.unmarshalCollection [] = some [] := by decide
      rw [h1] at hc; exact (Option.some.inj hc).symm
    subst this
    simp [altOutcome, altPanics, altUpdates, run, mapGet]
  · have h1 := alt_table coll []
    rw [List.append_nil, ← List.map_reverse] at h1
    have h2 : run (altUpdates (some raw)) [] = coll.reverse.map (fun m => (m.countryCode.getD 0, m)) := by
      simp only [altUpdates, h0, if_false, hc, run]; exact h1
    rw [h2]
    simp only [altOutcome, altPanics, h0, if_false, hc, Option.isNone_some, Bool.and_false, Bool.false_eq_true, mapGet_find]

/-- The data cannot be read: it does not decompress, or what comes out is no collection. -/
def Unreadable (file : Option Bytes) : Prop := ∀ raw, file = some raw → raw ≠ [] ∧ Wire.unmarshalCollection raw = none

theorem unreadable_panics {file : Option Bytes} (hf : Unreadable file) : altPanics file = true ∧ altUpdates file = [] := by
  cases file with
  | none => exact ⟨rfl, rfl⟩
  | some raw =>
    obtain ⟨h0, h1⟩ := hf raw rfl
    simp [altPanics, altUpdates, h0, h1]

/-- Alternate formats, data not readable: a call panics or finds no alternate formats, whatever the country code. -/
theorem C111_alternate_failed (file : Option Bytes) (hf : Unreadable file) (tr : List (Nat × Op Int AltResult))
    (s : St (List (Int × Wire.PbMetadata)) Int AltResult) (h : Run (AltStep file) (init []) tr s) (t : Nat) :
    ∃ waiting, Answers (fun _ r => r = .panics ∨ r = .entry none) (ofThread t tr) waiting := by
  obtain ⟨h1, h2⟩ := unreadable_panics hf
  refine answers_of h _ (fun cc r => ?_) t
  rw [h2]
  cases r <;> simp [altOutcome, h1, run, mapGet]

/-- … and only one call ever panics: exactly one, once all calls made have ended. -/
theorem C111_alternate_panic (file : Option Bytes) (hf : Unreadable file) (tr : List (Nat × Op Int AltResult))
    (s : St (List (Int × Wire.PbMetadata)) Int AltResult) (h : Run (AltStep file) (init []) tr s) :
    ended isPanic tr ≤ 1 ∧ (callsMade tr ≠ 0 → ended (fun _ => true) tr = callsMade tr → ended isPanic tr = 1) := by
  obtain ⟨h1, h2⟩ := unreadable_panics hf
  refine one_of h _ (fun cc r => ?_)
  rw [h2]
  cases r <;> simp [altOutcome, h1, run, mapGet, isPanic]

/-- No call is left waiting: however far an execution has come, the goroutines can go on, without any new call, until every call has
ended.  This holds for every loading function, also one that panics. -/
theorem C111_ends {σ α β : Type} (updates : List (σ → σ)) (outcome : α → Bool → σ → β) (x : σ) (tr : List (Nat × Op α β))
    (s : St σ α β) (h : Run (Step updates outcome) (init x) tr s) :
    ∃ tr' s', Run (Step updates outcome) (init x) (tr ++ tr') s' ∧ callsMade tr' = 0 ∧
      ∀ t, Answers (fun a b => ∃ ran, b = outcome a ran (updates.foldl (fun y u => u y) x)) (ofThread t (tr ++ tr')) none := by
  obtain ⟨tr', s', hr, h0, hi⟩ := finish_all _ h (Nat.le_refl _)
  refine ⟨tr', s', hr, h0, fun t => ?_⟩
  by_cases ht : t < s'.threads.length
  · have h1 := (inv_run hr).answers t _ (List.getElem?_eq_getElem ht)
    rw [hi t _ (List.getElem?_eq_getElem ht)] at h1
    exact h1
  · rw [(inv_run hr).fresh t (by omega)]; exact .none

/-- … and no schedule keeps them from it: every call pays for a fixed number of steps, and each step other than starting a goroutine or
making a call uses up one of them. -/
theorem C111_bounded {σ α β : Type} (updates : List (σ → σ)) (outcome : α → Bool → σ → β) :
    ∃ left : St σ α β → Nat, ∀ s e s', Step updates outcome s e s' →
      (e = none ∧ s' = { s with threads := s.threads ++ [.idle] } ∧ left s' = left s) ∨
      (∃ t a, e = some (t, .call a) ∧ left s' = left s + (updates.length + 8)) ∨ left s' < left s := by
  refine ⟨St.left updates.length, fun s e s' hs => ?_⟩
  cases hs with
  | spawn => exact .inl ⟨rfl, rfl, by simp [St.left, Pc.left]⟩
  | call _ t a h =>
    refine .inr (.inl ⟨t, a, rfl, ?_⟩)
    have := left_set_eq updates.length (pc' := .enter a) h
    simpa [St.left, St.go, Pc.left] using this
  | fast _ t a h hd => exact .inr (.inr (left_set _ h (by simp [Pc.left])))
  | slow _ t a h hd => exact .inr (.inr (left_set _ h (by simp [Pc.left])))
  | lock _ t a h hl => exact .inr (.inr (left_set _ h (by simp [Pc.left])))
  | skip _ t a h hd => exact .inr (.inr (left_set _ h (by simp [Pc.left])))
  | start _ t a h hd => exact .inr (.inr (left_set _ h (by simp [Pc.left])))
  | update _ t a u us h => exact .inr (.inr (left_set _ h (by simp [Pc.left])))
  | finish _ t a h => exact .inr (.inr (left_set _ h (by simp [Pc.left])))
  | unlock _ t a r h => exact .inr (.inr (left_set _ h (by simp [Pc.left])))
  | read _ t a r h => exact .inr (.inr (left_set _ h (by simp [Pc.left])))
  | ret _ t a r b h => exact .inr (.inr (left_set _ h (by simp [Pc.left])))

/-- Concrete cases: a file cut short, and bytes that are no collection. -/
example : loadIntArrayMap (fun _ => 1) [1, 2] = .error .eof := by rfl
example : Unreadable (some [10]) := by
  intro raw h
  obtain rfl := Option.some.inj h
  exact ⟨by decide, by decide⟩
example : Unreadable none := by intro raw h; cases h

/-- A concrete execution: two goroutines ask for alternate formats in data that cannot be read; the one that loads panics, the other
waits for it and finds none. -/
example : ∃ s, Run (AltStep none) (init []) [(0, .call 44), (1, .call 49), (1, .ret (.entry none)), (0, .ret .panics)] s := by
  have h := Run.start (step := AltStep none) (init := init [])
  have h := h.silent (.spawn _)
  have h := h.silent (.spawn _)
  have h := h.event (.call _ 0 44 rfl)
  have h := h.silent (.slow _ 0 44 rfl rfl)
  have h := h.silent (.lock _ 0 44 rfl rfl)
  have h := h.silent (.start _ 0 44 rfl rfl)
  have h := h.event (.call _ 1 49 rfl)
  have h := h.silent (.slow _ 1 49 rfl rfl)
  have h := h.silent (.finish _ 0 44 rfl)
  have h := h.silent (.unlock _ 0 44 true rfl)
  have h := h.silent (.lock _ 1 49 rfl rfl)
  have h := h.silent (.skip _ 1 49 rfl rfl)
  have h := h.silent (.unlock _ 1 49 false rfl)
  have h := h.silent (.read _ 1 49 false rfl)
  have h := h.event (.ret _ 1 49 false _ rfl)
  have h := h.silent (.read _ 0 44 true rfl)
  have h := h.event (.ret _ 0 44 true _ rfl)
  exact ⟨_, h⟩

end Props
end Verif
