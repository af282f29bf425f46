import Verif.Spec.BuildRun
import Verif.Spec.BuildFiles
/-!
# Lemmas about a run of the build command
-/
namespace Verif
open Spec Builder Wire

/-! ## The disk -/

theorem _root_.Verif.Spec.Disk.set_self (d : Disk) (p b : Bytes) : d.set p b p = some b := by simp [Disk.set]

theorem _root_.Verif.Spec.Disk.set_ne (d : Disk) {p q : Bytes} (b : Bytes) (h : q ≠ p) : d.set p b q = d q := by simp [Disk.set, h]

theorem _root_.Verif.Spec.Disk.after_not_mem {ws : List (Bytes × Bytes)} {d : Disk} {q : Bytes} (h : q ∉ ws.map (·.1)) : d.after ws q = d q := by
  induction ws generalizing d with
  | nil => rfl
  | cons e ws ih =>
    obtain ⟨p, b⟩ := e
    simp only [List.map_cons, List.mem_cons, not_or] at h
    rw [Disk.after, ih h.2, Disk.set_ne _ _ h.1]

theorem _root_.Verif.Spec.Disk.after_mem {ws : List (Bytes × Bytes)} {d : Disk} {p b : Bytes} (hn : (ws.map (·.1)).Nodup) (h : (p, b) ∈ ws) :
    d.after ws p = some b := by
  induction ws generalizing d with
  | nil => cases h
  | cons e ws ih =>
    obtain ⟨p', b'⟩ := e
    simp only [List.map_cons, List.nodup_cons] at hn
    rw [Disk.after]
    rcases List.mem_cons.1 h with h | h
    · cases h
      rw [Disk.after_not_mem hn.1, Disk.set_self]
    · exact ih hn.2 h

theorem _root_.Verif.Spec.Disk.after_append (d : Disk) (ws vs : List (Bytes × Bytes)) : d.after (ws ++ vs) = (d.after ws).after vs := by
  induction ws generalizing d with
  | nil => rfl
  | cons e ws ih => obtain ⟨p, b⟩ := e; rw [List.cons_append, Disk.after, ih, ← Disk.after]

theorem _root_.Verif.Spec.Disk.after_congr {ws : List (Bytes × Bytes)} {d d' : Disk} (h : ∀ q, q ∉ ws.map (·.1) → d q = d' q) : d.after ws = d'.after ws := by
  induction ws generalizing d d' with
  | nil => exact funext fun q => h q (by simp)
  | cons e ws ih =>
    obtain ⟨p, b⟩ := e
    rw [Disk.after, Disk.after]
    refine ih fun q hq => ?_
    by_cases hp : q = p
    · subst hp; rw [Disk.set_self, Disk.set_self]
    · rw [Disk.set_ne _ _ hp, Disk.set_ne _ _ hp]
      exact h q (by simp [hp]; simpa using hq)

theorem _root_.Verif.Spec.Seen.not_mem {ws : List (Bytes × Bytes)} {d d' : Disk} (h : Seen d ws d') {q : Bytes} (hq : q ∉ ws.map (·.1)) : d' q = d q := by
  induction h with
  | stop => rfl
  | during d p b ws part _ =>
    simp only [List.map_cons, List.mem_cons, not_or] at hq
    exact Disk.set_ne _ _ hq.1
  | next d p b ws d' _ ih =>
    simp only [List.map_cons, List.mem_cons, not_or] at hq
    rw [ih hq.2, Disk.set_ne _ _ hq.1]

theorem _root_.Verif.Spec.Seen.after (d : Disk) (ws : List (Bytes × Bytes)) : Seen d ws (d.after ws) := by
  induction ws generalizing d with
  | nil => exact .stop _ _
  | cons e ws ih => obtain ⟨p, b⟩ := e; exact .next _ _ _ _ _ (ih _)

theorem _root_.Verif.Spec.Seen.append_left {d : Disk} {ws : List (Bytes × Bytes)} {d' : Disk} (h : Seen d ws d') (vs : List (Bytes × Bytes)) : Seen d (ws ++ vs) d' := by
  induction h with
  | stop => exact .stop _ _
  | during d p b ws part hp => exact .during _ _ _ _ _ hp
  | next d p b ws d' _ ih => exact .next _ _ _ _ _ ih

theorem _root_.Verif.Spec.Seen.append_right {d : Disk} (ws : List (Bytes × Bytes)) {vs : List (Bytes × Bytes)} {d' : Disk} (h : Seen (d.after ws) vs d') :
    Seen d (ws ++ vs) d' := by
  induction ws generalizing d with
  | nil => exact h
  | cons e ws ih => obtain ⟨p, b⟩ := e; exact .next _ _ _ _ _ (ih h)

theorem _root_.Verif.Spec.Seen.split {d : Disk} {ws vs : List (Bytes × Bytes)} {d' : Disk} (h : Seen d (ws ++ vs) d') : Seen d ws d' ∨ Seen (d.after ws) vs d' := by
  induction ws generalizing d with
  | nil => exact .inr h
  | cons e ws ih =>
    obtain ⟨p, b⟩ := e
    rw [List.cons_append] at h
    cases h with
    | stop => exact .inl (.stop _ _)
    | during _ _ _ _ part hp => exact .inl (.during _ _ _ _ _ hp)
    | next _ _ _ _ _ h =>
      rcases ih h with h | h
      · exact .inl (.next _ _ _ _ _ h)
      · exact .inr h

theorem _root_.Verif.Spec.Seen.singleton {d : Disk} {p b : Bytes} {d' : Disk} (h : Seen d [(p, b)] d') : d' = d ∨ ∃ part, part <+: b ∧ d' = d.set p part := by
  cases h with
  | stop => exact .inl rfl
  | during _ _ _ _ part hp => exact .inr ⟨part, hp, rfl⟩
  | next _ _ _ _ _ h =>
    cases h
    exact .inr ⟨b, List.prefix_refl b, rfl⟩

/-- What a path can hold: what it held, or a first part of what is written to it. -/
theorem _root_.Verif.Spec.Seen.cases {d : Disk} {ws : List (Bytes × Bytes)} {d' : Disk} (h : Seen d ws d') (q : Bytes) :
    d' q = d q ∨ ∃ b part, (q, b) ∈ ws ∧ part <+: b ∧ d' q = some part := by
  induction h with
  | stop => exact .inl rfl
  | during d p b ws part hp =>
    by_cases hq : q = p
    · subst hq; exact .inr ⟨b, part, by simp, hp, Disk.set_self _ _ _⟩
    · exact .inl (Disk.set_ne _ _ hq)
  | next d p b ws d' _ ih =>
    rcases ih with ih | ⟨c, part, h1, h2, h3⟩
    · by_cases hq : q = p
      · subst hq; exact .inr ⟨b, b, by simp, List.prefix_refl b, by rw [ih, Disk.set_self]⟩
      · exact .inl (by rw [ih, Disk.set_ne _ _ hq])
    · exact .inr ⟨c, part, by simp [h1], h2, h3⟩

namespace Builder

/-! ## Jobs -/

theorem Job.andThen_done {a b : Job} : (a.andThen b).done = true ↔ a.done = true ∧ b.done = true := by
  unfold Job.andThen
  split <;> simp_all

theorem Job.andThen_writes {a b : Job} (h : a.done = true) : (a.andThen b).writes = a.writes ++ b.writes := by simp [Job.andThen, h]

theorem Job.andThen_sub {a b : Job} {e : Bytes × Bytes} (h : e ∈ (a.andThen b).writes) : e ∈ a.writes ∨ e ∈ b.writes := by
  unfold Job.andThen at h
  split at h
  · exact List.mem_append.1 h
  · exact .inl h

theorem Job.file_done {p : Bytes} {c : Option Bytes} : (Job.file p c).done = true ↔ ∃ b, c = some b := by
  cases c <;> simp [Job.file]

theorem Job.file_sub {p : Bytes} {c : Option Bytes} {e : Bytes × Bytes} (h : e ∈ (Job.file p c).writes) : ∃ b, c = some b ∧ e = (p, b) := by
  cases c with
  | none => cases h
  | some b => exact ⟨b, rfl, by simpa [Job.file] using h⟩

/-! ## The languages -/

theorem languageJobs_done {gz : Bytes → Bytes} {dir : Bytes} {l : List (Bytes × List (Int × Bytes))} :
    (languageJobs gz dir l).done = true ↔ ∀ e ∈ l, ∃ raw, languageBytes e.2 = some raw := by
  induction l with
  | nil => simp [languageJobs]
  | cons e l ih =>
    obtain ⟨lang, m⟩ := e
    rw [languageJobs, Job.andThen_done, ih, Job.file_done, List.forall_mem_cons]
    refine and_congr_left fun _ => ?_
    cases languageBytes m <;> simp

theorem languageJobs_writes {gz : Bytes → Bytes} {dir : Bytes} {l : List (Bytes × List (Int × Bytes))} (h : (languageJobs gz dir l).done = true) :
    (languageJobs gz dir l).writes.map (·.1) = l.map (fun e => languagePath dir e.1) ∧
      ∀ e ∈ l, ∃ raw, languageBytes e.2 = some raw ∧ (languagePath dir e.1, gz raw) ∈ (languageJobs gz dir l).writes := by
  induction l with
  | nil => simp [languageJobs]
  | cons e l ih =>
    obtain ⟨lang, m⟩ := e
    rw [languageJobs, Job.andThen_done] at h
    obtain ⟨i1, i2⟩ := ih h.2
    obtain ⟨b, hb⟩ := Job.file_done.1 h.1
    obtain ⟨raw, hr, rfl⟩ := Option.map_eq_some_iff.1 hb
    rw [languageJobs, Job.andThen_writes h.1, hb]
    refine ⟨by simp [Job.file, i1], ?_⟩
    intro e he
    rcases List.mem_cons.1 he with rfl | he
    · exact ⟨raw, hr, by simp [Job.file]⟩
    · obtain ⟨r, h1, h2⟩ := i2 e he
      exact ⟨r, h1, List.mem_append_right _ h2⟩

theorem languageJobs_sub {gz : Bytes → Bytes} {dir : Bytes} {l : List (Bytes × List (Int × Bytes))} {w : Bytes × Bytes}
    (h : w ∈ (languageJobs gz dir l).writes) : ∃ e ∈ l, ∃ raw, languageBytes e.2 = some raw ∧ w = (languagePath dir e.1, gz raw) := by
  induction l with
  | nil => cases h
  | cons e l ih =>
    obtain ⟨lang, m⟩ := e
    rw [languageJobs] at h
    rcases Job.andThen_sub h with h | h
    · obtain ⟨b, h1, h2⟩ := Job.file_sub h
      obtain ⟨raw, hr, rfl⟩ := Option.map_eq_some_iff.1 h1
      exact ⟨(lang, m), by simp, raw, hr, h2⟩
    · obtain ⟨e, he, h⟩ := ih h
      exact ⟨e, by simp [he], h⟩

theorem languageMaps_some {ls : List (Bytes × List Bytes)} {l : List (Bytes × List (Int × Bytes))} (h : languageMaps ls = some l) :
    l.map (·.1) = ls.map (·.1) ∧ (∀ e ∈ ls, ∃ m, readMappings e.2 = .ok m ∧ (e.1, m) ∈ l) ∧
      ∀ x ∈ l, ∃ e ∈ ls, e.1 = x.1 ∧ readMappings e.2 = .ok x.2 := by
  induction ls generalizing l with
  | nil => simp only [languageMaps, Option.some.injEq] at h; subst h; simp
  | cons e ls ih =>
    obtain ⟨lang, files⟩ := e
    rw [languageMaps] at h
    split at h
    · cases h
    · rename_i m hm
      obtain ⟨r, hr, rfl⟩ := Option.map_eq_some_iff.1 h
      obtain ⟨i1, i2, i3⟩ := ih hr
      refine ⟨by simp [i1], ?_, ?_⟩
      · intro e he
        rcases List.mem_cons.1 he with rfl | he
        · exact ⟨m, hm, by simp⟩
        · obtain ⟨m', h1, h2⟩ := i2 e he
          exact ⟨m', h1, by simp [h2]⟩
      · intro x hx
        rcases List.mem_cons.1 hx with rfl | hx
        · exact ⟨(lang, files), by simp, rfl, hm⟩
        · obtain ⟨e, he, h⟩ := i3 x hx
          exact ⟨e, by simp [he], h⟩

theorem languageMaps_isSome {ls : List (Bytes × List Bytes)} (h : ∀ e ∈ ls, ∃ m, readMappings e.2 = .ok m) : ∃ l, languageMaps ls = some l := by
  induction ls with
  | nil => exact ⟨_, rfl⟩
  | cons e ls ih =>
    obtain ⟨lang, files⟩ := e
    obtain ⟨m, hm⟩ := h (lang, files) (by simp)
    obtain ⟨l, hl⟩ := ih fun e he => h e (by simp [he])
    exact ⟨(lang, m) :: l, by rw [languageMaps]; dsimp only at hm; rw [hm]; simp [hl]⟩

/-- The table of a language, from its files to the bytes before compression. -/
def tableBytes (files : List Bytes) : Option Bytes :=
  match readMappings files with
  | .ok m => languageBytes m
  | .error _ => none

theorem tableBytes_some {files : List Bytes} {raw : Bytes} :
    tableBytes files = some raw ↔ ∃ m, readMappings files = .ok m ∧ renderPrefixMap m = .ok (some raw) := by
  unfold tableBytes languageBytes
  constructor
  · intro h
    split at h
    · rename_i m hm
      refine ⟨m, hm, ?_⟩
      split at h
      · rename_i r hr; rw [hr, h]
      · cases h
    · cases h
  · rintro ⟨m, hm, hr⟩
    rw [hm]
    dsimp only
    rw [hr]

theorem prefixJob_done {gz : Bytes → Bytes} {dir : Bytes} {ls : List (Bytes × List Bytes)} :
    (prefixJob gz dir ls).done = true ↔ ∀ e ∈ ls, ∃ raw, tableBytes e.2 = some raw := by
  unfold prefixJob
  constructor
  · intro h e he
    split at h
    · cases h
    · rename_i l hl
      obtain ⟨_, i2, _⟩ := languageMaps_some hl
      obtain ⟨m, h1, h2⟩ := i2 e he
      obtain ⟨raw, hr⟩ := languageJobs_done.1 h (e.1, m) (List.mem_mergeSort.2 h2)
      exact ⟨raw, by unfold tableBytes; rw [h1]; exact hr⟩
  · intro h
    obtain ⟨l, hl⟩ := languageMaps_isSome fun e he => by
      obtain ⟨raw, hr⟩ := h e he
      obtain ⟨m, h1, _⟩ := tableBytes_some.1 hr
      exact ⟨m, h1⟩
    rw [hl]
    refine languageJobs_done.2 fun x hx => ?_
    obtain ⟨e, he, h1, h2⟩ := (languageMaps_some hl).2.2 x (List.mem_mergeSort.1 hx)
    obtain ⟨raw, hr⟩ := h e he
    unfold tableBytes at hr
    rw [h2] at hr
    exact ⟨raw, hr⟩

theorem prefixJob_sub {gz : Bytes → Bytes} {dir : Bytes} {ls : List (Bytes × List Bytes)} {w : Bytes × Bytes} (h : w ∈ (prefixJob gz dir ls).writes) :
    ∃ e ∈ ls, ∃ raw, tableBytes e.2 = some raw ∧ w = (languagePath dir e.1, gz raw) := by
  unfold prefixJob at h
  split at h
  · cases h
  · rename_i l hl
    obtain ⟨x, hx, raw, h1, h2⟩ := languageJobs_sub h
    obtain ⟨e, he, h3, h4⟩ := (languageMaps_some hl).2.2 x (List.mem_mergeSort.1 hx)
    exact ⟨e, he, raw, by unfold tableBytes; rw [h4]; exact h1, by rw [h2, h3]⟩

theorem prefixJob_writes {gz : Bytes → Bytes} {dir : Bytes} {ls : List (Bytes × List Bytes)} (h : (prefixJob gz dir ls).done = true) :
    ((prefixJob gz dir ls).writes.map (·.1)).Perm (ls.map fun e => languagePath dir e.1) ∧
      ∀ e ∈ ls, ∃ raw, tableBytes e.2 = some raw ∧ (languagePath dir e.1, gz raw) ∈ (prefixJob gz dir ls).writes := by
  unfold prefixJob at h ⊢
  split at h
  · cases h
  · rename_i l hl
    obtain ⟨i1, i2, _⟩ := languageMaps_some hl
    obtain ⟨j1, j2⟩ := languageJobs_writes h
    refine ⟨?_, ?_⟩
    · rw [j1]
      have : ls.map (fun e => languagePath dir e.1) = l.map (fun e => languagePath dir e.1) := by
        have := congrArg (List.map (languagePath dir)) i1
        rw [List.map_map, List.map_map] at this
        exact this.symm
      rw [this]
      exact (List.mergeSort_perm l _).map _
    · intro e he
      obtain ⟨m, h1, h2⟩ := i2 e he
      obtain ⟨raw, h3, h4⟩ := j2 (e.1, m) (List.mem_mergeSort.2 h2)
      exact ⟨raw, by unfold tableBytes; rw [h1]; exact h3, h4⟩

/-! ## The whole run -/

theorem okFile_some {r : Go (Option (List Metadata × Bytes))} {x : List Metadata × Bytes} : okFile r = some x ↔ r = .ok (some x) := by
  unfold okFile
  split <;> simp

theorem okBytes_some {r : Go Bytes} {x : Bytes} : okBytes r = some x ↔ r = .ok x := by
  unfold okBytes
  split <;> simp

/-- The uncompressed contents, if all of them can be made. -/
structure Made (compile : Str → Option Re) (o : Order) (order : List Field → List Field) (src : Sources) where
  coll : List Metadata
  nb : Bytes
  scoll : List Metadata
  sb : Bytes
  acoll : List Metadata
  ab : Bytes
  rb : Bytes
  zb : Bytes
  main : metadataFile compile o order false false src.main = .ok (some (coll, nb))
  short : metadataFile compile o order true false src.short = .ok (some (scoll, sb))
  alternate : metadataFile compile o order false true src.alternate = .ok (some (acoll, ab))
  region : regionFile (entries (regionMap coll)) = .ok rb
  zone : zoneBytes src.zones = some zb
  carrier : ∀ e ∈ src.carrier, ∃ raw, tableBytes e.2 = some raw
  geocoding : ∀ e ∈ src.geocoding, ∃ raw, tableBytes e.2 = some raw

variable {compile : Str → Option Re} {o : Order} {order : List Field → List Field} {gz : Bytes → Bytes} {src : Sources} {version : Bytes}

theorem buildRun_done (h : (buildRun compile o order gz src version).done = true) : Nonempty (Made compile o order src) := by
  unfold buildRun at h
  split at h
  · cases h
  · rename_i coll nb h1
    simp only [Job.andThen_done] at h
    obtain ⟨_, h2, h3, h4, h5, h6, h7, _⟩ := h
    obtain ⟨_, h2⟩ := Job.file_done.1 h2
    obtain ⟨⟨scoll, sb⟩, h2, _⟩ := Option.map_eq_some_iff.1 h2
    obtain ⟨_, h3⟩ := Job.file_done.1 h3
    obtain ⟨⟨acoll, ab⟩, h3, _⟩ := Option.map_eq_some_iff.1 h3
    obtain ⟨_, h4⟩ := Job.file_done.1 h4
    obtain ⟨rb, h4, _⟩ := Option.map_eq_some_iff.1 h4
    obtain ⟨_, h5⟩ := Job.file_done.1 h5
    obtain ⟨zb, h5, _⟩ := Option.map_eq_some_iff.1 h5
    exact ⟨{ coll := coll, nb := nb, scoll := scoll, sb := sb, acoll := acoll, ab := ab, rb := rb, zb := zb
             main := okFile_some.1 h1, short := okFile_some.1 h2, alternate := okFile_some.1 h3, region := okBytes_some.1 h4, zone := h5
             carrier := prefixJob_done.1 h6, geocoding := prefixJob_done.1 h7 }⟩

theorem buildRun_made (gz : Bytes → Bytes) (version : Bytes) (M : Made compile o order src) :
    (buildRun compile o order gz src version).done = true ∧ (buildRun compile o order gz src version).writes =
      [(mainPath, gz M.nb), (shortPath, gz M.sb), (alternatePath, gz M.ab), (regionPath, gz M.rb), (zonePath, gz M.zb)] ++
        ((prefixJob gz (str!"carrier/data") src.carrier).writes ++ ((prefixJob gz (str!"geocoding/data") src.geocoding).writes ++
          [(versionPath, versionText version)])) := by
  have c1 := prefixJob_done (gz := gz) (dir := str!"carrier/data").2 M.carrier
  have c2 := prefixJob_done (gz := gz) (dir := str!"geocoding/data").2 M.geocoding
  unfold buildRun
  rw [okFile_some.2 M.main]
  dsimp only
  rw [okFile_some.2 M.short, okFile_some.2 M.alternate, okBytes_some.2 M.region, M.zone]
  simp only [Job.andThen, c1, c2, Option.map_some, Job.file]
  simp

end Builder
end Verif
