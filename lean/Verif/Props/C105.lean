import Verif.Spec.Names
import Verif.Data.Names
import Verif.Props.C49
import Verif.Props.C56
import Verif.Props.C57
/-!
# C105: the embedded carrier and area names

The embedded files, uncompressed, are `Data.carrierFiles` (9 languages) and `Data.areaFiles` (33 languages), byte by byte.
-/
namespace Verif.Props
open Verif Spec PrefixLoader

theorem names_load (dc : Int → Nat) {raw : Bytes} (h : (NameFile.check 1000000000 raw).isSome = true) :
    ∃ M, loadPrefixMap dc raw = .ok M ∧ GoodNames M.map := by
  obtain ⟨M, h1, h2, h3⟩ := NameFile.check_spec dc (by decide) h
  exact ⟨M, h1, h2, fun e he => ⟨(h3 e he).1, (h3 e he).2.1⟩, fun e he => (h3 e he).2.2⟩

theorem names_shipped {e : Str × Bytes} (h : e ∈ Data.carrierFiles ∨ e ∈ Data.areaFiles) :
    (NameFile.check 1000000000 e.2).isSome = true := by
  rcases h with h | h
  · exact Data.wf_carrierFiles e h
  · exact Data.wf_areaFiles e h

/-- Every embedded file loads, into a usable map, whatever floating-point logarithms are. -/
theorem C105_loads (dc : Int → Nat) (lang : Str) (raw : Bytes) (h : (lang, raw) ∈ Data.carrierFiles ∨ (lang, raw) ∈ Data.areaFiles) :
    ∃ M, loadPrefixMap dc raw = .ok M ∧ GoodNames M.map := names_load dc (names_shipped h)

/-- However many goroutines ask for whatever languages, and however their steps interleave, no lookup of the names of a language ever
fails because of the data: it gives a usable map for a language with a file and none for every other text, unless the file system
fails. -/
theorem C105_concurrent (dc : Int → Nat) (files : List (Str × Bytes)) (hf : files = Data.carrierFiles ∨ files = Data.areaFiles)
    (gz : Str → Option Bytes) (unzip : Bytes → Bytes) (he : Embedded files gz unzip)
    (tr : List (Nat × Op Str (Res LoadErr (Loaded Bytes)))) (s : St LoadErr (Loaded Bytes))
    (h : Run (Step gz (fun d => loadPrefixMap dc (unzip d))) init tr s) (t : Nat) :
    ∃ waiting, Answers (fun lang r => match r with
        | .ok none => lang ∉ files.map (·.1)
        | .ok (some M) => (∃ raw, (lang, raw) ∈ files ∧ loadPrefixMap dc raw = .ok M) ∧ GoodNames M.map
        | .error .io => True
        | .error (.load _) => False) (ofThread t tr) waiting := by
  obtain ⟨w, hw⟩ := C49_consistent gz (fun d => loadPrefixMap dc (unzip d)) tr s h t
  refine ⟨w, ?_⟩
  clear h
  generalize ofThread t tr = l at hw
  induction hw with
  | none => exact .none
  | call a _ ih => exact .call a ih
  | ret b _ hb ih =>
    rename_i lang _
    refine .ret b ih ?_
    rcases hb with rfl | rfl
    · unfold direct
      rcases he lang with ⟨h1, h2⟩ | ⟨d, h1, h2⟩
      · rw [h1]; exact h2
      · have h3 : (lang, unzip d) ∈ Data.carrierFiles ∨ (lang, unzip d) ∈ Data.areaFiles := by rcases hf with rfl | rfl <;> simp [h2]
        obtain ⟨M, h4, h5⟩ := C105_loads dc lang _ h3
        rw [h1]
        simp only [h4]
        exact ⟨⟨_, h2, h4⟩, h5⟩
    · trivial

theorem head_code (c : Nat) (s : Str) (hc : c ≠ 0) : (decimal c ++ s).head? ≠ some '0'.toNat := by
  rw [← dec_eq_decimal, head?_append' _ _ (dec_ne_nil c)]
  exact dec_head c hc

theorem named_of {m : List (Int × Bytes)} (g : GoodNames m) {ds : Str} (h0 : ds.head? ≠ some '0'.toNat) {v : Bytes} (h : NameOf m ds v) :
    Named m ds v ∨ (Unnamed m ds ∧ v = []) := by
  have hkeys : ∀ e ∈ m, e.1 < 10 ^ 9 := fun e he => (g.short e he).2
  rcases h with ⟨p, k, h⟩ | ⟨h, h'⟩
  · exact .inl ⟨p, k, h.unlimited hkeys h0, g.named _ h.value⟩
  · exact .inr ⟨NoPrefix.unlimited (by omega) hkeys h0 h, h'⟩

/-- `carrier.GetNameForNumber` and `GetSafeDisplayName` with an embedded file, for **every** message that is not (national number 0
with raw input): a mobile number has the non-empty name of the longest of all prefixes of country code and national significant number
in the file, and the empty name only if none is in the file; other numbers have the empty name; the safe name is empty where numbers
are portable and the same otherwise.  There is no error. -/
theorem C105_carrier (dc : Int → Nat) (lang : Str) (raw : Bytes) (h : (lang, raw) ∈ Data.carrierFiles) :
    ∃ M, loadPrefixMap dc raw = .ok M ∧ ∀ n : PhoneNumber, ¬ (n.nn = 0 ∧ n.raw ≠ []) →
      ∃ t r v s, numberType Data.container n = .ok t ∧ regionForNumber Data.container n = .ok r ∧
        carrierForNumber Data.container (some M.map) n = .ok (some v) ∧ carrierSafe Data.container (some M.map) n = .ok (some s) ∧
        (MobileType t → Named M.map (decimal n.cc.toNat ++ nsnOf n) v ∨ (Unnamed M.map (decimal n.cc.toNat ++ nsnOf n) ∧ v = [])) ∧
        (¬ MobileType t → v = []) ∧
        ((∃ x ∈ Data.container.allMeta, Data.container.metaForRegion r = some x ∧ x.mobilePortable = true) → s = []) ∧
        ((∀ x, Data.container.metaForRegion r = some x → x.mobilePortable = false) → s = v) := by
  obtain ⟨M, h1, h2⟩ := C105_loads dc lang raw (.inl h)
  refine ⟨M, h1, fun n hraw => ?_⟩
  obtain ⟨t, r, v, s, k1, k2, k3, k4, k5, k6, k7, k8⟩ := C56_shipped M.map h2.once n hraw
  refine ⟨t, r, v, s, k1, k2, k3, k4, fun hm => ?_, k6, k7, k8⟩
  refine named_of h2 (head_code _ _ ?_) (k5 hm)
  rcases regionForNumber_cases built_shipped Data.wf_tables Data.wf_allDescs n with hr | ⟨r, x, hr, hmem, hx, _⟩
  · have := (C30_number _ n [] hr Data.wf_allDescs t).1 k1
    rw [metaFor_nil] at this
    rcases hm with h | h | h <;> rw [this] at h <;> cases h
  · have := cc_pos hmem
    omega

theorem parse_cc_pos {s region : Str} {l : PhoneNumber} (h : parse Data.container s region = .ok (none, l)) : 0 < l.cc := by
  have h1 := (C08_shipped s region l (.inl h)).1
  have hs : Data.container.supportedCodes = Data.container.ccToRegion.map (·.1) := by kernel_rfl
  rw [hs] at h1
  obtain ⟨e, he, hee⟩ := List.mem_map.1 h1
  have := List.all_eq_true.1 Data.wf_positive e he
  rw [← hee]
  revert this
  cases e.1 with
  | ofNat x => intro h; rw [Nat.blt_eq] at h; show (0 : Int) < (x : Int); omega
  | negSucc x => simp

/-- `geocoding.GetDescriptionForNumber` with an embedded file, for **every** message: a geographical number is described by the
non-empty name of the longest of all prefixes in the file (of the number, for Argentine mobile numbers without the 9), and by its
country only if no prefix is in the file; other numbers by their country; a number of no type by nothing.  There is no error. -/
theorem C105_area (dc : Int → Nat) (lang : Str) (raw : Bytes) (h : (lang, raw) ∈ Data.areaFiles) (disp : Str → Bytes) :
    ∃ M, loadPrefixMap dc raw = .ok M ∧ ∀ n : PhoneNumber,
      ∃ t d, numberType Data.container n = .ok t ∧ descriptionForNumber Data.container disp (some M.map) n = .ok (some d) ∧
        (t = .unknown → d = []) ∧
        (t ≠ .unknown → ¬ Geographical t n.cc → CountryName Data.container disp n d) ∧
        (t ≠ .unknown → Geographical t n.cc → ∃ l, Looked Data.container n l ∧
          (Named M.map (decimal l.cc.toNat ++ nsnOf l) d ∨
           (Unnamed M.map (decimal l.cc.toNat ++ nsnOf l) ∧ CountryName Data.container disp n d))) := by
  obtain ⟨M, h1, h2⟩ := C105_loads dc lang raw (.inr h)
  have hkeys : ∀ e ∈ M.map, e.1 < 10 ^ 9 := fun e he => (h2.short e he).2
  refine ⟨M, h1, fun n => ?_⟩
  obtain ⟨t, d, k1, k2, k3, k4, k5⟩ := C57_shipped disp M.map h2.once n
  refine ⟨t, d, k1, k2, k3, k4, fun hu hg => ?_⟩
  obtain ⟨l, hl, hn⟩ := k5 hu hg
  have hpos : l.cc.toNat ≠ 0 := by
    rcases hl with rfl | ⟨_, rest, _, hp⟩
    · rcases regionForNumber_cases built_shipped Data.wf_tables Data.wf_allDescs l with hr | ⟨r, x, hr, hmem, hx, _⟩
      · have := (C30_number _ l [] hr Data.wf_allDescs t).1 k1
        rw [metaFor_nil] at this
        exact absurd this hu
      · have := cc_pos hmem
        omega
    · have := parse_cc_pos hp
      omega
  have h0 := head_code l.cc.toNat (nsnOf l) hpos
  refine ⟨l, hl, ?_⟩
  rcases hn with ⟨p, k, h3, h4⟩ | ⟨h3 | ⟨p, k, h3⟩, h4⟩
  · exact .inl ⟨p, k, h3.unlimited hkeys h0, h4⟩
  · exact .inr ⟨NoPrefix.unlimited (by omega) hkeys h0 h3, h4⟩
  · exact absurd rfl (h2.named _ h3.value)

theorem valueLoop_nil (s : Str) (i : Nat) : valueLoop [] s i = none ∨ valueLoop [] s i = some ([], 0) := by
  induction i with
  | zero => exact .inr rfl
  | succ i ih =>
    simp only [valueLoop]
    split
    · exact .inr rfl
    · split
      · exact .inl rfl
      · exact ih

theorem valueForNumber_nil (s : Str) : valueForNumber (some []) 10 s = none ∨ valueForNumber (some []) 10 s = some ([], 0) := valueLoop_nil s _

/-- A text without a file is not an error and there is no fallback to another language: every carrier name is empty, and every
description is that of the country.  So it is for "en-US", "he" and "zh-Hant": the files are named "en", "iw" and "zh_Hant". -/
theorem C105_no_fallback :
    (∀ lang ∈ [str!"en-US", str!"he", str!"zh-Hant", []], lang ∉ Data.carrierFiles.map (·.1) ∧ lang ∉ Data.areaFiles.map (·.1)) ∧
    (∀ n : PhoneNumber, carrierForNumber Data.container none n = .ok (some [])) ∧
    ∀ (disp : Str → Bytes) (n : PhoneNumber), ∃ t d, numberType Data.container n = .ok t ∧
      descriptionForNumber Data.container disp none n = .ok (some d) ∧ (t = .unknown → d = []) ∧
      (t ≠ .unknown → CountryName Data.container disp n d) := by
  refine ⟨?_, fun n => ?_, fun disp n => ?_⟩
  · intro lang h
    simp only [Data.carrierFiles, Data.areaFiles, List.map_cons, List.map_nil]
    revert lang
    decide
  · obtain ⟨_, t, _, ht, _⟩ := C26_shipped n
    simp only [carrierForNumber, ht, bind, Except.bind, pure, Except.pure, carrierForValid, valueForNumber]
    split <;> rfl
  · obtain ⟨t, d, k1, k2, k3, k4, k5⟩ := C57_shipped disp [] (by simp) n
    have e : descriptionForNumber Data.container disp none n = .ok (some d) := by
      simp only [descriptionForNumber, k1, bind, Except.bind] at k2 ⊢
      split at k2
      · rename_i hu; rw [if_pos hu]; exact k2
      · rename_i hu
        rw [if_neg hu]
        split at k2
        · rename_i hg; rw [if_pos hg]; exact k2
        · rename_i hg
          rw [if_neg hg]
          simp only [descriptionForValid, bind, Except.bind] at k2 ⊢
          split at k2
          · cases k2
          · rename_i l hl
            rcases valueForNumber_nil (format Data.container l .e164) with h | h
            · rw [h] at k2; cases k2
            · rw [h] at k2; exact k2
    refine ⟨t, d, k1, e, k3, fun hu => ?_⟩
    by_cases hg : Geographical t n.cc
    · obtain ⟨l, -, ⟨p, k, h, -⟩ | ⟨-, h⟩⟩ := k5 hu hg
      · exact absurd h.value (by simp)
      · exact h
    · exact k4 hu hg

/-- The Arabic carrier file: prefixes of Kuwait. -/
def kuwait : PhoneNumber := { countryCode := some 965, nationalNumber := some 41234567 }

example : (str!"ar", Data.carrierAr) ∈ Data.carrierFiles ∧ ¬ (kuwait.nn = 0 ∧ kuwait.raw ≠ []) ∧
    numberType Data.container kuwait = .ok .mobile ∧
    (loadPrefixMap (fun _ => 0) Data.carrierAr).toOption.map (fun M => carrierForNumber Data.container (some M.map) kuwait) =
      some (.ok (some (str!"Virgin mobile"))) := by
  refine ⟨by simp [Data.carrierFiles], by decide, by kernel_rfl, by kernel_rfl⟩

/-- The Croatian area file: Banja Luka. -/
def banjaLuka : PhoneNumber := { countryCode := some 387, nationalNumber := some 51234567 }

example (disp : Str → Bytes) : (str!"hr", Data.areaHr) ∈ Data.areaFiles ∧ numberType Data.container banjaLuka = .ok .fixedLine ∧
    (loadPrefixMap (fun _ => 0) Data.areaHr).toOption.map (fun M => descriptionForNumber Data.container disp (some M.map) banjaLuka) =
      some (.ok (some (str!"Banja Luka"))) := by
  refine ⟨by simp [Data.areaFiles], by kernel_rfl, by kernel_rfl⟩

/-- A file system with exactly these files exists. -/
example : Embedded Data.carrierFiles (fun l => mapGet Data.carrierFiles l) id := by
  intro lang
  generalize Data.carrierFiles = fs
  induction fs with
  | nil => exact .inl ⟨rfl, by simp⟩
  | cons e t ih =>
    simp only [mapGet]
    split
    · rename_i hl; subst hl; exact .inr ⟨e.2, rfl, by simp⟩
    · rename_i hl
      rcases ih with ⟨h1, h2⟩ | ⟨d, h1, h2⟩
      · exact .inl ⟨h1, by simp only [List.map_cons, List.mem_cons, not_or]; exact ⟨fun h => hl h.symm, h2⟩⟩
      · exact .inr ⟨d, h1, List.mem_cons_of_mem _ h2⟩

end Verif.Props
