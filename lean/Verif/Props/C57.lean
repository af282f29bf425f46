import Verif.Props.C46
import Verif.Props.C06
import Verif.Props.C08
import Verif.Props.C45
/-!
# C57: geocoding falls back to the one country where the number is valid
-/
namespace Verif.Props
open Verif Spec

/-- Is the number valid for the region, according to `IsValidNumberForRegion`? -/
def validIn (C : Container) (n : PhoneNumber) (r : Str) : Bool :=
  match isValidForRegion C n r with
  | .ok b => b
  | .error _ => false

/-- The display name of a region; unknown and non-geographical regions have none. -/
def NameOfRegion (disp : Str → Bytes) (r : Str) (d : Bytes) : Prop :=
  (r ∉ [[], str!"ZZ", str!"001"] ∧ d = disp r) ∨ (r ∈ [[], str!"ZZ", str!"001"] ∧ d = [])

/-- The country name of a number: of the only region of its code, or of the only one where it is valid. -/
inductive CountryName (C : Container) (disp : Str → Bytes) (n : PhoneNumber) : Bytes → Prop
  | only {r : Str} {d : Bytes} (h : C.regionsOf n.cc = [r]) (hd : NameOfRegion disp r d) : CountryName C disp n d
  | unique {r : Str} {d : Bytes} (h : (C.regionsOf n.cc).length ≠ 1) (hr : (C.regionsOf n.cc).filter (validIn C n) = [r])
      (hd : NameOfRegion disp r d) : CountryName C disp n d
  | unclear (h : (C.regionsOf n.cc).length ≠ 1) (hr : ((C.regionsOf n.cc).filter (validIn C n)).length ≠ 1) : CountryName C disp n []

theorem nameOfRegion (disp : Str → Bytes) (r : Str) : NameOfRegion disp r (regionDisplayName disp r) := by
  unfold regionDisplayName
  by_cases h : r = [] ∨ r = unknownRegion ∨ r = nonGeoRegion
  · rw [if_pos h]
    refine .inr ⟨?_, rfl⟩
    simp only [List.mem_cons, List.not_mem_nil, or_false]
    exact h
  · rw [if_neg h]
    refine .inl ⟨?_, rfl⟩
    simp only [List.mem_cons, List.not_mem_nil, or_false]
    exact h

theorem regionWhereValid_spec {C : Container} {n : PhoneNumber} {rs : List Str} (hok : ∀ r ∈ rs, ∃ b, isValidForRegion C n r = .ok b)
    (hz : unknownRegion ∉ rs) (acc : Str) :
    ∃ o, regionWhereValid C n rs acc = .ok o ∧
      (acc ≠ unknownRegion → o = if (rs.filter (validIn C n)) = [] then some acc else none) ∧
      (acc = unknownRegion → match rs.filter (validIn C n) with | [] => o = some unknownRegion | [r] => o = some r | _ => o = none) := by
  induction rs generalizing acc with
  | nil => exact ⟨some acc, rfl, by simp, by simp⟩
  | cons r rs ih =>
    obtain ⟨b, hb⟩ := hok r (by simp)
    have hv : validIn C n r = b := by simp [validIn, hb]
    have hr : r ≠ unknownRegion := fun h => hz (by simp [h])
    have ih := ih (fun x hx => hok x (by simp [hx])) (fun h => hz (by simp [h]))
    simp only [regionWhereValid, hb, bind, Except.bind, pure, Except.pure]
    cases b with
    | false =>
      simp only [Bool.false_eq_true, if_false, List.filter_cons, hv]
      exact ih acc
    | true =>
      simp only [if_true, List.filter_cons, hv]
      by_cases ha : acc ≠ unknownRegion
      · rw [if_pos ha]
        exact ⟨none, rfl, fun _ => by simp, fun h => absurd h ha⟩
      · rw [if_neg ha]
        obtain ⟨o, h1, h2, _⟩ := ih r
        refine ⟨o, h1, fun h => absurd h ha, fun _ => ?_⟩
        have h2 := h2 hr
        cases hf : rs.filter (validIn C n) with
        | nil => simpa [hf] using h2
        | cons x xs => simpa [hf] using h2

/-- `countryNameForNumber`, whenever the validity checks do not panic and "ZZ" is not listed as a region. -/
theorem C57_country (C : Container) (disp : Str → Bytes) (n : PhoneNumber)
    (hok : ∀ r ∈ C.regionsOf n.cc, ∃ b, isValidForRegion C n r = .ok b) (hz : str!"ZZ" ∉ C.regionsOf n.cc) :
    ∃ d, countryName C disp n = .ok d ∧ CountryName C disp n d := by
  unfold countryName
  split
  · rename_i r hr
    exact ⟨_, rfl, .only hr (nameOfRegion disp r)⟩
  · rename_i hne
    have hl : (C.regionsOf n.cc).length ≠ 1 := by
      intro h
      obtain ⟨r, hr⟩ := List.length_eq_one_iff.1 h
      exact hne r hr
    obtain ⟨o, h1, _, h3⟩ := regionWhereValid_spec hok hz unknownRegion
    have h3 := h3 rfl
    simp only [h1, bind, Except.bind, pure, Except.pure]
    cases hf : (C.regionsOf n.cc).filter (validIn C n) with
    | nil =>
      rw [hf] at h3
      simp only at h3
      subst h3
      exact ⟨_, rfl, .unclear hl (by simp [hf])⟩
    | cons r rs =>
      cases rs with
      | nil =>
        rw [hf] at h3
        simp only at h3
        subst h3
        exact ⟨_, rfl, .unique hl hf (nameOfRegion disp r)⟩
      | cons r' rs =>
        rw [hf] at h3
        simp only at h3
        subst h3
        exact ⟨_, rfl, .unclear hl (by simp [hf])⟩

/-- The number whose digits are looked up: in Argentina the mobile token 9 is removed if what remains parses. -/
def Looked (C : Container) (n l : PhoneNumber) : Prop :=
  l = n ∨ (n.cc = 54 ∧ ∃ rest, nsnOf n = '9'.toNat :: rest ∧ parse C rest (C.mainRegion 54) = .ok (none, l))

theorem parse_raw_nil {s region : Str} {l : PhoneNumber} (h : parse Data.container s region = .ok (none, l)) : l.raw = [] := by
  obtain ⟨o, _, h2⟩ := parse_core_of_ok h
  rw [h2]; rfl

theorem parse_cc_nonneg {s region : Str} {l : PhoneNumber} (h : parse Data.container s region = .ok (none, l)) : 0 ≤ l.cc := by
  have h1 := (C08_shipped s region l (.inl h)).1
  have hs : Data.container.supportedCodes = Data.container.ccToRegion.map (·.1) := by kernel_rfl
  rw [hs] at h1
  obtain ⟨e, he, hee⟩ := List.mem_map.1 h1
  have := List.all_eq_true.1 Data.wf_positive e he
  rw [← hee]
  revert this
  cases e.1 with
  | ofNat x => intro _; show (0 : Int) ≤ (x : Int); omega
  | negSucc x => simp

theorem isValidForRegion_ok (n : PhoneNumber) (r : Str) : ∃ b, isValidForRegion Data.container n r = .ok b := by
  unfold isValidForRegion
  split
  · exact ⟨_, rfl⟩
  · rename_i m hm
    split
    · exact ⟨_, rfl⟩
    · obtain ⟨t, ht⟩ := numberTypeHelper_ok (List.all_eq_true.1 Data.wf_allDescs m (Container.metaFor_mem hm)) (nsnOf_isDig n)
      exact ⟨decide (t ≠ .unknown), by simp only [ht, bind, Except.bind, pure, Except.pure]⟩

theorem noZZ_shipped (cc : Int) : str!"ZZ" ∉ Data.container.regionsOf cc := by
  intro h
  have key : (Data.container.ccToRegion.all fun e => e.2.all fun r => !strEq r (str!"ZZ")) = true := by kernel_rfl
  have := List.all_eq_true.1 (List.all_eq_true.1 key _ (regionsOf_entry h)) _ h
  rw [(strEq_iff _ _).2 rfl] at this
  cases this

/-- `GetDescriptionForNumber` on the shipped metadata, for every message, every description map and every naming of regions. -/
theorem C57_shipped (disp : Str → Bytes) (m : List (Int × Bytes)) (hk : (m.map (·.1)).Nodup) (n : PhoneNumber) :
    ∃ t d, numberType Data.container n = .ok t ∧ descriptionForNumber Data.container disp (some m) n = .ok (some d) ∧
      (t = .unknown → d = []) ∧
      (t ≠ .unknown → ¬ Geographical t n.cc → CountryName Data.container disp n d) ∧
      (t ≠ .unknown → Geographical t n.cc → ∃ l, Looked Data.container n l ∧
        ((∃ p k, LongestPrefix m (decimal l.cc.toNat ++ nsnOf l) 9 p k d ∧ d ≠ []) ∨
         ((NoPrefix m (decimal l.cc.toNat ++ nsnOf l) 9 ∨ ∃ p k, LongestPrefix m (decimal l.cc.toNat ++ nsnOf l) 9 p k []) ∧
            CountryName Data.container disp n d))) := by
  obtain ⟨_, t, _, ht, _⟩ := C26_shipped n
  obtain ⟨cn, hcn, hcn'⟩ := C57_country Data.container disp n (fun r _ => isValidForRegion_ok n r) (noZZ_shipped n.cc)
  simp only [descriptionForNumber, ht, bind, Except.bind, pure, Except.pure]
  by_cases hu : t = .unknown
  · exact ⟨t, [], rfl, by rw [if_pos hu], fun _ => rfl, fun h => absurd hu h, fun h => absurd hu h⟩
  · rw [if_neg hu]
    by_cases hg : Geographical t n.cc
    · rw [(geographical_iff t n.cc).2 hg]
      simp only [Bool.not_true, Bool.false_eq_true, if_false]
      -- the number that is looked up
      obtain ⟨r, x, hr, hmem, hx, hxc⟩ : ∃ r x, regionForNumber Data.container n = .ok r ∧ r ∈ Data.container.regionsOf n.cc ∧
          Data.container.metaFor n.cc r = some x ∧ x.countryCode = n.cc := by
        rcases regionForNumber_cases built_shipped Data.wf_tables Data.wf_allDescs n with hr | ⟨r, x, hr, hmem, hx, hxc, _⟩
        · have := (C30_number _ n [] hr Data.wf_allDescs t).1 ht
          rw [metaFor_nil] at this
          exact absurd this hu
        · exact ⟨r, x, hr, hmem, hx, hxc⟩
      have hty := (C30_number _ n r hr Data.wf_allDescs t).1 ht
      rw [hx] at hty
      simp only at hty
      have hraw : ¬ (n.nn = 0 ∧ n.raw ≠ []) := by
        intro hraw
        obtain ⟨z, hz⟩ := nsnOf_zero hraw.1
        rw [hz] at hty
        have hmm := Container.metaFor_mem hx
        have hng := zeros_not_geographical (List.all_eq_true.1 Data.wf_zeroNumbers x hmm) (List.all_eq_true.1 Data.wf_generalLengths x hmm) hty
        rw [hxc] at hng
        exact hng hg
      have hl : ∃ l, geoLookupNumber Data.container n = .ok l ∧ Looked Data.container n l ∧ 0 ≤ l.cc ∧ ¬ (l.nn = 0 ∧ l.raw ≠ []) := by
        have hn : Looked Data.container n n ∧ 0 ≤ n.cc ∧ ¬ (n.nn = 0 ∧ n.raw ≠ []) := ⟨.inl rfl, Int.le_of_lt (cc_pos hmem), hraw⟩
        unfold geoLookupNumber countryMobileToken
        by_cases h54 : n.cc = 54
        · simp only [h54, if_true]
          split
          · rename_i hp
            obtain ⟨rest, hrest⟩ : ∃ rest, nsnOf n = 57 :: rest := by
              have := hp.2
              cases hc : nsnOf n with
              | nil => rw [hc] at this; cases this
              | cons u v =>
                rw [hc] at this
                simp [hasPrefix] at this
                exact ⟨v, by rw [← this]⟩
            rw [hrest]
            show ∃ l, (do match ← parse Data.container rest (Data.container.mainRegion 54) with
                      | (none, copied) => pure copied
                      | (some _, _) => pure n) = Except.ok l ∧ _
            obtain ⟨e, l, he⟩ := (C06_shipped rest (Data.container.mainRegion 54)).1
            simp only [he, bind, Except.bind, pure, Except.pure]
            cases e with
            | some e => exact ⟨n, rfl, hn⟩
            | none => exact ⟨l, rfl, .inr ⟨h54, rest, hrest, he⟩, parse_cc_nonneg he, fun h => h.2 (parse_raw_nil he)⟩
          · exact ⟨n, rfl, hn⟩
        · simp only [h54, if_false]
          exact ⟨n, rfl, hn⟩
      obtain ⟨l, h1, h2, h3, h4⟩ := hl
      obtain ⟨v, h5, h6⟩ := C45_carrier Data.container m hk l h3 h4
      obtain ⟨k, h7⟩ : ∃ k, valueForNumber (some m) 10 (format Data.container l .e164) = some (v, k) := by
        unfold carrierForValid at h5
        cases hv : valueForNumber (some m) 10 (format Data.container l .e164) with
        | none => rw [hv] at h5; cases h5
        | some vk => rw [hv] at h5; obtain ⟨v', k⟩ := vk; simp at h5; exact ⟨k, by rw [h5]⟩
      simp only [descriptionForValid, h1, bind, Except.bind, h7, hcn, pure, Except.pure]
      by_cases hv : v = []
      · subst hv
        refine ⟨t, cn, rfl, by simp, fun h => absurd h hu, fun _ h => absurd hg h, fun _ _ => ⟨l, h2, .inr ⟨?_, hcn'⟩⟩⟩
        rcases h6 with h6 | h6
        · exact .inr h6
        · exact .inl h6.1
      · refine ⟨t, v, rfl, by rw [if_pos hv], fun h => absurd h hu, fun _ h => absurd hg h, fun _ _ => ⟨l, h2, .inl ?_⟩⟩
        rcases h6 with ⟨p, k, h6⟩ | h6
        · exact ⟨p, k, h6, hv⟩
        · exact absurd h6.2 hv
    · have hb : isGeographicalForType t n.cc = false := by rw [← Bool.not_eq_true, geographical_iff]; exact hg
      refine ⟨t, cn, rfl, ?_, fun h => absurd h hu, fun _ _ => hcn', fun _ h => absurd h hg⟩
      simp only [hb, Bool.not_false, if_true, hcn]

/-- The US number 1 650 253 0000 is geographical and its code has many regions; it is valid for exactly one of them. -/
example : numberType Data.container { countryCode := some 1, nationalNumber := some 6502530000 } = .ok .fixedLineOrMobile ∧
    (Data.container.regionsOf 1).filter (validIn Data.container { countryCode := some 1, nationalNumber := some 6502530000 }) = [str!"US"] := by
  refine ⟨by kernel_rfl, by kernel_rfl⟩

end Verif.Props
