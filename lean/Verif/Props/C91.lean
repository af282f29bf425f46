import Verif.Model.Shared
import Verif.Props.C89
/-!
# C91: what a caller does with a returned collection
-/
namespace Verif.Props

/-- The property as a caller would want it: whatever is written into returned collections, the answers stay the same. -/
def Undisturbed (C : Container) : Prop :=
  ∀ ws : List TableWrite, (∀ s r, parse (runWrites C ws) s r = parse C s r) ∧ (∀ n f, format (runWrites C ws) n f = format C n f) ∧
    (∀ n, isValidNumber (runWrites C ws) n = isValidNumber C n) ∧ ∀ cc, (runWrites C ws).mainRegion cc = C.mainRegion cc

/-- It is false: after `delete(GetSupportedRegions(), "CH")` a Swiss number is not read any more. -/
theorem C91_deleted : (parse Data.container (str!"044 668 18 00") (str!"CH")).toOption.map (·.1) = some none ∧
    (parse (runWrites Data.container [.region (str!"CH") false]) (str!"044 668 18 00") (str!"CH")).toOption.map (·.1) =
      some (some .invalidCountryCode) := by
  constructor <;> kernel_rfl

/-- So too after `GetRegionCodesForCountryCode(41)[0] = "US"`: the region of the code 41 is the United States, and a valid Swiss number is
not valid any more. -/
theorem C91_written : Data.container.mainRegion 41 = (str!"CH") ∧
    (runWrites Data.container [.regionOf 41 0 (str!"US")]).mainRegion 41 = (str!"US") ∧
    (isValidNumber Data.container { countryCode := some 41, nationalNumber := some 446681800 }).toOption = some true ∧
    (isValidNumber (runWrites Data.container [.regionOf 41 0 (str!"US")])
      { countryCode := some 41, nationalNumber := some 446681800 }).toOption = some false := by
  refine ⟨?_, ?_, ?_, ?_⟩ <;> kernel_rfl

theorem C91_false : ¬ Undisturbed Data.container := by
  intro h
  have h1 := (h [.region (str!"CH") false]).1 (str!"044 668 18 00") (str!"CH")
  have h2 := C91_deleted
  rw [h1, h2.1] at h2
  exact absurd h2.2 (by decide)

/-- Writes into the two sets of calling codes. -/
def OnlyCodes : TableWrite → Prop
  | .code _ _ => True
  | .globalCode _ _ => True
  | _ => False

theorem runWrites_codes (C : Container) {ws : List TableWrite} (h : ∀ w ∈ ws, OnlyCodes w) :
    ∃ a b, runWrites C ws = { C with supportedCodes := a, nonGeoCodes := b } := by
  unfold runWrites
  induction ws generalizing C with
  | nil => exact ⟨_, _, rfl⟩
  | cons w ws ih =>
    obtain ⟨a, b, hab⟩ := ih (w.run C) (fun w' hw => h w' (List.mem_cons_of_mem _ hw))
    rw [List.foldl_cons, hab]
    have hw := h w List.mem_cons_self
    cases w with
    | code cc x => exact ⟨_, _, rfl⟩
    | globalCode cc x => exact ⟨_, _, rfl⟩
    | region r x => cases hw
    | regionOf cc i r => cases hw

section
variable (C : Container) (a b : List Int)

/-- The container with other sets of calling codes. -/
def withCodes : Container := { C with supportedCodes := a, nonGeoCodes := b }

theorem same_regionFromList (nsn : Str) (rs : List Str) : regionFromList (withCodes C a b) nsn rs = regionFromList C nsn rs := by
  induction rs with
  | nil => rfl
  | cons r rs ih =>
    unfold regionFromList
    rw [ih]
    rfl

theorem same_regionForNumber (n : PhoneNumber) : regionForNumber (withCodes C a b) n = regionForNumber C n := by
  unfold regionForNumber
  simp only [same_regionFromList]
  rfl

theorem same_numberType (n : PhoneNumber) : numberType (withCodes C a b) n = numberType C n := by
  unfold numberType
  rw [same_regionForNumber]
  rfl

theorem same_isValidNumber (n : PhoneNumber) : isValidNumber (withCodes C a b) n = isValidNumber C n := by
  unfold isValidNumber
  rw [same_regionForNumber]
  rfl

theorem same_canDial (n : PhoneNumber) : canBeInternationallyDialled (withCodes C a b) n = canBeInternationallyDialled C n := by
  unfold canBeInternationallyDialled
  rw [same_regionForNumber]
  rfl

theorem same_possible (n : PhoneNumber) : possibleWithReason (withCodes C a b) n = possibleWithReason C n := rfl

theorem same_truncateLoop (n : PhoneNumber) (f nn : Nat) : truncateLoop (withCodes C a b) n f nn = truncateLoop C n f nn := by
  induction f generalizing nn with
  | zero => rfl
  | succ f ih =>
    unfold truncateLoop
    simp only [same_isValidNumber, same_possible, ih]

theorem same_truncate (n : PhoneNumber) : truncateTooLong (withCodes C a b) n = truncateTooLong C n := by
  unfold truncateTooLong
  simp only [same_isValidNumber, same_possible, same_truncateLoop]

theorem same_format (n : PhoneNumber) (f : Fmt) : format (withCodes C a b) n f = format C n f := rfl

theorem same_mobile (n : PhoneNumber) (r : Str) (w : Bool) : formatForMobile (withCodes C a b) n r w = formatForMobile C n r w := by
  unfold formatForMobile
  simp only [same_numberType, same_canDial, same_format]
  rfl

theorem same_parse (s r : Str) : parse (withCodes C a b) s r = parse C s r := rfl

theorem same_rawContains (raw np region : Str) :
    rawContainsNationalPrefix (withCodes C a b) raw np region = rawContainsNationalPrefix C raw np region := by
  unfold rawContainsNationalPrefix
  simp only [same_parse, same_isValidNumber]

theorem same_original (n : PhoneNumber) (r : Str) : formatInOriginal (withCodes C a b) n r = formatInOriginal C n r := by
  unfold formatInOriginal originalBody originalNational
  simp only [same_rawContains, same_format]
  rfl

end

/-- What holds: writes into the two sets of calling codes change no other answer.  (The full statement is `Undisturbed`; missing are the
writes into the set of regions and into the regions of a code, where it is false.) -/
theorem C91_codes_partial (C : Container) (ws : List TableWrite) (h : ∀ w ∈ ws, OnlyCodes w) :
    let D := runWrites C ws
    (∀ s r, parse D s r = parse C s r) ∧ (∀ s r, parseKeepRaw D s r = parseKeepRaw C s r) ∧
    (∀ s t, numberMatchStrings D s t = numberMatchStrings C s t) ∧ (∀ s r, isPossibleFromRegion D s r = isPossibleFromRegion C s r) ∧
    (∀ n f, format D n f = format C n f) ∧ (∀ n f u, formatByPattern D n f u = formatByPattern C n f u) ∧
    (∀ n r, formatOutOfCountry D n r = formatOutOfCountry C n r) ∧ (∀ n r b, formatForMobile D n r b = formatForMobile C n r b) ∧
    (∀ n r, formatInOriginal D n r = formatInOriginal C n r) ∧ (∀ n, isValidNumber D n = isValidNumber C n) ∧
    (∀ n r, isValidForRegion D n r = isValidForRegion C n r) ∧ (∀ n, numberType D n = numberType C n) ∧
    (∀ n, regionForNumber D n = regionForNumber C n) ∧ (∀ n, possibleWithReason D n = possibleWithReason C n) ∧
    (∀ n, truncateTooLong D n = truncateTooLong C n) ∧ (∀ cc, D.mainRegion cc = C.mainRegion cc) ∧
    (∀ r, D.ccForRegion r = C.ccForRegion r) := by
  obtain ⟨a, b, hD⟩ := runWrites_codes C h
  rw [hD]
  change let D := withCodes C a b; _
  exact ⟨fun _ _ => rfl, fun _ _ => rfl, fun _ _ => rfl, fun _ _ => rfl, fun _ _ => rfl, fun _ _ _ => rfl, fun _ _ => rfl,
    same_mobile C a b, same_original C a b, same_isValidNumber C a b, fun _ _ => rfl, same_numberType C a b, same_regionForNumber C a b,
    fun _ => rfl, same_truncate C a b, fun _ => rfl, fun _ => rfl⟩

example : ∀ w ∈ [TableWrite.code 41 false, .globalCode 800 false], OnlyCodes w := by simp [OnlyCodes]

/-- Also: no write changes E164 output, which codes are known, or what `IsNANPACountry` says. -/
theorem C91_e164 (C : Container) (ws : List TableWrite) :
    let D := runWrites C ws
    (∀ n, format D n .e164 = format C n .e164) ∧ (∀ cc, D.hasCC cc = C.hasCC cc) ∧ ∀ r, D.isNanpa r = C.isNanpa r := by
  refine ⟨fun _ => rfl, ?_, ?_⟩
  · intro cc
    unfold runWrites
    induction ws generalizing C with
    | nil => rfl
    | cons w ws ih =>
      rw [List.foldl_cons, ih]
      cases w with
      | regionOf c i r =>
        unfold Container.hasCC TableWrite.run
        dsimp only
        induction C.ccToRegion with
        | nil => rfl
        | cons e es ih2 =>
          obtain ⟨k, v⟩ := e
          rw [List.map_cons]
          by_cases h : k = c
          · rw [if_pos h]
            simp only [mapGet]
            by_cases h' : k = cc
            · rw [if_pos h', if_pos h']; rfl
            · rw [if_neg h', if_neg h']; exact ih2
          · rw [if_neg h]
            simp only [mapGet]
            by_cases h' : k = cc
            · rw [if_pos h', if_pos h']
            · rw [if_neg h', if_neg h']; exact ih2
      | region r x => rfl
      | code c x => rfl
      | globalCode c x => rfl
  · intro r
    have : (runWrites C ws).nanpaRegions = C.nanpaRegions := by
      unfold runWrites
      induction ws generalizing C with
      | nil => rfl
      | cons w ws ih => rw [List.foldl_cons, ih]; cases w <;> rfl
    unfold Container.isNanpa
    rw [this]

/-- What a write says about the region `r`. -/
def saysRegion (r : Str) : TableWrite → Option Bool
  | .region r' b => if r' = r then some b else none
  | _ => none

/-- What a write says about the calling code `cc`. -/
def saysCode (cc : Int) : TableWrite → Option Bool
  | .code c b => if c = cc then some b else none
  | _ => none

/-- What a write says about the global calling code `cc`. -/
def saysGlobal (cc : Int) : TableWrite → Option Bool
  | .globalCode c b => if c = cc then some b else none
  | _ => none

/-- What the last of the writes that say something says, or what held before. -/
def lastSays (says : TableWrite → Option Bool) : Bool → List TableWrite → Bool
  | b, [] => b
  | b, w :: ws => lastSays says ((says w).getD b) ws

theorem mem_setWrite {α : Type} [DecidableEq α] (l : List α) (a x : α) (b : Bool) :
    decide (x ∈ setWrite l a b) = (if a = x then some b else none).getD (decide (x ∈ l)) := by
  unfold setWrite
  by_cases h : a = x
  · subst h
    cases b <;> simp
  · have h' : ¬ x = a := fun e => h e.symm
    cases b <;> simp [h, h']

/-- Writes into one collection are seen in that collection, the last one for each key, and in no other collection; the regions of a code
change only by writes into the regions of that code. -/
theorem C91_sets (C : Container) (ws : List TableWrite) :
    let D := runWrites C ws
    (∀ r, decide (r ∈ D.supportedRegions) = lastSays (saysRegion r) (decide (r ∈ C.supportedRegions)) ws) ∧
    (∀ cc, decide (cc ∈ D.supportedCodes) = lastSays (saysCode cc) (decide (cc ∈ C.supportedCodes)) ws) ∧
    (∀ cc, decide (cc ∈ D.nonGeoCodes) = lastSays (saysGlobal cc) (decide (cc ∈ C.nonGeoCodes)) ws) ∧
    ∀ cc, (∀ i r, TableWrite.regionOf cc i r ∉ ws) → D.regionsOf cc = C.regionsOf cc := by
  unfold runWrites
  induction ws generalizing C with
  | nil => exact ⟨fun _ => rfl, fun _ => rfl, fun _ => rfl, fun _ _ => rfl⟩
  | cons w ws ih =>
    obtain ⟨h1, h2, h3, h4⟩ := ih (w.run C)
    rw [List.foldl_cons]
    refine ⟨fun r => ?_, fun cc => ?_, fun cc => ?_, fun cc hn => ?_⟩
    · rw [h1, lastSays]
      congr 1
      cases w with
      | region r' b =>
        have h := mem_setWrite C.supportedRegions r' r b
        refine Eq.trans ?_ (h.trans ?_)
        · exact decide_eq_decide.2 Iff.rfl
        · show Option.getD _ _ = Option.getD (if r' = r then some b else none) _
          congr 1
          exact decide_eq_decide.2 Iff.rfl
      | _ => rfl
    · rw [h2, lastSays]
      congr 1
      cases w with
      | code c b => exact mem_setWrite C.supportedCodes c cc b
      | _ => rfl
    · rw [h3, lastSays]
      congr 1
      cases w with
      | globalCode c b => exact mem_setWrite C.nonGeoCodes c cc b
      | _ => rfl
    · rw [h4 cc fun i r h => hn i r (by simp [h])]
      cases w with
      | regionOf c i r =>
        have hc : c ≠ cc := fun e => hn i r (by simp [e])
        unfold Container.regionsOf TableWrite.run
        dsimp only
        congr 1
        induction C.ccToRegion with
        | nil => rfl
        | cons e es ih2 =>
          obtain ⟨k, v⟩ := e
          rw [List.map_cons]
          by_cases h : k = c
          · have h' : k ≠ cc := fun e => hc (h ▸ e)
            rw [if_pos h]
            simp only [mapGet]
            rw [if_neg h', if_neg h']; exact ih2
          · rw [if_neg h]
            simp only [mapGet]
            by_cases h' : k = cc
            · rw [if_pos h', if_pos h']
            · rw [if_neg h', if_neg h']; exact ih2
      | _ => rfl

example : lastSays (saysCode 41) true [.code 41 false, .globalCode 41 true, .code 44 true] = false := by decide

end Verif.Props
