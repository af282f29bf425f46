import Verif.Model.Parse
/-!
# Parsing without the message

`parseHelper` threads a mutable message through the computation, as the Go code does.  `parseCore` computes the same decisions without
it; `parseHelper_core` says exactly what `parseHelper` writes into the message.
-/
namespace Verif

/-- Outcome of one attempt to extract a country code: code (0 for none), remaining text, source. -/
def extractOnce (C : Container) (number : Str) (m : Option Metadata) : Go (Except ParseErr (Int × Str × CCSource)) :=
  let idd := match m with | some m => m.internationalPrefix.re | none => nonMatchIdd
  let (full, source) := stripIntlPrefix number idd
  if source ≠ .defaultCountry then
    if blen full ≤ minLengthForNSN then .ok (.error .tooShortAfterIdd)
    else
      let (code, rest) := extractCC C full
      if code ≠ 0 then .ok (.ok (code, rest, source)) else .ok (.error .invalidCountryCode)
  else
    match m with
    | none => .ok (.ok (0, [], source))
    | some md =>
      let ccStr := decInt md.countryCode
      if hasPrefix full ccStr then do
        let potential := (stripNationalPrefix (full.drop ccStr.length) md).2.1
        let rule := (descPat md.general).re.full
        let lengthValid ← testNumberLength full (some md) .unknown
        if (!rule.isMatch full ∧ rule.isMatch potential) ∨ lengthValid = .tooLong then
          return .ok (md.countryCode, potential, .withoutPlusSign)
        else return .ok (0, [], source)
      else .ok (.ok (0, [], source))

/-- Extraction with the retry after a plus sign. -/
def extractCore (C : Container) (number : Str) (m : Option Metadata) : Go (Except ParseErr (Int × Str × CCSource)) := do
  match ← extractOnce C number m with
  | .ok r => return .ok r
  | .error e =>
    match plusCharsPattern.find number with
    | some x =>
      if e = .invalidCountryCode then
        if number.drop x.stop = [] then return .error .invalidCountryCode
        match ← extractOnce C (number.drop x.stop) m with
        | .ok (0, _, _) => return .error .invalidCountryCode
        | r => return r
      else return .error e
    | none => return .error e

/-- The last part: national significant number and carrier code. -/
def finishCore (national : Str) (m : Option Metadata) : Go (Except ParseErr (Str × Str)) :=
  if blen national < minLengthForNSN then .ok (.error .tooShortNsn)
  else do
    let (national, carrier) ← stripStage national m
    if blen national < minLengthForNSN then return .error .tooShortNsn
    if blen national > maxLengthForNSN then return .error .tooLong
    return .ok (national, carrier)

/-- Everything a successful parse determines. -/
structure ParseOut where
  cc : Int
  ext : Str
  nsn : Str
  source : Option CCSource
  carrier : Str
  deriving DecidableEq, Repr

/-- The metadata used for the national part once a country code was found. -/
def finishMeta (C : Container) (code : Int) (region : Str) : Option Metadata :=
  if C.mainRegion code ≠ region then C.metaFor code (C.mainRegion code) else C.metaForRegion region

/-- From the viable national text on. -/
def parseViable (C : Container) (national region : Str) : Go (Except ParseErr ParseOut) := do
  let ext := (stripExtension national).1
  let nat1 := (stripExtension national).2
  let m := C.metaForRegion region
  match ← extractCore C nat1 m with
  | .error e => return .error e
  | .ok (code, rest, src) =>
    if code ≠ 0 then
      match ← finishCore rest (finishMeta C code region) with
      | .error e => return .error e
      | .ok (nsn, carrier) => return .ok ⟨code, ext, nsn, some src, carrier⟩
    else
      match ← finishCore (rest ++ normalize nat1) m with
      | .error e => return .error e
      | .ok (nsn, carrier) =>
        return .ok ⟨if region ≠ [] then (match m with | some m => m.countryCode | none => 0) else 0, ext, nsn,
          if region ≠ [] then some src else none, carrier⟩

/-- The decisions of `parseHelper`. -/
def parseCore (C : Container) (s region : Str) (check : Bool) : Go (Except ParseErr ParseOut) :=
  if s = [] then .ok (.error .notANumber)
  else if blen s > maxInputStringLength then .ok (.error .tooLong)
  else do
    match ← buildNationalNumber s with
    | .error e => return .error e
    | .ok national =>
      if !isViable national then return .error .notANumber
      if check && !checkRegion C national region then return .error .invalidCountryCode
      parseViable C national region

/-- What a successful parse writes into the message. -/
def ParseOut.apply (o : ParseOut) (s : Str) (keepRaw : Bool) (pn : PhoneNumber) : PhoneNumber :=
  { setItalianLeadingZeros o.nsn pn with
    countryCode := some o.cc
    nationalNumber := some (parseUint o.nsn)
    extension := if o.ext ≠ [] then some o.ext else pn.extension
    rawInput := if keepRaw then some s else pn.rawInput
    countryCodeSource := if keepRaw then o.source else pn.countryCodeSource
    preferredCarrier := if keepRaw ∧ o.carrier ≠ [] then some o.carrier else pn.preferredCarrier }

/-- `parseHelper` returned what the core result says. -/
def Refines (r : Go (Option ParseErr × PhoneNumber)) (c : Go (Except ParseErr ParseOut)) (f : ParseOut → PhoneNumber) : Prop :=
  match c with
  | .error p => r = .error p
  | .ok (.error e) => ∃ n, r = .ok (some e, n)
  | .ok (.ok o) => r = .ok (none, f o)

theorem isViable_nil : isViable [] = false := by simp [isViable, minLengthForNSN]

theorem stripExtension_cases (s : Str) (h : isViable s = true) : isViable (stripExtension s).2 = true := by
  unfold stripExtension
  split
  · exact h
  · split
    · rename_i hv
      split
      · exact hv
      · exact h
    · exact h

theorem stripExtension_ne_nil {s : Str} (h : isViable s = true) : (stripExtension s).2 ≠ [] := by
  intro h0
  have := stripExtension_cases s h
  rw [h0, isViable_nil] at this; cases this

/-- What `maybeExtractCC` does to the message, in terms of `extractOnce`. -/
theorem maybeExtractCC_core (C : Container) (number : Str) (m : Option Metadata) (keepRaw : Bool) (pn : PhoneNumber)
    (hne : number ≠ []) :
    match extractOnce C number m with
    | .error p => maybeExtractCC C number m keepRaw pn = .error p
    | .ok (.error e) => ∃ nat n, maybeExtractCC C number m keepRaw pn = .ok ⟨.error e, nat, n⟩ ∧
        ∃ src, n = { pn with countryCodeSource := if keepRaw then some src else pn.countryCodeSource }
    | .ok (.ok (code, rest, src)) => maybeExtractCC C number m keepRaw pn = .ok ⟨.ok code, rest,
        { pn with countryCode := some code, countryCodeSource := if keepRaw then some src else pn.countryCodeSource }⟩ := by
  unfold maybeExtractCC extractOnce
  rw [if_neg hne]
  cases m with
  | none =>
    simp only
    generalize stripIntlPrefix number nonMatchIdd = si
    obtain ⟨full, source⟩ := si
    generalize extractCC C full = ex
    obtain ⟨code, rest⟩ := ex
    simp only
    by_cases hs : source ≠ .defaultCountry
    · simp only [hs, if_true, not_false_eq_true, ne_eq]
      by_cases hl : blen full ≤ minLengthForNSN
      · simp only [hl, if_true]
        refine ⟨_, _, rfl, source, ?_⟩; cases keepRaw <;> rfl
      · by_cases hc : code = 0
        · simp only [hl, hc, if_false, not_true_eq_false]
          refine ⟨_, _, rfl, source, ?_⟩; cases keepRaw <;> rfl
        · simp only [hl, hc, if_true, if_false, not_false_eq_true]
          cases keepRaw <;> rfl
    · simp only [hs, if_false]
      cases keepRaw <;> rfl
  | some md =>
    simp only
    generalize stripIntlPrefix number md.internationalPrefix.re = si
    obtain ⟨full, source⟩ := si
    generalize extractCC C full = ex
    obtain ⟨code, rest⟩ := ex
    simp only
    by_cases hs : source ≠ .defaultCountry
    · simp only [hs, if_true, not_false_eq_true, ne_eq]
      by_cases hl : blen full ≤ minLengthForNSN
      · simp only [hl, if_true]
        refine ⟨_, _, rfl, source, ?_⟩; cases keepRaw <;> rfl
      · by_cases hc : code = 0
        · simp only [hl, hc, if_false, not_true_eq_false]
          refine ⟨_, _, rfl, source, ?_⟩; cases keepRaw <;> rfl
        · simp only [hl, hc, if_true, if_false, not_false_eq_true]
          cases keepRaw <;> rfl
    · simp only [hs, if_false]
      by_cases hp : hasPrefix full (decInt md.countryCode) = true
      · simp only [hp, if_true]
        cases testNumberLength full (some md) .unknown with
        | error p => rfl
        | ok v =>
          simp only [bind, Except.bind]
          by_cases hc : ((!(descPat md.general).re.full.isMatch full) = true ∧
              (descPat md.general).re.full.isMatch (stripNationalPrefix (full.drop (decInt md.countryCode).length) md).2.1 = true) ∨
              v = .tooLong
          · simp only [hc, if_true]; cases keepRaw <;> rfl
          · simp only [hc, if_false]; cases keepRaw <;> rfl
      · simp only [hp, Bool.false_eq_true, if_false]
        cases keepRaw <;> rfl

theorem maybeExtractCC_nil (C : Container) (m : Option Metadata) (keepRaw : Bool) (pn : PhoneNumber) :
    maybeExtractCC C [] m keepRaw pn = .ok ⟨.ok 0, [], pn⟩ := by simp [maybeExtractCC]

theorem parseExtract_core (C : Container) (number : Str) (m : Option Metadata) (keepRaw : Bool) (pn : PhoneNumber)
    (hne : number ≠ []) :
    match extractCore C number m with
    | .error p => parseExtract C number m keepRaw pn = .error p
    | .ok (.error e) => ∃ nat n, parseExtract C number m keepRaw pn = .ok ⟨.error e, nat, n⟩
    | .ok (.ok (code, rest, src)) => parseExtract C number m keepRaw pn = .ok ⟨.ok code, rest,
        { pn with countryCode := some code, countryCodeSource := if keepRaw then some src else pn.countryCodeSource }⟩ := by
  have h1 := maybeExtractCC_core C number m keepRaw pn hne
  unfold extractCore parseExtract
  cases hx : extractOnce C number m with
  | error p => rw [hx] at h1; simp only [h1, bind, Except.bind]
  | ok r =>
    rw [hx] at h1
    cases r with
    | ok r =>
      obtain ⟨code, rest, src⟩ := r
      simp only [bind, Except.bind] at h1 ⊢
      rw [h1]; rfl
    | error e =>
      obtain ⟨nat, n, h1, src, hn⟩ := h1
      simp only [bind, Except.bind, h1]
      cases hp : plusCharsPattern.find number with
      | none => exact ⟨_, _, rfl⟩
      | some x =>
        simp only
        by_cases he : e = .invalidCountryCode
        · simp only [he, if_true]
          by_cases h0 : number.drop x.stop = []
          · simp only [h0, maybeExtractCC_nil, if_true]
            exact ⟨_, _, rfl⟩
          · simp only [h0, if_false]
            have h2 := maybeExtractCC_core C (number.drop x.stop) m keepRaw n h0
            cases hy : extractOnce C (number.drop x.stop) m with
            | error p => rw [hy] at h2; simp only [h2]
            | ok r2 =>
              rw [hy] at h2
              cases r2 with
              | error e2 =>
                obtain ⟨nat2, n2, h2, _⟩ := h2
                simp only [h2]
                exact ⟨_, _, rfl⟩
              | ok r2 =>
                obtain ⟨code, rest, src2⟩ := r2
                simp only at h2
                simp only [h2]
                by_cases hc : code = 0
                · subst hc; exact ⟨_, _, rfl⟩
                · have e2 : (match (generalizing := false) (Except.ok (code, rest, src2) : Except ParseErr (Int × Str × CCSource)) with
                      | .ok (0, _, _) => (pure (.error .invalidCountryCode) : Go (Except ParseErr (Int × Str × CCSource)))
                      | r => pure r) = pure (.ok (code, rest, src2)) := by
                    split
                    · rename_i h; cases h; exact absurd rfl hc
                    · rfl
                  rw [e2]
                  simp only [pure, Except.pure]
                  split
                  · rename_i h; cases h; exact absurd rfl hc
                  · subst hn; cases keepRaw <;> rfl
        · simp only [he, if_false]; exact ⟨_, _, rfl⟩

theorem parseFinish_core (national : Str) (m : Option Metadata) (keepRaw : Bool) (pn : PhoneNumber) :
    match finishCore national m with
    | .error p => parseFinish national m keepRaw pn = .error p
    | .ok (.error e) => ∃ n, parseFinish national m keepRaw pn = .ok (some e, n)
    | .ok (.ok (nsn, carrier)) => parseFinish national m keepRaw pn = .ok (none,
        { setItalianLeadingZeros nsn (if keepRaw ∧ carrier ≠ [] then { pn with preferredCarrier := some carrier } else pn) with
          nationalNumber := some (parseUint nsn) }) := by
  unfold parseFinish finishCore
  by_cases h : blen national < minLengthForNSN
  · simp only [h, if_true]; exact ⟨_, rfl⟩
  · simp only [h, if_false]
    cases stripStage national m with
    | error p => rfl
    | ok r =>
      obtain ⟨nsn, carrier⟩ := r
      simp only [bind, Except.bind]
      by_cases h1 : blen nsn < minLengthForNSN
      · simp only [h1, if_true]; exact ⟨_, rfl⟩
      by_cases h2 : blen nsn > maxLengthForNSN
      · simp only [h1, h2, if_true, if_false]; exact ⟨_, rfl⟩
      simp only [h1, h2, if_false]; rfl

/-- `parseHelper` in terms of `parseCore`: same panics, same errors, and on success exactly the writes of `ParseOut.apply`. -/
theorem parseHelper_core (C : Container) (s region : Str) (keepRaw check : Bool) (pn : PhoneNumber) :
    Refines (parseHelper C s region keepRaw check pn) (parseCore C s region check) (fun o => o.apply s keepRaw pn) := by
  unfold parseHelper parseCore
  by_cases h0 : s = []
  · simp only [h0, if_true, Refines]; exact ⟨_, rfl⟩
  by_cases h1 : blen s > maxInputStringLength
  · simp only [h0, h1, if_true, if_false, Refines]; exact ⟨_, rfl⟩
  simp only [h0, h1, if_false]
  cases buildNationalNumber s with
  | error p => rfl
  | ok b =>
    cases b with
    | error e => exact ⟨_, rfl⟩
    | ok national =>
      simp only [bind, Except.bind]
      by_cases hv : isViable national = true
      · simp only [hv, Bool.not_true, Bool.false_eq_true, if_false]
        by_cases hr : (check && !checkRegion C national region) = true
        · simp only [hr, if_true]; exact ⟨_, rfl⟩
        · simp only [hr, Bool.false_eq_true, if_false]
          unfold parseViable
          simp only [bind, Except.bind]
          generalize hpn : (if (stripExtension national).1 ≠ [] then
              { (if keepRaw = true then { pn with rawInput := some s } else pn) with extension := some (stripExtension national).1 }
             else if keepRaw = true then { pn with rawInput := some s } else pn) = pn1
          have hx := parseExtract_core C (stripExtension national).2 (C.metaForRegion region) keepRaw pn1 (stripExtension_ne_nil hv)
          generalize (stripExtension national).1 = ext at *
          generalize (stripExtension national).2 = nat1 at *
          cases he : extractCore C nat1 (C.metaForRegion region) with
          | error p => rw [he] at hx; simp only at hx; rw [hx]; rfl
          | ok r =>
            rw [he] at hx
            cases r with
            | error e => obtain ⟨nat, n, hx⟩ := hx; rw [hx]; exact ⟨_, rfl⟩
            | ok r =>
              obtain ⟨code, rest, src⟩ := r
              simp only at hx
              rw [hx]
              simp only
              by_cases hc : code ≠ 0
              · simp only [hc, if_true, ne_eq, not_false_eq_true]
                generalize hpn2 : ({ pn1 with countryCode := some code, countryCodeSource := if keepRaw = true then some src else pn1.countryCodeSource } : PhoneNumber) = pn2
                have hf := parseFinish_core rest (finishMeta C code region) keepRaw pn2
                simp only [finishMeta, ne_eq] at hf
                simp only [finishMeta, ne_eq]
                generalize finishCore rest _ = fc at hf ⊢
                cases fc with
                | error p => exact hf
                | ok fc =>
                  cases fc with
                  | error e => exact hf
                  | ok o =>
                    obtain ⟨nsn, carrier⟩ := o
                    simp only at hf
                    rw [hf]
                    subst hpn2; subst hpn
                    simp only [Refines, ParseOut.apply, setItalianLeadingZeros, pure, Except.pure]
                    cases keepRaw <;> by_cases he : ext = [] <;> by_cases hca : carrier = [] <;>
                      simp only [he, hca, ne_eq, not_true_eq_false, not_false_eq_true, and_true, and_false, if_true, if_false, Bool.false_eq_true] <;>
                      (repeat' split) <;> rfl
              · simp only [hc, if_false]
                generalize hpn2 : (if region ≠ [] then ({ pn1 with countryCode := some (match C.metaForRegion region with | some m => m.countryCode | none => 0), countryCodeSource := if keepRaw = true then some src else pn1.countryCodeSource } : PhoneNumber)
                  else if keepRaw = true then ({ pn1 with countryCode := some code, countryCodeSource := none } : PhoneNumber) else { pn1 with countryCode := some code, countryCodeSource := if keepRaw = true then some src else pn1.countryCodeSource }) = pn2
                have hf := parseFinish_core (rest ++ normalize nat1) (C.metaForRegion region) keepRaw pn2
                generalize finishCore (rest ++ normalize nat1) _ = fc at hf ⊢
                cases fc with
                | error p => exact hf
                | ok fc =>
                  cases fc with
                  | error e => exact hf
                  | ok o =>
                    obtain ⟨nsn, carrier⟩ := o
                    simp only at hf
                    rw [hf]
                    subst hpn2; subst hpn
                    have hc' : code = 0 := by omega
                    subst hc'
                    simp only [Refines, ParseOut.apply, setItalianLeadingZeros, pure, Except.pure]
                    cases keepRaw <;> by_cases he : ext = [] <;> by_cases hca : carrier = [] <;> by_cases hr : region = [] <;>
                      simp only [he, hca, hr, ne_eq, not_true_eq_false, not_false_eq_true, and_true, and_false, if_true, if_false, Bool.false_eq_true] <;>
                      (repeat' split) <;> rfl
      · simp only [hv, Bool.not_false, if_true]; exact ⟨_, rfl⟩

end Verif
