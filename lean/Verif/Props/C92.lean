import Verif.Props.C89
/-!
# C92: comparing and checking texts sees the plus sign, the digits and the extension only
-/
namespace Verif.Props
open Verif.Spec

/-- The text says a number, with the extension `d` if it is not empty. -/
def Says (s : Str) (plus : Bool) (ds d : Str) : Prop := (d = [] ∧ NumberText s plus ds) ∨ NumberExtText s plus ds d

theorem says_core (C : Container) {s s' ds d : Str} {plus : Bool} (h : Says s plus ds d) (h' : Says s' plus ds d) (region : Str) (check : Bool) :
    parseCore C s region check = parseCore C s' region check := by
  have ne : ∀ {s}, NumberExtText s plus ds d → d ≠ [] := by
    intro s h
    obtain ⟨_, _, _, _, _, _, ht, _, _⟩ := numberExtText_parts h
    exact ht.ne
  rcases h with ⟨hd, h⟩ | h <;> rcases h' with ⟨hd', h'⟩ | h'
  · exact parseCore_same C h h' region check
  · exact absurd hd (ne h')
  · exact absurd hd' (ne h)
  · obtain ⟨number, ext, back, -, hn, -⟩ := h.parts
    rw [parseCore_ext C h hn, parseCore_ext C h' hn]

/-- What comes after parsing and does not look at the number when there was an error is the same. -/
theorem bind_of_core {α : Type} (C : Container) {s s' region : Str} {check : Bool}
    (h : parseCore C s region check = parseCore C s' region check) (f : Option ParseErr × PhoneNumber → Go α)
    (hf : ∀ e p q, f (some e, p) = f (some e, q)) :
    (parseHelper C s region false check {} >>= f) = (parseHelper C s' region false check {} >>= f) := by
  have h1 := parseHelper_core C s region false check {}
  have h2 := parseHelper_core C s' region false check {}
  rw [h] at h1
  generalize parseCore C s' region check = c at h1 h2
  cases c with
  | error p =>
    simp only [Refines] at h1 h2
    rw [h1, h2]
  | ok c =>
    cases c with
    | error e =>
      simp only [Refines] at h1 h2
      obtain ⟨n1, h1⟩ := h1
      obtain ⟨n2, h2⟩ := h2
      rw [h1, h2]
      exact hf e n1 n2
    | ok o =>
      simp only [Refines] at h1 h2
      rw [h1, h2]
      rfl

theorem bind_parse {α : Type} (C : Container) {s s' ds d : Str} {plus : Bool} (h : Says s plus ds d) (h' : Says s' plus ds d) (region : Str)
    (f : Option ParseErr × PhoneNumber → Go α) (hf : ∀ e p q, f (some e, p) = f (some e, q)) :
    (parse C s region >>= f) = (parse C s' region >>= f) :=
  bind_of_core C (says_core C h h' region true) f hf

/-- A number compared with a text. -/
theorem C92_one (C : Container) (a : PhoneNumber) {s s' ds d : Str} {plus : Bool} (h : Says s plus ds d) (h' : Says s' plus ds d) :
    numberMatchOne C a s = numberMatchOne C a s' := by
  unfold numberMatchOne
  rw [bind_parse C h h']
  · congr 1
    funext r
    obtain ⟨e, b⟩ := r
    cases e with
    | none => rfl
    | some e =>
      cases e <;> try rfl
      dsimp only
      split
      · exact bind_parse C h h' _ _ (fun e p q => rfl)
      · exact bind_of_core C (says_core C h h' [] false) _ (fun e p q => rfl)
  · intro e p q
    cases e <;> rfl

/-- Two texts compared: only what they say counts. -/
theorem C92_texts (C : Container) {s s' ds d t t' es d' : Str} {plus plus' : Bool} (h : Says s plus ds d) (h' : Says s' plus ds d)
    (k : Says t plus' es d') (k' : Says t' plus' es d') : numberMatchStrings C s t = numberMatchStrings C s' t' := by
  unfold numberMatchStrings
  rw [bind_parse C h h']
  · congr 1
    funext r
    obtain ⟨e, a⟩ := r
    cases e with
    | none => exact C92_one C a k k'
    | some e =>
      cases e <;> try rfl
      dsimp only
      rw [bind_parse C k k']
      · congr 1
        funext r
        obtain ⟨e, b⟩ := r
        cases e with
        | none => exact C92_one C b h h'
        | some e =>
          cases e <;> try rfl
          dsimp only
          rw [bind_of_core C (says_core C h h' [] false)]
          · congr 1
            funext r
            obtain ⟨e, a⟩ := r
            cases e with
            | some e => rfl
            | none => exact bind_of_core C (says_core C k k' [] false) _ (fun e p q => rfl)
          · intro e p q; rfl
      · intro e p q
        cases e <;> rfl
  · intro e p q
    cases e <;> rfl

/-- Whether a text is a possible number. -/
theorem C92_possible (C : Container) (region : Str) {s s' ds d : Str} {plus : Bool} (h : Says s plus ds d) (h' : Says s' plus ds d) :
    isPossibleFromRegion C s region = isPossibleFromRegion C s' region := by
  unfold isPossibleFromRegion
  exact bind_parse C h h' _ _ (fun e p q => rfl)

theorem ext_of_parse (C : Container) {s ds d : Str} {plus : Bool} (h : NumberExtText s plus ds d) {region : Str} {check : Bool} {n : PhoneNumber}
    (hn : parseHelper C s region false check {} = .ok (none, n)) : n.ext = d := by
  obtain ⟨_, _, _, _, _, _, ht, _, _⟩ := numberExtText_parts h
  have hd := ht.ne
  obtain ⟨number, ext, back, -, hs, -⟩ := h.parts
  have h1 := parseHelper_core C s region false check {}
  rw [parseCore_ext C h hs region check, hn] at h1
  generalize parseCore C number region check = c at h1
  cases c with
  | error p => simp only [Refines, withExt] at h1; cases h1
  | ok c =>
    cases c with
    | error e =>
      simp only [Refines, withExt] at h1
      obtain ⟨_, h1⟩ := h1
      cases h1
    | ok o =>
      simp only [Refines, withExt] at h1
      cases h1
      simp [ParseOut.apply, hd, PhoneNumber.ext]

theorem numberMatch_ext {a b : PhoneNumber} (ha : a.ext ≠ []) (hb : b.ext ≠ []) (h : a.ext ≠ b.ext) : numberMatch a b = .noMatch := by
  have core : ∀ n : PhoneNumber, n.ext ≠ [] → (coreFields n).ext = n.ext := by
    intro n hn
    unfold coreFields
    show (if n.ext ≠ [] then some n.ext else none).getD [] = n.ext
    rw [if_pos hn]
    rfl
  unfold numberMatch
  dsimp only
  rw [core a ha, core b hb]
  exact if_pos ⟨ha, hb, h⟩

/-- A text with an extension never matches a number with another extension. -/
theorem C92_one_ext (C : Container) (a : PhoneNumber) {t es d : Str} {plus : Bool} (h : NumberExtText t plus es d) (ha : a.ext ≠ [])
    (hd : a.ext ≠ d) {m : MatchType} (hm : numberMatchOne C a t = .ok m) : m = .noMatch ∨ m = .notANumber := by
  obtain ⟨_, _, _, _, _, _, ht, _, _⟩ := numberExtText_parts h
  have key : ∀ {region check b}, parseHelper C t region false check {} = .ok (none, b) → numberMatch a b = .noMatch := by
    intro region check b hb
    have := ext_of_parse C h hb
    exact numberMatch_ext ha (by rw [this]; exact ht.ne) (by rw [this]; exact hd)
  unfold numberMatchOne at hm
  obtain ⟨⟨e, b⟩, h1, hm⟩ := Builder.bind_ok.1 hm
  cases e with
  | none => cases hm; exact .inl (key h1)
  | some e =>
    have other : ∀ (x : Go MatchType), x = .ok .notANumber → x = .ok m → m = .noMatch ∨ m = .notANumber := by
      intro x hx hx'; rw [hx] at hx'; cases hx'; exact .inr rfl
    cases e
    case invalidCountryCode =>
      dsimp only at hm
      split at hm
      · obtain ⟨⟨e, b⟩, h1, hm⟩ := Builder.bind_ok.1 hm
        cases e with
        | some e => cases hm; exact .inr rfl
        | none =>
          have := key h1
          dsimp only at hm
          rw [this] at hm
          cases hm
          exact .inl rfl
      · obtain ⟨⟨e, b⟩, h1, hm⟩ := Builder.bind_ok.1 hm
        cases e with
        | some e => cases hm; exact .inr rfl
        | none => cases hm; exact .inl (key h1)
    all_goals exact other _ rfl hm

/-- Two texts with different extensions never match, whatever the numbers. -/
theorem C92_ext (C : Container) {s t ds es d d' : Str} {plus plus' : Bool} (h : NumberExtText s plus ds d) (k : NumberExtText t plus' es d')
    (hd : d ≠ d') {m : MatchType} (hm : numberMatchStrings C s t = .ok m) : m = .noMatch ∨ m = .notANumber := by
  have hne : d ≠ [] := by
    obtain ⟨_, _, _, _, _, _, ht, _, _⟩ := numberExtText_parts h
    exact ht.ne
  have kne : d' ≠ [] := by
    obtain ⟨_, _, _, _, _, _, ht, _, _⟩ := numberExtText_parts k
    exact ht.ne
  unfold numberMatchStrings at hm
  obtain ⟨⟨e, a⟩, h1, hm⟩ := Builder.bind_ok.1 hm
  cases e with
  | none =>
    have ha := ext_of_parse C h h1
    exact C92_one_ext C a k (by rw [ha]; exact hne) (by rw [ha]; exact hd) hm
  | some e =>
    have other : ∀ (x : Go MatchType), x = .ok .notANumber → x = .ok m → m = .noMatch ∨ m = .notANumber := by
      intro x hx hx'; rw [hx] at hx'; cases hx'; exact .inr rfl
    cases e
    case invalidCountryCode =>
      dsimp only at hm
      obtain ⟨⟨e, b⟩, h2, hm⟩ := Builder.bind_ok.1 hm
      cases e with
      | none =>
        have hb := ext_of_parse C k h2
        exact C92_one_ext C b h (by rw [hb]; exact kne) (by rw [hb]; exact hd.symm) hm
      | some e =>
        cases e
        case invalidCountryCode =>
          dsimp only at hm
          obtain ⟨⟨e, a⟩, h3, hm⟩ := Builder.bind_ok.1 hm
          cases e with
          | some e => cases hm; exact .inr rfl
          | none =>
            obtain ⟨⟨e, b⟩, h4, hm⟩ := Builder.bind_ok.1 hm
            cases e with
            | some e => cases hm; exact .inr rfl
            | none =>
              cases hm
              have ha := ext_of_parse C h h3
              have hb := ext_of_parse C k h4
              exact .inl (numberMatch_ext (by rw [ha]; exact hne) (by rw [hb]; exact kne) (by rw [ha, hb]; exact hd))
        all_goals exact other _ rfl hm
    all_goals exact other _ rfl hm

/-! ## Cases -/

theorem plainSwiss : NumberText (str!"0446681800") false (str!"0446681800") :=
  plainText_says false (by decide) (by decide) (by decide)

/-- "Tel: (044) 668-18 00" and the plain digits say the same. -/
example : ∃ s s', s ≠ s' ∧ Says s false (str!"0446681800") [] ∧ Says s' false (str!"0446681800") [] :=
  ⟨_, _, by decide, .inl ⟨rfl, swissText⟩, .inl ⟨rfl, plainSwiss⟩⟩

example : Says (str!"Tel: (044) 668-18 00, EXTENSION: 12#.") false (str!"0446681800") (str!"12") := .inr swissExt

example : (numberMatchStrings Data.container (str!"+41 (44) 668-18-00") (str!"Tel: (044) 668-18 00.")).toOption = some .nsnMatch ∧
    (numberMatchStrings Data.container (str!"+41446681800") (str!"0446681800")).toOption = some .nsnMatch := by
  constructor <;> kernel_rfl

end Verif.Props
