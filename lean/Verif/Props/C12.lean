import Verif.Lemmas.Ext
import Verif.Props.C08
import Verif.Spec.Chars
/-!
# C12: extensions recognised by parsing

Full statement: if `Parse` succeeds and the number has an extension, then the extension is a non-empty run of at most 20 Unicode
decimal digits occurring in the input, and it is not part of the national number text that was analysed.

"Occurring in the input" is **false** for tel URIs with a phone context: the context is put in front of the number, and an
extension may consist of the end of the context and the beginning of the number (`C12_false`).  `C12_shape_partial` is the
statement relative to the text that is analysed (context followed by number), and `C12_occurs_partial` the full statement for
inputs without phone context.
-/
namespace Verif.Props
open Spec

/-- `7#;phone-context=+41446681800-6` has extension 67, which does not occur in it. -/
theorem C12_false : ∃ (s region e : Str) (n : PhoneNumber), parse Data.container s region = .ok (none, n) ∧
    n.extension = some e ∧ ¬ e <:+: s := by
  refine ⟨str!"7#;phone-context=+41446681800-6", str!"US", str!"67",
    { countryCode := some 41, nationalNumber := some 446681800, extension := some (str!"67") }, by kernel_rfl, rfl, ?_⟩
  decide +kernel

theorem ext_of_core {C : Container} {s region : Str} {check : Bool} {o : ParseOut} (h : parseCore C s region check = .ok (.ok o)) :
    ∃ t, buildNationalNumber s = .ok (.ok t) ∧ isViable t = true ∧ o.ext = (stripExtension t).1 ∧
      parseViable C t region = .ok (.ok o) := by
  unfold parseCore at h
  split at h
  · cases h
  · split at h
    · cases h
    · cases hb : buildNationalNumber s with
      | error p => rw [hb] at h; cases h
      | ok b =>
        rw [hb] at h
        simp only [bind, Except.bind] at h
        cases b with
        | error e => cases h
        | ok t =>
          simp only at h
          split at h
          · cases h
          · rename_i hv
            split at h
            · cases h
            · refine ⟨t, rfl, by simpa using hv, ?_, h⟩
              unfold parseViable at h
              simp only [bind, Except.bind] at h
              split at h
              · cases h
              · split at h
                · cases h
                · split at h
                  · split at h
                    · cases h
                    · split at h
                      · cases h
                      · cases h; rfl
                  · split at h
                    · cases h
                    · split at h
                      · cases h
                      · cases h; rfl

/-- Unicode decimal digits. -/
def UDigits (e : Str) : Prop := ∀ u ∈ e, ∃ v, UnicodeDigit (rune u) v

/-- The extension of a successful parse is a run of 1 to 20 Unicode decimal digits.  It lies in the analysed text after the part
`number` that is all the rest of the parse looks at; the analysed text is a contiguous part of the input or the beginning of a
phone context followed by a contiguous part of the input. -/
theorem C12_shape_partial (C : Container) (s region e : Str) (n : PhoneNumber) (h : parse C s region = .ok (none, n))
    (he : n.extension = some e) :
    e ≠ [] ∧ e.length ≤ 20 ∧ UDigits e ∧
    ∃ text number mid post, text = number ++ (mid ++ (e ++ post)) ∧
      (text <:+: s ∨ (str!";phone-context=" <:+: s ∧ ∃ ctx body, ctx <:+: s ∧ body <:+: s ∧ text <+: ctx ++ body)) := by
  obtain ⟨o, h1, rfl⟩ := parse_core_of_ok h
  obtain ⟨t, h2, h3, h4, _⟩ := ext_of_core h1
  have hne : o.ext ≠ [] := by
    intro h0; simp [ParseOut.apply, h0] at he
  have heq : o.ext = e := by simpa [ParseOut.apply, hne] using he
  subst heq
  rw [h4] at hne ⊢
  obtain ⟨mid, post, k1, k2, k3⟩ := stripExtension_spec t hne
  refine ⟨hne, k2, ?_, t, _, mid, post, k1, ?_⟩
  · intro u hu
    obtain ⟨p, hp, hlo, hhi⟩ := (inRanges_iff _ _).1 (k3 u hu)
    exact ⟨_, p, hp, hlo, hhi, rfl⟩
  · rcases buildNationalNumber_infix h2 with h5 | ⟨h5, h6⟩
    · exact .inl h5
    · refine .inr ⟨?_, h6⟩
      obtain ⟨i, hi⟩ := Option.isSome_iff_exists.1 h5
      obtain ⟨r, hr⟩ := indexOf_prefix hi
      have : rfcPhoneContext <+: s.drop i := ⟨r, hr.symm⟩
      exact this.isInfix.trans (List.drop_suffix _ _).isInfix

/-- Without a phone context the extension occurs in the input. -/
theorem C12_occurs_partial (C : Container) (s region e : Str) (n : PhoneNumber) (h : parse C s region = .ok (none, n))
    (he : n.extension = some e) (hs : ¬ str!";phone-context=" <:+: s) :
    e ≠ [] ∧ e.length ≤ 20 ∧ UDigits e ∧ e <:+: s := by
  obtain ⟨h1, h2, h3, text, number, mid, post, h4, h5⟩ := C12_shape_partial C s region e n h he
  refine ⟨h1, h2, h3, ?_⟩
  rcases h5 with h5 | h5
  · refine List.IsInfix.trans ⟨number ++ mid, post, ?_⟩ h5
    rw [h4]; simp
  · exact absurd h5.1 hs

/-- The extension is not part of the national number text: two inputs whose analysed texts differ only in their extension parts
give the same number apart from the extension. -/
theorem C12_separate (C : Container) (s s' region t t' : Str) (n n' : PhoneNumber)
    (ht : buildNationalNumber s = .ok (.ok t)) (ht' : buildNationalNumber s' = .ok (.ok t'))
    (hsame : (stripExtension t).2 = (stripExtension t').2)
    (h : parse C s region = .ok (none, n)) (h' : parse C s' region = .ok (none, n')) :
    { n with extension := none } = { n' with extension := none } := by
  obtain ⟨o, h1, rfl⟩ := parse_core_of_ok h
  obtain ⟨o', h1', rfl⟩ := parse_core_of_ok h'
  obtain ⟨x, h2, _, _, h3⟩ := ext_of_core h1
  obtain ⟨x', h2', _, _, h3'⟩ := ext_of_core h1'
  rw [ht] at h2; cases h2
  rw [ht'] at h2'; cases h2'
  unfold parseViable at h3 h3'
  rw [← hsame] at h3'
  simp only [bind, Except.bind] at h3 h3'
  have key : o.cc = o'.cc ∧ o.nsn = o'.nsn := by
    cases hx : extractCore C (stripExtension t).2 (C.metaForRegion region) with
    | error p => rw [hx] at h3; cases h3
    | ok r =>
      rw [hx] at h3 h3'
      cases r with
      | error e => cases h3
      | ok r =>
        obtain ⟨code, rest, src⟩ := r
        simp only at h3 h3'
        split at h3
        · rename_i hc
          simp only [hc, ne_eq, not_false_eq_true, if_true] at h3'
          split at h3
          · cases h3
          · rename_i f hf
            rw [hf] at h3'
            cases f with
            | error e => cases h3
            | ok f => cases h3; cases h3'; exact ⟨rfl, rfl⟩
        · rename_i hc
          simp only [hc, if_false] at h3'
          split at h3
          · cases h3
          · rename_i f hf
            rw [hf] at h3'
            cases f with
            | error e => cases h3
            | ok f => cases h3; cases h3'; exact ⟨rfl, rfl⟩
  simp only [ParseOut.apply, key.1, key.2]
  simp

example : parse Data.container (str!"+41 44 668 1800 ext. 12") (str!"US") =
    .ok (none, { countryCode := some 41, nationalNumber := some 446681800, extension := some (str!"12") }) := by kernel_rfl
example : ¬ str!";phone-context=" <:+: str!"+41 44 668 1800 ext. 12" := by decide +kernel

end Verif.Props
