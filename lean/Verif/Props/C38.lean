import Verif.Lemmas.AytfTotal
import Verif.Data.AytfWf
/-!
# C38: as-you-type output never loses or adds a digit

Full statement: for every region and every sequence of calls on a formatter, no call panics, and if only digits, and possibly a
plus sign in first place, were typed since the last `Clear`, then what a phone would dial for the output is what it would dial for
the characters typed:

    ∀ region history a, calls Data.container (Aytf.new Data.container region) history = .ok a → PhoneInput (typed history) →
      ∃ t, DialTranscript (typed history) t ∧ DialTranscript a.currentOutput t

The part on panics holds (`C38_no_panic`). The part on digits is false of the code (`C38_false`): `ableToExtractLongerNdd` takes the
previously extracted national prefix off the text in front of the number, but never records the longer prefix it found, so that
when it runs again it cuts at the last place where the shorter prefix occurs inside the longer one. `C38_digits_partial` proves the
digits part for all numbers typed with a leading plus and for all regions other than the five in which the prefix found for a
number can grow while more digits are typed (AR, BR, CO, JP, KR).
-/
namespace Verif.Props
open Verif.Spec

/-- On the shipped metadata, for every region (known or not) and every sequence of calls with any characters, no call panics. -/
theorem C38_no_panic (region : Str) (history : List Call) :
    ∃ a, calls Data.container (Aytf.new Data.container region) history = .ok a :=
  Aytf.calls_total Data.contOk (Data.wide_shipped region) (Data.cover_shipped region) history

/-- The statement on digits is false: a user in Colombia who types 04144144 is shown "0414 4". -/
theorem C38_false : ¬ ∀ region history a, calls Data.container (Aytf.new Data.container region) history = .ok a →
    PhoneInput (typed history) → ∃ t, DialTranscript (typed history) t ∧ DialTranscript a.currentOutput t := by
  intro h
  obtain ⟨a, ha⟩ := C38_no_panic (str!"CO") (typeAll (str!"04144144"))
  have hout : outputOf Data.container (str!"CO") (typeAll (str!"04144144")) = some (str!"0414 4") := by kernel_rfl
  have hty : typed (typeAll (str!"04144144")) = str!"04144144" := by decide +kernel
  unfold outputOf at hout
  rw [ha] at hout
  have hout : a.currentOutput = str!"0414 4" := Option.some.inj hout
  obtain ⟨t, h1, h2⟩ := h _ _ a ha (by
    rw [hty]
    intro i u hi
    have hd : ∀ u ∈ (str!"04144144"), isUniDigit u = true := by decide +kernel
    exact .inl ((Aytf.isUniDigit_iff u).1 (hd u (List.mem_of_getElem? hi))))
  rw [hty] at h1
  rw [hout] at h2
  have h1 := (Aytf.dialTranscript_iff _ _).1 h1
  have h2 := (Aytf.dialTranscript_iff _ _).1 h2
  exact absurd (h1.symm.trans h2) (by decide +kernel)

/-- For every sequence of calls: if the characters typed since the last `Clear` are digits, after a plus sign or in a region other
than Argentina, Brazil, Colombia, Japan and South Korea, then the output dials exactly what was typed. -/
theorem C38_digits_partial (region : Str) (history : List Call) (a : Aytf)
    (h : calls Data.container (Aytf.new Data.container region) history = .ok a) (hp : PhoneInput (typed history))
    (hr : (∃ u, (typed history).head? = some u ∧ IsPlus u) ∨
      region ∉ [(str!"AR"), (str!"BR"), (str!"CO"), (str!"JP"), (str!"KR")]) :
    ∃ t, DialTranscript (typed history) t ∧ DialTranscript a.currentOutput t := by
  have hs : Aytf.Stable (Aytf.metaFor Data.container region) ∨ ∃ u, (typed history).head? = some u ∧ IsPlus u := by
    rcases hr with hr | hr
    · exact .inr hr
    · exact .inl (Data.stable_shipped hr)
  have hd := Aytf.dig_calls Data.contOk (Data.wide_shipped region) h hp hs
  exact ⟨Aytf.dial (typed history), (Aytf.dialTranscript_iff _ _).2 rfl, (Aytf.dialTranscript_iff _ _).2 hd.out.symm⟩

/-- The hypotheses are met: national, international and prefixed input, with calls before the last `Clear`. -/
example : outputOf Data.container (str!"CH") (typeAll (str!"0446681800")) = some (str!"044 668 18 00") ∧
    outputOf Data.container (str!"BR") (typeAll (str!"+14156667777")) = some (str!"+1 415-666-7777") ∧
    outputOf Data.container (str!"US") (typeAll (str!"12") ++ [.clear] ++ typeAll (str!"0114144668")) = some (str!"011 41 44 668") := by
  refine ⟨?_, ?_, ?_⟩ <;> kernel_rfl

example : PhoneInput (typed (typeAll (str!"12") ++ [.clear] ++ typeAll (str!"0114144668"))) := by
  have e : typed (typeAll (str!"12") ++ [.clear] ++ typeAll (str!"0114144668")) = str!"0114144668" := by decide +kernel
  rw [e]
  intro i u hi
  have hd : ∀ u ∈ (str!"0114144668"), isUniDigit u = true := by decide +kernel
  exact .inl ((Aytf.isUniDigit_iff u).1 (hd u (List.mem_of_getElem? hi)))

end Verif.Props
