import Verif.Spec.Unsupported
import Verif.Props.C09
import Verif.Lemmas.Matcher
/-!
# Region codes the library does not know
-/
namespace Verif

/-- The decisions of the parser do not depend on which unsupported region it is given. -/
theorem parseCore_unsupported {C : Container} (hN : Spec.nonGeoOk C = true) (hG : C.allMeta.all Spec.hasGeneralLengths = true)
    (s : Str) {r : Str} (hr : C.validRegion r = false) : parseCore C s r true = parseCore C s unknownRegion true := by
  have hz : C.validRegion unknownRegion = false := by
    simp only [Spec.nonGeoOk, Bool.and_eq_true, Bool.not_eq_true'] at hN; exact hN.1.1
  have m1 : C.metaForRegion r = none := by simp [Container.metaForRegion, hr]
  have m2 : C.metaForRegion unknownRegion = none := by simp [Container.metaForRegion, hz]
  unfold parseCore
  by_cases h0 : s = []
  · simp only [h0, if_true]
  by_cases h1 : blen s > maxInputStringLength
  · simp only [h0, h1, if_true, if_false]
  simp only [h0, h1, if_false]
  cases hb : buildNationalNumber s with
  | error p => rfl
  | ok b =>
    cases b with
    | error e => rfl
    | ok national =>
      simp only [bind, Except.bind]
      by_cases hv : isViable national = true
      · have hc : checkRegion C national r = checkRegion C national unknownRegion := by simp only [checkRegion, hr, hz]
        simp only [hv, hc, Bool.not_true, Bool.false_eq_true, if_false]
        by_cases hk : checkRegion C national unknownRegion = true
        · simp only [hk, Bool.not_true, Bool.and_false, Bool.false_eq_true, if_false]
          simp only [checkRegion, hz, Bool.false_or, Bool.and_eq_true] at hk
          obtain ⟨a, b, hab, ha0, ha, hb⟩ := viable_plus_start hv hk.2
          unfold parseViable
          simp only [bind, Except.bind, m1, m2]
          rw [hab]
          cases hx : extractCore C (a ++ b) none with
          | error p => rfl
          | ok x =>
            cases x with
            | error e => rfl
            | ok x =>
              obtain ⟨_, h4, _⟩ := extractCore_plus C a b ha0 ha hb hx none
              obtain ⟨code, rest, src⟩ := x
              simp only at h4 ⊢
              simp only [h4, ne_eq, not_false_eq_true, if_true]
              rw [finishCore_region hN hG rest code r]
        · simp only [hk, Bool.not_false, Bool.and_true, if_true]
      · simp only [hv, Bool.not_false, if_true]

/-- Runs of the parser with the same decisions look the same. -/
theorem sameOutcome_of_core {C : Container} {s r r' : Str} (k : Bool) (pn : PhoneNumber) (h : parseCore C s r true = parseCore C s r' true) :
    Spec.SameOutcome (parseHelper C s r k true pn) (parseHelper C s r' k true pn) := by
  have h1 := parseHelper_core C s r k true pn
  have h2 := parseHelper_core C s r' k true pn
  rw [← h] at h2
  generalize parseCore C s r true = c at h1 h2
  cases c with
  | error p =>
    simp only [Refines] at h1 h2
    rw [h1, h2]
    exact ⟨fun n => Iff.rfl, fun e => Iff.rfl, fun e => Iff.rfl⟩
  | ok c =>
    cases c with
    | error e =>
      simp only [Refines] at h1 h2
      obtain ⟨n1, h1⟩ := h1
      obtain ⟨n2, h2⟩ := h2
      rw [h1, h2]
      refine ⟨fun n => ⟨fun h => ?_, fun h => ?_⟩, fun e' => ⟨?_, ?_⟩, fun p => ⟨fun h => ?_, fun h => ?_⟩⟩
      · cases h
      · cases h
      · rintro ⟨n, h⟩; cases h; exact ⟨_, rfl⟩
      · rintro ⟨n, h⟩; cases h; exact ⟨_, rfl⟩
      · cases h
      · cases h
    | ok o =>
      simp only [Refines] at h1 h2
      rw [h1, h2]
      exact ⟨fun n => Iff.rfl, fun e => Iff.rfl, fun e => Iff.rfl⟩

/-- What a caller that drops the number of a failed parse does with runs that look the same. -/
theorem sameOutcome_bind {α : Type} {x y : Go (Option ParseErr × PhoneNumber)} (h : Spec.SameOutcome x y)
    (f : Option ParseErr × PhoneNumber → Go α) (hf : ∀ e n n', f (some e, n) = f (some e, n')) : (x >>= f) = (y >>= f) := by
  obtain ⟨h1, h2, h3⟩ := h
  cases x with
  | error p => rw [(h3 p).1 rfl]
  | ok x =>
    obtain ⟨e, n⟩ := x
    cases e with
    | none => rw [(h1 n).1 rfl]
    | some e =>
      obtain ⟨n', h⟩ := (h2 e).1 ⟨n, rfl⟩
      rw [h]
      exact hf e n n'

namespace Finder

/-- Two searches of the same text that accept the same pieces. -/
structure Alike (F G : Finder) : Prop where
  text : F.text = G.text
  piece : F.parseAndVerify = G.parseAndVerify

variable {F G : Finder}

theorem Alike.first (h : Alike F G) : F.firstPiece = G.firstPiece := by
  funext c o s b
  simp only [firstPiece, h.piece]

theorem Alike.innerLoop (h : Alike F G) (candidate : Str) (offset : Nat) (gs : List Match) :
    ∀ (first : Bool) (t : Tries), F.innerLoop candidate offset first gs t = G.innerLoop candidate offset first gs t := by
  induction gs with
  | nil => intro first t; simp only [Finder.innerLoop]
  | cons g gs ih =>
    intro first t
    rw [Finder.innerLoop, Finder.innerLoop, h.first, h.piece]
    simp only [ih]

theorem Alike.extractInner (h : Alike F G) (candidate : Str) (offset : Nat) (rs : List Re) :
    ∀ (t : Tries), F.extractInner candidate offset rs t = G.extractInner candidate offset rs t := by
  induction rs with
  | nil => intro t; simp only [Finder.extractInner]
  | cons g gs ih =>
    intro t
    rw [Finder.extractInner, Finder.extractInner, h.innerLoop]
    simp only [ih]

theorem Alike.extractMatch (h : Alike F G) (candidate : Str) (offset : Nat) (t : Tries) :
    F.extractMatch candidate offset t = G.extractMatch candidate offset t := by
  have hd : F.looksLikeDate candidate offset = G.looksLikeDate candidate offset := by simp only [looksLikeDate, h.text]
  unfold Finder.extractMatch
  rw [hd, h.piece]
  simp only [h.extractInner]

theorem Alike.findLoop (h : Alike F G) (fuel : Nat) : ∀ (index : Nat) (t : Tries), F.findLoop fuel index t = G.findLoop fuel index t := by
  induction fuel with
  | zero => intro index t; simp only [Finder.findLoop]
  | succ fuel ih =>
    intro index t
    rw [Finder.findLoop, Finder.findLoop, h.text]
    simp only [ih, h.extractMatch]

theorem Alike.hasNext (h : Alike F G) (c : Cursor) : F.hasNext c = G.hasNext c := by
  unfold Finder.hasNext Finder.find
  simp only [h.text, h.findLoop]

theorem Alike.next (h : Alike F G) (c : Cursor) : F.next c = G.next c := by
  simp only [Finder.next, h.hasNext]

theorem Alike.iterate (h : Alike F G) (fuel : Nat) : ∀ (c : Cursor), F.iterate fuel c = G.iterate fuel c := by
  induction fuel with
  | zero => intro c; simp only [Finder.iterate]
  | succ fuel ih =>
    intro c
    rw [Finder.iterate, Finder.iterate, h.hasNext]
    simp only [ih, h.next]

theorem Alike.findNumbers (h : Alike F G) (k : Int) : F.findNumbers k = G.findNumbers k := by
  simp only [Finder.findNumbers, h.text, h.iterate]

end Finder
end Verif
