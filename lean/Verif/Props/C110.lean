import Verif.Model.IntLeniency
import Verif.Lemmas.MatcherTotal
import Verif.Data.Alt
/-!
# C110: levels that are none of the named ones

`Leniency` is an integer type, so a caller can pass any integer.
-/
namespace Verif
namespace Finder

theorem verifyInt_code (l : Leniency) (C : Container) (alt : List Metadata) (n : PhoneNumber) (s : Str) :
    verifyInt l.code C alt n s = l.verify C alt n s := by
  cases l <;> rfl

theorem code_valid (l : Leniency) : l.code ≥ 1 ↔ l ≠ .possible := by cases l <;> decide

theorem parseAndVerifyInt_code (F : Finder) (s : Str) (o : Nat) : F.parseAndVerifyInt F.leniency.code s o = F.parseAndVerify s o := by
  simp only [parseAndVerifyInt, parseAndVerify, code_valid, verifyInt_code]
  rfl

theorem innerLoopInt_code (F : Finder) (s : Str) (o : Nat) (gs : List Match) : ∀ (first : Bool) (t : Tries),
    F.innerLoopInt F.leniency.code s o first gs t = F.innerLoop s o first gs t := by
  induction gs with
  | nil => intro _ _; rfl
  | cons g gs ih =>
    intro first t
    simp only [innerLoopInt, innerLoop, firstPieceInt, firstPiece, parseAndVerifyInt_code, ih]
    rfl

theorem extractInnerInt_code (F : Finder) (s : Str) (o : Nat) (rs : List Re) : ∀ t : Tries,
    F.extractInnerInt F.leniency.code s o rs t = F.extractInner s o rs t := by
  induction rs with
  | nil => intro _; rfl
  | cons r rs ih => intro t; simp only [extractInnerInt, extractInner, innerLoopInt_code, ih]; rfl

theorem findLoopInt_code (F : Finder) (fuel : Nat) : ∀ (i : Nat) (t : Tries), F.findLoopInt F.leniency.code fuel i t = F.findLoop fuel i t := by
  induction fuel with
  | zero => intro _ _; rfl
  | succ fuel ih =>
    intro i t
    simp only [findLoopInt, findLoop, extractMatchInt, extractMatch, parseAndVerifyInt_code, extractInnerInt_code, ih]
    rfl

theorem hasNextInt_code (F : Finder) (c : Cursor) : F.hasNextInt F.leniency.code c = F.hasNext c := by
  simp only [hasNextInt, hasNext, findInt, find, findLoopInt_code]
  rfl

theorem iterateInt_code (F : Finder) (fuel : Nat) : ∀ c : Cursor, F.iterateInt F.leniency.code fuel c = F.iterate fuel c := by
  induction fuel with
  | zero => intro _; rfl
  | succ fuel ih =>
    intro c
    simp only [iterateInt, iterate, nextInt, next, hasNextInt_code, ih]
    rfl

/-! ## Other values -/

/-- Nothing is accepted. -/
theorem parseAndVerifyInt_other {F : Finder} {k : Int} (hk : ∀ l : Leniency, k ≠ l.code) (s : Str) (o : Nat) {r : Option FoundNumber}
    (h : F.parseAndVerifyInt k s o = .ok r) : r = none := by
  have hv : ∀ n, verifyInt k F.C F.alt n s = .ok false := by
    intro n
    have h0 := hk .possible; have h1 := hk .valid; have h2 := hk .strictGrouping; have h3 := hk .exactGrouping
    simp only [Leniency.code] at h0 h1 h2 h3
    simp only [verifyInt, if_neg h0, if_neg h1, if_neg h2, if_neg h3]
    rfl
  unfold parseAndVerifyInt at h
  split at h
  · cases h; rfl
  · split at h
    · cases h; rfl
    · cases hp : parseKeepRawToNumber F.C s F.region {} with
      | error e => rw [hp] at h; cases h
      | ok q =>
        obtain ⟨e, n⟩ := q
        rw [hp] at h
        simp only [bind, Except.bind] at h
        cases e with
        | some e => cases h; rfl
        | none =>
          simp only [hv] at h
          cases h
          rfl

theorem innerLoopInt_other {F : Finder} {k : Int} (hk : ∀ l : Leniency, k ≠ l.code) (s : Str) (o : Nat) (gs : List Match) :
    ∀ (first : Bool) (t : Tries) {r : Option FoundNumber × Tries}, F.innerLoopInt k s o first gs t = .ok r → r.1 = none := by
  induction gs with
  | nil => intro _ _ r h; cases h; rfl
  | cons g gs ih =>
    intro first t r h
    unfold innerLoopInt at h
    split at h
    · cases h; rfl
    · have h1 : ∀ q, F.firstPieceInt k s o g.start first = .ok q → q = none := by
        intro q hq
        unfold firstPieceInt at hq
        split at hq
        · exact parseAndVerifyInt_other hk _ _ hq
        · cases hq; rfl
      cases hp : F.firstPieceInt k s o g.start first with
      | error e => rw [hp] at h; cases h
      | ok q =>
        rw [hp, h1 q hp] at h
        simp only [bind, Except.bind] at h
        cases hg : g.span 1 with
        | none => rw [hg] at h; cases h
        | some ab =>
          rw [hg] at h
          dsimp only at h
          cases hp2 : F.parseAndVerifyInt k (trimAfterFirstMatch unwantedEndCharPattern (slice s ab.1 ab.2)) (o + ab.1) with
          | error e => rw [hp2] at h; cases h
          | ok q2 =>
            rw [hp2, parseAndVerifyInt_other hk _ _ hp2] at h
            exact ih _ _ h

theorem extractInnerInt_other {F : Finder} {k : Int} (hk : ∀ l : Leniency, k ≠ l.code) (s : Str) (o : Nat) (rs : List Re) :
    ∀ (t : Tries) {r : Option FoundNumber × Tries}, F.extractInnerInt k s o rs t = .ok r → r.1 = none := by
  induction rs with
  | nil => intro _ r h; cases h; rfl
  | cons x rs ih =>
    intro t r h
    unfold extractInnerInt at h
    cases hp : F.innerLoopInt k s o true (x.findAll s) t with
    | error e => rw [hp] at h; cases h
    | ok q =>
      obtain ⟨m, u⟩ := q
      have : m = none := innerLoopInt_other hk s o _ true t hp
      subst this
      rw [hp] at h
      exact ih u h

theorem findLoopInt_other {F : Finder} {k : Int} (hk : ∀ l : Leniency, k ≠ l.code) (fuel : Nat) :
    ∀ (i : Nat) (t : Tries) {r : Option FoundNumber × Tries}, F.findLoopInt k fuel i t = .ok r → r.1 = none := by
  induction fuel with
  | zero => intro _ _ r h; cases h; rfl
  | succ fuel ih =>
    intro i t r h
    unfold findLoopInt at h
    split at h
    · cases h; rfl
    · split at h
      · cases h; rfl
      · next x hx =>
        dsimp only at h
        cases hp : F.extractMatchInt k (trimAfterFirstMatch secondNumberStartPattern (slice (F.text.drop i) x.start x.stop)) (i + x.start) t with
        | error e => rw [hp] at h; cases h
        | ok q =>
          obtain ⟨m, u⟩ := q
          have : m = none := by
            unfold extractMatchInt at hp
            split at hp
            · cases hp; rfl
            · cases hp2 : F.parseAndVerifyInt k (trimAfterFirstMatch secondNumberStartPattern (slice (F.text.drop i) x.start x.stop)) (i + x.start) with
              | error e => rw [hp2] at hp; cases hp
              | ok q2 =>
                rw [hp2, parseAndVerifyInt_other hk _ _ hp2] at hp
                exact extractInnerInt_other hk _ _ _ _ hp
          subst this
          rw [hp] at h
          exact ih _ _ h

/-! ## It ends without a panic -/

theorem parseAndVerifyInt_ok {F : Finder} (hF : F.C = Data.container) {k : Int} (hk : ∀ l : Leniency, k ≠ l.code) (s : Str) (o : Nat) :
    F.parseAndVerifyInt k s o = .ok none := by
  have h : ∃ r, F.parseAndVerifyInt k s o = .ok r := by
    unfold parseAndVerifyInt
    split
    · exact ⟨_, rfl⟩
    · split
      · exact ⟨_, rfl⟩
      · rw [hF]
        obtain ⟨e, n, hp⟩ := (Props.C06_shipped s F.region).2
        have hp' : parseKeepRawToNumber Data.container s F.region {} = .ok (e, n) := hp
        rw [hp']
        cases e with
        | some e => exact ⟨_, rfl⟩
        | none =>
          have h0 := hk .possible; have h1 := hk .valid; have h2 := hk .strictGrouping; have h3 := hk .exactGrouping
          simp only [Leniency.code] at h0 h1 h2 h3
          simp only [bind, Except.bind, verifyInt, if_neg h0, if_neg h1, if_neg h2, if_neg h3]
          exact ⟨_, rfl⟩
  obtain ⟨r, h⟩ := h
  rw [h, parseAndVerifyInt_other hk s o h]

theorem innerLoopInt_ok {F : Finder} (hF : F.C = Data.container) {k : Int} (hk : ∀ l : Leniency, k ≠ l.code) (s : Str) (o : Nat)
    (gs : List Match) (hg : ∀ g ∈ gs, ∃ c ∈ g.caps, c.1 = 1) : ∀ (first : Bool) (t : Tries), ∃ u, F.innerLoopInt k s o first gs t = .ok (none, u) := by
  induction gs with
  | nil => intro _ t; exact ⟨_, rfl⟩
  | cons g gs ih =>
    intro first t
    unfold innerLoopInt
    split
    · exact ⟨_, rfl⟩
    · have h1 : F.firstPieceInt k s o g.start first = .ok none := by
        unfold firstPieceInt
        split
        · exact parseAndVerifyInt_ok hF hk _ _
        · rfl
      obtain ⟨⟨a, b⟩, hab⟩ := span_of_cap (by decide) (hg g (List.mem_cons_self ..))
      rw [h1]
      simp only [bind, Except.bind, hab]
      rw [parseAndVerifyInt_ok hF hk]
      exact ih (fun g hg' => hg g (List.mem_cons_of_mem _ hg')) _ _

theorem extractInnerInt_ok {F : Finder} (hF : F.C = Data.container) {k : Int} (hk : ∀ l : Leniency, k ≠ l.code) (s : Str) (o : Nat)
    (rs : List Re) (hr : ∀ r ∈ rs, r.sets 1 = true) : ∀ t : Tries, ∃ u, F.extractInnerInt k s o rs t = .ok (none, u) := by
  induction rs with
  | nil => intro t; exact ⟨_, rfl⟩
  | cons r rs ih =>
    intro t
    unfold extractInnerInt
    obtain ⟨u, hu⟩ := innerLoopInt_ok hF hk s o (r.findAll s) (fun g hg => findAll_sets (hr r (List.mem_cons_self ..)) hg) true t
    rw [hu]
    exact ih (fun r hr' => hr r (List.mem_cons_of_mem _ hr')) u

theorem findLoopInt_ok {F : Finder} (hF : F.C = Data.container) {k : Int} (hk : ∀ l : Leniency, k ≠ l.code) (fuel : Nat) :
    ∀ (i : Nat) (t : Tries), ∃ u, F.findLoopInt k fuel i t = .ok (none, u) := by
  induction fuel with
  | zero => intro _ t; exact ⟨_, rfl⟩
  | succ fuel ih =>
    intro i t
    unfold findLoopInt
    split
    · exact ⟨_, rfl⟩
    · split
      · exact ⟨_, rfl⟩
      · next x hx =>
        dsimp only
        have : ∃ u, F.extractMatchInt k (trimAfterFirstMatch secondNumberStartPattern (slice (F.text.drop i) x.start x.stop)) (i + x.start) t = .ok (none, u) := by
          unfold extractMatchInt
          split
          · exact ⟨_, rfl⟩
          · rw [parseAndVerifyInt_ok hF hk]
            exact extractInnerInt_ok hF hk _ _ _ (fun r hr => List.all_eq_true.1 innerMatches_sets r hr) _
        obtain ⟨u, hu⟩ := this
        rw [hu]
        exact ih _ _

end Finder

namespace Props
open Finder

/-- At the values of the named levels the search is the one the other properties are about. -/
theorem C110_named (F : Finder) (maxTries : Int) : F.findNumbersInt F.leniency.code maxTries = F.findNumbers maxTries :=
  iterateInt_code F _ _

/-- At any other value the search finds nothing, whatever the text, the region, the metadata and the limit. -/
theorem C110_nothing (F : Finder) (k : Int) (hk : ∀ l : Leniency, k ≠ l.code) (maxTries : Int) {ms : List FoundNumber} {c : Cursor}
    (h : F.findNumbersInt k maxTries = .ok (ms, c)) : ms = [] := by
  unfold findNumbersInt iterateInt at h
  simp only [hasNextInt, new, findInt] at h
  cases hp : F.findLoopInt k (F.text.length + 1) 0 ⟨if maxTries < 0 then 0 else maxTries, 0, 0⟩ with
  | error e => rw [hp] at h; cases h
  | ok q =>
    obtain ⟨m, u⟩ := q
    have : m = none := findLoopInt_other hk _ _ _ hp
    subst this
    rw [hp] at h
    simp only [bind, Except.bind, pure, Except.pure, Except.ok.injEq, Prod.mk.injEq] at h
    exact h.1.symm

/-- With the shipped metadata it also ends without a panic. -/
theorem C110_total (F : Finder) (hF : F.C = Data.container) (k : Int) (hk : ∀ l : Leniency, k ≠ l.code) (maxTries : Int) :
    ∃ c, F.findNumbersInt k maxTries = .ok ([], c) := by
  obtain ⟨u, hu⟩ := findLoopInt_ok hF hk (F.text.length + 1) 0 ⟨if maxTries < 0 then 0 else maxTries, 0, 0⟩
  unfold findNumbersInt iterateInt
  simp only [hasNextInt, new, findInt, hu, bind, Except.bind]
  exact ⟨_, rfl⟩

/-- Values that are none of the named levels: one above and one below. -/
example : (∀ l : Leniency, (4 : Int) ≠ l.code) ∧ (∀ l : Leniency, (-1 : Int) ≠ l.code) := by
  constructor <;> intro l <;> cases l <;> decide

/-- A text in which the strictest level finds a number and a value beyond it does not. -/
noncomputable def C110_case : Finder := ⟨Data.container, Data.alt, (str!"Call +1 650-253-0000."), (str!"US"), .exactGrouping⟩

example : ((C110_case.findNumbersInt 3 9).toOption.map fun r => r.1.map fun m => (m.at_, m.raw)) = some [(5, (str!"+1 650-253-0000"))] ∧
    ((C110_case.findNumbersInt 4 9).toOption.map fun r => r.1.map fun m => (m.at_, m.raw)) = some [] ∧
    ((C110_case.findNumbersInt (-1) 9).toOption.map fun r => r.1.map fun m => (m.at_, m.raw)) = some [] := by
  refine ⟨?_, ?_, ?_⟩ <;> kernel_rfl

end Props
end Verif
