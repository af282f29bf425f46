import Verif.Model.Nsn
import Verif.Spec.WellFormed
import Verif.Data.Wf
import Verif.Props.C04
/-!
# C24: length classification is exact
-/
namespace Verif.Spec

/-- The classification of a length against the lengths `L` of a kind of number and its local-only lengths `loc`. -/
inductive Classified (L loc : List Int) (len : Int) : ValidationResult → Prop
  /-- there are no numbers of this kind -/
  | noNumbers (h : L = []) : Classified L loc len .invalidLength
  | localOnly (h : L ≠ []) (hl : len ∈ loc) : Classified L loc len .isPossibleLocalOnly
  | possible (hl : len ∉ loc) (h : len ∈ L) : Classified L loc len .isPossible
  | tooShort (hne : L ≠ []) (hl : len ∉ loc) (h : ∀ l ∈ L, len < l) : Classified L loc len .tooShort
  | tooLong (hne : L ≠ []) (hl : len ∉ loc) (h : ∀ l ∈ L, l < len) : Classified L loc len .tooLong
  | between (hl : len ∉ loc) (h : len ∉ L) (h1 : ∃ l ∈ L, l < len) (h2 : ∃ l ∈ L, len < l) : Classified L loc len .invalidLength

/-- A length has only one classification. -/
theorem Classified.unique {L loc : List Int} {len : Int} {r r' : ValidationResult} (h : Classified L loc len r)
    (h' : Classified L loc len r') : r = r' := by
  have hne : L ≠ [] → ∃ l, l ∈ L := List.exists_mem_of_ne_nil L
  cases h <;> cases h' <;> first
    | rfl
    | (exfalso; simp_all; done)
    | (exfalso; grind)

/-- The lengths of one description: `[-1]` means that there are no such numbers, an empty list refers to the general one. -/
def descLens (m : Metadata) (d : Option Desc) : List Int :=
  match d with
  | some d => if d.lengths = [-1] then [] else if d.lengths = [] then (match m.general with | some g => g.lengths | none => []) else d.lengths
  | none => []

/-- The local-only lengths of one description. -/
def descLocal (d : Option Desc) : List Int :=
  match d with
  | some d => if d.lengths = [-1] then [] else d.localLengths
  | none => []

/-- The description of a number type; FIXED_LINE_OR_MOBILE consists of two. -/
def kinds (m : Metadata) : NumType → List (Option Desc)
  | .fixedLine => [m.fixedLine]
  | .mobile => [m.mobile]
  | .fixedLineOrMobile => [m.fixedLine, m.mobile]
  | .tollFree => [m.tollFree]
  | .premiumRate => [m.premium]
  | .sharedCost => [m.sharedCost]
  | .voip => [m.voip]
  | .personalNumber => [m.personal]
  | .pager => [m.pager]
  | .uan => [m.uan]
  | .voicemail => [m.voicemail]
  | .unknown => [m.general]

/-- The lengths of numbers of a type. -/
def possibleLens (m : Metadata) (t : NumType) : List Int := (kinds m t).flatMap (descLens m)

/-- The local-only lengths of numbers of a type. -/
def localLens (m : Metadata) (t : NumType) : List Int := (kinds m t).flatMap descLocal

end Verif.Spec

namespace Verif
open Spec

/-- Non-decreasing lists. -/
def Nondec (l : List Int) : Prop := l.Pairwise (· ≤ ·)

theorem increasing_nondec {l : List Int} (h : increasing l = true) : Nondec l := by
  have : l.Pairwise (· < ·) := by
    induction l with
    | nil => exact .nil
    | cons a t ih =>
      cases t with
      | nil => simp
      | cons b t =>
        simp only [increasing, Bool.and_eq_true, decide_eq_true_eq] at h
        have ih := ih h.2
        refine List.pairwise_cons.2 ⟨?_, ih⟩
        intro c hc
        rcases List.mem_cons.1 hc with rfl | hc
        · exact h.1
        · have := (List.pairwise_cons.1 ih).1 c hc; omega
  exact this.imp (fun h => by omega)

theorem mem_mergeLengths (a b : List Int) (x : Int) : x ∈ mergeLengths a b ↔ x ∈ a ∨ x ∈ b := by
  fun_induction mergeLengths a b <;> grind

theorem mergeLengths_nondec (a b : List Int) (ha : Nondec a) (hb : Nondec b) : Nondec (mergeLengths a b) := by
  unfold Nondec at *
  fun_induction mergeLengths a b with
  | case1 => exact hb
  | case2 => exact ha
  | case3 a l1 b l2 h ih =>
    have ha' := List.pairwise_cons.1 ha
    have hb' := List.pairwise_cons.1 hb
    refine List.pairwise_cons.2 ⟨fun x hx => ?_, ih ha'.2 hb⟩
    rcases (mem_mergeLengths _ _ _).1 hx with h1 | h1
    · exact ha'.1 x h1
    · rcases List.mem_cons.1 h1 with rfl | h1
      · exact h
      · have := hb'.1 x h1; omega
  | case4 a l1 b l2 h ih =>
    have ha' := List.pairwise_cons.1 ha
    have hb' := List.pairwise_cons.1 hb
    refine List.pairwise_cons.2 ⟨fun x hx => ?_, ih ha hb'.2⟩
    rcases (mem_mergeLengths _ _ _).1 hx with h1 | h1
    · rcases List.mem_cons.1 h1 with rfl | h1
      · omega
      · have := ha'.1 x h1; omega
    · exact hb'.1 x h1

theorem getLast_max {l : List Int} (h : Nondec l) (hne : l ≠ []) : ∀ x ∈ l, x ≤ l.getLast hne := by
  induction l with
  | nil => simp
  | cons a t ih =>
    intro x hx
    unfold Nondec at h
    rw [List.pairwise_cons] at h
    cases t with
    | nil => simp at hx; simp [hx]
    | cons b t =>
      rw [List.getLast_cons (by simp)]
      rcases List.mem_cons.1 hx with rfl | hx
      · exact h.1 _ (List.getLast_mem _)
      · exact ih h.2 (by simp) x hx

/-- `testLengths` on a proper sorted list of positive lengths. -/
theorem testLengths_spec (L loc : List Int) (len : Int) (hne : L ≠ []) (hs : Nondec L) (hp : ∀ l ∈ L, 0 < l) :
    ∃ r, testLengths L loc len = .ok r ∧ Classified L loc len r := by
  cases L with
  | nil => exact absurd rfl hne
  | cons mn rest =>
    have h1 : mn ≠ -1 := by have := hp mn (by simp); omega
    have hmin : ∀ l ∈ mn :: rest, mn ≤ l := by
      intro l hl
      rcases List.mem_cons.1 hl with rfl | hl
      · omega
      · exact (List.pairwise_cons.1 hs).1 l hl
    have hmax := getLast_max hs hne
    have hlast : (mn :: rest).getLast hne ∈ mn :: rest := List.getLast_mem _
    simp only [testLengths, if_neg h1]
    by_cases h2 : len ∈ loc
    · exact ⟨_, by rw [if_pos h2], .localOnly hne h2⟩
    · rw [if_neg h2]
      by_cases h3 : mn = len
      · exact ⟨_, by rw [if_pos h3], .possible h2 (by simp [h3])⟩
      · rw [if_neg h3]
        by_cases h4 : mn > len
        · exact ⟨_, by rw [if_pos h4], .tooShort hne h2 (fun l hl => by have := hmin l hl; omega)⟩
        · rw [if_neg h4]
          by_cases h5 : (mn :: rest).getLast hne < len
          · exact ⟨_, by rw [if_pos h5], .tooLong hne h2 (fun l hl => by have := hmax l hl; omega)⟩
          · rw [if_neg h5]
            by_cases h6 : len ∈ rest
            · exact ⟨_, by rw [if_pos h6], .possible h2 (by simp [h6])⟩
            · have hn : len ∉ mn :: rest := by
                rw [List.mem_cons]; rintro (h | h)
                · exact h3 h.symm
                · exact h6 h
              refine ⟨_, by rw [if_neg h6], .between h2 hn ⟨mn, by simp, by omega⟩ ⟨_, hlast, ?_⟩⟩
              have : (mn :: rest).getLast hne ≠ len := fun h => hn (h ▸ hlast)
              omega

/-- What `lengthTablesOk` says about one description. -/
theorem lengthTablesOk_desc {m : Metadata} (h : lengthTablesOk m = true) {d : Option Desc} (hd : d ∈ typeDescs m) :
    ∃ x, d = some x ∧ lengthsOk x.lengths = true ∧ increasing x.localLengths = true := by
  simp only [lengthTablesOk, Bool.and_eq_true, List.all_eq_true] at h
  have := h.1 d hd
  cases d with
  | none => simp at this
  | some x => simp only [Bool.and_eq_true] at this; exact ⟨x, rfl, this.1.1, this.1.2⟩

theorem lengthTablesOk_general {m : Metadata} (h : lengthTablesOk m = true) :
    ∃ g, m.general = some g ∧ g.lengths ≠ [] ∧ g.lengths ≠ [-1] ∧ Nondec g.lengths ∧ ∀ l ∈ g.lengths, 0 < l := by
  have h' := h
  simp only [lengthTablesOk, Bool.and_eq_true] at h'
  obtain ⟨g, hg, h1, -⟩ := lengthTablesOk_desc h (d := m.general) (by simp [typeDescs])
  rw [hg] at h'
  have h2 := h'.2
  simp only [Bool.and_eq_true, Bool.not_eq_true', List.isEmpty_eq_false_iff, decide_eq_true_eq] at h2
  simp only [lengthsOk, Bool.or_eq_true, decide_eq_true_eq, h2.2, false_or, Bool.and_eq_true, List.all_eq_true] at h1
  exact ⟨g, hg, h2.1, h2.2, increasing_nondec h1.1, h1.2⟩

/-- The lengths in force for one description. -/
theorem lengthsOf_spec {m : Metadata} (h : lengthTablesOk m = true) {d : Option Desc} (hd : d ∈ typeDescs m) :
    ∃ ls, lengthsOf (some m) d = .ok ls ∧ ls ≠ [] ∧
      ((ls = [-1] ∧ descLens m d = [] ∧ descLocal d = [] ∧ (∀ x, d = some x → x.lengths = [-1])) ∨
       (descLens m d = ls ∧ Nondec ls ∧ (∀ l ∈ ls, 0 < l) ∧ (∀ x, d = some x → x.lengths ≠ [-1] ∧ descLocal d = x.localLengths ∧ Nondec x.localLengths))) := by
  obtain ⟨x, rfl, h1, h2⟩ := lengthTablesOk_desc h hd
  obtain ⟨g, hg, g1, g2, g3, g4⟩ := lengthTablesOk_general h
  by_cases h0 : x.lengths = []
  · refine ⟨g.lengths, by simp [lengthsOf, h0, hg], g1, .inr ⟨by simp [descLens, h0, hg], g3, g4, ?_⟩⟩
    rintro y hy; cases hy
    exact ⟨by simp [h0], by simp [descLocal, h0], increasing_nondec h2⟩
  · refine ⟨x.lengths, by simp [lengthsOf, h0], h0, ?_⟩
    by_cases hm : x.lengths = [-1]
    · exact .inl ⟨hm, by simp [descLens, hm], by simp [descLocal, hm], by rintro y hy; cases hy; exact hm⟩
    · simp only [lengthsOk, Bool.or_eq_true, decide_eq_true_eq, hm, false_or, Bool.and_eq_true, List.all_eq_true] at h1
      refine .inr ⟨by simp [descLens, hm, h0], increasing_nondec h1.1, h1.2, ?_⟩
      rintro y hy; cases hy
      exact ⟨hm, by simp [descLocal, hm], increasing_nondec h2⟩

theorem testLengths_none (loc : List Int) (len : Int) : testLengths [-1] loc len = .ok .invalidLength := by simp [testLengths]

theorem testNumberLengthSimple_spec {m : Metadata} (h : lengthTablesOk m = true) (s : Str) (t : NumType)
    (hd : descByType (some m) t ∈ typeDescs m) :
    ∃ r, testNumberLengthSimple s (some m) t = .ok r ∧
      Classified (descLens m (descByType (some m) t)) (descLocal (descByType (some m) t)) (blen s) r := by
  obtain ⟨ls, h1, h2, h3⟩ := lengthsOf_spec h hd
  obtain ⟨x, hx, -, -⟩ := lengthTablesOk_desc h hd
  simp only [testNumberLengthSimple, h1, bind, Except.bind]
  rcases h3 with ⟨rfl, h4, h5, -⟩ | ⟨h4, h5, h6, h7⟩
  · exact ⟨_, testLengths_none _ _, h4 ▸ .noNumbers rfl⟩
  · have := testLengths_spec ls (descLocal (descByType (some m) t)) (blen s) h2 h5 h6
    rw [h4]
    rw [(h7 x hx).2.1] at this ⊢
    simp only [hx]
    exact this

end Verif

namespace Verif.Props
open Spec

theorem classified_congr {L L' loc loc' : List Int} {len : Int} {r : ValidationResult} (h : Classified L loc len r)
    (hL : ∀ x, x ∈ L ↔ x ∈ L') (hl : ∀ x, x ∈ loc ↔ x ∈ loc') : Classified L' loc' len r := by
  have hn : L = [] ↔ L' = [] := by simp only [List.eq_nil_iff_forall_not_mem, hL]
  cases h with
  | noNumbers h => exact .noNumbers (hn.1 h)
  | localOnly h h2 => exact .localOnly (fun e => h (hn.2 e)) ((hl _).1 h2)
  | possible h h2 => exact .possible (fun e => h ((hl _).2 e)) ((hL _).1 h2)
  | tooShort a b c => exact .tooShort (fun e => a (hn.2 e)) (fun e => b ((hl _).2 e)) (fun l e => c l ((hL l).2 e))
  | tooLong a b c => exact .tooLong (fun e => a (hn.2 e)) (fun e => b ((hl _).2 e)) (fun l e => c l ((hL l).2 e))
  | between a b c d =>
    obtain ⟨x, hx, hx'⟩ := c
    obtain ⟨y, hy, hy'⟩ := d
    exact .between (fun e => a ((hl _).2 e)) (fun e => b ((hL _).2 e)) ⟨x, (hL x).1 hx, hx'⟩ ⟨y, (hL y).1 hy, hy'⟩

/-- The length test of a type is the classification of the length of the text, and nothing else about the text. -/
theorem C24_length (m : Metadata) (h : lengthTablesOk m = true) (s : Str) (t : NumType) :
    ∃ r, testNumberLength s (some m) t = .ok r ∧ Classified (possibleLens m t) (localLens m t) (blen s) r := by
  by_cases ht : t = .fixedLineOrMobile
  · subst ht
    obtain ⟨lf, f1, f2, f3⟩ := lengthsOf_spec h (d := m.fixedLine) (by simp [typeDescs])
    obtain ⟨lm, m1, m2, m3⟩ := lengthsOf_spec h (d := m.mobile) (by simp [typeDescs])
    obtain ⟨xf, hxf, -, -⟩ := lengthTablesOk_desc h (d := m.fixedLine) (by simp [typeDescs])
    obtain ⟨xm, hxm, -, -⟩ := lengthTablesOk_desc h (d := m.mobile) (by simp [typeDescs])
    have hP : possibleLens m .fixedLineOrMobile = descLens m m.fixedLine ++ descLens m m.mobile := by simp [possibleLens, kinds]
    have hQ : localLens m .fixedLineOrMobile = descLocal m.fixedLine ++ descLocal m.mobile := by simp [localLens, kinds]
    rw [hP, hQ]
    have hsimple := testNumberLengthSimple_spec h s .mobile (by simp [descByType, typeDescs])
    unfold testNumberLength
    simp only [if_true, descByType, f1, m1, bind, Except.bind] at hsimple ⊢
    rcases f3 with ⟨rfl, f4, f5, f6⟩ | ⟨f4, f5, f6, f7⟩
    · have : descHasPossible m.fixedLine = .ok false := by rw [hxf]; simp [descHasPossible, f6 xf hxf]
      simp only [this, Bool.not_false, if_true]
      rw [f4, f5]; simpa using hsimple
    · have hf := f7 xf hxf
      have : descHasPossible m.fixedLine = .ok true := by rw [hxf]; simp [descHasPossible, hf.1]
      simp only [this, Bool.not_true, Bool.false_eq_true, if_false]
      rcases m3 with ⟨rfl, m4, m5, m6⟩ | ⟨m4, m5, m6, m7⟩
      · have : descHasPossible m.mobile = .ok false := by rw [hxm]; simp [descHasPossible, m6 xm hxm]
        simp only [this, Bool.false_eq_true, if_false]
        rw [m4, m5, f4, hf.2.1, hxf]
        simpa using testLengths_spec lf xf.localLengths (blen s) f2 f5 f6
      · have hm := m7 xm hxm
        have : descHasPossible m.mobile = .ok true := by rw [hxm]; simp [descHasPossible, hm.1]
        simp only [this, if_true]
        rw [m4, f4, hf.2.1, hm.2.1]
        simp only [hxf, hxm]
        obtain ⟨r, hr, hc⟩ := testLengths_spec (mergeLengths lf lm)
          (if xf.localLengths = [] then xm.localLengths else mergeLengths xf.localLengths xm.localLengths) (blen s)
          (by
            obtain ⟨y, hy⟩ := List.exists_mem_of_ne_nil _ f2
            exact List.ne_nil_of_mem ((mem_mergeLengths lf lm y).2 (.inl hy)))
          (mergeLengths_nondec _ _ f5 m5)
          (fun l hl => ((mem_mergeLengths _ _ _).1 hl).elim (f6 l) (m6 l))
        refine ⟨r, hr, classified_congr hc (fun x => by simp [mem_mergeLengths]) (fun x => ?_)⟩
        split
        · rename_i he; simp [he]
        · simp [mem_mergeLengths]
  · obtain ⟨r, hr, hc⟩ := testNumberLengthSimple_spec h s t (by
      cases t <;> simp [descByType, typeDescs] at ht ⊢)
    refine ⟨r, by simp only [testNumberLength, if_neg ht]; exact hr, ?_⟩
    have hk : kinds m t = [descByType (some m) t] := by cases t <;> first | rfl | exact absurd rfl ht
    simpa [possibleLens, localLens, hk] using hc

/-- `IsPossibleNumberForTypeWithReason`: the classification of the NSN length against the metadata of the main region. -/
theorem C24_type (C : Container) (n : PhoneNumber) (t : NumType) (m : Metadata) (hcc : C.hasCC n.cc = true)
    (hm : C.metaFor n.cc (C.mainRegion n.cc) = some m) (h : lengthTablesOk m = true) (r : ValidationResult) :
    possibleForTypeWithReason C n t = .ok r ↔ Classified (possibleLens m t) (localLens m t) (nsnOf n).length r := by
  obtain ⟨r', h1, h2⟩ := C24_length m h (nsnOf n) t
  rw [blen_digits (fun u hu => (isDig_iff u).2 (C04_digits n u hu))] at h2
  simp only [possibleForTypeWithReason, hcc, Bool.not_true, Bool.false_eq_true, if_false, hm, h1]
  constructor
  · intro e; cases e; exact h2
  · intro e; rw [h2.unique e]

/-- `IsPossibleNumberWithReason` for a country with a number pattern. -/
theorem C24_number (C : Container) (n : PhoneNumber) (m : Metadata) (hcc : C.hasCC n.cc = true)
    (hm : C.metaFor n.cc (C.mainRegion n.cc) = some m) (h : lengthTablesOk m = true) (hp : (descPat m.general).src ≠ [])
    (r : ValidationResult) :
    possibleWithReason C n = .ok r ↔ Classified (possibleLens m .unknown) (localLens m .unknown) (nsnOf n).length r := by
  rw [← C24_type C n .unknown m hcc hm h r]
  simp only [possibleWithReason, possibleForTypeWithReason, hcc, hm, Option.bind_some, hp]; simp

/-- An unsupported country code is reported as such, whatever the type. -/
theorem C24_unsupported (C : Container) (n : PhoneNumber) (t : NumType) (hcc : C.hasCC n.cc = false) :
    possibleForTypeWithReason C n t = .ok .invalidCountryCode ∧ possibleWithReason C n = .ok .invalidCountryCode := by
  simp [possibleForTypeWithReason, possibleWithReason, hcc]

example : Data.container.allMeta.all lengthTablesOk = true := Data.wf_lengthTables
example : possibleForTypeWithReason Data.container { countryCode := some 1, nationalNumber := some 6502530000 } .fixedLineOrMobile
    = .ok .isPossible := by kernel_rfl
example : possibleForTypeWithReason Data.container { countryCode := some 1, nationalNumber := some 2530000 } .fixedLine
    = .ok .isPossibleLocalOnly := by kernel_rfl

end Verif.Props
