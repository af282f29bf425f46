import Verif.Spec.Area
import Verif.Props.C20
import Verif.Props.C23
import Verif.Props.C65
import Verif.Props.C71
import Verif.Props.C74
/-!
# C75: area codes, geographical numbers and numbers not reachable from abroad
-/
namespace Verif
open Spec

theorem pieces_fields_aux (P : Nat → Bool) (t : Str) (hl : ∀ u ∈ t.getLast?, P u = false) :
    (t ≠ [] → piecesAux P t true [] = fieldsAux (fun u => !P u) t []) ∧
    (∀ cur, cur ≠ [] → piecesAux P t false cur = fieldsAux (fun u => !P u) t cur) := by
  induction t with
  | nil => exact ⟨fun h => absurd rfl h, fun cur h => by simp [piecesAux, fieldsAux, h]⟩
  | cons u t ih =>
    have ht : ∀ v ∈ t.getLast?, P v = false := by
      intro v hv
      refine hl v ?_
      cases t with
      | nil => simp at hv
      | cons a t => simpa [List.getLast?_cons_cons] using hv
    obtain ⟨i1, i2⟩ := ih ht
    cases hu : P u with
    | true =>
      have hne : t ≠ [] := by
        rintro rfl
        have := hl u (by simp)
        rw [hu] at this; cases this
      refine ⟨fun _ => ?_, fun cur hc => ?_⟩
      · simp [piecesAux, fieldsAux, hu, i1 hne]
      · simp [piecesAux, fieldsAux, hu, i1 hne, hc]
    | false =>
      refine ⟨fun _ => ?_, fun cur hc => ?_⟩
      · simp [piecesAux, fieldsAux, hu, i2 [u]]
      · simp [piecesAux, fieldsAux, hu, i2 (cur ++ [u])]

/-- The pieces of a text after its first separators, if it does not end with one, are its maximal runs. -/
theorem pieces_fields (P : Nat → Bool) (s : Str) (h : ∃ a v, s = a ++ [v] ∧ P v = false) :
    pieces P (s.dropWhile P) = fields (fun u => !P u) s := by
  have hl : ∀ u ∈ s.getLast?, P u = false := by
    obtain ⟨a, v, rfl, hv⟩ := h
    intro u hu
    simp at hu; rw [← hu]; exact hv
  have hne : s ≠ [] := by obtain ⟨a, v, rfl, -⟩ := h; simp
  rw [fields, ← (pieces_fields_aux P s hl).1 hne]
  conv => rhs; rw [← List.takeWhile_append_dropWhile (p := P) (l := s)]
  rw [piecesAux_sep _ _ _ _ (fun v hv => mem_takeWhile_sat hv), piecesAux_mode]
  · rfl
  · intro v hv
    have := List.head?_dropWhile_not P s
    rw [Option.mem_def] at hv
    rw [hv] at this
    simpa using this

namespace Props

/-- The national destination code is the first group of digits of the number as laid out for INTERNATIONAL, if more groups follow;
for an Argentinian mobile number it is the first two groups, the mobile token 9 and the code.  The groups together are the national
significant number, so its first `lengthOfNdc` digits are the code. -/
theorem C75_ndc (n : PhoneNumber) (hcc : Data.container.hasCC n.cc = true) (hraw : ¬ (n.nn = 0 ∧ n.raw ≠ [])) :
    ∃ m body t, Data.container.metaFor n.cc (Data.container.mainRegion n.cc) = some m ∧
      LaidOut (rulesFor m .international) (nsnOf n) .international [] body ∧ (digitGroups body).flatten = nsnOf n ∧
      numberType Data.container n = .ok t ∧
      lengthOfNdc Data.container n = .ok (ndcLength (decide (t = .mobile ∧ n.cc = 54)) (digitGroups body)) := by
  obtain ⟨m, hm, -⟩ := main_meta built_shipped Data.wf_tables hcc
  have hmem := Container.metaFor_mem hm
  obtain ⟨v, t, -, ht, -⟩ := C26_valid_iff_type Data.container built_shipped Data.wf_tables Data.wf_allDescs n
  have h0 : 0 ≤ n.cc := by have := (prefixFree_spec prefixFree_shipped hcc).1; omega
  have hne : nsnOf n ≠ [] := by
    have := (C04_shape n).1
    intro h
    rw [h] at this
    simp only [List.nil_eq, List.append_eq_nil_iff] at this
    exact dec_ne_nil _ ((dec_eq_decimal _).trans this.2)
  obtain ⟨-, hend, -⟩ := formatNsn_spaced m (List.all_eq_true.1 Data.wf_intlFormats m hmem) (List.all_eq_true.1 Data.wf_intlLiterals m hmem)
    (List.all_eq_true.1 wf_intlEnds m hmem) (nsnOf n) (nsnOf_isDig n) hne
  have hdig := formatNsn_digits m (List.all_eq_true.1 Data.wf_intlFormats m hmem) (nsnOf n) (nsnOf_isDig n)
  have hlay := formatNsn_laidOut (List.all_eq_true.1 wf_layout m hmem) (nsnOf_isDig n) .international (carrier := []) (by simp)
  refine ⟨m, _, t, hm, hlay, by rw [digitGroups, fields_flatten]; exact hdig, ht, ?_⟩
  generalize hbody : formatNsn (nsnOf n) (some m) .international [] = body at *
  have hfmt : format Data.container (if n.ext ≠ [] then { n with extension := none } else n) .international = 43 :: (decInt n.cc ++ 32 :: body) := by
    rw [← hbody]
    obtain ⟨n', hn', hext, hnsn, hcc', hraw'⟩ : ∃ n', (if n.ext ≠ [] then { n with extension := none } else n) = n' ∧
        n'.ext = [] ∧ nsnOf n' = nsnOf n ∧ n'.cc = n.cc ∧ ¬ (n'.nn = 0 ∧ n'.raw ≠ []) := by
      refine ⟨_, rfl, ?_, ?_, ?_, ?_⟩
      · split
        · rfl
        · rename_i he; simpa using he
      all_goals split <;> first | rfl | exact hraw
    rw [hn', ← hcc', ← hnsn]
    rw [← hcc'] at hcc hm
    simp only [format, if_neg hraw', formatCore, reduceCtorEq, if_false, hcc, Bool.not_true, Bool.false_eq_true, prefixWithCC,
      appendExtension, hext, if_true, hm]
  have hd : ∀ u ∈ decInt n.cc, isDig u = true := by
    rw [decInt_nonneg h0, ← dec_eq_decimal]; exact dec_digits _
  have hdn : decInt n.cc ≠ [] := by rw [decInt_nonneg h0, ← dec_eq_decimal]; exact dec_ne_nil _
  unfold lengthOfNdc
  simp only [hfmt, pieces_intl _ _ hd hdn]
  have hP : (fun u => !isDig (rune u)) = fun u => !isDig u := by funext u; rw [isDig_rune_iff]
  have hf : pieces (fun u => !isDig (rune u)) ((32 :: body).dropWhile fun u => !isDig (rune u)) = digitGroups body := by
    rw [hP, List.dropWhile_cons_of_pos (by decide), pieces_fields]
    · unfold digitGroups; congr 1; funext u; simp
    · obtain ⟨a, v, h1, h2⟩ := hend
      exact ⟨a, v, h1, by simp [h2]⟩
  rw [hf]
  have hall := fields_all isDig body
  match hg : digitGroups body with
  | [] => rfl
  | [a] => rfl
  | a :: b :: c =>
    have ea := blen_digits (s := a) (hall a (by rw [show fields isDig body = digitGroups body from rfl, hg]; simp))
    have eb := blen_digits (s := b) (hall b (by rw [show fields isDig body = digitGroups body from rfl, hg]; simp))
    simp only [ht, bind, Except.bind, pure, Except.pure, ea, eb, ndcLength, countryMobileToken]
    by_cases h1 : t = .mobile <;> by_cases h2 : n.cc = 54 <;> simp [h1, h2]

theorem isGeographicalForType_iff (t : NumType) (cc : Int) : isGeographicalForType t cc = true ↔ Geographical t cc := by
  simp only [isGeographicalForType, geoMobileCountries, Geographical, Bool.or_eq_true, Bool.and_eq_true, decide_eq_true_eq, List.mem_cons,
    List.not_mem_nil, or_false, or_assoc]
  constructor
  · rintro (h | h | h)
    · exact .inl h
    · exact .inr (.inl h)
    · exact .inr (.inr ⟨h.2, h.1⟩)
  · rintro (h | h | h)
    · exact .inl h
    · exact .inr (.inl h)
    · exact .inr (.inr ⟨h.2, h.1⟩)

/-- A number is geographical exactly if its type under the metadata of its region is. -/
theorem C75_geographical (C : Container) (hb : Built C) (htb : tablesOk C = true) (hd : C.allMeta.all hasAllDescs = true) (n : PhoneNumber) :
    isGeographical C n = .ok true ↔ ∃ r m t, RegionOf C (nsnOf n) (C.regionCodes n.cc) r ∧ C.metaFor n.cc r = some m ∧
      HasType (nsnOf n) m t ∧ Geographical t n.cc := by
  obtain ⟨r, hr, -⟩ := regionForNumber_ok hb htb hd n
  obtain ⟨v, t, -, ht, -⟩ := C26_valid_iff_type C hb htb hd n
  simp only [isGeographical, ht, bind, Except.bind, pure, Except.pure, Except.ok.injEq, isGeographicalForType_iff]
  constructor
  · intro h
    have := (C30_number C n r hr hd t).1 ht
    cases hm : C.metaFor n.cc r with
    | none =>
      rw [hm] at this
      simp only at this
      subst this
      simp [Geographical] at h
    | some m =>
      rw [hm] at this
      exact ⟨r, m, t, (C74_region C hb htb hd n r).1 hr, hm, this, h⟩
  · rintro ⟨r', m, t', h1, h2, h3, h4⟩
    have hr' := (C74_region C hb htb hd n r').2 h1
    have : numberType C n = .ok t' := by
      rw [C30_number C n r' hr' hd t', h2]; exact h3
    rw [ht] at this
    obtain rfl := Except.ok.inj this
    exact h4

/-- The length of the geographical area code is the length of the national destination code for numbers that have one, else 0. -/
theorem C75_area (C : Container) (hb : Built C) (htb : tablesOk C = true) (hd : C.allMeta.all hasAllDescs = true) (n : PhoneNumber) :
    ∃ r t, RegionOf C (nsnOf n) (C.regionCodes n.cc) r ∧ numberType C n = .ok t ∧
      lengthOfAreaCode C n = match C.metaForRegion r with
        | none => .ok 0
        | some m => if HasAreaCode m t n.cc (n.italianLeadingZero.getD false) then lengthOfNdc C n else .ok 0 := by
  obtain ⟨r, hr, -⟩ := regionForNumber_ok hb htb hd n
  obtain ⟨v, t, -, ht, -⟩ := C26_valid_iff_type C hb htb hd n
  refine ⟨r, t, (C74_region C hb htb hd n r).1 hr, ht, ?_⟩
  unfold lengthOfAreaCode isGeographical
  simp only [hr, ht, bind, Except.bind, pure, Except.pure]
  cases C.metaForRegion r with
  | none => rfl
  | some m =>
    simp only
    have hz : n.ilz = n.italianLeadingZero.getD false := rfl
    have hg := isGeographicalForType_iff t n.cc
    simp only [hz, HasAreaCode, ← hg, noNationalPrefixWithAreaCodes, geoMobileWithoutAreaCodes, List.mem_singleton]
    by_cases h1 : m.nationalPrefix = [] <;> by_cases h2 : n.italianLeadingZero.getD false = true <;> by_cases h3 : n.cc = 52 <;>
      by_cases h4 : t = .mobile <;> by_cases h5 : n.cc = 86 <;> by_cases h6 : isGeographicalForType t n.cc = true <;>
      simp_all

/-- A number cannot be dialled from abroad exactly if the description of such numbers in its region covers it. -/
theorem C75_dialled (C : Container) (hb : Built C) (htb : tablesOk C = true) (hd : C.allMeta.all hasAllDescs = true) (n : PhoneNumber) :
    ∃ v, canBeInternationallyDialled C n = .ok v ∧ (v = false ↔
      ∃ r m, RegionOf C (nsnOf n) (C.regionCodes n.cc) r ∧ C.metaForRegion r = some m ∧ Matches (nsnOf n) m.noInternational) := by
  obtain ⟨r, hr, -⟩ := regionForNumber_ok hb htb hd n
  have key : ∀ r', RegionOf C (nsnOf n) (C.regionCodes n.cc) r' → r' = r := by
    intro r' h
    have := (C74_region C hb htb hd n r').2 h
    rw [hr] at this
    exact (Except.ok.inj this).symm
  unfold canBeInternationallyDialled
  simp only [hr, bind, Except.bind]
  cases hm : C.metaForRegion r with
  | none =>
    refine ⟨true, rfl, ⟨fun h => by simp at h, ?_⟩⟩
    rintro ⟨r', m, h1, h2, -⟩
    rw [key r' h1, hm] at h2; cases h2
  | some m =>
    have h := List.all_eq_true.1 hd m (Container.metaForRegion_mem hm)
    simp only [hasAllDescs, Bool.and_eq_true] at h
    obtain ⟨x, hx⟩ := Option.isSome_iff_exists.1 h.2
    obtain ⟨b, hb', hbi⟩ := isMatchingDesc_spec (nsnOf n) (nsnOf_isDig n) x
    simp only [hx, hb']
    refine ⟨!b, rfl, ?_⟩
    rw [Bool.not_eq_false', hbi]
    constructor
    · intro h
      exact ⟨r, m, (C74_region C hb htb hd n r).1 hr, hm, by rw [hx]; exact h⟩
    · rintro ⟨r', m', h1, h2, h3⟩
      rw [key r' h1, hm] at h2
      obtain rfl := Option.some.inj h2
      rw [hx] at h3; exact h3

/-- For the shipped metadata. -/
theorem C75_shipped (n : PhoneNumber) :
    (isGeographical Data.container n = .ok true ↔ ∃ r m t, RegionOf Data.container (nsnOf n) (Data.container.regionCodes n.cc) r ∧
      Data.container.metaFor n.cc r = some m ∧ HasType (nsnOf n) m t ∧ Geographical t n.cc) ∧
    (∃ r t, RegionOf Data.container (nsnOf n) (Data.container.regionCodes n.cc) r ∧ numberType Data.container n = .ok t ∧
      lengthOfAreaCode Data.container n = match Data.container.metaForRegion r with
        | none => .ok 0
        | some m => if HasAreaCode m t n.cc (n.italianLeadingZero.getD false) then lengthOfNdc Data.container n else .ok 0) ∧
    (∃ v, canBeInternationallyDialled Data.container n = .ok v ∧ (v = false ↔
      ∃ r m, RegionOf Data.container (nsnOf n) (Data.container.regionCodes n.cc) r ∧ Data.container.metaForRegion r = some m ∧
        Matches (nsnOf n) m.noInternational)) :=
  ⟨C75_geographical _ built_shipped Data.wf_tables Data.wf_allDescs n, C75_area _ built_shipped Data.wf_tables Data.wf_allDescs n,
    C75_dialled _ built_shipped Data.wf_tables Data.wf_allDescs n⟩

example : digitGroups (str!"9 11 8765-4321") = [str!"9", str!"11", str!"8765", str!"4321"] ∧
    ndcLength true [str!"9", str!"11", str!"8765", str!"4321"] = 3 := by decide
example : numberType Data.container { countryCode := some 54, nationalNumber := some 91187654321 } = .ok .mobile ∧
    isGeographical Data.container { countryCode := some 54, nationalNumber := some 91187654321 } = .ok true ∧
    lengthOfAreaCode Data.container { countryCode := some 54, nationalNumber := some 91187654321 } = .ok 3 := by
  refine ⟨?_, ?_, ?_⟩ <;> kernel_rfl
/-- A Chinese mobile number is geographical but has no area code. -/
example : isGeographical Data.container { countryCode := some 86, nationalNumber := some 13123456789 } = .ok true ∧
    lengthOfAreaCode Data.container { countryCode := some 86, nationalNumber := some 13123456789 } = .ok 0 := by
  refine ⟨?_, ?_⟩ <;> kernel_rfl
example : canBeInternationallyDialled Data.container { countryCode := some 376, nationalNumber := some 18001234 } = .ok false ∧
    isValidNumber Data.container { countryCode := some 376, nationalNumber := some 18001234 } = .ok true := by
  refine ⟨?_, ?_⟩ <;> kernel_rfl

end Props
end Verif
