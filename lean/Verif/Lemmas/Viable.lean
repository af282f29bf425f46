import Verif.Regex.Static
import Verif.Lemmas.ParseCore
import Verif.Lemmas.Normalize
import Verif.Lemmas.Template
import Verif.Lemmas.Container
/-!
# Plus signs, viable numbers and the digit invariant of parsing
-/
namespace Verif

/-- The two plus characters. -/
def plusL : List Nat := [43, 0xff0b]

/-! ## Greedy repetition of a class -/

theorem cls_m_cons {β : Type} (c : Cls) (p u : Nat) (t : Str) (caps : List (Nat × Nat × Nat)) (k : MSt → Option β) :
    (Re.cls c).m ⟨p, u :: t, caps⟩ k = if c.mem u then k ⟨p + 1, t, caps⟩ else none := rfl

theorem rep_m {β : Type} (r : Re) (mn : Nat) (mx : Option Nat) (g : Bool) (st : MSt) (k : MSt → Option β) :
    (Re.rep r mn mx g).m st k =
      iterM r.m mn st fun st' => optM r.m g (match mx with | some x => x - mn | none => st'.rest.length) st' k := rfl

theorem optM_cls {β : Type} (c : Cls) (n p : Nat) (s : Str) (caps : List (Nat × Nat × Nat)) (k : MSt → Option β)
    (hn : s.length ≤ n) (hk : ∀ st, (k st).isSome) :
    optM (Re.cls c).m true n ⟨p, s, caps⟩ k = k ⟨p + (s.takeWhile c.mem).length, s.dropWhile c.mem, caps⟩ := by
  induction n generalizing p s with
  | zero =>
    have : s = [] := List.length_eq_zero_iff.mp (by omega)
    subst this; simp [optM]
  | succ n ih =>
    cases s with
    | nil => simp [optM, Re.m]
    | cons u t =>
      simp only [optM, cls_m_cons]
      by_cases hu : c.mem u = true
      · simp only [hu, if_true, List.length_cons, Nat.lt_add_one, List.takeWhile_cons_of_pos, List.dropWhile_cons_of_pos]
        rw [ih (p + 1) t (by simpa using hn)]
        obtain ⟨b, hb⟩ := Option.isSome_iff_exists.1 (hk ⟨p + 1 + (t.takeWhile c.mem).length, t.dropWhile c.mem, caps⟩)
        rw [hb, show p + ((t.takeWhile c.mem).length + 1) = p + 1 + (t.takeWhile c.mem).length by omega, hb]
      · simp [hu]

/-- `[c]+` at a fixed position takes the longest run. -/
theorem matchAt_plus_cls (c : Cls) (p : Nat) (s : Str) :
    (Re.rep (.cls c) 1 none true).matchAt p s =
      if s.takeWhile c.mem = [] then none else some ⟨p, p + (s.takeWhile c.mem).length, []⟩ := by
  cases s with
  | nil => simp [Re.matchAt, Re.m, iterM]
  | cons u t =>
    by_cases hu : c.mem u = true
    · simp only [Re.matchAt, rep_m, iterM, cls_m_cons, hu, if_true]
      rw [optM_cls c _ _ _ _ (fun st => some (⟨p, st.pos, st.caps⟩ : Match)) (Nat.le_refl _) (fun _ => rfl)]
      simp [hu]; omega
    · simp [Re.matchAt, Re.m, iterM, hu]

theorem plusCls_mem (u : Nat) : (⟨false, [(43, 43), (65291, 65291)], []⟩ : Cls).mem u = true ↔ rune u ∈ plusL := by
  simp [Cls.mem, Cls.has, inRanges, plusL]; omega

theorem plusCharsPattern_eq : plusCharsPattern = .rep (.cls ⟨false, [(43, 43), (65291, 65291)], []⟩) 1 none true := rfl

theorem plus_isMatch_iff (s : Str) : plusCharsPattern.isMatch s = true ↔ ∃ u ∈ s, rune u ∈ plusL := by
  rw [isMatch_iff]
  constructor
  · rintro ⟨a, w, e, rfl, h⟩
    have h1 := allCls_acc (P := (·.only plusL)) (Q := fun u => rune u ∈ plusL) (fun c hc u hu => Cls.only_mem hc u hu)
      plusCharsPattern (by decide +kernel) _ _ _ h
    have h2 := minLen_acc _ _ _ _ h
    cases w with
    | nil => exact absurd h2 (by decide)
    | cons u w => exact ⟨u, by simp, h1 u (by simp)⟩
  · rintro ⟨u, hu, hp⟩
    obtain ⟨a, b, rfl⟩ := List.append_of_mem hu
    refine ⟨a, [u], b, by simp, ?_⟩
    rw [plusCharsPattern_eq]
    exact ⟨1, Nat.le_refl _, by simp, [u], [], by simp, ⟨u, rfl, (plusCls_mem u).2 hp⟩, rfl⟩

/-- A run of plus signs at the start is found in full. -/
theorem plus_find_start (a b : Str) (h0 : a ≠ []) (ha : ∀ u ∈ a, rune u ∈ plusL) (hb : ∀ u ∈ b, rune u ∉ plusL) :
    plusCharsPattern.find (a ++ b) = some ⟨0, a.length, []⟩ := by
  have htw : (a ++ b).takeWhile (⟨false, [(43, 43), (65291, 65291)], []⟩ : Cls).mem = a := by
    rw [List.takeWhile_append_of_pos (fun u hu => (plusCls_mem u).2 (ha u hu))]
    cases b with
    | nil => simp
    | cons v b =>
      have : ¬ (⟨false, [(43, 43), (65291, 65291)], []⟩ : Cls).mem v = true := fun h => hb v (by simp) ((plusCls_mem v).1 h)
      simp [this]
  have hm := matchAt_plus_cls ⟨false, [(43, 43), (65291, 65291)], []⟩ 0 (a ++ b)
  rw [htw, if_neg h0, ← plusCharsPattern_eq] at hm
  cases hab : a ++ b with
  | nil => simp at hab; exact absurd hab.1 h0
  | cons u t => rw [Re.find, Re.findFrom, ← hab, hm]; simp

theorem plus_find_none (s : Str) (h : ∀ u ∈ s, rune u ∉ plusL) : plusCharsPattern.find s = none := by
  cases hf : plusCharsPattern.find s with
  | none => rfl
  | some x =>
    have : plusCharsPattern.isMatch s = true := by simp [Re.isMatch, hf]
    obtain ⟨u, hu, hp⟩ := (plus_isMatch_iff s).1 this
    exact absurd hp (h u hu)

/-! ## Viable numbers -/

/-- `validPhoneNumberPattern` without its anchors. -/
def validBody : Re := match validPhoneNumberPattern with | .cat _ (.cat x _) => x | r => r

theorem validPhoneNumberPattern_eq : validPhoneNumberPattern = validBody.full := rfl

theorem validBody_leadOnly : validBody.leadOnly plusL = true := by decide +kernel

theorem isViable_acc {s : Str} (h : isViable s = true) : validBody.Acc 0 s [] := by
  unfold isViable at h
  split at h
  · cases h
  · rwa [validPhoneNumberPattern_eq, full_isMatch_iff] at h

/-- A viable number has plus signs only at its start. -/
theorem viable_leadOnly {s : Str} (h : isViable s = true) : LeadOnly plusL s :=
  leadOnly_acc plusL validBody validBody_leadOnly 0 s [] (isViable_acc h)

/-- What is left after removing an extension is a non-empty prefix. -/
theorem stripExtension_prefix (s : Str) : ∃ e, s = (stripExtension s).2 ++ e := by
  unfold stripExtension
  split
  · exact ⟨[], by simp⟩
  · split
    · split
      · exact ⟨_, (List.take_append_drop _ _).symm⟩
      · exact ⟨[], by simp⟩
    · exact ⟨[], by simp⟩

/-- A viable number containing a plus sign still starts with one after removing the extension. -/
theorem viable_plus_start {s : Str} (h : isViable s = true) (hp : plusCharsPattern.isMatch s = true) :
    ∃ a b, (stripExtension s).2 = a ++ b ∧ a ≠ [] ∧ (∀ u ∈ a, rune u ∈ plusL) ∧ ∀ u ∈ b, rune u ∉ plusL := by
  obtain ⟨a, b, hs, ha, hb⟩ := viable_leadOnly h
  have ha0 : a ≠ [] := by
    rintro rfl
    obtain ⟨u, hu, hpu⟩ := (plus_isMatch_iff s).1 hp
    rw [hs] at hu; exact hb u (by simpa using hu) hpu
  obtain ⟨c, d, hcd, hc, hd⟩ := viable_leadOnly (stripExtension_cases s h)
  refine ⟨c, d, hcd, ?_, hc, hd⟩
  rintro rfl
  obtain ⟨e, he⟩ := stripExtension_prefix s
  cases d with
  | nil => exact stripExtension_ne_nil h (by simpa using hcd)
  | cons u d =>
    cases a with
    | nil => exact ha0 rfl
    | cons v a =>
      have h1 : u :: (d ++ e) = v :: (a ++ b) := by rw [hcd] at he; rw [he] at hs; simpa using hs
      simp only [List.cons.injEq] at h1
      exact hd u (by simp) (h1.1 ▸ ha v (by simp))

/-- With plus signs in front, the text after them is normalised and the source is the plus sign. -/
theorem stripIntlPrefix_plus (a b : Str) (idd : Re) (h0 : a ≠ []) (ha : ∀ u ∈ a, rune u ∈ plusL)
    (hb : ∀ u ∈ b, rune u ∉ plusL) : stripIntlPrefix (a ++ b) idd = (normalize b, .withPlusSign) := by
  unfold stripIntlPrefix
  have : a ++ b ≠ [] := by simp [h0]
  rw [if_neg this, plus_find_start a b h0 ha hb]
  simp

/-! ## Digits -/

theorem stripIntlPrefix_digits (s : Str) (idd : Re) : ∀ u ∈ (stripIntlPrefix s idd).1, isDig u = true := by
  unfold stripIntlPrefix
  split
  · rename_i h; simp [h]
  · split
    · exact normalize_digits _
    · simp only
      split
      · rename_i rest hr
        unfold parsePrefixAsIdd at hr
        have : ∀ x : Match, ∀ u ∈ (normalize s).drop x.stop, isDig u = true :=
          fun x u hu => normalize_digits s u (List.mem_of_mem_drop hu)
        grind
      · exact normalize_digits _

theorem stripNationalPrefix_digits (s : Str) (m : Metadata) (hm : Spec.transformOk m = true) (hs : ∀ u ∈ s, isDig u = true) :
    ∀ u ∈ (stripNationalPrefix s m).2.1, isDig u = true := by
  have ht : ∀ u ∈ m.npParsing.re.atStart.replaceAll s m.npTransform, isDig u = true := by
    intro u hu
    rcases replaceAll_mem hu with h | h
    · exact hs u h
    · exact List.all_eq_true.1 hm u h
  have hd : ∀ x : Match, ∀ u ∈ s.drop x.stop, isDig u = true := fun x u hu => hs u (List.mem_of_mem_drop hu)
  unfold stripNationalPrefix
  grind

theorem extractCCLoop_spec (C : Container) (full : Str) (k i : Nat) (c : Int) (r : Str)
    (h : extractCCLoop C full k i = some (c, r)) :
    C.hasCC c = true ∧ ∃ j, i ≤ j ∧ j < i + k ∧ j ≤ full.length ∧ r = full.drop j ∧
      c = (if (full.take j).all isDig then (digVal (full.take j) : Int) else 0) := by
  induction k generalizing i with
  | zero => cases h
  | succ k ih =>
    simp only [extractCCLoop] at h
    split at h
    · rename_i hi
      by_cases hc : C.hasCC (if (full.take i).all isDig then (digVal (full.take i) : Int) else 0) = true
      · rw [if_pos hc] at h
        cases h
        exact ⟨hc, i, Nat.le_refl _, by omega, hi, rfl, rfl⟩
      · rw [if_neg hc] at h
        obtain ⟨h1, j, h2, h3, h4⟩ := ih (i + 1) h
        exact ⟨h1, j, by omega, by omega, h4⟩
    · cases h

theorem extractCC_spec (C : Container) (full : Str) (h : (extractCC C full).1 ≠ 0) :
    C.hasCC (extractCC C full).1 = true ∧ full.head? ≠ some 48 ∧ ∃ j, 1 ≤ j ∧ j ≤ 3 ∧ j ≤ full.length ∧
      (extractCC C full).2 = full.drop j ∧ (∀ u ∈ full.take j, isDig u = true) ∧
      (extractCC C full).1 = (digVal (full.take j) : Int) := by
  unfold extractCC at h ⊢
  split at h
  · exact absurd rfl h
  · exact absurd rfl h
  · rename_i h0 h1
    split at h
    · rename_i r hr
      obtain ⟨h2, j, h3, h4, h5, h6, h7⟩ := extractCCLoop_spec C full _ _ r.1 r.2 hr
      refine ⟨h2, ?_, j, h3, by simp only [maxLengthCountryCode] at h4; omega, h5, h6, ?_⟩
      · cases full with
        | nil => simp
        | cons u t => simp; rintro rfl; exact h1 t rfl
      · split at h7
        · rename_i hd; exact ⟨List.all_eq_true.1 hd, h7⟩
        · exact absurd h7 h
    · exact absurd rfl h

/-- Outcome of an extraction attempt. -/
theorem extractOnce_spec {C : Container} {number : Str} {m : Option Metadata} {code : Int} {rest : Str} {src : CCSource}
    (h : extractOnce C number m = .ok (.ok (code, rest, src)))
    (hm : ∀ md, m = some md → C.hasCC md.countryCode = true ∧ Spec.transformOk md = true) :
    (code = 0 ∧ rest = [] ∧ src = .defaultCountry) ∨
    (C.hasCC code = true ∧ (∀ u ∈ rest, isDig u = true) ∧ src ≠ .defaultCountry) := by
  unfold extractOnce at h
  have hd := fun idd => stripIntlPrefix_digits number idd
  cases m with
  | none =>
    simp only at h
    split at h
    · rename_i hs
      split at h
      · cases h
      · by_cases hc : (extractCC C (stripIntlPrefix number nonMatchIdd).1).1 ≠ 0
        · rw [if_pos hc] at h
          cases h
          obtain ⟨h1, _, j, _, _, _, h2, _⟩ := extractCC_spec C _ hc
          exact .inr ⟨h1, by rw [h2]; exact fun u hu => hd _ u (List.mem_of_mem_drop hu), hs⟩
        · rw [if_neg hc] at h; cases h
    · rename_i hs; cases h; exact .inl ⟨rfl, rfl, by simpa using hs⟩
  | some md =>
    obtain ⟨hcc, htr⟩ := hm md rfl
    simp only at h
    split at h
    · rename_i hs
      split at h
      · cases h
      · by_cases hc : (extractCC C (stripIntlPrefix number md.internationalPrefix.re).1).1 ≠ 0
        · rw [if_pos hc] at h
          cases h
          obtain ⟨h1, _, j, _, _, _, h2, _⟩ := extractCC_spec C _ hc
          exact .inr ⟨h1, by rw [h2]; exact fun u hu => hd _ u (List.mem_of_mem_drop hu), hs⟩
        · rw [if_neg hc] at h; cases h
    · rename_i hs
      split at h
      · cases ht : testNumberLength (stripIntlPrefix number md.internationalPrefix.re).1 (some md) .unknown with
        | error p => rw [ht] at h; cases h
        | ok v =>
          rw [ht] at h
          simp only [bind, Except.bind] at h
          split at h
          · cases h
            exact .inr ⟨hcc, stripNationalPrefix_digits _ md htr (fun u hu => hd _ u (List.mem_of_mem_drop hu)), by simp⟩
          · cases h; exact .inl ⟨rfl, rfl, by simpa using hs⟩
      · cases h; exact .inl ⟨rfl, rfl, by simpa using hs⟩

/-- With plus signs in front an attempt that succeeds finds a code. -/
theorem extractOnce_plus (C : Container) (a b : Str) (m : Option Metadata) (h0 : a ≠ []) (ha : ∀ u ∈ a, rune u ∈ plusL)
    (hb : ∀ u ∈ b, rune u ∉ plusL) :
    extractOnce C (a ++ b) m =
      if blen (normalize b) ≤ minLengthForNSN then .ok (.error .tooShortAfterIdd)
      else if (extractCC C (normalize b)).1 ≠ 0 then
        .ok (.ok ((extractCC C (normalize b)).1, (extractCC C (normalize b)).2, .withPlusSign))
      else .ok (.error .invalidCountryCode) := by
  unfold extractOnce
  simp only [stripIntlPrefix_plus a b _ h0 ha hb]
  simp

/-- An extraction that finds no code took the default source. -/
theorem extractCore_zero {C : Container} {number : Str} {m : Option Metadata} {rest : Str} {src : CCSource}
    (h : extractCore C number m = .ok (.ok (0, rest, src))) : extractOnce C number m = .ok (.ok (0, rest, src)) := by
  unfold extractCore at h
  cases h1 : extractOnce C number m with
  | error p => rw [h1] at h; cases h
  | ok r =>
    rw [h1] at h
    cases r with
    | ok r => cases h; rfl
    | error e =>
      simp only [bind, Except.bind] at h
      split at h
      · split at h
        · split at h
          · cases h
          · split at h
            · cases h
            · split at h
              · cases h
              · rename_i hr; cases h; exact absurd rfl (hr _ _)
        · cases h
      · cases h

theorem extractCore_spec {C : Container} {number : Str} {m : Option Metadata} {code : Int} {rest : Str} {src : CCSource}
    (h : extractCore C number m = .ok (.ok (code, rest, src)))
    (hm : ∀ md, m = some md → C.hasCC md.countryCode = true ∧ Spec.transformOk md = true) :
    (code = 0 ∧ rest = [] ∧ src = .defaultCountry) ∨
    (C.hasCC code = true ∧ (∀ u ∈ rest, isDig u = true) ∧ src ≠ .defaultCountry) := by
  unfold extractCore at h
  cases h1 : extractOnce C number m with
  | error p => rw [h1] at h; cases h
  | ok r =>
    rw [h1] at h
    cases r with
    | ok r => cases h; exact extractOnce_spec h1 hm
    | error e =>
      simp only [bind, Except.bind] at h
      split at h
      · split at h
        · split at h
          · cases h
          · split at h
            · cases h
            · rename_i x _ _ _ v hv
              split at h
              · cases h
              · cases h
                exact extractOnce_spec hv hm
        · cases h
      · cases h

end Verif
