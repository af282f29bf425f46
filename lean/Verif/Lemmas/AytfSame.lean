import Verif.Lemmas.ShownSteps
import Verif.Spec.Marks
/-!
# What an as-you-type formatter shows depends on what was typed only
-/
namespace Verif.Aytf
open Spec
open Verif.Builder (bind_ok)

/-- The fields that are not looked at while formatting. -/
structure Coat where
  country : Str
  metadata : Metadata
  orig : Nat
  rem : Nat

/-- A state with other such fields. -/
def dress (k : Coat) (a : Aytf) : Aytf :=
  { a with defaultCountry := k.country, defaultMeta := k.metadata, originalPos := k.orig, rememberPos := k.rem }

/-- The same for a result. -/
def dressP (k : Coat) (p : Aytf × Str) : Aytf × Str := (dress k p.1, p.2)

theorem append_dress (k : Coat) (a : Aytf) (s : Str) : (dress k a).append s = a.append s := rfl

theorem formatAccruedLoop_dress (k : Coat) (F : List NumberFormat) (a : Aytf) :
    formatAccruedLoop (dress k a) F = dressP k (formatAccruedLoop a F) := by
  induction F generalizing a with
  | nil => rfl
  | cons f F ih =>
    have ih1 := ih { a with addSpace := nationalPrefixSeparators.isMatch f.npRule }
    have e : ∀ b, formatAccruedLoop b (f :: F) = if f.pattern.re.full.isMatch b.nn then
        (if normalizeDiallable (append { b with addSpace := nationalPrefixSeparators.isMatch f.npRule } (f.pattern.re.full.replaceAll b.nn f.format)) = b.plain
          then ({ b with addSpace := nationalPrefixSeparators.isMatch f.npRule },
            append { b with addSpace := nationalPrefixSeparators.isMatch f.npRule } (f.pattern.re.full.replaceAll b.nn f.format))
          else formatAccruedLoop { b with addSpace := nationalPrefixSeparators.isMatch f.npRule } F)
        else formatAccruedLoop b F := fun _ => rfl
    rw [e, e]
    show (if f.pattern.re.full.isMatch a.nn then (if normalizeDiallable (append (dress k { a with addSpace := nationalPrefixSeparators.isMatch f.npRule })
        (f.pattern.re.full.replaceAll a.nn f.format)) = a.plain then _ else
        formatAccruedLoop (dress k { a with addSpace := nationalPrefixSeparators.isMatch f.npRule }) F) else _) = _
    rw [append_dress, ih1, ih a]
    split
    · split <;> rfl
    · rfl

theorem formatAccrued_dress (k : Coat) (a : Aytf) : (dress k a).formatAccrued = dressP k a.formatAccrued := formatAccruedLoop_dress k _ a

theorem createLoop_dress (k : Coat) (F : List NumberFormat) (a : Aytf) :
    createLoop (dress k a) F = (dress k (createLoop a F).1, (createLoop a F).2) := by
  induction F generalizing a with
  | nil => rfl
  | cons f F ih =>
    unfold createLoop
    rw [show (dress k a).currentPattern = a.currentPattern from rfl]
    split
    · rfl
    · dsimp only
      rw [show (dress k a).nn = a.nn from rfl]
      split
      · rfl
      · exact ih { a with template := [] }

theorem createTemplate_dress (k : Coat) (a : Aytf) :
    (dress k a).createTemplate = (dress k a.createTemplate.1, a.createTemplate.2) := createLoop_dress k _ a

theorem digitHelper_dress (k : Coat) (a : Aytf) (c : Nat) : (dress k a).digitHelper c = dressP k (a.digitHelper c) := by
  unfold digitHelper
  rw [show (dress k a).template = a.template from rfl, show (dress k a).lastMatch = a.lastMatch from rfl]
  split <;> rfl

theorem inputBytes_dress (k : Coat) (bs : List Nat) (a : Aytf) (out : Str) :
    inputBytes (dress k a) bs out = dressP k (inputBytes a bs out) := by
  induction bs generalizing a out with
  | nil => rfl
  | cons b bs ih =>
    unfold inputBytes
    dsimp only
    rw [digitHelper_dress]
    exact ih _ _

theorem inputAccrued_dress (k : Coat) (a : Aytf) : (dress k a).inputAccrued = dressP k a.inputAccrued := by
  unfold inputAccrued
  rw [show (dress k a).nn = a.nn from rfl]
  split
  · rfl
  · dsimp only
    rw [inputBytes_dress]
    rfl

/-- A result in another coat. -/
def dressG (k : Coat) (g : Go (Aytf × Str)) : Go (Aytf × Str) := g.map (dressP k)

theorem dressG_ok {k : Coat} {g : Go (Aytf × Str)} {p : Aytf × Str} (h : dressG k g = .ok p) : ∃ q, g = .ok q ∧ p = dressP k q := by
  unfold dressG at h
  cases g with
  | error e => cases h
  | ok q => exact ⟨q, rfl, (Except.ok.inj h).symm⟩

theorem dress_bind {α : Type} {k : Coat} (g : Go α) (f f' : α → Go (Aytf × Str)) (h : ∀ x, f' x = dressG k (f x)) :
    (g >>= f') = dressG k (g >>= f) := by
  cases g with
  | error e => rfl
  | ok x => exact h x

theorem getAvailable_dress (k : Coat) (a : Aytf) (d : Str) : (dress k a).getAvailable d = (a.getAvailable d).map (dress k) := by
  unfold getAvailable
  have e1 : (dress k a).available = a.available := rfl
  rw [e1]
  simp only [show (dress k a).complete = a.complete from rfl, show (dress k a).ndd = a.ndd from rfl,
    show (dress k a).currentMeta = a.currentMeta from rfl, show (dress k a).formats = a.formats from rfl]
  generalize narrow d _ = g
  cases g <;> rfl

theorem finish_dress (k : Coat) (a : Aytf) (x : Aytf → Str) (hx : ∀ b, x (dress k b) = x b) :
    (if (dress k a).createTemplate.2 then (pure (dress k a).createTemplate.1.inputAccrued : Go (Aytf × Str))
      else pure ((dress k a).createTemplate.1, x (dress k a).createTemplate.1)) =
    dressG k (if a.createTemplate.2 then pure a.createTemplate.1.inputAccrued else pure (a.createTemplate.1, x a.createTemplate.1)) := by
  rw [createTemplate_dress]
  dsimp only
  split
  · rw [inputAccrued_dress]; rfl
  · rw [hx]; rfl

theorem choosePattern_dress (k : Coat) (a : Aytf) : (dress k a).choosePattern = dressG k a.choosePattern := by
  unfold choosePattern
  rw [show (dress k a).nn = a.nn from rfl]
  split
  · rw [getAvailable_dress]
    generalize a.getAvailable a.nn = g
    cases g with
    | error e => rfl
    | ok b =>
      show (if (dress k b).formatAccrued.2 ≠ [] then (pure (dress k b).formatAccrued : Go (Aytf × Str)) else _) =
        dressG k (if b.formatAccrued.2 ≠ [] then pure b.formatAccrued else _)
      rw [formatAccrued_dress]
      show (if b.formatAccrued.2 ≠ [] then _ else _) = _
      split
      · rfl
      · exact finish_dress k b.formatAccrued.1 (fun x => x.accrued) (fun _ => rfl)
  · rfl

theorem choosePatternWithPrefix_dress (k : Coat) (a : Aytf) : (dress k a).choosePatternWithPrefix = dressG k a.choosePatternWithPrefix := by
  unfold choosePatternWithPrefix
  exact choosePattern_dress k { a with able := true, expecting := false, formats := [], lastMatch := 0, template := [], currentPattern := [] }

/-- The last part of `laterStep`. -/
def laterFinish (w : Aytf) (o : Str) : Go (Aytf × Str) :=
  narrow w.nn w.formats >>= fun fs =>
    if (createTemplate { w with formats := fs }).2 then pure (createTemplate { w with formats := fs }).1.inputAccrued
    else pure ((createTemplate { w with formats := fs }).1,
      if (createTemplate { w with formats := fs }).1.able then (createTemplate { w with formats := fs }).1.append o
      else (createTemplate { w with formats := fs }).1.accrued)

theorem laterFinish_dress (k : Coat) (w : Aytf) (o : Str) : laterFinish (dress k w) o = dressG k (laterFinish w o) := by
  unfold laterFinish
  refine dress_bind (narrow w.nn w.formats) _ _ (fun fs => ?_)
  exact finish_dress k { w with formats := fs } (fun x => if x.able then x.append o else x.accrued) (fun _ => rfl)

theorem laterStep_eq (C : Container) (a : Aytf) (c : Nat) (h : a.expecting = false) : a.laterStep C c =
    if a.formats ≠ [] then
      (if (a.digitHelper c).1.formatAccrued.2 ≠ [] then pure (a.digitHelper c).1.formatAccrued
        else laterFinish (a.digitHelper c).1.formatAccrued.1 (a.digitHelper c).2)
    else a.choosePattern := by
  unfold laterStep
  rw [if_neg (by rw [h]; simp)]
  rfl

/-- A further digit, when no calling code is awaited. -/
theorem laterStep_dress (k : Coat) (C : Container) (a : Aytf) (c : Nat) (h : a.expecting = false) :
    (dress k a).laterStep C c = dressG k (a.laterStep C c) := by
  rw [laterStep_eq C a c h, laterStep_eq C (dress k a) c h, show (dress k a).formats = a.formats from rfl]
  split
  · rw [digitHelper_dress]
    show (if (dress k (a.digitHelper c).1).formatAccrued.2 ≠ [] then (pure (dress k (a.digitHelper c).1).formatAccrued : Go (Aytf × Str))
      else laterFinish (dress k (a.digitHelper c).1).formatAccrued.1 (a.digitHelper c).2) = _
    rw [formatAccrued_dress]
    show (if (a.digitHelper c).1.formatAccrued.2 ≠ [] then _ else laterFinish (dress k (a.digitHelper c).1.formatAccrued.1) _) = _
    split
    · rfl
    · exact laterFinish_dress k _ _
  · exact choosePattern_dress k a

theorem removeNationalPrefix_dress (k : Coat) (a : Aytf) :
    (dress k a).removeNationalPrefix = (dress k a.removeNationalPrefix.1, a.removeNationalPrefix.2) := by
  unfold removeNationalPrefix
  rw [show (dress k a).isNanpaWithPrefix = a.isNanpaWithPrefix from rfl, show (dress k a).currentMeta = a.currentMeta from rfl,
    show (dress k a).nn = a.nn from rfl]
  split
  · rfl
  · split
    · split
      · split <;> rfl
      · rfl
    · rfl

theorem longerNdd_dress (k : Coat) (a : Aytf) : (dress k a).longerNdd = a.longerNdd.map (fun r => (dress k r.1, r.2)) := by
  have key : ∀ b : Aytf, ((dress k b).removeNationalPrefix.1, decide ((dress k b).ndd ≠ (dress k b).removeNationalPrefix.2)) =
      (dress k b.removeNationalPrefix.1, decide (b.ndd ≠ b.removeNationalPrefix.2)) := by
    intro b; rw [removeNationalPrefix_dress]; rfl
  by_cases h : a.ndd = []
  · have e : ∀ b : Aytf, b.ndd = [] → b.longerNdd = .ok (b.removeNationalPrefix.1, decide (b.ndd ≠ b.removeNationalPrefix.2)) := by
      intro b hb; unfold longerNdd; rw [if_neg (by simp [hb])]; rfl
    rw [e _ h, e (dress k a) h, key]; rfl
  · cases hl : lastIndexOf a.pre a.ndd with
    | none =>
      have e : ∀ b : Aytf, b.ndd ≠ [] → lastIndexOf b.pre b.ndd = none → b.longerNdd = .error .index := by
        intro b hb hl; unfold longerNdd; rw [if_pos hb, hl]; rfl
      rw [e _ h hl, e (dress k a) h hl]; rfl
    | some i =>
      have e : ∀ b : Aytf, b.ndd ≠ [] → lastIndexOf b.pre b.ndd = some i → b.longerNdd =
          .ok ((removeNationalPrefix { b with nn := b.ndd ++ b.nn, pre := b.pre.take i }).1,
            decide (b.ndd ≠ (removeNationalPrefix { b with nn := b.ndd ++ b.nn, pre := b.pre.take i }).2)) := by
        intro b hb hl; unfold longerNdd; rw [if_pos hb, hl]; rfl
      rw [e _ h hl, e (dress k a) h hl]
      have := key { a with nn := a.ndd ++ a.nn, pre := a.pre.take i }
      exact congrArg Except.ok this

theorem extractIdd_dress (k : Coat) (a : Aytf) : (dress k a).extractIdd = a.extractIdd.map (fun r => (dress k r.1, r.2)) := by
  unfold extractIdd
  rw [show (dress k a).currentMeta = a.currentMeta from rfl, show (dress k a).plain = a.plain from rfl]
  split
  · rfl
  · split <;> rfl

/-- Two regions between which the search for a calling code does not distinguish. -/
def Fits (C : Container) (x y : Str) : Prop :=
  ∀ s, (extractCC C s).1 ≠ 0 → C.mainRegion (extractCC C s).1 ≠ nonGeoRegion →
    (C.mainRegion (extractCC C s).1 ≠ x ↔ C.mainRegion (extractCC C s).1 ≠ y)

theorem Fits.of_eq {C : Container} {x y : Str} (h : x = y) : Fits C x y := fun _ _ _ => by rw [h]

theorem extractCallingCode_dress (k : Coat) (C : Container) (a : Aytf) (h : Fits C k.country a.defaultCountry) :
    (dress k a).extractCallingCode C = (dress k (a.extractCallingCode C).1, (a.extractCallingCode C).2) := by
  unfold extractCallingCode
  rw [show (dress k a).nn = a.nn from rfl]
  split
  · rfl
  · dsimp only
    split
    · rfl
    · rename_i h0
      have h := h a.nn h0
      by_cases h1 : C.mainRegion (extractCC C a.nn).1 = nonGeoRegion
      · simp only [h1, if_true]; rfl
      · simp only [h1, if_false]
        rw [show (dress k a).defaultCountry = k.country from rfl]
        by_cases h2 : C.mainRegion (extractCC C a.nn).1 ≠ a.defaultCountry
        · rw [if_pos h2, if_pos ((h h1).2 h2)]; rfl
        · rw [if_neg h2, if_neg (fun h3 => h2 ((h h1).1 h3))]; rfl

theorem unableStep_dress (k : Coat) (C : Container) (a : Aytf) (h : Fits C k.country a.defaultCountry) :
    (dress k a).unableStep C = dressG k (a.unableStep C) := by
  unfold unableStep
  rw [show (dress k a).hasFmt = a.hasFmt from rfl]
  split
  · rfl
  · rw [extractIdd_dress]
    cases hi : a.extractIdd with
    | error e => rfl
    | ok r =>
      show (if r.2 then _ else _) = dressG k (if r.2 then _ else _)
      split
      · have hc : Fits C k.country r.1.defaultCountry := by rw [(extractIdd_frame (k := r.2) hi).defaultCountry]; exact h
        dsimp only
        rw [extractCallingCode_dress k C r.1 hc]
        dsimp only
        split
        · exact choosePatternWithPrefix_dress k _
        · rfl
      · dsimp only
        rw [longerNdd_dress]
        cases r.1.longerNdd with
        | error e => rfl
        | ok q =>
          cases hq : q.2 with
          | true =>
            show (if q.2 then choosePatternWithPrefix (dress k { q.1 with pre := q.1.pre ++ [32] }) else _) = dressG k (if q.2 then _ else _)
            rw [if_pos hq, if_pos hq]
            exact choosePatternWithPrefix_dress k _
          | false =>
            show (if q.2 then choosePatternWithPrefix (dress k { q.1 with pre := q.1.pre ++ [32] }) else _) = dressG k (if q.2 then _ else _)
            rw [if_neg (by simp [hq]), if_neg (by simp [hq])]
            rfl

theorem laterStep_dress' (k : Coat) (C : Container) (a : Aytf) (c : Nat) (h : Fits C k.country a.defaultCountry) :
    (dress k a).laterStep C c = dressG k (a.laterStep C c) := by
  cases he : a.expecting with
  | false => exact laterStep_dress k C a c he
  | true =>
    unfold laterStep
    rw [if_pos (show (dress k a).expecting = true from he), if_pos he]
    dsimp only
    rw [extractCallingCode_dress k C a h]
    dsimp only
    split <;> rfl

theorem ableStep_dress (k : Coat) (C : Container) (a : Aytf) (c : Nat) (h : Fits C k.country a.defaultCountry) :
    (dress k a).ableStep C c = dressG k (a.ableStep C c) := by
  unfold ableStep
  rw [show (dress k a).plain = a.plain from rfl]
  split
  · rfl
  · split
    · rw [extractIdd_dress]
      cases hi : a.extractIdd with
      | error e => rfl
      | ok r =>
        have hc : Fits C k.country r.1.defaultCountry := by rw [(extractIdd_frame (k := r.2) hi).defaultCountry]; exact h
        show (if r.2 then laterStep C (dress k { r.1 with expecting := true }) c else _) = dressG k (if r.2 then _ else _)
        split
        · exact laterStep_dress' k C { r.1 with expecting := true } c hc
        · dsimp only
          rw [removeNationalPrefix_dress]
          exact choosePattern_dress k { r.1.removeNationalPrefix.1 with ndd := r.1.removeNationalPrefix.2 }
    · exact laterStep_dress' k C a c h

/-- The coat after a character. -/
def Coat.next (k : Coat) (a : Aytf) (c : Nat) (r : Bool) : Coat :=
  if r then ⟨k.country, k.metadata, (a.accrued ++ [c]).length, (a.taken c r).plain.length⟩ else k

theorem noted_dress (k : Coat) (a : Aytf) (c : Nat) (r : Bool) :
    (dress k a).noted c r = dress { k with orig := if r then (a.accrued ++ [c]).length else k.orig } (a.noted c false) := by
  cases r <;> rfl

theorem taken_dress (k : Coat) (a : Aytf) (c : Nat) (r : Bool) :
    (dress k a).taken c r = dress (k.next a c r) (a.taken c false) ∧
    (((dress k a).noted c r).accrue c r).2 = ((a.noted c false).accrue c false).2 := by
  unfold taken accrue noted Coat.next dress taken accrue noted
  by_cases hc : c = 43 <;> cases r <;> simp [hc]

theorem phone_dress (k : Coat) (a : Aytf) (c : Nat) (r : Bool) :
    ((dress k a).noted c r).isDigitOrLeadingPlus c = (a.noted c false).isDigitOrLeadingPlus c := by
  rw [noted_dress]; rfl

/-- A character, in another coat. -/
theorem inputCore_dress (k : Coat) (C : Container) (a : Aytf) (c : Nat) (r : Bool) (h : Fits C k.country a.defaultCountry) :
    ∃ k' : Coat, k'.country = k.country ∧ k'.metadata = k.metadata ∧ (dress k a).inputCore C c r = dressG k' (a.inputCore C c false) := by
  obtain ⟨t1, t2⟩ := taken_dress k a c r
  have e1 : a.inputCore C c false = if !(a.noted c false).isDigitOrLeadingPlus c then unableStep C { a.noted c false with able := false, hasFmt := true }
      else if !(a.taken c false).able then unableStep C (a.taken c false) else ableStep C (a.taken c false) ((a.noted c false).accrue c false).2 :=
    inputCore_eq C a c false
  have e2 : (dress k a).inputCore C c r = if !((dress k a).noted c r).isDigitOrLeadingPlus c then
      unableStep C { (dress k a).noted c r with able := false, hasFmt := true }
      else if !((dress k a).taken c r).able then unableStep C ((dress k a).taken c r)
      else ableStep C ((dress k a).taken c r) (((dress k a).noted c r).accrue c r).2 :=
    inputCore_eq C (dress k a) c r
  rw [phone_dress, t1, t2] at e2
  cases hp : (a.noted c false).isDigitOrLeadingPlus c with
  | false =>
    rw [hp, if_pos (by rfl)] at e1 e2
    rw [noted_dress] at e2
    have hu : ∀ b : Aytf, b.hasFmt = true → unableStep C b = .ok (b, b.accrued) := by
      intro b hb; unfold unableStep; rw [if_pos hb]
    rw [hu _ rfl] at e1 e2
    refine ⟨{ k with orig := if r then (a.accrued ++ [c]).length else k.orig }, rfl, rfl, ?_⟩
    rw [e2, e1]; rfl
  | true =>
    rw [hp, if_neg (by simp)] at e1 e2
    have hk : (k.next a c r).country = k.country ∧ (k.next a c r).metadata = k.metadata := by unfold Coat.next; split <;> exact ⟨rfl, rfl⟩
    have hc : Fits C (k.next a c r).country (a.taken c false).defaultCountry := by
      rw [hk.1, taken_rest]; exact h
    refine ⟨k.next a c r, hk.1, hk.2, ?_⟩
    rw [e1, e2, show (dress (k.next a c r) (a.taken c false)).able = (a.taken c false).able from rfl]
    split
    · exact unableStep_dress _ C _ hc
    · exact ableStep_dress _ C _ _ hc

/-- One character. -/
def canonStep (C : Container) (b : Aytf) (c : Nat) : Go Aytf := do
  let q ← b.inputCore C c false
  return { q.1 with currentOutput := q.2 }

/-- The characters `x` typed into a fresh formatter. -/
def canon (C : Container) (r : Str) (x : Str) : Go Aytf := x.foldlM (canonStep C) (new C r)

theorem canon_snoc {C : Container} {r : Str} {x : Str} {c : Nat} {b : Aytf} {q : Aytf × Str} (h : canon C r x = .ok b)
    (hq : b.inputCore C c false = .ok q) : canon C r (x ++ [c]) = .ok { q.1 with currentOutput := q.2 } := by
  unfold canon at h ⊢
  rw [List.foldlM_append, h]
  show (canonStep C b c >>= _) = _
  unfold canonStep
  rw [hq]; rfl

/-- Every state is that of the characters typed, but for the positions, also in the formatter of a region treated alike. -/
theorem same_calls_alike {C : Container} {r r0 : Str} (hf : Fits C r r0) (hm : metaFor C r = metaFor C r0) {ks : List Call} {a : Aytf}
    (h : calls C (new C r) ks = .ok a) : ∃ b k, canon C r0 (typed ks) = .ok b ∧ a = dress k b := by
  have hn : new C r = dress ⟨r, metaFor C r, 0, 0⟩ (new C r0) := by unfold new dress; rw [hm]
  have key : Home C r a ∧ ∃ b k, canon C r0 (typed ks) = .ok b ∧ b.defaultCountry = r0 ∧ b.defaultMeta = metaFor C r0 ∧
      k.country = r ∧ k.metadata = metaFor C r ∧ a = dress k b := by
    refine calls_induct (P := fun x a => Home C r a ∧ ∃ b k, canon C r0 x = .ok b ∧ b.defaultCountry = r0 ∧ b.defaultMeta = metaFor C r0 ∧
      k.country = r ∧ k.metadata = metaFor C r ∧ a = dress k b) ?_ ?_ (s := [])
      ⟨⟨rfl, rfl⟩, new C r0, ⟨r, metaFor C r, 0, 0⟩, rfl, rfl, rfl, rfl, rfl, hn⟩ h
    · intro x a ⟨ha, _⟩
      rw [clear_eq_new ha]
      exact ⟨⟨rfl, rfl⟩, new C r0, ⟨r, metaFor C r, 0, 0⟩, rfl, rfl, rfl, rfl, rfl, hn⟩
    · intro x a c rb q ⟨ha, b, k, h1, h2, h3, h4, h5, h6⟩ hc hq
      refine ⟨home_step ha hq, ?_⟩
      obtain ⟨k', k1, k2, k3⟩ := inputCore_dress k C b c rb (by rw [h4, h2]; exact hf)
      rw [h6, k3] at hq
      obtain ⟨q', g1, g2⟩ := dressG_ok hq
      have hb : Home C r0 { q'.1 with currentOutput := q'.2 } := home_step ⟨h2, h3⟩ g1
      refine ⟨{ q'.1 with currentOutput := q'.2 }, k', ?_, hb.country, hb.metadata, k1.trans h4, k2.trans h5, by rw [g2]; rfl⟩
      exact canon_snoc h1 g1
  obtain ⟨_, b, k, h1, _, _, _, _, h2⟩ := key
  exact ⟨b, k, h1, h2⟩

/-- Every state is that of the characters typed, but for the positions. -/
theorem same_calls {C : Container} {r : Str} {ks : List Call} {a : Aytf} (h : calls C (new C r) ks = .ok a) :
    ∃ b k, canon C r (typed ks) = .ok b ∧ a = dress k b := same_calls_alike (.of_eq rfl) rfl h

/-! ## International numbers -/

/-- The metadata used after the calling code `c`. -/
def metaOf (C : Container) (c : Int) : Metadata :=
  if C.mainRegion c = nonGeoRegion then (C.metaForNonGeo c).getD nilMetadata else metaFor C (C.mainRegion c)

theorem extract_metaOf {C : Container} {a : Aytf} (h : a.currentMeta = metaFor C a.defaultCountry ∨ a.currentMeta = metaOf C (extractCC C a.nn).1) :
    a.extractCallingCode C = if (extractCC C a.nn).1 = 0 then (a, false) else
      ({ a with nn := (extractCC C a.nn).2, currentMeta := metaOf C (extractCC C a.nn).1,
                pre := a.pre ++ decInt (extractCC C a.nn).1 ++ [32], ndd := [] }, true) := by
  unfold extractCallingCode
  by_cases hn : a.nn = []
  · rw [if_pos hn, hn]; rfl
  · rw [if_neg hn]
    dsimp only
    split
    · rfl
    · have hm : (if C.mainRegion (extractCC C a.nn).1 = nonGeoRegion then (C.metaForNonGeo (extractCC C a.nn).1).getD nilMetadata
          else if C.mainRegion (extractCC C a.nn).1 ≠ a.defaultCountry then metaFor C (C.mainRegion (extractCC C a.nn).1) else a.currentMeta) =
          metaOf C (extractCC C a.nn).1 := by
        generalize (extractCC C a.nn).1 = c at h
        unfold metaOf at h ⊢
        split
        · rfl
        · rename_i h1
          rw [if_neg h1] at h
          split
          · rfl
          · rename_i h2
            rw [Classical.not_not] at h2
            rcases h with h | h
            · rw [h, h2]
            · exact h
      rw [hm]

theorem extractCCLoop_more {C : Container} {t w : Str} {k i : Nat} {x : Int × Str} (h : extractCCLoop C t k i = some x) :
    extractCCLoop C (t ++ w) k i = some (x.1, x.2 ++ w) := by
  induction k generalizing i with
  | zero => cases h
  | succ k ih =>
    unfold extractCCLoop at h ⊢
    split at h
    · rename_i hi
      rw [if_pos (by rw [List.length_append]; omega)]
      dsimp only at h ⊢
      rw [List.take_append_of_le_length hi, List.drop_append_of_le_length hi]
      generalize (if (t.take i).all isDig = true then (digVal (t.take i) : Int) else 0) = code at h ⊢
      by_cases hc : C.hasCC code = true
      · rw [if_pos hc] at h ⊢
        have h := Option.some.inj h
        rw [← h]
      · rw [if_neg hc] at h ⊢
        exact ih h
    · cases h

/-- More digits do not change the calling code. -/
theorem extractCC_more {C : Container} {t : Str} (w : Str) (h : (extractCC C t).1 ≠ 0) :
    extractCC C (t ++ w) = ((extractCC C t).1, (extractCC C t).2 ++ w) := by
  cases t with
  | nil => exact absurd rfl h
  | cons u t =>
    by_cases hu : u = 48
    · subst hu; exact absurd rfl h
    · have e : ∀ t, extractCC C (u :: t) = (match extractCCLoop C (u :: t) maxLengthCountryCode 1 with | some r => r | none => (0, [])) := by
        intro t; unfold extractCC
        split
        · rename_i hh; cases hh
        · rename_i hh; cases hh; exact absurd rfl hu
        · rfl
      rw [e] at h ⊢
      rw [List.cons_append, e]
      cases hl : extractCCLoop C (u :: t) maxLengthCountryCode 1 with
      | none => rw [hl] at h; exact absurd rfl h
      | some x =>
        have := extractCCLoop_more (w := w) hl
        rw [List.cons_append] at this
        rw [this]

/-- The states of two formatters for different regions after the same characters, the first of which is a plus sign. -/
inductive Same (C : Container) (r0 r : Str) (b a : Aytf) : Prop
  | fmt (h1 : a.hasFmt = true ∧ a.able = false) (h2 : b.hasFmt = true ∧ b.able = false)
  | before (k : Coat) (ha : a = { dress k b with currentMeta := metaFor C r }) (hb : b.currentMeta = metaFor C r0) (h0 : b.hasFmt = false)
      (h1 : b.able = true) (h2 : b.plain = 43 :: b.nn) (h3 : 3 ≤ blen b.plain → b.expecting = true)
  | after (k : Coat) (t : Str) (ha : a = dress k b) (h0 : b.hasFmt = false) (h1 : b.plain = 43 :: t) (h2 : (extractCC C t).1 ≠ 0)
      (h3 : b.currentMeta = metaOf C (extractCC C t).1) (h4 : b.expecting = false) (h5 : 3 ≤ blen b.plain)

/-- While the calling code is awaited. -/
theorem same_expect {C : Container} {r0 r : Str} {k : Coat} {b : Aytf} {c : Nat} (hb : b.currentMeta = metaFor C r0) (hr : k.country = r)
    (hr0 : b.defaultCountry = r0) (h0 : b.hasFmt = false) (h1 : b.able = true) (h2 : b.plain = 43 :: b.nn) (h3 : b.expecting = true)
    (h5 : 3 ≤ blen b.plain) {p : Aytf × Str} (hp : laterStep C { dress k b with currentMeta := metaFor C r } c = .ok p) :
    ∃ q, laterStep C b c = .ok q ∧ p.2 = q.2 ∧ Same C r0 r { q.1 with currentOutput := q.2 } { p.1 with currentOutput := p.2 } := by
  unfold laterStep at hp ⊢
  rw [if_pos (show ({ dress k b with currentMeta := metaFor C r } : Aytf).expecting = true from h3)] at hp
  rw [if_pos h3]
  dsimp only at hp ⊢
  rw [extract_metaOf (.inl (by rw [show ({ dress k b with currentMeta := metaFor C r } : Aytf).defaultCountry = k.country from rfl, hr]))] at hp
  rw [extract_metaOf (.inl (by rw [hb, hr0]))]
  rw [show ({ dress k b with currentMeta := metaFor C r } : Aytf).nn = b.nn from rfl] at hp
  by_cases hz : (extractCC C b.nn).1 = 0
  · rw [if_pos hz] at hp ⊢
    have hp := Except.ok.inj hp
    refine ⟨_, rfl, by rw [← hp]; rfl, ?_⟩
    rw [← hp]
    exact .before k rfl hb h0 h1 h2 (fun _ => h3)
  · rw [if_neg hz] at hp ⊢
    have hp := Except.ok.inj hp
    refine ⟨_, rfl, by rw [← hp]; rfl, ?_⟩
    rw [← hp]
    exact .after k b.nn rfl h0 h2 hz rfl rfl h5

/-- What a further digit leaves alone when no calling code is awaited. -/
theorem laterStep_keeps {C : Container} {a : Aytf} {c : Nat} {p : Aytf × Str} (h : a.laterStep C c = .ok p) (he : a.expecting = false) :
    FrameT a p.1 := by
  rw [laterStep_eq C a c he] at h
  split at h
  · have f1 := (digitHelper_frame a c).trans (formatAccrued_frame (a.digitHelper c).1)
    split at h
    · obtain rfl := Except.ok.inj h
      exact f1
    · unfold laterFinish at h
      obtain ⟨fs, _, h⟩ := bind_ok.1 h
      have f2 := (f1.trans (FrameT.formats _ fs)).trans (createTemplate_frame _)
      split at h
      · obtain rfl := Except.ok.inj h
        exact f2.trans (inputAccrued_frame _)
      · obtain rfl := Except.ok.inj h
        exact f2
  · exact choosePattern_frame h

theorem taken_meta (k : Coat) (m : Metadata) (a : Aytf) (c : Nat) (r : Bool) :
    ({ dress k a with currentMeta := m } : Aytf).taken c r = { dress (k.next a c r) (a.taken c false) with currentMeta := m } ∧
    ((({ dress k a with currentMeta := m } : Aytf).noted c r).accrue c r).2 = ((a.noted c false).accrue c false).2 ∧
    (({ dress k a with currentMeta := m } : Aytf).noted c r).isDigitOrLeadingPlus c = (a.noted c false).isDigitOrLeadingPlus c := by
  unfold taken accrue noted Coat.next dress taken accrue noted isDigitOrLeadingPlus
  by_cases hc : c = 43 <;> cases r <;> simp [hc]

/-- A phone character after the first one is a digit. -/
theorem digit_of_phone {a : Aytf} {c : Nat} (hx : a.accrued ≠ []) (h : (a.noted c false).isDigitOrLeadingPlus c = true) :
    ∃ v, isDig v = true ∧ (a.taken c false).plain = a.plain ++ [v] ∧ (a.taken c false).nn = a.nn ++ [v] ∧
      ((a.noted c false).accrue c false).2 = v := by
  unfold isDigitOrLeadingPlus at h
  have hl : (a.noted c false).accrued.length ≠ 1 := by
    show (a.accrued ++ [c]).length ≠ 1
    rw [List.length_append]
    have := List.length_pos_iff.2 hx
    simp; omega
  rw [decide_eq_false hl, Bool.false_and, Bool.or_false, isUniDigit_iff] at h
  obtain ⟨v, hv⟩ := h
  have hv := (charDigit_iff c _).2 ⟨v, hv, rfl⟩
  have hc43 : c ≠ 43 := by rintro rfl; exact absurd hv (by rw [show charDigit 43 = none by decide +kernel]; simp)
  obtain ⟨p1, p2, p3⟩ := taken_other a false hc43
  rw [hv, Option.getD_some] at p1 p2 p3
  exact ⟨_, charDigit_isDig hv, p1, p2, p3⟩

theorem noted_fmt {C : Container} {a : Aytf} {c : Nat} {r : Bool}
    (h : (a.hasFmt = true ∧ a.able = false) ∨ (a.noted c r).isDigitOrLeadingPlus c = false) :
    ∃ p, a.inputCore C c r = .ok p ∧ p.1.hasFmt = true ∧ p.1.able = false := by
  have hu : ∀ b : Aytf, b.hasFmt = true → unableStep C b = .ok (b, b.accrued) := by
    intro b hb; unfold unableStep; rw [if_pos hb]
  have e : a.inputCore C c r = if !(a.noted c r).isDigitOrLeadingPlus c then unableStep C { a.noted c r with able := false, hasFmt := true }
      else if !(a.taken c r).able then unableStep C (a.taken c r) else ableStep C (a.taken c r) ((a.noted c r).accrue c r).2 :=
    inputCore_eq C a c r
  cases hp : (a.noted c r).isDigitOrLeadingPlus c with
  | false =>
    rw [hp, if_pos (by rfl), hu _ rfl] at e
    exact ⟨_, e, rfl, rfl⟩
  | true =>
    rcases h with ⟨h1, h2⟩ | h
    · have t1 : (a.taken c r).able = false := by rw [taken_rest]; exact h2
      have t2 : (a.taken c r).hasFmt = true := by rw [taken_rest]; exact h1
      rw [hp, if_neg (by simp), if_pos (by rw [t1]; rfl), hu _ t2] at e
      exact ⟨_, e, t2, t1⟩
    · rw [hp] at h; cases h

/-- One more character. -/
theorem same_step {C : Container} {r0 r : Str} {b a : Aytf} {c : Nat} {rb : Bool} (h : Same C r0 r b a) (hx : b.accrued ≠ [])
    (ha : a.defaultCountry = r) (hb : b.defaultCountry = r0) {p : Aytf × Str} (hp : a.inputCore C c rb = .ok p) :
    ∃ q, b.inputCore C c false = .ok q ∧ Same C r0 r { q.1 with currentOutput := q.2 } { p.1 with currentOutput := p.2 } := by
  have eb : b.inputCore C c false = if !(b.noted c false).isDigitOrLeadingPlus c then unableStep C { b.noted c false with able := false, hasFmt := true }
      else if !(b.taken c false).able then unableStep C (b.taken c false) else ableStep C (b.taken c false) ((b.noted c false).accrue c false).2 :=
    inputCore_eq C b c false
  have ea : a.inputCore C c rb = if !(a.noted c rb).isDigitOrLeadingPlus c then unableStep C { a.noted c rb with able := false, hasFmt := true }
      else if !(a.taken c rb).able then unableStep C (a.taken c rb) else ableStep C (a.taken c rb) ((a.noted c rb).accrue c rb).2 :=
    inputCore_eq C a c rb
  have hfmt : ((a.hasFmt = true ∧ a.able = false) ∨ (a.noted c rb).isDigitOrLeadingPlus c = false) →
      ((b.hasFmt = true ∧ b.able = false) ∨ (b.noted c false).isDigitOrLeadingPlus c = false) →
      ∃ q, b.inputCore C c false = .ok q ∧ Same C r0 r { q.1 with currentOutput := q.2 } { p.1 with currentOutput := p.2 } := by
    intro k1 k2
    obtain ⟨p', g1, g2⟩ := noted_fmt (C := C) k1
    obtain ⟨q, g3, g4⟩ := noted_fmt (C := C) k2
    rw [g1] at hp
    cases hp
    exact ⟨q, g3, .fmt g2 g4⟩
  cases h with
  | fmt h1 h2 => exact hfmt (.inl h1) (.inl h2)
  | before k hk hm h0 h1 h2 h3 =>
    obtain ⟨t1, t2, t3⟩ := taken_meta k (metaFor C r) b c rb
    rw [← hk] at t1 t2 t3
    cases hph : (b.noted c false).isDigitOrLeadingPlus c with
    | false => exact hfmt (.inr (t3.trans hph)) (.inr hph)
    | true =>
      obtain ⟨v, v1, v2, v3, _⟩ := digit_of_phone hx hph
      have e1 : (b.taken c false).able = true := by rw [taken_rest]; exact h1
      have e2 : (b.taken c false).hasFmt = false := by rw [taken_rest]; exact h0
      have e3 : (b.taken c false).currentMeta = metaFor C r0 := by rw [taken_rest]; exact hm
      have e4 : (b.taken c false).expecting = b.expecting := by rw [taken_rest]
      have e5 : (b.taken c false).defaultCountry = r0 := by rw [taken_rest]; exact hb
      have e6 : (b.taken c false).plain = 43 :: (b.taken c false).nn := by rw [v2, v3, h2]; rfl
      have e7 : (k.next b c rb).country = r := by
        rw [← ha, hk]; unfold Coat.next; split <;> rfl
      have e8 : blen (b.taken c false).plain = blen b.plain + 1 := by rw [v2]; exact blen_snoc_digit v1
      rw [t3, t1, t2, hph, if_neg (by simp), if_neg (by show ¬ (!(b.taken c false).able) = true; rw [e1]; simp)] at ea
      rw [hph, if_neg (by simp), if_neg (by rw [e1]; simp)] at eb
      rw [ea] at hp
      rw [eb]
      generalize b.taken c false = B at *
      generalize k.next b c rb = K at *
      generalize ((b.noted c false).accrue c false).2 = d at *
      unfold ableStep at hp ⊢
      rw [show ({ dress K B with currentMeta := metaFor C r } : Aytf).plain = B.plain from rfl] at hp
      by_cases l1 : blen B.plain < 3
      · rw [if_pos l1] at hp ⊢
        have hp := Except.ok.inj hp
        refine ⟨_, rfl, ?_⟩
        rw [← hp]
        exact .before K rfl e3 e2 e1 e6 (fun h => absurd (show 3 ≤ blen B.plain from h) (by omega))
      · rw [if_neg l1] at hp ⊢
        by_cases l2 : blen B.plain = 3
        · rw [if_pos l2] at hp ⊢
          rw [idd_plus (a := { dress K B with currentMeta := metaFor C r }) e6] at hp
          rw [idd_plus e6]
          have := same_expect (C := C) (r0 := r0) (r := r) (k := K)
            (b := { B with complete := true, nn := B.nn, pre := [43], expecting := true }) (c := d) e3 e7 e5 e2 e1 e6 rfl (by show 3 ≤ blen B.plain; omega) hp
          obtain ⟨q, g1, _, g3⟩ := this
          exact ⟨q, g1, g3⟩
        · rw [if_neg l2] at hp ⊢
          obtain ⟨q, g1, _, g3⟩ := same_expect e3 e7 e5 e2 e1 e6 (by rw [e4]; exact h3 (by omega)) (by omega) hp
          exact ⟨q, g1, g3⟩
  | after k t hk h0 h1 h2 h3 h4 h5 =>
    obtain ⟨t1, t2⟩ := taken_dress k b c rb
    have t3 := phone_dress k b c rb
    rw [← hk] at t1 t2 t3
    cases hph : (b.noted c false).isDigitOrLeadingPlus c with
    | false => exact hfmt (.inr (t3.trans hph)) (.inr hph)
    | true =>
      obtain ⟨v, v1, v2, v3, _⟩ := digit_of_phone hx hph
      have e1 : (b.taken c false).able = b.able := by rw [taken_rest]
      have e2 : (b.taken c false).hasFmt = false := by rw [taken_rest]; exact h0
      have e3 : (b.taken c false).currentMeta = metaOf C (extractCC C t).1 := by rw [taken_rest]; exact h3
      have e4 : (b.taken c false).expecting = false := by rw [taken_rest]; exact h4
      have e6 : (b.taken c false).plain = 43 :: (t ++ [v]) := by rw [v2, h1]; rfl
      have e8 : blen (b.taken c false).plain = blen b.plain + 1 := by rw [v2]; exact blen_snoc_digit v1
      have e9 := extractCC_more [v] h2
      rw [t3, t1, t2, hph, if_neg (by simp), show (dress (k.next b c rb) (b.taken c false)).able = (b.taken c false).able from rfl] at ea
      rw [hph, if_neg (by simp)] at eb
      rw [ea] at hp
      rw [eb]
      generalize b.taken c false = B at *
      generalize k.next b c rb = K at *
      generalize ((b.noted c false).accrue c false).2 = d at *
      have hn : (extractCC C (t ++ [v])).1 ≠ 0 := by rw [e9]; exact h2
      by_cases hable : B.able = true
      · rw [if_neg (by rw [hable]; simp)] at hp ⊢
        unfold ableStep at hp ⊢
        rw [show (dress K B).plain = B.plain from rfl, if_neg (by omega), if_neg (by omega), laterStep_dress K C B d e4] at hp
        rw [if_neg (by omega), if_neg (by omega)]
        obtain ⟨q, g1, g2⟩ := dressG_ok hp
        have f := laterStep_keeps g1 e4
        refine ⟨q, g1, ?_⟩
        rw [g2]
        exact .after K (t ++ [v]) rfl (f.hasFmt.trans e2) (f.plain.trans e6) hn (by rw [e9]; exact f.currentMeta.trans e3) (f.expecting.trans e4)
          (by show 3 ≤ blen q.1.plain; rw [f.plain]; omega)
      · rw [if_pos (by simpa using hable)] at hp ⊢
        unfold unableStep at hp ⊢
        rw [show (dress K B).hasFmt = B.hasFmt from rfl, if_neg (by rw [e2]; simp), idd_plus (a := dress K B) e6] at hp
        rw [if_neg (by rw [e2]; simp), idd_plus e6]
        have x1 := extract_metaOf (C := C) (a := { dress K B with complete := true, nn := t ++ [v], pre := [43] }) (.inr (by
          show B.currentMeta = metaOf C (extractCC C (t ++ [v])).1
          rw [e9]; exact e3))
        have x2 := extract_metaOf (C := C) (a := { B with complete := true, nn := t ++ [v], pre := [43] }) (.inr (by
          show B.currentMeta = metaOf C (extractCC C (t ++ [v])).1
          rw [e9]; exact e3))
        rw [if_neg hn] at x1 x2
        change (let q := extractCallingCode C { dress K B with complete := true, nn := t ++ [v], pre := [43] }
          if q.2 then q.1.choosePatternWithPrefix else return (q.1, q.1.accrued)) = .ok p at hp
        show ∃ q, (let q := extractCallingCode C { B with complete := true, nn := t ++ [v], pre := [43] }
          if q.2 then q.1.choosePatternWithPrefix else return (q.1, q.1.accrued)) = .ok q ∧ _
        rw [x1] at hp
        rw [x2]
        dsimp only at hp ⊢
        rw [if_pos rfl] at hp ⊢
        have := choosePatternWithPrefix_dress K { B with
          complete := true, nn := (extractCC C (t ++ [v])).2, currentMeta := metaOf C (extractCC C (t ++ [v])).1,
          pre := [43] ++ decInt (extractCC C (t ++ [v])).1 ++ [32], ndd := [] }
        rw [show (dress K { B with
          complete := true, nn := (extractCC C (t ++ [v])).2, currentMeta := metaOf C (extractCC C (t ++ [v])).1,
          pre := [43] ++ decInt (extractCC C (t ++ [v])).1 ++ [32], ndd := [] }) = { dress K B with
          complete := true, nn := (extractCC C (t ++ [v])).2, currentMeta := metaOf C (extractCC C (t ++ [v])).1,
          pre := [43] ++ decInt (extractCC C (t ++ [v])).1 ++ [32], ndd := [] } from rfl] at this
        rw [this] at hp
        obtain ⟨q, g1, g2⟩ := dressG_ok hp
        obtain ⟨f, _, _, _, f1, _, f2⟩ := choosePatternWithPrefix_frame g1
        refine ⟨q, g1, ?_⟩
        rw [g2]
        exact .after K (t ++ [v]) rfl (f.hasFmt.trans e2) (f.plain.trans e6) hn f1 f2
          (by show 3 ≤ blen q.1.plain; rw [f.plain]; show 3 ≤ blen B.plain; omega)

/-- Formatters for different regions, after the same characters, the first of which is a plus sign. -/
theorem same_regions {C : Container} {r0 r : Str} {ks : List Call} {a : Aytf} {w : Str} (h : calls C (new C r) ks = .ok a)
    (hw : typed ks = 43 :: w) : ∃ b, canon C r0 (typed ks) = .ok b ∧ Same C r0 r b a := by
  have key : Home C r a ∧ (typed ks = [] → a = new C r) ∧ (∀ w, typed ks = 43 :: w →
      ∃ b, canon C r0 (typed ks) = .ok b ∧ Home C r0 b ∧ Typed (typed ks) b ∧ Same C r0 r b a) := by
    refine calls_induct (P := fun x a => Home C r a ∧ (x = [] → a = new C r) ∧ (∀ w, x = 43 :: w →
      ∃ b, canon C r0 x = .ok b ∧ Home C r0 b ∧ Typed x b ∧ Same C r0 r b a)) ?_ ?_ (s := []) ⟨⟨rfl, rfl⟩, fun _ => rfl, fun w hw => by cases hw⟩ h
    · intro x a ⟨ha, _, _⟩
      exact ⟨⟨ha.1, ha.2⟩, fun _ => clear_eq_new ha, fun w hw => by cases hw⟩
    · intro x a c rb q ⟨ha, h1, h2⟩ hc hq
      refine ⟨home_step ha hq, fun hx => absurd hx (by simp), fun w hw => ?_⟩
      cases x with
      | nil =>
        cases hw
        rw [h1 rfl] at hq
        have e1 : ∀ r b, (new C r).inputCore C 43 b = .ok ((new C r).taken 43 b, [43]) := by
          intro r b; cases b <;> rfl
        rw [e1] at hq
        cases hq
        refine ⟨_, canon_snoc (x := []) (c := 43) rfl (e1 r0 false), ⟨rfl, rfl⟩, (typed_step C).2 [] _ 43 false _ (typed_new C r0) (by decide) (e1 r0 false), ?_⟩
        refine .before ⟨r, metaFor C r, ((new C r).taken 43 rb).originalPos, ((new C r).taken 43 rb).rememberPos⟩ ?_ rfl rfl rfl rfl
          (fun h => absurd (show 3 ≤ blen [43] from h) (by decide))
        cases rb <;> rfl
      | cons u x =>
        obtain ⟨rfl, _⟩ := List.cons.inj hw
        obtain ⟨b, g1, g2, g3, g4⟩ := h2 x rfl
        obtain ⟨q', k1, k2⟩ := same_step g4 (by rw [g3.accrued]; simp) ha.1 g2.1 hq
        exact ⟨_, canon_snoc g1 k1, home_step g2 k1, (typed_step C).2 _ _ _ _ _ g3 hc k1, k2⟩
  obtain ⟨b, h1, _, _, h2⟩ := key.2.2 w hw
  exact ⟨b, h1, h2⟩

/-- Two formatters for regions treated alike. -/
theorem output_alike {C : Container} {r r' : Str} (hf : Fits C r r') (hm : metaFor C r = metaFor C r') {ks ls : List Call} {a b : Aytf}
    (ha : calls C (new C r) ks = .ok a) (hb : calls C (new C r') ls = .ok b) (h : typed ks = typed ls) :
    a.currentOutput = b.currentOutput := by
  obtain ⟨c, k, h1, rfl⟩ := same_calls_alike hf hm ha
  obtain ⟨d, l, h2, rfl⟩ := same_calls hb
  rw [h, h2] at h1
  cases h1
  rfl

/-- Two formatters for one region. -/
theorem output_same {C : Container} {r : Str} {ks ls : List Call} {a b : Aytf} (ha : calls C (new C r) ks = .ok a)
    (hb : calls C (new C r) ls = .ok b) (h : typed ks = typed ls) : a.currentOutput = b.currentOutput :=
  output_alike (.of_eq rfl) rfl ha hb h

/-- Two formatters for any two regions. -/
theorem output_plus {C : Container} {r r' : Str} {ks ls : List Call} {a b : Aytf} {w : Str} (ha : calls C (new C r) ks = .ok a)
    (hb : calls C (new C r') ls = .ok b) (h : typed ks = typed ls) (hw : typed ks = 43 :: w) : a.currentOutput = b.currentOutput := by
  obtain ⟨c, k, h1, h2⟩ := same_calls ha
  obtain ⟨d, h3, h4⟩ := same_regions (r0 := r) hb (h ▸ hw)
  rw [← h, h1] at h3
  cases h3
  have ht := typed_calls ha
  have ht' := typed_calls hb
  have e : a.currentOutput = c.currentOutput := by rw [h2]; rfl
  cases h4 with
  | fmt g1 g2 =>
    have k1 : a.able = false ∧ a.hasFmt = true := by rw [h2]; exact ⟨g2.2, g2.1⟩
    have o1 := ht.out k1.1
    have o2 := ht'.out g1.2
    rw [k1.2] at o1
    rw [g1.1] at o2
    simp only [Bool.true_eq_false, false_and, or_false] at o1 o2
    rw [o1, o2, ht.accrued, ht'.accrued, h]
  | before l g => rw [e, g]; rfl
  | after l t g => rw [e, g]; rfl

/-! ## Positions -/

/-- The positions noted by a character. -/
theorem step_marks {C : Container} {a : Aytf} {c : Nat} {r : Bool} {p : Aytf × Str} (hi : Inv a) (h : a.inputCore C c r = .ok p) :
    p.1.originalPos = (if r then a.accrued.length + 1 else a.originalPos) ∧
    (p.1.hasFmt = false → p.1.rememberPos = if r then a.accrued.length + 1 else a.rememberPos) := by
  have t1 : (a.taken c r).originalPos = (if r then a.accrued.length + 1 else a.originalPos) := by
    unfold taken accrue noted; by_cases hc : c = 43 <;> cases r <;> simp [hc]
  have t2 : (a.taken c r).rememberPos = (if r then a.plain.length + 1 else a.rememberPos) := by
    unfold taken accrue noted; by_cases hc : c = 43 <;> cases r <;> simp [hc]
  have t3 : (a.taken c r).hasFmt = a.hasFmt := taken_hasFmt a c r
  have key : Frame (a.taken c r) p.1 → p.1.originalPos = (if r then a.accrued.length + 1 else a.originalPos) ∧
      (p.1.hasFmt = false → p.1.rememberPos = if r then a.accrued.length + 1 else a.rememberPos) := by
    intro f
    refine ⟨f.originalPos.trans t1, fun hf => ?_⟩
    rw [f.rememberPos, t2, hi.same (by rw [← t3, ← f.hasFmt]; exact hf)]
  rcases inputCore_cases h with ⟨_, rfl⟩ | ⟨_, _, h⟩ | ⟨_, _, h⟩
  · refine ⟨?_, fun h => by cases h⟩
    show (a.noted c r).originalPos = _
    unfold noted; cases r <;> simp
  · exact key (unableStep_frame h)
  · exact key (ableStep_frame h)

theorem marks {C : Container} {ks : List Call} {a b : Aytf} {s : Str} {m : Nat} (h : calls C a ks = .ok b) (ht : Typed s a)
    (h1 : a.originalPos = m) (h2 : a.hasFmt = false → a.rememberPos = m) :
    b.originalPos = markFrom s.length m ks ∧ (b.hasFmt = false → b.rememberPos = markFrom s.length m ks) := by
  induction ks generalizing a s m with
  | nil => cases h; exact ⟨h1, h2⟩
  | cons k ks ih =>
    obtain ⟨a1, g1, h⟩ := bind_ok.1 h
    rcases call_cases g1 with ⟨rfl, rfl⟩ | ⟨c, r, q, hk, hq, rfl⟩
    · exact ih (s := []) h ((typed_step C).1 s a ht) rfl (fun _ => rfl)
    · obtain ⟨k1, k2⟩ := step_marks ht.inv hq
      have ht' := (typed_step C).2 s a _ r q ht (typedChar_lt c) hq
      rw [ht.accrued] at k1 k2
      have := ih (m := if r then s.length + 1 else m) h ht' (by rw [← h1]; exact k1) (by
        intro hf
        show q.1.rememberPos = _
        rw [k2 hf]
        have := h2 (inputCore_hasFmt hq hf).2
        cases r <;> simp [this])
      rw [List.length_append] at this
      rcases hk with ⟨rfl, rfl⟩ | ⟨rfl, rfl⟩ <;> exact this

/-- The remembered position of two formatters for regions treated alike. -/
theorem position_alike {C : Container} {r r' : Str} (hf : Fits C r r') (hr : metaFor C r = metaFor C r') {ks ls : List Call} {a b : Aytf}
    (ha : calls C (new C r) ks = .ok a) (hb : calls C (new C r') ls = .ok b) (h : typed ks = typed ls) (hm : mark ks = mark ls) :
    a.position = b.position := by
  obtain ⟨c, k, h1, e1⟩ := same_calls_alike hf hr ha
  obtain ⟨d, l, h2, e2⟩ := same_calls hb
  rw [h, h2] at h1
  cases h1
  rename Aytf => d
  obtain ⟨m1, m2⟩ := marks (m := 0) ha (typed_new C r) rfl (fun _ => rfl)
  obtain ⟨m3, m4⟩ := marks (m := 0) hb (typed_new C r') rfl (fun _ => rfl)
  change a.originalPos = mark ks at m1
  change b.originalPos = mark ls at m3
  change _ → a.rememberPos = mark ks at m2
  change _ → b.rememberPos = mark ls at m4
  have f1 : a.able = d.able ∧ a.plain = d.plain ∧ a.currentOutput = d.currentOutput := by rw [e1]; exact ⟨rfl, rfl, rfl⟩
  have f2 : b.able = d.able ∧ b.plain = d.plain ∧ b.currentOutput = d.currentOutput := by rw [e2]; exact ⟨rfl, rfl, rfl⟩
  have i1 := (typed_calls ha).inv
  have i2 := (typed_calls hb).inv
  unfold position
  rw [f1.1, f2.1, f1.2.1, f2.2.1, f1.2.2, f2.2.2, m1, m3, hm]
  cases hd : d.able with
  | false => rfl
  | true =>
    have g1 : a.hasFmt = false := by
      cases hf : a.hasFmt with
      | false => rfl
      | true => have := i1.fmt hf; rw [f1.1, hd] at this; cases this
    have g2 : b.hasFmt = false := by
      cases hf : b.hasFmt with
      | false => rfl
      | true => have := i2.fmt hf; rw [f2.1, hd] at this; cases this
    rw [m2 g1, m4 g2, hm]

/-- The remembered position of two formatters for one region. -/
theorem position_same {C : Container} {r : Str} {ks ls : List Call} {a b : Aytf} (ha : calls C (new C r) ks = .ok a)
    (hb : calls C (new C r) ls = .ok b) (h : typed ks = typed ls) (hm : mark ks = mark ls) : a.position = b.position :=
  position_alike (.of_eq rfl) rfl ha hb h hm

end Verif.Aytf
