import Verif.Model.Iterate
import Verif.Lemmas.Matcher
/-!
# Searches that differ in their limit or in their consumer
-/
namespace Verif
namespace Finder

/-- One search has `d` tries more than the other. -/
def Tries.More (d : Nat) (t t' : Tries) : Prop := t'.left = t.left + d

/-- The search with more tries does the same, or the other one has used up its tries without a match. -/
def Same (d : Nat) (r r' : Option FoundNumber × Tries) : Prop :=
  (r.1 = r'.1 ∧ Tries.More d r.2 r'.2) ∨ (r.1 = none ∧ r.2.left ≤ 0)

theorem More.reject {d : Nat} {t t' : Tries} (h : Tries.More d t t') : Tries.More d t.reject t'.reject := by
  unfold Tries.More Tries.reject at *; simp only; omega

theorem innerLoop_more (F : Finder) (candidate : Str) (offset d : Nat) (gs : List Match) :
    ∀ (first : Bool) (t t' : Tries) (r r' : Option FoundNumber × Tries), Tries.More d t t' →
      F.innerLoop candidate offset first gs t = .ok r → F.innerLoop candidate offset first gs t' = .ok r' → Same d r r' := by
  induction gs with
  | nil =>
    intro first t t' r r' hm h h'
    simp only [innerLoop, Except.ok.injEq] at h h'
    subst h h'
    exact .inl ⟨rfl, hm⟩
  | cons g gs ih =>
    intro first t t' r r' hm h h'
    rw [innerLoop] at h h'
    by_cases h0 : t.left ≤ 0
    · simp only [h0, if_true, Except.ok.injEq] at h
      subst h
      exact .inr ⟨rfl, h0⟩
    · have h0' : ¬ t'.left ≤ 0 := by unfold Tries.More at hm; omega
      simp only [h0, h0', if_false] at h h'
      cases hp : F.firstPiece candidate offset g.start first with
      | error e => simp only [hp, bind, Except.bind] at h; cases h
      | ok o =>
        simp only [hp, bind, Except.bind] at h h'
        cases o with
        | some m =>
          simp only [pure, Except.pure, Except.ok.injEq] at h h'
          subst h h'
          exact .inl ⟨rfl, hm⟩
        | none =>
          simp only at h h'
          have hm1 : Tries.More d (if first then t.reject else t) (if first then t'.reject else t') := by
            cases first
            · exact hm
            · exact More.reject hm
          generalize (if first then t.reject else t) = u at h hm1
          generalize (if first then t'.reject else t') = u' at h' hm1
          cases hs : g.span 1 with
          | none => simp only [hs] at h; cases h
          | some ab =>
            obtain ⟨a, b⟩ := ab
            simp only [hs] at h h'
            cases hq : F.parseAndVerify (trimAfterFirstMatch unwantedEndCharPattern (slice candidate a b)) (offset + a) with
            | error e => simp only [hq] at h; cases h
            | ok o =>
              simp only [hq] at h h'
              cases o with
              | some m =>
                simp only [pure, Except.pure, Except.ok.injEq] at h h'
                subst h h'
                exact .inl ⟨rfl, hm1⟩
              | none => exact ih false _ _ _ _ (More.reject hm1) h h'

theorem innerLoop_spent (F : Finder) (candidate : Str) (offset : Nat) (gs : List Match) (first : Bool) (t : Tries) (h : t.left ≤ 0) :
    F.innerLoop candidate offset first gs t = .ok (none, t) := by
  cases gs with
  | nil => rfl
  | cons g gs => rw [innerLoop, if_pos h]

theorem extractInner_spent (F : Finder) (candidate : Str) (offset : Nat) (rs : List Re) (t : Tries) (h : t.left ≤ 0) :
    F.extractInner candidate offset rs t = .ok (none, t) := by
  induction rs with
  | nil => rfl
  | cons r rs ih =>
    rw [extractInner, innerLoop_spent F _ _ _ _ _ h]
    exact ih

theorem extractInner_more (F : Finder) (candidate : Str) (offset d : Nat) (rs : List Re) :
    ∀ (t t' : Tries) (r r' : Option FoundNumber × Tries), Tries.More d t t' →
      F.extractInner candidate offset rs t = .ok r → F.extractInner candidate offset rs t' = .ok r' → Same d r r' := by
  induction rs with
  | nil =>
    intro t t' r r' hm h h'
    simp only [extractInner, Except.ok.injEq] at h h'
    subst h h'
    exact .inl ⟨rfl, hm⟩
  | cons p rs ih =>
    intro t t' r r' hm h h'
    rw [extractInner] at h h'
    cases hi : F.innerLoop candidate offset true (p.findAll candidate) t with
    | error e => simp only [hi, bind, Except.bind] at h; cases h
    | ok o =>
      cases hi' : F.innerLoop candidate offset true (p.findAll candidate) t' with
      | error e => simp only [hi', bind, Except.bind] at h'; cases h'
      | ok o' =>
        have hs := innerLoop_more F candidate offset d _ _ _ _ _ _ hm hi hi'
        simp only [hi, hi', bind, Except.bind] at h h'
        obtain ⟨o, u⟩ := o
        obtain ⟨o', u'⟩ := o'
        rcases hs with ⟨he, hm'⟩ | ⟨he, hl⟩
        · simp only at he hm'
          subst he
          cases o with
          | some m =>
            simp only [pure, Except.pure, Except.ok.injEq] at h h'
            subst h h'
            exact .inl ⟨rfl, hm'⟩
          | none => exact ih _ _ _ _ hm' h h'
        · simp only at he hl
          subst he
          simp only [extractInner_spent F _ _ _ _ hl, Except.ok.injEq] at h
          subst h
          exact .inr ⟨rfl, hl⟩

theorem extractMatch_more (F : Finder) (candidate : Str) (offset d : Nat) (t t' : Tries) (r r' : Option FoundNumber × Tries)
    (hm : Tries.More d t t') (h : F.extractMatch candidate offset t = .ok r) (h' : F.extractMatch candidate offset t' = .ok r') :
    Same d r r' := by
  rw [extractMatch] at h h'
  split at h
  · rename_i hd
    rw [if_pos hd] at h'
    simp only [Except.ok.injEq] at h h'
    subst h h'
    exact .inl ⟨rfl, hm⟩
  · rename_i hd
    rw [if_neg hd] at h'
    cases hp : F.parseAndVerify candidate offset with
    | error e => simp only [hp, bind, Except.bind] at h; cases h
    | ok o =>
      simp only [hp, bind, Except.bind] at h h'
      cases o with
      | some m =>
        simp only [pure, Except.pure, Except.ok.injEq] at h h'
        subst h h'
        exact .inl ⟨rfl, hm⟩
      | none => exact extractInner_more F candidate offset d _ _ _ _ _ (by exact hm) h h'

theorem findLoop_more (F : Finder) (d : Nat) (fuel : Nat) :
    ∀ (index : Nat) (t t' : Tries) (r r' : Option FoundNumber × Tries), Tries.More d t t' →
      F.findLoop fuel index t = .ok r → F.findLoop fuel index t' = .ok r' → Same d r r' := by
  induction fuel with
  | zero =>
    intro index t t' r r' hm h h'
    simp only [findLoop, Except.ok.injEq] at h h'
    subst h h'
    exact .inl ⟨rfl, hm⟩
  | succ fuel ih =>
    intro index t t' r r' hm h h'
    rw [findLoop] at h h'
    by_cases h0 : t.left ≤ 0
    · simp only [h0, if_true, Except.ok.injEq] at h
      subst h
      exact .inr ⟨rfl, h0⟩
    · have h0' : ¬ t'.left ≤ 0 := by unfold Tries.More at hm; omega
      simp only [h0, h0', if_false] at h h'
      cases hx : matcherPattern.find (F.text.drop index) with
      | none =>
        simp only [hx, Except.ok.injEq] at h h'
        subst h h'
        exact .inl ⟨rfl, hm⟩
      | some x =>
        simp only [hx] at h h'
        generalize trimAfterFirstMatch secondNumberStartPattern (slice (F.text.drop index) x.start x.stop) = candidate at h h'
        cases hi : F.extractMatch candidate (index + x.start) t with
        | error e => simp only [hi, bind, Except.bind] at h; cases h
        | ok o =>
          cases hi' : F.extractMatch candidate (index + x.start) t' with
          | error e => simp only [hi', bind, Except.bind] at h'; cases h'
          | ok o' =>
            have hs := extractMatch_more F candidate _ d _ _ _ _ hm hi hi'
            simp only [hi, hi', bind, Except.bind] at h h'
            obtain ⟨o, u⟩ := o
            obtain ⟨o', u'⟩ := o'
            rcases hs with ⟨he, hm'⟩ | ⟨he, hl⟩
            · simp only at he hm'
              subst he
              cases o with
              | some m =>
                simp only [pure, Except.pure, Except.ok.injEq] at h h'
                subst h h'
                exact .inl ⟨rfl, hm'⟩
              | none =>
                refine ih _ _ _ _ _ ?_ h h'
                unfold Tries.More at hm' ⊢; simp only; omega
            · simp only at he hl
              subst he
              simp only at h
              cases fuel with
              | zero => simp only [findLoop, Except.ok.injEq] at h; subst h; exact .inr ⟨rfl, by simp only; omega⟩
              | succ fuel =>
                rw [findLoop, if_pos (by simp only; omega)] at h
                simp only [Except.ok.injEq] at h; subst h; exact .inr ⟨rfl, by simp only; omega⟩

/-- Two searches at the same place, ready to look for the next match. -/
theorem iterate_more (F : Finder) (d : Nat) (fuel : Nat) :
    ∀ (i : Nat) (t t' : Tries) (r r' : List FoundNumber × Cursor), Tries.More d t t' →
      F.iterate fuel ⟨.notReady, i, t⟩ = .ok r → F.iterate fuel ⟨.notReady, i, t'⟩ = .ok r' →
        (r.1 = r'.1 ∧ Tries.More d r.2.tries r'.2.tries) ∨ (r.1 <+: r'.1 ∧ r.2.tries.left ≤ 0) := by
  induction fuel with
  | zero =>
    intro i t t' r r' hm h h'
    simp only [iterate, Except.ok.injEq] at h h'
    subst h h'
    exact .inl ⟨rfl, hm⟩
  | succ fuel ih =>
    intro i t t' r r' hm h h'
    simp only [iterate, hasNext, bind, Except.bind] at h h'
    cases hi : F.find i t with
    | error e => simp only [hi] at h; cases h
    | ok o =>
      cases hi' : F.find i t' with
      | error e => simp only [hi'] at h'; cases h'
      | ok o' =>
        have hs := findLoop_more F d _ _ _ _ _ _ hm hi hi'
        simp only [hi, hi'] at h h'
        obtain ⟨o, u⟩ := o
        obtain ⟨o', u'⟩ := o'
        rcases hs with ⟨he, hm'⟩ | ⟨he, hl⟩
        · simp only at he hm'
          subst he
          cases o with
          | none =>
            simp only [pure, Except.pure, Except.ok.injEq] at h h'
            subst h h'
            exact .inl ⟨rfl, hm'⟩
          | some m =>
            simp only [pure, Except.pure, next, hasNext, bind, Except.bind] at h h'
            cases hj : F.iterate fuel ⟨.notReady, m.at_ + m.raw.length, u⟩ with
            | error e => simp only [hj] at h; cases h
            | ok q =>
              cases hj' : F.iterate fuel ⟨.notReady, m.at_ + m.raw.length, u'⟩ with
              | error e => simp only [hj'] at h'; cases h'
              | ok q' =>
                simp only [hj, hj', Except.ok.injEq] at h h'
                subst h h'
                rcases ih _ _ _ _ _ hm' hj hj' with ⟨h1, h2⟩ | ⟨h1, h2⟩
                · exact .inl ⟨by rw [h1], h2⟩
                · exact .inr ⟨by simpa using h1, h2⟩
        · simp only at he hl
          subst he
          simp only [pure, Except.pure, Except.ok.injEq] at h
          subst h
          exact .inr ⟨List.nil_prefix, hl⟩

theorem consume_feed {κ : Type} (F : Finder) (yield : κ → FoundNumber → Bool × κ) (nil : κ → Bool × κ)
    (feed : κ → List FoundNumber → κ) (h0 : ∀ k, feed k [] = k)
    (h1 : ∀ k m ms, feed k (m :: ms) = if (yield k m).1 then feed (yield k m).2 ms else (yield k m).2) (fuel : Nat) :
    ∀ (i : Nat) (t : Tries) (k : κ) (r : List FoundNumber × Cursor), F.iterate fuel ⟨.notReady, i, t⟩ = .ok r →
      F.consume (fun k m => match m with | none => nil k | some m => yield k m) fuel ⟨.notReady, i, t⟩ k = .ok (feed k r.1) := by
  induction fuel with
  | zero =>
    intro i t k r h
    simp only [iterate, Except.ok.injEq] at h
    subst h
    rw [h0]; rfl
  | succ fuel ih =>
    intro i t k r h
    simp only [iterate, hasNext, bind, Except.bind] at h
    simp only [consume, hasNext, bind, Except.bind]
    cases hi : F.find i t with
    | error e => simp only [hi] at h; cases h
    | ok o =>
      simp only [hi] at h ⊢
      obtain ⟨o, u⟩ := o
      cases o with
      | none =>
        simp only [pure, Except.pure, Except.ok.injEq] at h ⊢
        subst h
        rw [h0]
      | some m =>
        simp only [pure, Except.pure, next, hasNext, bind, Except.bind] at h ⊢
        cases hj : F.iterate fuel ⟨.notReady, m.at_ + m.raw.length, u⟩ with
        | error e => simp only [hj] at h; cases h
        | ok q =>
          simp only [hj, Except.ok.injEq] at h
          subst h
          rw [h1]
          cases hy : yield k m with
          | mk go k' =>
            cases go with
            | true => exact ih _ _ _ _ hj
            | false => rfl

/-! ## How many tries a search uses -/

theorem findAllLoop_length (r : Re) (s : Str) (f : Nat) : ∀ (pos : Nat) (prev : Option Nat), (findAllLoop r s f pos prev).length ≤ f := by
  induction f with
  | zero => intro pos prev; simp [findAllLoop]
  | succ f ih =>
    intro pos prev
    rw [findAllLoop]
    split
    · simp
    · split
      · simp
      · rename_i x _
        have h1 := ih (pos + 1) (some x.stop)
        have h2 := ih x.stop (some x.stop)
        split
        · split
          · omega
          · simp only [List.length_cons]; omega
        · simp only [List.length_cons]; omega

theorem findAll_length (r : Re) (s : Str) : (r.findAll s).length ≤ s.length + 2 := findAllLoop_length r s _ _ _

theorem innerLoop_loss (F : Finder) (candidate : Str) (offset : Nat) (gs : List Match) :
    ∀ (first : Bool) (t : Tries) (r : Option FoundNumber × Tries), F.innerLoop candidate offset first gs t = .ok r →
      t.left - ((gs.length : Int) + if first then 1 else 0) ≤ r.2.left := by
  induction gs with
  | nil =>
    intro first t r h
    simp only [innerLoop, Except.ok.injEq] at h
    subst h
    simp only [List.length_nil]; split <;> omega
  | cons g gs ih =>
    intro first t r h
    rw [innerLoop] at h
    split at h
    · simp only [Except.ok.injEq] at h
      subst h
      simp only [List.length_cons]; split <;> omega
    · cases hp : F.firstPiece candidate offset g.start first with
      | error e => simp only [hp, bind, Except.bind] at h; cases h
      | ok o =>
        simp only [hp, bind, Except.bind] at h
        cases o with
        | some m =>
          simp only [pure, Except.pure, Except.ok.injEq] at h
          subst h
          simp only [List.length_cons]; split <;> omega
        | none =>
          simp only at h
          have hu : t.left - (if first then 1 else 0) ≤ (if first then t.reject else t).left := by
            cases first <;> simp [Tries.reject]
          generalize (if first then t.reject else t) = u at h hu
          cases hs : g.span 1 with
          | none => simp only [hs] at h; cases h
          | some ab =>
            obtain ⟨a, b⟩ := ab
            simp only [hs] at h
            cases hq : F.parseAndVerify (trimAfterFirstMatch unwantedEndCharPattern (slice candidate a b)) (offset + a) with
            | error e => simp only [hq] at h; cases h
            | ok o =>
              simp only [hq] at h
              cases o with
              | some m =>
                simp only [pure, Except.pure, Except.ok.injEq] at h
                subst h
                simp only [List.length_cons]; omega
              | none =>
                have := ih false _ _ h
                simp only [Tries.reject, Bool.false_eq_true, if_false] at this
                simp only [List.length_cons]; omega

theorem extractInner_loss (F : Finder) (candidate : Str) (offset : Nat) (rs : List Re) :
    ∀ (t : Tries) (r : Option FoundNumber × Tries), F.extractInner candidate offset rs t = .ok r →
      t.left - (rs.length * (candidate.length + 3) : Nat) ≤ r.2.left := by
  induction rs with
  | nil =>
    intro t r h
    simp only [extractInner, Except.ok.injEq] at h
    subst h
    simp
  | cons p rs ih =>
    intro t r h
    rw [extractInner] at h
    cases hi : F.innerLoop candidate offset true (p.findAll candidate) t with
    | error e => simp only [hi, bind, Except.bind] at h; cases h
    | ok o =>
      have hl := innerLoop_loss F _ _ _ _ _ _ hi
      have hf := findAll_length p candidate
      simp only [if_true] at hl
      have he : (p :: rs).length * (candidate.length + 3) = rs.length * (candidate.length + 3) + (candidate.length + 3) := by
        rw [List.length_cons, Nat.add_mul, Nat.one_mul]
      rw [he]
      simp only [hi, bind, Except.bind] at h
      obtain ⟨o, u⟩ := o
      cases o with
      | some m =>
        simp only [pure, Except.pure, Except.ok.injEq] at h
        subst h
        simp only at hl ⊢; omega
      | none =>
        have := ih _ _ h
        simp only at hl; omega

theorem extractMatch_loss (F : Finder) (candidate : Str) (offset : Nat) (t : Tries) (r : Option FoundNumber × Tries)
    (h : F.extractMatch candidate offset t = .ok r) : t.left - (6 * (candidate.length + 3) : Nat) ≤ r.2.left := by
  rw [extractMatch] at h
  split at h
  · simp only [Except.ok.injEq] at h
    subst h
    simp only; omega
  · cases hp : F.parseAndVerify candidate offset with
    | error e => simp only [hp, bind, Except.bind] at h; cases h
    | ok o =>
      simp only [hp, bind, Except.bind] at h
      cases o with
      | some m =>
        simp only [pure, Except.pure, Except.ok.injEq] at h
        subst h
        simp only; omega
      | none =>
        have := extractInner_loss F _ _ _ _ _ h
        simpa [innerMatches] using this

theorem findLoop_loss (F : Finder) (fuel : Nat) :
    ∀ (index : Nat) (t : Tries) (r : Option FoundNumber × Tries), F.findLoop fuel index t = .ok r →
      t.left - (25 * (F.text.length - index) : Nat) ≤ r.2.left := by
  induction fuel with
  | zero =>
    intro index t r h
    simp only [findLoop, Except.ok.injEq] at h
    subst h
    simp only; omega
  | succ fuel ih =>
    intro index t r h
    rw [findLoop] at h
    split at h
    · simp only [Except.ok.injEq] at h
      subst h
      simp only; omega
    · cases hx : matcherPattern.find (F.text.drop index) with
      | none =>
        simp only [hx, Except.ok.injEq] at h
        subst h
        simp only; omega
      | some x =>
        obtain ⟨cand, h1, h2, _, h4, _⟩ := candidate_text hx
        have hl : 0 < cand.length := List.length_pos_iff.2 h2
        simp only [hx, h1] at h
        cases hi : F.extractMatch cand (index + x.start) t with
        | error e => simp only [hi, bind, Except.bind] at h; cases h
        | ok o =>
          have hm := extractMatch_loss F _ _ _ _ hi
          simp only [hi, bind, Except.bind] at h
          obtain ⟨o, u⟩ := o
          cases o with
          | some m =>
            simp only [pure, Except.pure, Except.ok.injEq] at h
            subst h
            simp only at hm ⊢; omega
          | none =>
            have := ih _ _ _ h
            simp only at hm this; omega

theorem iterate_loss (F : Finder) (fuel : Nat) :
    ∀ (i : Nat) (t : Tries) (r : List FoundNumber × Cursor), F.iterate fuel ⟨.notReady, i, t⟩ = .ok r →
      t.left - (fuel * (25 * F.text.length) : Nat) ≤ r.2.tries.left := by
  induction fuel with
  | zero =>
    intro i t r h
    simp only [iterate, Except.ok.injEq] at h
    subst h
    simp
  | succ fuel ih =>
    intro i t r h
    have he : (fuel + 1) * (25 * F.text.length) = fuel * (25 * F.text.length) + 25 * F.text.length := by
      rw [Nat.add_mul, Nat.one_mul]
    rw [he]
    generalize hz : fuel * (25 * F.text.length) = z at ih ⊢
    simp only [iterate, hasNext, bind, Except.bind] at h
    cases hi : F.find i t with
    | error e => simp only [hi] at h; cases h
    | ok o =>
      have hl := findLoop_loss F _ _ _ _ hi
      simp only [hi] at h
      obtain ⟨o, u⟩ := o
      cases o with
      | none =>
        simp only [pure, Except.pure, Except.ok.injEq] at h
        subst h
        simp only at hl ⊢; omega
      | some m =>
        simp only [pure, Except.pure, next, hasNext, bind, Except.bind] at h
        cases hj : F.iterate fuel ⟨.notReady, m.at_ + m.raw.length, u⟩ with
        | error e => simp only [hj] at h; cases h
        | ok q =>
          have := ih _ _ _ hj
          simp only [hj, Except.ok.injEq] at h
          subst h
          simp only at hl this ⊢; omega

end Finder
end Verif
