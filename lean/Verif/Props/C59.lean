import Verif.Lemmas.Builder
import Verif.Model.Format
/-!
# C59: what the builder leaves out to save space is not lost

The builder drops the international formats of a territory without explicit ones, and the lengths of a description that are the general ones
(see `C51_exact`, where the lengths in effect are those that are written).  The library uses the national formats if there are no international
ones.
-/
namespace Verif.Spec
open Verif.Builder

/-- What a format element asks to be used for international formatting: the explicit international format without the national rules,
nothing if that is "NA", and the national format `nat` if there is no explicit one. -/
def asksIntl (e : FormatE) (nat : NumberFormat) : List NumberFormat :=
  match e.intl with
  | [] => [nat]
  | f :: _ => if f = str!"NA" then [] else [{ pattern := nat.pattern, format := f, leadingDigits := nat.leadingDigits }]

/-- The pieces of a prefix or carrier rule as it is written in the metadata: text, the national prefix, the first group, the carrier code. -/
inductive RuleTok where
  | text (s : Str)
  | np
  | fg
  | cc
  deriving DecidableEq

/-- How a piece is written. -/
def RuleTok.written : RuleTok → Str
  | .text s => s
  | .np => str!"$NP"
  | .fg => str!"$FG"
  | .cc => str!"$CC"

/-- What a piece becomes if the national prefix is `p`. -/
def RuleTok.becomes (p : Str) : RuleTok → Str
  | .text s => s
  | .np => p
  | .fg => str!"$1"
  | .cc => str!"$CC"

/-- A rule mentions the national prefix and the first group at most once each, and its texts are free of `$`. -/
def RuleOk (ts : List RuleTok) : Prop := ts.count .np ≤ 1 ∧ ts.count .fg ≤ 1 ∧ ∀ s, .text s ∈ ts → '$'.toNat ∉ s

/-- The formats that the library uses for international formatting. -/
def usedIntl (nat intl : List NumberFormat) : List NumberFormat := if intl = [] then nat else intl

end Verif.Spec

namespace Verif.Props
open Verif Verif.Builder

private theorem loadFormats_spec {compile : Str → Option Re} {np r : Str} {b : Bool} {c : Str} : ∀ (es : List FormatE) {ns is : List NumberFormat}
    {ex : Bool}, loadFormats compile np r b c es = .ok (ns, is, ex) → (∀ e ∈ es, e.format ≠ [] ∧ ∀ f ∈ e.intl, f ≠ []) →
    ns.length = es.length ∧ is = (List.zipWith Spec.asksIntl es ns).flatten ∧ (ex = false ↔ ∀ e ∈ es, e.intl = []) := by
  intro es
  induction es with
  | nil =>
    intro ns is ex h _
    simp only [loadFormats, Except.ok.injEq, Prod.mk.injEq] at h
    obtain ⟨rfl, rfl, rfl⟩ := h
    simp
  | cons e es ih =>
    intro ns is ex h hne
    rw [loadFormats] at h
    obtain ⟨nat, h1, h⟩ := bind_ok.1 h
    obtain ⟨⟨i1, e1⟩, h2, h⟩ := bind_ok.1 h
    obtain ⟨⟨ns', is', ex'⟩, h3, h⟩ := bind_ok.1 h
    simp only [pure, Except.pure, Except.ok.injEq, Prod.mk.injEq] at h
    obtain ⟨rfl, rfl, rfl⟩ := h
    obtain ⟨hl, hi, hx⟩ := ih h3 (fun e he => hne e (by simp [he]))
    obtain ⟨hf, hfi⟩ := hne e (by simp)
    have hnf : nat.format = e.format := by
      unfold nationalFormat at h1
      obtain ⟨_, _, h1⟩ := bind_ok.1 h1
      obtain ⟨_, _, h1⟩ := bind_ok.1 h1
      obtain ⟨_, _, h1⟩ := bind_ok.1 h1
      simp only [pure, Except.pure, Except.ok.injEq] at h1
      rw [← h1]
    have hi1 : i1 = Spec.asksIntl e nat ∧ (e1 = false ↔ e.intl = []) := by
      unfold internationalFormat at h2
      unfold Spec.asksIntl
      split at h2
      · rename_i hn
        simp only [Except.ok.injEq, Prod.mk.injEq] at h2
        obtain ⟨rfl, rfl⟩ := h2
        rw [hn]
        simp [hnf, hf]
      · rename_i f hn
        simp only [Except.ok.injEq, Prod.mk.injEq] at h2
        obtain ⟨rfl, rfl⟩ := h2
        have hf0 := hfi f (by rw [hn]; simp)
        rw [hn]
        by_cases hna : f = str!"NA"
        · simp [hna]
        · simp [hna, hf0]
      · cases h2
    refine ⟨by simp [hl], by simp [hi1.1, hi], ?_⟩
    simp only [Bool.or_eq_false_iff, hi1.2, hx, List.forall_mem_cons]

private theorem same_of_none : ∀ (es : List FormatE) (ns : List NumberFormat), ns.length = es.length → (∀ e ∈ es, e.intl = []) →
    ns = (List.zipWith Spec.asksIntl es ns).flatten
  | [], ns, hl, _ => by
    rw [List.length_nil, List.length_eq_zero_iff] at hl
    subst hl; rfl
  | e :: es, [], hl, _ => by simp at hl
  | e :: es, n :: ns, hl, hno => by
    simp only [List.length_cons, Nat.add_right_cancel_iff] at hl
    simp only [List.zipWith_cons_cons, List.flatten_cons, Spec.asksIntl, hno e (by simp), List.cons_append, List.nil_append]
    rw [← same_of_none es ns hl (fun e he => hno e (by simp [he]))]

/-- For every territory whose formats are not empty texts, the formats that the library uses for international formatting are, in order, the
ones that the elements ask for - unless all elements are marked "NA", which the library cannot tell from having no international formats. -/
theorem C59_intl (compile : Str → Option Re) (t : TerritoryE) (np r : Str) (ns is : List NumberFormat)
    (h : availableFormats compile t np r = .ok (ns, is)) (hne : ∀ e ∈ t.formats, e.format ≠ [] ∧ ∀ f ∈ e.intl, f ≠ [])
    (hna : (List.zipWith Spec.asksIntl t.formats ns).flatten ≠ []) :
    Spec.usedIntl ns is = (List.zipWith Spec.asksIntl t.formats ns).flatten := by
  unfold availableFormats at h
  obtain ⟨c, _, h⟩ := bind_ok.1 h
  obtain ⟨⟨ns', is', ex⟩, h1, h⟩ := bind_ok.1 h
  simp only [pure, Except.pure, Except.ok.injEq, Prod.mk.injEq] at h
  obtain ⟨rfl, rfl⟩ := h
  obtain ⟨hl, hi, hx⟩ := loadFormats_spec t.formats h1 hne
  cases ex with
  | true =>
    simp only [if_true, Spec.usedIntl]
    rw [hi, if_neg hna]
  | false =>
    simp only [Bool.false_eq_true, if_false, Spec.usedIntl, if_true]
    have hno := hx.1 rfl
    exact same_of_none _ _ hl hno

private theorem indexOf_skip {s t : Str} {b : Nat} {q : Str}
    (h : 36 ∉ s ∨ ∃ a r, s = 36 :: a :: r ∧ 36 ∉ a :: r ∧ a ≠ b) :
    indexOf (s ++ t) (36 :: b :: q) = (indexOf t (36 :: b :: q)).map (· + s.length) := by
  have free : ∀ s : Str, 36 ∉ s → indexOf (s ++ t) (36 :: b :: q) = (indexOf t (36 :: b :: q)).map (· + s.length) := by
    intro s hs
    induction s with
    | nil => cases h : indexOf t (36 :: b :: q) <;> simp [h]
    | cons u s ih =>
      simp only [List.mem_cons, not_or] at hs
      rw [List.cons_append, indexOf]
      rw [if_neg (by simp [List.isPrefixOf, hs.1])]
      simp only [ih hs.2, Option.map_map]
      cases indexOf t (36 :: b :: q) <;> simp <;> omega
  rcases h with h | ⟨a, r, rfl, h1, h2⟩
  · exact free s h
  · rw [List.cons_append, indexOf]
    rw [if_neg (by simp [List.isPrefixOf, Ne.symm h2])]
    simp only [free (a :: r) h1, Option.map_map]
    cases indexOf t (36 :: b :: q) <;> simp <;> omega

private theorem replaceOnce_skip {s t new : Str} {b : Nat} {q : Str}
    (h : 36 ∉ s ∨ ∃ a r, s = 36 :: a :: r ∧ 36 ∉ a :: r ∧ a ≠ b) :
    replaceOnce (s ++ t) (36 :: b :: q) new = s ++ replaceOnce t (36 :: b :: q) new := by
  unfold replaceOnce
  rw [indexOf_skip h]
  cases indexOf t (36 :: b :: q) with
  | none => rfl
  | some i =>
    have e1 : (s ++ t).take (i + s.length) = s ++ t.take i := by
      rw [Nat.add_comm, List.take_append, List.take_of_length_le (by omega), Nat.add_sub_cancel_left]
    have e2 : (s ++ t).drop (i + s.length + (36 :: b :: q).length) = t.drop (i + (36 :: b :: q).length) := by
      rw [show i + s.length + (36 :: b :: q).length = s.length + (i + (36 :: b :: q).length) by omega]; simp [List.drop_append]
    simp only [Option.map_some, e1, e2, List.append_assoc]

private theorem replaceOnce_toks (k : Spec.RuleTok) (b : Nat) (q : Str) (σ τ : Spec.RuleTok → Str) (hk : σ k = 36 :: b :: q)
    (hτ : ∀ j, j ≠ k → τ j = σ j) (ts : List Spec.RuleTok) (hc : ts.count k ≤ 1)
    (hj : ∀ j ∈ ts, j ≠ k → 36 ∉ σ j ∨ ∃ a r, σ j = 36 :: a :: r ∧ 36 ∉ a :: r ∧ a ≠ b) :
    replaceOnce (ts.flatMap σ) (36 :: b :: q) (τ k) = ts.flatMap τ := by
  induction ts with
  | nil => simp [replaceOnce, indexOf]
  | cons j ts ih =>
    by_cases h : j = k
    · subst h
      have hn : j ∉ ts := by
        rw [List.count_cons_self] at hc
        exact List.count_eq_zero.1 (by omega)
      rw [List.flatMap_cons, List.flatMap_cons, hk]
      have hi : indexOf (36 :: b :: q ++ ts.flatMap σ) (36 :: b :: q) = some 0 := by
        rw [indexOf.eq_def]; simp
      unfold replaceOnce
      rw [hi]
      have hs : ts.flatMap σ = ts.flatMap τ := by
        rw [List.flatMap_def, List.flatMap_def]
        congr 1
        apply List.map_congr_left
        intro i hi
        exact (hτ i (fun e => hn (e ▸ hi))).symm
      simp [hs]
    · rw [List.flatMap_cons, List.flatMap_cons, replaceOnce_skip (hj j (by simp) h), hτ j h,
        ih (by rw [List.count_cons_of_ne (fun e => h e)] at hc; exact hc) (fun i hi => hj i (by simp [hi]))]

/-- The substitutions of the builder in a national-prefix rule. -/
private theorem prefixRule_toks {ts : List Spec.RuleTok} (h : Spec.RuleOk ts) {np : Str} (hnp : '$'.toNat ∉ np) :
    prefixRule (ts.flatMap Spec.RuleTok.written) np = ts.flatMap (Spec.RuleTok.becomes np) := by
  obtain ⟨h1, h2, h3⟩ := h
  let σ : Spec.RuleTok → Str := fun | .text s => s | .np => np | .fg => str!"$FG" | .cc => str!"$CC"
  have e1 : replaceOnce (ts.flatMap Spec.RuleTok.written) (str!"$NP") np = ts.flatMap σ := by
    refine replaceOnce_toks .np 78 [80] _ σ rfl (by intro j hj; cases j <;> first | rfl | exact absurd rfl hj) ts h1 ?_
    intro j hj hne
    cases j with
    | text s => exact .inl (h3 s hj)
    | np => exact absurd rfl hne
    | fg => exact .inr ⟨70, [71], rfl, by decide, by decide⟩
    | cc => exact .inr ⟨67, [67], rfl, by decide, by decide⟩
  rw [prefixRule, e1]
  refine replaceOnce_toks .fg 70 [71] σ (Spec.RuleTok.becomes np) rfl (by intro j hj; cases j <;> first | rfl | exact absurd rfl hj) ts h2 ?_
  intro j hj hne
  cases j with
  | text s => exact .inl (h3 s hj)
  | np => exact .inl hnp
  | fg => exact absurd rfl hne
  | cc => exact .inr ⟨67, [67], rfl, by decide, by decide⟩

/-- The substitutions of the builder in a carrier rule. -/
private theorem carrierRule_toks {ts : List Spec.RuleTok} (h : Spec.RuleOk ts) {np : Str} :
    carrierRule (ts.flatMap Spec.RuleTok.written) np = ts.flatMap (Spec.RuleTok.becomes np) := by
  obtain ⟨h1, h2, h3⟩ := h
  let σ : Spec.RuleTok → Str := fun | .text s => s | .np => str!"$NP" | .fg => str!"$1" | .cc => str!"$CC"
  have e1 : replaceOnce (ts.flatMap Spec.RuleTok.written) (str!"$FG") (str!"$1") = ts.flatMap σ := by
    refine replaceOnce_toks .fg 70 [71] _ σ rfl (by intro j hj; cases j <;> first | rfl | exact absurd rfl hj) ts h2 ?_
    intro j hj hne
    cases j with
    | text s => exact .inl (h3 s hj)
    | fg => exact absurd rfl hne
    | np => exact .inr ⟨78, [80], rfl, by decide, by decide⟩
    | cc => exact .inr ⟨67, [67], rfl, by decide, by decide⟩
  rw [carrierRule, e1]
  refine replaceOnce_toks .np 78 [80] σ (Spec.RuleTok.becomes np) rfl (by intro j hj; cases j <;> first | rfl | exact absurd rfl hj) ts h1 ?_
  intro j hj hne
  cases j with
  | text s => exact .inl (h3 s hj)
  | fg => exact .inr ⟨49, [], rfl, by decide, by decide⟩
  | np => exact absurd rfl hne
  | cc => exact .inr ⟨67, [67], rfl, by decide, by decide⟩

private theorem validateRE_src {compile : Str → Option Re} {s : Str} {p : Pat} (h : validateRE compile s false = .ok p) : p.src = s := by
  unfold validateRE at h
  simp only [Bool.false_eq_true, if_false] at h
  split at h
  · cases h
  · cases h; rfl

private theorem leadingPatterns_src {compile : Str → Option Re} : ∀ (ss : List Str) {ps : List Pat}, leadingPatterns compile ss = .ok ps →
    ps.map (·.src) = ss.map (List.filter fun u => decide (u ∉ [9, 10, 12, 13, 32]))
  | [], ps, h => by cases h; rfl
  | s :: ss, ps, h => by
    rw [leadingPatterns] at h
    obtain ⟨p, h1, h⟩ := bind_ok.1 h
    obtain ⟨ps', h2, h⟩ := bind_ok.1 h
    simp only [pure, Except.pure, Except.ok.injEq] at h
    subst h
    rw [List.map_cons, List.map_cons, leadingPatterns_src ss h2]
    congr 1
    unfold validateRE at h1
    simp only [if_true] at h1
    split at h1
    · cases h1
    · cases h1
      refine List.filter_congr fun u _ => ?_
      rw [Bool.eq_iff_iff]
      simp [isSpaceRe, and_assoc]

/-- What is written in a format element arrives in the national format made from it: the format, the pattern, the leading digits
without white space, its own rule for the national prefix and for the carrier (with `$NP` and `$FG` replaced) or else that of the
territory, and whether the prefix is optional.  `r` is the prefix rule of the territory after replacement. -/
theorem C59_national (compile : Str → Option Re) (t : TerritoryE) (np r : Str) (hnp : '$'.toNat ∉ np) (ns is : List NumberFormat)
    (h : availableFormats compile t np r = .ok (ns, is)) :
    ns.length = t.formats.length ∧ ∀ ef ∈ t.formats.zip ns,
      ef.2.format = ef.1.format ∧ ef.2.pattern.src = ef.1.pattern ∧
      ef.2.leadingDigits.map (·.src) = ef.1.leadingDigits.map (List.filter fun u => decide (u ∉ [9, 10, 12, 13, 32])) ∧
      (ef.1.npRule = [] → ef.2.npRule = r) ∧
      (∀ ts, Spec.RuleOk ts → ef.1.npRule = ts.flatMap Spec.RuleTok.written → ef.1.npRule ≠ [] →
        ef.2.npRule = ts.flatMap (Spec.RuleTok.becomes np)) ∧
      ef.2.npOptional = ef.1.npOptional.getD t.npOptional ∧
      (∀ ts, Spec.RuleOk ts → (if ef.1.ccRule = [] then t.ccRule else ef.1.ccRule) = ts.flatMap Spec.RuleTok.written →
        ef.2.ccRule = ts.flatMap (Spec.RuleTok.becomes np)) := by
  unfold availableFormats at h
  have h00 := bind_ok.1 h
  clear h
  obtain ⟨c, hc, h⟩ := h00
  have h01 := bind_ok.1 h
  clear h
  obtain ⟨⟨ns', is', ex⟩, h1, h⟩ := h01
  simp only [pure, Except.pure, Except.ok.injEq, Prod.mk.injEq] at h
  obtain ⟨rfl, -⟩ := h
  have hcr : c = if t.ccRule = [] then [] else carrierRule t.ccRule np := by
    by_cases h0 : t.ccRule = []
    · simp only [h0, ne_eq, not_true_eq_false, if_false, Except.ok.injEq] at hc
      simp [h0, ← hc]
    · simp only [ne_eq, h0, not_false_eq_true, if_true] at hc
      obtain ⟨p, hp, hc⟩ := bind_ok.1 hc
      simp only [pure, Except.pure, Except.ok.injEq] at hc
      rw [if_neg h0, ← hc, validateRE_src hp]
  clear hc
  revert h1
  generalize hes : t.formats = es
  clear hes
  intro h1
  induction es generalizing ns' is' ex with
  | nil =>
    simp only [loadFormats, Except.ok.injEq, Prod.mk.injEq] at h1
    obtain ⟨rfl, -⟩ := h1
    exact ⟨rfl, by simp⟩
  | cons e es ih =>
    rw [loadFormats] at h1
    obtain ⟨nat, h2, h⟩ := bind_ok.1 h1
    clear h1
    obtain ⟨⟨i1, e1⟩, -, h⟩ := bind_ok.1 h
    obtain ⟨⟨ns2, is2, ex2⟩, h3, h⟩ := bind_ok.1 h
    simp only [pure, Except.pure, Except.ok.injEq, Prod.mk.injEq] at h
    obtain ⟨rfl, rfl, rfl⟩ := h
    obtain ⟨hl, hi⟩ := ih _ _ _ h3
    refine ⟨by simp [hl], fun ef hef => ?_⟩
    rw [List.zip_cons_cons, List.mem_cons] at hef
    rcases hef with rfl | hef
    · unfold nationalFormat at h2
      obtain ⟨cc, k1, h2⟩ := bind_ok.1 h2
      obtain ⟨ld, k2, h2⟩ := bind_ok.1 h2
      obtain ⟨p, k3, h2⟩ := bind_ok.1 h2
      simp only [pure, Except.pure, Except.ok.injEq] at h2
      subst h2
      refine ⟨rfl, ?_, leadingPatterns_src _ k2, ?_, ?_, ?_, ?_⟩
      · have := validateRE_src k3
        simp only [setPat]
        split
        · rename_i h0; rw [← this, h0]; rfl
        · exact this
      · intro h0; exact if_neg (fun h => h h0)
      · intro ts hts hw h0
        simp only at hw h0 ⊢
        rw [if_pos h0, hw, prefixRule_toks hts hnp]
      · simp only; cases e.npOptional <;> rfl
      · intro ts hts hw
        simp only at hw ⊢
        by_cases h0 : e.ccRule = []
        · rw [if_pos h0] at hw
          simp only [h0, ne_eq, not_true_eq_false, if_false, Except.ok.injEq] at k1
          rw [← k1, hcr]
          split
          · rename_i h5
            rw [h5] at hw
            have hnil : ∀ j ∈ ts, j.written = [] := fun j hj => by
              have := List.flatMap_eq_nil_iff.1 hw.symm j hj; exact this
            symm
            rw [List.flatMap_eq_nil_iff]
            intro j hj
            have := hnil j hj
            cases j <;> first | exact this | simp [Spec.RuleTok.written] at this
          · rw [hw, carrierRule_toks hts]
        · rw [if_neg h0] at hw
          simp only [ne_eq, h0, not_false_eq_true, if_true] at k1
          obtain ⟨p', hp, k1⟩ := bind_ok.1 k1
          simp only [pure, Except.pure, Except.ok.injEq] at k1
          rw [← k1, validateRE_src hp, hw, carrierRule_toks hts]
    · exact hi ef hef

-- Rules of the usual shape, and what becomes of them with national prefix 0.
example : Spec.RuleOk [.text (str!"("), .np, .fg, .text (str!")")] ∧
    [.text (str!"("), .np, .fg, .text (str!")")].flatMap Spec.RuleTok.written = str!"($NP$FG)" ∧
    [.text (str!"("), .np, .fg, .text (str!")")].flatMap (Spec.RuleTok.becomes (str!"0")) = str!"(0$1)" := by
  refine ⟨⟨by decide, by decide, ?_⟩, by decide, by decide⟩
  intro s hs; simp at hs; rcases hs with rfl | rfl <;> decide
example : [.np, .cc, .text (str!" "), .fg].flatMap (Spec.RuleTok.becomes (str!"0")) = str!"0$CC $1" := by decide

/-- What `usedIntl` stands for: formatting with built metadata, other than national formatting, chooses among these formats. -/
theorem C59_format (m : Metadata) (nsn carrier : Str) (f : Fmt) (hf : f ≠ .national) :
    formatNsn nsn (some m) f carrier = match chooseFormat (Spec.usedIntl m.formats m.intlFormats) nsn with
      | none => nsn
      | some p => formatNsnUsingPattern nsn p f carrier := by
  unfold formatNsn Spec.usedIntl
  by_cases h : m.intlFormats = []
  · simp only [h, true_or, if_true]
    cases chooseFormat m.formats nsn <;> rfl
  · simp only [h, hf, or_self, if_false]
    cases chooseFormat m.intlFormats nsn <;> rfl

private def sampleF (fmt : Str) (intl : List Str) : FormatE := { format := fmt, intl := intl, pattern := str!"(\\d+)" }

-- Three formats: one with an explicit international variant, one without international use, one with the same format for both.
private def sampleT : TerritoryE :=
  { id := str!"XX", formats := [sampleF (str!"0$1") [str!"$1"], sampleF (str!"1$1") [str!"NA"], sampleF (str!"$1") []] }

#guard (availableFormats (fun _ => some .eps) sampleT [] []).toOption.map (fun r => (r.1.map (·.format), r.2.map (·.format))) ==
  some ([str!"0$1", str!"1$1", str!"$1"], [str!"$1", str!"$1"])

example : ∀ e ∈ sampleT.formats, e.format ≠ [] ∧ ∀ f ∈ e.intl, f ≠ [] := by decide

/-- The exception is real: if every format is marked "NA" then the library formats internationally with the national formats. -/
theorem C59_all_na : ∃ (t : TerritoryE) (ns is : List NumberFormat), availableFormats (fun _ => some .eps) t [] [] = .ok (ns, is) ∧
    (∀ e ∈ t.formats, e.intl = [str!"NA"]) ∧ (List.zipWith Spec.asksIntl t.formats ns).flatten = [] ∧ Spec.usedIntl ns is ≠ [] := by
  refine ⟨{ id := str!"XX", formats := [sampleF (str!"0$1") [str!"NA"]] }, [⟨⟨str!"(\\d+)", .eps⟩, str!"0$1", [], [], false, []⟩], [], rfl, ?_, rfl, ?_⟩
  · decide
  · decide

end Verif.Props
