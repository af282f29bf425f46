import Verif.Lemmas.Matcher
import Verif.Lemmas.Ext
import Verif.Props.C17
import Verif.Props.C25
import Verif.Props.C27
/-!
# The search for numbers never panics on the shipped metadata
-/
namespace Verif
open Builder (bind_ok)

/-! ## Groups that every match sets -/

/-- Every match sets group `k`. -/
def Re.sets (k : Nat) : Re → Bool
  | .grp n r => n == k || r.sets k
  | .cat a b => a.sets k || b.sets k
  | .alt a b => a.sets k && b.sets k
  | .rep r mn _ _ => decide (0 < mn) && r.sets k
  | _ => false

theorem runs_caps_mono {r : Re} {st st' : MSt} (h : st' ∈ r.runs st) {c : Nat × Nat × Nat} (hc : c ∈ st.caps) : c ∈ st'.caps := by
  obtain ⟨cs, h1, _⟩ := runs_caps r st st' h
  rw [h1]
  exact List.mem_append_right _ hc

theorem iterL_caps_mono {r : Re} {n : Nat} {st st' : MSt} (h : st' ∈ iterL r.runs n st) {c : Nat × Nat × Nat} (hc : c ∈ st.caps) :
    c ∈ st'.caps := by
  induction n generalizing st with
  | zero => simp only [iterL, List.mem_singleton] at h; subst h; exact hc
  | succ n ih =>
    simp only [iterL, List.mem_flatMap] at h
    obtain ⟨s1, h1, h2⟩ := h
    exact ih h2 (runs_caps_mono h1 hc)

theorem optL_caps_mono {r : Re} {g : Bool} {n : Nat} {st st' : MSt} (h : st' ∈ optL r.runs g n st) {c : Nat × Nat × Nat}
    (hc : c ∈ st.caps) : c ∈ st'.caps := by
  induction n generalizing st with
  | zero => simp only [optL, List.mem_singleton] at h; subst h; exact hc
  | succ n ih =>
    have : st' = st ∨ ∃ s1 ∈ r.runs st, st' ∈ optL r.runs g n s1 := by
      cases g <;> simp only [optL, if_true, Bool.false_eq_true, if_false, List.mem_append, List.mem_cons, List.not_mem_nil, or_false,
        List.mem_flatMap, List.mem_filter] at h
      · rcases h with h | ⟨s1, h1, h2⟩
        · exact .inl h
        · exact .inr ⟨s1, h1.1, h2⟩
      · rcases h with ⟨s1, h1, h2⟩ | h
        · exact .inr ⟨s1, h1.1, h2⟩
        · exact .inl h
    rcases this with rfl | ⟨s1, h1, h2⟩
    · exact hc
    · exact ih h2 (runs_caps_mono h1 hc)

theorem runs_sets {k : Nat} (r : Re) (hr : r.sets k = true) (st : MSt) : ∀ st' ∈ r.runs st, ∃ c ∈ st'.caps, c.1 = k := by
  induction r generalizing st with
  | eps => cases hr
  | cls c => cases hr
  | bos => cases hr
  | eos => cases hr
  | cat a b iha ihb =>
    intro st' h
    simp only [Re.runs, List.mem_flatMap] at h
    obtain ⟨s1, h1, h2⟩ := h
    simp only [Re.sets, Bool.or_eq_true] at hr
    rcases hr with hr | hr
    · obtain ⟨c, hc, e⟩ := iha hr st s1 h1
      exact ⟨c, runs_caps_mono h2 hc, e⟩
    · exact ihb hr s1 st' h2
  | alt a b iha ihb =>
    intro st' h
    simp only [Re.runs, List.mem_append] at h
    simp only [Re.sets, Bool.and_eq_true] at hr
    rcases h with h | h
    · exact iha hr.1 st st' h
    · exact ihb hr.2 st st' h
  | grp n r ih =>
    intro st' h
    simp only [Re.runs, List.mem_map] at h
    obtain ⟨s1, h1, rfl⟩ := h
    simp only [Re.sets, Bool.or_eq_true, beq_iff_eq] at hr
    rcases hr with rfl | hr
    · exact ⟨_, List.mem_cons_self .., rfl⟩
    · obtain ⟨c, hc, e⟩ := ih hr st s1 h1
      exact ⟨c, List.mem_cons_of_mem _ hc, e⟩
  | rep r mn mx g ih =>
    intro st' h
    simp only [Re.sets, Bool.and_eq_true, decide_eq_true_eq] at hr
    simp only [Re.runs, List.mem_flatMap] at h
    obtain ⟨s1, h1, h2⟩ := h
    cases mn with
    | zero => omega
    | succ mn =>
      simp only [iterL, List.mem_flatMap] at h1
      obtain ⟨s2, h3, h4⟩ := h1
      obtain ⟨c, hc, e⟩ := ih hr.2 st s2 h3
      exact ⟨c, optL_caps_mono h2 (iterL_caps_mono h4 hc), e⟩

theorem findFrom_sets {r : Re} {k p : Nat} {s : Str} {x : Match} (hr : r.sets k = true) (h : r.findFrom p s = some x) :
    ∃ c ∈ x.caps, c.1 = k := by
  obtain ⟨a, w, e, _, _, _, _, h5⟩ := findFrom_sound h
  rw [matchAt_eq] at h5
  simp only [Option.map_eq_some_iff] at h5
  obtain ⟨st, h6, h7⟩ := h5
  rw [← h7]
  exact runs_sets r hr _ st (List.mem_of_mem_head? h6)

theorem findAll_sets {r : Re} {k : Nat} {s : Str} {x : Match} (hr : r.sets k = true) (h : x ∈ r.findAll s) :
    ∃ c ∈ x.caps, c.1 = k := by
  have loop : ∀ f pos prev, x ∈ findAllLoop r s f pos prev → ∃ c ∈ x.caps, c.1 = k := by
    intro f
    induction f with
    | zero => intro pos prev h; cases h
    | succ f ih =>
      intro pos prev h
      unfold findAllLoop at h
      split at h
      · cases h
      · split at h
        · cases h
        · rename_i y hy
          split at h
          · split at h
            · exact ih _ _ h
            · rcases List.mem_cons.1 h with rfl | h
              · exact findFrom_sets hr hy
              · exact ih _ _ h
          · rcases List.mem_cons.1 h with rfl | h
            · exact findFrom_sets hr hy
            · exact ih _ _ h
  exact loop _ _ _ h

theorem span_of_cap {x : Match} {k : Nat} (hk : k ≠ 0) (h : ∃ c ∈ x.caps, c.1 = k) : ∃ ab, x.span k = some ab := by
  obtain ⟨c, hc, rfl⟩ := h
  unfold Match.span
  rw [if_neg hk]
  cases hf : x.caps.find? (·.1 == c.1) with
  | some d => exact ⟨_, rfl⟩
  | none =>
    have := List.find?_eq_none.1 hf c hc
    simp at this

/-! ## Texts in which no hyphen follows a semicolon -/

/-- No hyphen follows a semicolon. -/
def SemiOk (s : Str) : Prop := ∀ a b, s = a ++ 59 :: b → 45 ∉ b

theorem SemiOk.infix {s t : Str} (h : SemiOk t) (hs : s <:+: t) : SemiOk s := by
  obtain ⟨x, y, e⟩ := hs
  intro a b hab hm
  refine h (x ++ a) (b ++ y) ?_ (List.mem_append_left _ hm)
  rw [← e, hab]
  simp

theorem semiOk_noSemi {s : Str} (h : ∀ u ∈ s, u ≠ 59) : SemiOk s := by
  intro a b e
  exact absurd rfl (h 59 (by rw [e]; simp))

theorem semiOk_noHyphen {s : Str} (h : ∀ u ∈ s, u ≠ 45) : SemiOk s := by
  intro a b e hm
  exact absurd rfl (h 45 (by rw [e]; simp [hm]))

theorem SemiOk.append {s t : Str} (hs : ∀ u ∈ s, u ≠ 59) (ht : SemiOk t) : SemiOk (s ++ t) := by
  intro a b e
  rcases List.append_eq_append_iff.1 e with ⟨c, h1, h2⟩ | ⟨c, h1, h2⟩
  · exact ht c b h2
  · cases c with
    | nil =>
      simp only [List.nil_append] at h2
      exact ht [] b h2.symm
    | cons u c =>
      simp only [List.cons_append, List.cons.injEq] at h2
      exact absurd h2.1.symm (hs u (by rw [h1]; simp))

/-- No class contains the character. -/
def Re.without (u : Nat) (r : Re) : Bool := r.allCls fun c => !c.mem u

theorem without_acc {v : Nat} {r : Re} (hr : r.without v = true) {p : Nat} {w e : Str} (h : r.Acc p w e) : ∀ u ∈ w, u ≠ v := by
  refine allCls_acc ?_ r hr p w e h
  rintro c hc u hu rfl
  rw [hu] at hc
  cases hc

/-- A sufficient condition for all accepted texts to be `SemiOk`. -/
def Re.semiOk : Re → Bool
  | .cat a b => (a.without 59 && b.semiOk) || (Re.cat a b).without 45
  | .alt a b => a.semiOk && b.semiOk
  | .grp _ r => r.semiOk
  | .rep r mn mx g => (decide (mn + ((mx.getD 2) - mn) ≤ 1) && r.semiOk) || (Re.rep r mn mx g).without 59 || (Re.rep r mn mx g).without 45
  | _ => true

theorem semiOk_acc (r : Re) (hr : r.semiOk = true) (p : Nat) (w e : Str) (h : r.Acc p w e) : SemiOk w := by
  have nil : SemiOk [] := fun a b e => (by cases a <;> cases e)
  induction r generalizing p w e with
  | eps => simp only [Re.Acc] at h; subst h; exact nil
  | bos => obtain ⟨_, rfl⟩ := h; exact nil
  | eos => obtain ⟨rfl, _⟩ := h; exact nil
  | cls c =>
    obtain ⟨u, rfl, _⟩ := h
    intro a b e hm
    cases a with
    | nil => cases e; cases hm
    | cons v a => cases a <;> cases e
  | cat a b iha ihb =>
    simp only [Re.semiOk, Bool.or_eq_true, Bool.and_eq_true] at hr
    rcases hr with ⟨h1, h2⟩ | h1
    · obtain ⟨w1, w2, rfl, a1, a2⟩ := h
      exact .append (without_acc h1 a1) (ihb h2 _ _ _ a2)
    · exact semiOk_noHyphen (without_acc h1 h)
  | alt a b iha ihb =>
    simp only [Re.semiOk, Bool.and_eq_true] at hr
    rcases h with h | h
    · exact iha hr.1 _ _ _ h
    · exact ihb hr.2 _ _ _ h
  | grp n r ih => exact ih hr _ _ _ h
  | rep r mn mx g ih =>
    simp only [Re.semiOk, Bool.or_eq_true, Bool.and_eq_true, decide_eq_true_eq] at hr
    rcases hr with (⟨h1, h2⟩ | h1) | h1
    · obtain ⟨k, k1, k2, k3⟩ := h
      have hk : k ≤ 1 := by
        cases mx with
        | none => simp at h1; omega
        | some x => have := k2 x rfl; simp at h1; omega
      match k, hk with
      | 0, _ => simp only [iterP] at k3; subst k3; exact nil
      | 1, _ =>
        obtain ⟨w1, w2, rfl, a1, a2⟩ := k3
        simp only [iterP] at a2
        subst a2
        rw [List.append_nil]
        exact ih h2 _ _ _ a1
    · exact semiOk_noSemi (without_acc h1 h)
    · exact semiOk_noHyphen (without_acc h1 h)

theorem matcherPattern_semiOk : matcherPattern.semiOk = true := by decide +kernel

theorem innerMatches_sets : innerMatches.all (fun r => r.sets 1) = true := by decide +kernel

/-! ## Verifying a number -/

theorem goSlice_of_le {s : Str} {a b : Nat} (h1 : a ≤ b) (h2 : b ≤ s.length) : goSlice s a b = .ok (slice s a b) := by
  unfold goSlice
  rw [if_pos ⟨h1, h2⟩]

theorem splitHyphens_cons (s : Str) : ∃ g gs, splitHyphens s = g :: gs := by
  induction s with
  | nil => exact ⟨_, _, rfl⟩
  | cons u s ih =>
    obtain ⟨g, gs, e⟩ := ih
    unfold splitHyphens
    split
    · exact ⟨_, _, rfl⟩
    · rw [e]; exact ⟨_, _, rfl⟩

/-- The first hyphen, if any, comes before the first semicolon, if any. -/
def HyphenFirst (f : Str) : Prop := SemiOk f ∨ ∃ x y, f = x ++ 45 :: y ∧ 59 ∉ x

/-- The slice in `nationalGroups` is well formed. -/
theorem nationalGroups_of {C : Container} {n : PhoneNumber} (h : HyphenFirst (format C n .rfc3966)) :
    ∃ g gs, nationalGroups C n = .ok (g :: gs) := by
  suffices k : ∃ t, goSlice (format C n .rfc3966) (((indexOf (format C n .rfc3966) [45]).map (· + 1)).getD 0)
      ((indexOf (format C n .rfc3966) [59]).getD (format C n .rfc3966).length) = .ok t by
    obtain ⟨t, ht⟩ := k
    obtain ⟨g, gs, e⟩ := splitHyphens_cons t
    refine ⟨g, gs, ?_⟩
    unfold nationalGroups
    simp only [ht, bind, Except.bind, pure, Except.pure, e]
  generalize format C n .rfc3966 = f at h ⊢
  refine ⟨_, goSlice_of_le ?_ ?_⟩
  · cases h1 : indexOf f [45] with
    | none => exact Nat.zero_le _
    | some i =>
      simp only [Option.map_some, Option.getD_some]
      have hi := indexOf_le h1
      simp only [List.length_cons, List.length_nil, reduceCtorEq, false_and, or_false] at hi
      cases h2 : indexOf f [59] with
      | none => simpa using hi
      | some j =>
        simp only [Option.getD_some]
        obtain ⟨t1, e1⟩ := indexOf_prefix h1
        obtain ⟨t2, e2⟩ := indexOf_prefix h2
        simp only [List.cons_append, List.nil_append] at e1 e2
        have hij : i ≠ j := by
          rintro rfl
          rw [e1] at e2
          cases e2
        suffices ¬ j < i by omega
        intro hlt
        rcases h with h | ⟨x, y, hx, h59⟩
        case inr =>
          have hle : i ≤ x.length := by
            refine Nat.le_of_not_lt fun hl => ?_
            have := indexOf_first h1 hl
            rw [hx, List.drop_left] at this
            simp at this
          have e4 : x.drop j ++ 45 :: y = 59 :: t2 := by
            rw [← e2, hx, List.drop_append_of_le_length (by omega)]
          cases e5 : x.drop j with
          | nil =>
            have := List.length_drop (l := x) (i := j)
            rw [e5] at this
            simp only [List.length_nil] at this
            omega
          | cons v z =>
            rw [e5] at e4
            cases e4
            exact h59 (List.mem_of_mem_drop (by rw [e5]; simp))
        refine h (f.take j) t2 (by rw [← e2, List.take_append_drop]) ?_
        have e3 : f.drop i = (f.drop j).drop (i - j) := by rw [List.drop_drop]; congr 1; omega
        rw [e2] at e3
        have : i - j = (i - j - 1) + 1 := by omega
        rw [this, List.drop_succ_cons, e1] at e3
        exact List.mem_of_mem_drop (by rw [← e3]; simp)
  · cases h2 : indexOf f [59] with
    | none => exact Nat.le_refl _
    | some j =>
      have := indexOf_le h2
      simp at this ⊢
      omega

theorem dropBytes_ok {k : Nat} {s : Str} (h : k ≤ s.length) : ∃ t, dropBytes k s = .ok t := by
  induction k generalizing s with
  | zero => exact ⟨_, rfl⟩
  | succ k ih =>
    cases s with
    | nil => simp at h
    | cons u s =>
      simp only [List.length_cons] at h
      obtain ⟨t, ht⟩ := ih (s := (unitBytes u).tail.map (· + badBase) ++ s) (by rw [List.length_append]; omega)
      exact ⟨t, ht⟩

theorem normalizeDigits_length (s : Str) : (normalizeDigits true s).length = s.length := by
  induction s with
  | nil => rfl
  | cons u s ih =>
    have e : normalizeDigits true (u :: s) = (match charDigit (rune u) with | some v => [v] | none => [rune u]) ++ normalizeDigits true s := by
      unfold normalizeDigits
      rw [List.flatMap_cons]
      rfl
    rw [e, List.length_append, ih]
    split <;> simp <;> omega

theorem groupsRemainGrouped_ok {C : Container} {n : PhoneNumber} {norm : Str} (h : (decInt n.cc).length - 1 ≤ norm.length)
    (groups : List Str) : ∃ b, groupsRemainGrouped C n norm groups = .ok b := by
  unfold groupsRemainGrouped
  split
  · split
    · exact ⟨_, rfl⟩
    · obtain ⟨t, ht⟩ := dropBytes_ok h
      rw [ht]
      exact ⟨_, rfl⟩
  · exact ⟨_, rfl⟩

theorem groupsExactlyPresent_ok {n : PhoneNumber} {norm g : Str} {gs : List Str} : ∃ b, groupsExactlyPresent n norm (g :: gs) = .ok b := by
  have hne : splitNonDigits norm ≠ [] := by
    unfold splitNonDigits
    split
    · simp
    · rename_i h; exact h
  unfold groupsExactlyPresent
  dsimp only
  by_cases h1 : (splitNonDigits norm).length = 1
  · rw [if_pos h1]; exact ⟨_, rfl⟩
  · rw [if_neg h1]
    have h2 : 2 ≤ (splitNonDigits norm).reverse.length := by
      have := List.length_pos_iff.2 hne
      rw [List.length_reverse]
      omega
    have h3 : ∃ c cs, (if n.ext ≠ [] then (splitNonDigits norm).reverse.tail else (splitNonDigits norm).reverse) = c :: cs := by
      generalize (splitNonDigits norm).reverse = l at h2
      match l, h2 with
      | a :: b :: l, _ =>
        split
        · exact ⟨_, _, rfl⟩
        · exact ⟨_, _, rfl⟩
    obtain ⟨c, cs, h3⟩ := h3
    rw [h3]
    dsimp only
    split
    · exact ⟨_, rfl⟩
    · exact ⟨_, rfl⟩

theorem alternateGroupings_ok {n : PhoneNumber} {checker : List Str → Go Bool} (hc : ∀ g gs, ∃ b, checker (g :: gs) = .ok b)
    (fs : List NumberFormat) : ∃ b, alternateGroupings n checker fs = .ok b := by
  induction fs with
  | nil => exact ⟨_, rfl⟩
  | cons f fs ih =>
    unfold alternateGroupings
    split
    · obtain ⟨g, gs, e⟩ := splitHyphens_cons (formatNsnUsingPattern (nsnOf n) f .rfc3966 [])
      obtain ⟨b, hb⟩ := hc g gs
      unfold nationalGroupsWith
      rw [e, hb]
      cases b with
      | true => exact ⟨_, rfl⟩
      | false => exact ih
    · exact ih

theorem checkGrouping_ok {C : Container} {alt : List Metadata} {n : PhoneNumber} {cand : Str}
    {checker : PhoneNumber → Str → List Str → Go Bool} (hc : ∀ g gs, ∃ b, checker n (normalizeDigits true cand) (g :: gs) = .ok b)
    (h : HyphenFirst (format C n .rfc3966)) : ∃ b, checkGrouping C alt n cand checker = .ok b := by
  obtain ⟨g, gs, e⟩ := nationalGroups_of h
  obtain ⟨b, hb⟩ := hc g gs
  unfold checkGrouping
  simp only [e, hb, bind, Except.bind, pure, Except.pure]
  cases b with
  | true => exact ⟨_, rfl⟩
  | false =>
    simp only [Bool.false_eq_true, if_false]
    split
    · exact ⟨_, rfl⟩
    · exact alternateGroupings_ok hc _

theorem isValidNumber_ok (n : PhoneNumber) : ∃ b, isValidNumber Data.container n = .ok b := by
  obtain ⟨r, hr, _⟩ := regionForNumber_ok built_shipped Data.wf_tables Data.wf_allDescs n
  unfold isValidNumber
  rw [hr]
  exact Props.C27_total n r

theorem isPossibleNumber_ok (n : PhoneNumber) : ∃ b, isPossibleNumber Data.container n = .ok b := by
  suffices k : ∃ r, possibleWithReason Data.container n = .ok r by
    obtain ⟨r, hr⟩ := k
    unfold isPossibleNumber
    rw [hr]
    exact ⟨_, rfl⟩
  unfold possibleWithReason
  split
  · exact ⟨_, rfl⟩
  · dsimp only
    split
    · split
      · exact ⟨_, rfl⟩
      · split <;> exact ⟨_, rfl⟩
    · rename_i h
      cases hm : Data.container.metaFor n.cc (Data.container.mainRegion n.cc) with
      | none => rw [hm] at h; exact absurd rfl h
      | some m => exact testNumberLength_unknown_ok (List.all_eq_true.1 Data.wf_generalLengths m (Container.metaFor_mem hm)) _

theorem numberMatchOne_ok (n : PhoneNumber) (s : Str) : ∃ b, numberMatchOne Data.container n s = .ok b := by
  have ok : ∀ s region check, ∃ r, parseHelper Data.container s region false check {} = .ok r := fun s region check =>
    parseHelper_ok Data.wf_generalLengths s region false check {}
  unfold numberMatchOne
  obtain ⟨⟨e, m⟩, h1⟩ := ok s unknownRegion true
  have h1 : parse Data.container s unknownRegion = .ok (e, m) := h1
  simp only [h1, bind, Except.bind, pure, Except.pure]
  split
  · exact ⟨_, rfl⟩
  · split
    · obtain ⟨⟨e, m⟩, h2⟩ := ok s (Data.container.mainRegion n.cc) true
      have h2 : parse Data.container s (Data.container.mainRegion n.cc) = .ok (e, m) := h2
      rw [h2]
      cases e <;> exact ⟨_, rfl⟩
    · obtain ⟨⟨e, m⟩, h2⟩ := ok s [] false
      rw [h2]
      cases e <;> exact ⟨_, rfl⟩
  · exact ⟨_, rfl⟩

theorem onlyValidX_ok (n : PhoneNumber) (s : Str) : ∃ b, onlyValidX Data.container n s = .ok b := by
  fun_induction onlyValidX Data.container n s with
  | case1 u v t hu hv ih =>
    obtain ⟨b, hb⟩ := numberMatchOne_ok n (v :: t)
    simp only [hb, bind, Except.bind]
    split
    · exact ⟨_, rfl⟩
    · exact ih
  | case2 => exact ⟨_, rfl⟩
  | case3 _ _ _ _ _ _ ih => exact ih
  | case4 _ _ _ _ ih => exact ih
  | case5 => exact ⟨_, rfl⟩

theorem verifyCommon_ok (n : PhoneNumber) (s : Str) : ∃ b, verifyCommon Data.container n s = .ok b := by
  obtain ⟨v, hv⟩ := isValidNumber_ok n
  obtain ⟨x, hx⟩ := onlyValidX_ok n s
  unfold verifyCommon
  rw [hv]
  cases v with
  | false => exact ⟨_, rfl⟩
  | true =>
    rw [hx]
    cases x with
    | false => exact ⟨_, rfl⟩
    | true =>
      simp only [bind, Except.bind, pure, Except.pure]
      split
      · exact ⟨_, rfl⟩
      · split <;> exact ⟨_, rfl⟩

theorem verify_ok {l : Leniency} {alt : List Metadata} {n : PhoneNumber} {s : Str} (h1 : HyphenFirst (format Data.container n .rfc3966))
    (h2 : (decInt n.cc).length - 1 ≤ s.length) : ∃ b, l.verify Data.container alt n s = .ok b := by
  cases l with
  | possible => exact isPossibleNumber_ok n
  | valid =>
    obtain ⟨v, hv⟩ := isValidNumber_ok n
    obtain ⟨x, hx⟩ := onlyValidX_ok n s
    unfold Leniency.verify
    rw [hv]
    cases v with
    | false => exact ⟨_, rfl⟩
    | true =>
      rw [hx]
      cases x with
      | false => exact ⟨_, rfl⟩
      | true => exact ⟨_, rfl⟩
  | strictGrouping =>
    obtain ⟨v, hv⟩ := verifyCommon_ok n s
    unfold Leniency.verify
    rw [hv]
    cases v with
    | false => exact ⟨_, rfl⟩
    | true => exact checkGrouping_ok (fun g gs => groupsRemainGrouped_ok (by rw [normalizeDigits_length]; exact h2) _) h1
  | exactGrouping =>
    obtain ⟨v, hv⟩ := verifyCommon_ok n s
    unfold Leniency.verify
    rw [hv]
    cases v with
    | false => exact ⟨_, rfl⟩
    | true => exact checkGrouping_ok (fun g gs => groupsExactlyPresent_ok) h1

/-! ## Numbers that come from a piece of text -/

theorem parsed_length {C : Container} {s region : Str} {n : PhoneNumber} (h : parseKeepRaw C s region = .ok (none, n)) : 2 ≤ s.length := by
  obtain ⟨o, ho, _⟩ := parse_core_of_ok h
  unfold parseCore at ho
  split at ho
  · cases ho
  · split at ho
    · cases ho
    · obtain ⟨r, hr, ho⟩ := bind_ok.1 ho
      cases r with
      | error e => cases ho
      | ok t =>
        dsimp only at ho
        split at ho
        · cases ho
        · rename_i hv
          have ha := isViable_acc (s := t) (by simpa using hv)
          have hl := minLen_acc _ _ _ _ ha
          have hm : validBody.minLen = 2 := by decide +kernel
          rw [hm] at hl
          rcases buildNationalNumber_infix hr with h1 | ⟨h1, _⟩
          · exact Nat.le_trans hl h1.length_le
          · cases hi : indexOf s rfcPhoneContext with
            | none => rw [hi] at h1; cases h1
            | some i =>
              have := indexOf_le hi
              have hc : rfcPhoneContext.length = 15 := by decide
              have hz : rfcPhoneContext ≠ [] := by decide
              simp only [hc, hz, false_and, or_false] at this
              omega

theorem parsed_hyphenFirst {s region : Str} {n : PhoneNumber} (h : parseKeepRaw Data.container s region = .ok (none, n)) (hs : SemiOk s) :
    HyphenFirst (format Data.container n .rfc3966) := by
  obtain ⟨⟨cc, h1, h2⟩, _⟩ := Props.C08_parsed _ Data.wf_regions Data.wf_transform s region n (.inr h)
  obtain ⟨o, _, ho⟩ := parse_core_of_ok h
  by_cases hz : n.nn = 0 ∧ n.raw ≠ []
  · left
    have e : format Data.container n .rfc3966 = n.raw := by
      unfold format
      rw [if_pos hz]
    rw [e, ho]
    exact hs
  · right
    obtain ⟨body, hb, _⟩ := Props.C17_shipped n (by unfold PhoneNumber.cc; rw [h1]; exact h2) hz
    refine ⟨str!"tel:+" ++ Spec.decimal n.cc.toNat, body ++ (if n.extension.getD [] = [] then [] else str!";ext=" ++ n.extension.getD []),
      by rw [hb]; simp, ?_⟩
    intro hm
    rcases List.mem_append.1 hm with hm | hm
    · revert hm; decide
    · rw [← dec_eq_decimal] at hm
      have := dec_digits _ _ hm
      revert this; decide

theorem parsed_cc {s region : Str} {n : PhoneNumber} (h : parseKeepRaw Data.container s region = .ok (none, n)) :
    (decInt n.cc).length ≤ 3 := by
  obtain ⟨⟨cc, h1, h2⟩, _⟩ := Props.C08_parsed _ Data.wf_regions Data.wf_transform s region n (.inr h)
  have hcc : Data.container.hasCC n.cc = true := by unfold PhoneNumber.cc; rw [h1]; exact h2
  have hall : Data.container.ccToRegion.all (fun e => decide ((decInt e.1).length ≤ 3)) = true := by kernel_rfl
  obtain ⟨e, he, hx⟩ := List.mem_map.1 (mapGet_isSome_iff.1 hcc)
  have := List.all_eq_true.1 hall e he
  rw [hx] at this
  simpa using this

namespace Finder

theorem parseAndVerify_ok {F : Finder} (hF : F.C = Data.container) {s : Str} (hs : SemiOk s) (o : Nat) :
    ∃ r, F.parseAndVerify s o = .ok r := by
  unfold parseAndVerify
  split
  · exact ⟨_, rfl⟩
  · split
    · exact ⟨_, rfl⟩
    · rw [hF]
      obtain ⟨e, n, hp⟩ := (Props.C06_shipped s F.region).2
      have hp' : parseKeepRawToNumber Data.container s F.region {} = .ok (e, n) := hp
      rw [hp']
      cases e with
      | some e => exact ⟨_, rfl⟩
      | none =>
        have h1 := parsed_cc hp
        have h2 := parsed_length hp
        obtain ⟨b, hb⟩ := verify_ok (l := F.leniency) (alt := F.alt) (parsed_hyphenFirst hp hs) (show _ ≤ s.length by omega)
        simp only [bind, Except.bind, hb]
        cases b <;> exact ⟨_, rfl⟩

theorem slice_infix (s : Str) (a b : Nat) : slice s a b <:+: s :=
  (List.take_prefix _ _).isInfix.trans (List.drop_suffix _ _).isInfix

theorem innerLoop_ok {F : Finder} (hF : F.C = Data.container) {s : Str} (hs : SemiOk s) (o : Nat) (first : Bool) (gs : List Match)
    (hg : ∀ g ∈ gs, ∃ c ∈ g.caps, c.1 = 1) (t : Tries) : ∃ r, F.innerLoop s o first gs t = .ok r := by
  induction gs generalizing first t with
  | nil => exact ⟨_, rfl⟩
  | cons g gs ih =>
    unfold innerLoop
    split
    · exact ⟨_, rfl⟩
    · have h1 : ∃ r, F.firstPiece s o g.start first = .ok r := by
        unfold firstPiece
        split
        · exact parseAndVerify_ok hF (hs.infix ((trim_prefix _ _).isInfix.trans (List.take_prefix _ _).isInfix)) _
        · exact ⟨_, rfl⟩
      obtain ⟨r, hr⟩ := h1
      rw [hr]
      cases r with
      | some m => exact ⟨_, rfl⟩
      | none =>
        obtain ⟨⟨a, b⟩, hab⟩ := span_of_cap (by decide) (hg g (List.mem_cons_self ..))
        simp only [bind, Except.bind, hab]
        obtain ⟨q, hq⟩ := parseAndVerify_ok hF (hs.infix ((trim_prefix unwantedEndCharPattern (slice s a b)).isInfix.trans (slice_infix s a b))) (o + a)
        rw [hq]
        cases q with
        | some m => exact ⟨_, rfl⟩
        | none => exact ih false (fun g hg' => hg g (List.mem_cons_of_mem _ hg')) _

theorem extractInner_ok {F : Finder} (hF : F.C = Data.container) {s : Str} (hs : SemiOk s) (o : Nat) (rs : List Re)
    (hr : ∀ r ∈ rs, r.sets 1 = true) (t : Tries) : ∃ r, F.extractInner s o rs t = .ok r := by
  induction rs generalizing t with
  | nil => exact ⟨_, rfl⟩
  | cons r rs ih =>
    unfold extractInner
    obtain ⟨⟨q, u⟩, hq⟩ := innerLoop_ok hF hs o true (r.findAll s) (fun g hg => findAll_sets (hr r (List.mem_cons_self ..)) hg) t
    rw [hq]
    cases q with
    | some m => exact ⟨_, rfl⟩
    | none => exact ih (fun r hr' => hr r (List.mem_cons_of_mem _ hr')) u

theorem extractMatch_ok {F : Finder} (hF : F.C = Data.container) {s : Str} (hs : SemiOk s) (o : Nat) (t : Tries) :
    ∃ r, F.extractMatch s o t = .ok r := by
  unfold extractMatch
  split
  · exact ⟨_, rfl⟩
  · obtain ⟨q, hq⟩ := parseAndVerify_ok hF hs o
    rw [hq]
    cases q with
    | some m => exact ⟨_, rfl⟩
    | none => exact extractInner_ok hF hs o _ (fun r hr => List.all_eq_true.1 innerMatches_sets r hr) _

theorem findLoop_ok {F : Finder} (hF : F.C = Data.container) (fuel i : Nat) (t : Tries) : ∃ r, F.findLoop fuel i t = .ok r := by
  induction fuel generalizing i t with
  | zero => exact ⟨_, rfl⟩
  | succ fuel ih =>
    unfold findLoop
    split
    · exact ⟨_, rfl⟩
    · split
      · exact ⟨_, rfl⟩
      · rename_i x hx
        obtain ⟨w, hw, _, _, _, p, e, ha⟩ := candidate_spec hx
        have hs : SemiOk (trimAfterFirstMatch secondNumberStartPattern (slice (F.text.drop i) x.start x.stop)) := by
          rw [hw]
          exact (semiOk_acc _ matcherPattern_semiOk _ _ _ ha).infix (trim_prefix _ _).isInfix
        obtain ⟨⟨q, u⟩, hq⟩ := extractMatch_ok hF hs (i + x.start) t
        dsimp only
        rw [hq]
        cases q with
        | some m => exact ⟨_, rfl⟩
        | none => exact ih _ _

theorem iterate_ok {F : Finder} (hF : F.C = Data.container) (fuel i : Nat) (t : Tries) :
    ∃ r, F.iterate fuel ⟨.notReady, i, t⟩ = .ok r := by
  induction fuel generalizing i t with
  | zero => exact ⟨_, rfl⟩
  | succ fuel ih =>
    rw [iterate_succ]
    obtain ⟨⟨q, u⟩, hq⟩ := findLoop_ok hF (F.text.length + 1) i t
    have hq : F.find i t = .ok (q, u) := hq
    rw [hq]
    cases q with
    | none => exact ⟨_, rfl⟩
    | some m =>
      obtain ⟨r, hr⟩ := ih (m.at_ + m.raw.length) u
      simp only [bind, Except.bind, hr]
      exact ⟨_, rfl⟩

end Finder
end Verif
