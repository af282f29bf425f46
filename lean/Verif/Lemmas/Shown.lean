import Verif.Spec.Shown
import Verif.Lemmas.Layout
import Verif.Lemmas.FormatDigits
import Verif.Lemmas.AytfPrefix
import Verif.Lemmas.AytfTotal
/-!
# Typing a number that a layout rule can be used for
-/
namespace Verif
open Spec

/-! ## Beginnings -/

/-- The text begins as the pattern says. -/
def Begins (r : Re) (s : Str) : Prop := ∃ w e, s = w ++ e ∧ r.Acc 0 w []

theorem begins_mono {r : Re} {p s : Str} (h : Begins r p) (hp : p <+: s) : Begins r s := by
  obtain ⟨w, e, rfl, ha⟩ := h
  obtain ⟨t, rfl⟩ := hp
  exact ⟨w, e ++ t, by simp, ha⟩

theorem begins_shorter {r : Re} {p s : Str} {n : Nat} (h : Begins r s) (hn : r.maxLen = some n) (hl : n ≤ p.length) (hp : p <+: s) :
    Begins r p := by
  obtain ⟨w, e, hw, ha⟩ := h
  have := maxLen_acc r n hn _ _ _ ha
  obtain ⟨t, rfl⟩ := List.prefix_of_prefix_length_le ⟨e, hw.symm⟩ hp (by omega)
  exact ⟨w, t, rfl, ha⟩

theorem begins_more {r : Re} {s : Str} (hr : r.noAnchor = true) (hs : ∀ u ∈ s, isDig u = true) (h : Begins r s) : r.andMore.Acc 0 s [] := by
  obtain ⟨w, e, rfl, ha⟩ := h
  exact ⟨w, e, rfl, noAnchor_acc hr ha, anyDigits_acc (fun u hu => hs u (by simp [hu])) _ _⟩

theorem more_begins {r : Re} {s : Str} (hr : r.noAnchor = true) (h : r.andMore.Acc 0 s []) : Begins r s := by
  obtain ⟨w, e, rfl, ha, -⟩ := h
  exact ⟨w, e, rfl, noAnchor_acc hr ha⟩

theorem andMore_noAnchor {r : Re} (hr : r.noAnchor = true) : r.andMore.noAnchor = true := by
  show (r.noAnchor && anyDigits.noAnchor) = true
  rw [hr]; rfl

theorem begApart_sound {a b : Re} (h : begApart a b = true) (ha : a.noAnchor = true) (hb : b.noAnchor = true) {s : Str}
    (hs : ∀ u ∈ s, isDig u = true) (h1 : Begins a s) (h2 : Begins b s) : False := by
  refine excl_sound h ?_ (by simp) hs ?_ (by simp)
  · intro P hP r hr
    simp only [List.mem_cons, List.not_mem_nil, or_false] at hP
    rcases hP with rfl | rfl <;> (rw [List.mem_singleton] at hr; subst hr)
    · exact andMore_noAnchor ha
    · exact andMore_noAnchor hb
  · intro P hP
    simp only [List.mem_cons, List.not_mem_nil, or_false] at hP
    rcases hP with rfl | rfl
    · exact ⟨_, List.mem_singleton.2 rfl, begins_more ha hs h1⟩
    · exact ⟨_, List.mem_singleton.2 rfl, begins_more hb hs h2⟩

theorem begWithin_sound {a b : Re} (h : begWithin a b = true) (ha : a.noAnchor = true) (hb : b.noAnchor = true) {s : Str}
    (hs : ∀ u ∈ s, isDig u = true) (h1 : Begins a s) : Begins b s := by
  apply Classical.byContradiction
  intro h2
  refine excl_sound h ?_ ?_ hs ?_ ?_
  · intro P hP r hr
    rw [List.mem_singleton.1 hP, List.mem_singleton] at hr
    subst hr; exact andMore_noAnchor ha
  · intro P hP r hr
    rw [List.mem_singleton.1 hP, List.mem_singleton] at hr
    subst hr; exact andMore_noAnchor hb
  · intro P hP
    rw [List.mem_singleton.1 hP]
    exact ⟨_, List.mem_singleton.2 rfl, begins_more ha hs h1⟩
  · intro P hP ⟨r, hr, hc⟩
    rw [List.mem_singleton.1 hP, List.mem_singleton] at hr
    subst hr
    exact h2 (more_begins hb hc)

theorem begins_iff {r : Re} (hr : r.noAnchor = true) (s : Str) : r.atStart.isMatch s = true ↔ Begins r s := by
  rw [atStart_isMatch_iff]
  constructor
  · rintro ⟨w, e, h, ha⟩; exact ⟨w, e, h, noAnchor_acc hr ha⟩
  · rintro ⟨w, e, h, ha⟩; exact ⟨w, e, h, noAnchor_acc hr ha⟩

/-! ## One rule -/

theorem leadsOk_spec {last : Re} {l : List Re} {i : Nat} (h : leadsOk last l i = true) (j : Nat) (r : Re) (hj : l[j]? = some r) :
    r.noAnchor = true ∧ (∃ n, r.maxLen = some n ∧ n ≤ i + j) ∧
      (last.noAnchor = true → ∀ s : Str, (∀ u ∈ s, isDig u = true) → Begins last s → Begins r s) := by
  induction l generalizing i j with
  | nil => simp at hj
  | cons q l ih =>
    simp only [leadsOk, Bool.and_eq_true] at h
    obtain ⟨⟨⟨h1, h2⟩, h3⟩, h4⟩ := h
    cases j with
    | zero =>
      simp only [List.getElem?_cons_zero, Option.some.injEq] at hj
      subst hj
      refine ⟨h2, ?_, ?_⟩
      · cases hm : q.maxLen with
        | none => rw [hm] at h1; cases h1
        | some n => rw [hm] at h1; exact ⟨n, rfl, Nat.le_of_ble_eq_true h1⟩
      · intro hl s hs hb
        rcases Bool.or_eq_true_iff.1 h3 with h3 | h3
        · rw [Re.same_eq h3]; exact hb
        · exact begWithin_sound h3 hl h2 hs hb
    | succ j =>
      obtain ⟨k1, ⟨n, k2, k3⟩, k4⟩ := ih h4 j (by simpa using hj)
      exact ⟨k1, ⟨n, k2, by omega⟩, k4⟩

/-- What is known of a rule that passes the check. -/
structure Rule (f : NumberFormat) (gs : List (Nat × Nat)) : Prop where
  sizes : groupSizes f.pattern.re 1 = some gs
  least : 3 ≤ least gs
  sample : sampleOk f (most gs) = true
  template : Spec.templateOk gs.length f.format = true
  order : formatInOrder f = true
  src : f.pattern.src ≠ []
  lits : ∀ u ∈ templateLiterals f.format, u ∈ [32, 45, 46, 40, 41]
  elig : eligibleFormatPattern.isMatch f.format = true
  leads : ∀ r, (leads f).getLast? = some r → leadsOk r (leads f) 3 = true

theorem staysOk_rule {f : NumberFormat} (h : staysOk f = true) : ∃ gs, Rule f gs := by
  unfold staysOk at h
  cases hg : groupSizes f.pattern.re 1 with
  | none => rw [hg] at h; cases h
  | some gs =>
    simp only [hg, Bool.and_eq_true, Nat.ble_eq, List.all_eq_true, Bool.not_eq_true'] at h
    obtain ⟨⟨⟨⟨⟨⟨⟨h1, h2⟩, h3⟩, h4⟩, h5⟩, h6⟩, h7⟩, h8⟩ := h
    refine ⟨gs, hg, h1, h2, h3, h4, ?_, ?_, h7, ?_⟩
    · intro h; rw [h] at h5; cases h5
    · intro u hu
      have := h6 u hu
      simp only [List.any_cons, List.any_nil, Bool.or_eq_true, Nat.beq_eq, Bool.false_eq_true, or_false] at this
      simpa using this
    · intro r hr
      rw [hr] at h8
      exact h8

theorem Rule.bounds {f : NumberFormat} {gs} (h : Rule f gs) : bounds f = (Spec.least gs, Spec.most gs) := by
  unfold Spec.bounds; rw [h.sizes]

/-- The digits fit in the groups of the rule. -/
def Fits (f : NumberFormat) (s : Str) : Prop := (bounds f).1 ≤ s.length ∧ s.length ≤ (bounds f).2

instance (f : NumberFormat) (s : Str) : Decidable (Fits f s) := by unfold Fits; infer_instance

theorem Rule.fits {f : NumberFormat} {gs} (h : Rule f gs) {s : Str} (hs : ∀ u ∈ s, isDig u = true) :
    f.pattern.re.full.isMatch s = true ↔ Fits f s := by
  rw [full_isMatch_iff, groupSizes_acc h.sizes hs, Fits, h.bounds]

theorem Rule.noAnchor {f : NumberFormat} {gs} (h : Rule f gs) {r : Re} (hr : r ∈ Spec.leads f) : r.noAnchor = true := by
  obtain ⟨j, hj⟩ := List.mem_iff_getElem?.1 hr
  cases hl : (Spec.leads f).getLast? with
  | none => rw [List.getLast?_eq_none_iff] at hl; rw [hl] at hr; cases hr
  | some q => exact (leadsOk_spec (h.leads q hl) j r hj).1

/-- A rule can be used when the digits fit and begin as its last leading-digits pattern says. -/
theorem Rule.applies {f : NumberFormat} {gs} (h : Rule f gs) {s : Str} :
    Applies f s ↔ Fits f s ∧ ∀ r, (Spec.leads f).getLast? = some r → Begins r s := by
  unfold Applies Fits
  rw [h.bounds]
  simp only [h.sizes, Option.some.injEq, exists_eq_left']
  refine and_congr_right fun _ => ?_
  simp only [Spec.leads, List.getLast?_map]
  cases hl : f.leadingDigits.getLast? with
  | none => simp
  | some ld =>
    have hr : ld.re ∈ Spec.leads f := List.mem_map.2 ⟨ld, List.mem_of_getLast? hl, rfl⟩
    simp only [Option.some.injEq, forall_eq', Option.map_some]
    constructor
    · rintro ⟨w, e, e1, e2⟩; exact ⟨w, e, e1, noAnchor_acc (h.noAnchor hr) e2⟩
    · rintro ⟨w, e, e1, e2⟩; exact ⟨w, e, e1, noAnchor_acc (h.noAnchor hr) e2⟩

/-- The digits laid out by the rule. -/
def layBy (f : NumberFormat) (s : Str) : Str :=
  match groupSizes f.pattern.re 1 with
  | none => []
  | some gs => fill (cut gs s) f.format

theorem full_runs (r : Re) (s : Str) : r.full.runs ⟨0, s, []⟩ = (r.runs ⟨0, s, []⟩).filter (fun st => st.rest.isEmpty) := by
  show (if (0 : Nat) = 0 then [(⟨0, s, []⟩ : MSt)] else []).flatMap (fun st => (r.runs st).flatMap fun st => if st.rest = [] then [st] else []) = _
  rw [if_pos rfl, List.flatMap_singleton]
  generalize r.runs ⟨0, s, []⟩ = l
  induction l with
  | nil => rfl
  | cons a l ih =>
    rw [List.flatMap_cons, ih, List.filter_cons]
    cases hr : a.rest <;> simp

theorem matchAt_of_find {r : Re} {s : Str} {x : Match} (h : r.find s = some x) (h0 : x.start = 0) : r.matchAt 0 s = some x := by
  unfold Re.find at h
  cases s with
  | nil => exact h
  | cons u t =>
    rw [Re.findFrom] at h
    split at h
    · rename_i hx; rw [hx]; exact h
    · obtain ⟨a, w, e, -, h2, -⟩ := findFrom_sound h
      omega

theorem full_find {r : Re} {s : Str} {x : Match} (h : r.find s = some x) (h0 : x.start = 0) (h1 : x.stop = s.length) :
    r.full.find s = some x := by
  have hm := matchAt_of_find h h0
  rw [matchAt_eq] at hm
  obtain ⟨st, hst, rfl⟩ := Option.map_eq_some_iff.1 hm
  obtain ⟨w, e1, p1, -⟩ := runs_sound r _ st (List.mem_of_mem_head? hst)
  have hrest : st.rest = [] := by
    have := congrArg List.length e1
    simp only [List.length_append] at this
    exact List.length_eq_zero_iff.1 (by simp only at h1 p1; omega)
  have hfull : r.full.matchAt 0 s = some ⟨0, st.pos, st.caps⟩ := by
    rw [matchAt_eq, full_runs]
    cases hl : r.runs ⟨0, s, []⟩ with
    | nil => rw [hl] at hst; cases hst
    | cons y ys =>
      rw [hl] at hst
      simp only [List.head?_cons, Option.some.injEq] at hst
      subst hst
      rw [List.filter_cons_of_pos (by rw [hrest]; rfl)]
      rfl
  unfold Re.find
  cases s with
  | nil => exact hfull
  | cons u t => rw [Re.findFrom, hfull]

/-- The digits are laid out by the anchored pattern as by the plain one. -/
theorem Rule.full_replace {f : NumberFormat} {gs} (h : Rule f gs) {s : Str} (hs : ∀ u ∈ s, isDig u = true) (hf : Fits f s) :
    f.pattern.re.full.replaceAll s f.format = layBy f s ∧ f.pattern.re.replaceAll s f.format = layBy f s := by
  have hb := hf
  rw [Fits, h.bounds] at hb
  have h3 := h.least
  have hlay : layBy f s = fill (cut gs s) f.format := by unfold layBy; rw [h.sizes]
  refine ⟨?_, by rw [hlay]; exact replaceAll_layout h.sizes (by omega) h.template s hs hb.1 hb.2⟩
  obtain ⟨x, f1, f2, f3, f4⟩ := groups_match h.sizes s hs hb.1 hb.2
  have f5 := full_find f1 f2 f3
  have hnone : f.pattern.re.full.findFrom s.length [] = none := by
    cases hf : f.pattern.re.full.findFrom s.length [] with
    | none => rfl
    | some y =>
      obtain ⟨a, w, e, e1, k0, -, hacc, -⟩ := findFrom_sound hf
      obtain ⟨w1, w2, rfl, ⟨k1, rfl⟩, -⟩ := hacc
      simp only at hb
      omega
  have hout : f.pattern.re.full.replaceAll s f.format = expand x s f.format := by
    unfold Re.replaceAll
    rw [show s.length + 2 = (s.length + 1) + 1 from rfl, replaceLoop]
    rw [if_neg (by omega)]
    have f1' := f5
    unfold Re.find at f1'
    simp only [List.drop_zero, f1', f2, f3]
    rw [if_pos (.inl (by omega)), if_neg (by omega : ¬ (0 + 1 > s.length)), replaceLoop, if_neg (by omega)]
    simp only [List.drop_length, hnone]
    simp [slice]
  rw [hout, hlay, expand, expandLoop_fill x s (cut gs s) gs.length f4 _ _ (by omega) h.template]

/-- The laid-out text has the digits and otherwise only punctuation that is not dialled. -/
theorem Rule.dial {f : NumberFormat} {gs} (h : Rule f gs) {s : Str} (hs : ∀ u ∈ s, isDig u = true) (hf : Fits f s) :
    Aytf.dial (layBy f s) = s ∧ ∀ u ∈ layBy f s, u < 128 := by
  have hmem : ∀ u ∈ layBy f s, isDig u = true ∨ u ∈ [32, 45, 46, 40, 41] := by
    intro u hu
    rw [← (h.full_replace hs hf).2] at hu
    rcases replaceAll_mem hu with h1 | h1
    · exact .inl (hs u h1)
    · exact .inr (h.lits u h1)
  have hdig : (layBy f s).filter isDig = s := by
    rw [← (h.full_replace hs hf).2]
    exact replaceAll_inOrder f h.order s hs ((full_isMatch_iff _ _).1 ((h.fits hs).2 hf))
  refine ⟨?_, ?_⟩
  · conv => rhs; rw [← hdig]
    unfold Aytf.dial
    generalize layBy f s = l at hmem
    induction l with
    | nil => rfl
    | cons u l ih =>
      have ih := ih fun v hv => hmem v (List.mem_cons_of_mem _ hv)
      rcases hmem u (List.mem_cons_self ..) with h1 | h1
      · rw [List.filterMap_cons_some (Aytf.dialOf_digit h1), List.filter_cons_of_pos h1, ih]
      · have h2 : Aytf.dialOf u = none ∧ isDig u = false :=
          (show ∀ u ∈ [32, 45, 46, 40, 41], Aytf.dialOf u = none ∧ isDig u = false by decide +kernel) u h1
        rw [List.filterMap_cons_none h2.1, List.filter_cons_of_neg (by rw [h2.2]; simp), ih]
  · intro u hu
    rcases hmem u hu with h1 | h1
    · exact Aytf.isDig_lt h1
    · exact (show ∀ u ∈ [32, 45, 46, 40, 41], u < 128 by decide) u h1

/-- There is a template for the rule while the digits do not exceed it. -/
theorem Rule.ready {f : NumberFormat} {gs} (h : Rule f gs) {p : Str} (hp : ∀ u ∈ p, isDig u = true) (hl : p.length ≤ (Spec.bounds f).2) :
    Aytf.getTemplate p f ≠ [] := by
  have hs := h.sample
  unfold sampleOk at hs
  simp only [Bool.and_eq_true, Nat.ble_eq, Bool.not_eq_true'] at hs
  rw [h.bounds] at hl
  unfold Aytf.getTemplate
  dsimp only
  rw [if_neg (by rw [Aytf.blen_ascii fun u hu => Aytf.isDig_lt (hp u hu)]; simp only at hl; omega)]
  intro hc
  rw [List.map_eq_nil_iff] at hc
  rw [hc] at hs
  cases hs.2

/-! ## Narrowing down -/

/-- Is the rule kept for these digits? -/
def keepB (p : Str) (e : NumberFormat) : Bool := match Aytf.keepFormat p e with | .ok b => b | .error _ => false

theorem narrow_filter {p : Str} {F G : List NumberFormat} (h : Aytf.narrow p F = .ok G) : G = F.filter (keepB p) := by
  induction F generalizing G with
  | nil => cases h; rfl
  | cons f fs ih =>
    obtain ⟨k, hk, h⟩ := Builder.bind_ok.1 h
    obtain ⟨r, hr, h⟩ := Builder.bind_ok.1 h
    have h := Except.ok.inj h
    subst h
    rw [ih hr]
    have : keepB p f = k := by unfold keepB; rw [hk]
    cases k with
    | true => rw [List.filter_cons_of_pos this]; rfl
    | false => rw [List.filter_cons_of_neg (by rw [this]; simp)]; rfl

theorem keepB_iff {p : Str} {e : NumberFormat} {gs} (he : Rule e gs) (hp : ∀ u ∈ p, isDig u = true) (h3 : 3 ≤ p.length) :
    keepB p e = true ↔ leads e = [] ∨ ∃ r, (leads e)[min (p.length - 3) ((leads e).length - 1)]? = some r ∧ Begins r p := by
  have hb : blen p = p.length := Aytf.blen_ascii fun u hu => Aytf.isDig_lt (hp u hu)
  unfold keepB Aytf.keepFormat
  cases hl : e.leadingDigits with
  | nil => simp [leads, hl]
  | cons ld lds =>
    dsimp only
    have hm : minLeadingDigits = 3 := rfl
    rw [if_neg (by omega), hb, hm]
    have hlen : (leads e).length - 1 = lds.length := by simp [leads, hl]
    have hne : leads e ≠ [] := by simp [leads, hl]
    have hget : (leads e)[min (p.length - 3) ((leads e).length - 1)]? = ((ld :: lds)[min (p.length - 3) lds.length]?).map (·.re) := by
      rw [hlen]; unfold leads; rw [hl, List.getElem?_map]
    rw [hget]
    cases hx : (ld :: lds)[min (p.length - 3) lds.length]? with
    | none => rw [List.getElem?_eq_none_iff] at hx; simp at hx; omega
    | some q =>
      have hmem : q.re ∈ leads e := by unfold leads; rw [hl]; exact List.mem_map.2 ⟨q, List.mem_of_getElem? hx, rfl⟩
      simp only [Option.map_some, Option.some.injEq, exists_eq_left', begins_iff (he.noAnchor hmem), hne, false_or]

/-- What is known of a rule that is still on the list after the digits `p`. -/
structure Seen (e : NumberFormat) (p : Str) : Prop where
  some : leads e ≠ [] → ∃ r ∈ leads e, Begins r p
  look : 2 ≤ (leads e).length → 3 + lookedAt e ≤ p.length → ∃ r ∈ (leads e).drop (lookedAt e), Begins r p

theorem seen_kept {e : NumberFormat} {gs} (he : Rule e gs) {p : Str} (hp : ∀ u ∈ p, isDig u = true) (h3 : 3 ≤ p.length)
    (h : keepB p e = true) : Seen e p := by
  rcases (keepB_iff he hp h3).1 h with h | ⟨r, h1, h2⟩
  · exact ⟨fun k => absurd h k, fun k => by rw [h] at k; simp at k⟩
  · refine ⟨fun _ => ⟨r, List.mem_of_getElem? h1, h2⟩, fun _ h4 => ⟨r, ?_, h2⟩⟩
    have hj : lookedAt e ≤ (leads e).length - 1 := Nat.min_le_left _ _
    refine List.mem_iff_getElem?.2 ⟨min (p.length - 3) ((leads e).length - 1) - lookedAt e, ?_⟩
    rw [List.getElem?_drop, ← h1]
    congr 1
    omega

/-- One more digit, at a length where the patterns of the rule do not have to be looked at. -/
theorem Seen.more {e : NumberFormat} {q p : Str} (h : Seen e q) (hp : q <+: p)
    (hl : 2 ≤ (leads e).length → 3 + lookedAt e ≤ p.length → 3 + lookedAt e ≤ q.length) : Seen e p :=
  ⟨fun k => let ⟨r, h1, h2⟩ := h.some k; ⟨r, h1, begins_mono h2 hp⟩,
    fun k1 k2 => let ⟨r, h1, h2⟩ := h.look k1 (hl k1 k2); ⟨r, h1, begins_mono h2 hp⟩⟩

/-- A rule that can be used for the number is kept while it is typed. -/
theorem kept_of_applies {f : NumberFormat} {gs} (hf : Rule f gs) {s p : Str} (hs : ∀ u ∈ s, isDig u = true) (ha : Applies f s)
    (hp : p <+: s) (h3 : 3 ≤ p.length) : keepB p f = true := by
  have hpd : ∀ u ∈ p, isDig u = true := fun u hu => hs u (hp.subset hu)
  rw [keepB_iff hf hpd h3]
  cases hl : (leads f).getLast? with
  | none => exact .inl (List.getLast?_eq_none_iff.1 hl)
  | some last =>
    right
    have hb := (hf.applies.1 ha).2 last hl
    have hne : leads f ≠ [] := by intro h; rw [h] at hl; cases hl
    have hpos := List.length_pos_iff.2 hne
    have hlt : min (p.length - 3) ((leads f).length - 1) < (leads f).length := by omega
    refine ⟨_, List.getElem?_eq_getElem hlt, ?_⟩
    obtain ⟨k1, ⟨n, k2, k3⟩, k4⟩ := leadsOk_spec (hf.leads last hl) _ _ (List.getElem?_eq_getElem hlt)
    exact begins_shorter (k4 (hf.noAnchor (List.mem_of_getLast? hl)) s hs hb) k2 (by omega) hp

/-! ## The list -/

theorem yieldAll_spec {all L : List NumberFormat} (h : yieldAll all L = true) {pre post : List NumberFormat} {f : NumberFormat}
    (hL : L = pre ++ f :: post) {e : NumberFormat} (he : e ∈ pre) : ∃ later, f ∈ later ∧ yieldsOk all e later = true := by
  induction pre generalizing L with
  | nil => cases he
  | cons d pre ih =>
    subst hL
    simp only [List.cons_append, yieldAll, Bool.and_eq_true] at h
    rcases List.mem_cons.1 he with rfl | he
    · exact ⟨_, by simp, h.1⟩
    · exact ih h.2 rfl he

theorem yieldAll_mem {all L : List NumberFormat} (h : yieldAll all L = true) {e : NumberFormat} (he : e ∈ L) :
    ∃ later, yieldsOk all e later = true := by
  induction L with
  | nil => cases he
  | cons d L ih =>
    simp only [yieldAll, Bool.and_eq_true] at h
    rcases List.mem_cons.1 he with rfl | he
    · exact ⟨_, h.1⟩
    · exact ih h.2 he

theorem yieldsOk_two {all : List NumberFormat} {e : NumberFormat} {later : List NumberFormat} (h : yieldsOk all e later = true)
    (h2 : 2 ≤ (leads e).length) : 4 ≤ (bounds e).1 ∧ quietAt e (lookedAt e) all = true ∧
      ∀ r ∈ ((leads e).drop (lookedAt e)).dropLast, laterApart e r later = true := by
  unfold yieldsOk at h
  cases hl : leads e with
  | nil => rw [hl] at h2; simp at h2
  | cons a l =>
    cases l with
    | nil => rw [hl] at h2; simp at h2
    | cons b l =>
      simp only [hl, Bool.and_eq_true, Nat.ble_eq, List.all_eq_true] at h
      exact ⟨h.1.1, h.1.2, h.2⟩

/-- The rules of a region that passes the check, a number and the rule for it. -/
structure Task (L : List NumberFormat) (s : Str) (f : NumberFormat) (pre post : List NumberFormat) : Prop where
  rules : ∀ e ∈ L, ∃ gs, Rule e gs
  yields : yieldAll L L = true
  split : L = pre ++ f :: post
  digits : ∀ u ∈ s, isDig u = true
  applies : Applies f s
  first : ∀ e ∈ pre, ¬ Applies e s

/-- The list of rules after the digits `p`. -/
structure Listed (L : List NumberFormat) (f : NumberFormat) (pre : List NumberFormat) (p : Str) (F : List NumberFormat) : Prop where
  split : ∃ F1 F2, F = F1 ++ f :: F2 ∧ ∀ e ∈ F1, e ∈ pre
  mem : ∀ e ∈ F, e ∈ L
  seen : ∀ e ∈ F, Seen e p

theorem Listed.ne {L f pre p F} (h : Listed L f pre p F) : F ≠ [] := by
  obtain ⟨F1, F2, rfl, -⟩ := h.split
  simp

/-- Narrowing down. -/
theorem Listed.narrow {L : List NumberFormat} {s : Str} {f : NumberFormat} {pre post : List NumberFormat} (T : Task L s f pre post)
    {F : List NumberFormat} (hF : ∃ F1 F2, F = F1 ++ f :: F2 ∧ ∀ e ∈ F1, e ∈ pre) (hm : ∀ e ∈ F, e ∈ L) {p : Str} (hp : p <+: s)
    (h3 : 3 ≤ p.length) : Listed L f pre p (F.filter (keepB p)) := by
  have hpd : ∀ u ∈ p, isDig u = true := fun u hu => T.digits u (hp.subset hu)
  obtain ⟨F1, F2, rfl, h1⟩ := hF
  refine ⟨⟨F1.filter (keepB p), F2.filter (keepB p), ?_, fun e he => h1 e ((List.mem_filter.1 he).1)⟩, ?_, ?_⟩
  · obtain ⟨gs, hf⟩ := T.rules f (by rw [T.split]; simp)
    rw [List.filter_append, List.filter_cons_of_pos (kept_of_applies hf T.digits T.applies hp h3)]
  · exact fun e he => hm e ((List.mem_filter.1 he).1)
  · intro e he
    obtain ⟨k1, k2⟩ := List.mem_filter.1 he
    obtain ⟨gs, hr⟩ := T.rules e (hm e k1)
    exact seen_kept hr hpd h3 k2

/-- One more digit when a rule of the list fits. -/
theorem Listed.fits {L : List NumberFormat} {s : Str} {f : NumberFormat} {pre post : List NumberFormat} (T : Task L s f pre post)
    {F : List NumberFormat} {q p : Str} (h : Listed L f pre q F) (hq : q <+: p) (hl : p.length = q.length + 1) (hp : p <+: s)
    {g : NumberFormat} (hg : g ∈ F) (hfit : Fits g p) : Listed L f pre p F := by
  have hqd : ∀ u ∈ q, isDig u = true := fun u hu => T.digits u ((hq.trans hp).subset hu)
  refine ⟨h.split, h.mem, fun e he => (h.seen e he).more hq fun h2 hle => ?_⟩
  apply Classical.byContradiction
  intro hlt
  have hlen : p.length = 3 + lookedAt e := by omega
  obtain ⟨later, hy⟩ := yieldAll_mem T.yields (h.mem e he)
  have hquiet := (yieldsOk_two hy h2).2.1
  have := List.all_eq_true.1 hquiet g (h.mem g hg)
  unfold Fits at hfit
  simp only [Bool.or_eq_true, Nat.blt_eq] at this
  rcases this with (this | this) | this
  · omega
  · omega
  · cases hl : leads g with
    | nil => rw [hl] at this; cases this
    | cons r l =>
      cases l with
      | cons => rw [hl] at this; cases this
      | nil =>
        rw [hl] at this
        obtain ⟨x, hx, hbx⟩ := (h.seen g hg).some (by rw [hl]; simp)
        rw [hl, List.mem_singleton] at hx
        subst hx
        obtain ⟨y, hy, hby⟩ := (h.seen e he).some (by intro hn; rw [hn] at h2; simp at h2)
        obtain ⟨gs, hr⟩ := T.rules g (h.mem g hg)
        obtain ⟨es, hr'⟩ := T.rules e (h.mem e he)
        exact begApart_sound (List.all_eq_true.1 this y hy) (hr.noAnchor (by rw [hl]; simp)) (hr'.noAnchor hy) hqd hbx hby

theorem mem_dropLast_or_getLast {α : Type} {l : List α} {x : α} (h : x ∈ l) : x ∈ l.dropLast ∨ l.getLast? = some x := by
  have hne : l ≠ [] := by intro hn; rw [hn] at h; cases h
  rw [← List.dropLast_concat_getLast hne] at h
  rcases List.mem_append.1 h with h | h
  · exact .inl h
  · right; rw [List.mem_singleton.1 h, List.getLast?_eq_some_getLast hne]

/-- When the number is complete, the first rule of the list that fits is the rule for it. -/
theorem Listed.first {L : List NumberFormat} {s : Str} {f : NumberFormat} {pre post : List NumberFormat} (T : Task L s f pre post)
    {F : List NumberFormat} {q : Str} (h : Listed L f pre q F) (hq : q <+: s) (hl : s.length ≤ q.length + 1) :
    F.find? (fun e => decide (Fits e s)) = some f := by
  obtain ⟨F1, F2, rfl, h1⟩ := h.split
  obtain ⟨gs, hf⟩ := T.rules f (by rw [T.split]; simp)
  have hfit := (hf.applies.1 T.applies).1
  rw [List.find?_append]
  have : F1.find? (fun e => decide (Fits e s)) = none := by
    rw [List.find?_eq_none]
    intro e he
    rw [decide_eq_true_eq]
    intro hfe
    have hmem : e ∈ F1 ++ f :: F2 := by simp [he]
    obtain ⟨es, hr⟩ := T.rules e (h.mem e hmem)
    have hna := T.first e (h1 e he)
    rw [hr.applies] at hna
    have hseen := h.seen e hmem
    have hna : ∃ r, (leads e).getLast? = some r ∧ ¬ Begins r s := by
      apply Classical.byContradiction
      intro hc
      exact hna ⟨hfe, fun r hr => Classical.byContradiction fun hb => hc ⟨r, hr, hb⟩⟩
    obtain ⟨last, hlast, hnb⟩ := hna
    by_cases h2 : 2 ≤ (leads e).length
    · obtain ⟨later, hfl, hy⟩ := yieldAll_spec T.yields T.split (h1 e he)
      obtain ⟨y1, -, y3⟩ := yieldsOk_two hy h2
      have hj : lookedAt e ≤ (bounds e).1 - 4 := Nat.min_le_right _ _
      have hfe' := hfe
      unfold Fits at hfe
      obtain ⟨r, hr1, hr2⟩ := hseen.look h2 (by omega)
      have hbs := begins_mono hr2 hq
      rcases mem_dropLast_or_getLast hr1 with hr3 | hr3
      · have := List.all_eq_true.1 (y3 r hr3) f hfl
        unfold Fits at hfit
        simp only [Bool.or_eq_true, Nat.blt_eq] at this
        rcases this with (this | this) | this
        · omega
        · omega
        · cases hfl : (leads f).getLast? with
          | none => rw [hfl] at this; cases this
          | some w =>
            rw [hfl] at this
            exact begApart_sound this (hr.noAnchor (List.mem_of_mem_drop hr1)) (hf.noAnchor (List.mem_of_getLast? hfl)) T.digits hbs
              ((hf.applies.1 T.applies).2 w hfl)
      · rw [List.getLast?_drop] at hr3
        split at hr3
        · cases hr3
        · rw [hlast] at hr3; cases hr3; exact hnb hbs
    · have hone : ∃ x, leads e = [x] := by
        cases hle : leads e with
        | nil => rw [hle] at hlast; cases hlast
        | cons x l =>
          cases l with
          | nil => exact ⟨x, rfl⟩
          | cons => rw [hle] at h2; simp at h2
      obtain ⟨x, hx⟩ := hone
      obtain ⟨r, hr1, hr2⟩ := hseen.some (by rw [hx]; simp)
      rw [hx] at hr1 hlast
      rw [List.mem_singleton.1 hr1] at hr2
      simp only [List.getLast?_singleton, Option.some.injEq] at hlast
      subst hlast
      exact hnb (begins_mono hr2 hq)
  rw [this, Option.none_or, List.find?_cons_of_pos (by rw [decide_eq_true_eq]; exact hfit)]

end Verif
