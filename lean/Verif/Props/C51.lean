import Verif.Lemmas.Builder
/-!
# C51: built length tables are sorted, duplicate-free and consistent

For every territory element, every regular expression compiler and every order in which the maps are visited.
-/
namespace Verif.Props
open Verif Verif.Builder

/-- A list of lengths written in the syntax of the metadata (`3,[5-9],12`) is read as the numbers it stands for, each once. -/
theorem C51_syntax (is : List Spec.LenItem) (h0 : is ≠ []) (h : ∀ i ∈ is, i.Ok) :
    ∃ r, parseLengths (Spec.lenText is) = .ok r ∧ r.Nodup ∧ ∀ x, x ∈ r ↔ ∃ i ∈ is, i.Covers x := by
  obtain ⟨r, h1, h2⟩ := parseLengths_text h0 h
  exact ⟨r, h1, nodup_parseLengths h1, h2⟩

private theorem refused_item {i : Spec.LenItem} (h : ¬ i.Ok) (hs : i.Sized) (s : List Int) : addLengthItem s i.text = .error .explicit := by
  cases i with
  | one n => exact absurd hs h
  | range lo hi =>
    simp only [Spec.LenItem.Ok, Spec.LenItem.Sized, not_and] at h hs
    have hlt : hi < lo + 2 := by
      rcases Nat.lt_or_ge hi (lo + 2) with h1 | h1
      · exact h1
      · exact absurd hs.2 (h h1)
    have e : (Spec.LenItem.range lo hi).text = 91 :: (dec lo ++ 45 :: dec hi ++ [93]) := by
      simp [Spec.LenItem.text, ← dec_eq_decimal]
    rw [e]
    unfold addLengthItem
    have hl : (91 :: (dec lo ++ 45 :: dec hi ++ [93])).getLast? = some 93 := by
      rw [← List.cons_append, List.getLast?_append]; rfl
    have hd : (dec lo ++ 45 :: dec hi ++ [93]).dropLast = dec lo ++ 45 :: dec hi := List.dropLast_concat
    have hsp : splitCh 45 (dec lo ++ 45 :: dec hi) = [dec lo, dec hi] := by
      rw [splitCh_append (dec_not_mem (by decide) lo), splitCh_none (dec_not_mem (by decide) hi)]
    simp only [hl, hd, hsp, atoiLax_dec hs.2, atoiLax_dec hs.1, ne_eq, not_true_eq_false, if_false]
    rw [if_pos (by omega)]

/-- A list with a range of fewer than three elements is refused, wherever in the list it stands. -/
theorem C51_short_range (is : List Spec.LenItem) (h : ∀ i ∈ is, i.Sized) (hbad : ∃ lo hi, .range lo hi ∈ is ∧ hi < lo + 2) :
    parseLengths (Spec.lenText is) = .error .explicit := by
  obtain ⟨lo, hi, hm, hlt⟩ := hbad
  have h0 : is ≠ [] := by rintro rfl; cases hm
  rw [parseLengths, if_neg (lenText_ne_nil h0), split_lenText h0]
  clear h0
  generalize ([] : List Int) = s
  induction is generalizing s with
  | nil => cases hm
  | cons i is ih =>
    simp only [List.map_cons, addLengthItems]
    by_cases hok : i.Ok
    · obtain ⟨s', h1, -⟩ := addLengthItem_text (s := s) hok
      rw [h1]
      refine ih (fun j hj => h j (by simp [hj])) ?_ s'
      rcases List.mem_cons.1 hm with rfl | hm
      · exact absurd hok.1 (by omega)
      · exact hm
    · rw [refused_item hok (h i (by simp)) s]; rfl

example : Spec.lenText [.one 3, .range 6 7] = str!"3,[6-7]" ∧ (∀ i ∈ [Spec.LenItem.one 3, .range 6 7], i.Sized) := by
  refine ⟨by decide, ?_⟩; simp [Spec.LenItem.Sized]

example : Spec.lenText [.one 3, .range 5 9, .one 12] = str!"3,[5-9],12" := by decide
example : (parseLengths (str!"3,[5-9],12")).toOption = some [3, 5, 6, 7, 8, 9, 12] := by decide +kernel
-- Texts that are refused: nothing, a missing number, a range that is too short or not closed.
example : (parseLengths [], parseLengths (str!"3,"), parseLengths (str!"[6-7]"), parseLengths (str!"[5-9")) =
    (.error .explicit, .error .explicit, .error .explicit, .error .explicit) := rfl
-- A finding: what is not a number is not refused but read as 0.
example : (parseLengths (str!"7,x")).toOption = some [7, 0] := by decide +kernel

/-- The result does not depend on the order in which the maps are visited. -/
theorem C51_order (compile : Str → Option Re) (o o' : Order) (ho : o.Fair) (ho' : o'.Fair) (short alternate : Bool) (ts : List TerritoryE) :
    buildCollection compile o short alternate 0 ts = buildCollection compile o' short alternate 0 ts := by
  rw [buildCollection_order compile ho, buildCollection_order compile ho']

-- An order that reverses every map, next to one that does not.
example : Order.Fair (fun _ ks => ks.reverse) := fun _ ks => ks.reverse_perm
example : Order.Fair (fun p ks => if p.length % 2 = 0 then ks.reverse else ks) := by
  intro p ks
  show (if _ then _ else _ : List Int).Perm ks
  split
  · exact ks.reverse_perm
  · exact .rfl

private theorem country_descs {compile : Str → Option Re} {o : Order} (ho : o.Fair) {t : TerritoryE} {short : Bool} {m : Metadata}
    (h : loadCountry compile o t short false = .ok m) : ∃ m0, setDescs compile idOrder t short m0 = .ok m := by
  rw [loadCountry_order compile ho] at h
  unfold loadCountry at h
  obtain ⟨m1, _, h⟩ := bind_ok.1 h
  obtain ⟨f, _, h⟩ := bind_ok.1 h
  exact ⟨_, h⟩

private theorem pair_elem {short : Bool} {t : TerritoryE} {m : Metadata} {ed : Option DescE × Option Desc} (h : ed ∈ Spec.descPairs short t m) :
    ed.1 ∈ childElems short t := by
  cases short with
  | false =>
    simp only [Spec.descPairs, childElems, Bool.false_eq_true, if_false] at h ⊢
    have := List.mem_map_of_mem (f := Prod.fst) h
    simpa using this
  | true =>
    simp only [Spec.descPairs, childElems, if_true] at h ⊢
    have := List.mem_map_of_mem (f := Prod.fst) h
    simpa using this

/-- Whatever the texts of the territory are: if it is accepted then there is a general description, all its length tables are strictly
increasing, and the tables of every description fit together: its lengths are among the general ones or the marker `[-1]`, its local-only
lengths are not lengths of the description itself, and they are known to the general description. -/
theorem C51_tables (compile : Str → Option Re) (o : Order) (ho : o.Fair) (t : TerritoryE) (short : Bool) (m : Metadata)
    (h : loadCountry compile o t short false = .ok m) :
    ∃ g, m.general = some g ∧ Spec.increasing g.lengths = true ∧ Spec.increasing g.localLengths = true ∧ (∀ x ∈ g.localLengths, x ∉ g.lengths) ∧
      ∀ ed ∈ Spec.descPairs short t m, ∃ d, ed.2 = some d ∧ Spec.increasing d.lengths = true ∧ Spec.increasing d.localLengths = true ∧
        (d.lengths = [-1] ∧ d.localLengths = [] ∨ ∀ x ∈ d.lengths, x ∈ g.lengths) ∧
        (∀ x ∈ d.localLengths, x ∉ Spec.effectiveLengths g d) ∧
        (∀ x ∈ d.localLengths, x ∈ g.lengths ∨ x ∈ g.localLengths) := by
  obtain ⟨m0, h⟩ := country_descs ho h
  obtain ⟨g0, g, h0, h1, hg, hp⟩ := setDescs_ok h
  obtain ⟨_, _, ls, loc, n1, n2, _, _, _, rfl⟩ := setGeneral_ok idOrder_fair h1
  refine ⟨_, hg, sortInts_increasing n1, sortInts_increasing (n2.filter _), ?_, ?_⟩
  · intro x hx
    simp only [mem_sortInts, List.mem_filter, Bool.not_eq_true', decide_eq_false_iff_not] at hx ⊢
    exact hx.2
  · intro ed hed
    obtain ⟨d, hd, hpd⟩ := hp ed hed
    refine ⟨d, hd, ?_⟩
    cases he : ed.1 with
    | none =>
      rw [he] at hpd
      cases hpd
      exact ⟨rfl, rfl, .inl ⟨rfl, rfl⟩, by simp, by simp⟩
    | some el =>
      rw [he] at hpd
      obtain ⟨ab, hab, c1, c2, e1, e2⟩ := processDesc_child idOrder_fair hpd
      obtain ⟨k1, k2, k3⟩ := descSets_ok hab
      have hgn : (sortInts ls).Nodup := (sortInts_perm ls).nodup_iff.2 n1
      have hle := lengthsEqual_iff (d := { g0 with lengths := sortInts ls, localLengths := sortInts (loc.filter (fun l => !decide (l ∈ ls))) }) k1 hgn
      generalize hG : ({ g0 with lengths := sortInts ls, localLengths := sortInts (loc.filter (fun l => !decide (l ∈ ls))) } : Desc) = G at *
      refine ⟨?_, by rw [e2]; exact sortInts_increasing k2, .inr ?_, ?_, ?_⟩
      · rw [e1]; split
        · rfl
        · exact sortInts_increasing k1
      · intro x hx
        rw [e1] at hx
        split at hx
        · cases hx
        · rename_i hne
          rcases c1 with c1 | c1
          · exact absurd c1 hne
          · exact c1 x (mem_sortInts.1 hx)
      · intro x hx
        rw [e2, mem_sortInts] at hx
        have hne : ab.1 ≠ [] := by
          intro h0
          rw [descSets_none (descSets_nil hab h0)] at hab
          cases hab; cases hx
        unfold Spec.effectiveLengths
        rw [e1]
        by_cases heq : lengthsEqual ab.1 G = true
        · rw [if_pos heq, if_pos rfl]
          exact fun hx' => k3 x ((hle.1 heq x).2 hx') hx
        · rw [if_neg heq, if_neg (by rw [sortInts_nil]; exact hne), mem_sortInts]
          exact fun hx' => k3 x hx' hx
      · intro x hx
        rw [e2, mem_sortInts] at hx
        exact c2 x hx

private theorem sources_mem {short : Bool} {t : TerritoryE} (hg : t.general.bind (·.lengths) = none) (P : Option DescE → Prop)
    (hP : P t.general → t.general.bind (·.lengths) ≠ none) : (∃ d ∈ lengthSources t short, P d) ↔ ∃ d ∈ Spec.generalSources short t, P d := by
  cases short with
  | true => rfl
  | false =>
    simp only [lengthSources, Spec.generalSources, Bool.false_eq_true, if_false, List.mem_cons (a := _) (b := t.general)]
    constructor
    · rintro ⟨d, rfl | h, hp⟩
      · exact absurd hg (hP hp)
      · exact ⟨d, h, hp⟩
    · rintro ⟨d, h, hp⟩
      exact ⟨d, .inr h, hp⟩

/-- If the lengths of the territory are written as the syntax asks, then the tables hold exactly what is written: the general lengths are
those that some source element lists; the general local-only lengths those that some source lists as local-only and none as a length.  A
missing element gets the marker `[-1]`, one that lists no lengths has the general ones, and any other element has its own. -/
theorem C51_exact (compile : Str → Option Re) (o : Order) (ho : o.Fair) (t : TerritoryE) (short : Bool) (m : Metadata)
    (hw1 : ∀ d ∈ Spec.generalSources short t, Spec.WellWritten d) (hw2 : ∀ ed ∈ Spec.descPairs short t m, Spec.WellWritten ed.1)
    (h : loadCountry compile o t short false = .ok m) :
    ∃ g, m.general = some g ∧
      (∀ x, x ∈ g.lengths ↔ ∃ d ∈ Spec.generalSources short t, Spec.National d x) ∧
      (∀ x, x ∈ g.localLengths ↔ (∃ d ∈ Spec.generalSources short t, Spec.LocalOnly d x) ∧ x ∉ g.lengths) ∧
      ∀ ed ∈ Spec.descPairs short t m, ∃ d, ed.2 = some d ∧
        (ed.1 = none → d.lengths = [-1] ∧ d.localLengths = []) ∧
        (∀ el, ed.1 = some el →
          (el.lengths = none → d.lengths = [] ∧ d.localLengths = []) ∧
          (el.lengths ≠ none → (∀ x, x ∈ Spec.effectiveLengths g d ↔ Spec.National ed.1 x) ∧ (∀ x, x ∈ d.localLengths ↔ Spec.LocalOnly ed.1 x))) := by
  obtain ⟨m0, h⟩ := country_descs ho h
  obtain ⟨g0, g, h0, h1, hg, hp⟩ := setDescs_ok h
  obtain ⟨hgl, hall, ls, loc, n1, n2, m1, m2, _, rfl⟩ := setGeneral_ok idOrder_fair h1
  have hsrc : ∀ d ∈ Spec.generalSources short t, ∃ ab, descSets d = .ok ab := by
    intro d hd
    refine hall d ?_
    cases short with
    | true => exact hd
    | false =>
      simp only [lengthSources, Spec.generalSources, Bool.false_eq_true, if_false] at hd ⊢
      exact List.mem_cons_of_mem _ hd
  have hls : ∀ x, x ∈ ls ↔ ∃ d ∈ Spec.generalSources short t, Spec.National d x := by
    intro x
    rw [m1, sources_mem hgl (fun d => ∃ ab, descSets d = .ok ab ∧ x ∈ ab.1)]
    · constructor
      · rintro ⟨d, hd, ab, hab, hx⟩
        exact ⟨d, hd, (((written_sets (hw1 d hd)).1 ab hab).1 x).1 hx⟩
      · rintro ⟨d, hd, hx⟩
        obtain ⟨ab, hab⟩ := hsrc d hd
        exact ⟨d, hd, ab, hab, (((written_sets (hw1 d hd)).1 ab hab).1 x).2 hx⟩
    · rintro ⟨ab, hab, hx⟩
      rw [descSets_none hgl] at hab; cases hab; cases hx
  have hloc : ∀ x, x ∈ loc ↔ ∃ d ∈ Spec.generalSources short t, Spec.LocalOnly d x := by
    intro x
    rw [m2, sources_mem hgl (fun d => ∃ ab, descSets d = .ok ab ∧ x ∈ ab.2)]
    · constructor
      · rintro ⟨d, hd, ab, hab, hx⟩
        exact ⟨d, hd, (((written_sets (hw1 d hd)).1 ab hab).2 x).1 hx⟩
      · rintro ⟨d, hd, hx⟩
        obtain ⟨ab, hab⟩ := hsrc d hd
        exact ⟨d, hd, ab, hab, (((written_sets (hw1 d hd)).1 ab hab).2 x).2 hx⟩
    · rintro ⟨ab, hab, hx⟩
      rw [descSets_none hgl] at hab; cases hab; cases hx
  refine ⟨_, hg, fun x => by rw [mem_sortInts]; exact hls x, fun x => ?_, ?_⟩
  · simp only [mem_sortInts, List.mem_filter, Bool.not_eq_true', decide_eq_false_iff_not, hloc]
  · intro ed hed
    obtain ⟨d, hd, hpd⟩ := hp ed hed
    refine ⟨d, hd, fun he => ?_, fun el he => ?_⟩
    · rw [he] at hpd; cases hpd; exact ⟨rfl, rfl⟩
    · rw [he] at hpd
      obtain ⟨ab, hab, c1, c2, e1, e2⟩ := processDesc_child idOrder_fair hpd
      obtain ⟨k1, k2, k3⟩ := descSets_ok hab
      have hgn : (sortInts ls).Nodup := (sortInts_perm ls).nodup_iff.2 n1
      have hle := lengthsEqual_iff (d := { g0 with lengths := sortInts ls, localLengths := sortInts (loc.filter (fun l => !decide (l ∈ ls))) }) k1 hgn
      generalize hG : ({ g0 with lengths := sortInts ls, localLengths := sortInts (loc.filter (fun l => !decide (l ∈ ls))) } : Desc) = G at *
      constructor
      · intro hn
        rw [descSets_none (by simpa using hn)] at hab
        cases hab
        rw [e1, e2]
        refine ⟨?_, by simp [sortInts]⟩
        split
        · rfl
        · simp [sortInts]
      · intro hn
        have hww := hw2 ed hed
        rw [he] at hww ⊢
        have hws := (written_sets hww).1 ab hab
        refine ⟨fun x => ?_, fun x => by rw [e2, mem_sortInts, hws.2]⟩
        rw [← hws.1]
        have hne : ab.1 ≠ [] := fun h0 => hn (by simpa using descSets_nil hab h0)
        unfold Spec.effectiveLengths
        rw [e1]
        by_cases heq : lengthsEqual ab.1 G = true
        · rw [if_pos heq, if_pos rfl]
          exact ((hle.1 heq) x).symm
        · rw [if_neg heq, if_neg (by rw [sortInts_nil]; exact hne), mem_sortInts]

private theorem general_process {compile : Str → Option Re} (hc : ∀ s, (compile s).isSome = true) (e : Option DescE) :
    ∃ g0, processDesc compile idOrder none e = .ok g0 := by
  unfold processDesc
  cases e with
  | none => exact ⟨_, rfl⟩
  | some el =>
    simp only [bind, Except.bind]
    by_cases hp : el.pattern = []
    · simp only [hp, ne_eq, not_true_eq_false, if_false]
      exact ⟨_, rfl⟩
    · simp only [ne_eq, hp, not_false_eq_true, if_true]
      have hv : ∃ p, validateRE compile el.pattern true = .ok p := by
        unfold validateRE
        obtain ⟨re, hre⟩ := Option.isSome_iff_exists.1 (hc (el.pattern.filter (fun u => !isSpaceRe u)))
        simp only [if_true, hre]
        exact ⟨_, rfl⟩
      obtain ⟨p, hp⟩ := hv
      rw [hp]
      exact ⟨_, rfl⟩

/-- Which length tables are accepted.  Suppose that every pattern compiles, that no format has two international variants, and that the
lengths are written as the syntax asks.  Then a territory is accepted exactly if its general element lists no lengths, no element lists a
number both as a length and as local-only, the lengths of every described element are covered by the sources, and so are its local-only lengths
(as lengths or as local-only ones), and a short number has no local-only lengths. -/
theorem C51_accepts (compile : Str → Option Re) (hc : ∀ s, (compile s).isSome = true) (o : Order) (ho : o.Fair) (t : TerritoryE) (short : Bool)
    (hf : ∀ f ∈ t.formats, f.intl.length ≤ 1)
    (hw1 : ∀ d ∈ Spec.generalSources short t, Spec.WellWritten d) (hw2 : ∀ d ∈ childElems short t, Spec.WellWritten d) :
    (∃ m, loadCountry compile o t short false = .ok m) ↔
      t.general.bind (·.lengths) = none ∧
      (∀ d ∈ Spec.generalSources short t ++ childElems short t, ∀ x, Spec.National d x → ¬ Spec.LocalOnly d x) ∧
      (∀ d ∈ childElems short t, ∀ x, Spec.National d x → ∃ d' ∈ Spec.generalSources short t, Spec.National d' x) ∧
      (∀ d ∈ childElems short t, ∀ x, Spec.LocalOnly d x →
        ∃ d' ∈ Spec.generalSources short t, Spec.National d' x ∨ Spec.LocalOnly d' x) ∧
      (short = true → ∀ x, ¬ Spec.LocalOnly t.shortCode x) := by
  have hv : ∀ s b, ∃ p, validateRE compile s b = .ok p := by
    intro s b
    unfold validateRE
    cases b with
    | true =>
      obtain ⟨re, hre⟩ := Option.isSome_iff_exists.1 (hc (s.filter (fun u => !isSpaceRe u)))
      simp only [if_true, hre]; exact ⟨_, rfl⟩
    | false =>
      obtain ⟨re, hre⟩ := Option.isSome_iff_exists.1 (hc s)
      simp only [Bool.false_eq_true, if_false, hre]; exact ⟨_, rfl⟩
  have hlp : ∀ ss, ∃ ps, leadingPatterns compile ss = .ok ps := by
    intro ss
    induction ss with
    | nil => exact ⟨_, rfl⟩
    | cons s ss ih =>
      obtain ⟨ps, hps⟩ := ih
      obtain ⟨p, hp⟩ := hv s true
      simp only [leadingPatterns, bind, Except.bind, hp, hps]; exact ⟨_, rfl⟩
  have hnf : ∀ np r b c e, ∃ n, nationalFormat compile np r b c e = .ok n := by
    intro np r b c e
    obtain ⟨ps, hps⟩ := hlp e.leadingDigits
    obtain ⟨p, hp⟩ := hv e.pattern false
    obtain ⟨q, hq⟩ := hv (carrierRule e.ccRule np) false
    unfold nationalFormat
    by_cases h : e.ccRule = []
    · simp only [h, ne_eq, not_true_eq_false, if_false, bind, Except.bind, hps, hp]; exact ⟨_, rfl⟩
    · simp only [ne_eq, h, not_false_eq_true, if_true, bind, Except.bind, hps, hp, hq, pure, Except.pure]; exact ⟨_, rfl⟩
  have hlf : ∀ np r b c es, (∀ f ∈ es, f.intl.length ≤ 1) → ∃ n, loadFormats compile np r b c es = .ok n := by
    intro np r b c es hes
    induction es with
    | nil => exact ⟨_, rfl⟩
    | cons e es ih =>
      obtain ⟨n, hn⟩ := ih (fun f hf => hes f (by simp [hf]))
      obtain ⟨nf, hnf⟩ := hnf np r b c e
      have hi : ∃ i, internationalFormat e nf = .ok i := by
        unfold internationalFormat
        have := hes e (by simp)
        split
        · exact ⟨_, rfl⟩
        · exact ⟨_, rfl⟩
        · rename_i h1 h2
          cases hl : e.intl with
          | nil => exact absurd hl h1
          | cons a l =>
            cases l with
            | nil => exact absurd hl (h2 a)
            | cons b l => rw [hl] at this; simp at this
      obtain ⟨i, hi⟩ := hi
      simp only [loadFormats, bind, Except.bind, hnf, hi, hn]; exact ⟨_, rfl⟩
  have hav : ∀ np r, ∃ f, availableFormats compile t np r = .ok f := by
    intro np r
    obtain ⟨q, hq⟩ := hv (carrierRule t.ccRule np) false
    unfold availableFormats
    by_cases h : t.ccRule = []
    · obtain ⟨n, hn⟩ := hlf np r t.npOptional [] t.formats hf
      simp only [h, ne_eq, not_true_eq_false, if_false, bind, Except.bind, hn]; exact ⟨_, rfl⟩
    · obtain ⟨n, hn⟩ := hlf np r t.npOptional q.src t.formats hf
      simp only [ne_eq, h, not_false_eq_true, if_true, bind, Except.bind, hq, pure, Except.pure, hn]; exact ⟨_, rfl⟩
  have hop : ∀ s b, ∃ p, optPat compile s b = .ok p := by
    intro s b
    obtain ⟨p, hp⟩ := hv s b
    unfold optPat
    by_cases h : s = []
    · simp only [h, if_true]; exact ⟨_, rfl⟩
    · simp only [h, if_false, bind, Except.bind, hp]; exact ⟨_, rfl⟩
  have htt : ∃ m, territoryTags compile t = .ok m := by
    obtain ⟨p1, h1⟩ := hop t.leadingDigits false
    obtain ⟨p2, h2⟩ := hop t.internationalPrefix false
    obtain ⟨p3, h3⟩ := hop t.npParsing true
    obtain ⟨p4, h4⟩ := hv t.npTransform false
    obtain ⟨p5, h5⟩ := hv t.nationalPrefix false
    unfold territoryTags
    simp only [bind, Except.bind, h1, h2, h3, h4, h5, pure, Except.pure]
    by_cases c1 : t.npParsing ≠ [] ∧ t.npTransform ≠ []
    · rw [if_pos c1]
      by_cases c2 : t.nationalPrefix ≠ [] ∧ p3.src = []
      · simp only [if_pos c2]; exact ⟨_, rfl⟩
      · simp only [if_neg c2]; exact ⟨_, rfl⟩
    · rw [if_neg c1]
      by_cases c2 : t.nationalPrefix ≠ [] ∧ p3.src = []
      · simp only [if_pos c2]; exact ⟨_, rfl⟩
      · simp only [if_neg c2]; exact ⟨_, rfl⟩
  obtain ⟨tm, htm⟩ := htt
  obtain ⟨fs, hfs⟩ := hav t.nationalPrefix (prefixRule t.npRule t.nationalPrefix)
  have hload : (∃ m, loadCountry compile o t short false = .ok m) ↔
      ∃ m, setDescs compile idOrder t short { tm with formats := fs.1, intlFormats := fs.2 } = .ok m := by
    rw [loadCountry_order compile ho]
    unfold loadCountry
    simp only [bind, Except.bind, htm, hfs, Bool.false_eq_true, if_false]
  rw [hload]
  have hsub : ∀ d ∈ Spec.generalSources short t, d ∈ lengthSources t short := by
    intro d hd
    cases short with
    | true => exact hd
    | false =>
      simp only [lengthSources, Spec.generalSources, Bool.false_eq_true, if_false] at hd ⊢
      exact List.mem_cons_of_mem _ hd
  have hsup : ∀ d ∈ lengthSources t short, d = t.general ∨ d ∈ Spec.generalSources short t := by
    intro d hd
    cases short with
    | true => exact .inr hd
    | false =>
      simp only [lengthSources, Spec.generalSources, Bool.false_eq_true, if_false] at hd ⊢
      exact List.mem_cons.1 hd
  have hchild : ∀ m : Metadata, ∀ d ∈ childElems short t, ∃ ed ∈ Spec.descPairs short t m, ed.1 = d := by
    intro m d hd
    have : d ∈ (Spec.descPairs short t m).map Prod.fst := by
      cases short <;> simpa [Spec.descPairs, childElems] using hd
    obtain ⟨ed, h1, h2⟩ := List.mem_map.1 this
    exact ⟨ed, h1, h2⟩
  constructor
  · rintro ⟨m, h⟩
    obtain ⟨g0, g, h0, h1, hg, hp⟩ := setDescs_ok h
    obtain ⟨hgl, hall, ls, loc, n1, n2, m1, m2, hsh, rfl⟩ := setGeneral_ok idOrder_fair h1
    have hcov : ∀ x, x ∈ ls → ∃ d' ∈ Spec.generalSources short t, Spec.National d' x := by
      intro x hx
      obtain ⟨d, hd, ab, hab, hx⟩ := (m1 x).1 hx
      rcases hsup d hd with rfl | hd
      · rw [descSets_none hgl] at hab; cases hab; cases hx
      · exact ⟨d, hd, (((written_sets (hw1 d hd)).1 ab hab).1 x).1 hx⟩
    have hcovl : ∀ x, x ∈ loc → ∃ d' ∈ Spec.generalSources short t, Spec.LocalOnly d' x := by
      intro x hx
      obtain ⟨d, hd, ab, hab, hx⟩ := (m2 x).1 hx
      rcases hsup d hd with rfl | hd
      · rw [descSets_none hgl] at hab; cases hab; cases hx
      · exact ⟨d, hd, (((written_sets (hw1 d hd)).1 ab hab).2 x).1 hx⟩
    have hck : ∀ d ∈ childElems short t, ∀ el, d = some el → ∃ ab, descSets d = .ok ab ∧ (∀ x ∈ ab.1, x ∈ sortInts ls) ∧
        (∀ x ∈ ab.2, x ∈ sortInts ls ∨ x ∈ sortInts (loc.filter (fun l => !decide (l ∈ ls)))) := by
      intro d hd el hel
      obtain ⟨ed, h2, h3⟩ := hchild m d hd
      obtain ⟨d', _, hpd⟩ := hp ed h2
      rw [h3, hel] at hpd
      obtain ⟨ab, hab, c1, c2, _⟩ := processDesc_child idOrder_fair hpd
      refine ⟨ab, by rw [hel]; exact hab, ?_, c2⟩
      rcases c1 with c1 | c1
      · exact fun x hx => ((lengthsEqual_iff (descSets_ok hab).1 ((sortInts_perm ls).nodup_iff.2 n1)).1 c1 x).1 hx
      · exact c1
    refine ⟨hgl, ?_, ?_, ?_, ?_⟩
    · intro d hd
      rcases List.mem_append.1 hd with hd | hd
      · exact (written_sets (hw1 d hd)).2.1 (hall d (hsub d hd))
      · cases hel : d with
        | none => rintro x ⟨el, e, _, _, h, _⟩; cases h
        | some el =>
          obtain ⟨ab, hab, _⟩ := hck d hd el hel
          rw [← hel]
          exact (written_sets (hw2 d hd)).2.1 ⟨ab, hab⟩
    · intro d hd x hx
      obtain ⟨el, e, nat, lo, hel, _⟩ := id hx
      obtain ⟨ab, hab, c, _⟩ := hck d hd el hel
      exact hcov x (mem_sortInts.1 (c x ((((written_sets (hw2 d hd)).1 ab hab).1 x).2 hx)))
    · intro d hd x hx
      obtain ⟨el, e, nat, lo, hel, _⟩ := id hx
      obtain ⟨ab, hab, _, c⟩ := hck d hd el hel
      rcases c x ((((written_sets (hw2 d hd)).1 ab hab).2 x).2 hx) with c | c
      · obtain ⟨d', h1, h2⟩ := hcov x (mem_sortInts.1 c)
        exact ⟨d', h1, .inl h2⟩
      · obtain ⟨d', h1, h2⟩ := hcovl x (List.mem_filter.1 (mem_sortInts.1 c)).1
        exact ⟨d', h1, .inr h2⟩
    · intro hs x hx
      have hmem : t.shortCode ∈ Spec.generalSources short t := by rw [hs]; simp [Spec.generalSources]
      obtain ⟨ab, hab⟩ := hall _ (hsub _ hmem)
      have : x ∈ loc := (m2 x).2 ⟨_, hsub _ hmem, ab, hab, (((written_sets (hw1 _ hmem)).1 ab hab).2 x).2 hx⟩
      rw [hsh hs] at this
      cases this
  · rintro ⟨a1, a2, a3, a4, a5⟩
    obtain ⟨g0, h0⟩ := general_process hc t.general
    have hds : ∀ d ∈ lengthSources t short, ∃ ab, descSets d = .ok ab := by
      intro d hd
      rcases hsup d hd with rfl | hd
      · exact ⟨_, descSets_none a1⟩
      · exact (written_sets (hw1 d hd)).2.2 (a2 d (by simp [hd]))
    have hss : short = true → ∀ ab, descSets t.shortCode = .ok ab → ab.2 = [] := by
      intro hs ab hab
      have hmem : t.shortCode ∈ Spec.generalSources short t := by rw [hs]; simp [Spec.generalSources]
      rw [List.eq_nil_iff_forall_not_mem]
      intro x hx
      exact a5 hs x ((((written_sets (hw1 _ hmem)).1 ab hab).2 x).1 hx)
    obtain ⟨g, h1⟩ := setGeneral_accepts idOrder_fair (g0 := g0) a1 hds hss
    obtain ⟨_, _, ls, loc, n1, n2, m1, m2, hsh, rfl⟩ := setGeneral_ok idOrder_fair h1
    refine setDescs_accepts h0 h1 ?_
    intro e he
    cases hel : e with
    | none => exact ⟨_, rfl⟩
    | some el =>
      obtain ⟨ab, hab⟩ := (written_sets (hw2 e he)).2.2 (a2 e (by simp [he]))
      have hws := (written_sets (hw2 e he)).1 ab hab
      have hnat : ∀ d' ∈ Spec.generalSources short t, ∀ x, Spec.National d' x → x ∈ ls := by
        intro d' hd' x hx
        obtain ⟨ab', hab'⟩ := hds d' (hsub d' hd')
        exact (m1 x).2 ⟨d', hsub d' hd', ab', hab', (((written_sets (hw1 d' hd')).1 ab' hab').1 x).2 hx⟩
      rw [hel] at hab
      refine processDesc_accepts hc idOrder_fair hab ?_ ?_
      · intro x hx
        obtain ⟨d', hd', hx'⟩ := a3 e he x ((hws.1 x).1 hx)
        exact mem_sortInts.2 (hnat d' hd' x hx')
      · intro x hx
        obtain ⟨d', hd', hx'⟩ := a4 e he x ((hws.2 x).1 hx)
        by_cases hxl : x ∈ ls
        · exact .inl (mem_sortInts.2 hxl)
        · rcases hx' with hx' | hx'
          · exact absurd (hnat d' hd' x hx') hxl
          · obtain ⟨ab', hab'⟩ := hds d' (hsub d' hd')
            right
            refine mem_sortInts.2 (List.mem_filter.2 ⟨?_, by simp [hxl]⟩)
            exact (m2 x).2 ⟨d', hsub d' hd', ab', hab', (((written_sets (hw1 d' hd')).1 ab' hab').2 x).2 hx'⟩

/-! A territory that meets the hypotheses: fixed lines of 6 to 9 digits, 5 locally; mobile numbers of 9 and 10 digits, 6 locally; toll free
numbers without lengths of their own. -/

/-- A description element with the given lengths. -/
def sampleDesc (nat loc : List Spec.LenItem) : DescE := { lengths := some { national := Spec.lenText nat, localOnly := Spec.lenText loc } }

/-- A territory with fixed, mobile and toll free numbers. -/
def sampleTerritory : TerritoryE :=
  { id := str!"XX", countryCode := 999, general := some {}, fixedLine := some (sampleDesc [.range 6 9] [.one 5]),
    mobile := some (sampleDesc [.one 9, .one 10] [.one 6]), tollFree := some {} }

private theorem sample_written (nat loc : List Spec.LenItem) (h : nat ≠ []) (ho : ∀ i ∈ nat ++ loc, i.Ok) :
    Spec.WellWritten (some (sampleDesc nat loc)) := by
  intro el e h1 h2
  cases h1
  cases h2
  exact ⟨nat, loc, h, ho, rfl, rfl⟩

private theorem sample_ww : ∀ d ∈ childElems false sampleTerritory ++ Spec.generalSources false sampleTerritory, Spec.WellWritten d := by
  have h1 := sample_written [.range 6 9] [.one 5] (by simp) (by simp [Spec.LenItem.Ok])
  have h2 := sample_written [.one 9, .one 10] [.one 6] (by simp) (by simp [Spec.LenItem.Ok])
  have h0 : Spec.WellWritten none := by rintro el e ⟨⟩
  have h3 : Spec.WellWritten (some {}) := by rintro el e ⟨⟩ ⟨⟩
  intro d hd
  simp only [childElems, Spec.generalSources, sampleTerritory, Bool.false_eq_true, if_false, List.cons_append, List.nil_append, List.mem_cons,
    List.not_mem_nil, or_false] at hd
  rcases hd with rfl | rfl | rfl | rfl | rfl | rfl | rfl | rfl | rfl | rfl | rfl | rfl | rfl | rfl | rfl | rfl | rfl | rfl | rfl | rfl | rfl | rfl | rfl | rfl | rfl <;>
    first
      | exact h1
      | exact h2
      | exact h0
      | exact h3

-- It is accepted, and these are its tables: 6 is not a local-only length of the country because fixed lines have it as a length.
private def tablesOf (d : Option Desc) : List Int × List Int := match d with | some d => (d.lengths, d.localLengths) | none => ([], [])

#guard ((loadCountry (fun _ => some .eps) (fun _ ks => ks.reverse) sampleTerritory false false).toOption.map fun m =>
    [m.general, m.mobile, m.tollFree, m.pager].map tablesOf) ==
  some [([6, 7, 8, 9, 10], [5]), ([9, 10], [6]), ([], []), ([-1], [])]

example : (∀ f ∈ sampleTerritory.formats, f.intl.length ≤ 1) ∧ (∀ d ∈ Spec.generalSources false sampleTerritory, Spec.WellWritten d) ∧
    ∀ d ∈ childElems false sampleTerritory, Spec.WellWritten d :=
  ⟨by simp [sampleTerritory], fun d hd => sample_ww d (by simp [hd]), fun d hd => sample_ww d (by simp [hd])⟩

end Verif.Props
