import Verif.Spec.NationalPrefix
import Verif.Regex.Acc
import Verif.Props.C05
import Verif.Props.C15
import Verif.Props.C24
import Verif.Props.C25
/-!
# Numbers that national-prefix stripping leaves alone
-/
namespace Verif
open Spec

theorem testNumberLength_small {m : Metadata} (hl : lengthTablesOk m = true) {s : Str} (hs : ∀ u ∈ s, isDig u = true)
    (h : LengthTooSmall m s.length) : ∃ v, testNumberLength s (some m) .unknown = .ok v ∧
      (v = .tooShort ∨ v = .isPossibleLocalOnly ∨ v = .invalidLength) := by
  obtain ⟨g, hg, h1, l, hl1, hl2⟩ := h
  obtain ⟨g', hg', h3, h4, h5, h6⟩ := lengthTablesOk_general hl
  obtain rfl : g = g' := by rw [hg] at hg'; exact Option.some.inj hg'
  obtain ⟨r, hr, hc⟩ := testLengths_spec g.lengths g.localLengths (s.length) h3 h5 h6
  refine ⟨r, ?_, ?_⟩
  · rw [← hr]
    simp [testNumberLength, testNumberLengthSimple, descByType, lengthsOf, hg, blen_digits hs, h3, bind, Except.bind]
  · cases hc with
    | noNumbers => simp
    | localOnly => simp
    | tooShort => simp
    | between => simp
    | possible h7 h8 => exact absurd h1 (by simp [h7, h8])
    | tooLong _ _ h8 => have := h8 l hl1; omega

/-- An empty match captures nothing. -/
theorem group_of_empty {r : Re} {s : Str} {x : Match} (hx : r.find s = some x) (h0 : x.stop = 0) (n : Nat) (hn : n ≠ 0) :
    x.group s n = [] := by
  unfold Match.group
  cases hs : x.span n with
  | none => rfl
  | some p =>
    obtain ⟨a, b⟩ := p
    obtain ⟨y, w, e, -, -, -, -, h5⟩ := findFrom_sound hx
    obtain ⟨r', -, y, w, e, -, h6, h7, h8, -⟩ := matchAt_span h5 n a b hn hs
    have : b = 0 := by omega
    simp [slice, this]

theorem group_length {r : Re} {s : Str} {x : Match} (hx : r.find s = some x) {n a k : Nat} (hn : n ≠ 0)
    (hs : x.span n = some (a, a + k)) : (x.group s n).length = k := by
  obtain ⟨y, w, e, h1, h2, h3, -, h5⟩ := findFrom_sound hx
  obtain ⟨r', -, y', w', e', h9, h6, h7, h8, -⟩ := matchAt_span h5 n a _ hn hs
  have := congrArg List.length h1
  simp only [List.length_append] at this
  simp only [Match.group, hs, slice, List.length_take, List.length_drop]
  omega

theorem stripNationalPrefix_leftAlone {m : Metadata} {nsn : Str} (h : LeftAlone m nsn) :
    (stripNationalPrefix nsn m).2 = (nsn, []) ∨ (∃ w e, nsn = w ++ e ∧ LengthTooSmall m e.length ∧
      (stripNationalPrefix nsn m).2.1 = e) := by
  unfold stripNationalPrefix
  by_cases h0 : nsn = [] ∨ m.npParsing.src = []
  · rw [if_pos h0]; exact .inl rfl
  rw [if_neg h0]
  have h := h.resolve_left (fun x => h0 (.inr x))
  cases hf : m.npParsing.re.atStart.find nsn with
  | none => exact .inl rfl
  | some x =>
    have hL : (m.npTransform = [] ∨ (m.npParsing.re.groups > 0 ∧ (x.span m.npParsing.re.groups).isNone)) ↔ LeftOut m x := by
      simp [LeftOut]
    have hgen : ∀ s, ¬ InGeneral m s → (descPat m.general).re.full.isMatch s = false := by
      intro s hs
      rw [Bool.eq_false_iff]; exact fun hc => hs ((full_isMatch_iff _ _).1 hc)
    dsimp only
    rcases h x hf with ⟨k1, k2⟩ | ⟨k1, k2, k3⟩ | ⟨k1, k2⟩
    · left
      rw [if_pos (hL.2 k2), k1, group_of_empty hf k1 1 (by omega)]
      simp only [List.drop_zero, ite_self]
      split <;> rfl
    · left
      have k1' := (full_isMatch_iff _ _).2 k1
      by_cases hc : LeftOut m x
      · rw [if_pos (hL.2 hc), hgen _ (k2 hc), k1']
        simp
      · rw [if_neg (fun h => hc (hL.1 h)), hgen _ (k3 hc), k1']
        simp
    · rw [if_pos (hL.2 k1)]
      split
      · exact .inl rfl
      · exact .inr ⟨nsn.take x.stop, _, (List.take_append_drop _ _).symm, k2, rfl⟩

theorem stripStage_leftAlone {m : Metadata} {nsn : Str} (hl : lengthTablesOk m = true) (hd : ∀ u ∈ nsn, isDig u = true)
    (h : LeftAlone m nsn) : stripStage nsn (some m) = .ok (nsn, []) := by
  obtain ⟨g, hg, h3, h4, h5, h6⟩ := lengthTablesOk_general hl
  have hsome : hasGeneralLengths m = true := by simp [hasGeneralLengths, hg, h3]
  unfold stripStage
  simp only [bind, Except.bind, pure, Except.pure]
  rcases stripNationalPrefix_leftAlone h with h1 | ⟨w, e, rfl, h2, h3⟩
  · obtain ⟨v, hv⟩ := testNumberLength_unknown_ok hsome nsn
    have h2 : (stripNationalPrefix nsn m).2.1 = nsn := by rw [h1]
    have h3 : (stripNationalPrefix nsn m).2.2 = [] := by rw [h1]
    simp only [h2, h3, hv]
    split <;> rfl
  · obtain ⟨v, hv, hv2⟩ := testNumberLength_small hl (fun u hu => hd u (List.mem_append_right _ hu)) h2
    rw [h3]
    simp only [hv]
    rw [if_neg (by rcases hv2 with rfl | rfl | rfl <;> simp)]

/-- A number of one of the kinds of a region. -/
def Spec.OfKind (m : Metadata) (nsn : Str) : Prop := Matches nsn m.general ∧ ∃ d ∈ kindDescs m, Matches nsn d

theorem matches_acc {nsn : Str} {d : Option Desc} (h : Matches nsn d) : (descPat d).re.Acc 0 nsn [] := by
  obtain ⟨x, rfl, -, h⟩ := h
  exact h

theorem ofKind_acc {m : Metadata} {nsn : Str} (h : OfKind m nsn) : AccAny (kindPats m) nsn := by
  obtain ⟨-, d, hd, h⟩ := h
  exact ⟨_, List.mem_map_of_mem hd, matches_acc h⟩

theorem ofKind_of_type {nsn : Str} {m : Metadata} {t : NumType} (h : HasType nsn m t) (ht : t ≠ .unknown) : OfKind m nsn := by
  refine ⟨hasType_general h ht, ?_⟩
  cases h with
  | notGeneral => exact absurd rfl ht
  | special hg hs hd hpre =>
    refine ⟨_, ?_, hd⟩
    simp only [kindDescs, List.mem_append, List.mem_map]
    exact .inl ⟨_, by rw [hs]; exact List.mem_append_right _ List.mem_cons_self, rfl⟩
  | both _ _ hf _ => exact ⟨_, by simp [kindDescs], hf⟩
  | fixed _ _ hf => exact ⟨_, by simp [kindDescs], hf⟩
  | mobile _ _ _ _ hm => exact ⟨_, by simp [kindDescs], hm⟩
  | neither => exact absurd rfl ht

theorem lensAny_acc {G : List Re} {ls : List Nat} (h : lensAny G = some ls) {w : Str} (ha : AccAny G w) : w.length ∈ ls := by
  induction G generalizing ls with
  | nil => obtain ⟨r, hr, -⟩ := ha; cases hr
  | cons r l ih =>
    simp only [lensAny] at h
    split at h
    · rename_i x y hx hy
      simp only [Option.some.injEq] at h
      subst h
      rw [mem_unionNat]
      obtain ⟨r', hr', ha⟩ := ha
      rcases List.mem_cons.1 hr' with rfl | hr'
      · exact .inl (lens_acc _ _ hx _ _ _ ha)
      · exact .inr (ih hy ⟨r', hr', ha⟩)
    · cases h

theorem notStart_noAnchor (b : Str) : ∀ r ∈ notStart b, r.noAnchor = true := by
  induction b with
  | nil => simp [notStart]
  | cons u b ih =>
    intro r hr
    simp only [notStart, List.mem_cons, List.mem_map] at hr
    rcases hr with rfl | rfl | ⟨r', hr', rfl⟩
    · rfl
    · rfl
    · simp [Re.noAnchor, ih r' hr']

theorem notStart_acc {b s : Str} (hs : ∀ u ∈ s, isDig u = true) (h : ¬ b <+: s) : AccAny (notStart b) s := by
  induction b generalizing s with
  | nil => exact absurd List.nil_prefix h
  | cons u b ih =>
    cases s with
    | nil => exact ⟨.eps, by simp [notStart], rfl⟩
    | cons v s =>
      have hv : rune v = v := rune_of_isDig (hs v (by simp))
      by_cases huv : v = u
      · subst huv
        obtain ⟨r, hr, ha⟩ := ih (s := s) (fun u hu => hs u (by simp [hu])) (fun hp => h (by simpa using hp))
        refine ⟨.cat (.cls ⟨false, [(v, v)], []⟩) r, ?_, [v], s, rfl, ⟨v, rfl, ?_⟩, noAnchor_acc (notStart_noAnchor b r hr) ha⟩
        · simp only [notStart, List.mem_cons, List.mem_map]
          exact .inr (.inr ⟨r, hr, rfl⟩)
        · simp [Cls.mem, Cls.has, inRanges, hv]
      · refine ⟨.cat (.cls ⟨true, [(u, u)], []⟩) (.rep (.cls ⟨true, [], []⟩) 0 none true),
          by simp only [notStart, List.mem_cons]; exact .inr (.inl trivial), [v], s, rfl, ⟨v, rfl, ?_⟩, s.length, by omega, by simp, ?_⟩
        · simp [Cls.mem, Cls.has, inRanges, hv]
          rcases Nat.lt_or_gt_of_ne huv with h | h
          · exact .inl (Bool.eq_false_iff.2 fun hc => by rw [Nat.ble_eq] at hc; omega)
          · exact .inr (Bool.eq_false_iff.2 fun hc => by rw [Nat.ble_eq] at hc; omega)
        · rw [iterP_cls]
          refine ⟨rfl, fun u hu => ?_⟩
          simp [Cls.mem, Cls.has, inRanges]

/-- The check on an alternative gives a reason to keep the number. -/
theorem altSafe_kept {m m' : Metadata} {g g' : Desc} {same : Bool} {Xs : List (List Re)} (hg : m.general = some g)
    (hg' : m'.general = some g') (hsame : same = true → m = m') (hk : ∀ r ∈ kindPats m', r.noAnchor = true)
    (hgen : (descPat m.general).re.noAnchor = true) {a : Re} (h : altSafe m m' g' g same Xs a = true) {nsn w e : Str}
    (hd : ∀ u ∈ nsn, isDig u = true) (hX : ∀ G ∈ Xs, (∀ r ∈ G, r.noAnchor = true) ∧ AccAny G nsn)
    (hn : nsn = w ++ e)
    (hm : OfKind m' nsn) (ha : a.Acc 0 w e) {x : Match} (hx : m.npParsing.re.atStart.find nsn = some x) (hw : x.stop = w.length) :
    PrefixKept m nsn x := by
  have hacc := ofKind_acc hm
  obtain ⟨⟨g0, hg0, hlen, hinG⟩, -⟩ := id hm
  have e0 : g0 = g' := by rw [hg'] at hg0; exact (Option.some.inj hg0).symm
  subst e0
  have hdrop : nsn.drop x.stop = e := by rw [hw, hn]; simp
  simp only [altSafe, Bool.or_eq_true, Bool.and_eq_true] at h
  rcases h with (⟨h1, h2⟩ | ⟨h1, h2⟩) | ⟨h1, h2⟩
  · exfalso
    have he := endsEos_acc h1 ha
    subst he
    rw [List.append_nil] at hn
    subst hn
    cases hls : a.lens with
    | none => simp [hls] at h2
    | some ls =>
      simp only [hls, Bool.and_eq_true, List.all_eq_true, Bool.not_eq_true', List.any_eq_false] at h2
      have := h2.2 _ (hlen.resolve_left (by intro h0; simp [h0] at h2)) nsn.length (lens_acc a ls hls _ _ _ ha)
      simp at this
  · exfalso
    have h3 := List.all_eq_true.1 h2 (nsn.length : Int) (hlen.resolve_left (by intro h0; simp [h0] at h1))
    have h4 := minLen_acc _ _ _ _ ha
    have h5 := congrArg List.length hn
    rw [List.length_append] at h5
    rw [Nat.blt_eq] at h3
    omega
  · have hGna : ∀ G ∈ kindPats m' :: Xs, ∀ r ∈ G, r.noAnchor = true := by
      intro G hG
      rcases List.mem_cons.1 hG with rfl | hG
      · exact hk
      · exact (hX G hG).1
    have hGacc : ∀ G ∈ kindPats m' :: Xs, AccAny G (w ++ e) := by
      intro G hG
      rw [← hn]
      rcases List.mem_cons.1 hG with rfl | hG
      · exact hacc
      · exact (hX G hG).2
    obtain ⟨Gs', k1, k2, k3⟩ := heads_sound h2 (by simpa using h1) hGna (w := w) (e := e)
      (fun u hu => hd u (by rw [hn]; simp [hu])) ⟨a.dropEos, by simp, noAnchor_acc h1 (dropEos_acc ha)⟩ hGacc
    simp only [Nat.zero_add] at k1
    -- what `notLeftOut` gives
    have hout : notLeftOut m g0 g same w.length Gs' = true → LeftOut m x → PrefixKept m nsn x := by
      intro h4 hL
      simp only [notLeftOut, Bool.or_eq_true, Bool.and_eq_true, Nat.beq_eq] at h4
      rcases h4 with (h4 | ⟨h4, h5⟩) | ⟨h4, h5⟩
      · exact .inl ⟨by omega, hL⟩
      · refine .inr (.inr ⟨hL, g, hg, ?_⟩)
        rw [hdrop]
        have h6 := List.all_eq_true.1 h5 (nsn.length : Int) (hlen.resolve_left (by intro h0; simp [h0] at h4))
        simp only [Bool.and_eq_true, Bool.not_eq_true', List.any_eq_true, List.any_eq_false, Nat.blt_eq] at h6
        have hlen' : (nsn.length : Int).toNat - w.length = e.length := by
          have := congrArg List.length hn
          rw [List.length_append] at this
          omega
        rw [hlen'] at h6
        obtain ⟨h7, y, hy, hy2⟩ := h6
        refine ⟨.inl fun hmem => ?_, y, hy, by omega⟩
        have := h7 _ hmem
        simp at this
      · have hmm := hsame h4
        refine .inr (.inl ⟨?_, ?_, fun hc => absurd hL hc⟩)
        · rw [hmm, InGeneral, hg']; exact hinG
        · intro _ hc
          rw [hdrop] at hc
          refine noCommon_sound h5 ?_ (w := e) (fun u hu => hd u (by rw [hn]; simp [hu])) ?_
          · intro G hG
            rcases List.mem_cons.1 hG with rfl | hG
            · simpa using hgen
            · exact k2 G hG
          · intro G hG
            rcases List.mem_cons.1 hG with rfl | hG
            · exact ⟨_, by simp, hc⟩
            · exact k3 G hG
    unfold keptHere at k1
    split at k1
    · rename_i h3
      exact hout k1 (.inl (by simpa using h3))
    · rename_i hne
      rw [Bool.and_eq_true, Nat.blt_eq] at k1
      obtain ⟨h3, h4⟩ := k1
      split at h4
      · cases h4
      · rename_i L hL
        obtain ⟨c, hc1, hc2⟩ := atStart_caps (by omega) hL hx
        have h5 := List.all_eq_true.1 h4 _ hc1
        rw [Bool.or_eq_true, hw] at h5
        have h5 := h5.resolve_left (by simp)
        rcases hc2 with ⟨rfl, hc2⟩ | ⟨k, b, rfl, hc2⟩
        · exact hout h5 (.inr ⟨h3, hc2⟩)
        · simp only [Bool.and_eq_true] at h5
          obtain ⟨h6, h7⟩ := h5
          have hmm := hsame h6
          have hnL : ¬ LeftOut m x := by
            rintro (hc | ⟨-, hc⟩)
            · simp [hc] at hne
            · rw [hc2] at hc; cases hc
          refine .inr (.inl ⟨by rw [hmm, InGeneral, hg']; exact hinG, fun hc => absurd hc hnL, fun _ hc => ?_⟩)
          unfold notRewritten at h7
          split at h7
          · rename_i p gl G Gs'' hp hgl
            split at h7
            · rename_i ls hls
              have h8 := List.all_eq_true.1 h7 e.length (lensAny_acc hls (k3 G (by simp)))
              rw [atStart_replaceAll hx, tmplPre_expand hp, hdrop] at hc
              have h9 := lens_acc _ _ hgl _ _ _ hc
              have hgr : (x.group nsn m.npParsing.re.groups).length = k :=
                group_length hx (by omega) hc2
              simp only [List.length_append, hgr] at h9
              simp only [Bool.not_eq_true', List.any_eq_false] at h8
              exact absurd (Nat.beq_refl _) (h8 _ h9)
            · cases h7
          · cases h7

/-- Numbers with national-prefix patterns that pass the static check are left alone. -/
theorem leftAlone_of_safe {m m' : Metadata} {same : Bool} {Xs : List (List Re)} (hsame : same = true → m = m')
    (hs : prefixSafe m m' same Xs = true) {nsn : Str} (hd : ∀ u ∈ nsn, isDig u = true)
    (hX : ∀ G ∈ Xs, (∀ r ∈ G, r.noAnchor = true) ∧ AccAny G nsn)
    (hm : OfKind m' nsn) : LeftAlone m nsn := by
  unfold prefixSafe at hs
  split at hs
  · rename_i g g' hg hg'
    rw [Bool.or_eq_true] at hs
    rcases hs with hs | hs
    · exact .inl (by simpa using hs)
    · simp only [Bool.and_eq_true] at hs
      refine .inr fun x hx => ?_
      obtain ⟨y, w, e, h1, h2, h3, h4, -⟩ := findFrom_sound hx
      obtain ⟨w1, w2, hw, ⟨h5, rfl⟩, h6⟩ := h4
      simp only [List.nil_append] at hw
      subst hw
      have hy : y = [] := List.length_eq_zero_iff.mp (by omega)
      subst hy
      rw [h5] at h6
      simp only [List.length_nil, Nat.add_zero] at h6
      obtain ⟨a, ha1, ha2⟩ := alts_acc h6
      exact altSafe_kept hg hg' hsame (List.all_eq_true.1 hs.1.1) hs.1.2 (List.all_eq_true.1 hs.2 a ha1) hd hX (w := w) (by simpa using h1) hm ha2 hx
        (by omega)
  · cases hs

end Verif
