import Verif.Lemmas.ManyFind
import Verif.Lemmas.Written
import Verif.Spec.FindExt
/-!
# A number written with an extension is one match of the pattern of the search
-/
namespace Verif
open Spec

/-! ## Blocks of digits with any punctuation between them -/

/-- One to four characters of the class of punctuation. -/
def PGap (p : Str) : Prop := 1 ≤ p.length ∧ p.length ≤ 4 ∧ ∀ u ∈ p, punctC.mem u = true ∧ ndC.mem u = false

theorem pGap_of {p : Str} (h : Gap p) : PGap p := ⟨h.1, h.2.1, fun u hu => ⟨(gap_punct (h.2.2 u hu)).1, (gap_punct (h.2.2 u hu)).2.1⟩⟩

/-- A gap and a block. -/
def blockRe : Re := .cat (.rep (.cls punctC) 0 (some 4) true) (.rep (.cls ndC) 1 (some 20) true)

/-- The part for the extension. -/
def extX : Re := match matcherPattern with | .cat _ (.cat _ (.cat _ (.rep x _ _ _))) => x | r => r

theorem matcherPattern_shape3 : matcherPattern =
    .cat (.rep (.cat (.cls leadC) (.rep (.cls punctC) 0 (some 4) true)) 0 (some 2) true)
      (.cat (.rep (.cls ndC) 1 (some 20) true) (.cat (.rep blockRe 0 (some 20) true) (.rep extX 0 (some 1) true))) := rfl

theorem stops_pblocks {l : List (Str × Str)} (hl : ∀ x ∈ l, PGap x.1 ∧ Block x.2) {Y : Str} (hY : Stops ndC Y) :
    Stops ndC ((l.flatMap fun x => x.1 ++ x.2) ++ Y) := by
  cases l with
  | nil => exact hY
  | cons x l =>
    obtain ⟨⟨h1, -, h2⟩, -⟩ := hl x (by simp)
    intro u h
    cases hx : x.1 with
    | nil => rw [hx] at h1; simp at h1
    | cons v t =>
      rw [List.flatMap_cons, hx] at h
      cases h
      exact (h2 _ (by rw [hx]; simp)).2

theorem first_pblocks {l : List (Str × Str)} (hl : ∀ x ∈ l, PGap x.1 ∧ Block x.2) {Y : Str} (hY : Stops ndC Y) (n p : Nat) (hn : l.length ≤ n)
    (hb : l.length = n ∨ ∀ q, blockRe.runs ⟨q, Y, []⟩ = []) :
    First (optL blockRe.runs true n) ⟨p, (l.flatMap fun x => x.1 ++ x.2) ++ Y, []⟩ ⟨p + (l.flatMap fun x => x.1 ++ x.2).length, Y, []⟩ := by
  induction l generalizing n p with
  | nil =>
    rcases hb with rfl | hb
    · rfl
    · exact optL_stop (hb p)
  | cons x l ih =>
    cases n with
    | zero => simp at hn
    | succ n =>
      obtain ⟨hg, hk⟩ := hl x (by simp)
      have hl' := fun y hy => hl y (List.mem_cons_of_mem x hy)
      rw [List.flatMap_cons, List.append_assoc, List.append_assoc]
      have f1 := first_rep_cls (c := punctC) (w := x.1) (fun u hu => (hg.2.2 u hu).1) 0 4 p
        (x.2 ++ ((l.flatMap fun x => x.1 ++ x.2) ++ Y)) [] (by omega) hg.2.1 (.inr (by
          obtain ⟨v, t, hv, hd⟩ := block_cons hk
          intro u h
          rw [hv] at h
          cases h
          exact (digit_punct hd).1))
      have f2 := first_rep_cls (c := ndC) (w := x.2) (fun u hu => ndC_digit (hk.2.2 u hu)) 1 20 (p + x.1.length)
        ((l.flatMap fun x => x.1 ++ x.2) ++ Y) [] hk.1 hk.2.1 (.inr (stops_pblocks hl' hY))
      refine optL_step (first_cat f1 f2) ?_ ?_
      · have := hk.1
        simp only [List.length_append]; omega
      · have := ih hl' n (p + x.1.length + x.2.length) (by simpa using hn) (by simpa using hb)
        rw [show p + x.1.length + x.2.length + (l.flatMap fun x => x.1 ++ x.2).length =
          p + (x.1 ++ x.2 ++ l.flatMap fun x => x.1 ++ x.2).length by simp only [List.length_append]; omega] at this
        exact this

/-- The preferred match at the beginning of a number with something after it. -/
theorem matchAt_tail {plus : Bool} {d Y b : Str} {l : List (Str × Str)} {k : Nat} (hd : Block d) (hl : ∀ x ∈ l, PGap x.1 ∧ Block x.2)
    (hlen : l.length ≤ 20) (hY : Stops ndC Y) (hblk : l.length = 20 ∨ ∀ q, blockRe.runs ⟨q, Y, []⟩ = [])
    (hX : ∀ q, ∃ cs, First (Re.rep extX 0 (some 1) true).runs ⟨q, Y, []⟩ ⟨q + k, b, cs⟩) (p : Nat) :
    ∃ cs, matcherPattern.matchAt p ((if plus then [43] else []) ++ (d ++ (l.flatMap fun x => x.1 ++ x.2)) ++ Y) =
      some ⟨p, p + ((if plus then [43] else []) ++ (d ++ (l.flatMap fun x => x.1 ++ x.2)) : Str).length + k, cs⟩ := by
  have key : ∀ q, ∃ cs, First (Re.cat (.rep (.cls ndC) 1 (some 20) true) (.cat (.rep blockRe 0 (some 20) true) (.rep extX 0 (some 1) true))).runs
        ⟨q, d ++ ((l.flatMap fun x => x.1 ++ x.2) ++ Y), []⟩ ⟨q + (d ++ l.flatMap fun x => x.1 ++ x.2).length + k, b, cs⟩ := by
    intro q
    rw [List.length_append, ← Nat.add_assoc]
    obtain ⟨cs, h⟩ := hX (q + d.length + (l.flatMap fun x => x.1 ++ x.2).length)
    exact ⟨cs, first_cat (first_rep_cls (fun u hu => ndC_digit (hd.2.2 u hu)) 1 20 q _ [] hd.1 hd.2.1 (.inr (stops_pblocks hl hY)))
      (first_cat (first_rep0 (first_pblocks hl hY 20 _ hlen hblk)) h)⟩
  obtain ⟨v, t, hv, hvd⟩ := block_cons hd
  have hstop : ∀ q, (Re.cat (.cls leadC) (.rep (.cls punctC) 0 (some 4) true)).runs ⟨q, d ++ ((l.flatMap fun x => x.1 ++ x.2) ++ Y), []⟩ = [] := by
    intro q
    have : (Re.cls leadC).runs ⟨q, d ++ ((l.flatMap fun x => x.1 ++ x.2) ++ Y), []⟩ = [] := runs_cls_stop (by
      intro u h
      rw [hv] at h
      cases h
      exact (digit_punct hvd).2)
    simp only [Re.runs] at this ⊢
    rw [this]
    rfl
  rw [matcherPattern_shape3]
  cases plus with
  | false =>
    obtain ⟨cs, hk⟩ := key p
    refine ⟨cs, matchAt_first (e := b) ?_⟩
    have := first_cat (first_rep0_stop (n := 2) (hstop p)) hk
    simpa [List.append_assoc] using this
  | true =>
    have f1 : First (Re.cat (.cls leadC) (.rep (.cls punctC) 0 (some 4) true)).runs
        ⟨p, 43 :: (d ++ ((l.flatMap fun x => x.1 ++ x.2) ++ Y)), []⟩ ⟨p + 1, d ++ ((l.flatMap fun x => x.1 ++ x.2) ++ Y), []⟩ := by
      refine first_cat (first_cls (by decide)) ?_
      exact first_rep_cls (c := punctC) (w := []) (by simp) 0 4 (p + 1) _ [] (by simp) (by simp) (.inr (by
        intro u h
        rw [hv] at h
        cases h
        exact (digit_punct hvd).1))
    obtain ⟨cs, hk⟩ := key (p + 1)
    refine ⟨cs, matchAt_first (e := b) ?_⟩
    have := first_cat (first_rep0 (optL_step (n := 1) f1 (by simp) (optL_stop (hstop _)))) hk
    have e : p + 1 + (d ++ l.flatMap fun x => x.1 ++ x.2).length + k = p + (43 :: (d ++ l.flatMap fun x => x.1 ++ x.2)).length + k := by
      simp only [List.length_cons]; omega
    rw [e] at this
    simpa [List.append_assoc] using this

/-! ## The part for the extension -/

theorem head?_flatMap_only {α β : Type} {l : List α} {f : α → List β} {x : α} {y : β} (hx : x ∈ l) (h : ∀ z ∈ l, z = x ∨ f z = [])
    (hy : (f x).head? = some y) : (l.flatMap f).head? = some y := by
  induction l with
  | nil => cases hx
  | cons a l ih =>
    rw [List.flatMap_cons, List.head?_append]
    rcases h a (by simp) with rfl | ha
    · rw [hy]; rfl
    · rw [ha]
      rcases List.mem_cons.1 hx with rfl | hx
      · rw [ha] at hy; cases hy
      · rw [ih hx fun z hz => h z (by simp [hz])]; rfl

theorem splitGrp_eq {r A D T : Re} {k : Nat} (h : r.splitGrp = some (A, k, D, T)) (st : MSt) :
    r.runs st = (A.runs st).flatMap fun s1 => (D.runs s1).flatMap fun s2 => T.runs { s2 with caps := (k, s1.pos, s2.pos) :: s2.caps } := by
  fun_induction Re.splitGrp r generalizing A k D T st with
  | case1 k' d =>
    cases h
    simp only [Re.runs, List.flatMap_cons, List.flatMap_nil, List.append_nil]
    rw [List.map_eq_flatMap]
  | case2 k' d t =>
    cases h
    simp only [Re.runs, List.flatMap_cons, List.flatMap_nil, List.append_nil, List.flatMap_map]
  | case3 a b _ ih =>
    rw [Option.map_eq_some_iff] at h
    obtain ⟨⟨A', k', D', T'⟩, h1, h2⟩ := h
    cases h2
    simp only [Re.runs, List.flatMap_assoc]
    congr 1
    funext s
    exact ih h1 s
  | case4 => cases h

theorem alts_eq (r : Re) (st : MSt) : r.runs st = r.alts.flatMap (·.runs st) := by
  induction r with
  | alt a b iha ihb => simp only [Re.runs, Re.alts, List.flatMap_append, iha, ihb]
  | _ => simp [Re.alts]

/-- An alternative of the kind label, digits, perhaps a number sign. -/
def branchOk (a : Re) : Bool :=
  match a.splitGrp with
  | none => false
  | some (A, _, D, _) => A.groups == 0 && A.noAnchor && A.allCls (fun c => c.avoids digitL) && (match D with
    | .rep (.cls c) 1 (some _) true => decide (c = ndC)
    | _ => false)

/-- The first alternative that accepts the label takes up to `n` digits and perhaps a number sign. -/
def labelPick (lab : Str) (n : Nat) : List Re → Bool
  | [] => false
  | a :: as => branchOk a && (match a.splitGrp with
    | none => false
    | some (A, _, D, T) => if A.full.isMatch lab then
        (match D with | .rep _ _ (some m) _ => decide (n ≤ m) | _ => false) &&
        (match T with | .eps => true | .rep (.cls c) 0 (some 1) true => decide (c = hashCls) | _ => false)
      else labelPick lab n as)

theorem branch_runs {A : Re} (hA : A.allCls (fun c => c.avoids digitL) = true) (hg : A.groups = 0) {lab e b : Str} (hlab : ∀ u ∈ lab, ndC.mem u = false)
    (he : ∀ u ∈ e, isDig u = true) (h1 : 1 ≤ e.length) (q m : Nat) (s1 : MSt) (hs : s1 ∈ A.runs ⟨q, lab ++ (e ++ b), []⟩) :
    (s1 = ⟨q + lab.length, e ++ b, []⟩ ∧ A.Acc q lab (e ++ b)) ∨ (Re.rep (.cls ndC) 1 (some m) true).runs s1 = [] := by
  obtain ⟨w, k1, k2, k3⟩ := runs_sound A _ s1 hs
  have hc := runs_caps_none A hg _ s1 hs
  have hw := avoids_digits hA k3
  dsimp only at k1 k2 k3 hc
  have hfin : w = lab → s1.rest = e ++ b → (s1 = ⟨q + lab.length, e ++ b, []⟩ ∧ A.Acc q lab (e ++ b)) := by
    rintro rfl hr
    refine ⟨?_, by rw [← hr]; exact k3⟩
    cases s1
    simp_all
  rcases List.append_eq_append_iff.1 k1 with ⟨c, h2, h3⟩ | ⟨c, h2, h3⟩
  · cases c with
    | nil => exact .inl (hfin (by simpa using h2) (by simpa using h3.symm))
    | cons u c =>
      exfalso
      cases e with
      | nil => simp at h1
      | cons v e =>
        have h4 : v = u := by simpa using congrArg List.head? h3
        subst h4
        have := hw v (by rw [h2]; simp)
        rw [he v (by simp)] at this
        cases this
  · cases c with
    | nil => exact .inl (hfin (by simpa using h2.symm) (by simpa using h3))
    | cons u c =>
      right
      have hst : (Re.cls ndC).runs s1 = [] := by
        obtain ⟨p, r, cs⟩ := s1
        refine runs_cls_stop ?_
        intro v hv
        dsimp only at h3
        rw [h3] at hv
        cases hv
        exact hlab _ (by rw [h2]; simp)
      show (iterL (Re.cls ndC).runs 1 s1).flatMap _ = []
      simp only [iterL, hst]
      rfl

theorem labelPick_first {lab : Str} {n : Nat} (hlab : ∀ u ∈ lab, ndC.mem u = false) {e b : Str} (he : ∀ u ∈ e, isDig u = true) (h1 : 1 ≤ e.length)
    (h2 : e.length ≤ n) (hb : Stops ndC b) (hh : b.head? ≠ some 35) (q : Nat) (as : List Re) (h : labelPick lab n as = true) :
    ∃ cs, (as.flatMap (·.runs ⟨q, lab ++ (e ++ b), []⟩)).head? = some ⟨q + (lab.length + e.length), b, cs⟩ := by
  induction as with
  | nil => cases h
  | cons a as ih =>
    unfold labelPick at h
    rw [Bool.and_eq_true] at h
    obtain ⟨hok, h⟩ := h
    unfold branchOk at hok
    split at h
    · cases h
    · rename_i A k D T hs
      rw [hs] at hok
      simp only [Bool.and_eq_true, beq_iff_eq] at hok
      obtain ⟨⟨⟨g1, g2⟩, g3⟩, g4⟩ := hok
      split at g4
      · rename_i c m
        have hc : c = ndC := by simpa using g4
        subst hc
        rw [List.flatMap_cons, List.head?_append, splitGrp_eq hs]
        split at h
        · rename_i hm
          simp only [Bool.and_eq_true, decide_eq_true_eq] at h
          obtain ⟨hnm, hT⟩ := h
          have hacc : A.Acc q lab (e ++ b) := noAnchor_acc g2 ((full_isMatch_iff A lab).1 hm)
          have hmem : (⟨q + lab.length, e ++ b, []⟩ : MSt) ∈ A.runs ⟨q, lab ++ (e ++ b), []⟩ := by
            obtain ⟨cs, k1⟩ := runs_complete A q lab (e ++ b) [] hacc
            have hc := runs_caps_none A g1 _ _ k1
            dsimp only at hc
            rwa [hc] at k1
          have hD := first_rep_cls (c := ndC) (w := e) (fun u hu => ndC_digit (he u hu)) 1 m (q + lab.length) b [] h1 (by omega) (.inr hb)
          have hTf : ∀ cs, First T.runs ⟨q + lab.length + e.length, b, cs⟩ ⟨q + lab.length + e.length, b, cs⟩ := by
            intro cs
            split at hT
            · rfl
            · rename_i c
              have hc : c = hashCls := by simpa using hT
              subst hc
              refine first_rep0_stop (runs_cls_stop ?_)
              intro u hu
              cases hx : hashCls.mem u with
              | false => rfl
              | true =>
                have := (litCls_mem 35 (by decide) u).1 hx
                subst this
                exact absurd hu hh
            · cases hT
          refine ⟨[(k, q + lab.length, q + lab.length + e.length)], ?_⟩
          rw [head?_flatMap_only hmem (y := ⟨q + (lab.length + e.length), b, [(k, q + lab.length, q + lab.length + e.length)]⟩)]
          · rfl
          · intro z hz
            rcases branch_runs g3 g1 hlab he h1 q m z hz with h | h
            · exact .inl h.1
            · right; rw [h]; rfl
          · rw [← Nat.add_assoc]
            exact head?_flatMap hD (hTf _)
        · rename_i hm
          obtain ⟨cs, hcs⟩ := ih h
          refine ⟨cs, ?_⟩
          have : ((A.runs ⟨q, lab ++ (e ++ b), []⟩).flatMap fun s1 => ((Re.rep (.cls ndC) 1 (some m) true).runs s1).flatMap fun s2 =>
              T.runs { s2 with caps := (k, s1.pos, s2.pos) :: s2.caps }) = [] := by
            rw [List.flatMap_eq_nil_iff]
            intro z hz
            rcases branch_runs g3 g1 hlab he h1 q m z hz with h | h
            · exact absurd ((full_isMatch_iff A lab).2 (noAnchor_acc g2 h.2)) hm
            · rw [h]; rfl
          rw [this, hcs]
          rfl
      · cases g4


/-! ## Labels -/

/-- What is used of a label: it has no digit; it is punctuation, or it has a character that keeps it from being a gap; the pattern takes
the digits after it. -/
def labelOk (x : Str × Nat) : Bool :=
  x.1.all (fun u => !ndC.mem u && Nat.blt u 65280 && !([40, 41, 47, 91, 92, 93].contains u)) && labelPick x.1 x.2 extX.alts && !x.1.isEmpty &&
  Nat.ble x.2 20 && (x.1.any (fun u => !punctC.mem u) || Nat.ble x.1.length 4)

theorem labels_ok : extensionLabels.all labelOk = true := by decide +kernel

theorem not_block {lab Y : Str} (h1 : ∀ u ∈ lab, ndC.mem u = false) (h2 : ∃ u ∈ lab, punctC.mem u = false) (q : Nat) :
    blockRe.runs ⟨q, lab ++ Y, []⟩ = [] := by
  refine runs_nil fun w e h ha => ?_
  obtain ⟨w1, w2, rfl, k1, k2⟩ := ha
  have hp : ∀ u ∈ w1, punctC.mem u = true :=
    allCls_acc (P := fun c => decide (c = punctC)) (Q := fun u => punctC.mem u = true) (fun c hc u hu => by
      have : c = punctC := by simpa using hc
      rwa [this] at hu) (Re.rep (.cls punctC) 0 (some 4) true) (by decide) _ _ _ k1
  have hn : ∀ u ∈ w2, ndC.mem u = true :=
    allCls_acc (P := fun c => decide (c = ndC)) (Q := fun u => ndC.mem u = true) (fun c hc u hu => by
      have : c = ndC := by simpa using hc
      rwa [this] at hu) (Re.rep (.cls ndC) 1 (some 20) true) (by decide) _ _ _ k2
  have hl : 1 ≤ w2.length := minLen_acc (Re.rep (.cls ndC) 1 (some 20) true) _ _ _ k2
  obtain ⟨v, hv, hv2⟩ := h2
  dsimp only at h
  rw [List.append_assoc] at h
  rcases List.append_eq_append_iff.1 h with ⟨c, h3, h4⟩ | ⟨c, h3, h4⟩
  · have := hp v (by rw [h3]; simp [hv])
    rw [hv2] at this; cases this
  · cases w2 with
    | nil => simp at hl
    | cons u w2 =>
      cases c with
      | nil =>
        rw [List.append_nil] at h3
        have := hp v (by rw [← h3]; exact hv)
        rw [hv2] at this; cases this
      | cons u' c =>
        have h5 : u = u' := by simpa using congrArg List.head? h4
        subst h5
        have k3 := hn u (by simp)
        rw [h1 u (by rw [h3]; simp)] at k3
        cases k3

/-- The preferred match at the beginning of a number with an extension is the whole of it. -/
theorem matchAt_ext {plus : Bool} {s ext b : Str} (hs : WithExtension plus s ext) (hb : Quiet b) (hh : b.head? ≠ some 35) (p : Nat) :
    ∃ cs, matcherPattern.matchAt p (s ++ b) = some ⟨p, p + s.length, cs⟩ := by
  obtain ⟨w, x, rfl, ⟨d, l, rfl, hd, hlen, hl⟩, hx, he1, he2, he3⟩ := hs
  have hok := List.all_eq_true.1 labels_ok x hx
  simp only [labelOk, Bool.and_eq_true, List.all_eq_true, Bool.not_eq_true', Nat.ble_eq, Bool.or_eq_true, List.isEmpty_eq_false_iff,
    List.any_eq_true] at hok
  obtain ⟨⟨⟨⟨c1, c2⟩, c3⟩, c4⟩, c5⟩ := hok
  have hnd : ∀ u ∈ x.1, ndC.mem u = false := fun u hu => (c1 u hu).1.1
  have hl' : ∀ y ∈ l, PGap y.1 ∧ Block y.2 := fun y hy => ⟨pGap_of (hl y hy).1, (hl y hy).2⟩
  have hbs := quiet_stops hb
  have hstop : Stops ndC (x.1 ++ (ext ++ b)) := by
    intro u hu
    cases hx1 : x.1 with
    | nil => exact absurd hx1 c3
    | cons v t =>
      rw [hx1] at hu
      cases hu
      exact hnd _ (by rw [hx1]; simp)
  have hX : ∀ q, ∃ cs, First (Re.rep extX 0 (some 1) true).runs ⟨q, x.1 ++ (ext ++ b), []⟩ ⟨q + (x.1.length + ext.length), b, cs⟩ := by
    intro q
    obtain ⟨cs, h⟩ := labelPick_first hnd he3 he1 he2 hbs hh q extX.alts c2
    rw [← alts_eq] at h
    exact ⟨cs, first_rep0 (optL_step (n := 0) h (by simp only [List.length_append]; omega) rfl)⟩
  have hcase : (∃ u ∈ x.1, punctC.mem u = false) ∨ (x.1.length ≤ 4 ∧ ∀ u ∈ x.1, punctC.mem u = true) := by
    by_cases h : ∃ u ∈ x.1, punctC.mem u = false
    · exact .inl h
    · refine .inr ⟨c5.resolve_left h, fun u hu => ?_⟩
      cases hp : punctC.mem u with
      | true => rfl
      | false => exact absurd ⟨u, hu, hp⟩ h
  by_cases h20 : l.length = 20
  · obtain ⟨cs, h⟩ := matchAt_tail (plus := plus) hd hl' hlen hstop (.inl h20) hX p
    refine ⟨cs, ?_⟩
    simp only [List.append_assoc, List.length_append, Nat.add_assoc] at h ⊢
    exact h
  · rcases hcase with hcase | hcase
    · obtain ⟨cs, h⟩ := matchAt_tail (plus := plus) hd hl' hlen hstop (.inr fun q => not_block hnd hcase q) hX p
      refine ⟨cs, ?_⟩
      simp only [List.append_assoc, List.length_append, Nat.add_assoc] at h ⊢
      exact h
    · -- the label is a gap
      have hm : extX.must (fun c => decide (c = ndC)) = true ∧ gluey extX = true := ⟨by decide +kernel, by decide +kernel⟩
      obtain ⟨cs, h⟩ := matchAt_tail (plus := plus) (Y := b) (b := b) (k := 0) (l := l ++ [(x.1, ext)]) hd (by
          intro y hy
          rcases List.mem_append.1 hy with hy | hy
          · exact hl' y hy
          · rw [List.mem_singleton] at hy
            subst hy
            exact ⟨⟨List.length_pos_iff.2 c3, hcase.1, fun u hu => ⟨hcase.2 u hu, hnd u hu⟩⟩, he1, by dsimp only; omega, he3⟩)
        (by simp only [List.length_append, List.length_cons, List.length_nil]; omega) hbs
        (.inr fun q => runs_nil fun w e h => must_quiet (by decide +kernel) (by decide +kernel) hb h)
        (fun q => ⟨[], first_rep0_stop (runs_nil fun w e h => must_quiet hm.1 hm.2 hb h)⟩) p
      refine ⟨cs, ?_⟩
      simp only [List.flatMap_append, List.flatMap_cons, List.flatMap_nil, List.append_nil, List.append_assoc, List.length_append, Nat.add_assoc,
        Nat.add_zero] at h ⊢
      exact h

/-! ## The search -/

/-- The characters of a piece of text that is no bracketed text, date or list. -/
def PieceChar (u : Nat) : Prop := u < 65280 ∧ u ∉ [40, 41, 47, 91, 92, 93]

theorem ext_chars {plus : Bool} {s ext : Str} (hs : WithExtension plus s ext) : ∀ u ∈ s, PieceChar u := by
  obtain ⟨w, x, rfl, hw, hx, he1, he2, he3⟩ := hs
  have hok := List.all_eq_true.1 labels_ok x hx
  simp only [labelOk, Bool.and_eq_true, List.all_eq_true, Bool.not_eq_true', Nat.ble_eq, Bool.or_eq_true, List.isEmpty_eq_false_iff,
    List.any_eq_true, Nat.blt_eq] at hok
  intro u hu
  rcases List.mem_append.1 hu with h | h
  · have := written_small (written_mem hw u h)
    refine ⟨by omega, ?_⟩
    simp only [List.mem_cons, List.not_mem_nil, or_false]; omega
  · rcases List.mem_append.1 h with h | h
    · obtain ⟨⟨-, k1⟩, k2⟩ := hok.1.1.1.1 u h
      exact ⟨k1, by simpa using k2⟩
    · have : 48 ≤ u ∧ u ≤ 57 := by simpa [isDig] using he3 u h
      refine ⟨by omega, ?_⟩
      simp only [List.mem_cons, List.not_mem_nil, or_false]; omega

theorem piece_brackets {s : Str} (h0 : s ≠ []) (hs : ∀ u ∈ s, PieceChar u) : matchingBrackets.isMatch s = true := by
  refine (isMatch_iff _ _).2 ⟨[], s, [], by simp, ?_⟩
  refine ⟨[], s, rfl, ⟨rfl, rfl⟩, [], s, rfl, acc_opt.2 (.inl rfl), [], s, rfl, acc_opt.2 (.inl rfl), s, [], by simp, ?_, [], [], rfl,
    ⟨0, by simp, by simp, rfl⟩, [], [], rfl, acc_star_cls.2 (by simp), rfl, rfl⟩
  refine acc_plus_cls.2 ⟨h0, fun u hu => ?_⟩
  obtain ⟨hx, hy⟩ := hs u hu
  have e : rune u = u := Props.rune_of_lt (by simp [badBase]; omega)
  simp only [List.mem_cons, List.not_mem_nil, or_false] at hy
  simp only [Cls.mem, Cls.has, e, inRanges_cons_self, show ∀ c, inRanges [] c = false from fun _ => rfl]
  simp
  omega

theorem piece_pages {s : Str} (hs : ∀ u ∈ s, PieceChar u) : pubPages.isMatch s = false := by
  refine no_match_must (P := fun c => decide (c = ⟨false, [(40, 40)], []⟩)) (by decide +kernel) fun u hu c hc => ?_
  have : c = ⟨false, [(40, 40)], []⟩ := by simpa using hc
  have hx := (hs u hu).2
  cases hm : c.mem u with
  | false => rfl
  | true => rw [this] at hm; have := (litCls_mem 40 (by decide) u).1 hm; simp [this] at hx

theorem piece_date {s : Str} (hs : ∀ u ∈ s, PieceChar u) : slashSeparatedDates.isMatch s = false := by
  refine no_match_must (P := fun c => decide (c = ⟨false, [(47, 47)], []⟩)) (by decide +kernel) fun u hu c hc => ?_
  have : c = ⟨false, [(47, 47)], []⟩ := by simpa using hc
  have hx := (hs u hu).2
  cases hm : c.mem u with
  | false => rfl
  | true => rw [this] at hm; have := (litCls_mem 47 (by decide) u).1 hm; simp [this] at hx

theorem piece_trim {s : Str} (hs : ∀ u ∈ s, PieceChar u) : trimAfterFirstMatch secondNumberStartPattern s = s := by
  unfold trimAfterFirstMatch
  split
  · rename_i x hx
    obtain ⟨a, w, e, h1, _, _, h4, _⟩ := findFrom_sound hx
    have hl : secondNumberStartPattern.minLen ≤ w.length := minLen_acc _ _ _ _ h4
    cases w with
    | nil => exact absurd hl (by decide)
    | cons u w =>
      have h5 := (hs u (by rw [h1]; simp)).2
      have := Finder.second_start (canStart_acc h4)
      simp only [List.mem_cons, List.not_mem_nil, or_false] at h5
      omega
  · rfl

theorem find_piece {a s b : Str} (ha : NoStart a) (hm : ∀ p, ∃ cs, matcherPattern.matchAt p (s ++ b) = some ⟨p, p + s.length, cs⟩) :
    ∃ cs, matcherPattern.find (a ++ (s ++ b)) = some ⟨a.length, a.length + s.length, cs⟩ := by
  unfold Re.find
  rw [findFrom_skip (by rw [Finder.matcherPattern_minLen]; omega) (fun u hu => noStart_canStart (by rw [ndC_nd]; exact ha.1 u hu) (ha.2 u hu))]
  obtain ⟨cs, hm⟩ := hm (0 + a.length)
  refine ⟨cs, ?_⟩
  rw [Nat.zero_add] at hm ⊢
  cases hsb : s ++ b with
  | nil => rw [hsb] at hm; unfold Re.findFrom; exact hm
  | cons u t => rw [hsb] at hm; unfold Re.findFrom; rw [hm]

namespace Finder

theorem neighbours_piece {F : Finder} {plus : Bool} {a s b : Str} (ht : F.text = a ++ (s ++ b)) (hs : plus = true → ∃ t, s = 43 :: t)
    (hc : Clear plus a b) : F.neighboursOk s a.length = true := by
  have hst : ∀ u, ¬ Sticky u → (isInvalidPunctuation (rune u) || isLatinLetter (rune u)) = false := fun u h =>
    Bool.eq_false_iff.2 fun h' => h ((Props.sticky_iff u).1 h')
  unfold neighboursOk
  dsimp only
  have e1 : F.text.take a.length = a := by rw [ht, List.take_left]
  have e2 : F.text.drop (a.length + s.length) = b := by
    rw [ht, ← List.append_assoc]
    exact List.drop_left' (by simp)
  rw [e1, e2]
  split
  · rename_i h
    exfalso
    obtain ⟨_, h2, h3⟩ := h
    cases plus with
    | true =>
      have : leadClassPattern.isMatch s = true := by
        obtain ⟨t, rfl⟩ := hs rfl
        refine (isMatch_iff _ _).2 ⟨[], [43], t, rfl, [], [43], rfl, ⟨rfl, rfl⟩, 43, rfl, by decide⟩
      unfold Re.isMatch at this
      cases hf : leadClassPattern.find s with
      | none => rw [hf] at this; cases this
      | some x => rw [hf] at h2; cases h2
    | false =>
      cases hl : a.getLast? with
      | none => rw [hl] at h3; cases h3
      | some u => rw [hl] at h3; simp [hst u (hc.2 rfl u hl)] at h3
  · cases hh : b.head? with
    | none => rfl
    | some u => simp [hst u (hc.1 u hh)]

/-- A piece of text that is the preferred match is found, if parsing and the leniency accept it, and nothing else is. -/
theorem findNumbers_piece {F : Finder} {plus : Bool} {a s b : Str} {n : PhoneNumber} (ht : F.text = a ++ (s ++ b)) (ha : NoStart a)
    (h0 : s ≠ []) (hs : ∀ u ∈ s, PieceChar u) (h43 : plus = true → ∃ t, s = 43 :: t)
    (hm : ∀ p, ∃ cs, matcherPattern.matchAt p (s ++ b) = some ⟨p, p + s.length, cs⟩) (hb : NoDigit b)
    (hc : F.leniency ≠ .possible → Clear plus a b)
    (hp : parseKeepRaw F.C s F.region = .ok (none, n)) (hv : F.leniency.verify F.C F.alt n s = .ok true) (k : Int) (hk : 0 < k) :
    ∃ c, F.findNumbers k = .ok ([⟨a.length, s, Spec.Plain n⟩], c) := by
  have hpv : F.parseAndVerify s a.length = .ok (some ⟨a.length, s, Spec.Plain n⟩) := by
    unfold parseAndVerify
    rw [piece_brackets h0 hs, piece_pages hs]
    simp only [Bool.not_true, Bool.or_false, Bool.false_eq_true, if_false]
    rw [if_neg (by
      rintro ⟨h1, h2⟩
      rw [neighbours_piece ht h43 (hc h1)] at h2
      cases h2)]
    have hp' : parseKeepRawToNumber F.C s F.region {} = .ok (none, n) := hp
    simp only [hp', hv, bind, Except.bind, pure, Except.pure]
    rfl
  have e2 : F.text.drop (a.length + s.length) = b := by
    rw [ht, ← List.append_assoc]
    exact List.drop_left' (by simp)
  have hem : ∀ t, F.extractMatch s a.length t = .ok (some ⟨a.length, s, Spec.Plain n⟩, t) := by
    intro t
    unfold extractMatch looksLikeDate
    rw [piece_date hs, e2, noDigit_stamp hb, hpv, Bool.and_false, Bool.or_false, if_neg (by decide)]
    rfl
  have hsl : slice F.text a.length (a.length + s.length) = s := by
    rw [ht]
    unfold slice
    rw [List.drop_left, show a.length + s.length - a.length = s.length by omega, List.take_left]
  have hk0 : (if k < 0 then 0 else k) = k := if_neg (by omega)
  have hkl : ¬ k ≤ 0 := by omega
  obtain ⟨cs, hfind⟩ := find_piece ha hm
  have hf1 : F.find 0 ⟨k, 0, 0⟩ = .ok (some ⟨a.length, s, Spec.Plain n⟩, ⟨k, 0, 0⟩) := by
    unfold find
    rw [findLoop_succ, List.drop_zero, ht, hfind, ← ht]
    simp only [hkl, if_false, hsl, piece_trim hs, Nat.zero_add, hem]
    rfl
  have hf2 : F.find (a.length + s.length) ⟨k, 0, 0⟩ = .ok (none, ⟨k, 0, 0⟩) := by
    unfold find
    rw [findLoop_succ, e2, find_noDigit hb]
    simp only [hkl, if_false]
  have hlen : 0 < F.text.length := by
    rw [ht]
    have := List.length_pos_iff.2 h0
    simp only [List.length_append]; omega
  obtain ⟨m, hm⟩ : ∃ m, F.text.length = m + 1 := ⟨F.text.length - 1, by omega⟩
  refine ⟨⟨.done, a.length + s.length, ⟨k, 0, 0⟩⟩, ?_⟩
  unfold findNumbers new
  rw [hk0, iterate_succ, hf1]
  show (F.iterate F.text.length ⟨.notReady, a.length + s.length, ⟨k, 0, 0⟩⟩ >>= _) = _
  rw [hm, iterate_succ, hf2]
  rfl

end Finder
end Verif
