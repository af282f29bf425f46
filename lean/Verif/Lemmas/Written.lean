import Verif.Lemmas.Plain
import Verif.Regex.First
import Verif.Regex.Uni
import Verif.Regex.Acc
import Verif.Regex.Lens
import Verif.Regex.Greedy
import Verif.Lemmas.Context
/-!
# Numbers written with separators and an extension

A plus sign and digits with spaces, hyphens, dots and parentheses between them, perhaps followed by a label and the digits of an
extension, are parsed like the bare digits, and the extension is found.
-/
namespace Verif

/-- The ASCII digits. -/
def digitL : List Nat := [48, 49, 50, 51, 52, 53, 54, 55, 56, 57]

/-- Space, hyphen, dot and parentheses. -/
def gapL : List Nat := [32, 45, 46, 40, 41]

/-- Plus, digits, space, hyphen, dot and parentheses. -/
def sepL : List Nat := plainL ++ gapL

theorem mem_digitL {u : Nat} (h : isDig u = true) : rune u ∈ digitL := by
  rcases isDig_cases h with rfl | rfl | rfl | rfl | rfl | rfl | rfl | rfl | rfl | rfl <;> decide

/-! ## The extension pattern -/

/-- A concatenation split at its first group. -/
def Re.splitGrp : Re → Option (Re × Nat × Re × Re)
  | .grp k d => some (.eps, k, d, .eps)
  | .cat (.grp k d) t => some (.eps, k, d, t)
  | .cat a b => b.splitGrp.map fun x => (.cat a x.1, x.2.1, x.2.2.1, x.2.2.2)
  | _ => none

theorem splitGrp_runs {r A D T : Re} {k : Nat} (h : r.splitGrp = some (A, k, D, T)) {st st' : MSt} (hr : st' ∈ r.runs st) :
    ∃ s1 ∈ A.runs st, ∃ s2 ∈ D.runs s1, st' ∈ T.runs { s2 with caps := (k, s1.pos, s2.pos) :: s2.caps } := by
  fun_induction Re.splitGrp r generalizing A k D T st with
  | case1 k' d =>
    cases h
    simp only [Re.runs, List.mem_map] at hr
    obtain ⟨s2, h2, rfl⟩ := hr
    exact ⟨st, by simp [Re.runs], s2, h2, by simp [Re.runs]⟩
  | case2 k' d t =>
    cases h
    simp only [Re.runs, List.mem_flatMap, List.mem_map] at hr
    obtain ⟨_, ⟨s2, h2, rfl⟩, h3⟩ := hr
    exact ⟨st, by simp [Re.runs], s2, h2, h3⟩
  | case3 a b _ ih =>
    rw [Option.map_eq_some_iff] at h
    obtain ⟨⟨A', k', D', T'⟩, h1, h2⟩ := h
    cases h2
    simp only [Re.runs, List.mem_flatMap] at hr
    obtain ⟨s0, h0, hb⟩ := hr
    obtain ⟨s1, h3, s2, h4, h5⟩ := ih h1 hb
    exact ⟨s1, by simp only [Re.runs, List.mem_flatMap]; exact ⟨s0, h0, h3⟩, s2, h4, h5⟩
  | case4 => cases h

theorem splitGrp_acc {r A D T : Re} {k : Nat} (h : r.splitGrp = some (A, k, D, T)) {p : Nat} {w1 w2 w3 e : Str}
    (h1 : A.Acc p w1 (w2 ++ w3 ++ e)) (h2 : D.Acc (p + w1.length) w2 (w3 ++ e)) (h3 : T.Acc (p + w1.length + w2.length) w3 e) :
    r.Acc p (w1 ++ w2 ++ w3) e := by
  fun_induction Re.splitGrp r generalizing A k D T p w1 with
  | case1 k' d =>
    cases h
    obtain rfl : w1 = [] := h1
    obtain rfl : w3 = [] := h3
    simpa [acc_grp] using h2
  | case2 k' d t =>
    cases h
    obtain rfl : w1 = [] := h1
    exact ⟨w2, w3, by simp, by simpa [acc_grp] using h2, by simpa using h3⟩
  | case3 a b _ ih =>
    rw [Option.map_eq_some_iff] at h
    obtain ⟨⟨A', k', D', T'⟩, h4, h5⟩ := h
    cases h5
    obtain ⟨v1, v2, rfl, h6, h7⟩ := h1
    refine ⟨v1, v2 ++ w2 ++ w3, by simp, by simpa using h6, ih h4 h7 ?_ ?_⟩
    · simpa [Nat.add_assoc] using h2
    · simpa [Nat.add_assoc] using h3
  | case4 => cases h

theorem splitGrp_acc_inv {r A D T : Re} {k : Nat} (h : r.splitGrp = some (A, k, D, T)) {p : Nat} {w e : Str} (ha : r.Acc p w e) :
    ∃ w1 w2 w3, w = w1 ++ w2 ++ w3 ∧ A.Acc p w1 (w2 ++ w3 ++ e) ∧ D.Acc (p + w1.length) w2 (w3 ++ e) ∧
      T.Acc (p + w1.length + w2.length) w3 e := by
  fun_induction Re.splitGrp r generalizing A k D T p w with
  | case1 k' d => cases h; exact ⟨[], w, [], by simp, rfl, ha, rfl⟩
  | case2 k' d t =>
    cases h
    obtain ⟨w2, w3, rfl, h2, h3⟩ := ha
    exact ⟨[], w2, w3, by simp, rfl, h2, h3⟩
  | case3 a b _ ih =>
    rw [Option.map_eq_some_iff] at h
    obtain ⟨⟨A', k', D', T'⟩, h1, h2⟩ := h
    cases h2
    obtain ⟨v1, v2, rfl, h3, h4⟩ := ha
    obtain ⟨w1, w2, w3, rfl, h5, h6, h7⟩ := ih h1 h4
    refine ⟨v1 ++ w1, w2, w3, by simp, ⟨v1, w1, rfl, ?_, h5⟩, ?_, ?_⟩
    · simpa using h3
    · simpa [Nat.add_assoc] using h6
    · simpa [Nat.add_assoc] using h7
  | case4 => cases h

/-- The alternatives of the extension pattern. -/
def extAlts : List Re := match extnPattern with | .cat a .eos => a.alts | _ => []

/-- The alternatives before the end of the text. -/
def extBody : Re := match extnPattern with | .cat a .eos => a | r => r

theorem extnPattern_eq : extnPattern = .cat extBody .eos := rfl

theorem extAlts_eq : extAlts = extBody.alts := rfl

theorem alts_runs {r : Re} {st st' : MSt} (h : st' ∈ r.runs st) : ∃ a ∈ r.alts, st' ∈ a.runs st := by
  induction r with
  | alt a b iha ihb =>
    simp only [Re.runs, List.mem_append] at h
    rcases h with h | h
    · obtain ⟨x, hx, h⟩ := iha h; exact ⟨x, by simp [Re.alts, hx], h⟩
    · obtain ⟨x, hx, h⟩ := ihb h; exact ⟨x, by simp [Re.alts, hx], h⟩
  | _ => exact ⟨_, by simp [Re.alts], h⟩

theorem acc_of_alts {r a : Re} (ha : a ∈ r.alts) {p : Nat} {w e : Str} (h : a.Acc p w e) : r.Acc p w e := by
  induction r with
  | alt x y ihx ihy =>
    rcases List.mem_append.1 ha with ha | ha
    · exact .inl (ihx ha)
    · exact .inr (ihy ha)
  | _ => simp only [Re.alts, List.mem_singleton] at ha; subst ha; exact h

def ndCls : Cls := ⟨false, [], [.nd]⟩
def hashCls : Cls := ⟨false, [(35, 35)], []⟩

/-- What is used of the alternatives: text without ASCII digits, a group of decimal digits, number signs; unless the last part is
not optional, the first part has a character that is neither a plus sign, a digit nor a separator. -/
def extAltOk (a : Re) : Bool :=
  match a.splitGrp with
  | none => false
  | some (A, k, D, T) => A.groups == 0 && A.allCls (fun c => c.avoids digitL) && (A.needs sepL || !T.nullable) && decide (1 ≤ k ∧ k ≤ 6) &&
      D.groups == 0 && D.allCls (fun c => decide (c = ndCls)) && T.groups == 0 && T.allCls (fun c => decide (c = hashCls))

theorem extAlts_ok : extAlts.all extAltOk = true := by decide +kernel

/-- The labels before an extension that formatting writes, with the number of digits that parsing accepts after them. -/
def extLabels : List (Str × Nat) :=
  [((str!" ext. "), 20), ((str!" x"), 9), ((str!" Anexo "), 20), ((str!" int "), 9), ((str!"#"), 9), ((str!" int. "), 9), ((str!";ext="), 20)]

/-- An alternative that accepts the label and then up to `n` digits. -/
def labelAlt (x : Str) (n : Nat) (a : Re) : Bool :=
  match a.splitGrp with
  | none => false
  | some (A, _, D, T) => A.noAnchor && A.full.isMatch x && (match T with | .eps => true | .rep _ 0 _ _ => true | _ => false) && (match D with
    | .rep (.cls c) 1 (some m) _ => decide (c = ndCls) && decide (n ≤ m)
    | _ => false)

theorem extLabels_ok : extLabels.all (fun x => extAlts.any (labelAlt x.1 x.2)) = true := by decide +kernel

theorem nd_of_isDig {u : Nat} (h : isDig u = true) : ndCls.mem u = true := by
  rcases isDig_cases h with rfl | rfl | rfl | rfl | rfl | rfl | rfl | rfl | rfl | rfl <;> decide +kernel

theorem hash_mem {u : Nat} (h : hashCls.mem u = true) : isDig u = false := by
  cases hd : isDig u with
  | false => rfl
  | true =>
    rcases isDig_cases hd with rfl | rfl | rfl | rfl | rfl | rfl | rfl | rfl | rfl | rfl <;> exact absurd h (by decide)

theorem extLabels_nd : ∀ x ∈ extLabels, ∀ u ∈ x.1, ndCls.mem u = false := by decide +kernel

/-- How a text of a label and digits is divided. -/
theorem ext_split {X d w1 w2 w3 : Str} (hX : ∀ u ∈ X, ndCls.mem u = false) (hd : ∀ u ∈ d, isDig u = true) (h0 : d ≠ [])
    (h : X ++ d = w1 ++ w2 ++ w3) (h1 : ∀ u ∈ w1, isDig u = false) (h2 : ∀ u ∈ w2, ndCls.mem u = true) (h3 : ∀ u ∈ w3, isDig u = false) :
    w1 = X ∧ w2 = d ∧ w3 = [] := by
  have e3 : w3 = [] := by
    refine Classical.byContradiction fun hc => ?_
    have e := congrArg List.getLast? h
    rw [List.getLast?_append, List.getLast?_append, List.getLast?_eq_some_getLast h0, List.getLast?_eq_some_getLast hc] at e
    simp only [Option.some_or, Option.some.injEq] at e
    have k1 := hd _ (List.getLast_mem h0)
    have k2 := h3 _ (List.getLast_mem hc)
    rw [e, k2] at k1; cases k1
  subst e3
  rw [List.append_nil] at h
  rcases List.append_eq_append_iff.1 h with ⟨a, rfl, rfl⟩ | ⟨c, rfl, rfl⟩
  · cases a with
    | nil => simp
    | cons u a =>
      have k1 := hd u (by simp)
      have k2 := h1 u (by simp)
      rw [k2] at k1; cases k1
  · cases c with
    | nil => simp
    | cons u a =>
      have k1 := hX u (by simp)
      have k2 := h2 u (by simp)
      rw [k2] at k1; cases k1

theorem avoids_digits {A : Re} (h : A.allCls (fun c => c.avoids digitL) = true) {p : Nat} {w e : Str} (ha : A.Acc p w e) :
    ∀ u ∈ w, isDig u = false := by
  intro u hu
  have := allCls_acc (Q := fun u => rune u ∉ digitL) (fun c hc u hu => Cls.avoids_mem hc u hu) A h _ _ _ ha u hu
  cases hd : isDig u with
  | false => rfl
  | true => exact absurd (mem_digitL hd) this

theorem only_nd {D : Re} (h : D.allCls (fun c => decide (c = ndCls)) = true) {p : Nat} {w e : Str} (ha : D.Acc p w e) :
    ∀ u ∈ w, ndCls.mem u = true :=
  allCls_acc (Q := fun u => ndCls.mem u = true) (fun c hc u hu => by
    have : c = ndCls := by simpa using hc
    rwa [this] at hu) D h _ _ _ ha

theorem only_hash {T : Re} (h : T.allCls (fun c => decide (c = hashCls)) = true) {p : Nat} {w e : Str} (ha : T.Acc p w e) :
    ∀ u ∈ w, isDig u = false := fun u hu =>
  allCls_acc (Q := fun u => isDig u = false) (fun c hc u hu => by
    have : c = hashCls := by simpa using hc
    rw [this] at hu
    exact hash_mem hu) T h _ _ _ ha u hu

theorem extAltOk_parts {a : Re} (h : extAltOk a = true) : ∃ A k D T, a.splitGrp = some (A, k, D, T) ∧ A.groups = 0 ∧
    A.allCls (fun c => c.avoids digitL) = true ∧ (A.needs sepL = true ∨ T.nullable = false) ∧ (1 ≤ k ∧ k ≤ 6) ∧
      D.groups = 0 ∧ D.allCls (fun c => decide (c = ndCls)) = true ∧ T.groups = 0 ∧ T.allCls (fun c => decide (c = hashCls)) = true := by
  unfold extAltOk at h
  split at h
  · cases h
  · rename_i A k D T hs
    simp only [Bool.and_eq_true, Bool.or_eq_true, beq_iff_eq, decide_eq_true_eq, Bool.not_eq_true'] at h
    obtain ⟨⟨⟨⟨⟨⟨⟨h1, h2⟩, h3⟩, h4⟩, h5⟩, h6⟩, h7⟩, h8⟩ := h
    exact ⟨A, k, D, T, hs, h1, h2, h3, h4, h5, h6, h7, h8⟩

/-- The only capture that a match of a label and digits makes is that of the digits. -/
theorem ext_caps {X d : Str} (hX : ∀ u ∈ X, ndCls.mem u = false) (hd : ∀ u ∈ d, isDig u = true) (h0 : d ≠ []) {p : Nat} {st' : MSt}
    (h : st' ∈ extnPattern.runs ⟨p, X ++ d, []⟩) :
    ∃ k, 1 ≤ k ∧ k ≤ 6 ∧ st'.caps = [(k, p + X.length, p + X.length + d.length)] := by
  rw [extnPattern_eq] at h
  simp only [Re.runs, List.mem_flatMap] at h
  obtain ⟨s0, h1, h2⟩ := h
  split at h2
  · rename_i hrest
    rw [List.mem_singleton] at h2
    subst h2
    obtain ⟨a, ha, h1⟩ := alts_runs h1
    obtain ⟨A, k, D, T, hs, g1, g2, -, g4, g5, g6, g7, g8⟩ := extAltOk_parts (List.all_eq_true.1 extAlts_ok a (by rw [extAlts_eq]; exact ha))
    obtain ⟨s1, k1, s2, k2, k3⟩ := splitGrp_runs hs h1
    obtain ⟨w1, e1, p1, a1⟩ := runs_sound A _ s1 k1
    obtain ⟨w2, e2, p2, a2⟩ := runs_sound D _ s2 k2
    obtain ⟨w3, e3, p3, a3⟩ := runs_sound T _ _ k3
    simp only at e1 p1 e3
    have c1 := runs_caps_none A g1 _ s1 k1
    have c2 := runs_caps_none D g5 _ s2 k2
    have c3 := runs_caps_none T g7 _ _ k3
    rw [hrest, List.append_nil] at e3
    rw [e3] at e2
    rw [e2] at e1
    obtain ⟨rfl, rfl, rfl⟩ := ext_split hX hd h0 (by rw [e1]; simp) (avoids_digits g2 a1) (only_nd g6 a2) (only_hash g8 a3)
    refine ⟨k, g4.1, g4.2, ?_⟩
    rw [c3]
    simp only [c2, c1, p2, p1]
  · cases h2

/-- No match starts in the number itself. -/
theorem ext_not_before {B Y : Str} {v : Nat} (hB : ∀ u ∈ B, rune u ∈ sepL) (hv : isDig v = true) (hY : ∃ y c, Y = y ++ [c] ∧ isDig c = true)
    {p : Nat} {w e : Str} (h : (B ++ [v]) ++ Y = w ++ e) : ¬ extnPattern.Acc p w e := by
  intro ha
  rw [extnPattern_eq] at ha
  obtain ⟨w0, w9, rfl, h1, h2⟩ := ha
  obtain ⟨rfl, rfl⟩ : w9 = [] ∧ e = [] := h2
  simp only [List.append_nil] at h h1
  obtain ⟨a, ha, h3⟩ := alts_acc h1
  obtain ⟨A, k, D, T, hs, -, g2, g3, -, -, g6, -, g8⟩ := extAltOk_parts (List.all_eq_true.1 extAlts_ok a (by rw [extAlts_eq]; exact ha))
  obtain ⟨w1, w2, w3, rfl, a1, a2, a3⟩ := splitGrp_acc_inv hs h3
  rcases g3 with g3 | g3
  · obtain ⟨u, hu, hu2⟩ := needs_acc sepL A g3 _ _ _ a1
    have hnd := avoids_digits g2 a1
    have hpre : ∃ c, B = w1 ++ c := by
      rw [List.append_assoc, List.append_assoc] at h
      rcases List.append_eq_append_iff.1 h with ⟨a, h4, h5⟩ | ⟨c, h4, -⟩
      · cases a with
        | nil => exact ⟨[], by simpa using h4.symm⟩
        | cons z a =>
          simp only [List.cons_append, List.nil_append, List.cons.injEq] at h5
          have := hnd v (by rw [h4, h5.1]; simp)
          rw [hv] at this; cases this
      · exact ⟨c, h4⟩
    obtain ⟨c, rfl⟩ := hpre
    exact hu2 (hB u (by simp [hu]))
  · have hne : w3 ≠ [] := by rintro rfl; rw [nullable_acc a3] at g3; cases g3
    obtain ⟨y, c, rfl, hc⟩ := hY
    have e := congrArg List.getLast? h
    rw [← List.append_assoc, List.getLast?_concat, List.getLast?_append, List.getLast?_eq_some_getLast hne] at e
    simp only [Option.some_or, Option.some.injEq] at e
    have := only_hash g8 a3 _ (List.getLast_mem hne)
    rw [← e, hc] at this; cases this

theorem nd_full : ndCls = ⟨false, [], [.nd]⟩ := rfl

/-- A label and its digits are an extension. -/
theorem ext_acc {x : Str × Nat} (hx : x ∈ extLabels) {d : Str} (hd : ∀ u ∈ d, isDig u = true) (h1 : 1 ≤ d.length) (h2 : d.length ≤ x.2)
    (p : Nat) (e : Str) : extBody.Acc p (x.1 ++ d) e := by
  obtain ⟨a, ha, h3⟩ := List.any_eq_true.1 (List.all_eq_true.1 extLabels_ok x hx)
  refine acc_of_alts (a := a) (by rw [← extAlts_eq]; exact ha) ?_
  unfold labelAlt at h3
  split at h3
  · cases h3
  · rename_i A k D T hs
    simp only [Bool.and_eq_true] at h3
    obtain ⟨⟨⟨h4, h5⟩, h6⟩, h7⟩ := h3
    have hT : ∀ q f, T.Acc q [] f := by
      intro q f
      split at h6
      · exact rfl
      · exact ⟨0, by omega, by simp, rfl⟩
      · cases h6
    have hA := noAnchor_acc h4 (q := p) (f := d ++ [] ++ e) ((full_isMatch_iff _ _).1 h5)
    have hD : D.Acc (p + x.1.length) d ([] ++ e) := by
      split at h7
      · rename_i c m g
        simp only [Bool.and_eq_true, decide_eq_true_eq] at h7
        obtain ⟨rfl, h8⟩ := h7
        rw [acc_rep_cls]
        refine ⟨fun u hu => nd_of_isDig (hd u hu), h1, ?_⟩
        intro z hz
        cases hz; omega
      · cases h7
    have := splitGrp_acc hs hA hD (hT _ e)
    simpa using this

/-- The extension is found, and nothing more than it is taken away, when no extension begins in the number. -/
theorem stripExtension_of {B : Str} {v : Nat} (hvi : isViable (B ++ [v]) = true)
    {x : Str × Nat} (hx : x ∈ extLabels) {d : Str} (hd : ∀ u ∈ d, isDig u = true) (h1 : 1 ≤ d.length) (h2 : d.length ≤ x.2)
    (hB : ∀ a B2 w e p, B = a ++ B2 → (B2 ++ [v]) ++ (x.1 ++ d) = w ++ e → ¬ extnPattern.Acc p w e) :
    stripExtension ((B ++ [v]) ++ (x.1 ++ d)) = (d, B ++ [v]) := by
  have h0 : d ≠ [] := by rintro rfl; simp at h1
  have hacc : extnPattern.Acc (0 + (B ++ [v]).length) (x.1 ++ d) [] := by
    rw [extnPattern_eq]
    exact ⟨x.1 ++ d, [], by simp, ext_acc hx hd h1 h2 _ _, rfl, rfl⟩
  cases hf : extnPattern.find ((B ++ [v]) ++ (x.1 ++ d)) with
  | none => exact absurd hacc (findFrom_none hf (B ++ [v]) (x.1 ++ d) [] (by simp))
  | some m =>
    obtain ⟨a, w, e, k1, k2, k3, k4, k5⟩ := findFrom_sound hf
    have hstart : m.start = (B ++ [v]).length := by
      rcases Nat.lt_trichotomy m.start (B ++ [v]).length with hlt | heq | hgt
      · exfalso
        rw [k2] at hlt
        simp only [Nat.zero_add, List.length_append, List.length_cons, List.length_nil] at hlt
        have : ∃ B2, B = a ++ B2 := by
          rw [List.append_assoc] at k1
          rcases List.append_eq_append_iff.1 k1 with ⟨c, h4, h5⟩ | ⟨c, h4, -⟩
          · have := congrArg List.length h4
            rw [List.length_append] at this
            have : c = [] := List.length_eq_zero_iff.1 (by omega)
            subst this
            exact ⟨[], by simpa using h4.symm⟩
          · exact ⟨c, h4⟩
        obtain ⟨B2, rfl⟩ := this
        refine hB a B2 w e _ rfl ?_ k4
        rw [List.append_assoc, List.append_assoc] at k1
        have := List.append_cancel_left k1
        simpa using this
      · exact heq
      · exact absurd hacc (findFrom_leftmost hf (B ++ [v]) (x.1 ++ d) [] (by simp) (by omega))
    have ha : a = B ++ [v] ∧ x.1 ++ d = w ++ e := by
      refine List.append_inj' k1 ?_ |> fun h => ⟨h.1.symm, h.2⟩
      have := congrArg List.length k1
      simp only [List.length_append] at this hstart ⊢
      omega
    obtain ⟨rfl, hwe⟩ := ha
    rw [← hwe, matchAt_eq] at k5
    rw [Option.map_eq_some_iff] at k5
    obtain ⟨st, k6, k7⟩ := k5
    have hcaps : m.caps = st.caps := by rw [← k7]
    obtain ⟨k, g1, g2, g3⟩ := ext_caps (extLabels_nd x hx) hd h0 (List.mem_of_mem_head? k6)
    unfold stripExtension
    rw [hf]
    simp only [hstart, List.take_left, hvi, if_true, extnPattern_groups]
    have hg : ∀ i, m.group ((B ++ [v]) ++ (x.1 ++ d)) (i + 1) = if i + 1 = k then d else [] := by
      intro i
      unfold Match.group Match.span
      rw [if_neg (by omega), hcaps, g3]
      by_cases hik : i + 1 = k
      · rw [if_pos hik, hik]
        simp only [List.find?_cons, beq_self_eq_true, Option.map_some]
        have := slice_eq_of_append (s := (B ++ [v]) ++ (x.1 ++ d)) (y := B ++ [v] ++ x.1) (w := d) (e := []) (by simp)
        rw [List.length_append] at this
        rw [hstart]
        exact this
      · rw [if_neg hik]
        have : (k == i + 1) = false := by simp; omega
        simp [this]
    simp only [hg]
    have : (List.range 6).findSome? (fun i => if (if i + 1 = k then d else []) = [] then none else some (if i + 1 = k then d else [])) = some d := by
      have hk : k = 1 ∨ k = 2 ∨ k = 3 ∨ k = 4 ∨ k = 5 ∨ k = 6 := by omega
      rcases hk with rfl | rfl | rfl | rfl | rfl | rfl <;> simp [List.range, List.range.loop, h0]
    rw [this]

/-- In a text of digits and separators no extension begins. -/
theorem stripExtension_written {B : Str} {v : Nat} (hB : ∀ u ∈ B, rune u ∈ sepL) (hv : isDig v = true) (hvi : isViable (B ++ [v]) = true)
    {x : Str × Nat} (hx : x ∈ extLabels) {d : Str} (hd : ∀ u ∈ d, isDig u = true) (h1 : 1 ≤ d.length) (h2 : d.length ≤ x.2) :
    stripExtension ((B ++ [v]) ++ (x.1 ++ d)) = (d, B ++ [v]) := by
  refine stripExtension_of hvi hx hd h1 h2 fun a B2 w e p hs h => ?_
  have h0 : d ≠ [] := by rintro rfl; simp at h1
  exact ext_not_before (B := B2) (fun u hu => hB u (by rw [hs]; simp [hu])) hv
    ⟨x.1 ++ d.dropLast, d.getLast h0, by rw [List.append_assoc, List.dropLast_concat_getLast h0], hd _ (List.getLast_mem h0)⟩ h

/-! ## The number -/

/-- Digits with spaces, hyphens, dots and parentheses between them: starts and ends with a digit. -/
structure Spaced (t : Str) : Prop where
  all : ∀ u ∈ t, isDig u = true ∨ u ∈ gapL
  first : ∃ v b, t = v :: b ∧ isDig v = true
  last : ∃ a v, t = a ++ [v] ∧ isDig v = true

theorem gapL_rune : ∀ u ∈ gapL, rune u = u := by decide

theorem Spaced.sep {t : Str} (h : Spaced t) : ∀ u ∈ 43 :: t, rune u ∈ sepL := by
  intro u hu
  rcases List.mem_cons.1 hu with rfl | hu
  · decide
  · rcases h.all u hu with h | h
    · exact List.mem_append_left _ (plainL_of_isDig h)
    · rw [gapL_rune u h]; exact List.mem_append_right _ h

theorem gapL_dig : ∀ u ∈ gapL, isDig u = false := by decide

theorem gapL_charDigit : ∀ u ∈ gapL, charDigit u = none := by decide +kernel

theorem Spaced.normalize {t : Str} (h : Spaced t) : normalize t = t.filter isDig := by
  have h1 : validAlphaPhonePattern.isMatch t = false := by
    have : validAlphaPhonePattern.find t = none :=
      find_none_of_needs (L := sepL) (by decide +kernel) (fun u hu => h.sep u (by simp [hu])) 0
    simp [Re.isMatch, this]
  unfold Verif.normalize
  rw [h1]
  simp only [Bool.false_eq_true, if_false]
  have key : ∀ l : Str, (∀ u ∈ l, isDig u = true ∨ u ∈ gapL) → normalizeDigitsOnly l = l.filter isDig := by
    intro l hl
    induction l with
    | nil => rfl
    | cons u l ih =>
      have h2 := ih (fun v hv => hl v (by simp [hv]))
      unfold normalizeDigitsOnly normalizeDigits at h2 ⊢
      rw [List.flatMap_cons, h2]
      rcases hl u (by simp) with hu | hu
      · rw [rune_of_isDig hu, charDigit_of_isDig hu, List.filter_cons_of_pos hu]; rfl
      · rw [gapL_rune u hu, gapL_charDigit u hu, List.filter_cons_of_neg (by rw [gapL_dig u hu]; simp)]; rfl
  exact key t h.all

/-- The number pattern accepts digits with separators before them. -/
theorem iterP_spaced {P : Nat → Str → Str → Prop} (hP : ∀ a u q f, (∀ v ∈ a, v ∈ gapL) → isDig u = true → P q (a ++ [u]) f) (t : Str)
    (ht : ∀ u ∈ t, isDig u = true ∨ u ∈ gapL) (a : Str) (ha : ∀ u ∈ a, u ∈ gapL) (hl : ∃ b v, t = b ++ [v] ∧ isDig v = true) (p : Nat)
    (e : Str) : iterP P (t.filter isDig).length p (a ++ t) e := by
  induction t generalizing a p with
  | nil => obtain ⟨b, v, h, -⟩ := hl; simp at h
  | cons u t ih =>
    rcases ht u (by simp) with hu | hu
    · rw [List.filter_cons_of_pos hu]
      refine ⟨a ++ [u], t, by simp, hP a u _ _ ha hu, ?_⟩
      cases t with
      | nil => rfl
      | cons v t =>
        refine ih (fun w hw => ht w (by simp [hw])) [] (by simp) ?_ _
        obtain ⟨b, w, h1, h2⟩ := hl
        cases b with
        | nil => simp at h1
        | cons x b => exact ⟨b, w, by simpa using (List.cons.inj h1).2, h2⟩
    · rw [List.filter_cons_of_neg (by rw [gapL_dig u hu]; simp)]
      have := ih (fun w hw => ht w (by simp [hw])) (a ++ [u]) (by
        intro v hv
        rcases List.mem_append.1 hv with hv | hv
        · exact ha v hv
        · rw [List.mem_singleton.1 hv]; exact hu) (by
        obtain ⟨b, w, h1, h2⟩ := hl
        cases b with
        | nil => simp at h1; rw [h1.1] at hu; exact absurd (gapL_dig w hu) (by rw [h2]; simp)
        | cons x b => exact ⟨b, w, by simpa using (List.cons.inj h1).2, h2⟩) p
      simpa using this

/-- A pattern without its groups. -/
def Re.ungrp : Re → Re
  | .grp _ r => r.ungrp
  | .cat a b => .cat a.ungrp b.ungrp
  | .alt a b => .alt a.ungrp b.ungrp
  | .rep r mn mx g => .rep r.ungrp mn mx g
  | r => r

theorem iterP_congr {P Q : Nat → Str → Str → Prop} (h : ∀ p w e, P p w e ↔ Q p w e) (k p : Nat) (w e : Str) :
    iterP P k p w e ↔ iterP Q k p w e := by
  induction k generalizing p w with
  | zero => rfl
  | succ k ih => simp only [iterP, h, ih]

theorem ungrp_acc (r : Re) (p : Nat) (w e : Str) : r.ungrp.Acc p w e ↔ r.Acc p w e := by
  induction r generalizing p w e with
  | grp n r ih => exact ih p w e
  | cat a b iha ihb => simp only [Re.ungrp, Re.Acc, iha, ihb]
  | alt a b iha ihb => simp only [Re.ungrp, Re.Acc, iha, ihb]
  | rep r mn mx g ih => simp only [Re.ungrp, Re.Acc, iterP_congr ih]
  | _ => rfl

/-- The extension part of the pattern for viable numbers. -/
def validExt : Re :=
  match validBody with
  | .grp _ (.alt _ (.cat _ (.cat _ (.cat _ (.rep r _ _ _))))) => r
  | r => r

theorem validExt_eq : validExt.ungrp = extBody.ungrp := by decide +kernel

/-- Written numbers are viable, with or without an extension. -/
theorem Spaced.validBody {t x : Str} (ht : Spaced t) (h3 : 3 ≤ (t.filter isDig).length)
    (hx : x = [] ∨ ∀ p e, extBody.Acc p x e) : validBody.Acc 0 (43 :: (t ++ x)) [] := by
  refine Or.inr ⟨[43], t ++ x, rfl, ⟨1, by omega, by simp, [43], [], rfl, ⟨43, rfl, by decide⟩, rfl⟩, t, x, rfl,
    ⟨(t.filter isDig).length, h3, by simp, ?_⟩, [], x, by simp, ⟨0, by simp, by simp, rfl⟩, ?_⟩
  · have := fun P hP => iterP_spaced (P := P) hP t ht.all [] (by simp) ht.last
    refine this _ ?_ _ _
    intro a u q f ha hu
    refine ⟨a, [u], rfl, acc_star_cls.2 (fun v hv => ?_), u, rfl, nd_of_isDig hu⟩
    have := ha v hv
    simp only [gapL, List.mem_cons, List.not_mem_nil, or_false] at this
    rcases this with rfl | rfl | rfl | rfl | rfl <;> decide +kernel
  · rcases hx with rfl | hx
    · exact ⟨0, by simp, by simp, rfl⟩
    · have h1 : ∀ q, validExt.Acc q x [] := fun q => by
        rw [← ungrp_acc, validExt_eq, ungrp_acc]; exact hx _ _
      exact acc_opt.2 (.inr (h1 _))

theorem isViable_of_acc {s : Str} (h : validBody.Acc 0 s []) (h2 : 2 ≤ s.length) : isViable s = true := by
  unfold isViable
  rw [if_neg, validPhoneNumberPattern_eq, full_isMatch_iff]
  · exact h
  · have := length_le_blen s
    simp only [minLengthForNSN]; omega

/-! ## Parsing -/

/-- The end of a written number: nothing, or a label and the digits of an extension. -/
inductive ExtPart : Str → Str → Prop
  | none : ExtPart [] []
  | some (x : Str × Nat) (d : Str) (hx : x ∈ extLabels) (hd : ∀ u ∈ d, isDig u = true) (h1 : 1 ≤ d.length) (h2 : d.length ≤ x.2) :
      ExtPart (x.1 ++ d) d

/-- The characters of written numbers with extensions. -/
def extL : List Nat := sepL ++ [101, 120, 116, 65, 110, 111, 105, 35, 59, 61]

theorem extLabels_extL : ∀ x ∈ extLabels, ∀ u ∈ x.1, rune u ∈ extL := by decide

theorem ExtPart.mem {y d : Str} (h : ExtPart y d) : ∀ u ∈ y, rune u ∈ extL := by
  intro u hu
  cases h with
  | none => cases hu
  | some x d hx hd _ _ =>
    rcases List.mem_append.1 hu with hu | hu
    · exact extLabels_extL x hx u hu
    · exact List.mem_append_left _ (List.mem_append_left _ (plainL_of_isDig (hd u hu)))

theorem ExtPart.acc {y d : Str} (h : ExtPart y d) : y = [] ∨ ∀ p e, extBody.Acc p y e := by
  cases h with
  | none => exact .inl rfl
  | some x d hx hd h1 h2 => exact .inr fun p e => ext_acc hx hd h1 h2 p e

theorem ExtPart.last {y d t : Str} (h : ExtPart y d) (ht : Spaced t) : ∃ a v, 43 :: (t ++ y) = a ++ [v] ∧ isDig v = true := by
  cases h with
  | none =>
    obtain ⟨a, v, rfl, hv⟩ := ht.last
    exact ⟨43 :: a, v, by simp, hv⟩
  | some x d hx hd h1 h2 =>
    have h0 : d ≠ [] := by rintro rfl; simp at h1
    refine ⟨43 :: (t ++ (x.1 ++ d.dropLast)), d.getLast h0, ?_, hd _ (List.getLast_mem h0)⟩
    conv => lhs; rw [← List.dropLast_concat_getLast h0]
    simp

theorem ExtPart.strip {y d t : Str} (h : ExtPart y d) (ht : Spaced t) (h3 : 3 ≤ (t.filter isDig).length) :
    stripExtension (43 :: (t ++ y)) = (d, 43 :: t) := by
  cases h with
  | none =>
    rw [List.append_nil]
    unfold stripExtension
    rw [show extnPattern.find (43 :: t) = Option.none from find_none_of_needs (L := sepL) (by decide +kernel) ht.sep 0]
  | some x d hx hd h1 h2 =>
    have hv := ht.validBody h3 (.inl rfl)
    obtain ⟨a, v, rfl, hvd⟩ := ht.last
    have hvi : isViable ((43 :: a) ++ [v]) = true := isViable_of_acc (by simpa using hv) (by simp)
    have := stripExtension_written (B := 43 :: a) (v := v) (fun u hu => ht.sep u (by
      rcases List.mem_cons.1 hu with rfl | hu
      · simp
      · simp [hu])) hvd hvi hx hd h1 h2
    simpa using this

theorem indexOf_none_of_mem {s q : Str} {c : Nat} (hc : c ∈ q) (hs : c ∉ s) : indexOf s q = none := by
  refine indexOf_notIn fun h => ?_
  obtain ⟨a, b, rfl⟩ := h
  exact hs (by simp [hc])

theorem validStart_tel (t : Str) (pre : Str) (hpre : pre = [] ∨ pre = rfcPrefix) :
    ∃ x, validStartCharPattern.find (pre ++ 43 :: t) = some x ∧ x.start = pre.length := by
  have hc : ∃ c, validStartCharPattern = .cls c := ⟨_, rfl⟩
  obtain ⟨c, hc⟩ := hc
  have h43 : c.mem 43 = true := by
    have : validStartCharPattern.canStart 43 = true := by decide +kernel
    rw [hc] at this; exact this
  have key : ∀ p, validStartCharPattern.findFrom p (43 :: t) = some ⟨p, p + 1, []⟩ := by
    intro p
    rw [Re.findFrom, hc, Re.matchAt, cls_m_cons, if_pos h43]
  refine ⟨⟨pre.length, pre.length + 1, []⟩, ?_, rfl⟩
  unfold Re.find
  rw [findFrom_skip (by decide +kernel), Nat.zero_add, key]
  rcases hpre with rfl | rfl
  · simp
  · decide +kernel

theorem extL_not (c : Nat) (hc : rune c ∉ extL) {pre t y d : Str} (ht : Spaced t) (hy : ExtPart y d) (hp : c ∉ pre) :
    c ∉ pre ++ 43 :: (t ++ y) := by
  intro h
  rcases List.mem_append.1 h with h | h
  · exact hp h
  · have h2 : c ∈ (43 :: t) ++ y := by simpa using h
    rcases List.mem_append.1 h2 with h | h
    · exact hc (List.mem_append_left _ (ht.sep c h))
    · exact hc (hy.mem c h)

theorem build_written {pre t y d : Str} (hpre : pre = [] ∨ pre = rfcPrefix) (ht : Spaced t) (hy : ExtPart y d) :
    buildNationalNumber (pre ++ 43 :: (t ++ y)) = .ok (.ok (43 :: (t ++ y))) := by
  have h1 : indexOf (pre ++ 43 :: (t ++ y)) rfcPhoneContext = none :=
    indexOf_none_of_mem (c := 112) (by decide) (extL_not 112 (by decide) ht hy (by rcases hpre with rfl | rfl <;> decide))
  have h2 : indexOf (43 :: (t ++ y)) rfcIsub = none :=
    indexOf_none_of_mem (c := 98) (by decide) (extL_not 98 (by decide) (pre := []) ht hy (by simp))
  have h3 : extractPossibleNumber (pre ++ 43 :: (t ++ y)) = 43 :: (t ++ y) := by
    obtain ⟨x, hx, hx0⟩ := validStart_tel (t ++ y) pre hpre
    obtain ⟨a, v, ha, hv⟩ := hy.last ht
    unfold extractPossibleNumber
    rw [hx]
    simp only [hx0, List.drop_left]
    rw [ha, unwantedEnd_none a v hv, ← ha]
    simp only
    rw [show secondNumberStartPattern.find (43 :: (t ++ y)) = none from
      find_none_of_needs (L := extL) (by decide +kernel) (fun u hu => by
        have h2 : u ∈ (43 :: t) ++ y := by simpa using hu
        rcases List.mem_append.1 h2 with h | h
        · exact List.mem_append_left _ (ht.sep u h)
        · exact hy.mem u h) 0]
  unfold buildNationalNumber
  simp only [h1, h3]
  simp [dropIsub, h2]

theorem gapL_plus : ∀ u ∈ gapL, rune u ∉ plusL := by decide

/-- Parsing a written number with a country code. -/
theorem parseCore_written (C : Container) {pre t y d : Str} (region : Str) (check : Bool) (hpre : pre = [] ∨ pre = rfcPrefix)
    (ht : Spaced t) (hy : ExtPart y d) (h3 : 3 ≤ (t.filter isDig).length) (h250 : blen (pre ++ 43 :: (t ++ y)) ≤ 250)
    (hc : (extractCC C (t.filter isDig)).1 ≠ 0) :
    parseCore C (pre ++ 43 :: (t ++ y)) region check = (do
      match ← finishCore (extractCC C (t.filter isDig)).2 (finishMeta C (extractCC C (t.filter isDig)).1 region) with
      | .error e => return .error e
      | .ok (nsn, carrier) => return .ok ⟨(extractCC C (t.filter isDig)).1, d, nsn, some .withPlusSign, carrier⟩) := by
  have hchk : checkRegion C (43 :: (t ++ y)) region = true := by
    simp only [checkRegion, Bool.or_eq_true, Bool.and_eq_true]
    exact Or.inr ⟨by simp, (plus_isMatch_iff _).2 ⟨43, by simp, by decide⟩⟩
  have hvi : isViable (43 :: (t ++ y)) = true := by
    refine isViable_of_acc (ht.validBody h3 hy.acc) ?_
    obtain ⟨v, b, rfl, -⟩ := ht.first
    simp
  have hone : extractOnce C (43 :: t) (C.metaForRegion region) =
      .ok (.ok ((extractCC C (t.filter isDig)).1, (extractCC C (t.filter isDig)).2, .withPlusSign)) := by
    have := extractOnce_plus C [43] t (C.metaForRegion region) (by simp) (by decide) (fun u hu => by
      rcases ht.all u hu with h | h
      · exact dig_not_plus h
      · exact gapL_plus u h)
    rw [ht.normalize, blen_digits (fun u hu => (List.mem_filter.1 hu).2), if_neg (by simp only [minLengthForNSN]; omega), if_pos hc] at this
    simpa using this
  unfold parseCore
  rw [if_neg (by simp), if_neg (by simp only [maxInputStringLength]; omega), build_written hpre ht hy]
  simp only [bind, Except.bind, hvi, hchk, Bool.not_true, Bool.and_false, Bool.false_eq_true, if_false]
  unfold parseViable
  rw [hy.strip ht h3]
  simp only [bind, Except.bind, extractCore, hone, if_pos hc, pure, Except.pure]
  cases finishCore (extractCC C (t.filter isDig)).snd (finishMeta C (extractCC C (t.filter isDig)).fst region) with
  | error p => rfl
  | ok v => cases v <;> rfl

end Verif
