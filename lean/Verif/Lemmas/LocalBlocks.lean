import Verif.Lemmas.LocalShape
import Verif.Lemmas.Blocks
/-!
# The blocks of digits of a text made from a template

Template blocks are written as lists of numbers: a digit of the template is itself, and `$d` is 1000 and the code of `d`.
-/
namespace Verif
open Spec

/-- The blocks of a template; `cur` is the block read so far. -/
def symAux : Str → List Nat → List (List Nat)
  | [], cur => if cur = [] then [] else [cur]
  | [u], cur => if isDig u then [cur ++ [u]] else if cur = [] then [] else [cur]
  | u :: d :: t, cur =>
    if u = 36 then symAux t (cur ++ [1000 + d])
    else if isDig u then symAux (d :: t) (cur ++ [u])
    else (if cur = [] then [] else [cur]) ++ symAux (d :: t) []

/-- What stands for an item of a block. -/
def symVal (gs : List Str) (x : Nat) : Str := if x < 1000 then [x] else gs.getD (x - 1000 - 49) []

/-- The digits of a block. -/
def symText (gs : List Str) (b : List Nat) : Str := b.flatMap (symVal gs)

theorem symText_append (gs : List Str) (a b : List Nat) : symText gs (a ++ b) = symText gs a ++ symText gs b := by
  simp [symText]

theorem symText_ne {gs : List Str} {b : List Nat} (h : ∀ x ∈ b, symVal gs x ≠ []) : (symText gs b = []) ↔ b = [] := by
  cases b with
  | nil => simp [symText]
  | cons x b => simp [symText, h x (by simp)]

/-- The blocks of digits of the text are those of the template. -/
theorem symAux_spec {n : Nat} {gs : List Str} (hn : gs.length = n) (hg : ∀ g ∈ gs, g ≠ [] ∧ ∀ u ∈ g, isDig u = true) {t : Str}
    (ht : templateOk n t = true) (cur : List Nat) (hc : ∀ x ∈ cur, symVal gs x ≠ []) :
    fieldsAux isDig (fill gs t) (symText gs cur) = (symAux t cur).map (symText gs) := by
  have flush : ∀ cur : List Nat, (∀ x ∈ cur, symVal gs x ≠ []) →
      (if symText gs cur = [] then [] else [symText gs cur]) = (if cur = [] then [] else [cur]).map (symText gs) := by
    intro cur hc
    by_cases h : cur = []
    · simp [h, symText]
    · rw [if_neg h, if_neg (fun h' => h ((symText_ne hc).1 h'))]; rfl
  have lit : ∀ u, isDig u = true → symVal gs u = [u] := by
    intro u hu
    have : u < 1000 := by simp [isDig] at hu; omega
    simp [symVal, this]
  induction t using fill.induct generalizing cur with
  | case1 => simp only [fill, fieldsAux, symAux]; exact flush cur hc
  | case2 u =>
    simp only [fill, fieldsAux, symAux]
    by_cases hu : isDig u = true
    · rw [if_pos hu, if_pos hu, if_neg (by simp)]
      simp [symText, lit u hu]
    · rw [if_neg hu, if_neg hu]
      rw [← flush cur hc]
      simp
  | case3 d t ih =>
    simp only [templateOk, Nat.beq_refl, if_true, Bool.and_eq_true, Nat.ble_eq] at ht
    obtain ⟨⟨⟨⟨h1, h2⟩, h3⟩, -⟩, h5⟩ := ht
    have hlt' : d - 49 < gs.length := by omega
    have e2 : gs.getD (d - 49) [] = gs[d - 49] := by
      rw [List.getD_eq_getElem?_getD, List.getElem?_eq_getElem hlt']; rfl
    obtain ⟨k1, k2⟩ := hg _ (List.getElem_mem hlt')
    have hv : symVal gs (1000 + d) = gs.getD (d - 49) [] := by
      simp only [symVal, show ¬ (1000 + d < 1000) by omega, if_false, show 1000 + d - 1000 - 49 = d - 49 by omega]
    rw [fill, if_pos rfl, symAux, if_pos rfl, fieldsAux_run isDig _ _ _ (by rw [e2]; exact k2)]
    have := ih h5 (cur ++ [1000 + d]) (by
      intro x hx
      rcases List.mem_append.1 hx with h | h
      · exact hc x h
      · rw [List.mem_singleton.1 h, hv, e2]; exact k1)
    rw [symText_append] at this
    rw [← this]
    simp [symText, hv]
  | case4 u d t hu ih =>
    have ht' : templateOk n (d :: t) = true := by
      have : Nat.beq u 36 = false := by rw [Bool.eq_false_iff]; intro h; exact hu (by rwa [Nat.beq_eq] at h)
      simpa only [templateOk, this, Bool.false_eq_true, if_false] using ht
    rw [fill, if_neg hu, symAux, if_neg hu, fieldsAux]
    by_cases hd : isDig u = true
    · rw [if_pos hd, if_pos hd]
      have := ih ht' (cur ++ [u]) (by
        intro x hx
        rcases List.mem_append.1 hx with h | h
        · exact hc x h
        · rw [List.mem_singleton.1 h, lit u hd]; simp)
      rw [symText_append] at this
      rw [← this]
      simp [symText, lit u hd]
    · rw [if_neg hd, if_neg hd, flush cur hc, List.map_append]
      have := ih ht' [] (by simp)
      simp only [symText, List.flatMap_nil] at this
      rw [this]

/-- The blocks end with `rest`, and the one before it ends with `g`. -/
def fits (g : List Nat) (rest : List (List Nat)) : List (List Nat) → Bool
  | [] => false
  | c :: cs => (decide (cs = rest) && g.isSuffixOf c) || fits g rest cs

theorem fits_spec {g : List Nat} {rest bs : List (List Nat)} (h : fits g rest bs = true) : ∃ pre c, bs = pre ++ c :: rest ∧ g <:+ c := by
  induction bs with
  | nil => cases h
  | cons c cs ih =>
    simp only [fits, Bool.or_eq_true, Bool.and_eq_true, decide_eq_true_eq] at h
    rcases h with ⟨rfl, h⟩ | h
    · exact ⟨[], c, rfl, List.isSuffixOf_iff_suffix.1 h⟩
    · obtain ⟨pre, c', rfl, h'⟩ := ih h
      exact ⟨c :: pre, c', rfl, h'⟩

/-- The last blocks of the first template are those of the second, but the first of them may begin with more digits. -/
def blocksFit (t t' : Str) : Bool :=
  match symAux t' [] with
  | [] => false
  | g :: rest => fits g rest (symAux t [])

theorem blocksFit_spec {n : Nat} {gs : List Str} (hn : gs.length = n) (hg : ∀ g ∈ gs, g ≠ [] ∧ ∀ u ∈ g, isDig u = true) {t t' : Str}
    (ht : templateOk n t = true) (ht' : templateOk n t' = true) (h : blocksFit t t' = true) :
    ∃ g rest pre c, digitGroups (fill gs t') = g :: rest ∧ digitGroups (fill gs t) = pre ++ c :: rest ∧ g <:+ c := by
  have e := symAux_spec hn hg ht [] (by simp)
  have e' := symAux_spec hn hg ht' [] (by simp)
  simp only [symText, List.flatMap_nil] at e e'
  unfold blocksFit at h
  split at h
  · cases h
  · rename_i g rest h1
    obtain ⟨pre, c, h2, h3⟩ := fits_spec h
    rw [h1] at e'
    rw [h2] at e
    refine ⟨_, _, pre.map (symText gs), _, e', by unfold digitGroups fields; rw [e]; simp; rfl, ?_⟩
    obtain ⟨w, rfl⟩ := h3
    exact ⟨symText gs w, by simp [symText]⟩

/-- Static check: whenever a rule for NATIONAL and one for INTERNATIONAL have the same pattern, the blocks of their texts fit. -/
def exactsOk (C : Container) (but : List Str) : Bool :=
  C.ccToRegion.all fun e => match e.2 with
    | [] => true
    | r0 :: _ => match mapGet C.regionMeta r0 with
      | none => true
      | some M => e.2.all (fun r => decide (r ∈ but)) || M.formats.all fun p => (if M.intlFormats.isEmpty then M.formats else M.intlFormats).all fun q =>
          !decide (p.pattern.src = q.pattern.src) || blocksFit (template p .national []) q.format

end Verif
