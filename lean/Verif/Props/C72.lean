import Verif.Props.C71
/-!
# C72: user-defined formatting rules are used like those of the metadata
-/
namespace Verif.Spec

/-- Every occurrence of the three characters `$ab`, from the left, replaced by `by_`. -/
def substAll (a b : Nat) (by_ : Str) : Str → Str
  | x :: y :: z :: t => if x = 36 ∧ y = a ∧ z = b then by_ ++ substAll a b by_ t else x :: substAll a b by_ (y :: z :: t)
  | s => s

/-- The national prefix rule of a user-defined rule: `$NP` stands for the national prefix of the region, `$FG` for the first group;
in a region without national prefix there is no such rule. -/
def userNpRule (np rule : Str) : Str :=
  if np = [] then [] else substAll 'F'.toNat 'G'.toNat (str!"$1") (substAll 'N'.toNat 'P'.toNat np rule)

/-- A user-defined rule, for a region with this national prefix. -/
def userRule (np : Str) (p : NumberFormat) : NumberFormat := { p with npRule := userNpRule np p.npRule }

end Verif.Spec

namespace Verif
open Spec

/-- A pattern that is the literal text `$ab`. -/
structure LitOf (r : Re) (a b : Nat) : Prop where
  hit : ∀ p t, r.matchAt p (36 :: a :: b :: t) = some ⟨p, p + 3, []⟩
  miss : ∀ p x y z t, ¬ (x = 36 ∧ y = a ∧ z = b) → r.matchAt p (x :: y :: z :: t) = none
  short : ∀ p s, s.length < 3 → r.matchAt p s = none

theorem litOf (a b : Nat) (ha : a < 128) (hb : b < 128) :
    LitOf (.cat (.cls ⟨false, [(36, 36)], []⟩) (.cat (.cls ⟨false, [(a, a)], []⟩) (.cls ⟨false, [(b, b)], []⟩))) a b := by
  have hs : ∀ p s x, Re.matchAt (.cat (.cls ⟨false, [(36, 36)], []⟩) (.cat (.cls ⟨false, [(a, a)], []⟩) (.cls ⟨false, [(b, b)], []⟩))) p s =
      some x → ∃ e, s = 36 :: a :: b :: e := by
    intro p s x hx
    obtain ⟨-, w, e, hs, -, hacc⟩ := matchAt_sound hx
    obtain ⟨w1, w2, rfl, ⟨x1, rfl, hx1⟩, w3, w4, rfl, ⟨x2, rfl, hx2⟩, x3, rfl, hx3⟩ := hacc
    rw [cls_one_mem (by omega)] at hx1 hx2 hx3
    subst hx1 hx2 hx3
    exact ⟨e, by simpa using hs⟩
  refine ⟨fun p t => ?_, fun p x y z t h => ?_, fun p s h => ?_⟩
  · rw [matchAt_eq]
    simp [Re.runs, (cls_one_mem (a := 36) (u := 36) (by omega)).2 rfl, (cls_one_mem (a := a) (u := a) ha).2 rfl,
      (cls_one_mem (a := b) (u := b) hb).2 rfl]
  · cases hx : Re.matchAt _ p (x :: y :: z :: t) with
    | none => rfl
    | some m => obtain ⟨e, he⟩ := hs _ _ _ hx; cases he; exact absurd ⟨rfl, rfl, rfl⟩ h
  · cases hx : Re.matchAt _ p s with
    | none => rfl
    | some m => obtain ⟨e, he⟩ := hs _ _ _ hx; subst he; simp at h; omega

theorem npPattern_lit : LitOf npPattern 78 80 := litOf 78 80 (by omega) (by omega)
theorem fgPattern_lit : LitOf fgPattern 70 71 := litOf 70 71 (by omega) (by omega)

theorem LitOf.skip {r : Re} {a b : Nat} (h : LitOf r a b) (p x y z : Nat) (t : Str) (hn : ¬ (x = 36 ∧ y = a ∧ z = b)) :
    r.findFrom p (x :: y :: z :: t) = r.findFrom (p + 1) (y :: z :: t) := by
  rw [Re.findFrom, h.miss p x y z t hn]

theorem LitOf.findFrom_short {r : Re} {a b : Nat} (h : LitOf r a b) (p : Nat) (s : Str) (hs : s.length < 3) : r.findFrom p s = none := by
  induction s generalizing p with
  | nil => rw [Re.findFrom, h.short p [] hs]
  | cons u t ih => rw [Re.findFrom, h.short p _ hs]; exact ih (p + 1) (by simp at hs; omega)

theorem LitOf.find {r : Re} {a b : Nat} (h : LitOf r a b) (by_ : Str) (t : Str) (p : Nat) :
    (r.findFrom p t = none ∧ substAll a b by_ t = t) ∨
    ∃ mid rest, t = mid ++ 36 :: a :: b :: rest ∧ r.findFrom p t = some ⟨p + mid.length, p + mid.length + 3, []⟩ ∧
      substAll a b by_ t = mid ++ (by_ ++ substAll a b by_ rest) := by
  induction t generalizing p with
  | nil => exact .inl ⟨h.findFrom_short p [] (by simp), by simp [substAll]⟩
  | cons x t ih =>
    match t, ih with
    | [], _ => exact .inl ⟨h.findFrom_short p [x] (by simp), by simp [substAll]⟩
    | [y], _ => exact .inl ⟨h.findFrom_short p [x, y] (by simp), by simp [substAll]⟩
    | y :: z :: t, ih =>
      by_cases hx : x = 36 ∧ y = a ∧ z = b
      · obtain ⟨rfl, rfl, rfl⟩ := hx
        exact .inr ⟨[], t, rfl, by simp [Re.findFrom, h.hit], by rw [substAll, if_pos ⟨rfl, rfl, rfl⟩]; rfl⟩
      · rw [h.skip p x y z t hx, substAll, if_neg hx]
        rcases ih (p + 1) with ⟨h1, h2⟩ | ⟨mid, rest, h1, h2, h3⟩
        · exact .inl ⟨h1, by rw [h2]⟩
        · refine .inr ⟨x :: mid, rest, by rw [h1]; rfl, ?_, by rw [h3]; rfl⟩
          rw [h2]
          simp only [List.length_cons]
          rw [show p + 1 + mid.length = p + (mid.length + 1) by omega]

/-- Replacing a literal text everywhere. -/
theorem LitOf.replace {r : Re} {a b : Nat} (h : LitOf r a b) {repl : Match → Str} {by_ : Str} (hr : ∀ x, repl x = by_) (f : Nat)
    (t pre s : Str) (hs : s = pre ++ t) (hf : t.length < f) : replaceLoop r s repl f pre.length pre.length = substAll a b by_ t := by
  induction f generalizing t pre with
  | zero => omega
  | succ f ih =>
    subst hs
    rw [replaceLoop, if_neg (by simp)]
    rcases h.find by_ t pre.length with ⟨h1, h2⟩ | ⟨mid, rest, h1, h2, h3⟩
    · simp [h1, h2]
    · have hd : (pre ++ t).drop pre.length = t := by simp
      have h5 := ih rest (pre ++ mid ++ [36, a, b]) (by simp [h1]) (by rw [h1] at hf; simp at hf; omega)
      have hl : (pre ++ mid ++ [36, a, b]).length = pre.length + mid.length + 3 := by simp; omega
      rw [hl] at h5
      have hsl : slice (pre ++ t) pre.length (pre.length + mid.length) = mid := by simp [slice, h1]
      simp only [hd, h2]
      rw [hsl, if_pos (.inl (by omega)), if_neg (by omega), h5, h3, hr]
      simp

theorem LitOf.replaceAll {r : Re} {a b : Nat} (h : LitOf r a b) (s : Str) {t : Str} (ht : 36 ∉ t) : r.replaceAll s t = substAll a b t s := by
  refine h.replace (fun x => ?_) (s.length + 2) s [] s rfl (by omega)
  have key : ∀ (t : Str) (f : Nat), 36 ∉ t → t.length < f → expandLoop x s f t = t := by
    intro t
    induction t with
    | nil => intro f _ hf; cases f with
      | zero => simp at hf
      | succ f => simp [expandLoop]
    | cons u t ih =>
      intro f hu hf
      cases f with
      | zero => simp at hf
      | succ f =>
        simp only [List.mem_cons, not_or] at hu
        have hstep : expandLoop x s (f + 1) (u :: t) = u :: expandLoop x s f t := by
          rw [expandLoop]
          · intro t' h _; exact hu.1 h.symm
          · intro t' h _; exact hu.1 h.symm
          · intro h; exact hu.1 h.symm
        rw [hstep, ih f hu.2 (by simp at hf; omega)]
  exact key t _ ht (by omega)

theorem LitOf.replaceAllLit {r : Re} {a b : Nat} (h : LitOf r a b) (s t : Str) : r.replaceAllLit s t = substAll a b t s :=
  h.replace (fun _ => rfl) (s.length + 2) s [] s rfl (by omega)

theorem chooseFormat_map (g : NumberFormat → NumberFormat) (hp : ∀ p, (g p).pattern = p.pattern)
    (hl : ∀ p, (g p).leadingDigits = p.leadingDigits) (fs : List NumberFormat) (s : Str) :
    chooseFormat (fs.map g) s = (chooseFormat fs s).map g := by
  induction fs with
  | nil => rfl
  | cons f fs ih =>
    simp only [List.map_cons, chooseFormat, hp, hl, ih]
    cases f.leadingDigits.getLast? with
    | none => simp only; split <;> rfl
    | some ld => simp only; split <;> rfl

end Verif

namespace Verif.Props
open Spec

/-- `FormatByPattern`, for every container, every number with a supported country code, every format and every list of user-defined
rules that, with the national prefix of the main region put in, are well-formed: the national significant number is laid out by the
first of these rules that can be used, exactly as `Format` does with the rules of the metadata. -/
theorem C72_userRules (C : Container) (hb : Built C) (ht : tablesOk C = true) (hp : prefixFree C = true)
    (n : PhoneNumber) (f : Fmt) (user : List NumberFormat) (hcc : C.hasCC n.cc = true) :
    ∃ m, C.metaFor n.cc (C.mainRegion n.cc) = some m ∧
      ('$'.toNat ∉ m.nationalPrefix → (∀ p ∈ user, layoutRuleOk (userRule m.nationalPrefix p) = true) →
        ∃ body, LaidOut (user.map (userRule m.nationalPrefix)) (nsnOf n) f [] body ∧
          formatByPattern C n f user = leadText f n.cc.toNat ++ body ++ extensionText m f (n.extension.getD [])) := by
  have h0 : 0 ≤ n.cc := by have := (prefixFree_spec hp hcc).1; omega
  obtain ⟨m, hm, -⟩ := main_meta hb ht hcc
  refine ⟨m, hm, fun hnp hu => ?_⟩
  have hrules : ∀ p ∈ user.map (userRule m.nationalPrefix), layoutRuleOk p = true := by
    intro p hp
    obtain ⟨q, hq, rfl⟩ := List.mem_map.1 hp
    exact hu q hq
  have hch := chooseFormat_chosen hrules (nsnOf_isDig n)
  have hmap := chooseFormat_map (userRule m.nationalPrefix) (fun _ => rfl) (fun _ => rfl) user (nsnOf n)
  simp only [formatByPattern, hcc, Bool.not_true, Bool.false_eq_true, if_false, hm, extensionText_eq, leadText_eq h0]
  cases hc : chooseFormat user (nsnOf n) with
  | none =>
    rw [hmap, hc] at hch
    exact ⟨nsnOf n, .plain hch, by simp⟩
  | some p =>
    rw [hmap, hc] at hch
    have hpr : p ∈ user ∧ Applies (userRule m.nationalPrefix p) (nsnOf n) := by
      refine ⟨(chooseFormat_acc _ _ _ hc).1, ?_⟩
      cases hch with
      | some k1 k2 k3 => exact k2
    have heq : (if p.npRule ≠ [] then
        if m.nationalPrefix ≠ [] then { p with npRule := fgPattern.replaceAllLit (npPattern.replaceAll p.npRule m.nationalPrefix) (str!"$1") }
        else { p with npRule := [] }
      else p) = userRule m.nationalPrefix p := by
      unfold userRule userNpRule
      rw [npPattern_lit.replaceAll _ hnp, fgPattern_lit.replaceAllLit]
      by_cases h1 : p.npRule = []
      · obtain ⟨a, b, c, d, e, g⟩ := p
        simp only at h1
        subst h1
        simp [substAll]
      · by_cases h2 : m.nationalPrefix = []
        · simp [h1, h2]
        · simp [h1, h2]
    obtain ⟨gs, hg, he⟩ := formatNsnUsingPattern_eq (hu p hpr.1) (nsnOf_isDig n) hpr.2 f (carrier := []) (by simp)
    refine ⟨_, .rule hch hg, ?_⟩
    simp only [heq, he, List.append_assoc]

theorem wf_nationalPrefix : (Data.container.allMeta.all fun m => !m.nationalPrefix.any fun u => Nat.beq u 36) = true := by kernel_rfl

/-- The same for the shipped metadata, whose national prefixes have no dollar signs. -/
theorem C72_shipped (n : PhoneNumber) (f : Fmt) (user : List NumberFormat) (hcc : Data.container.hasCC n.cc = true) :
    ∃ m, Data.container.metaFor n.cc (Data.container.mainRegion n.cc) = some m ∧
      ((∀ p ∈ user, layoutRuleOk (userRule m.nationalPrefix p) = true) →
        ∃ body, LaidOut (user.map (userRule m.nationalPrefix)) (nsnOf n) f [] body ∧
          formatByPattern Data.container n f user = leadText f n.cc.toNat ++ body ++ extensionText m f (n.extension.getD [])) := by
  obtain ⟨m, hm, h⟩ := C72_userRules _ built_shipped Data.wf_tables prefixFree_shipped n f user hcc
  refine ⟨m, hm, h ?_⟩
  have := List.all_eq_true.1 wf_nationalPrefix m (Container.metaFor_mem hm)
  simp only [Bool.not_eq_true', List.any_eq_false] at this
  intro h
  exact this _ h rfl

/-- Without rules, or with none that can be used, the digits are not grouped. -/
theorem C72_none (n : PhoneNumber) (f : Fmt) (hcc : Data.container.hasCC n.cc = true) :
    ∃ m, Data.container.metaFor n.cc (Data.container.mainRegion n.cc) = some m ∧
      formatByPattern Data.container n f [] = leadText f n.cc.toNat ++ nsnOf n ++ extensionText m f (n.extension.getD []) := by
  obtain ⟨m, hm, h⟩ := C72_shipped n f [] hcc
  obtain ⟨body, hb, he⟩ := h (by simp)
  refine ⟨m, hm, ?_⟩
  cases hb with
  | plain => exact he
  | rule hc => cases hc with
    | some k => simp at k

/-- A user-defined rule for ten-digit numbers: `($NP$FG) $2-$3`. -/
def tenDigits : NumberFormat :=
  { pattern := ⟨str!"(\\d{3})(\\d{3})(\\d{4})", re! "(\\d{3})(\\d{3})(\\d{4})"⟩, format := str!"$1 $2-$3", npRule := str!"($NP$FG)" }

example : layoutRuleOk (userRule (str!"1") tenDigits) = true := by decide
example : userNpRule (str!"1") (str!"($NP$FG)") = str!"(1$1)" := by decide
example : formatByPattern Data.container { countryCode := some 1, nationalNumber := some 6502530000 } .national [tenDigits] =
    str!"(1650) 253-0000" := by kernel_rfl

end Verif.Props
