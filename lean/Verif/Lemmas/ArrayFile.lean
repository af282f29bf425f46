import Verif.Lemmas.Serialize
/-!
# Checking a concrete file without evaluating the loader's accumulators

`walkFile` runs over a file of `LoadIntArrayMap` once and checks what the theorems on the shipped time zone file need.
-/
namespace Verif

/-- Runs over `n` value indexes, all below `vals`. -/
def walkIdx (vals : Nat) : Nat → Bytes → Option Bytes
  | 0, b => some b
  | n + 1, lo :: hi :: b => match Nat.blt (lo + 256 * hi) vals with
    | true => walkIdx vals n b
    | false => none
  | _ + 1, _ => none

/-- Runs over `n` entries: keys strictly increasing and below `bound`, at least one value each, last key above `low`. -/
def walk (vals bound low : Nat) : Nat → Nat → Bytes → Bool
  | 0, last, _ => Nat.blt low last
  | n + 1, last, b => match rdUvarint b with
    | .error _ => false
    | .ok (d, b) => match Nat.blt 0 d, Nat.blt (last + d) bound, b with
      | true, true, c :: b => match Nat.blt 0 c with
        | true => match walkIdx vals c b with
          | some b => walk vals bound low n (last + d) b
          | none => false
        | false => false
      | _, _, _ => false

/-- Skips `k` bytes, counting newlines. -/
def skipNL : Nat → Nat → Bytes → Option (Nat × Bytes)
  | 0, c, b => some (c, b)
  | _ + 1, _, [] => none
  | k + 1, c, x :: b => match Nat.beq x 10 with
    | true => skipNL k (c + 1) b
    | false => skipNL k c b

/-- The whole file. -/
def walkFile (bound low : Nat) : Bytes → Bool
  | s0 :: s1 :: s2 :: s3 :: b => match skipNL (unle [s0, s1, s2, s3]) 0 b with
    | some (c, k0 :: k1 :: k2 :: k3 :: b) => walk (c + 1) bound low (unle [k0, k1, k2, k3]) 0 b
    | _ => false
  | _ => false

theorem splitNL_length (s : Bytes) : (splitNL s).length = s.count 10 + 1 := by
  induction s with
  | nil => simp [splitNL]
  | cons a t ih =>
    simp only [splitNL]
    by_cases ha : a = 10
    · simp [ha, ih]
    · rw [if_neg ha, List.count_cons_of_ne (by simpa using ha)]
      cases h : splitNL t with
      | nil => exact absurd h (splitNL_ne t)
      | cons v vs => rw [h] at ih; simpa using ih

theorem skipNL_spec {k c c' : Nat} {b r : Bytes} (h : skipNL k c b = some (c', r)) :
    ∃ vb, b = vb ++ r ∧ vb.length = k ∧ c' = c + vb.count 10 := by
  induction k generalizing c b with
  | zero => simp [skipNL] at h; exact ⟨[], by simp [h.2], rfl, by simp [h.1]⟩
  | succ k ih =>
    cases b with
    | nil => simp [skipNL] at h
    | cons x b =>
      simp only [skipNL] at h
      cases hx : Nat.beq x 10 with
      | true =>
        rw [hx] at h
        obtain ⟨vb, h1, h2, h3⟩ := ih h
        have hx := Nat.eq_of_beq_eq_true hx
        subst hx
        exact ⟨10 :: vb, by simp [h1], by simp [h2], by rw [List.count_cons_self]; omega⟩
      | false =>
        rw [hx] at h
        obtain ⟨vb, h1, h2, h3⟩ := ih h
        have hx := Nat.ne_of_beq_eq_false hx
        exact ⟨x :: vb, by simp [h1], by simp [h2], by rw [List.count_cons_of_ne hx]; omega⟩

theorem rdLE_one (c : Nat) (b : Bytes) : rdLE 1 (c :: b) = .ok (c, b) := by simp [rdLE, unle]

theorem rdLE_two (lo hi : Nat) (b : Bytes) : rdLE 2 (lo :: hi :: b) = .ok (lo + 256 * hi, b) := by
  simp [rdLE, unle]

theorem rdLE_four (a b c d : Nat) (r : Bytes) : rdLE 4 (a :: b :: c :: d :: r) = .ok (unle [a, b, c, d], r) := by
  simp [rdLE]

theorem walkIdx_spec {values : List Bytes} {n : Nat} {b r : Bytes} (h : walkIdx values.length n b = some r) :
    ∃ vs, rdInterns values n b = .ok (vs, r) ∧ vs.length = n ∧ ∀ v ∈ vs, v ∈ values := by
  induction n generalizing b with
  | zero => simp [walkIdx] at h; exact ⟨[], by simp [rdInterns, h], rfl, by simp⟩
  | succ n ih =>
    match b, h with
    | lo :: hi :: b, h =>
      simp only [walkIdx] at h
      cases hl : Nat.blt (lo + 256 * hi) values.length with
      | false => rw [hl] at h; cases h
      | true =>
        rw [hl] at h
        obtain ⟨vs, h1, h2, h3⟩ := ih h
        have hlt : lo + 256 * hi < values.length := by simpa using hl
        have hi : rdIntern values (lo :: hi :: b) = .ok (values[lo + 256 * hi], b) := by
          simp only [rdIntern, rdLE_two]
          rw [List.getElem?_eq_getElem hlt]
        refine ⟨values[lo + 256 * _] :: vs, ?_, by simp [h2], ?_⟩
        · simp only [rdInterns, hi, bind, Except.bind, h1, pure, Except.pure]
        · intro v hv
          rcases List.mem_cons.1 hv with rfl | hv
          · exact List.getElem_mem _
          · exact h3 v hv

/-- What the loop over the entries has read. -/
structure ReadEntries (values : List Bytes) (bound low last : Nat) (ps : List (Int × List Bytes)) : Prop where
  increasing : (ps.map (·.1)).Pairwise (fun a b => a < b)
  range : ∀ e ∈ ps, (last : Int) < e.1 ∧ e.1 < bound
  nonEmpty : ∀ e ∈ ps, e.2 ≠ []
  known : ∀ e ∈ ps, ∀ v ∈ e.2, v ∈ values
  high : low < last ∨ ∃ e ∈ ps, (low : Int) < e.1

theorem wrap64_small {x : Int} (h0 : 0 ≤ x) (h1 : x < 2 ^ 63) : wrap64 x = x := by
  unfold wrap64; omega

theorem walk_spec (dc : Int → Nat) {values : List Bytes} {bound low n last : Nat} {b : Bytes} (hb : bound ≤ 2 ^ 63) (acc : Loaded (List Bytes))
    (h : walk values.length bound low n last b = true) :
    ∃ ps r, loadEntries dc (rdInternList values) n last acc b =
        .ok (⟨ps.reverse ++ acc.map, (ps.map fun e => dc e.1).foldl max acc.maxLength⟩, r) ∧
      ReadEntries values bound low last ps := by
  induction n generalizing last b acc with
  | zero =>
    simp only [walk] at h
    exact ⟨[], b, by simp [loadEntries], by simp, by simp, by simp, by simp, .inl (by simpa using h)⟩
  | succ n ih =>
    simp only [walk] at h
    cases hu : rdUvarint b with
    | error e => rw [hu] at h; cases h
    | ok y =>
      obtain ⟨d, b1⟩ := y
      rw [hu] at h
      simp only at h
      cases h0 : Nat.blt 0 d with
      | false => rw [h0] at h; cases h
      | true =>
      cases h1 : Nat.blt (last + d) bound with
      | false => rw [h0, h1] at h; cases h
      | true =>
      rw [h0, h1] at h
      cases b1 with
      | nil => cases h
      | cons c b2 =>
        simp only at h
        cases hc : Nat.blt 0 c with
        | false => rw [hc] at h; cases h
        | true =>
        rw [hc] at h
        simp only at h
        cases hw : walkIdx values.length c b2 with
        | none => rw [hw] at h; cases h
        | some b3 =>
          rw [hw] at h
          simp only at h
          obtain ⟨vs, h2, h3, h4⟩ := walkIdx_spec hw
          have h0 : 0 < d := by simpa using h0
          have h1 : last + d < bound := by simpa using h1
          have hc : 0 < c := by simpa using hc
          have hkey : wrap64 ((last : Int) + wrap64 (d : Int)) = ((last + d : Nat) : Int) := by
            rw [wrap64_small (x := (d : Int)) (by omega) (by omega), wrap64_small (by omega) (by omega)]; omega
          obtain ⟨ps, r, h5, h6⟩ := ih ⟨mapSet acc.map ((last + d : Nat) : Int) vs, max acc.maxLength (dc ((last + d : Nat) : Int))⟩ h
          refine ⟨(((last + d : Nat) : Int), vs) :: ps, r, ?_, ?_⟩
          · simp only [loadEntries, hu, bind, Except.bind, hkey, rdInternList, rdLE_one, h2]
            rw [h5]
            simp [mapSet]
          · refine ⟨?_, ?_, ?_, ?_, ?_⟩
            · rw [List.map_cons, List.pairwise_cons]
              refine ⟨?_, h6.increasing⟩
              intro k hk
              obtain ⟨e, he, rfl⟩ := List.mem_map.1 hk
              exact (h6.range e he).1
            · intro e he
              rcases List.mem_cons.1 he with rfl | he
              · simp only; omega
              · have := h6.range e he; omega
            · intro e he
              rcases List.mem_cons.1 he with rfl | he
              · intro hn; simp only at hn; rw [hn] at h3; simp at h3; omega
              · exact h6.nonEmpty e he
            · intro e he
              rcases List.mem_cons.1 he with rfl | he
              · exact h4
              · exact h6.known e he
            · rcases h6.high with h7 | ⟨e, he, h7⟩
              · exact .inr ⟨_, List.mem_cons_self, by simp only; omega⟩
              · exact .inr ⟨e, List.mem_cons_of_mem _ he, h7⟩

theorem walkFile_spec (dc : Int → Nat) {bound low : Nat} {raw : Bytes} (hb : bound ≤ 2 ^ 63) (h : walkFile bound low raw = true) :
    ∃ ps values, loadIntArrayMap dc raw = .ok ⟨ps.reverse, (ps.map fun e => dc e.1).foldl max 0⟩ ∧ ReadEntries values bound low 0 ps := by
  match raw, h with
  | s0 :: s1 :: s2 :: s3 :: b, h =>
    simp only [walkFile] at h
    cases hs : skipNL (unle [s0, s1, s2, s3]) 0 b with
    | none => rw [hs] at h; cases h
    | some y =>
      obtain ⟨c, b1⟩ := y
      rw [hs] at h
      match b1, hs, h with
      | k0 :: k1 :: k2 :: k3 :: b2, hs, h =>
        simp only at h
        obtain ⟨vb, h1, h2, h3⟩ := skipNL_spec hs
        have hlen : c + 1 = (splitNL vb).length := by rw [splitNL_length]; omega
        rw [hlen] at h
        obtain ⟨ps, r, h5, h6⟩ := walk_spec dc hb ⟨[], 0⟩ h
        refine ⟨ps, splitNL vb, ?_, h6⟩
        have hrd : rdBytes (unle [s0, s1, s2, s3]) b = .ok (vb, k0 :: k1 :: k2 :: k3 :: b2) := by
          rw [← h2, h1]; simp [rdBytes]
        simp only [loadIntArrayMap, loadWith, rdLE_four, bind, Except.bind, hrd, pure, Except.pure]
        simp only [Int.natCast_zero] at h5
        rw [h5]
        simp

end Verif
