import Verif.Lemmas.ArrayFile
/-!
# Files of prefixes and names

A check of a whole file written with recursors, so that the kernel can run it on the shipped files, and what it says about the loader.
-/
namespace Verif
namespace NameFile

noncomputable section

/-- One byte of a varint. -/
def uvStep {α : Type} (ih : Bytes → Nat → Nat → (Nat → Bytes → Option α) → Option α) (mul acc : Nat) (c : Nat → Bytes → Option α) (b : Nat)
    (t : Bytes) (_ : Option α) : Option α :=
  Bool.rec (ih t (Nat.mul mul 128) (Nat.add acc (Nat.mul (Nat.mod b 128) mul)) c) (c (Nat.add acc (Nat.mul b mul)) t) (Nat.ble b 127)

/-- A varint of at most `k` bytes. -/
def uv {α : Type} (k : Nat) : Bytes → Nat → Nat → (Nat → Bytes → Option α) → Option α :=
  Nat.rec (fun _ _ _ _ => none) (fun _ ih bs mul acc c => List.rec none (uvStep ih mul acc c) bs) k

/-- One byte of the values. -/
def vStep (ih : Nat → Bool → Bytes → Option (Nat × Bool × Bytes)) (c : Nat) (nl : Bool) (b : Nat) (t : Bytes)
    (_ : Option (Nat × Bool × Bytes)) : Option (Nat × Bool × Bytes) :=
  Bool.rec (ih c false t) (Bool.rec (Bool.rec none (ih (Nat.succ c) true t) (Nat.ble c 70000)) none nl) (Nat.beq b 10)

/-- Runs over `n` bytes of the values, counting line ends; no value may be empty.  `nl`: the last byte was a line end or there was none. -/
def skipV (n : Nat) : Nat → Bool → Bytes → Option (Nat × Bool × Bytes) :=
  Nat.rec (fun c nl bs => some (c, nl, bs)) (fun _ ih c nl bs => List.rec none (vStep ih c nl) bs) n

/-- The end of an entry with key `k`: the index of the value, then the other entries. -/
def fin {α : Type} (vals : Nat) (ih : Nat → Bytes → Option α) (k lo hi : Nat) (t : Bytes) (_ : Option α) : Option α :=
  Bool.rec none (ih k t) (Nat.ble (Nat.succ (Nat.add lo (Nat.mul 256 hi))) vals)

def idx {α : Type} (vals : Nat) (ih : Nat → Bytes → Option α) (k lo : Nat) (t : Bytes) (_ : Option α) : Option α :=
  List.rec none (fin vals ih k lo) t

/-- An entry after its key. -/
def ent {α : Type} (vals bound : Nat) (ih : Nat → Bytes → Option α) (k : Nat) (t : Bytes) : Option α :=
  Bool.rec none (List.rec none (idx vals ih k) t) (Nat.ble (Nat.succ k) bound)

/-- An entry whose difference has more than one byte. -/
def far {α : Type} (vals bound : Nat) (ih : Nat → Bytes → Option α) (last d : Nat) (t : Bytes) : Option α :=
  Bool.rec none (ent vals bound ih (Nat.add last d) t) (Nat.ble 1 d)

/-- An entry. -/
def step {α : Type} (vals bound : Nat) (ih : Nat → Bytes → Option α) (last b : Nat) (t : Bytes) (_ : Option α) : Option α :=
  Bool.rec (uv 4 t 128 (Nat.mod b 128) (far vals bound ih last)) (Bool.rec none (ent vals bound ih (Nat.add last b) t) (Nat.ble 1 b))
    (Nat.ble b 127)

/-- Runs over `n` entries: keys strictly increasing and below `bound`.  Gives the last key and the bytes that follow. -/
def seg (vals bound n : Nat) : Nat → Bytes → Option (Nat × Bytes) :=
  Nat.rec (fun last bs => some (last, bs)) (fun _ ih last bs => List.rec none (step vals bound ih last) bs) n

/-- Four bytes, least significant first. -/
def u32 {α : Type} (bs : Bytes) (c : Nat → Bytes → Option α) : Option α :=
  List.rec none (fun a t _ => List.rec none (fun b t _ => List.rec none (fun d t _ => List.rec none (fun e t _ =>
    c (Nat.add a (Nat.mul 256 (Nat.add b (Nat.mul 256 (Nat.add d (Nat.mul 256 e)))))) t) t) t) t) bs

/-- The whole file, with keys below `bound`. -/
def check (bound : Nat) (bs : Bytes) : Option (Nat × Bytes) :=
  u32 bs fun size t => (skipV size 0 true t).bind fun x => Bool.rec (u32 x.2.2 fun n e => seg (Nat.succ x.1) bound n 0 e) none x.2.1

end


theorem bool_rec {α : Type} (b : Bool) (x y : α) : (Bool.rec x y b : α) = if b = true then y else x := by cases b <;> rfl

theorem le_ble {a b : Nat} : Nat.ble a b = true ↔ a ≤ b := by rw [Nat.ble_eq]

theorem uv_spec {α : Type} {c : Nat → Bytes → Option α} {x : α} (k i fuel acc : Nat) (bs : Bytes) (hk : i + k ≤ 9) (hf : k ≤ fuel)
    (h : uv k bs (2 ^ (7 * i)) acc c = some x) : ∃ d t, rdUvarintFrom fuel i acc bs = .ok (d, t) ∧ c d t = some x := by
  induction k generalizing i fuel acc bs with
  | zero => cases bs <;> cases h
  | succ k ih =>
    cases bs with
    | nil => cases h
    | cons b t =>
      obtain ⟨f, rfl⟩ : ∃ f, fuel = f + 1 := ⟨fuel - 1, by omega⟩
      have h : (Bool.rec (uv k t (2 ^ (7 * i) * 128) (acc + b % 128 * 2 ^ (7 * i)) c) (c (acc + b * 2 ^ (7 * i)) t) (Nat.ble b 127) : Option α) = some x := h
      rw [bool_rec] at h
      simp only [rdUvarintFrom]
      by_cases hb : b < 128
      · rw [if_pos (le_ble.2 (by omega))] at h
        rw [if_pos hb, if_neg (by omega)]
        exact ⟨_, _, rfl, h⟩
      · rw [if_neg (fun h' => hb (by have := le_ble.1 h'; omega))] at h
        rw [if_neg hb]
        refine ih (i + 1) f _ t (by omega) (by omega) ?_
        rw [show 7 * (i + 1) = 7 * i + 7 by omega, Nat.pow_add]
        exact h

/-- No value in these bytes is empty: the state after the bytes, if so. -/
def pieceSt : Bool → Bytes → Option Bool
  | nl, [] => some nl
  | nl, b :: t => if b = 10 then (if nl then none else pieceSt true t) else pieceSt false t

theorem skipV_spec {n c c' : Nat} {nl nl' : Bool} {b r : Bytes} (h : skipV n c nl b = some (c', nl', r)) :
    ∃ vb, b = vb ++ r ∧ vb.length = n ∧ c' = c + vb.count 10 ∧ pieceSt nl vb = some nl' := by
  induction n generalizing c nl b with
  | zero => cases h; exact ⟨[], rfl, rfl, by simp, rfl⟩
  | succ n ih =>
    cases b with
    | nil => cases h
    | cons x t =>
      replace h : (Bool.rec (skipV n c false t) (Bool.rec (Bool.rec none (skipV n (c + 1) true t) (Nat.ble c 70000)) none nl) (Nat.beq x 10) :
        Option (Nat × Bool × Bytes)) = some (c', nl', r) := h
      simp only [bool_rec] at h
      split at h
      · rename_i hx
        have hx := Nat.eq_of_beq_eq_true hx
        subst hx
        split at h
        · cases h
        · rename_i hnl
          split at h
          · obtain ⟨vb, h1, h2, h3, h4⟩ := ih h
            exact ⟨10 :: vb, by simp [h1], by simp [h2], by rw [List.count_cons_self]; omega, by simp [pieceSt, hnl, h4]⟩
          · cases h
      · rename_i hx
        have hx : x ≠ 10 := fun e => hx (by rw [e]; rfl)
        obtain ⟨vb, h1, h2, h3, h4⟩ := ih h
        exact ⟨x :: vb, by simp [h1], by simp [h2], by rw [List.count_cons_of_ne hx]; omega, by simp [pieceSt, hx, h4]⟩

theorem pieceSt_split {nl : Bool} {vb : Bytes} (h : pieceSt nl vb = some false) :
    ∃ v vs, splitNL vb = v :: vs ∧ (∀ w ∈ vs, w ≠ []) ∧ (nl = true → v ≠ []) := by
  induction vb generalizing nl with
  | nil => cases h; exact ⟨[], [], rfl, by simp, by simp⟩
  | cons x t ih =>
    simp only [pieceSt] at h
    simp only [splitNL]
    split at h
    · rename_i hx
      rw [if_pos hx]
      split at h
      · cases h
      · rename_i hnl
        obtain ⟨v, vs, e, h1, h2⟩ := ih h
        refine ⟨[], splitNL t, rfl, ?_, fun h => absurd h hnl⟩
        rw [e]
        intro w hw
        rcases List.mem_cons.1 hw with rfl | hw
        · exact h2 rfl
        · exact h1 w hw
    · rename_i hx
      rw [if_neg hx]
      obtain ⟨v, vs, e, h1, -⟩ := ih h
      rw [e]
      exact ⟨x :: v, vs, rfl, h1, by simp⟩

/-- Splitting a run over the values. -/
theorem skipV_add (m n c : Nat) (nl : Bool) (b : Bytes) :
    skipV (m + n) c nl b = (skipV m c nl b).bind fun x => skipV n x.1 x.2.1 x.2.2 := by
  induction m generalizing c nl b with
  | zero => rw [Nat.zero_add]; rfl
  | succ m ih =>
    rw [show m + 1 + n = (m + n) + 1 by omega]
    cases b with
    | nil => rfl
    | cons x t =>
      show (Bool.rec (skipV (m + n) c false t) (Bool.rec (Bool.rec none (skipV (m + n) (c + 1) true t) (Nat.ble c 70000)) none nl) (Nat.beq x 10) :
        Option (Nat × Bool × Bytes)) = (Bool.rec (skipV m c false t) (Bool.rec (Bool.rec none (skipV m (c + 1) true t) (Nat.ble c 70000)) none nl)
          (Nat.beq x 10) : Option (Nat × Bool × Bytes)).bind _
      rw [ih, ih]
      cases Nat.beq x 10 <;> cases nl <;> cases Nat.ble c 70000 <;> rfl

/-- What the loop over the entries has read. -/
structure ReadNames (values : List Bytes) (bound last : Nat) (ps : List (Int × Bytes)) : Prop where
  increasing : (ps.map (·.1)).Pairwise (fun a b => a < b)
  range : ∀ e ∈ ps, (last : Int) < e.1 ∧ e.1 < bound
  known : ∀ e ∈ ps, e.2 ∈ values

theorem ent_spec {α : Type} {vals bound k : Nat} {ih : Nat → Bytes → Option α} {t : Bytes} {x : α} (h : ent vals bound ih k t = some x) :
    k < bound ∧ ∃ lo hi r, t = lo :: hi :: r ∧ lo + 256 * hi < vals ∧ ih k r = some x := by
  unfold ent at h
  rw [bool_rec] at h
  split at h
  · rename_i hk
    refine ⟨le_ble.1 hk, ?_⟩
    match t, h with
    | lo :: hi :: r, h =>
      have h : (Bool.rec none (ih k r) (Nat.ble (Nat.succ (lo + 256 * hi)) vals) : Option α) = some x := h
      rw [bool_rec] at h
      split at h
      · rename_i hl
        exact ⟨lo, hi, r, rfl, le_ble.1 hl, h⟩
      · cases h
    | [lo], h => cases h
    | [], h => cases h
  · cases h

theorem step_spec {α : Type} {vals bound last : Nat} {ih : Nat → Bytes → Option α} {bs : Bytes} {x : α}
    (h : (List.rec none (step vals bound ih last) bs : Option α) = some x) :
    ∃ d lo hi r, rdUvarint bs = .ok (d, lo :: hi :: r) ∧ 0 < d ∧ last + d < bound ∧ lo + 256 * hi < vals ∧ ih (last + d) r = some x := by
  cases bs with
  | nil => cases h
  | cons b t =>
    have h : step vals bound ih last b t (List.rec none (step vals bound ih last) t) = some x := h
    unfold step at h
    rw [bool_rec] at h
    split at h
    · rename_i hb
      rw [bool_rec] at h
      split at h
      · rename_i h1
        obtain ⟨k1, lo, hi, r, rfl, k2, k3⟩ := ent_spec h
        refine ⟨b, lo, hi, r, ?_, le_ble.1 h1, k1, k2, k3⟩
        have := le_ble.1 hb
        simp only [rdUvarint, rdUvarintFrom]
        rw [if_pos (by omega), if_neg (by omega)]
        simp
      · cases h
    · rename_i hb
      have hb : ¬ b < 128 := fun h' => hb (le_ble.2 (by omega))
      obtain ⟨d, t', h1, h2⟩ := uv_spec 4 1 9 _ t (by omega) (by omega) h
      unfold far at h2
      rw [bool_rec] at h2
      split at h2
      · rename_i hd
        obtain ⟨k1, lo, hi, r, rfl, k2, k3⟩ := ent_spec h2
        refine ⟨d, lo, hi, r, ?_, le_ble.1 hd, k1, k2, k3⟩
        simp only [rdUvarint]
        rw [rdUvarintFrom]
        simp only [hb, if_false, Nat.mul_zero, Nat.pow_zero, Nat.mul_one, Nat.zero_add]
        exact h1
      · cases h2

theorem seg_spec (dc : Int → Nat) {values : List Bytes} {bound n last last' : Nat} {b r : Bytes} (hb : bound ≤ 2 ^ 63) (acc : Loaded Bytes)
    (h : seg values.length bound n last b = some (last', r)) :
    ∃ ps, loadEntries dc (rdIntern values) n last acc b =
        .ok (⟨ps.reverse ++ acc.map, (ps.map fun e => dc e.1).foldl max acc.maxLength⟩, r) ∧ ReadNames values bound last ps ∧ ps.length = n := by
  induction n generalizing last b acc with
  | zero => cases h; exact ⟨[], by simp [loadEntries], ⟨by simp, by simp, by simp⟩, rfl⟩
  | succ n ih =>
    have h : (List.rec none (step values.length bound (seg values.length bound n) last) b : Option (Nat × Bytes)) = some (last', r) := h
    obtain ⟨d, lo, hi, t, hu, h0, h1, h2, h3⟩ := step_spec h
    have hkey : wrap64 ((last : Int) + wrap64 (d : Int)) = ((last + d : Nat) : Int) := by
      rw [wrap64_small (x := (d : Int)) (by omega) (by omega), wrap64_small (by omega) (by omega)]; omega
    have hi' : rdIntern values (lo :: hi :: t) = .ok (values[lo + 256 * hi], t) := by
      simp only [rdIntern, rdLE_two]
      rw [List.getElem?_eq_getElem h2]
    obtain ⟨ps, h5, h6, h7⟩ := ih ⟨mapSet acc.map ((last + d : Nat) : Int) values[lo + 256 * hi], max acc.maxLength (dc ((last + d : Nat) : Int))⟩ h3
    refine ⟨(((last + d : Nat) : Int), values[lo + 256 * hi]) :: ps, ?_, ⟨?_, ?_, ?_⟩, by simp [h7]⟩
    · simp only [loadEntries, hu, bind, Except.bind, hkey, hi']
      rw [h5]
      simp [mapSet]
    · rw [List.map_cons, List.pairwise_cons]
      refine ⟨?_, h6.increasing⟩
      intro k hk
      obtain ⟨e, he, rfl⟩ := List.mem_map.1 hk
      exact (h6.range e he).1
    · intro e he
      rcases List.mem_cons.1 he with rfl | he
      · simp only; omega
      · have := h6.range e he; omega
    · intro e he
      rcases List.mem_cons.1 he with rfl | he
      · exact List.getElem_mem _
      · exact h6.known e he

/-- Splitting a run over the entries. -/
theorem seg_add (vals bound m n last : Nat) (b : Bytes) : seg vals bound (m + n) last b = (seg vals bound m last b).bind fun x => seg vals bound n x.1 x.2 := by
  have key : ∀ (ih : Nat → Bytes → Option (Nat × Bytes)) (K : Nat × Bytes → Option (Nat × Bytes)),
      (∀ k t, ent vals bound (fun l r => (ih l r).bind K) k t = (ent vals bound ih k t).bind K) := by
    intro ih K k t
    unfold ent
    cases Nat.ble (Nat.succ k) bound with
    | false => rfl
    | true =>
      match t with
      | [] => rfl
      | [lo] => rfl
      | lo :: hi :: r =>
        show (Bool.rec none ((ih k r).bind K) (Nat.ble (Nat.succ (lo + 256 * hi)) vals) : Option (Nat × Bytes)) =
          (Bool.rec none (ih k r) (Nat.ble (Nat.succ (lo + 256 * hi)) vals) : Option (Nat × Bytes)).bind K
        cases Nat.ble (Nat.succ (lo + 256 * hi)) vals <;> rfl
  have hfar : ∀ (ih : Nat → Bytes → Option (Nat × Bytes)) (K : Nat × Bytes → Option (Nat × Bytes)) (last : Nat),
      far vals bound (fun l r => (ih l r).bind K) last = fun d t => (far vals bound ih last d t).bind K := by
    intro ih K last
    funext d t
    unfold far
    rw [key]
    cases Nat.ble 1 d <;> rfl
  have huv : ∀ (c : Nat → Bytes → Option (Nat × Bytes)) (K : Nat × Bytes → Option (Nat × Bytes)) (k : Nat) (bs : Bytes) (mul acc : Nat),
      uv k bs mul acc (fun d t => (c d t).bind K) = (uv k bs mul acc c).bind K := by
    intro c K k
    induction k with
    | zero => intros; rfl
    | succ k ih =>
      intro bs mul acc
      cases bs with
      | nil => rfl
      | cons b t =>
        show (Bool.rec (uv k t (mul * 128) (acc + b % 128 * mul) fun d t => (c d t).bind K) ((c (acc + b * mul) t).bind K) (Nat.ble b 127) : Option (Nat × Bytes)) =
          (Bool.rec (uv k t (mul * 128) (acc + b % 128 * mul) c) (c (acc + b * mul) t) (Nat.ble b 127) : Option (Nat × Bytes)).bind K
        rw [ih]
        cases Nat.ble b 127 <;> rfl
  induction m generalizing last b with
  | zero => rw [Nat.zero_add]; rfl
  | succ m ih =>
    rw [show m + 1 + n = (m + n) + 1 by omega]
    cases b with
    | nil => rfl
    | cons x t =>
      have e : seg vals bound (m + n) = fun l r => (seg vals bound m l r).bind fun x => seg vals bound n x.1 x.2 := by funext l r; exact ih l r
      show (Bool.rec (uv 4 t 128 (x % 128) (far vals bound (seg vals bound (m + n)) last))
          (Bool.rec none (ent vals bound (seg vals bound (m + n)) (last + x) t) (Nat.ble 1 x)) (Nat.ble x 127) : Option (Nat × Bytes)) =
        (Bool.rec (uv 4 t 128 (x % 128) (far vals bound (seg vals bound m) last))
          (Bool.rec none (ent vals bound (seg vals bound m) (last + x) t) (Nat.ble 1 x)) (Nat.ble x 127) : Option (Nat × Bytes)).bind _
      rw [e, key, hfar, huv]
      cases Nat.ble x 127 <;> cases Nat.ble 1 x <;> rfl

theorem u32_spec {α : Type} {bs : Bytes} {c : Nat → Bytes → Option α} {x : α} (h : u32 bs c = some x) :
    ∃ n t, rdLE 4 bs = .ok (n, t) ∧ c n t = some x := by
  match bs, h with
  | a :: b :: d :: e :: t, h =>
    refine ⟨_, t, rdLE_four a b d e t, ?_⟩
    have h : c (a + 256 * (b + 256 * (d + 256 * e))) t = some x := h
    rw [← h]
    simp [unle]
  | [], h => cases h
  | [_], h => cases h
  | [_, _], h => cases h
  | [_, _, _], h => cases h

/-- A file that passes the check is loaded: its keys are different and below the bound, and no name is empty. -/
theorem check_spec (dc : Int → Nat) {bound : Nat} {raw : Bytes} (hb : bound ≤ 2 ^ 63) (h : (check bound raw).isSome = true) :
    ∃ M, loadPrefixMap dc raw = .ok M ∧ (M.map.map (·.1)).Nodup ∧ ∀ e ∈ M.map, 0 < e.1 ∧ e.1 < bound ∧ e.2 ≠ [] := by
  obtain ⟨x, h⟩ := Option.isSome_iff_exists.1 h
  obtain ⟨size, t, h1, h⟩ := u32_spec h
  cases hs : skipV size 0 true t with
  | none => rw [hs] at h; cases h
  | some y =>
    obtain ⟨c, nl, t2⟩ := y
    rw [hs] at h
    simp only [Option.bind_some] at h
    cases nl with
    | true => cases h
    | false =>
      have h : u32 t2 (fun n e => seg (c + 1) bound n 0 e) = some x := h
      obtain ⟨n, e, h2, h3⟩ := u32_spec h
      obtain ⟨vb, k1, k2, k3, k4⟩ := skipV_spec hs
      have hlen : c + 1 = (splitNL vb).length := by rw [splitNL_length]; omega
      rw [hlen] at h3
      obtain ⟨last, r⟩ := x
      obtain ⟨ps, h5, h6, -⟩ := seg_spec dc hb ⟨[], 0⟩ h3
      have hrd : rdBytes size t = .ok (vb, t2) := by rw [← k2, k1]; simp [rdBytes]
      have hne : ∀ v ∈ splitNL vb, v ≠ [] := by
        obtain ⟨v, vs, e, p1, p2⟩ := pieceSt_split k4
        rw [e]
        intro w hw
        rcases List.mem_cons.1 hw with rfl | hw
        · exact p2 rfl
        · exact p1 w hw
      refine ⟨⟨ps.reverse, (ps.map fun e => dc e.1).foldl max 0⟩, ?_, ?_, ?_⟩
      · simp only [loadPrefixMap, loadWith, h1, bind, Except.bind, hrd, h2, pure, Except.pure]
        simp only [Int.natCast_zero] at h5
        rw [h5]
        simp
      · rw [List.map_reverse]
        exact (List.reverse_perm _).nodup_iff.2 (h6.increasing.imp (fun h he => by omega))
      · intro e he
        have he : e ∈ ps := by simpa using he
        have := h6.range e he
        exact ⟨by omega, by omega, hne _ (h6.known e he)⟩

/-! ## Files checked in parts -/

theorem skipV_trans {m n N c c1 : Nat} {nl nl1 : Bool} {b b1 : Bytes} {y : Nat × Bool × Bytes} (h : skipV m c nl b = some (c1, nl1, b1))
    (h' : skipV n c1 nl1 b1 = some y) (e : m + n = N) : skipV N c nl b = some y := by
  rw [← e, skipV_add, h]; exact h'

theorem seg_trans {vals bound m n N last last1 : Nat} {b b1 : Bytes} {y : Nat × Bytes} (h : seg vals bound m last b = some (last1, b1))
    (h' : seg vals bound n last1 b1 = some y) (e : m + n = N) : seg vals bound N last b = some y := by
  rw [← e, seg_add, h]; exact h'

theorem u32_of {α : Type} {bs : Bytes} {n : Nat} {t : Bytes} (h : u32 bs (fun n t => some (n, t)) = some (n, t)) (c : Nat → Bytes → Option α) :
    u32 bs c = c n t := by
  match bs, h with
  | a :: b :: d :: e :: t', h =>
    have h : some (a + 256 * (b + 256 * (d + 256 * e)), t') = some (n, t) := h
    cases h
    rfl
  | [], h => cases h
  | [_], h => cases h
  | [_, _], h => cases h
  | [_, _, _], h => cases h

theorem check_parts {bound size c vals n : Nat} {raw t t2 e : Bytes} {y : Nat × Bytes} (h1 : u32 raw (fun n t => some (n, t)) = some (size, t))
    (h2 : skipV size 0 true t = some (c, false, t2)) (h3 : u32 t2 (fun n t => some (n, t)) = some (n, e)) (h4 : seg vals bound n 0 e = some y)
    (hv : c + 1 = vals) :
    (check bound raw).isSome = true := by
  subst hv
  unfold check
  rw [u32_of h1, h2]
  show (u32 t2 fun n e => seg (c + 1) bound n 0 e).isSome = true
  rw [u32_of h3, h4]
  rfl

end NameFile
end Verif
