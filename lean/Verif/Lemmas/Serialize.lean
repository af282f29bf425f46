import Verif.Model.Serialize
/-!
# Lemmas on the binary prefix maps
-/
namespace Verif

theorem le_length (k x : Nat) : (le k x).length = k := by
  induction k generalizing x with
  | zero => rfl
  | succ k ih => simp [le, ih]

theorem unle_le (k x : Nat) : unle (le k x) = x % 256 ^ k := by
  induction k generalizing x with
  | zero => simp [le, unle, Nat.mod_one]
  | succ k ih =>
    simp only [le, unle, ih]
    rw [Nat.pow_succ, Nat.mul_comm (256 ^ k), Nat.mod_mul]

theorem rdLE_le {k x : Nat} (h : x < 256 ^ k) (b : Bytes) : rdLE k (le k x ++ b) = .ok (x, b) := by
  unfold rdLE
  have h1 : (le k x ++ b).take k = le k x := by rw [List.take_append_of_le_length (by simp [le_length]), List.take_of_length_le (by simp [le_length])]
  have h2 : (le k x ++ b).drop k = b := by rw [List.drop_append_of_le_length (by simp [le_length]), List.drop_of_length_le (by simp [le_length])]; rfl
  rw [if_neg (by simp [le_length]), h1, h2, unle_le, Nat.mod_eq_of_lt h]

theorem rdBytes_append (v b : Bytes) : rdBytes v.length (v ++ b) = .ok (v, b) := by
  unfold rdBytes
  rw [if_neg (by simp)]
  simp

theorem uvarint_length_le {x k : Nat} (h : x < 128 ^ (k + 1)) : (uvarint x).length ≤ k + 1 := by
  induction k generalizing x with
  | zero =>
    unfold uvarint
    rw [if_pos (by simpa using h)]; simp
  | succ k ih =>
    unfold uvarint
    split
    · simp
    · simp only [List.length_cons]
      have : x / 128 < 128 ^ (k + 1) := by rw [Nat.div_lt_iff_lt_mul (by omega)]; rw [Nat.pow_succ] at h; exact h
      have := ih this
      omega

theorem uvarint_length_gt {x k : Nat} (h : 128 ^ k ≤ x) : k < (uvarint x).length := by
  induction k generalizing x with
  | zero => unfold uvarint; split <;> simp
  | succ k ih =>
    unfold uvarint
    have hk : 0 < 128 ^ k := Nat.pow_pos (by omega)
    rw [Nat.pow_succ] at h
    rw [if_neg (by omega)]
    simp only [List.length_cons]
    have := ih (x := x / 128) (by rw [Nat.le_div_iff_mul_le (by omega)]; exact h)
    omega

theorem putUvarint6_ok {x : Nat} (h : x < 2 ^ 42) : putUvarint6 x = .ok (uvarint x) := by
  unfold putUvarint6
  rw [if_pos]
  exact uvarint_length_le (k := 5) (by simpa using h)

theorem putUvarint6_panic {x : Nat} (h : 2 ^ 42 ≤ x) : putUvarint6 x = .error .index := by
  unfold putUvarint6
  rw [if_neg]
  have := uvarint_length_gt (x := x) (k := 6) (by simpa using h)
  omega

theorem rdUvarintFrom_uvarint (b : Bytes) : ∀ (x fuel i acc : Nat), (uvarint x).length ≤ fuel → i + (uvarint x).length ≤ 9 →
    rdUvarintFrom fuel i acc (uvarint x ++ b) = .ok (acc + x * 2 ^ (7 * i), b) := by
  intro x
  induction x using Nat.strongRecOn with
  | ind x ih =>
    intro fuel i acc h1 h2
    unfold uvarint at h1 h2 ⊢
    split at h1
    · rename_i hx
      rw [if_pos hx] at h2 ⊢
      cases fuel with
      | zero => simp at h1
      | succ fuel =>
        simp only [List.cons_append, List.nil_append, rdUvarintFrom, hx, if_true]
        simp only [List.length_cons, List.length_nil] at h2
        rw [if_neg (by omega)]
    · rename_i hx
      rw [if_neg hx] at h2 ⊢
      cases fuel with
      | zero => simp at h1
      | succ fuel =>
        simp only [List.length_cons] at h1 h2
        simp only [List.cons_append, rdUvarintFrom]
        rw [if_neg (by omega), ih (x / 128) (by omega) fuel (i + 1) _ (by omega) (by omega)]
        have h3 : (x % 128 + 128) % 128 = x % 128 := by omega
        have h4 : 2 ^ (7 * (i + 1)) = 128 * 2 ^ (7 * i) := by
          rw [show 7 * (i + 1) = 7 + 7 * i by omega, Nat.pow_add]
        have h5 : x % 128 * 2 ^ (7 * i) + x / 128 * (128 * 2 ^ (7 * i)) = x * 2 ^ (7 * i) := by
          rw [← Nat.mul_assoc, ← Nat.add_mul]
          congr 1; omega
        rw [h3, h4, Nat.add_assoc, h5]

theorem rdUvarint_uvarint {x : Nat} (h : x < 2 ^ 42) (b : Bytes) : rdUvarint (uvarint x ++ b) = .ok (x, b) := by
  have h1 := uvarint_length_le (x := x) (k := 5) (by simpa using h)
  unfold rdUvarint
  rw [rdUvarintFrom_uvarint b x 10 0 0 (by omega) (by omega)]
  simp

theorem splitNL_ne (s : Bytes) : splitNL s ≠ [] := by
  cases s with
  | nil => simp [splitNL]
  | cons a t => simp only [splitNL]; split <;> (try split) <;> simp

theorem splitNL_of_not_mem {v : Bytes} (h : 10 ∉ v) : splitNL v = [v] := by
  induction v with
  | nil => rfl
  | cons a v ih =>
    simp only [List.mem_cons, not_or] at h
    simp only [splitNL, ih h.2]
    rw [if_neg (fun hh => h.1 hh.symm)]

theorem splitNL_append {v : Bytes} (h : 10 ∉ v) (t : Bytes) : splitNL (v ++ 10 :: t) = v :: splitNL t := by
  induction v with
  | nil => simp [splitNL]
  | cons a v ih =>
    simp only [List.mem_cons, not_or] at h
    simp only [List.cons_append, splitNL, ih h.2]
    rw [if_neg (fun hh => h.1 hh.symm)]

theorem splitNL_joinNL {vs : List Bytes} (h : ∀ v ∈ vs, 10 ∉ v) (hne : vs ≠ []) : splitNL (joinNL vs) = vs := by
  induction vs with
  | nil => exact absurd rfl hne
  | cons v vs ih =>
    cases vs with
    | nil => simpa [joinNL] using splitNL_of_not_mem (h v (by simp))
    | cons w ws =>
      rw [joinNL, splitNL_append (h v (by simp)), ih (fun x hx => h x (by simp [hx])) (by simp)]
      simp

theorem internOf_get {values : List Bytes} {v : Bytes} (h : v ∈ values) : values[internOf values v]? = some v := by
  unfold internOf
  cases hf : values.findIdx? (· == v) with
  | none =>
    rw [List.findIdx?_eq_none_iff] at hf
    have := hf v h
    simp at this
  | some i =>
    rw [List.findIdx?_eq_some_iff_getElem] at hf
    obtain ⟨h1, h2, -⟩ := hf
    simp only []
    rw [List.getElem?_eq_getElem h1]
    simp only [beq_iff_eq] at h2
    rw [h2]

theorem internOf_lt {values : List Bytes} {v : Bytes} (h : v ∈ values) : internOf values v < values.length := by
  have := internOf_get h
  rw [List.getElem?_eq_some_iff] at this
  exact this.1

theorem joinNL_length_le (vs : List Bytes) : (joinNL vs).length ≤ (vs.map (fun v => v.length + 1)).sum := by
  induction vs with
  | nil => simp [joinNL]
  | cons v vs ih =>
    cases vs with
    | nil => simp [joinNL]
    | cons w ws =>
      simp only [joinNL, List.length_append, List.length_cons, List.map_cons, List.sum_cons] at ih ⊢
      omega

/-! ## Entries -/

/-- `rv` reads back what `wr` writes for `v`. -/
def Reads {ν : Type} (rv : Rd ν) (wr : ν → Bytes) (v : ν) : Prop := ∀ b, rv (wr v ++ b) = .ok (v, b)

theorem mapGet_mem' {κ ν : Type} [DecidableEq κ] {m : List (κ × ν)} {k : κ} {v : ν} (h : mapGet m k = some v) : (k, v) ∈ m := by
  induction m with
  | nil => simp [mapGet] at h
  | cons e m ih =>
    obtain ⟨k', v'⟩ := e
    simp only [mapGet] at h
    split at h
    · rename_i hk; subst hk; cases h; simp
    · exact List.mem_cons_of_mem _ (ih h)

theorem mapGet_some_of_mem {κ ν : Type} [DecidableEq κ] {m : List (κ × ν)} {k : κ} (h : k ∈ m.map (·.1)) : ∃ v, mapGet m k = some v := by
  induction m with
  | nil => simp at h
  | cons e m ih =>
    obtain ⟨k', v'⟩ := e
    simp only [mapGet]
    split
    · exact ⟨_, rfl⟩
    · rename_i hk
      simp only [List.map_cons, List.mem_cons] at h
      exact ih (h.resolve_left (fun hh => hk hh.symm))

theorem mapGet_none_of_not_mem {κ ν : Type} [DecidableEq κ] {m : List (κ × ν)} {k : κ} (h : k ∉ m.map (·.1)) : mapGet m k = none := by
  induction m with
  | nil => rfl
  | cons e m ih =>
    obtain ⟨k', v'⟩ := e
    simp only [List.map_cons, List.mem_cons, not_or] at h
    simp only [mapGet]
    rw [if_neg (fun hh => h.1 hh.symm)]
    exact ih h.2

theorem wrap64_id {x : Int} (h1 : 0 ≤ x) (h2 : x < 2 ^ 63) : wrap64 x = x := by unfold wrap64; omega

/-- Writing entries for increasing keys and loading them back. -/
theorem loadEntries_writeEntries {ν : Type} (dc : Int → Nat) (rv : Rd ν) (wr : ν → Bytes) (m : List (Int × ν)) (b : Bytes) :
    ∀ (ks : List Int) (last : Int) (acc : Loaded ν), 0 ≤ last → last < 2 ^ 42 → (∀ k ∈ ks, last ≤ k ∧ k < 2 ^ 42) →
    ks.Pairwise (fun a b => a < b) → (∀ k ∈ ks, ∃ v, mapGet m k = some v ∧ Reads rv wr v) →
    ∃ e M, writeEntries wr m ks last = .ok e ∧ loadEntries dc rv ks.length last acc (e ++ b) = .ok (M, b) ∧
      (∀ k, mapGet M.map k = if k ∈ ks then mapGet m k else mapGet acc.map k) ∧
      M.maxLength = (ks.map dc).foldl max acc.maxLength := by
  intro ks
  induction ks with
  | nil => intro last acc _ _ _ _ _; exact ⟨[], acc, rfl, rfl, by simp, rfl⟩
  | cons k ks ih =>
    intro last acc h0 h42 hk hp hv
    obtain ⟨h1, h2⟩ := hk k (by simp)
    obtain ⟨v, h3, h4⟩ := hv k (by simp)
    rw [List.pairwise_cons] at hp
    have hd : toUint64 (k - last) < 2 ^ 42 ∧ ((toUint64 (k - last) : Nat) : Int) = k - last := by unfold toUint64; omega
    obtain ⟨e, M, h5, h6, h7, h8⟩ := ih k ⟨mapSet acc.map k v, max acc.maxLength (dc k)⟩ (by omega) h2
      (fun k' hk' => ⟨Int.le_of_lt (hp.1 k' hk'), (hk k' (by simp [hk'])).2⟩) hp.2 (fun k' hk' => hv k' (by simp [hk']))
    refine ⟨uvarint (toUint64 (k - last)) ++ wr v ++ e, M, ?_, ?_, ?_, ?_⟩
    · simp only [writeEntries, putUvarint6_ok hd.1, h5, h3, bind, Except.bind, pure, Except.pure]
    · simp only [List.length_cons, loadEntries, List.append_assoc, rdUvarint_uvarint hd.1, bind, Except.bind, hd.2]
      rw [wrap64_id (x := k - last) (by omega) (by omega), show last + (k - last) = k by omega, wrap64_id (x := k) (by omega) (by omega)]
      simp only [h4 (e ++ b)]
      exact h6
    · intro k'
      rw [h7 k']
      by_cases hk' : k' ∈ ks
      · rw [if_pos hk', if_pos (by simp [hk'])]
      · rw [if_neg hk']
        by_cases hkk : k' = k
        · subst hkk; simp [mapSet, mapGet, h3]
        · rw [if_neg (by simp [hk', hkk])]
          simp only [mapSet, mapGet]
          rw [if_neg (fun hh => hkk hh.symm)]
    · rw [h8]; rfl

/-! ## Sorting -/

theorem bytesLe_total (a b : Bytes) : (bytesLe a b || bytesLe b a) = true := by
  induction a generalizing b with
  | nil => simp [bytesLe]
  | cons x a ih =>
    cases b with
    | nil => simp [bytesLe]
    | cons y b =>
      simp only [bytesLe]
      have := ih b
      split
      · simp
      · split
        · simp
        · simp only [Bool.or_eq_true] at this ⊢
          exact this

theorem bytesLe_trans (a b c : Bytes) (h1 : bytesLe a b = true) (h2 : bytesLe b c = true) : bytesLe a c = true := by
  induction a generalizing b c with
  | nil => simp [bytesLe]
  | cons x a ih =>
    cases b with
    | nil => simp [bytesLe] at h1
    | cons y b =>
      cases c with
      | nil => simp [bytesLe] at h2
      | cons z c =>
        simp only [bytesLe] at h1 h2 ⊢
        split at h1
        · split at h2
          · rw [if_pos (by omega)]
          · split at h2
            · cases h2
            · rw [if_pos (by omega)]
        · split at h1
          · cases h1
          · split at h2
            · rw [if_pos (by omega)]
            · split at h2
              · cases h2
              · rw [if_neg (by omega), if_neg (by omega)]
                exact ih b c h1 h2

theorem bytesLe_antisymm (a b : Bytes) (h1 : bytesLe a b = true) (h2 : bytesLe b a = true) : a = b := by
  induction a generalizing b with
  | nil =>
    cases b with
    | nil => rfl
    | cons y b => simp [bytesLe] at h2
  | cons x a ih =>
    cases b with
    | nil => simp [bytesLe] at h1
    | cons y b =>
      simp only [bytesLe] at h1 h2
      have hxy : x = y := by
        split at h1
        · rw [if_neg (by omega), if_pos (by omega)] at h2; cases h2
        · split at h1
          · cases h1
          · omega
      subst hxy
      rw [if_neg (by omega), if_neg (by omega)] at h1 h2
      rw [ih b h1 h2]

theorem sortedValues_mem {vs : List Bytes} {v : Bytes} : v ∈ sortedValues vs ↔ v ∈ vs := by
  unfold sortedValues
  rw [List.mem_mergeSort, List.mem_eraseDups]

theorem keys_sorted {ν : Type} {m : List (Int × ν)} (hk : (m.map (·.1)).Nodup) :
    ((m.map (·.1)).mergeSort (fun a b => decide (a ≤ b))).Pairwise (fun a b => a < b) := by
  have h1 := List.pairwise_mergeSort (le := fun (a b : Int) => decide (a ≤ b)) (fun a b c h1 h2 => by simp at *; omega)
    (fun a b => by simp; omega) (m.map (·.1))
  have h2 : ((m.map (·.1)).mergeSort (fun a b => decide (a ≤ b))).Nodup := (List.mergeSort_perm _ _).nodup_iff.2 hk
  refine (h1.and h2).imp ?_
  rintro a b ⟨h3, h4⟩
  simp at h3
  omega

/-! ## The writers do not depend on the iteration order -/

theorem mergeSort_perm_eq {α : Type} {r : α → α → Bool} (ht : ∀ a b c, r a b = true → r b c = true → r a c = true)
    (htot : ∀ a b, (r a b || r b a) = true) (ha : ∀ a b, r a b = true → r b a = true → a = b) {l l' : List α} (h : l.Perm l') :
    l.mergeSort r = l'.mergeSort r :=
  List.Perm.eq_of_pairwise (fun a b _ _ h1 h2 => ha a b h1 h2) (List.pairwise_mergeSort ht htot l) (List.pairwise_mergeSort ht htot l')
    ((List.mergeSort_perm l r).trans (h.trans (List.mergeSort_perm l' r).symm))

theorem eraseDups_nodup {α : Type} [BEq α] [LawfulBEq α] (l : List α) : l.eraseDups.Nodup := by
  induction hn : l.length using Nat.strongRecOn generalizing l with
  | ind n ih =>
    cases l with
    | nil => simp
    | cons a l =>
      rw [List.eraseDups_cons, List.nodup_cons]
      constructor
      · rw [List.mem_eraseDups]; simp
      · have : (l.filter fun b => !b == a).length ≤ l.length := List.length_filter_le _ _
        exact ih _ (by simp only [List.length_cons] at hn; omega) _ rfl

theorem perm_of_nodup {α : Type} {l l' : List α} (h : l.Nodup) (h' : l'.Nodup) (he : ∀ a, a ∈ l ↔ a ∈ l') : l.Perm l' := by
  induction l generalizing l' with
  | nil =>
    cases l' with
    | nil => exact .refl _
    | cons a l' => have := (he a).2 (by simp); simp at this
  | cons a l ih =>
    have h1 : a ∈ l' := (he a).1 (by simp)
    obtain ⟨s, t, rfl⟩ := List.append_of_mem h1
    rw [List.nodup_cons] at h
    have h2 := List.perm_middle.nodup_iff.1 h'
    rw [List.nodup_cons] at h2
    refine (List.Perm.cons a (ih h.2 h2.2 (fun b => ?_))).trans List.perm_middle.symm
    have := he b
    simp only [List.mem_cons, List.mem_append] at this ⊢
    constructor
    · intro hb
      have hba : b ≠ a := fun hh => h.1 (hh ▸ hb)
      rcases this.1 (.inr hb) with h3 | h3 | h3
      · exact .inl h3
      · exact absurd h3 hba
      · exact .inr h3
    · intro hb
      have hba : b ≠ a := fun hh => h2.1 (by rw [← hh]; simpa using hb)
      refine (this.2 ?_).resolve_left hba
      rcases hb with h3 | h3
      · exact .inl h3
      · exact .inr (.inr h3)

theorem sortedValues_perm {vs vs' : List Bytes} (h : vs.Perm vs') : sortedValues vs = sortedValues vs' :=
  mergeSort_perm_eq bytesLe_trans bytesLe_total bytesLe_antisymm
    (perm_of_nodup (eraseDups_nodup _) (eraseDups_nodup _) (fun a => by rw [List.mem_eraseDups, List.mem_eraseDups]; exact h.mem_iff))

theorem keys_perm {ks ks' : List Int} (h : ks.Perm ks') :
    ks.mergeSort (fun a b => decide (a ≤ b)) = ks'.mergeSort (fun a b => decide (a ≤ b)) :=
  mergeSort_perm_eq (fun a b c h1 h2 => by simp at *; omega) (fun a b => by simp; omega) (fun a b h1 h2 => by simp at *; omega) h

theorem mapGet_iff {κ ν : Type} [DecidableEq κ] {m : List (κ × ν)} (hk : (m.map (·.1)).Nodup) {k : κ} {v : ν} :
    mapGet m k = some v ↔ (k, v) ∈ m := by
  refine ⟨mapGet_mem', fun h => ?_⟩
  induction m with
  | nil => simp at h
  | cons e m ih =>
    obtain ⟨k', v'⟩ := e
    simp only [List.map_cons, List.nodup_cons] at hk
    simp only [List.mem_cons, Prod.mk.injEq] at h
    simp only [mapGet]
    rcases h with ⟨rfl, rfl⟩ | h
    · simp
    · rw [if_neg]
      · exact ih hk.2 h
      · rintro rfl
        exact hk.1 (List.mem_map.2 ⟨_, h, rfl⟩)

theorem mapGet_perm {κ ν : Type} [DecidableEq κ] {m m' : List (κ × ν)} (hk : (m.map (·.1)).Nodup) (h : m.Perm m') (k : κ) :
    mapGet m k = mapGet m' k := by
  have hk' : (m'.map (·.1)).Nodup := (h.map _).nodup_iff.1 hk
  apply Option.ext
  intro v
  rw [mapGet_iff hk, mapGet_iff hk', h.mem_iff]

theorem writeEntries_congr {ν : Type} {wr : ν → Bytes} {m m' : List (Int × ν)} (h : ∀ k, mapGet m k = mapGet m' k) (ks : List Int)
    (last : Int) : writeEntries wr m ks last = writeEntries wr m' ks last := by
  induction ks generalizing last with
  | nil => rfl
  | cons k ks ih => simp only [writeEntries, ih, h]

theorem renderWith_perm {ν : Type} (values : List Bytes) (wr : ν → Bytes) {m m' : List (Int × ν)} (hk : (m.map (·.1)).Nodup)
    (h : m.Perm m') : renderWith values wr m = renderWith values wr m' := by
  unfold renderWith
  rw [keys_perm (h.map _)]
  simp only [writeEntries_congr (mapGet_perm hk h)]

/-! ## Readers that stop where they should -/

/-- The reader fails on every strict beginning of what it consumes, and does not look beyond it. -/
def Exact {α : Type} (rd : Rd α) : Prop :=
  ∀ b a r, rd b = .ok (a, r) → ∃ u, b = u ++ r ∧ (∀ c, rd (u ++ c) = .ok (a, c)) ∧ ∀ p q, u = p ++ q → q ≠ [] → ∃ e, rd p = .error e

theorem Exact.ret {α : Type} (a : α) : Exact (fun b => .ok (a, b)) := by
  intro b a' r h
  simp only [Except.ok.injEq, Prod.mk.injEq] at h
  obtain ⟨rfl, rfl⟩ := h
  refine ⟨[], rfl, fun c => rfl, fun p q h => ?_⟩
  obtain ⟨rfl, rfl⟩ := List.append_eq_nil_iff.1 h.symm
  simp

/-- One reader after the other. -/
def Rd.andThen {α β : Type} (rd : Rd α) (f : α → Rd β) : Rd β := fun b => match rd b with | .error e => .error e | .ok (a, r) => f a r

theorem Exact.bind {α β : Type} {rd : Rd α} {f : α → Rd β} (h1 : Exact rd) (h2 : ∀ a, Exact (f a)) : Exact (rd.andThen f) := by
  unfold Rd.andThen
  intro b x r h
  cases hb : rd b with
  | error e => simp [hb] at h
  | ok y =>
    obtain ⟨a, r1⟩ := y
    simp only [hb] at h
    obtain ⟨u, rfl, h3, h4⟩ := h1 b a r1 hb
    obtain ⟨v, rfl, h5, h6⟩ := h2 a r1 x r h
    refine ⟨u ++ v, by simp, fun c => ?_, fun p q hpq hq => ?_⟩
    · simp only [List.append_assoc, h3, h5]
    · rcases List.append_eq_append_iff.1 hpq with ⟨w, h7, h8⟩ | ⟨w, h7, h8⟩
      · -- p = u ++ w, v = w ++ q
        obtain ⟨e, he⟩ := h6 w q h8 hq
        exact ⟨e, by simp only [h7, h3, he]⟩
      · -- u = p ++ w, q = w ++ v
        by_cases hw : w = []
        · subst hw
          simp only [List.append_nil] at h7
          subst h7
          simp only [List.nil_append] at h8
          subst h8
          obtain ⟨e, he⟩ := h6 [] q (by simp) hq
          exact ⟨e, by have := h3 []; simp only [List.append_nil] at this; simp only [this, he]⟩
        · obtain ⟨e, he⟩ := h4 p w h7 hw
          exact ⟨e, by simp only [he]⟩

theorem exact_take {α : Type} (k : Nat) (f : Bytes → α) (e : LoadErr) :
    Exact (fun b => if b.length < k then .error e else .ok (f (b.take k), b.drop k)) := by
  intro b a r h
  simp only [] at h
  split at h
  · cases h
  · rename_i hk
    simp only [Except.ok.injEq, Prod.mk.injEq] at h
    obtain ⟨rfl, rfl⟩ := h
    have hl : (b.take k).length = k := by rw [List.length_take]; omega
    refine ⟨b.take k, by simp, fun c => ?_, fun p q hpq hq => ⟨e, ?_⟩⟩
    · show (if _ then _ else _) = _
      rw [if_neg (by rw [List.length_append]; omega)]
      rw [List.take_append_of_le_length (by omega), List.take_of_length_le (by omega), List.drop_append_of_le_length (by omega),
        List.drop_of_length_le (by omega)]
      rfl
    · have : (p ++ q).length = k := by rw [← hpq]; exact hl
      rw [List.length_append] at this
      have := List.length_pos_iff.2 hq
      simp only []
      rw [if_pos (by omega)]

theorem exact_rdLE (k : Nat) : Exact (rdLE k) := exact_take k unle .eof
theorem exact_rdBytes (k : Nat) : Exact (rdBytes k) := exact_take k id .values

theorem exact_rdUvarintFrom (fuel i x : Nat) : Exact (rdUvarintFrom fuel i x) := by
  induction fuel generalizing i x with
  | zero => intro b a r h; simp [rdUvarintFrom] at h
  | succ fuel ih =>
    intro b a r h
    cases b with
    | nil => simp [rdUvarintFrom] at h
    | cons c t =>
      simp only [rdUvarintFrom] at h
      by_cases hc : c < 128
      · rw [if_pos hc] at h
        split at h
        · cases h
        · rename_i hi
          simp only [Except.ok.injEq, Prod.mk.injEq] at h
          obtain ⟨rfl, rfl⟩ := h
          refine ⟨[c], rfl, fun d => by simp [rdUvarintFrom, hc, hi], fun p q hpq hq => ?_⟩
          cases p with
          | nil => exact ⟨_, rfl⟩
          | cons y p =>
            simp only [List.cons_append, List.cons.injEq] at hpq
            exact absurd (List.append_eq_nil_iff.1 hpq.2.symm).2 hq
      · rw [if_neg hc] at h
        obtain ⟨u, rfl, h2, h3⟩ := ih _ _ t a r h
        refine ⟨c :: u, rfl, fun d => ?_, fun p q hpq hq => ?_⟩
        · simp only [List.cons_append, rdUvarintFrom]; rw [if_neg hc, h2]
        · cases p with
          | nil => exact ⟨_, rfl⟩
          | cons y p =>
            simp only [List.cons_append, List.cons.injEq] at hpq
            obtain ⟨rfl, hpq⟩ := hpq
            obtain ⟨e, he⟩ := h3 p q hpq hq
            exact ⟨e, by simp only [rdUvarintFrom]; rw [if_neg hc, he]⟩

theorem exact_rdIntern (values : List Bytes) : Exact (rdIntern values) := by
  intro b a r h
  simp only [rdIntern] at h
  cases hb : rdLE 2 b with
  | error e => simp [hb] at h
  | ok y =>
    obtain ⟨i, r1⟩ := y
    simp only [hb] at h
    cases hv : values[i]? with
    | none => simp [hv] at h
    | some v =>
      simp only [hv, Except.ok.injEq, Prod.mk.injEq] at h
      obtain ⟨rfl, rfl⟩ := h
      obtain ⟨u, rfl, h2, h3⟩ := exact_rdLE 2 b i _ hb
      refine ⟨u, rfl, fun c => by simp [rdIntern, h2, hv], fun p q hpq hq => ?_⟩
      obtain ⟨e, he⟩ := h3 p q hpq hq
      exact ⟨.intern, by simp [rdIntern, he]⟩

theorem exact_rdInterns (values : List Bytes) (n : Nat) : Exact (rdInterns values n) := by
  induction n with
  | zero => exact Exact.ret []
  | succ n ih =>
    have e : rdInterns values (n + 1) = (rdIntern values).andThen fun v => (rdInterns values n).andThen fun vs b => .ok (v :: vs, b) := by
      funext b
      simp only [rdInterns, Rd.andThen, Bind.bind, Except.bind, pure, Except.pure]
      cases rdIntern values b with
      | error e => rfl
      | ok y =>
        obtain ⟨y1, y2⟩ := y
        simp only []
        cases rdInterns values n y2 <;> rfl
    rw [e]
    exact (exact_rdIntern values).bind (fun v => ih.bind (fun vs => Exact.ret (v :: vs)))

theorem exact_rdInternList (values : List Bytes) : Exact (rdInternList values) := by
  have e : rdInternList values = (rdLE 1).andThen fun n => rdInterns values n := by
    funext b
    simp only [rdInternList, Rd.andThen, Bind.bind, Except.bind]
    cases rdLE 1 b <;> rfl
  rw [e]
  exact (exact_rdLE 1).bind (fun n => exact_rdInterns values n)

theorem exact_loadEntries {ν : Type} (dc : Int → Nat) {rv : Rd ν} (hr : Exact rv) (n : Nat) (key : Int) (acc : Loaded ν) :
    Exact (loadEntries dc rv n key acc) := by
  induction n generalizing key acc with
  | zero => exact Exact.ret acc
  | succ n ih =>
    have e : loadEntries dc rv (n + 1) key acc = Rd.andThen (rdUvarintFrom 10 0 0) fun diff => rv.andThen fun v =>
        loadEntries dc rv n (wrap64 (key + wrap64 diff))
          ⟨mapSet acc.map (wrap64 (key + wrap64 diff)) v, max acc.maxLength (dc (wrap64 (key + wrap64 diff)))⟩ := by
      funext b
      simp only [loadEntries, rdUvarint, Rd.andThen, Bind.bind, Except.bind]
      cases rdUvarintFrom 10 0 0 b with
      | error e => rfl
      | ok y =>
        obtain ⟨y1, y2⟩ := y
        simp only []
        cases rv y2 <;> rfl
    rw [e]
    exact (exact_rdUvarintFrom 10 0 0).bind (fun diff => hr.bind (fun v => ih _ _))

theorem exact_loadWith {ν : Type} (dc : Int → Nat) {rv : List Bytes → Rd ν} (hr : ∀ vs, Exact (rv vs)) : Exact (loadWith dc rv) := by
  have e : loadWith dc rv = (rdLE 4).andThen fun size => (rdBytes size).andThen fun vb => (rdLE 4).andThen fun count =>
      loadEntries dc (rv (splitNL vb)) count 0 ⟨[], 0⟩ := by
    funext b
    simp only [loadWith, Rd.andThen, Bind.bind, Except.bind]
    cases rdLE 4 b with
    | error e => rfl
    | ok y =>
      obtain ⟨y1, y2⟩ := y
      simp only []
      cases rdBytes y1 y2 with
      | error e => rfl
      | ok z =>
        obtain ⟨z1, z2⟩ := z
        simp only []
        cases rdLE 4 z2 <;> rfl
  rw [e]
  exact (exact_rdLE 4).bind (fun size => (exact_rdBytes size).bind (fun vb => (exact_rdLE 4).bind (fun count =>
    exact_loadEntries dc (hr (splitNL vb)) count 0 ⟨[], 0⟩)))

end Verif
