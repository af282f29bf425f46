import Verif.Lemmas.Serialize
import Verif.Spec.PrefixMap
/-!
# C44: serialised prefix maps load back unchanged
-/
namespace Verif
open Spec

theorem length_le_of_subset {α : Type} {l l' : List α} (h : l.Nodup) (hs : ∀ a ∈ l, a ∈ l') : l.length ≤ l'.length := by
  induction l generalizing l' with
  | nil => simp
  | cons a l ih =>
    obtain ⟨s, t, rfl⟩ := List.append_of_mem (hs a (by simp))
    rw [List.nodup_cons] at h
    have := ih (l' := s ++ t) h.2 (fun b hb => by
      have h1 := hs b (by simp [hb])
      have h2 : b ≠ a := fun hh => h.1 (hh ▸ hb)
      simp only [List.mem_append, List.mem_cons] at h1 ⊢
      rcases h1 with h1 | h1 | h1
      · exact .inl h1
      · exact absurd h1 h2
      · exact .inr h1)
    simp only [List.length_cons, List.length_append] at this ⊢
    omega

theorem sortedValues_nodup (vs : List Bytes) : (sortedValues vs).Nodup :=
  (List.mergeSort_perm _ _).nodup_iff.2 (eraseDups_nodup vs)

theorem sum_le_of_sublist {l l' : List Nat} (h : l.Sublist l') : l.sum ≤ l'.sum := by
  induction h with
  | slnil => simp
  | cons a _ ih => simp; omega
  | cons_cons a _ ih => simp; omega

theorem eraseDups_sublist {α : Type} [BEq α] [LawfulBEq α] (l : List α) : l.eraseDups.Sublist l := by
  induction hn : l.length using Nat.strongRecOn generalizing l with
  | ind n ih =>
    cases l with
    | nil => simp
    | cons a l =>
      rw [List.eraseDups_cons]
      have : (l.filter fun b => !b == a).length ≤ l.length := List.length_filter_le _ _
      exact ((ih _ (by simp only [List.length_cons] at hn; omega) _ rfl).trans List.filter_sublist).cons_cons a

theorem joined_size {vs : List Bytes} (h : ValuesFit vs) : (joinNL (sortedValues vs)).length < 2 ^ 32 := by
  have h1 := joinNL_length_le (sortedValues vs)
  have h2 : ((sortedValues vs).map (fun v => v.length + 1)).sum = (vs.eraseDups.map (fun v => v.length + 1)).sum :=
    ((List.mergeSort_perm _ _).map _).sum_nat
  have h3 := sum_le_of_sublist ((eraseDups_sublist vs).map (fun v => v.length + 1))
  have := h.size
  omega

theorem distinct_le {vs : List Bytes} (h : ValuesFit vs) : (sortedValues vs).length ≤ 65535 := by
  obtain ⟨ds, h1, h2⟩ := h.distinct
  have := length_le_of_subset (sortedValues_nodup vs) (fun v hv => h2 v (sortedValues_mem.1 hv))
  omega

theorem foldl_max (l : List Nat) (a : Nat) : a ≤ l.foldl max a ∧ (∀ x ∈ l, x ≤ l.foldl max a) ∧ (l.foldl max a = a ∨ l.foldl max a ∈ l) := by
  induction l generalizing a with
  | nil => simp
  | cons x l ih =>
    obtain ⟨h1, h2, h3⟩ := ih (max a x)
    simp only [List.foldl_cons, List.mem_cons]
    refine ⟨by omega, ?_, ?_⟩
    · rintro y (rfl | hy)
      · omega
      · exact h2 y hy
    · rcases h3 with h3 | h3
      · rw [h3]; omega
      · exact .inr (.inr h3)

/-- The writer succeeds and the loader gives the entries back, consuming all the bytes. -/
theorem load_render {ν : Type} (dc : Int → Nat) (values : List Bytes) (rv : List Bytes → Rd ν) (wr : ν → Bytes) (m : List (Int × ν))
    (hm : KeysFit m) (hsize : (joinNL values).length < 2 ^ 32)
    (hr : ∀ e ∈ m, Reads (rv (splitNL (joinNL values))) wr e.2) :
    ∃ raw M, renderWith values wr m = .ok raw ∧ loadWith dc rv raw = .ok (M, []) ∧ (∀ k, mapGet M.map k = mapGet m k) ∧
      IsMax dc (m.map (·.1)) M.maxLength := by
  have hmem : ∀ k, k ∈ (m.map (·.1)).mergeSort (fun a b => decide (a ≤ b)) ↔ k ∈ m.map (·.1) := fun k => List.mem_mergeSort
  obtain ⟨e, M, h1, h2, h3, h4⟩ := loadEntries_writeEntries dc (rv (splitNL (joinNL values))) wr m []
    ((m.map (·.1)).mergeSort (fun a b => decide (a ≤ b))) 0 ⟨[], 0⟩ (by omega) (by omega)
    (fun k hk => by
      obtain ⟨x, hx, rfl⟩ := List.mem_map.1 ((hmem k).1 hk)
      exact hm.range x hx)
    (keys_sorted hm.once)
    (fun k hk => by
      obtain ⟨v, hv⟩ := mapGet_some_of_mem ((hmem k).1 hk)
      exact ⟨v, hv, hr _ (mapGet_mem' hv)⟩)
  refine ⟨_, M, by simp only [renderWith, h1, bind, Except.bind, pure, Except.pure]; rfl, ?_, fun k => ?_, ?_⟩
  · have hc : ((m.map (·.1)).mergeSort (fun a b => decide (a ≤ b))).length < 256 ^ 4 := by
      rw [List.length_mergeSort, List.length_map]; exact hm.count
    simp only [List.append_nil] at h2
    simp only [loadWith, List.append_assoc, bind, Except.bind, rdLE_le (k := 4) (x := (joinNL values).length) hsize, rdBytes_append,
      rdLE_le (k := 4) hc, h2]
  · rw [h3 k]
    split
    · rfl
    · rename_i hk
      rw [hmem] at hk
      rw [mapGet_none_of_not_mem hk]; rfl
  · obtain ⟨-, h6, h7⟩ := foldl_max (((m.map (·.1)).mergeSort (fun a b => decide (a ≤ b))).map dc) 0
    simp only [] at h4
    rw [← h4] at h6 h7
    refine ⟨fun k hk => h6 _ (List.mem_map.2 ⟨k, (hmem k).2 hk, rfl⟩), h7.imp id fun h => ?_⟩
    obtain ⟨k, hk, h8⟩ := List.mem_map.1 h
    exact ⟨k, (hmem k).1 hk, h8⟩

theorem reads_intern {values : List Bytes} (hn : ∀ v ∈ values, 10 ∉ v) (hl : values.length ≤ 65536) {v : Bytes} (hv : v ∈ values) :
    Reads (rdIntern (splitNL (joinNL values))) (fun v => le 2 (internOf values v)) v := by
  intro b
  have h1 := internOf_lt hv
  rw [splitNL_joinNL hn (List.ne_nil_of_mem hv)]
  simp only [rdIntern, rdLE_le (k := 2) (x := internOf values v) (by omega), internOf_get hv]

theorem reads_interns {values : List Bytes} (hn : ∀ v ∈ values, 10 ∉ v) (hl : values.length ≤ 65536) (vs : List Bytes)
    (hv : ∀ v ∈ vs, v ∈ values) (b : Bytes) :
    rdInterns (splitNL (joinNL values)) vs.length (vs.flatMap (fun v => le 2 (internOf values v)) ++ b) = .ok (vs, b) := by
  induction vs with
  | nil => rfl
  | cons v vs ih =>
    have h1 := reads_intern hn hl (hv v (by simp)) (vs.flatMap (fun v => le 2 (internOf values v)) ++ b)
    simp only [] at h1
    simp only [List.length_cons, rdInterns, List.flatMap_cons, List.append_assoc, h1, bind, Except.bind,
      ih (fun w hw => hv w (by simp [hw])), pure, Except.pure]

theorem prefix_load (dc : Int → Nat) (m : List (Int × Bytes)) (hm : KeysFit m) (hv : ValuesFit (m.map (·.2))) :
    ∃ raw M, renderPrefixMap m = .ok (some raw) ∧ loadWith dc rdIntern raw = .ok (M, []) ∧ (∀ k, mapGet M.map k = mapGet m k) ∧
      IsMax dc (m.map (·.1)) M.maxLength := by
  have hd := distinct_le hv
  obtain ⟨raw, M, h1, h2, h3, h4⟩ := load_render dc (sortedValues (m.map (·.2))) rdIntern
    (fun v => le 2 (internOf (sortedValues (m.map (·.2))) v)) m hm (joined_size hv)
    (fun e he => reads_intern (fun v hv' => hv.newline v (sortedValues_mem.1 hv')) (by omega)
      (sortedValues_mem.2 (List.mem_map.2 ⟨e, he, rfl⟩)))
  refine ⟨raw, M, ?_, h2, h3, h4⟩
  unfold renderPrefixMap
  rw [if_neg (by omega)]
  simp only [h1, bind, Except.bind, pure, Except.pure]

theorem array_load (dc : Int → Nat) (m : List (Int × List Bytes)) (hm : KeysFit m) (hv : ValuesFit (m.flatMap (·.2)))
    (hl : ∀ e ∈ m, e.2.length ≤ 255) :
    ∃ raw M, renderMap m = .ok raw ∧ loadWith dc rdInternList raw = .ok (M, []) ∧ (∀ k, mapGet M.map k = mapGet m k) ∧
      IsMax dc (m.map (·.1)) M.maxLength := by
  have hd := distinct_le hv
  unfold renderMap
  refine load_render dc (sortedValues (m.flatMap (·.2))) rdInternList
    (fun vs => le 1 vs.length ++ vs.flatMap (fun v => le 2 (internOf (sortedValues (m.flatMap (·.2))) v))) m hm (joined_size hv)
    (fun e he b => ?_)
  have h1 := hl e he
  simp only [rdInternList, List.append_assoc, rdLE_le (k := 1) (x := e.2.length) (by omega), bind, Except.bind]
  exact reads_interns (fun v hv' => hv.newline v (sortedValues_mem.1 hv')) (by omega) e.2
    (fun v hv' => sortedValues_mem.2 (List.mem_flatMap.2 ⟨e, he, hv'⟩)) b

namespace Props

/-- The carrier and geocoding maps: whatever map fits the format, the builder writes it and `LoadPrefixMap` reads back exactly
that map, with the right `MaxLength`. -/
theorem C44_prefix (dc : Int → Nat) (m : List (Int × Bytes)) (hm : KeysFit m) (hv : ValuesFit (m.map (·.2))) :
    ∃ raw M, renderPrefixMap m = .ok (some raw) ∧ loadPrefixMap dc raw = .ok M ∧ (∀ k, mapGet M.map k = mapGet m k) ∧
      IsMax dc (m.map (·.1)) M.maxLength := by
  obtain ⟨raw, M, h1, h2, h3⟩ := prefix_load dc m hm hv
  exact ⟨raw, M, h1, by simp [loadPrefixMap, h2, bind, Except.bind, pure, Except.pure], h3⟩

/-- The time zone and region maps, with at most 255 values per key: `renderMap` and `LoadIntArrayMap`. -/
theorem C44_array (dc : Int → Nat) (m : List (Int × List Bytes)) (hm : KeysFit m) (hv : ValuesFit (m.flatMap (·.2)))
    (hl : ∀ e ∈ m, e.2.length ≤ 255) :
    ∃ raw M, renderMap m = .ok raw ∧ loadIntArrayMap dc raw = .ok M ∧ (∀ k, mapGet M.map k = mapGet m k) ∧
      IsMax dc (m.map (·.1)) M.maxLength := by
  obtain ⟨raw, M, h1, h2, h3⟩ := array_load dc m hm hv hl
  exact ⟨raw, M, h1, by simp [loadIntArrayMap, h2, bind, Except.bind, pure, Except.pure], h3⟩

/-- The files do not depend on the order in which Go happens to iterate over the map. -/
theorem C44_order (m m' : List (Int × Bytes)) (hk : (m.map (·.1)).Nodup) (h : m.Perm m') : renderPrefixMap m = renderPrefixMap m' := by
  unfold renderPrefixMap
  simp only [sortedValues_perm (h.map _), renderWith_perm _ _ hk h]

/-- The same for `renderMap`. -/
theorem C44_order_array (m m' : List (Int × List Bytes)) (hk : (m.map (·.1)).Nodup) (h : m.Perm m') : renderMap m = renderMap m' := by
  unfold renderMap
  simp only [sortedValues_perm (h.flatMap_right _), renderWith_perm _ _ hk h]

/-- The limit on keys is real: the first key must be below 2^42, otherwise the builder panics. -/
theorem C44_large_key (k : Int) (v : Bytes) (hk : 2 ^ 42 ≤ k) (hk' : k < 2 ^ 63) : renderPrefixMap [(k, v)] = .error .index := by
  have h1 : sortedValues [v] = [v] := by simp [sortedValues, List.eraseDups_cons]
  have h2 : toUint64 (k - 0) = k.toNat := by unfold toUint64; omega
  unfold renderPrefixMap
  simp only [List.map_cons, List.map_nil, h1, List.length_cons, List.length_nil]
  rw [if_neg (by omega)]
  simp only [renderWith, List.map_cons, List.map_nil, List.mergeSort_singleton, writeEntries, h2,
    putUvarint6_panic (x := k.toNat) (by omega), bind, Except.bind]

example : KeysFit [((41 : Int), str!"Swisscom"), (4179, str!"Sunrise"), (1, str!"Swisscom")] ∧
    ValuesFit [str!"Swisscom", str!"Sunrise", str!"Swisscom"] :=
  ⟨⟨by decide, by decide, by decide⟩, ⟨by decide, ⟨[str!"Swisscom", str!"Sunrise"], by decide, by decide⟩, by decide⟩⟩

end Props
end Verif
