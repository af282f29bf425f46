import Verif.Model.StringBuilder
/-!
# Lemmas: builders do not share memory with each other
-/
namespace Verif.SB
open Spec.Buffer

/-- The slice is inside its array. -/
structure Wf (h : Heap) (s : Slice) : Prop where
  len : s.len ≤ s.cap
  arr : s.cap ≠ 0 → s.arr < h.length
  room : s.cap ≠ 0 → s.off + s.cap ≤ (h.getD s.arr []).length

theorem Wf.nil (h : Heap) : Wf h .nil := ⟨Nat.le_refl _, fun h => absurd rfl h, fun h => absurd rfl h⟩

theorem Wf.read_length {h : Heap} {s : Slice} (hw : Wf h s) : (read h s).length = s.len := by
  unfold read
  rw [List.length_take, List.length_drop]
  by_cases hc : s.cap = 0
  · have := hw.len; omega
  · have := hw.len; have := hw.room hc; omega

/-- A call on the slice `s` made the slice `s'` of it: other arrays are as they were, and the new slice is in the same array or a new one. -/
structure Upd (h : Heap) (s : Slice) (h' : Heap) (s' : Slice) : Prop where
  more : h.length ≤ h'.length
  frame : ∀ a, a < h.length → (s.cap = 0 ∨ a ≠ s.arr) → h'.getD a [] = h.getD a []
  own : s'.cap = 0 ∨ (s.cap ≠ 0 ∧ s'.arr = s.arr) ∨ h.length ≤ s'.arr
  wf : Wf h' s'

theorem Upd.trans {h h' h'' : Heap} {s s' s'' : Slice} (h1 : Upd h s h' s') (h2 : Upd h' s' h'' s'') : Upd h s h'' s'' := by
  refine ⟨Nat.le_trans h1.more h2.more, fun a ha hs => ?_, ?_, h2.wf⟩
  · rw [h2.frame a (Nat.lt_of_lt_of_le ha h1.more), h1.frame a ha hs]
    rcases h1.own with h | ⟨h, h3⟩ | h
    · exact .inl h
    · refine .inr ?_
      rw [h3]
      exact hs.resolve_left h
    · exact .inr (by omega)
  · rcases h2.own with h | ⟨h, h3⟩ | h
    · exact .inl h
    · rcases h1.own with h4 | ⟨h4, h5⟩ | h4
      · exact absurd h4 h
      · exact .inr (.inl ⟨h4, h3.trans h5⟩)
      · exact .inr (.inr (by omega))
    · exact .inr (.inr (Nat.le_trans h1.more h))

theorem Upd.refl {h : Heap} {s : Slice} (hw : Wf h s) : Upd h s h s := by
  refine ⟨Nat.le_refl _, fun _ _ _ => rfl, ?_, hw⟩
  by_cases hc : s.cap = 0
  · exact .inl hc
  · exact .inr (.inl ⟨hc, rfl⟩)

theorem getD_append_left (h : Heap) (x : List Nat) {a : Nat} (ha : a < h.length) : (h ++ [x]).getD a [] = h.getD a [] := by
  rw [List.getD_eq_getElem?_getD, List.getD_eq_getElem?_getD, List.getElem?_append_left ha]

theorem getD_append_last (h : Heap) (x : List Nat) : (h ++ [x]).getD h.length [] = x := by
  rw [List.getD_eq_getElem?_getD, List.getElem?_append_right (Nat.le_refl _)]
  simp

theorem alloc_read (h : Heap) (p : List Nat) (cap : Nat) : read (alloc h p cap).1 (alloc h p cap).2 = p := by
  unfold read alloc
  dsimp only
  rw [getD_append_last]
  simp

theorem alloc_wf (h : Heap) (p : List Nat) (cap : Nat) : Wf (alloc h p cap).1 (alloc h p cap).2 := by
  refine ⟨?_, fun _ => ?_, fun _ => ?_⟩
  · unfold alloc; dsimp only; omega
  · unfold alloc; simp
  · unfold alloc
    dsimp only
    rw [getD_append_last]
    simp only [List.length_append, List.length_replicate]
    omega

theorem alloc_upd (h : Heap) (s : Slice) (p : List Nat) (cap : Nat) : Upd h s (alloc h p cap).1 (alloc h p cap).2 := by
  refine ⟨by simp [alloc], fun a ha _ => ?_, .inr (.inr (by simp [alloc])), alloc_wf h p cap⟩
  unfold alloc
  exact getD_append_left h _ ha

theorem store_length (h : Heap) (arr pos : Nat) (p : List Nat) : (store h arr pos p).length = h.length := by simp [store]

theorem store_other (h : Heap) (arr pos : Nat) (p : List Nat) {a : Nat} (ha : a ≠ arr) : (store h arr pos p).getD a [] = h.getD a [] := by
  unfold store
  rw [List.getD_eq_getElem?_getD, List.getElem?_set_ne (Ne.symm ha), ← List.getD_eq_getElem?_getD]

theorem store_same (h : Heap) (arr pos : Nat) (p : List Nat) (ha : arr < h.length) : (store h arr pos p).getD arr [] =
    (h.getD arr []).take pos ++ p ++ (h.getD arr []).drop (pos + p.length) := by
  unfold store
  rw [List.getD_eq_getElem?_getD, List.getElem?_set_self ha]
  rfl

theorem store_nil (h : Heap) (arr pos : Nat) : store h arr pos [] = h := by
  unfold store
  simp only [List.append_nil, List.length_nil, Nat.add_zero, List.take_append_drop]
  refine List.ext_getElem? fun i => ?_
  by_cases hi : arr = i
  · subst hi
    by_cases hl : arr < h.length
    · rw [List.getElem?_set_self hl, List.getD_eq_getElem?_getD, List.getElem?_eq_getElem hl]
      rfl
    · rw [List.getElem?_eq_none (by simpa using hl), List.getElem?_eq_none (by simpa using hl)]
  · rw [List.getElem?_set_ne hi]

theorem store_array_length (h : Heap) (arr pos : Nat) (p : List Nat) (ha : arr < h.length) (hr : pos + p.length ≤ (h.getD arr []).length) :
    ((store h arr pos p).getD arr []).length = (h.getD arr []).length := by
  rw [store_same h arr pos p ha]
  simp only [List.length_append, List.length_take, List.length_drop]
  omega

/-- Writing inside the capacity. -/
theorem store_upd {h : Heap} {s : Slice} (hw : Wf h s) {k n : Nat} {p : List Nat} (hn : n ≤ s.cap) (hp : k + p.length ≤ s.cap) :
    Upd h s (store h s.arr (s.off + k) p) { s with len := n } := by
  by_cases hc : s.cap = 0
  · have : p = [] := List.length_eq_zero_iff.1 (by omega)
    subst this
    rw [store_nil]
    exact ⟨Nat.le_refl _, fun _ _ _ => rfl, .inl hc, hn, fun h => absurd hc h, fun h => absurd hc h⟩
  · have ha := hw.arr hc
    have hr := hw.room hc
    refine ⟨by rw [store_length]; exact Nat.le_refl _, fun a _ hs => store_other h _ _ _ (hs.resolve_left hc), .inr (.inl ⟨hc, rfl⟩), hn,
      fun _ => by rw [store_length]; exact ha, fun _ => ?_⟩
    dsimp only
    rw [store_array_length h _ _ _ ha (by omega)]
    exact hr

theorem take_drop_store (A p : List Nat) {off k m : Nat} (hr : off + k + p.length ≤ A.length) (hm : m = k + p.length) :
    ((A.take (off + k) ++ p ++ A.drop (off + k + p.length)).drop off).take m = (A.drop off).take k ++ p := by
  subst hm
  rw [List.append_assoc, List.drop_append_of_le_length (by rw [List.length_take]; omega), List.drop_take,
    show off + k - off = k by omega, ← List.append_assoc]
  have hl : ((A.drop off).take k ++ p).length = k + p.length := by
    rw [List.length_append, List.length_take, List.length_drop]; omega
  rw [List.take_append_of_le_length (by omega), List.take_of_length_le (by omega)]

/-- `append` adds the bytes and changes nothing else. -/
theorem append_spec (grow : Nat → Nat → Nat) {h : Heap} {s : Slice} (hw : Wf h s) (p : List Nat) :
    Upd h s (append grow h s p).1 (append grow h s p).2 ∧ read (append grow h s p).1 (append grow h s p).2 = read h s ++ p := by
  unfold append
  split
  · rename_i hc
    refine ⟨store_upd hw hc hc, ?_⟩
    dsimp only
    by_cases h0 : s.cap = 0
    · have : p = [] := List.length_eq_zero_iff.1 (by omega)
      subst this
      rw [store_nil]
      simp [read]
    · unfold read
      dsimp only
      have hr := hw.room h0
      rw [store_same h _ _ _ (hw.arr h0), take_drop_store _ _ (by omega) rfl]
  · exact ⟨alloc_upd h s _ _, alloc_read h _ _⟩

theorem insertAt_spec (grow : Nat → Nat → Nat) {h : Heap} {s : Slice} (hw : Wf h s) (i : Nat) (p : List Nat) :
    Upd h s (insertAt grow h s i p).1 (insertAt grow h s i p).2 ∧
      read (insertAt grow h s i p).1 (insertAt grow h s i p).2 = (read h s).take i ++ p ++ (read h s).drop i := by
  unfold insertAt
  dsimp only
  split
  · rename_i hp
    subst hp
    exact ⟨Upd.refl hw, by simp⟩
  · have hl : ((read h s).take i ++ p ++ (read h s).drop i).length = s.len + p.length := by
      have := hw.read_length
      simp only [List.length_append, List.length_take, List.length_drop]
      omega
    split
    · rename_i hp hc
      have hp0 : p.length ≠ 0 := fun e => hp (List.length_eq_zero_iff.1 e)
      have h0 : s.cap ≠ 0 := by omega
      have hr := hw.room h0
      have := store_upd hw (k := 0) (n := s.len + p.length) (p := (read h s).take i ++ p ++ (read h s).drop i) hc (by omega)
      refine ⟨this, ?_⟩
      dsimp only
      generalize hq : (read h s).take i ++ p ++ (read h s).drop i = q at *
      show read _ _ = q
      conv => lhs; unfold read
      dsimp only
      rw [store_same h _ _ _ (hw.arr h0)]
      have := take_drop_store (h.getD s.arr []) q (off := s.off) (k := 0) (m := s.len + p.length) (by omega) (by omega)
      simpa using this
    · exact ⟨alloc_upd h s _ _, alloc_read h _ _⟩

theorem upTo_spec {h : Heap} {s : Slice} (hw : Wf h s) {n : Int} (h0 : 0 ≤ n) (hn : n ≤ s.len) : ∃ s', s.upTo n = .ok s' ∧ Upd h s h s' ∧
    read h s' = (read h s).take n.toNat := by
  have hl := hw.len
  refine ⟨{ s with len := n.toNat }, by unfold Slice.upTo; rw [if_pos ⟨h0, by omega⟩], ?_, ?_⟩
  · refine ⟨Nat.le_refl _, fun _ _ _ => rfl, ?_, ?_, hw.arr, hw.room⟩
    · by_cases hc : s.cap = 0
      · exact .inl hc
      · exact .inr (.inl ⟨hc, rfl⟩)
    · dsimp only; omega
  · unfold read
    dsimp only
    rw [List.take_take]
    congr 1
    omega

theorem range_spec {h : Heap} {s : Slice} (hw : Wf h s) {a b : Int} {p : List Nat} (hp : part (read h s) a b = some p) :
    ∃ s', s.range a b = .ok s' ∧ read h s' = p := by
  unfold part at hp
  split at hp
  · rename_i hc
    rw [hw.read_length] at hc
    have hl := hw.len
    refine ⟨⟨s.arr, s.off + a.toNat, (b - a).toNat, s.cap - a.toNat⟩, by unfold Slice.range; rw [if_pos ⟨hc.1, hc.2.1, by omega⟩], ?_⟩
    rw [← Option.some.inj hp]
    unfold read
    dsimp only
    rw [List.drop_take, List.drop_drop, List.take_take]
    congr 1
    omega
  · cases hp

theorem from_spec (h : Heap) {s : Slice} {n : Int} (h0 : 0 ≤ n) (hn : n ≤ s.len) :
    ∃ s', s.from n = .ok s' ∧ read h s' = (read h s).drop n.toNat := by
  refine ⟨_, by unfold Slice.from; rw [if_pos ⟨h0, hn⟩], ?_⟩
  unfold read
  dsimp only
  rw [List.drop_take, List.drop_drop]

/-! ## The state -/

/-- The builders hold the texts, and no two of them share an array. -/
structure Inv (st : State) (ts : List (List Nat)) : Prop where
  count : st.bufs.length = ts.length
  wf : ∀ s ∈ st.bufs, Wf st.heap s
  text : ∀ (k : Nat) (s : Slice), st.bufs[k]? = some s → ts[k]? = some (read st.heap s)
  apart : ∀ (i j : Nat) (s s' : Slice), st.bufs[i]? = some s → st.bufs[j]? = some s' → i ≠ j → s.cap ≠ 0 → s'.cap ≠ 0 → s.arr ≠ s'.arr

theorem Inv.at {st : State} {ts : List (List Nat)} (h : Inv st ts) {k : Nat} {t : List Nat} (hk : ts[k]? = some t) :
    ∃ s, st.bufs[k]? = some s ∧ st.bufs.getD k .nil = s ∧ Wf st.heap s ∧ read st.heap s = t := by
  have hlt : k < ts.length := (List.getElem?_eq_some_iff.1 hk).1
  have hlt' : k < st.bufs.length := by rw [h.count]; exact hlt
  have e : st.bufs[k]? = some st.bufs[k] := List.getElem?_eq_getElem hlt'
  refine ⟨_, e, by rw [List.getD_eq_getElem?_getD, e]; rfl, h.wf _ (List.getElem_mem hlt'), ?_⟩
  have := h.text k _ e
  rw [hk] at this
  exact (Option.some.inj this).symm

theorem read_frame {h h' : Heap} {s : Slice} (e : h'.getD s.arr [] = h.getD s.arr []) : read h' s = read h s := by
  unfold read; rw [e]

theorem read_zero {h h' : Heap} {s : Slice} (hw : Wf h s) (hc : s.cap = 0) : read h s = [] ∧ read h' s = [] := by
  have : s.len = 0 := by have := hw.len; omega
  unfold read
  simp [this]

/-- A call on one builder. -/
theorem Inv.put {st : State} {ts : List (List Nat)} (hi : Inv st ts) {k : Nat} {s : Slice} (hk : st.bufs[k]? = some s) {r : Heap × Slice}
    (hu : Upd st.heap s r.1 r.2) : Inv (st.put k r) (ts.set k (read r.1 r.2)) := by
  have hklt : k < st.bufs.length := (List.getElem?_eq_some_iff.1 hk).1
  have other : ∀ j s', st.bufs[j]? = some s' → j ≠ k → Wf r.1 s' ∧ read r.1 s' = read st.heap s' := by
    intro j s' hj hjk
    have hw := hi.wf s' (List.mem_of_getElem? hj)
    by_cases hc : s'.cap = 0
    · obtain ⟨e1, e2⟩ := read_zero (h' := r.1) hw hc
      exact ⟨⟨hw.len, fun h => absurd hc h, fun h => absurd hc h⟩, by rw [e1, e2]⟩
    · have ha := hw.arr hc
      have hne : s.cap = 0 ∨ s'.arr ≠ s.arr := by
        by_cases hs : s.cap = 0
        · exact .inl hs
        · exact .inr (hi.apart j k s' s hj hk hjk hc hs)
      have e := hu.frame s'.arr ha hne
      exact ⟨⟨hw.len, fun _ => Nat.lt_of_lt_of_le ha hu.more, fun _ => by rw [e]; exact hw.room hc⟩, read_frame e⟩
  have sep : ∀ (j : Nat) s', st.bufs[j]? = some s' → j ≠ k → r.2.cap ≠ 0 → s'.cap ≠ 0 → r.2.arr ≠ s'.arr := by
    intro j s' hj hjk h1 h2
    have ha := (hi.wf s' (List.mem_of_getElem? hj)).arr h2
    rcases hu.own with h | ⟨h, h3⟩ | h
    · exact absurd h h1
    · rw [h3]; exact hi.apart k j s s' hk hj (Ne.symm hjk) h h2
    · omega
  have look : ∀ (j : Nat) s', (st.bufs.set k r.2)[j]? = some s' → (j = k ∧ s' = r.2) ∨ (j ≠ k ∧ st.bufs[j]? = some s') := by
    intro j s' hj
    by_cases hjk : j = k
    · subst hjk
      rw [List.getElem?_set_self hklt] at hj
      exact .inl ⟨rfl, (Option.some.inj hj).symm⟩
    · rw [List.getElem?_set_ne (Ne.symm hjk)] at hj
      exact .inr ⟨hjk, hj⟩
  refine ⟨by simp [State.put, hi.count], ?_, ?_, ?_⟩
  · intro s' hs'
    obtain ⟨j, hj⟩ := List.mem_iff_getElem?.1 hs'
    rcases look j s' hj with ⟨-, rfl⟩ | ⟨hjk, hj⟩
    · exact hu.wf
    · exact (other j s' hj hjk).1
  · intro j s' hj
    rcases look j s' hj with ⟨rfl, rfl⟩ | ⟨hjk, hj⟩
    · rw [List.getElem?_set_self (by rw [← hi.count]; exact hklt)]; rfl
    · rw [List.getElem?_set_ne (Ne.symm hjk), hi.text j s' hj]
      exact congrArg some (other j s' hj hjk).2.symm
  · intro i j s1 s2 h1 h2 hij c1 c2
    rcases look i s1 h1 with ⟨rfl, rfl⟩ | ⟨hik, h1'⟩
    · rcases look j s2 h2 with ⟨rfl, -⟩ | ⟨hjk, h2'⟩
      · exact absurd rfl hij
      · exact sep j s2 h2' hjk c1 c2
    · rcases look j s2 h2 with ⟨rfl, rfl⟩ | ⟨hjk, h2'⟩
      · exact (sep i s1 h1' hik c2 c1).symm
      · exact hi.apart i j s1 s2 h1' h2' hij c1 c2

/-- A new builder. -/
theorem Inv.new {st : State} {ts : List (List Nat)} (hi : Inv st ts) {h' : Heap} {s : Slice} (hu : Upd st.heap .nil h' s) :
    Inv ⟨h', st.bufs ++ [s]⟩ (ts ++ [read h' s]) := by
  have old : ∀ (j : Nat) s', st.bufs[j]? = some s' → Wf h' s' ∧ read h' s' = read st.heap s' := by
    intro j s' hj
    have hw := hi.wf s' (List.mem_of_getElem? hj)
    by_cases hc : s'.cap = 0
    · obtain ⟨e1, e2⟩ := read_zero (h' := h') hw hc
      exact ⟨⟨hw.len, fun h => absurd hc h, fun h => absurd hc h⟩, by rw [e1, e2]⟩
    · have ha := hw.arr hc
      have e := hu.frame s'.arr ha (.inl rfl)
      exact ⟨⟨hw.len, fun _ => Nat.lt_of_lt_of_le ha hu.more, fun _ => by rw [e]; exact hw.room hc⟩, read_frame e⟩
  have sep : ∀ (j : Nat) s', st.bufs[j]? = some s' → s.cap ≠ 0 → s'.cap ≠ 0 → s.arr ≠ s'.arr := by
    intro j s' hj h1 h2
    have ha := (hi.wf s' (List.mem_of_getElem? hj)).arr h2
    rcases hu.own with h | ⟨h, -⟩ | h
    · exact absurd h h1
    · exact absurd rfl h
    · omega
  have look : ∀ (j : Nat) s', (st.bufs ++ [s])[j]? = some s' → (j = st.bufs.length ∧ s' = s) ∨ (j < st.bufs.length ∧ st.bufs[j]? = some s') := by
    intro j s' hj
    by_cases hjk : j < st.bufs.length
    · rw [List.getElem?_append_left hjk] at hj
      exact .inr ⟨hjk, hj⟩
    · rw [List.getElem?_append_right (by omega)] at hj
      have hlt := (List.getElem?_eq_some_iff.1 hj).1
      simp only [List.length_cons, List.length_nil] at hlt
      have : j = st.bufs.length := by omega
      subst this
      simp at hj
      exact .inl ⟨rfl, hj.symm⟩
  refine ⟨by simp [hi.count], ?_, ?_, ?_⟩
  · intro s' hs'
    obtain ⟨j, hj⟩ := List.mem_iff_getElem?.1 hs'
    rcases look j s' hj with ⟨-, rfl⟩ | ⟨hjk, hj⟩
    · exact hu.wf
    · exact (old j s' hj).1
  · intro j s' hj
    rcases look j s' hj with ⟨rfl, rfl⟩ | ⟨hjk, hj⟩
    · rw [hi.count, List.getElem?_append_right (Nat.le_refl _)]; simp
    · rw [List.getElem?_append_left (by rw [← hi.count]; exact hjk), hi.text j s' hj]
      exact congrArg some (old j s' hj).2.symm
  · intro i j s1 s2 h1 h2 hij c1 c2
    rcases look i s1 h1 with ⟨rfl, rfl⟩ | ⟨hik, h1'⟩
    · rcases look j s2 h2 with ⟨rfl, -⟩ | ⟨hjk, h2'⟩
      · exact absurd rfl hij
      · exact sep j s2 h2' c1 c2
    · rcases look j s2 h2 with ⟨rfl, rfl⟩ | ⟨hjk, h2'⟩
      · exact (sep i s1 h1' c2 c1).symm
      · exact hi.apart i j s1 s2 h1' h2' hij c1 c2

theorem Inv.get {st : State} {ts : List (List Nat)} (hi : Inv st ts) {p : Src} {q : List Nat} (h : source ts p = some q) :
    st.get p = .ok q := by
  cases p with
  | lit p => exact congrArg Except.ok (Option.some.inj h)
  | bytes k a b =>
    simp only [source] at h
    cases hk : ts[k]? with
    | none => rw [hk] at h; cases h
    | some t =>
      rw [hk] at h
      obtain ⟨s, -, e, hw, rfl⟩ := hi.at hk
      obtain ⟨s', h1, h2⟩ := range_spec hw h
      simp only [State.get, e, h1, bind, Except.bind, pure, Except.pure, h2]

theorem zeros_spec (grow : Nat → Nat → Nat) {h : Heap} {s : Slice} (hw : Wf h s) (m : Nat) :
    let r := (List.range m).foldl (fun r _ => append grow r.1 r.2 [0]) (h, s)
    Upd h s r.1 r.2 ∧ read r.1 r.2 = read h s ++ List.replicate m 0 := by
  induction m with
  | zero => exact ⟨Upd.refl hw, by simp⟩
  | succ m ih =>
    dsimp only at ih ⊢
    rw [List.range_succ, List.foldl_append]
    obtain ⟨h1, h2⟩ := append_spec grow ih.1.wf [0]
    refine ⟨ih.1.trans h1, ?_⟩
    simp only [List.foldl_cons, List.foldl_nil]
    rw [h2, ih.2, List.append_assoc, List.replicate_succ']

/-- One call does to the texts what it should. -/
theorem Inv.step (grow : Nat → Nat → Nat) {st : State} {ts ts' : List (List Nat)} {e : Bool} {o : Op} (hi : Inv st ts)
    (h : after ts o = some (ts', e)) : ∃ st', step grow st o = .ok (st', e) ∧ Inv st' ts' := by
  cases o with
  | newNil =>
    cases h
    exact ⟨_, rfl, hi.new (Upd.refl (Wf.nil _))⟩
  | newString p =>
    cases h
    refine ⟨_, rfl, ?_⟩
    have := hi.new (alloc_upd st.heap .nil p (grow 0 p.length))
    rw [alloc_read] at this
    exact this
  | write k p =>
    simp only [after, bind, Option.bind_eq_some_iff, pure, Option.some.injEq, Prod.mk.injEq] at h
    obtain ⟨t, h1, q, h2, rfl, rfl⟩ := h
    obtain ⟨s, hs, hg, hw, rfl⟩ := hi.at h1
    obtain ⟨k1, k2⟩ := append_spec grow hw q
    refine ⟨_, by simp only [SB.step, hi.get h2, bind, Except.bind, pure, Except.pure, hg]; rfl, ?_⟩
    have := hi.put hs k1
    rwa [k2] at this
  | writeByte k c =>
    simp only [after, bind, Option.bind_eq_some_iff, pure, Option.some.injEq, Prod.mk.injEq] at h
    obtain ⟨t, h1, rfl, rfl⟩ := h
    obtain ⟨s, hs, hg, hw, rfl⟩ := hi.at h1
    obtain ⟨k1, k2⟩ := append_spec grow hw [c]
    refine ⟨_, by simp only [SB.step, hg]; rfl, ?_⟩
    have := hi.put hs k1
    rwa [k2] at this
  | insert k i p =>
    simp only [after, bind, Option.bind_eq_some_iff] at h
    obtain ⟨t, h1, q, h2, h3⟩ := h
    obtain ⟨s, hs, hg, hw, rfl⟩ := hi.at h1
    rw [hw.read_length] at h3
    split at h3
    · rename_i hc
      cases h3
      obtain ⟨k1, k2⟩ := insertAt_spec grow hw i.toNat q
      refine ⟨_, by simp only [SB.step, hi.get h2, bind, Except.bind, pure, Except.pure, hg]; rw [if_neg (by omega)], ?_⟩
      have := hi.put hs k1
      rwa [k2] at this
    · rename_i hc
      cases h3
      refine ⟨_, by simp only [SB.step, hi.get h2, bind, Except.bind, pure, Except.pure, hg]; rw [if_pos (by omega)], hi⟩
  | reset k =>
    simp only [after, bind, Option.bind_eq_some_iff, pure, Option.some.injEq, Prod.mk.injEq] at h
    obtain ⟨t, h1, rfl, rfl⟩ := h
    obtain ⟨s, hs, hg, hw, rfl⟩ := hi.at h1
    obtain ⟨s', k1, k2, k3⟩ := upTo_spec hw (n := 0) (by omega) (by omega)
    refine ⟨_, by simp only [SB.step, bind, Except.bind, pure, Except.pure, hg, k1]; rfl, ?_⟩
    have := hi.put (r := (st.heap, s')) hs k2
    rw [k3] at this
    simpa using this
  | resetWith k p =>
    simp only [after, bind, Option.bind_eq_some_iff, pure, Option.some.injEq, Prod.mk.injEq] at h
    obtain ⟨t, h1, q, h2, rfl, rfl⟩ := h
    obtain ⟨s, hs, hg, hw, rfl⟩ := hi.at h1
    obtain ⟨s', k1, k2, k3⟩ := upTo_spec hw (n := 0) (by omega) (by omega)
    obtain ⟨k4, k5⟩ := append_spec grow k2.wf q
    refine ⟨_, by simp only [SB.step, hi.get h2, bind, Except.bind, pure, Except.pure, hg, k1]; rfl, ?_⟩
    have := hi.put hs (k2.trans k4)
    rw [k5, k3] at this
    simpa using this
  | setLength k n =>
    simp only [after, bind, Option.bind_eq_some_iff] at h
    obtain ⟨t, h1, h3⟩ := h
    obtain ⟨s, hs, hg, hw, rfl⟩ := hi.at h1
    rw [hw.read_length] at h3
    split at h3
    · rename_i hn
      cases h3
      by_cases hc : n ≤ s.len
      · obtain ⟨s', k1, k2, k3⟩ := upTo_spec hw hn hc
        refine ⟨_, by simp only [SB.step, bind, Except.bind, pure, Except.pure, hg, if_pos hc, k1]; rfl, ?_⟩
        have := hi.put (r := (st.heap, s')) hs k2
        rw [k3] at this
        rw [show n.toNat - s.len = 0 by omega]
        simpa using this
      · obtain ⟨k1, k2⟩ := zeros_spec grow hw (n.toNat - s.len)
        refine ⟨_, by simp only [SB.step, bind, Except.bind, pure, Except.pure, hg, if_neg hc]; rfl, ?_⟩
        have := hi.put hs k1
        rw [k2] at this
        rw [List.take_of_length_le (by rw [hw.read_length]; omega)]
        exact this
    · cases h3
  | delete k a b =>
    simp only [after, bind, Option.bind_eq_some_iff] at h
    obtain ⟨t, h1, h3⟩ := h
    obtain ⟨s, hs, hg, hw, rfl⟩ := hi.at h1
    rw [hw.read_length] at h3
    split at h3
    · rename_i hc
      cases h3
      obtain ⟨s', k1, k2, k3⟩ := upTo_spec hw (n := a) hc.1 (by omega)
      obtain ⟨s'', k4, k5⟩ := from_spec st.heap (s := s) (n := b) (by omega) hc.2.2
      obtain ⟨k6, k7⟩ := append_spec grow k2.wf ((read st.heap s).drop b.toNat)
      refine ⟨_, by simp only [SB.step, bind, Except.bind, pure, Except.pure, hg, k1, k4, k5]; rfl, ?_⟩
      have := hi.put hs (k2.trans k6)
      rw [k7, k3] at this
      exact this
    · cases h3

theorem Inv.run (grow : Nat → Nat → Nat) {st : State} {ts ts' : List (List Nat)} {es : List Bool} {os : List Op} (hi : Inv st ts)
    (h : afterAll ts os = some (ts', es)) : ∃ st', run grow st os = .ok (st', es) ∧ Inv st' ts' := by
  induction os generalizing st ts es with
  | nil => cases h; exact ⟨st, rfl, hi⟩
  | cons o os ih =>
    simp only [afterAll, bind, Option.bind_eq_some_iff, pure, Option.some.injEq, Prod.mk.injEq, Prod.exists] at h
    obtain ⟨t1, e, h1, t2, es', h2, rfl, rfl⟩ := h
    obtain ⟨st1, k1, hi1⟩ := hi.step grow h1
    obtain ⟨st2, k2, hi2⟩ := ih hi1 h2
    exact ⟨st2, by simp only [SB.run, k1, k2, bind, Except.bind, pure, Except.pure], hi2⟩

theorem Inv.start : Inv ⟨[], []⟩ [] :=
  ⟨rfl, fun _ h => (by cases h), fun _ _ h => (by cases h), fun _ _ _ _ h => (by cases h)⟩

end Verif.SB
