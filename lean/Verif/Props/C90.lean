import Verif.Lemmas.StringBuilder
/-!
# C90: string builders are text buffers that do not disturb each other
-/
namespace Verif.Props
open Verif.SB
open Verif.Spec.Buffer

/-- What the calls that change nothing say of the text `t` in the builder `k`. -/
structure Holds (st : State) (k : Nat) (t : List Nat) : Prop where
  string : st.string k = t
  len : st.len k = t.length
  byteAt : ∀ i : Nat, st.byteAt k i = t[i]?
  byteAtNeg : ∀ i : Int, i < 0 → st.byteAt k i = none
  charAt : ∀ (i c : Nat), t[i]? = some c → st.charAt k i = .ok c
  charAtOut : ∀ i : Int, i < 0 ∨ t.length ≤ i → st.charAt k i = .error .index
  substring : ∀ a b p, part t a b = some p → st.substring k a b = .ok p
  lastIndexOf : ∀ q (i : Nat), st.lastIndexOf k q = i → q <+: t.drop i ∧ i + q.length ≤ t.length
  lastIndexOfMax : ∀ q (i : Nat), q <+: t.drop i → i + q.length ≤ t.length → (i : Int) ≤ st.lastIndexOf k q

theorem lastIndex_cases (s q : List Nat) :
    (lastIndex s q = -1 ∧ ∀ i : Nat, i + q.length ≤ s.length → ¬ q <+: s.drop i) ∨
    ∃ i : Nat, lastIndex s q = i ∧ q <+: s.drop i ∧ i + q.length ≤ s.length ∧
      ∀ j : Nat, j + q.length ≤ s.length → q <+: s.drop j → j ≤ i := by
  unfold lastIndex
  have hfind : ∀ n : Nat, (((List.range n).reverse.find? fun i => q.isPrefixOf (s.drop i) && decide (i + q.length ≤ s.length)) = none ∧
      ∀ i < n, i + q.length ≤ s.length → ¬ q <+: s.drop i) ∨
      ∃ i, ((List.range n).reverse.find? fun i => q.isPrefixOf (s.drop i) && decide (i + q.length ≤ s.length)) = some i ∧
        q <+: s.drop i ∧ i + q.length ≤ s.length ∧ ∀ j < n, j + q.length ≤ s.length → q <+: s.drop j → j ≤ i := by
    intro n
    induction n with
    | zero => exact .inl ⟨rfl, fun i hi => absurd hi (Nat.not_lt_zero i)⟩
    | succ n ih =>
      rw [List.range_succ, List.reverse_append, List.reverse_singleton, List.singleton_append, List.find?_cons]
      by_cases hn : (q.isPrefixOf (s.drop n) && decide (n + q.length ≤ s.length)) = true
      · right
        rw [hn]
        simp only [Bool.and_eq_true, List.isPrefixOf_iff_prefix, decide_eq_true_eq] at hn
        exact ⟨n, rfl, hn.1, hn.2, fun j hj _ _ => by omega⟩
      · rw [Bool.not_eq_true] at hn
        rw [hn]
        have hnot : n + q.length ≤ s.length → ¬ q <+: s.drop n := by
          intro h1 h2
          rw [← List.isPrefixOf_iff_prefix] at h2
          rw [h2, decide_eq_true h1] at hn
          cases hn
        rcases ih with ⟨h1, h2⟩ | ⟨i, h1, h2, h3, h4⟩
        · refine .inl ⟨h1, fun i hi h => ?_⟩
          by_cases e : i = n
          · subst e; exact hnot h
          · exact h2 i (by omega) h
        · refine .inr ⟨i, h1, h2, h3, fun j hj h h' => ?_⟩
          by_cases e : j = n
          · subst e; exact absurd h' (hnot h)
          · exact h4 j (by omega) h h'
  rcases hfind (s.length + 1) with ⟨h1, h2⟩ | ⟨i, h1, h2, h3, h4⟩
  · rw [h1]
    exact .inl ⟨rfl, fun i hi => h2 i (by omega) hi⟩
  · rw [h1]
    exact .inr ⟨i, rfl, h2, h3, fun j hj h => h4 j (by omega) hj h⟩

theorem holds_of_inv {st : State} {ts : List (List Nat)} (hi : Inv st ts) {k : Nat} {t : List Nat} (hk : ts[k]? = some t) : Holds st k t := by
  obtain ⟨s, -, hg, hw, rfl⟩ := hi.at hk
  have hl := hw.read_length
  have key : ∀ i : Nat, i < s.len → (read st.heap s)[i]? = some ((read st.heap s).getD i 0) := by
    intro i hi
    rw [List.getD_eq_getElem?_getD, List.getElem?_eq_getElem (by omega)]
    rfl
  refine ⟨by unfold State.string; rw [hg], by unfold State.len; rw [hg, hl], ?_, ?_, ?_, ?_, ?_, ?_, ?_⟩
  · intro i
    unfold State.byteAt
    dsimp only
    rw [hg]
    by_cases hi : i < s.len
    · rw [if_neg (by omega), key i hi]; rfl
    · rw [if_pos (by omega), List.getElem?_eq_none (by omega)]
  · intro i hi
    unfold State.byteAt
    dsimp only
    rw [if_pos (.inl hi)]
  · intro i c hc
    have hi := (List.getElem?_eq_some_iff.1 hc).1
    rw [hl] at hi
    unfold State.charAt
    dsimp only
    rw [hg, if_pos (by omega)]
    rw [key i hi] at hc
    exact congrArg Except.ok (Option.some.inj hc)
  · intro i hi
    unfold State.charAt
    dsimp only
    rw [hg, if_neg (by omega)]
  · intro a b p hp
    obtain ⟨s', h1, h2⟩ := range_spec hw hp
    unfold State.substring
    rw [hg, h1]
    exact congrArg Except.ok h2
  · intro q i h
    unfold State.lastIndexOf State.string at h
    rw [hg] at h
    rcases lastIndex_cases (read st.heap s) q with ⟨h1, -⟩ | ⟨j, h1, h2, h3, -⟩
    · omega
    · rw [h1] at h
      have : j = i := by omega
      subst this
      exact ⟨h2, h3⟩
  · intro q i h1 h2
    unfold State.lastIndexOf State.string
    rw [hg]
    rcases lastIndex_cases (read st.heap s) q with ⟨-, h3⟩ | ⟨j, h3, -, -, h4⟩
    · exact absurd h1 (h3 i h2)
    · rw [h3]
      have := h4 i h2 h1
      omega

/-- For every program of calls on any number of builders, with indices inside the texts, and however arrays grow: the calls return
normally and report invalid indices as specified, and then every builder holds the text it should, whatever was written to the others,
and also when what was written was a part of its own memory. -/
theorem C90_texts (grow : Nat → Nat → Nat) (ops : List Op) (ts : List (List Nat)) (es : List Bool) (h : afterAll [] ops = some (ts, es)) :
    ∃ st, run grow ⟨[], []⟩ ops = .ok (st, es) ∧ ∀ (k : Nat) t, ts[k]? = some t → Holds st k t := by
  obtain ⟨st, h1, h2⟩ := Inv.start.run grow h
  exact ⟨st, h1, fun k t hk => holds_of_inv h2 hk⟩

/-- A program: a builder is cut by writing a part of its own memory over it, another one receives a part of it. -/
def demo : List Op :=
  [.newString (str!"+41446681800"), .newNil, .write 1 (.bytes 0 1 3), .resetWith 0 (.bytes 0 3 12), .insert 0 0 (.lit (str!"0")),
    .insert 0 99 (.lit (str!"x")), .delete 0 3 6, .setLength 1 3]

example : afterAll [] demo = some ([(str!"0441800"), (str!"41") ++ [0]], [false, false, false, false, false, true, false, false]) := by decide

/-- Indices behind the text are not always found out: `Substring` returns bytes that were deleted, and `Delete` brings them back.
(Shown where arrays get just the room needed; with more room there are more such indices.) -/
theorem C90_stale : let grow := fun _ n => n
    (∃ st es, run grow ⟨[], []⟩ [.newString (str!"secret"), .reset 0] = .ok (st, es) ∧ st.string 0 = [] ∧
      st.substring 0 0 6 = .ok (str!"secret")) ∧
    (∃ st es, run grow ⟨[], []⟩ [.newString (str!"secret"), .reset 0, .delete 0 6 0] = .ok (st, es) ∧ st.string 0 = (str!"secret")) :=
  ⟨⟨_, _, rfl, rfl, rfl⟩, ⟨_, _, rfl, rfl⟩⟩

/-- The bytes of a builder must not be kept across a change: they are then those of the new text. -/
theorem C90_bytes : let grow := fun _ n => n
    ∃ st st' es es' s, run grow ⟨[], []⟩ [.newString (str!"ab")] = .ok (st, es) ∧
    st.bufs = [s] ∧ read st.heap s = (str!"ab") ∧ run grow st [.resetWith 0 (.lit (str!"xy"))] = .ok (st', es') ∧
    read st'.heap s = (str!"xy") :=
  ⟨_, _, _, _, _, rfl, rfl, rfl, rfl, rfl⟩

end Verif.Props
