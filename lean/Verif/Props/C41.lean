import Verif.Lemmas.Matcher
import Verif.Data.Shipped
import Verif.Data.Alt
/-!
# C41: the offsets of the matches found in a text are exact, ordered and disjoint
-/
namespace Verif.Props
open Verif.Spec

theorem take_drop_prefix {l raw : Str} {i : Nat} (h : raw <+: l.drop i) :
    ∃ y, l = l.take i ++ raw ++ y := by
  obtain ⟨y, hy⟩ := h
  exact ⟨y, by rw [List.append_assoc, hy, List.take_append_drop]⟩

theorem blen_append (a b : Str) : blen (a ++ b) = blen a + blen b := by
  simp [blen, List.sum_append]

theorem blen_pos {a : Str} (h : a ≠ []) : 0 < blen a := by
  cases a with
  | nil => exact absurd rfl h
  | cons u t =>
    have : 0 < width u := by
      unfold width
      repeat' split
      all_goals omega
    simp only [blen, List.map_cons, List.sum_cons]
    omega

/-- For every text, region, leniency and limit: each match is the piece of the text between its two offsets, the offsets are inside
the text, and the piece is not empty. -/
theorem C41_offsets (F : Finder) (maxTries : Int) (ms : List FoundNumber) (c : Cursor)
    (h : F.findNumbers maxTries = .ok (ms, c)) (m : FoundNumber) (hm : m ∈ ms) :
    SubText F.text (m.start F.text) (m.stop F.text) m.raw ∧ m.start F.text < m.stop F.text ∧ m.stop F.text ≤ blen F.text := by
  have hf := (Finder.iterate_spec h).1 m hm
  have hb := hf.bound
  obtain ⟨y, hy⟩ := take_drop_prefix hf.text
  refine ⟨⟨_, y, hy, rfl, ?_⟩, ?_, ?_⟩
  · rw [blen_append]; rfl
  · have := blen_pos hf.ne
    unfold FoundNumber.stop
    omega
  · have : blen F.text = blen (F.text.take m.at_) + blen m.raw + blen y := by
      rw [← blen_append, ← blen_append, ← hy]
    unfold FoundNumber.stop FoundNumber.start
    omega

/-- The matches come in the order of the text and do not overlap. -/
theorem C41_ordered (F : Finder) (maxTries : Int) (ms : List FoundNumber) (c : Cursor)
    (h : F.findNumbers maxTries = .ok (ms, c)) : ms.Pairwise (fun m m' => m.stop F.text ≤ m'.start F.text) := by
  have hs := Finder.iterate_spec h
  have key : ∀ (l : List FoundNumber), (∀ m ∈ l, F.Found 0 m) → l.Pairwise (fun m m' => m.at_ + m.raw.length ≤ m'.at_) →
      l.Pairwise (fun m m' => m.stop F.text ≤ m'.start F.text) := by
    intro l
    induction l with
    | nil => intros; exact .nil
    | cons m l ih =>
      intro hf hp
      rw [List.pairwise_cons] at hp ⊢
      refine ⟨fun m' hm' => ?_, ih (fun x hx => hf x (List.mem_cons_of_mem _ hx)) hp.2⟩
      have hl := hp.1 m' hm'
      have hm := hf m (List.mem_cons_self ..)
      have hb := hm.bound
      obtain ⟨y, hy⟩ := take_drop_prefix hm.text
      have e : F.text.take m'.at_ = F.text.take m.at_ ++ m.raw ++ y.take (m'.at_ - (m.at_ + m.raw.length)) := by
        have hlen : (F.text.take m.at_ ++ m.raw).length = m.at_ + m.raw.length := by
          rw [List.length_append, List.length_take]; omega
        calc F.text.take m'.at_ = (F.text.take m.at_ ++ m.raw ++ y).take m'.at_ := by rw [← hy]
          _ = _ := by rw [List.take_append, hlen, List.take_of_length_le (by rw [hlen]; exact hl)]
      unfold FoundNumber.stop FoundNumber.start
      rw [e, blen_append, blen_append]
      omega
  exact key ms hs.1 hs.2.1

/-- Two numbers in one text, after a character of two bytes. -/
noncomputable def C41_case : Finder :=
  ⟨Data.container, Data.alt, [233] ++ (str!": 650-253-0000 or +41 44 668 18 00."), (str!"US"), .valid⟩

example : ((C41_case.findNumbers 100).toOption.map fun r => r.1.map fun m => (m.start C41_case.text, m.stop C41_case.text, m.raw)) =
    some [(4, 16, (str!"650-253-0000")), (20, 36, (str!"+41 44 668 18 00"))] := by kernel_rfl

end Verif.Props
