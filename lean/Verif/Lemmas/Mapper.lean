import Verif.Model.Mapper
import Verif.Lemmas.Dec
import Verif.Lemmas.Serialize
import Verif.Spec.Lookup
/-!
# Lemmas on prefix lookups
-/
namespace Verif
open Spec

theorem denotes_iff {p : Str} {n : Nat} : Denotes p n ↔ AllDigits p ∧ n = digVal p := by
  constructor
  · intro h
    induction h with
    | nil => exact ⟨by intro u hu; simp at hu, rfl⟩
    | @snoc p n d _ hd ih =>
      refine ⟨?_, ?_⟩
      · intro u hu
        rcases List.mem_append.1 hu with h | h
        · exact ih.1 u h
        · simp at h; subst h; exact hd
      · rw [digVal_snoc, ← ih.2]
        show 10 * n + (d - 48) = _
        omega
  · rintro ⟨h, rfl⟩
    induction hl : p.length generalizing p with
    | zero => obtain rfl := List.length_eq_zero_iff.1 hl; exact .nil
    | succ k ih =>
      rcases snoc_cases p with rfl | ⟨t, u, rfl⟩
      · simp at hl
      · have := ih (p := t) (fun x hx => h x (by simp [hx])) (by simpa using hl)
        have h2 := Denotes.snoc this (h u (by simp))
        rw [digVal_snoc]
        have : digVal t * 10 + (u - 48) = 10 * digVal t + (u - '0'.toNat) := by
          show _ = 10 * digVal t + (u - 48); omega
        rw [this]; exact h2

theorem allDig_of {s : Str} (h : AllDigits s) : ∀ u ∈ s, isDig u = true := fun u hu => (isDig_iff u).2 (h u hu)

theorem bytePrefix_digits {ds : Str} (h : ∀ u ∈ ds, isDig u = true) (i : Nat) : bytePrefix ds i = some (ds.take i) := by
  induction i generalizing ds with
  | zero => simp [bytePrefix]
  | succ i ih =>
    cases ds with
    | nil => simp [bytePrefix]
    | cons u t =>
      have hw : width u = 1 := width_isDig (h u (by simp))
      have := ih (ds := t) (fun x hx => h x (by simp [hx]))
      simp [bytePrefix, hw, this]

theorem bytePrefix_plus {ds : Str} (h : ∀ u ∈ ds, isDig u = true) (i : Nat) : bytePrefix (43 :: ds) (i + 1) = some (43 :: ds.take i) := by
  have hw : width 43 = 1 := rfl
  simp [bytePrefix, hw, bytePrefix_digits h]

theorem digVal_small {ds : Str} (h : ∀ u ∈ ds, isDig u = true) (hl : ds.length ≤ 18) : digVal ds < 2 ^ 63 := by
  have h1 := digVal_lt ds h
  have h2 : 10 ^ ds.length ≤ 10 ^ 18 := Nat.pow_le_pow_right (by omega) hl
  have : 10 ^ 18 < 2 ^ 63 := by decide
  omega

theorem atoi_plus {ds : Str} (h : ∀ u ∈ ds, isDig u = true) (hne : ds ≠ []) (hl : ds.length ≤ 18) : atoi (43 :: ds) = some (digVal ds : Int) := by
  have h1 : ds.all isDig = true := List.all_eq_true.2 h
  simp [atoi, h1, hne, digVal_small h hl]

theorem atoi_digits {ds : Str} (h : ∀ u ∈ ds, isDig u = true) (hne : ds ≠ []) (hl : ds.length ≤ 18) : atoi ds = some (digVal ds : Int) := by
  have h1 : ds.all isDig = true := List.all_eq_true.2 h
  cases ds with
  | nil => exact absurd rfl hne
  | cons u t =>
    have hu := h u (by simp)
    have hs := digVal_small h hl
    simp only [atoi]
    split
    · rename_i heq; simp at heq; rw [heq.1] at hu; simp [isDig] at hu
    · rename_i heq; simp at heq; rw [heq.1] at hu; simp [isDig] at hu
    · simp [h1, hs]

theorem atoiPrefix_plus {ds : Str} (h : ∀ u ∈ ds, isDig u = true) {i : Nat} (hi : 0 < i) (hl : i ≤ ds.length) (h18 : i ≤ 18) :
    atoiPrefix (43 :: ds) (i + 1) = some (digVal (ds.take i) : Int) := by
  rw [atoiPrefix, bytePrefix_plus h, Option.bind_some]
  refine atoi_plus (fun u hu => h u (List.mem_of_mem_take hu)) ?_ (by simp; omega)
  intro hn
  have := congrArg List.length hn
  rw [List.length_take, List.length_nil] at this
  omega

theorem atoiPrefix_digits {ds : Str} (h : ∀ u ∈ ds, isDig u = true) {i : Nat} (hi : 0 < i) (hl : i ≤ ds.length) (h18 : i ≤ 18) :
    atoiPrefix ds i = some (digVal (ds.take i) : Int) := by
  rw [atoiPrefix, bytePrefix_digits h, Option.bind_some]
  refine atoi_digits (fun u hu => h u (List.mem_of_mem_take hu)) ?_ (by simp; omega)
  intro hn
  have := congrArg List.length hn
  rw [List.length_take, List.length_nil] at this
  omega

/-- The loop common to both lookups. -/
def down {ν : Type} (m : List (Int × ν)) (ds : Str) : Nat → Option (Nat × ν)
  | 0 => none
  | i + 1 => match mapGet m (digVal (ds.take (i + 1)) : Int) with
    | some v => some (i + 1, v)
    | none => down m ds i

theorem valueLoop_down {m : List (Int × Bytes)} {ds : Str} (h : ∀ u ∈ ds, isDig u = true) {i : Nat} (hl : i ≤ ds.length) (h18 : i ≤ 18) :
    valueLoop m (43 :: ds) (i + 1) = some (match down m ds i with | some (j, v) => (v, (digVal (ds.take j) : Int)) | none => ([], 0)) := by
  induction i with
  | zero => simp [valueLoop, down]
  | succ i ih =>
    rw [valueLoop, if_neg (by omega), atoiPrefix_plus h (by omega) hl h18]
    simp only [down]
    cases hm : mapGet m (digVal (ds.take (i + 1)) : Int) with
    | none => simp only; exact ih (by omega) (by omega)
    | some v => simp only

theorem zonesLoop_down {m : List (Int × List Bytes)} {ds : Str} (h : ∀ u ∈ ds, isDig u = true) {i : Nat} (hl : i ≤ ds.length) (h18 : i ≤ 18) :
    zonesLoop m ds i = some (match down m ds i with | some (_, v) => v | none => [unknownZone]) := by
  induction i with
  | zero => simp [zonesLoop, down]
  | succ i ih =>
    rw [zonesLoop, atoiPrefix_digits h (by omega) hl h18]
    simp only [down]
    cases hm : mapGet m (digVal (ds.take (i + 1)) : Int) with
    | none => simp only; exact ih (by omega) (by omega)
    | some v => simp only

theorem prefix_eq_take {p s : Str} (h : p <+: s) : p = s.take p.length := (List.prefix_iff_eq_take.1 h)

theorem down_spec {ν : Type} {m : List (Int × ν)} (hk : (m.map (·.1)).Nodup) {ds : Str} (h : AllDigits ds) (L : Nat) (hl : L ≤ ds.length) :
    (∀ j v, down m ds L = some (j, v) → 0 < j ∧ j ≤ L ∧ LongestPrefix m ds L (ds.take j) (digVal (ds.take j)) v) ∧
    (down m ds L = none → NoPrefix m ds L) := by
  induction L with
  | zero =>
    refine ⟨fun j v h => by simp [down] at h, fun _ q j w _ hq hl _ => ?_⟩
    exact absurd (List.length_eq_zero_iff.1 (by omega)) hq
  | succ L ih =>
    have ih := ih (by omega)
    have hnone : mapGet m (digVal (ds.take (L + 1)) : Int) = none → ∀ q j w, q <+: ds → q.length = L + 1 → Denotes q j → ((j : Int), w) ∉ m := by
      intro hm q j w hq hql hd hmem
      obtain ⟨_, rfl⟩ := denotes_iff.1 hd
      have e := prefix_eq_take hq
      rw [hql] at e
      rw [← e] at hm
      rw [(mapGet_iff hk).2 hmem] at hm
      cases hm
    constructor
    · intro j v hd
      simp only [down] at hd
      cases hm : mapGet m (digVal (ds.take (L + 1)) : Int) with
      | none =>
        rw [hm] at hd
        obtain ⟨h0, h1, h2⟩ := ih.1 j v hd
        refine ⟨h0, by omega, ⟨h2.isPrefix, h2.nonEmpty, by have := h2.within; omega, h2.denotes, h2.value, ?_⟩⟩
        intro q j' w hq hlt hle hden
        rcases Nat.lt_or_ge q.length (L + 1) with hc | hc
        · exact h2.longest q j' w hq hlt (by omega) hden
        · exact hnone hm q j' w hq (by omega) hden
      | some v' =>
        rw [hm] at hd
        simp only [Option.some.injEq, Prod.mk.injEq] at hd
        obtain ⟨rfl, rfl⟩ := hd
        have hlen : (ds.take (L + 1)).length = L + 1 := by simp; omega
        refine ⟨by omega, by omega, ⟨List.take_prefix _ _, ?_, by omega, denotes_iff.2 ⟨fun u hu => h u (List.mem_of_mem_take hu), rfl⟩, (mapGet_iff hk).1 hm, ?_⟩⟩
        · intro hn; rw [hn] at hlen; simp at hlen
        · intro q j' w _ h1 h2; omega
    · intro hd
      simp only [down] at hd
      cases hm : mapGet m (digVal (ds.take (L + 1)) : Int) with
      | none =>
        rw [hm] at hd
        intro q j' w hq hne hle hden
        rcases Nat.lt_or_ge q.length (L + 1) with hc | hc
        · exact ih.2 hd q j' w hq hne (by omega) hden
        · exact hnone hm q j' w hq (by omega) hden
      | some v' => rw [hm] at hd; cases hd

theorem Spec.LongestPrefix.widen {ν : Type} {m : List (Int × ν)} {s p : Str} {L k : Nat} {v : ν} (h : LongestPrefix m s (min L s.length) p k v) :
    LongestPrefix m s L p k v :=
  ⟨h.isPrefix, h.nonEmpty, Nat.le_trans h.within (Nat.min_le_left _ _), h.denotes, h.value,
    fun q j w hq hlt hle hd => h.longest q j w hq hlt (Nat.le_min.2 ⟨hle, hq.length_le⟩) hd⟩

theorem Spec.NoPrefix.widen {ν : Type} {m : List (Int × ν)} {s : Str} {L : Nat} (h : NoPrefix m s (min L s.length)) : NoPrefix m s L :=
  fun q j w hq hne hle hd => h q j w hq hne (Nat.le_min.2 ⟨hle, hq.length_le⟩) hd

/-- Two longest prefixes agree. -/
theorem Spec.LongestPrefix.unique {ν : Type} {m : List (Int × ν)} (hk : (m.map (·.1)).Nodup) {s p p' : Str} {L k k' : Nat} {v v' : ν}
    (h : LongestPrefix m s L p k v) (h' : LongestPrefix m s L p' k' v') : p = p' ∧ k = k' ∧ v = v' := by
  have hl : p.length = p'.length := by
    rcases Nat.lt_trichotomy p.length p'.length with hc | hc | hc
    · exact absurd h'.value (h.longest _ _ _ h'.isPrefix hc h'.within h'.denotes)
    · exact hc
    · exact absurd h.value (h'.longest _ _ _ h.isPrefix hc h.within h.denotes)
  have hp : p = p' := by rw [prefix_eq_take h.isPrefix, prefix_eq_take h'.isPrefix, hl]
  subst hp
  have hkk : k = k' := by rw [(denotes_iff.1 h.denotes).2, (denotes_iff.1 h'.denotes).2]
  subst hkk
  have := (mapGet_iff hk).2 h.value
  rw [(mapGet_iff hk).2 h'.value] at this
  exact ⟨rfl, rfl, (Option.some.inj this).symm⟩

theorem Spec.LongestPrefix.not_none {ν : Type} {m : List (Int × ν)} {s p : Str} {L k : Nat} {v : ν}
    (h : LongestPrefix m s L p k v) : ¬ NoPrefix m s L := fun hn => hn _ _ _ h.isPrefix h.nonEmpty h.within h.denotes h.value

theorem long_not_key {ν : Type} {m : List (Int × ν)} {ds q : Str} {L j : Nat} {w : ν} (hL : 0 < L) (hkeys : ∀ e ∈ m, e.1 < 10 ^ L)
    (h0 : ds.head? ≠ some '0'.toNat) (hq : q <+: ds) (hc : L < q.length) (hden : Denotes q j) : ((j : Int), w) ∉ m := by
  intro hmem
  obtain ⟨hqd, rfl⟩ := denotes_iff.1 hden
  have hdec := dec_digVal q (allDig_of hqd) (by intro hn; subst hn; simp at hc) (.inr (by
    obtain ⟨t, rfl⟩ := hq
    cases q with
    | nil => simp at hc
    | cons a q => simpa using h0))
  have hlt := hkeys _ hmem
  have h1 : digVal q < 10 ^ L := by
    have : ((digVal q : Nat) : Int) < ((10 ^ L : Nat) : Int) := by simpa using hlt
    omega
  have := (length_dec_le hL).2 h1
  rw [hdec] at this
  omega

/-- If every key has at most `L` digits and the number does not start with 0, the limit plays no role. -/
theorem Spec.LongestPrefix.unlimited {ν : Type} {m : List (Int × ν)} {ds p : Str} {L k : Nat} {v : ν} (hkeys : ∀ e ∈ m, e.1 < 10 ^ L)
    (h0 : ds.head? ≠ some '0'.toNat) (h : LongestPrefix m ds L p k v) : LongestPrefix m ds ds.length p k v := by
  refine ⟨h.isPrefix, h.nonEmpty, h.isPrefix.length_le, h.denotes, h.value, ?_⟩
  intro q i w hq hlt _ hden
  have hL : 0 < L := Nat.lt_of_lt_of_le (List.length_pos_iff.2 h.nonEmpty) h.within
  rcases Nat.lt_or_ge L q.length with hc | hc
  · exact long_not_key hL hkeys h0 hq hc hden
  · exact h.longest q i w hq hlt hc hden

theorem Spec.NoPrefix.unlimited {ν : Type} {m : List (Int × ν)} {ds : Str} {L : Nat} (hL : 0 < L) (hkeys : ∀ e ∈ m, e.1 < 10 ^ L)
    (h0 : ds.head? ≠ some '0'.toNat) (h : NoPrefix m ds L) : NoPrefix m ds ds.length := by
  intro q i w hq hne _ hden
  rcases Nat.lt_or_ge L q.length with hc | hc
  · exact long_not_key hL hkeys h0 hq hc hden
  · exact h q i w hq hne hc hden

end Verif
