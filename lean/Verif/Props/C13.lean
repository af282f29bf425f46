import Verif.Props.C09
import Verif.Lemmas.Plain
import Verif.Lemmas.Dec
/-!
# C13: country code extraction is unambiguous
-/
namespace Verif.Props
open Spec

/-- What is extracted is a supported code of one to three digits at the start of the string, the string does not start with 0,
and the remainder is exactly the rest. -/
theorem C13_extracted (C : Container) (s : Str) (c : Int) (r : Str) (h : extractCC C s = (c, r)) (hc : c ≠ 0) :
    C.hasCC c = true ∧ 0 < c ∧ c < 1000 ∧ s = decimal c.toNat ++ r := by
  have h1 := extractCC_spec C s (by rw [h]; exact hc)
  rw [h] at h1
  obtain ⟨h2, h0, j, h3, h4, h5, h6, h7, h8⟩ := h1
  simp only at h2 h6 h8
  have hlen : (s.take j).length = j := by simp; omega
  have hlt := digVal_lt _ h7
  rw [hlen] at hlt
  have : 10 ^ j ≤ 10 ^ 3 := Nat.pow_le_pow_right (by omega) h4
  have hd : dec (digVal (s.take j)) = s.take j := by
    refine dec_digVal _ h7 ?_ ?_
    · intro h0; rw [h0] at hlen; simp at hlen; omega
    · right
      rw [List.head?_take]
      split
      · simp
      · exact h0
  refine ⟨h2, by omega, by omega, ?_⟩
  rw [h8, h6, ← dec_eq_decimal]
  simp [hd]

/-- Nothing is extracted only if the string is empty, starts with 0, or none of its prefixes of one to three characters is the
decimal form of a supported code. -/
theorem C13_not_extracted (C : Container) (s : Str) (h : (extractCC C s).1 = 0) (hC : C.hasCC 0 = false)
    (h0 : s.head? ≠ some '0'.toNat) (p r : Str) (hs : s = p ++ r) (hd : AllDigits p) (h1 : 1 ≤ p.length) (h3 : p.length ≤ 3) :
    C.hasCC (digVal p) = false := by
  have loop : ∀ k i, (∀ c r, extractCCLoop C s k i = some (c, r) → c = 0) → i ≤ p.length → p.length < i + k →
      C.hasCC (digVal p) = false := by
    intro k
    induction k with
    | zero => intros; omega
    | succ k ih =>
      intro i hl hi hk
      have hle : i ≤ s.length := by rw [hs]; simp; omega
      have hti : ((s.take i).all isDig) = true := by
        rw [List.all_eq_true]; intro u hu
        refine (isDig_iff u).2 (hd u ?_)
        have : s.take i = p.take i := by rw [hs, List.take_append_of_le_length hi]
        rw [this] at hu; exact List.mem_of_mem_take hu
      unfold extractCCLoop at hl
      simp only [hle, if_true, hti] at hl
      by_cases hcc : C.hasCC (digVal (s.take i)) = true
      · simp only [hcc, if_true] at hl
        have := hl _ _ rfl
        rw [this, hC] at hcc; cases hcc
      · by_cases hip : i = p.length
        · have : s.take i = p := by rw [hip, hs]; simp
          rw [this] at hcc; simpa using hcc
        · simp only [hcc] at hl
          exact ih (i + 1) hl (by omega) (by omega)
  refine loop 3 1 ?_ h1 (by omega)
  intro c r hl
  unfold extractCC at h
  split at h
  · have := congrArg List.length hs; simp at this; omega
  · rename_i t; simp at h0
  · rw [show maxLengthCountryCode = 3 from rfl, hl] at h; exact h

/-- Is the natural number `c` a supported code?  (Comparison of natural numbers: cheap in the kernel.) -/
def isCode (C : Container) (c : Nat) : Bool := C.ccToRegion.any fun e => Nat.beq e.1.toNat c

/-- No supported code is the beginning of another one, and all are between 1 and 999. -/
def prefixFree (C : Container) : Bool :=
  C.ccToRegion.all fun e => decide (0 < e.1) && decide (e.1 < 1000) &&
    (Nat.ble e.1.toNat 9 || !isCode C (e.1.toNat / 10)) && (Nat.ble e.1.toNat 99 || !isCode C (e.1.toNat / 100))

theorem isCode_of_hasCC {C : Container} {c : Nat} (h : C.hasCC (c : Int) = true) : isCode C c = true := by
  rw [Container.hasCC, mapGet_isSome_iff, List.mem_map] at h
  obtain ⟨e, he, h1⟩ := h
  rw [isCode, List.any_eq_true]
  exact ⟨e, he, by simp [h1]⟩

theorem prefixFree_spec {C : Container} (h : prefixFree C = true) {c : Int} (hc : C.hasCC c = true) :
    0 < c ∧ c < 1000 ∧ (10 ≤ c → C.hasCC (c / 10) = false) ∧ (100 ≤ c → C.hasCC (c / 100) = false) := by
  rw [Container.hasCC, mapGet_isSome_iff, List.mem_map] at hc
  obtain ⟨e, he, rfl⟩ := hc
  have := List.all_eq_true.1 h e he
  simp only [Bool.and_eq_true, decide_eq_true_eq, Bool.or_eq_true, Nat.ble_eq, Bool.not_eq_true'] at this
  obtain ⟨⟨⟨h1, h2⟩, h3⟩, h4⟩ := this
  refine ⟨h1, h2, ?_, ?_⟩
  · intro h10
    rcases h3 with h3 | h3
    · omega
    · cases hx : C.hasCC (e.1 / 10) with
      | false => rfl
      | true =>
        rw [show e.1 / 10 = ((e.1.toNat / 10 : Nat) : Int) by omega] at hx
        rw [isCode_of_hasCC hx] at h3; cases h3
  · intro h100
    rcases h4 with h4 | h4
    · omega
    · cases hx : C.hasCC (e.1 / 100) with
      | false => rfl
      | true =>
        rw [show e.1 / 100 = ((e.1.toNat / 100 : Nat) : Int) by omega] at hx
        rw [isCode_of_hasCC hx] at h4; cases h4

theorem prefixFree_shipped : prefixFree Data.container = true := by kernel_rfl

/-- The code found is the only possible one: in metadata where no supported code is the beginning of another, a digit string
starting with a supported code is split right after it. -/
theorem C13_unique (C : Container) (hC : prefixFree C = true) (h00 : C.hasCC 0 = false) (c : Int) (r : Str)
    (hc : C.hasCC c = true) (hr : AllDigits r) : extractCC C (decimal c.toNat ++ r) = (c, r) := by
  obtain ⟨h0, h1000, h10, h100⟩ := prefixFree_spec hC hc
  obtain ⟨k, rfl⟩ : ∃ k : Nat, c = k := ⟨c.toNat, by omega⟩
  simp only [Int.toNat_natCast, ← dec_eq_decimal]
  have hlen : (dec k).length ≤ 3 := (length_dec_le (by omega)).2 (by omega)
  have hne := dec_ne_nil k
  have hhead := dec_head k (by omega)
  have hdig := dec_digits k
  have hd : ∀ u ∈ dec k ++ r, isDig u = true := by
    intro u hu
    rcases List.mem_append.mp hu with hu | hu
    · exact hdig u hu
    · exact (isDig_iff u).2 (hr u hu)
  cases hx : extractCC C (dec k ++ r) with
  | mk c' r' =>
    by_cases hc0 : c' = 0
    · have := C13_not_extracted C (dec k ++ r) (by rw [hx]; exact hc0) h00 (by rw [head?_append' _ _ hne]; exact hhead) (dec k) r rfl
        (fun u hu => (isDig_iff u).1 (hdig u hu)) (by have := List.length_pos_iff.2 hne; omega) hlen
      rw [digVal_dec, hc] at this; cases this
    · obtain ⟨g1, g2, g3, g4⟩ := C13_extracted C _ _ _ hx hc0
      obtain ⟨k', rfl⟩ : ∃ k' : Nat, c' = k' := ⟨c'.toNat, by omega⟩
      simp only [Int.toNat_natCast, ← dec_eq_decimal] at g4
      -- one of the two decimals is a prefix of the other
      have key : ∀ (a b : Nat) (x : Str), C.hasCC (b : Int) = true → C.hasCC (a : Int) = true → dec b = dec a ++ x → x = [] := by
        intro a b x hb ha hab
        obtain ⟨b0, b1000, b10, b100⟩ := prefixFree_spec hC hb
        have hl : (dec b).length ≤ 3 := (length_dec_le (by omega)).2 (by omega)
        have hla := List.length_pos_iff.2 (dec_ne_nil a)
        have hv := congrArg digVal hab
        have hxl := congrArg List.length hab
        rw [List.length_append] at hxl
        rw [digVal_append, digVal_dec, digVal_dec] at hv
        have hxd : ∀ u ∈ x, isDig u = true := fun u hu => dec_digits b u (by rw [hab]; simp [hu])
        have hlt := digVal_lt x hxd
        have ha0 : (0 : Int) < a := (prefixFree_spec hC ha).1
        match x, hxl, hv, hlt with
        | [], _, _, _ => rfl
        | [u], _, hv, hlt =>
          simp only [List.length_singleton, Nat.pow_one] at hv hlt
          have : (b : Int) / 10 = a := by omega
          have := b10 (by omega)
          rw [‹(b : Int) / 10 = a›, ha] at this; cases this
        | [u, v], _, hv, hlt =>
          simp only [List.length_cons, List.length_nil] at hv hlt
          have h2 : (10 : Nat) ^ (0 + 1 + 1) = 100 := by decide
          rw [h2] at hv hlt
          have e1 : (b : Int) / 100 = a := by omega
          have := b100 (by omega)
          rw [e1, ha] at this; cases this
        | u :: v :: w :: y, hxl, _, _ => simp at hxl; omega
      rcases List.append_eq_append_iff.1 g4 with ⟨x, hx1, hx2⟩ | ⟨x, hx1, hx2⟩
      · have := key k k' x g1 hc hx1
        subst this
        have := dec_inj (by simpa using hx1); subst this
        simp at hx2; rw [hx2]
      · have := key k' k x hc g1 hx1
        subst this
        have := dec_inj (by simpa using hx1); subst this
        simp at hx2; rw [hx2]

/-- At the level of `Parse`: a plus sign, a supported code and more digits, with any default region, is never parsed to another
country code. -/
theorem C13_parse (C : Container) (hC : prefixFree C = true) (h00 : C.hasCC 0 = false) (c : Int) (r region : Str)
    (hc : C.hasCC c = true) (hr : AllDigits r) (n : PhoneNumber)
    (h : parse C ('+'.toNat :: (decimal c.toNat ++ r)) region = .ok (none, n)) : n.countryCode = some c := by
  unfold parse parseToNumber at h
  rw [show '+'.toNat = 43 from rfl] at h
  obtain ⟨o, ho, rfl⟩ := parse_core_of_ok h
  have hd : ∀ u ∈ decimal c.toNat ++ r, isDig u = true := by
    intro u hu
    rcases List.mem_append.mp hu with hu | hu
    · rw [← dec_eq_decimal] at hu; exact dec_digits _ u hu
    · exact (isDig_iff u).2 (hr u hu)
  have hx := C13_unique C hC h00 c r hc hr
  have hne : c ≠ 0 := by rintro rfl; rw [hc] at h00; cases h00
  by_cases h3 : (decimal c.toNat ++ r).length < 3
  · exact absurd ho (parseCore_plusShort C _ region true hd h3 o)
  · have hlen : (decimal c.toNat ++ r).length < 250 := by
      unfold parseCore at ho
      rw [if_neg (by simp)] at ho
      split at ho
      · cases ho
      · rename_i hl
        simp only [blen_cons, blen_digits hd, maxInputStringLength, show width 43 = 1 from rfl] at hl
        omega
    have := parseCore_plusDigits C _ region true hd (by omega) hlen (by rw [hx]; exact hne)
    rw [this, hx] at ho
    simp only [bind, Except.bind] at ho
    split at ho
    · cases ho
    · split at ho
      · cases ho
      · cases ho; rfl

/-- The shipped metadata: unconditional. -/
theorem C13_shipped (c : Int) (r region : Str) (hc : c ∈ Data.container.supportedCodes) (hr : AllDigits r) (n : PhoneNumber)
    (h : parse Data.container ('+'.toNat :: (decimal c.toNat ++ r)) region = .ok (none, n)) : n.cc = c := by
  have hs : Data.container.supportedCodes = Data.container.ccToRegion.map (·.1) := by kernel_rfl
  rw [hs] at hc
  have := C13_parse _ prefixFree_shipped (hasCC_zero Data.wf_regions) c r region (mapGet_isSome_iff.2 hc) hr n h
  rw [PhoneNumber.cc, this]; rfl

example : Data.container.hasCC 41 = true ∧ extractCC Data.container (str!"41446681800") = (41, str!"446681800") := by
  constructor <;> kernel_rfl
example : parse Data.container (str!"+41446681800") (str!"US") =
    .ok (none, { countryCode := some 41, nationalNumber := some 446681800 }) := by kernel_rfl
-- "+1 242…" stays with country code 1: 1242 is not a calling code of its own
example : parse Data.container (str!"+12423651234") (str!"CH") =
    .ok (none, { countryCode := some 1, nationalNumber := some 2423651234 }) := by kernel_rfl

end Verif.Props
