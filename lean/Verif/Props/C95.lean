import Verif.Spec.Wire
import Verif.Lemmas.Wire
import Verif.Lemmas.Ext
import Verif.Props.C08
/-!
# C95: what is written as a protobuf message is read back
-/
namespace Verif.Props
open Spec Wire

theorem goString_encode {s : Str} (h : GoString s) : Utf8.decode (Utf8.encode s) = s := by
  obtain ⟨bs, hb, rfl⟩ := h
  rw [Utf8.encode_decode bs hb]

theorem map_goString {v : Option Str} (h : ∀ s, v = some s → GoString s) : (v.map Utf8.encode).map Utf8.decode = v := by
  cases v with
  | none => rfl
  | some s => simp only [Option.map_some, goString_encode (h s rfl)]

theorem toNumber_ofNumber {n : PhoneNumber} (h : GoNumber n) : toNumber (ofNumber n) = n := by
  obtain ⟨_, _, _, h1, h2, h3⟩ := h
  have hs : (n.countryCodeSource.map sourceNumber).map sourceOf = n.countryCodeSource := by
    cases n.countryCodeSource with
    | none => rfl
    | some c => cases c <;> rfl
  unfold toNumber ofNumber
  simp only [map_goString h1, map_goString h2, map_goString h3, hs]

theorem numberOk_of {n : PhoneNumber} (h : GoNumber n) : NumberOk (ofNumber n) := by
  refine ⟨h.1, h.2, ?_, h.3⟩
  intro i hi
  cases hc : n.countryCodeSource with
  | none => rw [show (ofNumber n).countryCodeSource = n.countryCodeSource.map sourceNumber from rfl, hc] at hi; cases hi
  | some c =>
    rw [show (ofNumber n).countryCodeSource = n.countryCodeSource.map sourceNumber from rfl, hc] at hi
    cases hi
    cases c <;> simp [sourceNumber]

theorem size_ofNumber {order : List Field → List Field} (ho : Arranges order) {n : PhoneNumber} (h : GoNumber n) (hs : textBytes n < 2 ^ 31 - 160) :
    (marshalNumber order (ofNumber n)).length < 2 ^ 31 := by
  have hb : ∀ v : Option Str, ((v.map Utf8.encode).toList.map fun b : Bytes => 20 + b.length).sum ≤ 20 + blen (v.getD []) := by
    intro v
    cases v with
    | none => simp
    | some s => simp [Utf8.length_encode]
  have hl : ∀ v : Option Str, blen (v.getD []) < 2 ^ 31 - 160 → ∀ k, ∀ f ∈ putBytes k (v.map Utf8.encode), f.val.size < 2 ^ 63 := by
    intro v hv k f hf
    cases v with
    | none => simp [putBytes] at hf
    | some s =>
      simp only [putBytes, Option.map_some, Option.toList_some, List.map_cons, List.map_nil, List.mem_singleton] at hf
      subst hf
      simp only [Val.size, Utf8.length_encode]
      simp only [Option.getD_some] at hv
      omega
  have hi : ∀ k (v : Option Int), ∀ f ∈ putInt k v, f.val.size < 2 ^ 63 := by
    intro k v f hf
    obtain ⟨i, _, rfl⟩ := List.mem_map.1 hf
    simp [Val.size]
  have hbo : ∀ k (v : Option Bool), ∀ f ∈ putBool k v, f.val.size < 2 ^ 63 := by
    intro k v f hf
    obtain ⟨i, _, rfl⟩ := List.mem_map.1 hf
    simp [Val.size]
  unfold textBytes at hs
  unfold marshalNumber
  rw [length_write_perm (ho.perm _)]
  refine Nat.lt_of_le_of_lt (length_write_le ?_) ?_
  · intro f hf
    refine ⟨plain_number (numberOk_of h) f hf, ?_⟩
    unfold numberFields ofNumber at hf
    simp only [List.mem_append] at hf
    rcases hf with ((((((h | h) | h) | h) | h) | h) | h) | h
    · exact hi _ _ f h
    · obtain ⟨i, _, rfl⟩ := List.mem_map.1 h
      simp [Val.size]
    · exact hl _ (by omega) _ f h
    · exact hbo _ _ f h
    · exact hl _ (by omega) _ f h
    · exact hi _ _ f h
    · exact hl _ (by omega) _ f h
    · exact hi _ _ f h
  · have a1 := hb n.extension
    have a2 := hb n.rawInput
    have a3 := hb n.preferredCarrier
    have si : ∀ k (v : Option Int), ((putInt k v).map fun f => 20 + f.val.size).sum ≤ 20 := by
      intro k v; cases v <;> simp [putInt, Val.size]
    have sb : ∀ k (v : Option Bool), ((putBool k v).map fun f => 20 + f.val.size).sum ≤ 20 := by
      intro k v; cases v <;> simp [putBool, Val.size]
    have sn : ((n.nationalNumber.toList.map fun v => (⟨2, .varint v⟩ : Field)).map fun f => 20 + f.val.size).sum ≤ 20 := by
      cases n.nationalNumber <;> simp [Val.size]
    have sy : ∀ k (v : Option Bytes), ((putBytes k v).map fun f => 20 + f.val.size).sum = (v.toList.map fun b : Bytes => 20 + b.length).sum := by
      intro k v; cases v <;> simp [putBytes, Val.size]
    have b1 := si 1 n.countryCode
    have b2 := sb 4 n.italianLeadingZero
    have b3 := si 6 (n.countryCodeSource.map sourceNumber)
    have b4 := si 8 n.numberOfLeadingZeros
    unfold numberFields ofNumber
    simp only [List.map_append, List.sum_append, sy]
    omega

/-- A phone number with a country code and a national number is written without error, and reading the bytes gives back the number,
every field and also which fields are set, in whatever order the runtime writes the fields (messages are limited to 2 GB; 160 bytes
are more than all but the texts take). -/
theorem C95_number (order : List Field → List Field) (ho : WriteOrder order) (n : PhoneNumber) (hn : GoNumber n)
    (h1 : n.countryCode ≠ none) (h2 : n.nationalNumber ≠ none) (hs : textBytes n < 2 ^ 31 - 160) :
    ∃ bs, protoMarshal order n = some bs ∧ protoUnmarshal bs = some n := by
  have h1 : n.countryCode.isSome := Option.isSome_iff_ne_none.2 h1
  have h2 : n.nationalNumber.isSome := Option.isSome_iff_ne_none.2 h2
  refine ⟨_, if_pos ⟨h1, h2⟩, ?_⟩
  unfold protoUnmarshal
  rw [unmarshal_number ho (n := ofNumber n) h1 h2 (numberOk_of hn) (size_ofNumber ho hn hs), Option.map_some, toNumber_ofNumber hn]

/-- A phone number without country code or national number is not written, and no bytes read as one. -/
theorem C95_required (order : List Field → List Field) (n : PhoneNumber) (h : n.countryCode = none ∨ n.nationalNumber = none) :
    protoMarshal order n = none ∧ ∀ bs, protoUnmarshal bs ≠ some n := by
  refine ⟨if_neg ?_, ?_⟩
  · rintro ⟨h1, h2⟩
    rcases h with h | h
    · rw [h] at h1; cases h1
    · rw [h] at h2; cases h2
  · intro bs hb
    obtain ⟨p, hp, rfl⟩ := Option.map_eq_some_iff.1 hb
    obtain ⟨fs, _, hr⟩ := Option.bind_eq_some_iff.1 hp
    unfold readNumber at hr
    split at hr
    · rename_i hc
      cases hr
      rcases h with h | h
      · change getInt 1 fs = none at h
        rw [h] at hc; cases hc.1
      · change (varintValues 2 fs).getLast? = none at h
        rw [h] at hc; cases hc.2
    · cases hr

theorem mem_getMessages {α : Type} {k : Nat} {read : List Field → Option α} {fs : List Field} {l : List α} (h : getMessages k read fs = some l)
    {x : α} (hx : x ∈ l) : ∃ gs, read gs = some x := by
  unfold getMessages at h
  generalize byteValues k fs = ps at h
  induction ps generalizing l with
  | nil => simp only [List.mapM_nil, Option.pure_def, Option.some.injEq] at h; subst h; cases hx
  | cons p ps ih =>
    simp only [List.mapM_cons, Option.bind_eq_bind, Option.pure_def, Option.bind_eq_some_iff, Option.some.injEq] at h
    obtain ⟨y, ⟨gs, -, hy⟩, l', hl', rfl⟩ := h
    rcases List.mem_cons.1 hx with rfl | hx
    · exact ⟨gs, hy⟩
    · exact ih hx hl'

/-- Whatever bytes a collection is read from: every entry has its id, and every format its pattern and its template.  Bytes in which one
of these is missing are not read. -/
theorem C95_required_collection (bs : Bytes) (l : List PbMetadata) (h : unmarshalCollection bs = some l) :
    ∀ m ∈ l, m.id ≠ none ∧ ∀ f ∈ m.formats ++ m.intlFormats, f.pattern ≠ none ∧ f.format ≠ none := by
  intro m hm
  obtain ⟨fs, -, h⟩ := Option.bind_eq_some_iff.1 h
  obtain ⟨gs, hg⟩ := mem_getMessages h hm
  have hf : ∀ {f : PbFormat} {fs : List Field}, readFormat fs = some f → f.pattern ≠ none ∧ f.format ≠ none := by
    intro f fs hr
    unfold readFormat at hr
    split at hr
    · rename_i hc
      cases hr
      exact ⟨Option.isSome_iff_ne_none.1 hc.1, Option.isSome_iff_ne_none.1 hc.2⟩
    · cases hr
  unfold readMetadata at hg
  simp only [Option.bind_eq_bind, Option.bind_eq_some_iff, Option.pure_def, Option.some.injEq] at hg
  obtain ⟨_, _, _, _, _, _, _, _, _, _, _, _, _, _, _, _, fo, h19, fi, h20, _, _, _, _, _, _, _, _, _, _, _, _, _, _, _, _, _, _, _, hneed, hm⟩ := hg
  subst hm
  refine ⟨?_, fun f hf' => ?_⟩
  · intro hid
    change getBytes 9 gs = none at hid
    rw [hid] at hneed
    cases hneed
  · rcases List.mem_append.1 hf' with hf' | hf'
    · obtain ⟨_, hr⟩ := mem_getMessages h19 hf'; exact hf hr
    · obtain ⟨_, hr⟩ := mem_getMessages h20 hf'; exact hf hr

-- an entry with only an id is read, one with only a country code is not
example : unmarshalCollection [10, 4, 74, 2, 65, 67] = some [{ id := some [65, 67] }] ∧ unmarshalCollection [10, 2, 80, 1] = none := by
  decide +kernel

/-- Different numbers are written differently, whatever the orders. -/
theorem C95_injective (order order' : List Field → List Field) (ho : WriteOrder order) (ho' : WriteOrder order') (n n' : PhoneNumber)
    (hn : GoNumber n) (hn' : GoNumber n') (hs : textBytes n < 2 ^ 31 - 160) (hs' : textBytes n' < 2 ^ 31 - 160) (bs : Bytes)
    (h : protoMarshal order n = some bs) (h' : protoMarshal order' n' = some bs) : n = n' := by
  have get : ∀ {o : List Field → List Field} {m : PhoneNumber}, WriteOrder o → GoNumber m → textBytes m < 2 ^ 31 - 160 → protoMarshal o m = some bs →
      protoUnmarshal bs = some m := by
    intro o m ho hm hs h
    unfold protoMarshal at h
    split at h
    · rename_i hc
      obtain ⟨bs', e1, e2⟩ := C95_number o ho m hm (Option.isSome_iff_ne_none.1 hc.1) (Option.isSome_iff_ne_none.1 hc.2) hs
      unfold protoMarshal at e1
      rw [if_pos hc] at e1
      rw [Option.some.inj (h.symm.trans e1)]
      exact e2
    · cases h
  have := (get ho hn hs h).symm.trans (get ho' hn' hs' h')
  exact Option.some.inj this

theorem inRanges_mem {t : List (Nat × Nat)} {c : Nat} (h : inRanges t c = true) : ∃ r ∈ t, r.1 ≤ c ∧ c ≤ r.2 := by
  induction t with
  | nil => cases h
  | cons r t ih =>
    obtain ⟨lo, hi⟩ := r
    simp only [inRanges, Bool.or_eq_true, Bool.and_eq_true, Nat.ble_eq] at h
    rcases h with h | h
    · exact ⟨(lo, hi), by simp, h⟩
    · obtain ⟨r, hr, h⟩ := ih h
      exact ⟨r, by simp [hr], h⟩

theorem countZeros_le (s : Str) (f k : Nat) : countZeros s f k ≤ k + f := by
  induction f generalizing k with
  | zero => simp [countZeros]
  | succ f ih =>
    rw [countZeros]
    split
    · have := ih (k + 1); omega
    · omega

/-- The extension a parse finds is a run of at most twenty decimal digits. -/
theorem parseCore_ext {C : Container} {s region : Str} {check : Bool} {o : ParseOut} (h : parseCore C s region check = .ok (.ok o)) :
    o.ext.length ≤ 20 ∧ ∀ u ∈ o.ext, inRanges ndTable (rune u) = true := by
  have key : ∃ t, o.ext = (stripExtension t).1 := by
    unfold parseCore at h
    split at h
    · cases h
    · split at h
      · cases h
      · simp only [bind, Except.bind] at h
        split at h
        · cases h
        · rename_i b hb
          cases b with
          | error e => cases h
          | ok national =>
            simp only at h
            split at h
            · cases h
            · split at h
              · cases h
              · refine ⟨national, ?_⟩
                unfold parseViable at h
                simp only [bind, Except.bind] at h
                split at h
                · cases h
                · rename_i r hx
                  cases r with
                  | error e => cases h
                  | ok r =>
                    obtain ⟨code, rest, src⟩ := r
                    simp only at h
                    split at h
                    · split at h
                      · cases h
                      · rename_i f hf
                        cases f with
                        | error e => cases h
                        | ok f => cases h; rfl
                    · split at h
                      · cases h
                      · rename_i f hf
                        cases f with
                        | error e => cases h
                        | ok f => cases h; rfl
  obtain ⟨t, ht⟩ := key
  rw [ht]
  by_cases he : (stripExtension t).1 = []
  · rw [he]; exact ⟨by simp, fun u hu => (by cases hu)⟩
  · obtain ⟨_, _, _, h1, h2⟩ := stripExtension_spec t he
    exact ⟨h1, h2⟩

theorem nd_valid {u : Nat} (h : inRanges ndTable (rune u) = true) : Utf8.validRune u = true := by
  have ht : ndTable.all (fun r => decide (r.2 < 0xD800) || (decide (0xE000 ≤ r.1) && decide (r.2 < badBase))) = true := by decide +kernel
  have hf : inRanges ndTable 0xFFFD = false := by decide +kernel
  by_cases hu : u < badBase
  · rw [show rune u = u from if_pos hu] at h
    obtain ⟨r, hr, hx⟩ := inRanges_mem h
    have := List.all_eq_true.1 ht r hr
    simp only [Bool.and_eq_true, Bool.or_eq_true, decide_eq_true_eq] at this
    unfold Utf8.validRune
    simp only [Bool.and_eq_true, Bool.or_eq_true, decide_eq_true_eq]
    omega
  · rw [show rune u = 0xFFFD from if_neg hu, hf] at h; cases h

theorem valid_goString {s : Str} (h : ∀ u ∈ s, Utf8.validRune u = true) : GoString s := by
  refine ⟨Utf8.encode s, ?_, (Utf8.decode_encode s h).symm⟩
  intro b hb
  obtain ⟨u, hu, hb⟩ := List.mem_flatMap.1 hb
  have hv := h u hu
  unfold Utf8.validRune badBase at hv
  simp only [Bool.and_eq_true, Bool.or_eq_true, decide_eq_true_eq] at hv
  unfold Utf8.enc badBase at hb
  (repeat' split at hb) <;> simp only [List.mem_cons, List.not_mem_nil, or_false] at hb <;> omega

/-- Every number `Parse` returns is written and read back. -/
theorem C95_parsed (order : List Field → List Field) (ho : WriteOrder order) (s region : Str) (n : PhoneNumber)
    (h : parse Data.container s region = .ok (none, n)) : ∃ bs, protoMarshal order n = some bs ∧ protoUnmarshal bs = some n := by
  obtain ⟨o, h1, rfl⟩ := parse_core_of_ok h
  obtain ⟨p1, p2, p3, p4⟩ := parseCore_spec Data.wf_regions Data.wf_transform h1
  have hx := parseCore_ext h1
  have hblen : ∀ x : Str, x.length ≤ 20 → blen x ≤ 80 := by
    intro x hx
    have : ∀ y : Str, blen y ≤ 4 * y.length := by
      intro y
      induction y with
      | nil => simp
      | cons u y ih =>
        have : width u ≤ 4 := by unfold width; (repeat' split) <;> omega
        simp only [blen_cons, List.length_cons]; omega
    have := this x; omega
  have hcc : -2 ^ 31 ≤ o.cc ∧ o.cc < 2 ^ 31 := by
    have hall : (Data.container.ccToRegion.map (·.1)).all (fun c => decide (-2 ^ 31 ≤ c ∧ c < 2 ^ 31)) = true := by decide +kernel
    simpa using List.all_eq_true.1 hall _ (mapGet_isSome_iff.1 p1)
  have hz : ∀ i, (setItalianLeadingZeros o.nsn {}).numberOfLeadingZeros = some i → -2 ^ 31 ≤ i ∧ i < 2 ^ 31 := by
    intro i hi
    have : (countZeros o.nsn o.nsn.length 1 : Nat) ≤ 1 + o.nsn.length := countZeros_le _ _ _
    unfold setItalianLeadingZeros at hi
    split at hi
    · cases hi
    · dsimp only at hi
      split at hi
      · cases hi; omega
      · cases hi
  refine C95_number order ho _ ⟨?_, ?_, hz, ?_, ?_, ?_⟩ (by simp [ParseOut.apply]) (by simp [ParseOut.apply]) ?_
  · intro i hi; cases hi; exact hcc
  · intro v hv
    cases hv
    rw [parseUint_eq p2 (by intro e; rw [e] at p3; simp at p3) p4]
    have := digVal_lt _ p2
    have e := Nat.pow_le_pow_right (n := 10) (by decide) p4
    exact Nat.lt_of_lt_of_le this (Nat.le_trans e (by decide))
  · intro t ht
    change (if o.ext ≠ [] then some o.ext else none) = some t at ht
    split at ht
    · cases ht; exact valid_goString fun u hu => nd_valid (hx.2 u hu)
    · cases ht
  · intro t ht; cases ht
  · intro t ht
    simp [ParseOut.apply] at ht
  · have e1 : (o.apply s false {}).extension.getD [] = o.ext := by
      change (if o.ext ≠ [] then some o.ext else none).getD [] = o.ext
      split
      · rfl
      · rename_i h; simpa using Eq.symm (Classical.not_not.1 h)
    have e2 : (o.apply s false {}).rawInput.getD [] = [] := rfl
    have e3 : (o.apply s false {}).preferredCarrier.getD [] = [] := by
      simp [ParseOut.apply]
    unfold textBytes
    rw [e1, e2, e3]
    have := hblen o.ext hx.1
    simp only [blen_nil]
    omega

/-- The metadata the builder writes is the metadata the library reads: for every collection whose required fields are set, whatever
the order of the fields. -/
theorem C95_collection (order : List Field → List Field) (ho : WriteOrder order) (c : List PbMetadata) (hm : ∀ m ∈ c, GoMetadata m)
    (bs : Bytes) (h : protoMarshalCollection order c = some bs) (hs : bs.length < 2 ^ 31) : unmarshalCollection bs = some c := by
  unfold protoMarshalCollection at h
  split at h
  · rename_i hc
    cases h
    refine unmarshal_marshal ho hc ?_ hs
    intro m hmc
    obtain ⟨h1, h2⟩ := hm m hmc
    refine ⟨h1, ?_⟩
    intro d hd
    have hd : d ∈ descriptions m := by
      unfold descriptions
      exact List.mem_filterMap.2 ⟨some d, hd, rfl⟩
    exact ⟨fun i hi => h2 d hd i (by simp [hi]), fun i hi => h2 d hd i (by simp [hi])⟩
  · cases h

/-- Two files one after the other are the entries of both. -/
theorem C95_concat (a b : Bytes) (x y : List PbMetadata) (ha : unmarshalCollection a = some x) (hb : unmarshalCollection b = some y) :
    unmarshalCollection (a ++ b) = some (x ++ y) := by
  obtain ⟨fs, h1, h2⟩ := Option.bind_eq_some_iff.1 ha
  obtain ⟨gs, h3, h4⟩ := Option.bind_eq_some_iff.1 hb
  unfold unmarshalCollection
  rw [parse_append h1 h3, Option.bind_some]
  unfold readCollection getMessages at *
  rw [byteValues_append, List.mapM_append, h2, h4]
  rfl

/-- Fields of later versions of the schema do not disturb: records of fields the message does not have are ignored. -/
theorem C95_unknown (a b : Bytes) (n : PhoneNumber) (extra : List Field) (ha : protoUnmarshal a = some n) (hb : Wire.parse b = some extra)
    (hu : ∀ f ∈ extra, 8 < f.num) : protoUnmarshal (a ++ b) = some n := by
  obtain ⟨p, hp, rfl⟩ := Option.map_eq_some_iff.1 ha
  obtain ⟨fs, h1, h2⟩ := Option.bind_eq_some_iff.1 hp
  have e1 : ∀ k, 1 ≤ k → k ≤ 8 → byteValues k (fs ++ extra) = byteValues k fs := by
    intro k k1 k2
    rw [byteValues_append, byteValues_filter k extra, List.filter_eq_nil_iff.2]
    · simp [byteValues]
    · intro f hf
      have := hu f hf
      simp; omega
  have e2 : ∀ k, 1 ≤ k → k ≤ 8 → varintValues k (fs ++ extra) = varintValues k fs := by
    intro k k1 k2
    rw [varintValues_append, varintValues_filter k extra, List.filter_eq_nil_iff.2]
    · simp [varintValues]
    · intro f hf
      have := hu f hf
      simp; omega
  unfold protoUnmarshal unmarshalNumber
  rw [parse_append h1 hb, Option.bind_some]
  have : readNumber (fs ++ extra) = readNumber fs := by
    unfold readNumber getInt getBytes getBool
    simp only [e1 3 (by decide) (by decide), e1 5 (by decide) (by decide), e1 7 (by decide) (by decide), e2 1 (by decide) (by decide),
      e2 2 (by decide) (by decide), e2 4 (by decide) (by decide), e2 6 (by decide) (by decide), e2 8 (by decide) (by decide)]
  rw [this, h2]
  rfl

/-- A number with every field: reading the bytes of the reversed record order. -/
example : GoNumber
    { countryCode := some 39, nationalNumber := some 236618300, italianLeadingZero := some true, extension := some (str!"12"),
      numberOfLeadingZeros := some 1, rawInput := some (str!"+39 02 3661 8300\u00e9"), countryCodeSource := some .withPlusSign,
      preferredCarrier := some (str!"14") } := by
  have g : ∀ s : Str, s.all Utf8.validRune = true → GoString s := fun s h => valid_goString fun u hu => List.all_eq_true.1 h u hu
  refine ⟨?_, ?_, ?_, ?_, ?_, ?_⟩ <;> intro s h <;> cases h
  · decide
  · decide
  · decide
  · exact g _ (by decide +kernel)
  · exact g _ (by decide +kernel)
  · exact g _ (by decide +kernel)

/-- Orders: the order of the declarations, and the opposite order of the fields. -/
example : WriteOrder id ∧ WriteOrder (fun fs => fs.mergeSort fun a b => decide (a.num ≤ b.num)) := by
  refine ⟨fun _ _ => rfl, fun fs k => ?_⟩
  have hs := List.sublist_mergeSort (le := fun a b : Field => decide (a.num ≤ b.num)) (by intro a b c; simp; omega) (by intro a b; simp; omega)
    (ys := fs.filter fun f => f.num == k) (xs := fs) (by
      refine List.pairwise_of_forall_mem_list ?_
      intro a ha b hb
      simp only [List.mem_filter, beq_iff_eq] at ha hb
      simp; omega) List.filter_sublist
  have hs2 := hs.filter fun f => f.num == k
  rw [List.filter_filter] at hs2
  simp only [Bool.and_self] at hs2
  refine (hs2.eq_of_length ?_).symm
  exact ((List.mergeSort_perm fs _).filter _).length_eq.symm

/-- `+39 0236618300`: the bytes, their reading, and the reading of the same records in another order with an unknown field. -/
example : protoMarshal id { countryCode := some 39, nationalNumber := some 236618300, italianLeadingZero := some true } =
      some [8, 39, 16, 188, 132, 234, 112, 32, 1] ∧
    protoUnmarshal [8, 39, 16, 188, 132, 234, 112, 32, 1] =
      some { countryCode := some 39, nationalNumber := some 236618300, italianLeadingZero := some true } ∧
    protoUnmarshal [32, 1, 74, 1, 65, 16, 188, 132, 234, 112, 8, 39] =
      some { countryCode := some 39, nationalNumber := some 236618300, italianLeadingZero := some true } ∧
    protoUnmarshal [8, 39] = none := by
  refine ⟨?_, ?_, ?_, ?_⟩
  · simp [protoMarshal, marshalNumber, ofNumber, numberFields, putInt, putBytes, putBool, write, Field.write, Val.write, Val.type, uvarint, ofInt32]
  · decide +kernel
  · decide +kernel
  · decide +kernel

/-- A small collection. -/
example :
    let c : List PbMetadata := [
      { id := some [65, 68], countryCode := some 44, general := some { pattern := some [49], lengths := [6, -1] },
        formats := [{ pattern := some [49], format := some [36, 49], leadingDigits := [[49], [50]] }] },
      { id := some [65, 69] }]
    (∀ m ∈ c, GoMetadata m) ∧ (protoMarshalCollection id c).isSome = true ∧
      unmarshalCollection [10, 40, 10, 16, 18, 1, 49, 72, 6, 72, 255, 255, 255, 255, 255, 255, 255, 255, 255, 1, 74, 2, 65, 68, 80, 44, 154, 1,
        13, 10, 1, 49, 18, 2, 36, 49, 26, 1, 49, 26, 1, 50, 10, 4, 74, 2, 65, 69] = some c := by
  refine ⟨?_, rfl, ?_⟩
  · intro m hm
    simp only [List.mem_cons, List.not_mem_nil, or_false] at hm
    rcases hm with rfl | rfl
    · refine ⟨fun i hi => (by cases hi; decide), ?_⟩
      intro d hd i hi
      simp [descriptions] at hd
      subst hd
      simp at hi
      rcases hi with rfl | rfl <;> decide
    · refine ⟨fun i hi => (by cases hi), fun d hd => (by simp [descriptions] at hd)⟩
  · decide +kernel

example : ∃ n, parse Data.container (str!"020 7031 3000 ext. 12") (str!"GB") = .ok (none, n) ∧ n.extension = some (str!"12") :=
  ⟨{ countryCode := some 44, nationalNumber := some 2070313000, extension := some (str!"12") }, by kernel_rfl, rfl⟩

end Verif.Props
