import Verif.Model.BuildFiles
import Verif.Spec.BuildFiles
import Verif.Lemmas.Builder
import Verif.Lemmas.Wire
import Verif.Spec.Wire
/-!
# Lemmas on the files of the build command
-/
namespace Verif
namespace Builder
open Wire Spec

/-! ## Texts -/

theorem _root_.Verif.Spec.ValidText.nil : ValidText [] := by intro u hu; cases hu

theorem _root_.Verif.Spec.ValidText.append {a b : Str} (ha : ValidText a) (hb : ValidText b) : ValidText (a ++ b) := by
  intro u hu
  rcases List.mem_append.1 hu with h | h
  · exact ha u h
  · exact hb u h

theorem _root_.Verif.Spec.ValidText.sub {a b : Str} (h : ∀ u ∈ a, u ∈ b) (hb : ValidText b) : ValidText a := fun u hu => hb u (h u hu)

theorem _root_.Verif.Spec.ValidText.replaceOnce {s old new : Str} (hs : ValidText s) (hn : ValidText new) : ValidText (replaceOnce s old new) := by
  unfold Builder.replaceOnce
  split
  · exact ((hs.sub fun u hu => List.mem_of_mem_take hu).append hn).append (hs.sub fun u hu => List.mem_of_mem_drop hu)
  · exact hs

theorem _root_.Verif.Spec.ValidText.carrierRule {r np : Str} (hr : ValidText r) (hn : ValidText np) : ValidText (carrierRule r np) := by
  unfold Builder.carrierRule
  refine (hr.replaceOnce ?_).replaceOnce hn
  unfold ValidText; decide

theorem _root_.Verif.Spec.ValidText.prefixRule {r np : Str} (hr : ValidText r) (hn : ValidText np) : ValidText (prefixRule r np) := by
  unfold Builder.prefixRule
  refine (hr.replaceOnce hn).replaceOnce ?_
  unfold ValidText; decide

theorem sp_getD (s : Str) : (sp s).getD [] = Utf8.encode s := by
  unfold sp
  split
  · rename_i h; rw [h]; rfl
  · rfl

theorem dec_sp {s : Str} (h : ValidText s) : Utf8.decode ((sp s).getD []) = s := by
  rw [sp_getD, Utf8.decode_encode s h]

/-! ## Patterns -/

/-- The tree of a pattern is that of its text. -/
def GoodPat (p : Pat) : Prop := parseRe p.src = some p.re ∧ ValidText p.src

theorem GoodPat.empty : GoodPat .empty := ⟨by decide, ValidText.nil⟩

theorem GoodPat.toPat {p : Pat} (h : GoodPat p) : toPat Utf8.decode (Utf8.encode p.src) = some p := by
  unfold Wire.toPat
  rw [Utf8.decode_encode p.src h.2, h.1]
  rfl

theorem GoodPat.sp {p : Pat} (h : GoodPat p) : Wire.toPat Utf8.decode ((Builder.sp p.src).getD []) = some p := by
  rw [sp_getD, h.toPat]

theorem GoodPat.mapM {l : List Pat} (h : ∀ p ∈ l, GoodPat p) :
    (l.map fun p => Utf8.encode p.src).mapM (Wire.toPat Utf8.decode) = some l := by
  induction l with
  | nil => rfl
  | cons p l ih =>
    rw [List.map_cons, List.mapM_cons, (h p (by simp)).toPat, ih fun q hq => h q (by simp [hq])]
    rfl

theorem validateRE_good {s : Str} {b : Bool} {p : Pat} (hs : ValidText s) (h : validateRE parseRe s b = .ok p) : GoodPat p := by
  unfold validateRE at h
  dsimp only at h
  have hv : ValidText (if b then s.filter (fun u => !isSpaceRe u) else s) := by
    split
    · exact hs.sub fun u hu => (List.mem_filter.1 hu).1
    · exact hs
  generalize (if b then s.filter (fun u => !isSpaceRe u) else s) = t at h hv
  cases ht : parseRe t with
  | none => rw [ht] at h; cases h
  | some re => rw [ht] at h; cases h; exact ⟨ht, hv⟩

theorem setPat_good {p : Pat} (h : GoodPat p) : GoodPat (setPat p) := by
  unfold setPat
  split
  · exact GoodPat.empty
  · exact h

theorem optPat_good {s : Str} {b : Bool} {p : Pat} (hs : ValidText s) (h : optPat parseRe s b = .ok p) : GoodPat p := by
  unfold optPat at h
  split at h
  · cases h; exact GoodPat.empty
  · obtain ⟨q, h1, h⟩ := bind_ok.1 h
    cases h
    exact setPat_good (validateRE_good hs h1)

/-! ## Formats -/

/-- A format whose texts are valid. -/
structure GoodFormat (f : NumberFormat) : Prop where
  pattern : GoodPat f.pattern
  leadingDigits : ∀ p ∈ f.leadingDigits, GoodPat p
  format : ValidText f.format
  npRule : ValidText f.npRule
  ccRule : ValidText f.ccRule

theorem GoodFormat.message {f : NumberFormat} (h : GoodFormat f) : toFormat (toPat Utf8.decode) Utf8.decode (formatMessage f) = some f := by
  unfold toFormat formatMessage
  dsimp only
  rw [h.pattern.sp, GoodPat.mapM h.leadingDigits, dec_sp h.format, dec_sp h.npRule, dec_sp h.ccRule]
  cases f with
  | mk a b c d e g => cases e <;> rfl

theorem GoodFormat.mapM {l : List NumberFormat} (h : ∀ f ∈ l, GoodFormat f) :
    (l.map formatMessage).mapM (toFormat (toPat Utf8.decode) Utf8.decode) = some l := by
  induction l with
  | nil => rfl
  | cons p l ih =>
    rw [List.map_cons, List.mapM_cons, (h p (by simp)).message, ih fun q hq => h q (by simp [hq])]
    rfl

theorem leadingPatterns_good : ∀ {ss : List Str} {ps : List Pat}, (∀ s ∈ ss, ValidText s) → leadingPatterns parseRe ss = .ok ps →
    ∀ p ∈ ps, GoodPat p
  | [], ps, _, h => by cases h; simp
  | s :: ss, ps, hs, h => by
    unfold leadingPatterns at h
    obtain ⟨p, h1, h⟩ := bind_ok.1 h
    obtain ⟨qs, h2, h⟩ := bind_ok.1 h
    cases h
    intro q hq
    rcases List.mem_cons.1 hq with rfl | hq
    · exact validateRE_good (hs s (by simp)) h1
    · exact leadingPatterns_good (fun s h => hs s (by simp [h])) h2 q hq

theorem nationalFormat_good {np npRule : Str} {b : Bool} {cc : Str} {e : FormatE} {f : NumberFormat} (hnp : ValidText np)
    (hr : ValidText npRule) (hcc : ValidText cc) (he : ∀ s ∈ formatTexts e, ValidText s)
    (h : nationalFormat parseRe np npRule b cc e = .ok f) : GoodFormat f := by
  unfold nationalFormat at h
  obtain ⟨c, h1, h⟩ := bind_ok.1 h
  obtain ⟨ld, h2, h⟩ := bind_ok.1 h
  obtain ⟨p, h3, h⟩ := bind_ok.1 h
  cases h
  refine ⟨setPat_good (validateRE_good (he _ (by simp [formatTexts])) h3),
    leadingPatterns_good (fun s hs => he _ (by simp [formatTexts, hs])) h2, he _ (by simp [formatTexts]), ?_, ?_⟩
  · dsimp only
    split
    · exact (he e.npRule (by simp [formatTexts])).prefixRule hnp
    · exact hr
  · dsimp only
    split at h1
    · obtain ⟨q, h4, h1⟩ := bind_ok.1 h1
      cases h1
      exact (validateRE_good ((he e.ccRule (by simp [formatTexts])).carrierRule hnp) h4).2
    · cases h1; exact hcc

theorem internationalFormat_good {e : FormatE} {f : NumberFormat} {r : List NumberFormat × Bool} (hf : GoodFormat f)
    (he : ∀ s ∈ formatTexts e, ValidText s) (h : internationalFormat e f = .ok r) : ∀ g ∈ r.1, GoodFormat g := by
  unfold internationalFormat at h
  split at h
  · cases h
    intro g hg
    dsimp only at hg
    split at hg
    · rw [List.mem_singleton.1 hg]; exact hf
    · cases hg
  · rename_i x hx
    cases h
    intro g hg
    dsimp only at hg
    split at hg
    · rw [List.mem_singleton.1 hg]
      exact ⟨hf.pattern, hf.leadingDigits, he x (by simp [formatTexts, hx]), ValidText.nil, ValidText.nil⟩
    · cases hg
  · cases h

theorem loadFormats_good {np npRule : Str} {b : Bool} {cc : Str} (hnp : ValidText np) (hr : ValidText npRule) (hcc : ValidText cc) :
    ∀ {es : List FormatE} {r : List NumberFormat × List NumberFormat × Bool}, (∀ e ∈ es, ∀ s ∈ formatTexts e, ValidText s) →
    loadFormats parseRe np npRule b cc es = .ok r → (∀ f ∈ r.1, GoodFormat f) ∧ ∀ f ∈ r.2.1, GoodFormat f
  | [], r, _, h => by cases h; simp
  | e :: es, r, he, h => by
    unfold loadFormats at h
    obtain ⟨f, h1, h⟩ := bind_ok.1 h
    obtain ⟨⟨i, ex⟩, h2, h⟩ := bind_ok.1 h
    obtain ⟨⟨ns, is, ex'⟩, h3, h⟩ := bind_ok.1 h
    cases h
    have hf := nationalFormat_good hnp hr hcc (he e (by simp)) h1
    have hi := internationalFormat_good hf (he e (by simp)) h2
    have ih := loadFormats_good hnp hr hcc (fun e h => he e (by simp [h])) h3
    refine ⟨?_, ?_⟩
    · intro g hg
      rcases List.mem_cons.1 hg with rfl | hg
      · exact hf
      · exact ih.1 g hg
    · intro g hg
      rcases List.mem_append.1 hg with hg | hg
      · exact hi g hg
      · exact ih.2 g hg

theorem availableFormats_good {t : TerritoryE} {np npRule : Str} {r : List NumberFormat × List NumberFormat} (hnp : ValidText np)
    (hr : ValidText npRule) (ht : ∀ s ∈ territoryTexts t, ValidText s) (h : availableFormats parseRe t np npRule = .ok r) :
    (∀ f ∈ r.1, GoodFormat f) ∧ ∀ f ∈ r.2, GoodFormat f := by
  unfold availableFormats at h
  obtain ⟨c, h1, h⟩ := bind_ok.1 h
  obtain ⟨⟨ns, is, ex⟩, h2, h⟩ := bind_ok.1 h
  cases h
  have hcc : ValidText c := by
    split at h1
    · obtain ⟨q, h4, h1⟩ := bind_ok.1 h1
      cases h1
      exact (validateRE_good ((ht t.ccRule (by simp [territoryTexts])).carrierRule hnp) h4).2
    · cases h1; exact ValidText.nil
  obtain ⟨g1, g2⟩ := loadFormats_good hnp hr hcc (fun e he s hs => ht s (by
    unfold territoryTexts
    exact List.mem_append_left _ (List.mem_append_right _ (List.mem_flatMap.2 ⟨e, he, hs⟩)))) h2
  refine ⟨g1, ?_⟩
  intro f hf
  dsimp only at hf
  split at hf
  · exact g2 f hf
  · cases hf

/-! ## Lengths -/

/-- All members are in the range of `int32`. -/
def Int32s (l : List Int) : Prop := ∀ x ∈ l, IsInt32 x

theorem Int32s.nil : Int32s [] := by intro x hx; cases hx

theorem wrap32_int32 (x : Int) : IsInt32 (wrap32 x) := by unfold IsInt32 wrap32; omega

theorem Int32s.addKey {s : List Int} {k : Int} (hs : Int32s s) (hk : IsInt32 k) : Int32s (addKey s k) := by
  unfold Builder.addKey
  split
  · exact hs
  · intro x hx
    rcases List.mem_append.1 hx with h | h
    · exact hs x h
    · rw [List.mem_singleton.1 h]; exact hk

theorem Int32s.addKeys : ∀ {ks s : List Int}, Int32s s → Int32s ks → Int32s (ks.foldl Builder.addKey s)
  | [], _, hs, _ => hs
  | k :: ks, s, hs, hk => by
    rw [List.foldl_cons]
    exact Int32s.addKeys (Int32s.addKey hs (hk k (by simp))) fun x hx => hk x (by simp [hx])

theorem addLengthItem_int32 {s r : List Int} {i : Str} (hs : Int32s s) (h : addLengthItem s i = .ok r) : Int32s r := by
  unfold addLengthItem at h
  split at h
  · cases h
  · split at h
    · cases h
    · split at h
      · dsimp only at h
        split at h
        · cases h
        · cases h
          refine hs.addKeys ?_
          intro x hx
          unfold rangeKeys at hx
          obtain ⟨i, _, rfl⟩ := List.mem_map.1 hx
          exact wrap32_int32 _
      · cases h
  · cases h
    exact hs.addKey (wrap32_int32 _)

theorem addLengthItems_int32 : ∀ {is : List Str} {s r : List Int}, Int32s s → addLengthItems s is = .ok r → Int32s r
  | [], s, r, hs, h => by cases h; exact hs
  | i :: is, s, r, hs, h => by
    unfold addLengthItems at h
    obtain ⟨s', h1, h⟩ := bind_ok.1 h
    exact addLengthItems_int32 (addLengthItem_int32 hs h1) h

theorem parseLengths_int32 {s : Str} {r : List Int} (h : parseLengths s = .ok r) : Int32s r := by
  unfold parseLengths at h
  split at h
  · cases h
  · exact addLengthItems_int32 Int32s.nil h

theorem addDescLengths_int32 {o : Order} (ho : o.Fair) {acc r : List Int × List Int} {d : Option DescE} (h1 : Int32s acc.1)
    (h2 : Int32s acc.2) (h : addDescLengths o acc d = .ok r) : Int32s r.1 ∧ Int32s r.2 := by
  unfold addDescLengths at h
  split at h
  · cases h; exact ⟨h1, h2⟩
  · obtain ⟨mine, h3, h⟩ := bind_ok.1 h
    obtain ⟨loc, h4, h⟩ := bind_ok.1 h
    cases h
    have p : ∀ k l, Int32s l → Int32s ((o.sub k) [] l) := fun k l hl x hx => hl x (((ho.sub k) [] l).mem_iff.1 hx)
    refine ⟨h1.addKeys (p _ _ (parseLengths_int32 h3)), ?_⟩
    dsimp only
    split at h4
    · obtain ⟨ml, h5, h4⟩ := bind_ok.1 h4
      dsimp only at h4
      split at h4
      · cases h4
      · cases h4
        exact h2.addKeys (p _ _ (parseLengths_int32 h5))
    · cases h4; exact h2

theorem populateLengths_int32 {o : Order} (ho : o.Fair) : ∀ {ds : List (Option DescE)} {k : Nat} {acc r : List Int × List Int}, Int32s acc.1 →
    Int32s acc.2 → populateLengths o k acc ds = .ok r → Int32s r.1 ∧ Int32s r.2
  | [], k, acc, r, h1, h2, h => by cases h; exact ⟨h1, h2⟩
  | d :: ds, k, acc, r, h1, h2, h => by
    unfold populateLengths at h
    obtain ⟨a, h3, h⟩ := bind_ok.1 h
    obtain ⟨g1, g2⟩ := addDescLengths_int32 (ho.sub k) h1 h2 h3
    exact populateLengths_int32 ho g1 g2 h

theorem ite_error {α : Type} {c : Prop} [Decidable c] {x : Go α} {p : Panic} {r : α} (h : (if c then x else .error p) = .ok r) : x = .ok r := by
  split at h
  · exact h
  · cases h

theorem ite_nil {α : Type} {c : Prop} [Decidable c] {x : Go (List α)} {r : List α} (h : (if c then x else .ok []) = .ok r) :
    x = .ok r ∨ r = [] := by
  split at h
  · exact .inl h
  · cases h; exact .inr rfl

theorem checkLengths_sub {parent : Option Desc} : ∀ {l r : List Int}, checkLengths parent l = .ok r → ∀ x ∈ r, x ∈ l
  | [], r, h => by cases h; simp
  | a :: l, r, h => by
    unfold checkLengths at h
    obtain ⟨q, h1, h⟩ := bind_ok.1 (ite_error h)
    cases h
    intro x hx
    rcases List.mem_cons.1 hx with rfl | hx
    · simp
    · exact List.mem_cons_of_mem _ (checkLengths_sub h1 x hx)

theorem checkLocal_sub {parent : Option Desc} {ls : List Int} : ∀ {l r : List Int}, checkLocal parent ls l = .ok r → ∀ x ∈ r, x ∈ l
  | [], r, h => by cases h; simp
  | a :: l, r, h => by
    unfold checkLocal at h
    split at h
    · exact fun x hx => List.mem_cons_of_mem _ (checkLocal_sub h x hx)
    · obtain ⟨q, h1, h⟩ := bind_ok.1 (ite_error h)
      cases h
      intro x hx
      rcases List.mem_cons.1 hx with rfl | hx
      · simp
      · exact List.mem_cons_of_mem _ (checkLocal_sub h1 x hx)

theorem setLengths_good {o : Order} (ho : o.Fair) {ls loc : List Int} {parent : Option Desc} {d r : Desc} (h1 : Int32s ls) (h2 : Int32s loc)
    (h : setLengths o ls loc parent d = .ok r) : Int32s r.lengths ∧ Int32s r.localLengths ∧ r.pattern = d.pattern ∧ r.ex = d.ex := by
  unfold setLengths at h
  obtain ⟨a, h3, h⟩ := bind_ok.1 h
  obtain ⟨b, h4, h⟩ := bind_ok.1 h
  cases h
  refine ⟨?_, ?_, rfl, rfl⟩
  · intro x hx
    have hx := (List.mem_mergeSort).1 hx
    rcases ite_nil h3 with h3 | rfl
    · exact h1 x (((ho.sub 0) [] ls).mem_iff.1 (checkLengths_sub h3 x hx))
    · cases hx
  · intro x hx
    have hx := (List.mem_mergeSort).1 hx
    exact h2 x (((ho.sub 1) [] loc).mem_iff.1 (checkLocal_sub h4 x hx))

/-! ## Descriptions -/

/-- A description whose texts are valid and whose lengths are `int32`. -/
structure GoodDesc (d : Desc) : Prop where
  pattern : ∀ p, d.pattern = some p → GoodPat p
  ex : ValidText d.ex
  lengths : Int32s d.lengths
  localLengths : Int32s d.localLengths

theorem GoodDesc.message {d : Desc} (h : GoodDesc d) : toDesc (toPat Utf8.decode) Utf8.decode (descMessage d) = some d := by
  unfold toDesc descMessage
  dsimp only
  rw [dec_sp h.ex]
  obtain ⟨p, ls, lo, ex⟩ := d
  cases p with
  | none => rfl
  | some p =>
    dsimp only [Option.map_some]
    rw [(h.pattern p rfl).toPat]
    rfl

/-- An optional description. -/
def GoodDesc? (d : Option Desc) : Prop := ∀ x, d = some x → GoodDesc x

theorem GoodDesc?.message {d : Option Desc} (h : GoodDesc? d) :
    toDesc? (toPat Utf8.decode) Utf8.decode (d.map descMessage) = some d := by
  cases d with
  | none => rfl
  | some d =>
    unfold toDesc?
    rw [Option.map_some]
    dsimp only
    rw [(h d rfl).message]
    rfl

theorem GoodDesc?.none : GoodDesc? none := by intro x hx; cases hx

theorem GoodDesc?.some {d : Desc} (h : GoodDesc d) : GoodDesc? (some d) := by
  intro x hx
  cases hx
  exact h

theorem processDesc_good {o : Order} (ho : o.Fair) {parent : Option Desc} {e : Option DescE} {d : Desc}
    (he : ∀ x, e = some x → ValidText x.pattern ∧ ValidText x.ex) (h : processDesc parseRe o parent e = .ok d) : GoodDesc d := by
  unfold processDesc at h
  cases e with
  | none =>
    cases h
    refine ⟨fun p hp => (by cases hp), ValidText.nil, ?_, Int32s.nil⟩
    intro x hx
    rw [List.mem_singleton.1 hx]
    unfold IsInt32; omega
  | some el =>
    obtain ⟨v1, v2⟩ := he el rfl
    dsimp only at h
    obtain ⟨d0, h0, h⟩ := bind_ok.1 h
    obtain ⟨d1, h1, h⟩ := bind_ok.1 h
    cases h
    have hd0 : Int32s d0.lengths ∧ Int32s d0.localLengths ∧ d0.pattern = none := by
      cases parent with
      | none => cases h0; exact ⟨Int32s.nil, Int32s.nil, rfl⟩
      | some p =>
        dsimp only at h0
        obtain ⟨⟨ls, loc⟩, h2, h0⟩ := bind_ok.1 h0
        obtain ⟨g1, g2⟩ := populateLengths_int32 (ho.sub 0) Int32s.nil Int32s.nil h2
        obtain ⟨k1, k2, k3, _⟩ := setLengths_good (ho.sub 1) g1 g2 h0
        exact ⟨k1, k2, k3⟩
    split at h1
    · obtain ⟨p, h3, h1⟩ := bind_ok.1 h1
      cases h1
      refine ⟨?_, v2, hd0.1, hd0.2.1⟩
      intro q hq
      dsimp only at hq
      split at hq
      · cases hq
      · cases hq
        exact validateRE_good v1 h3
    · cases h1
      refine ⟨?_, v2, hd0.1, hd0.2.1⟩
      intro q hq
      rw [hd0.2.2] at hq
      cases hq

theorem setGeneralLengths_good {o : Order} (ho : o.Fair) {t : TerritoryE} {short : Bool} {g r : Desc} (hg : GoodDesc g)
    (h : setGeneralLengths o t short g = .ok r) : GoodDesc r := by
  unfold setGeneralLengths at h
  obtain ⟨acc, h1, h⟩ := bind_ok.1 h
  split at h
  · cases h
  · obtain ⟨⟨ls, loc⟩, h2, h⟩ := bind_ok.1 h
    dsimp only at h
    split at h
    · cases h
    · obtain ⟨a1, a2⟩ := populateLengths_int32 (ho.sub 0) Int32s.nil Int32s.nil h1
      obtain ⟨g1, g2⟩ := populateLengths_int32 (ho.sub 1) a1 a2 h2
      obtain ⟨k1, k2, k3, k4⟩ := setLengths_good (ho.sub 2) g1 g2 h
      exact ⟨fun p hp => hg.pattern p (k3 ▸ hp), k4 ▸ hg.ex, k1, k2⟩

/-! ## Territories -/

/-- The descriptions of an entry. -/
def descsOf (m : Metadata) : List (Option Desc) :=
  [m.general, m.fixedLine, m.mobile, m.tollFree, m.premium, m.sharedCost, m.personal, m.voip, m.pager, m.noInternational, m.uan,
    m.emergency, m.voicemail, m.shortCode, m.standardRate, m.carrierSpecific, m.smsServices]

/-- An entry whose texts are valid and whose numbers are `int32`. -/
structure GoodMeta (m : Metadata) : Prop where
  id : ValidText m.id
  countryCode : IsInt32 m.countryCode
  internationalPrefix : GoodPat m.internationalPrefix
  npParsing : GoodPat m.npParsing
  leadingDigits : GoodPat m.leadingDigits
  preferredInternationalPrefix : ValidText m.preferredInternationalPrefix
  nationalPrefix : ValidText m.nationalPrefix
  preferredExtnPrefix : ValidText m.preferredExtnPrefix
  npTransform : ValidText m.npTransform
  formats : ∀ f ∈ m.formats, GoodFormat f
  intlFormats : ∀ f ∈ m.intlFormats, GoodFormat f
  descs : ∀ d ∈ descsOf m, GoodDesc? d

theorem flag (b : Bool) : (if b then some true else none : Option Bool).getD false = b := by cases b <;> rfl

/-- The message of an entry reads as the entry. -/
theorem GoodMeta.message {m : Metadata} (h : GoodMeta m) (alternate : Bool) :
    toMetadata Utf8.decode (metadataMessage alternate m) = some m := by
  have hd : ∀ d ∈ descsOf m, toDesc? (toPat Utf8.decode) Utf8.decode (d.map descMessage) = some d := fun d hd => (h.descs d hd).message
  simp only [descsOf, List.forall_mem_cons, List.not_mem_nil, false_implies, implies_true, and_true] at hd
  obtain ⟨d1, d2, d3, d4, d5, d6, d7, d8, d9, d10, d11, d12, d13, d14, d15, d16, d17⟩ := hd
  have hid : Utf8.decode ((if alternate ∧ m.id = [] then some [] else sp m.id : Option Bytes).getD []) = m.id := by
    split
    · rename_i hc; rw [hc.2]; simp [Utf8.decode]
    · exact dec_sp h.id
  have hcc : (if m.countryCode = 0 then none else some m.countryCode : Option Int).getD 0 = m.countryCode := by
    split
    · rename_i hc; rw [hc]; rfl
    · rfl
  unfold toMetadata toMetadataWith metadataMessage
  dsimp only
  rw [h.internationalPrefix.sp, h.npParsing.sp, h.leadingDigits.sp, GoodFormat.mapM h.formats, GoodFormat.mapM h.intlFormats, d1, d2, d3, d4,
    d5, d6, d7, d8, d9, d10, d11, d12, d13, d14, d15, d16, d17, dec_sp h.preferredInternationalPrefix, dec_sp h.nationalPrefix,
    dec_sp h.preferredExtnPrefix, dec_sp h.npTransform, hid, hcc, flag, flag, flag]
  rfl

theorem GoodMeta.go {m : Metadata} (h : GoodMeta m) (alternate : Bool) : GoMetadata (metadataMessage alternate m) := by
  refine ⟨?_, ?_⟩
  · intro i hi
    unfold metadataMessage at hi
    dsimp only at hi
    split at hi
    · cases hi
    · cases hi; exact h.countryCode
  · intro d hd i hi
    have : ∃ x ∈ descsOf m, x.map descMessage = some d := by
      obtain ⟨y, hy, hyd⟩ := List.mem_filterMap.1 hd
      simp only [id_eq] at hyd
      subst hyd
      have e : [(metadataMessage alternate m).general, (metadataMessage alternate m).fixedLine, (metadataMessage alternate m).mobile,
        (metadataMessage alternate m).tollFree, (metadataMessage alternate m).premium, (metadataMessage alternate m).sharedCost,
        (metadataMessage alternate m).personal, (metadataMessage alternate m).voip, (metadataMessage alternate m).pager,
        (metadataMessage alternate m).noInternational, (metadataMessage alternate m).uan, (metadataMessage alternate m).emergency,
        (metadataMessage alternate m).voicemail, (metadataMessage alternate m).shortCode, (metadataMessage alternate m).standardRate,
        (metadataMessage alternate m).carrierSpecific, (metadataMessage alternate m).smsServices] =
          (descsOf m).map (fun x => x.map descMessage) := rfl
      rw [e] at hy
      exact List.mem_map.1 hy
    obtain ⟨x, hx, hxd⟩ := this
    cases x with
    | none => cases hxd
    | some x =>
      cases hxd
      have g := h.descs _ hx x rfl
      rcases List.mem_append.1 hi with hi | hi
      · exact g.lengths i hi
      · exact g.localLengths i hi

theorem territoryTags_good {t : TerritoryE} {m : Metadata} (ht : XmlTerritory t) (h : territoryTags parseRe t = .ok m) :
    GoodMeta m ∧ m.id = t.id ∧ m.countryCode = t.countryCode ∧ m.formats = [] ∧ m.intlFormats = [] := by
  unfold territoryTags at h
  have v : ∀ s, s ∈ territoryTexts t → ValidText s := ht.texts
  obtain ⟨ld, h1, h⟩ := bind_ok.1 h
  obtain ⟨ip, h2, h⟩ := bind_ok.1 h
  obtain ⟨npp, h3, h⟩ := bind_ok.1 h
  obtain ⟨tr, h4, h⟩ := bind_ok.1 h
  obtain ⟨npp', h5, h⟩ := bind_ok.1 h
  cases h
  refine ⟨⟨v _ (by simp [territoryTexts]), ht.countryCode, optPat_good (v _ (by simp [territoryTexts])) h2, ?_,
    optPat_good (v _ (by simp [territoryTexts])) h1, v _ (by simp [territoryTexts]), v _ (by simp [territoryTexts]),
    v _ (by simp [territoryTexts]), ?_, by simp, by simp, ?_⟩, rfl, rfl, rfl, rfl⟩
  · dsimp only
    split at h5
    · exact validateRE_good (v _ (by simp [territoryTexts])) h5
    · cases h5
      exact optPat_good (v _ (by simp [territoryTexts])) h3
  · dsimp only
    split at h4
    · obtain ⟨q, h6, h4⟩ := bind_ok.1 h4
      cases h4
      exact (validateRE_good (v t.npTransform (by simp [territoryTexts])) h6).2
    · cases h4; exact ValidText.nil
  · intro d hd
    simp only [descsOf, List.mem_cons, List.not_mem_nil, or_false, or_self] at hd
    rw [hd]
    exact GoodDesc?.none

theorem setDescs_good {o : Order} (ho : o.Fair) {t : TerritoryE} {short : Bool} {m r : Metadata} (ht : XmlTerritory t) (hm : GoodMeta m)
    (h : setDescs parseRe o t short m = .ok r) : GoodMeta r ∧ r.id = m.id ∧ r.countryCode = m.countryCode ∧ r.formats = m.formats ∧ r.intlFormats = m.intlFormats := by
  have hd := hm.descs
  simp only [descsOf, List.forall_mem_cons, List.not_mem_nil, false_implies, implies_true, and_true] at hd
  obtain ⟨d1, d2, d3, d4, d5, d6, d7, d8, d9, d10, d11, d12, d13, d14, d15, d16, d17⟩ := hd
  have ve : ∀ e, e ∈ descElements t → ∀ x, e = some x → ValidText x.pattern ∧ ValidText x.ex := by
    intro e he x hx
    have hmem : x ∈ (descElements t).filterMap id := List.mem_filterMap.2 ⟨e, he, hx⟩
    have k : ∀ s ∈ [x.pattern, x.ex], ValidText s := fun s hs => ht.texts s (by
      unfold territoryTexts
      exact List.mem_append_right _ (List.mem_flatMap.2 ⟨x, hmem, hs⟩))
    exact ⟨k _ (by simp), k _ (by simp)⟩
  have pg : ∀ (k : Nat) (parent : Option Desc) (e : Option DescE) (d : Desc), e ∈ descElements t →
      processDesc parseRe (o.sub k) parent e = .ok d → GoodDesc? (some d) := fun k parent e d he hp =>
    GoodDesc?.some (processDesc_good (ho.sub k) (ve e he) hp)
  unfold setDescs at h
  obtain ⟨g0, h0, h⟩ := bind_ok.1 h
  obtain ⟨g, h1, h⟩ := bind_ok.1 h
  have hg : GoodDesc? (some g) :=
    GoodDesc?.some (setGeneralLengths_good (ho.sub 1) (processDesc_good (ho.sub 0) (ve _ (by simp [descElements])) h0) h1)
  dsimp only at h
  cases short with
  | false =>
    rw [if_pos (show (!false) = true from rfl)] at h
    obtain ⟨a1, k1, h⟩ := bind_ok.1 h
    obtain ⟨a2, k2, h⟩ := bind_ok.1 h
    obtain ⟨a3, k3, h⟩ := bind_ok.1 h
    obtain ⟨a4, k4, h⟩ := bind_ok.1 h
    obtain ⟨a5, k5, h⟩ := bind_ok.1 h
    obtain ⟨a6, k6, h⟩ := bind_ok.1 h
    obtain ⟨a7, k7, h⟩ := bind_ok.1 h
    obtain ⟨a8, k8, h⟩ := bind_ok.1 h
    obtain ⟨a9, k9, h⟩ := bind_ok.1 h
    obtain ⟨a10, k10, h⟩ := bind_ok.1 h
    obtain ⟨a11, k11, h⟩ := bind_ok.1 h
    cases h
    refine ⟨⟨hm.id, hm.countryCode, hm.internationalPrefix, hm.npParsing, hm.leadingDigits, hm.preferredInternationalPrefix,
      hm.nationalPrefix, hm.preferredExtnPrefix, hm.npTransform, hm.formats, hm.intlFormats, ?_⟩, rfl, rfl, rfl, rfl⟩
    simp only [descsOf, List.forall_mem_cons, List.not_mem_nil, false_implies, implies_true, and_true]
    exact ⟨hg, pg _ _ _ _ (by simp [descElements]) k1, pg _ _ _ _ (by simp [descElements]) k2, pg _ _ _ _ (by simp [descElements]) k10,
      pg _ _ _ _ (by simp [descElements]) k11, pg _ _ _ _ (by simp [descElements]) k3, pg _ _ _ _ (by simp [descElements]) k5,
      pg _ _ _ _ (by simp [descElements]) k4, pg _ _ _ _ (by simp [descElements]) k6, pg _ _ _ _ (by simp [descElements]) k9,
      pg _ _ _ _ (by simp [descElements]) k7, d12, pg _ _ _ _ (by simp [descElements]) k8, d14, d15, d16, d17⟩
  | true =>
    rw [if_neg (by simp)] at h
    obtain ⟨a1, k1, h⟩ := bind_ok.1 h
    obtain ⟨a2, k2, h⟩ := bind_ok.1 h
    obtain ⟨a3, k3, h⟩ := bind_ok.1 h
    obtain ⟨a4, k4, h⟩ := bind_ok.1 h
    obtain ⟨a5, k5, h⟩ := bind_ok.1 h
    obtain ⟨a6, k6, h⟩ := bind_ok.1 h
    obtain ⟨a7, k7, h⟩ := bind_ok.1 h
    cases h
    refine ⟨⟨hm.id, hm.countryCode, hm.internationalPrefix, hm.npParsing, hm.leadingDigits, hm.preferredInternationalPrefix,
      hm.nationalPrefix, hm.preferredExtnPrefix, hm.npTransform, hm.formats, hm.intlFormats, ?_⟩, rfl, rfl, rfl, rfl⟩
    simp only [descsOf, List.forall_mem_cons, List.not_mem_nil, false_implies, implies_true, and_true]
    exact ⟨hg, d2, d3, pg _ _ _ _ (by simp [descElements]) k5, pg _ _ _ _ (by simp [descElements]) k6, d6, d7, d8, d9, d10, d11,
      pg _ _ _ _ (by simp [descElements]) k4, d13, pg _ _ _ _ (by simp [descElements]) k2, pg _ _ _ _ (by simp [descElements]) k1,
      pg _ _ _ _ (by simp [descElements]) k3, pg _ _ _ _ (by simp [descElements]) k7⟩

/-- The required texts of the formats are those of the elements; every international format has a text and the pattern of an element. -/
def FormatsOf (t : TerritoryE) (ns is : List NumberFormat) : Prop :=
  ns.map (fun f => (f.pattern.src, f.format)) = t.formats.map (fun e => (e.pattern, e.format)) ∧
  ∀ f ∈ is, f.format ≠ [] ∧ ∃ e ∈ t.formats, f.pattern.src = e.pattern

theorem setPat_src (p : Pat) : (setPat p).src = p.src := by
  unfold setPat
  split
  · rename_i h; rw [h]; rfl
  · rfl

theorem nationalFormat_texts {np npRule : Str} {b : Bool} {cc : Str} {e : FormatE} {f : NumberFormat}
    (h : nationalFormat parseRe np npRule b cc e = .ok f) : f.pattern.src = e.pattern ∧ f.format = e.format := by
  unfold nationalFormat at h
  obtain ⟨c, h1, h⟩ := bind_ok.1 h
  obtain ⟨ld, h2, h⟩ := bind_ok.1 h
  obtain ⟨p, h3, h⟩ := bind_ok.1 h
  cases h
  refine ⟨?_, rfl⟩
  dsimp only
  rw [setPat_src]
  unfold validateRE at h3
  simp only [Bool.false_eq_true, if_false] at h3
  cases hp : parseRe e.pattern with
  | none => rw [hp] at h3; cases h3
  | some re => rw [hp] at h3; cases h3; rfl

theorem internationalFormat_texts {e : FormatE} {f : NumberFormat} {r : List NumberFormat × Bool} (h : internationalFormat e f = .ok r) :
    ∀ g ∈ r.1, g.format ≠ [] ∧ g.pattern = f.pattern := by
  unfold internationalFormat at h
  split at h
  · cases h
    intro g hg
    dsimp only at hg
    split at hg
    · rename_i hf; rw [List.mem_singleton.1 hg]; exact ⟨hf, rfl⟩
    · cases hg
  · cases h
    intro g hg
    dsimp only at hg
    split at hg
    · rename_i hf; rw [List.mem_singleton.1 hg]; exact ⟨hf.2, rfl⟩
    · cases hg
  · cases h

theorem loadFormats_texts {np npRule : Str} {b : Bool} {cc : Str} : ∀ {es : List FormatE} {r : List NumberFormat × List NumberFormat × Bool},
    loadFormats parseRe np npRule b cc es = .ok r → r.1.map (fun f => (f.pattern.src, f.format)) = es.map (fun e => (e.pattern, e.format)) ∧
      ∀ f ∈ r.2.1, f.format ≠ [] ∧ ∃ e ∈ es, f.pattern.src = e.pattern
  | [], r, h => by cases h; simp
  | e :: es, r, h => by
    unfold loadFormats at h
    obtain ⟨f, h1, h⟩ := bind_ok.1 h
    obtain ⟨⟨i, ex⟩, h2, h⟩ := bind_ok.1 h
    obtain ⟨⟨ns, is, ex'⟩, h3, h⟩ := bind_ok.1 h
    cases h
    obtain ⟨a1, a2⟩ := nationalFormat_texts h1
    obtain ⟨ih1, ih2⟩ := loadFormats_texts h3
    refine ⟨by rw [List.map_cons, List.map_cons, ih1, a1, a2], ?_⟩
    intro g hg
    rcases List.mem_append.1 hg with hg | hg
    · obtain ⟨b1, b2⟩ := internationalFormat_texts h2 g hg
      exact ⟨b1, e, by simp, by rw [b2, a1]⟩
    · obtain ⟨b1, e', he', b2⟩ := ih2 g hg
      exact ⟨b1, e', by simp [he'], b2⟩

theorem availableFormats_texts {t : TerritoryE} {np npRule : Str} {r : List NumberFormat × List NumberFormat}
    (h : availableFormats parseRe t np npRule = .ok r) : FormatsOf t r.1 r.2 := by
  unfold availableFormats at h
  obtain ⟨c, h1, h⟩ := bind_ok.1 h
  obtain ⟨⟨ns, is, ex⟩, h2, h⟩ := bind_ok.1 h
  cases h
  obtain ⟨a1, a2⟩ := loadFormats_texts h2
  refine ⟨a1, ?_⟩
  intro f hf
  dsimp only at hf
  split at hf
  · exact a2 f hf
  · cases hf

theorem loadCountry_good {o : Order} (ho : o.Fair) {t : TerritoryE} {short alternate : Bool} {m : Metadata} (ht : XmlTerritory t)
    (h : loadCountry parseRe o t short alternate = .ok m) : GoodMeta m ∧ m.id = t.id ∧ m.countryCode = t.countryCode ∧
      FormatsOf t m.formats m.intlFormats := by
  unfold loadCountry at h
  obtain ⟨m0, h1, h⟩ := bind_ok.1 h
  obtain ⟨⟨ns, is⟩, h2, h⟩ := bind_ok.1 h
  obtain ⟨g0, e1, e2, _, _⟩ := territoryTags_good ht h1
  have hnp : ValidText t.nationalPrefix := ht.texts _ (by simp [territoryTexts])
  obtain ⟨f1, f2⟩ := availableFormats_good hnp ((ht.texts t.npRule (by simp [territoryTexts])).prefixRule hnp) ht.texts h2
  have g1 : GoodMeta { m0 with formats := ns, intlFormats := is } :=
    ⟨g0.id, g0.countryCode, g0.internationalPrefix, g0.npParsing, g0.leadingDigits, g0.preferredInternationalPrefix, g0.nationalPrefix,
      g0.preferredExtnPrefix, g0.npTransform, f1, f2, g0.descs⟩
  dsimp only at h
  cases alternate with
  | true => rw [if_pos rfl] at h; cases h; exact ⟨g1, e1, e2, availableFormats_texts h2⟩
  | false =>
    rw [if_neg (by simp)] at h
    obtain ⟨g2, e3, e4, e5, e6⟩ := setDescs_good ho ht g1 h
    refine ⟨g2, e3.trans e1, e4.trans e2, ?_⟩
    rw [e5, e6]
    exact availableFormats_texts h2

theorem buildCollection_good {o : Order} (ho : o.Fair) {short alternate : Bool} : ∀ {ts : List TerritoryE} {k : Nat} {coll : List Metadata},
    (∀ t ∈ ts, XmlTerritory t) → buildCollection parseRe o short alternate k ts = .ok coll →
    (∀ m ∈ coll, GoodMeta m) ∧ coll.map (fun m => (m.id, m.countryCode)) = ts.map fun t => (t.id, t.countryCode)
  | [], k, coll, _, h => by cases h; simp
  | t :: ts, k, coll, ht, h => by
    unfold buildCollection at h
    obtain ⟨m, h1, h⟩ := bind_ok.1 h
    obtain ⟨ms, h2, h⟩ := bind_ok.1 h
    cases h
    obtain ⟨g, e1, e2, _⟩ := loadCountry_good (ho.sub k) (ht t (by simp)) h1
    obtain ⟨ih1, ih2⟩ := buildCollection_good ho (fun t h => ht t (by simp [h])) h2
    refine ⟨?_, by rw [List.map_cons, List.map_cons, ih2, e1, e2]⟩
    intro x hx
    rcases List.mem_cons.1 hx with rfl | hx
    · exact g
    · exact ih1 x hx

theorem buildCollection_formats {o : Order} (ho : o.Fair) {short alternate : Bool} : ∀ {ts : List TerritoryE} {k : Nat} {coll : List Metadata},
    (∀ t ∈ ts, XmlTerritory t) → buildCollection parseRe o short alternate k ts = .ok coll →
    (∀ m ∈ coll, ∃ t ∈ ts, m.id = t.id ∧ FormatsOf t m.formats m.intlFormats) ∧
      ∀ t ∈ ts, ∃ m ∈ coll, m.id = t.id ∧ FormatsOf t m.formats m.intlFormats
  | [], k, coll, _, h => by cases h; simp
  | t :: ts, k, coll, ht, h => by
    unfold buildCollection at h
    obtain ⟨m, h1, h⟩ := bind_ok.1 h
    obtain ⟨ms, h2, h⟩ := bind_ok.1 h
    cases h
    obtain ⟨_, e1, _, e2⟩ := loadCountry_good (ho.sub k) (ht t (by simp)) h1
    obtain ⟨ih1, ih2⟩ := buildCollection_formats ho (fun t h => ht t (by simp [h])) h2
    constructor
    · intro x hx
      rcases List.mem_cons.1 hx with rfl | hx
      · exact ⟨t, by simp, e1, e2⟩
      · obtain ⟨t', ht', r⟩ := ih1 x hx
        exact ⟨t', by simp [ht'], r⟩
    · intro x hx
      rcases List.mem_cons.1 hx with rfl | hx
      · exact ⟨m, by simp, e1, e2⟩
      · obtain ⟨m', hm', r⟩ := ih2 x hx
        exact ⟨m', by simp [hm'], r⟩

theorem GoodMeta.mapM {coll : List Metadata} (h : ∀ m ∈ coll, GoodMeta m) (alternate : Bool) :
    (coll.map (metadataMessage alternate)).mapM (toMetadata Utf8.decode) = some coll := by
  induction coll with
  | nil => rfl
  | cons m l ih =>
    rw [List.map_cons, List.mapM_cons, (h m (by simp)).message, ih fun q hq => h q (by simp [hq])]
    rfl

/-! ## Maps -/

/-- A list as long as a list without repetition all of which it contains is a permutation of it. -/
theorem perm_of_covers {α : Type} [DecidableEq α] : ∀ {l k : List α}, l.Nodup → (∀ a ∈ l, a ∈ k) → k.length = l.length → k.Perm l
  | [], k, _, _, h => by rw [List.length_eq_zero_iff.1 h]
  | a :: l, k, hn, hs, h => by
    have ha : a ∈ k := hs a (by simp)
    have hp := List.perm_cons_erase ha
    rw [List.nodup_cons] at hn
    refine hp.trans (List.Perm.cons a (perm_of_covers hn.2 ?_ ?_))
    · intro b hb
      have hne : b ≠ a := fun e => hn.1 (e ▸ hb)
      exact (List.mem_erase_of_ne hne).2 (hs b (by simp [hb]))
    · have := hp.length_eq
      simp only [List.length_cons] at this h
      omega

theorem mapGet_of_mem_nodup {ν : Type} : ∀ {m : List (Int × ν)} {e : Int × ν}, (m.map (·.1)).Nodup → e ∈ m → mapGet m e.1 = some e.2
  | [], e, _, h => by cases h
  | (k, v) :: m, e, hn, h => by
    rw [List.map_cons, List.nodup_cons] at hn
    unfold mapGet
    rcases List.mem_cons.1 h with rfl | h'
    · exact if_pos rfl
    · rw [if_neg, mapGet_of_mem_nodup hn.2 h']
      rintro rfl
      exact hn.1 (List.mem_map.2 ⟨e, h', rfl⟩)

theorem listing_perm {ν : Type} {m f : List (Int × ν)} (h1 : (m.map (·.1)).Nodup) (h2 : (f.map (·.1)).Nodup) (h : ∀ k, mapGet m k = mapGet f k) :
    m.Perm f := by
  have hn : ∀ {l : List (Int × ν)}, (l.map (·.1)).Nodup → l.Nodup := fun hl =>
    (List.pairwise_map.1 hl).imp fun {a b} (hab : a.1 ≠ b.1) e => hab (by rw [e])
  rw [List.perm_ext_iff_of_nodup (hn h1) (hn h2)]
  intro e
  constructor
  · intro he
    have := mapGet_of_mem_nodup h1 he
    rw [h] at this
    exact mapGet_mem' this
  · intro he
    have := mapGet_of_mem_nodup h2 he
    rw [← h] at this
    exact mapGet_mem' this

theorem mapGet_map {ν μ : Type} (g : ν → μ) : ∀ (m : List (Int × ν)) (k : Int), mapGet (m.map fun e => (e.1, g e.2)) k = (mapGet m k).map g
  | [], _ => rfl
  | (k', v) :: m, k => by
    rw [List.map_cons]
    unfold mapGet
    by_cases h : k' = k
    · rw [if_pos h, if_pos h]; rfl
    · rw [if_neg h, if_neg h]; exact mapGet_map g m k

theorem loadEntries_length {ν : Type} {dc : Int → Nat} {rv : Rd ν} : ∀ {n : Nat} {last : Int} {acc : Loaded ν} {b : Bytes} {r : Loaded ν × Bytes},
    loadEntries dc rv n last acc b = .ok r → r.1.map.length = acc.map.length + n
  | 0, _, _, _, _, h => by cases h; rfl
  | n + 1, last, acc, b, r, h => by
    unfold loadEntries at h
    cases h1 : rdUvarint b with
    | error e => rw [h1] at h; cases h
    | ok x =>
      rw [h1] at h
      change (rv x.2 >>= fun p => _) = _ at h
      cases h2 : rv x.2 with
      | error e => rw [h2] at h; cases h
      | ok y =>
        rw [h2] at h
        have := loadEntries_length (n := n) h
        rw [this]
        simp only [mapSet, List.length_cons]
        omega

end Builder
end Verif
