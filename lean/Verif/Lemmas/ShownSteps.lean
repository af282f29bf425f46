import Verif.Lemmas.Shown
/-!
# The as-you-type formatter on a number that a layout rule can be used for
-/
namespace Verif.Aytf
open Spec
open Verif.Builder (bind_ok)

/-- A region, a calling code with its digits, a number and the rule for it. -/
structure Job (C : Container) (region : Str) (cc : Int) (D : Str) (m : Metadata) (s : Str) (f : NumberFormat)
    (pre post : List NumberFormat) : Prop where
  code : cc ≠ 0
  dec : decInt cc = D
  len : D.length ≤ 3
  ne : D ≠ []
  digits : ∀ u ∈ D, isDig u = true
  found : ∀ p : Str, (∀ u ∈ p, isDig u = true) → extractCC C (D ++ p) = (cc, p)
  early : ∀ d, d <+: D → d ≠ D → d ≠ [] → (extractCC C d).1 = 0
  nonGeo : C.mainRegion cc = nonGeoRegion → (C.metaForNonGeo cc).getD nilMetadata = m
  geo : C.mainRegion cc ≠ nonGeoRegion → metaFor C (C.mainRegion cc) = m
  task : Task (rulesFor m .international) s f pre post

/-- What is shown before the national part. -/
def leadOf (D : Str) : Str := 43 :: (D ++ [32])

/-- The calling code has been taken off; `p` are the digits after it. -/
structure On (region D : Str) (m : Metadata) (p : Str) (a : Aytf) : Prop where
  complete : a.complete = true
  ndd : a.ndd = []
  metadata : a.currentMeta = m
  pre : a.pre = leadOf D
  nn : a.nn = p
  plain : a.plain = 43 :: (D ++ p)
  hasFmt : a.hasFmt = false
  expecting : a.expecting = false
  country : a.defaultCountry = region

theorem On.frame {region D : Str} {m : Metadata} {p : Str} {a b : Aytf} (h : On region D m p a) (f : FrameT a b) : On region D m p b :=
  ⟨f.complete.trans h.complete, f.ndd.trans h.ndd, f.currentMeta.trans h.metadata, f.pre.trans h.pre, f.nn.trans h.nn, f.plain.trans h.plain,
    f.hasFmt.trans h.hasFmt, f.expecting.trans h.expecting, f.defaultCountry.trans h.country⟩

theorem On.append {region D : Str} {m : Metadata} {p : Str} {a : Aytf} (h : On region D m p a) (t : Str) : a.append t = leadOf D ++ t := by
  unfold Aytf.append
  have hl : a.pre.getLast? = some 32 := by
    rw [h.pre, leadOf, show (43 :: (D ++ [32]) : Str) = (43 :: D) ++ [32] from rfl, List.getLast?_append]; rfl
  rw [if_neg (fun k => k.2.2 hl), h.pre]

theorem blen_dig {p : Str} (h : ∀ u ∈ p, isDig u = true) : blen p = p.length := blen_ascii fun u hu => isDig_lt (h u hu)

/-- Trying the rules: the first that fits is taken. -/
theorem accruedLoop_find {region D : Str} {m : Metadata} {p : Str} (hD : ∀ u ∈ D, isDig u = true) (hp : ∀ u ∈ p, isDig u = true)
    (F : List NumberFormat) (hF : ∀ e ∈ F, ∃ gs, Rule e gs) (a : Aytf) (h : On region D m p a) :
    (formatAccruedLoop a F).2 = match F.find? (fun e => decide (Fits e p)) with
      | none => []
      | some e => leadOf D ++ layBy e p := by
  induction F generalizing a with
  | nil => rfl
  | cons e F ih =>
    obtain ⟨gs, he⟩ := hF e (by simp)
    have ih := fun b hb => ih (fun e he => hF e (by simp [he])) b hb
    unfold formatAccruedLoop
    by_cases hf : Fits e p
    · rw [if_pos (by rw [h.nn]; exact (he.fits hp).2 hf), List.find?_cons_of_pos (by rw [decide_eq_true_eq]; exact hf)]
      have h' : On region D m p { a with addSpace := nationalPrefixSeparators.isMatch e.npRule } :=
        ⟨h.complete, h.ndd, h.metadata, h.pre, h.nn, h.plain, h.hasFmt, h.expecting, h.country⟩
      dsimp only
      rw [h'.append, h.nn, (he.full_replace hp hf).1]
      obtain ⟨d1, d2⟩ := he.dial hp hf
      rw [if_pos]
      rw [h.plain, dial_ascii, dial_append, d1, leadOf]
      · rw [show (43 :: (D ++ [32]) : Str) = [43] ++ (D ++ [32]) from rfl, dial_append, dial_append, dial_digits hD,
          show dial [32] = [] by decide +kernel, show dial [43] = [43] by decide +kernel, List.append_nil]
        rfl
      · intro u hu
        rcases List.mem_append.1 hu with hu | hu
        · rcases List.mem_cons.1 hu with rfl | hu
          · decide
          · rcases List.mem_append.1 hu with hu | hu
            · exact isDig_lt (hD u hu)
            · rw [List.mem_singleton.1 hu]; decide
        · exact d2 u hu
    · rw [if_neg (fun k => hf ((he.fits hp).1 (by rw [← h.nn]; exact k))), List.find?_cons_of_neg (by rw [decide_eq_true_eq]; exact hf)]
      exact ih a h

/-- Making a template does not drop a rule that has one. -/
theorem createLoop_keeps {f : NumberFormat} {F2 : List NumberFormat} (F1 : List NumberFormat) (a : Aytf) (hf : getTemplate a.nn f ≠ []) :
    ∃ F1', (∀ e ∈ F1', e ∈ F1) ∧ (createLoop a (F1 ++ f :: F2)).1.formats = F1' ++ f :: F2 := by
  induction F1 generalizing a with
  | nil =>
    refine ⟨[], by simp, ?_⟩
    rw [List.nil_append, createLoop]
    split
    · rfl
    · dsimp only; rw [if_pos hf]
  | cons e F1 ih =>
    rw [List.cons_append, createLoop]
    split
    · exact ⟨e :: F1, fun x hx => hx, rfl⟩
    · dsimp only
      split
      · exact ⟨e :: F1, fun x hx => hx, rfl⟩
      · obtain ⟨F1', h1, h2⟩ := ih { a with template := [] } hf
        exact ⟨F1', fun x hx => List.mem_cons_of_mem _ (h1 x hx), h2⟩

/-- What a step must establish. -/
structure Res (L : List NumberFormat) (region D : Str) (m : Metadata) (s : Str) (f : NumberFormat) (pre : List NumberFormat) (p : Str)
    (r : Aytf × Str) : Prop where
  on : On region D m p r.1
  list : r.1.able = true → Listed L f pre p r.1.formats
  out : p = s → r.2 = leadOf D ++ layBy f s

theorem lead_ne (D t : Str) : leadOf D ++ t ≠ [] := by simp [leadOf]

theorem find_mem {F : List NumberFormat} {p : Str} {e : NumberFormat} (h : F.find? (fun e => decide (Fits e p)) = some e) : e ∈ F ∧ Fits e p :=
  ⟨List.mem_of_find?_eq_some h, by simpa using List.find?_some h⟩

/-- After trying the rules without success: a template. -/
theorem template_res {C : Container} {region : Str} {cc : Int} {D : Str} {m : Metadata} {s : Str} {f : NumberFormat}
    {pre post : List NumberFormat} (J : Job C region cc D m s f pre post) {p : Str} (hp : p <+: s)
    {a : Aytf} (h : On region D m p a) (hl : Listed (rulesFor m .international) f pre p a.formats) (hps : p ≠ s) (g : Aytf → Str) :
    let r := if a.createTemplate.2 then a.createTemplate.1.inputAccrued else (a.createTemplate.1, g a.createTemplate.1)
    Res (rulesFor m .international) region D m s f pre p r := by
  have T := J.task
  obtain ⟨gs, hr⟩ := T.rules f (by rw [T.split]; simp)
  have hpd : ∀ u ∈ p, isDig u = true := fun u hu => T.digits u (hp.subset hu)
  have hon := h.frame (createTemplate_frame a)
  obtain ⟨F1, F2, e1, e2⟩ := hl.split
  have hfit := (hr.applies.1 T.applies).1
  have hready : getTemplate a.nn f ≠ [] := by
    rw [h.nn]
    refine hr.ready hpd ?_
    unfold Fits at hfit
    have := hp.length_le
    omega
  obtain ⟨F1', k1, k2⟩ := createLoop_keeps (F2 := F2) F1 a hready
  have k3 : a.createTemplate.1.formats = F1' ++ f :: F2 := by unfold createTemplate; rw [e1]; exact k2
  have hlist : Listed (rulesFor m .international) f pre p a.createTemplate.1.formats := by
    rw [k3]
    have hsub : ∀ e ∈ F1' ++ f :: F2, e ∈ a.formats := by
      intro e he
      rw [e1]
      rcases List.mem_append.1 he with he | he
      · exact List.mem_append_left _ (k1 e he)
      · exact List.mem_append_right _ he
    exact ⟨⟨F1', F2, rfl, fun e he => e2 e (k1 e he)⟩, fun e he => hl.mem e (hsub e he), fun e he => hl.seen e (hsub e he)⟩
  dsimp only
  split
  · exact ⟨hon.frame (inputAccrued_frame _), fun _ => by rw [(inputAccrued_rest _).1]; exact hlist, fun h => absurd h hps⟩
  · exact ⟨hon, fun _ => hlist, fun h => absurd h hps⟩

/-- Choosing a rule afresh. -/
theorem choosePattern_on {C : Container} {region : Str} {cc : Int} {D : Str} {m : Metadata} {s : Str} {f : NumberFormat}
    {pre post : List NumberFormat} (J : Job C region cc D m s f pre post) {p : Str} (hp : p <+: s) (h3 : 3 ≤ p.length)
    {a : Aytf} (h : On region D m p a) (hF : a.formats = []) {r : Aytf × Str} (hr : a.choosePattern = .ok r) :
    Res (rulesFor m .international) region D m s f pre p r := by
  have T := J.task
  have hpd : ∀ u ∈ p, isDig u = true := fun u hu => T.digits u (hp.subset hu)
  unfold choosePattern at hr
  rw [if_pos (by rw [h.nn, blen_dig hpd]; exact h3)] at hr
  obtain ⟨b, hb, hr⟩ := bind_ok.1 hr
  unfold getAvailable at hb
  obtain ⟨G, hG, hb⟩ := bind_ok.1 hb
  have hb := Except.ok.inj hb
  have hG := narrow_filter hG
  have hlist : (if a.complete = true ∧ a.ndd = [] ∧ a.currentMeta.intlFormats ≠ [] then a.currentMeta.intlFormats else a.currentMeta.formats) =
      rulesFor m .international := by
    rw [h.metadata]
    simp only [h.complete, h.ndd, rulesFor, reduceCtorEq, false_or, true_and]
    by_cases hi : m.intlFormats = [] <;> simp [hi]
  rw [hlist, hF, List.nil_append, h.nn] at hG
  have hav : (rulesFor m .international).filter a.available = rulesFor m .international := by
    rw [List.filter_eq_self]
    intro e he
    obtain ⟨gs, hr⟩ := T.rules e he
    unfold available
    rw [if_neg (fun k => k.1 h.ndd), if_neg (fun k => by rw [h.complete] at k; simp at k), hr.elig]
  rw [hav] at hG
  have hbon : On region D m p b := by rw [← hb]; exact h.frame (FrameT.formats a G)
  have hbF : b.formats = G := by rw [← hb]
  have hL : Listed (rulesFor m .international) f pre p G := by
    rw [hG]
    exact Listed.narrow T ⟨pre, post, T.split, fun e he => he⟩ (fun e he => he) hp h3
  have hrules : ∀ e ∈ b.formats, ∃ gs, Rule e gs := by rw [hbF]; exact fun e he => T.rules e (hL.mem e he)
  have hout := accruedLoop_find J.digits hpd b.formats hrules b hbon
  have hrest := formatAccrued_rest b
  have hon2 := hbon.frame (formatAccrued_frame b)
  have hF2 : b.formatAccrued.1.formats = G := by rw [hrest]; exact hbF
  rw [show formatAccruedLoop b b.formats = b.formatAccrued from rfl] at hout
  dsimp only at hr
  by_cases hps : p = s
  · subst hps
    have hfirst := hL.first T (List.prefix_refl _) (by omega)
    rw [hbF, hfirst] at hout
    rw [if_pos (by rw [hout]; exact lead_ne _ _)] at hr
    have hr := Except.ok.inj hr
    rw [← hr]
    exact ⟨hon2, fun _ => by rw [hF2]; exact hL, fun _ => hout⟩
  · split at hr
    · have hr := Except.ok.inj hr
      rw [← hr]
      exact ⟨hon2, fun _ => by rw [hF2]; exact hL, fun k => absurd k hps⟩
    · have key := template_res J hp hon2 (by rw [hF2]; exact hL) hps (fun x => x.accrued)
      dsimp only at key
      split at hr
      · rename_i ht
        have hr := Except.ok.inj hr
        rw [if_pos ht] at key
        rw [← hr]; exact key
      · rename_i ht
        have hr := Except.ok.inj hr
        rw [if_neg ht] at key
        rw [← hr]; exact key

/-- One more digit when there are rules on the list. -/
theorem laterStep_on {C : Container} {region : Str} {cc : Int} {D : Str} {m : Metadata} {s : Str} {f : NumberFormat}
    {pre post : List NumberFormat} (J : Job C region cc D m s f pre post) {q p : Str} (hq : q <+: p) (hl : p.length = q.length + 1)
    (hp : p <+: s) (h3 : 3 ≤ q.length) {a : Aytf} (h : On region D m p a)
    (hL : Listed (rulesFor m .international) f pre q a.formats) {c : Nat} {r : Aytf × Str} (hr : a.laterStep C c = .ok r) :
    Res (rulesFor m .international) region D m s f pre p r := by
  have T := J.task
  have hpd : ∀ u ∈ p, isDig u = true := fun u hu => T.digits u (hp.subset hu)
  unfold laterStep at hr
  rw [if_neg (by rw [h.expecting]; simp), if_pos hL.ne] at hr
  dsimp only at hr
  have hon1 := h.frame (digitHelper_frame a c)
  have hF1 : (a.digitHelper c).1.formats = a.formats := digitHelper_formats a c
  generalize a.digitHelper c = d at hr hon1 hF1
  have hrules : ∀ e ∈ d.1.formats, ∃ gs, Rule e gs := by rw [hF1]; exact fun e he => T.rules e (hL.mem e he)
  have hout := accruedLoop_find J.digits hpd d.1.formats hrules d.1 hon1
  rw [show formatAccruedLoop d.1 d.1.formats = d.1.formatAccrued from rfl] at hout
  have hrest := formatAccrued_rest d.1
  have hon2 := hon1.frame (formatAccrued_frame d.1)
  have hF2 : d.1.formatAccrued.1.formats = a.formats := by rw [hrest]; exact hF1
  rw [hF1] at hout
  generalize d.1.formatAccrued = w at hr hout hon2 hF2
  by_cases hps : p = s
  · subst hps
    have hfirst := hL.first T hq (by omega)
    rw [hfirst] at hout
    rw [if_pos (by rw [hout]; exact lead_ne _ _)] at hr
    have hr := Except.ok.inj hr
    rw [← hr]
    obtain ⟨g1, g2⟩ := find_mem hfirst
    exact ⟨hon2, fun _ => by rw [hF2]; exact hL.fits T hq hl hp g1 g2, fun _ => hout⟩
  · split at hr
    · rename_i hne
      have hr := Except.ok.inj hr
      rw [← hr]
      cases hfind : a.formats.find? (fun e => decide (Fits e p)) with
      | none => rw [hfind] at hout; exact absurd hout hne
      | some g =>
        obtain ⟨g1, g2⟩ := find_mem hfind
        exact ⟨hon2, fun _ => by rw [hF2]; exact hL.fits T hq hl hp g1 g2, fun k => absurd k hps⟩
    · obtain ⟨G, hG, hr⟩ := bind_ok.1 hr
      have hG := narrow_filter hG
      rw [hF2, hon2.nn] at hG
      have hLn : Listed (rulesFor m .international) f pre p G := by
        rw [hG]; exact Listed.narrow T hL.split hL.mem hp (by omega)
      have hon3 := hon2.frame (FrameT.formats w.1 G)
      have key := template_res J hp hon3 hLn hps (fun x => if x.able then x.append d.2 else x.accrued)
      dsimp only at key
      split at hr
      · rename_i ht
        have hr := Except.ok.inj hr
        rw [if_pos ht] at key
        rw [← hr]; exact key
      · rename_i ht
        have hr := Except.ok.inj hr
        rw [if_neg ht] at key
        rw [← hr]; exact key

/-- Taking the calling code off. -/
theorem extract_on {C : Container} {region : Str} {cc : Int} {D : Str} {m : Metadata} {s : Str} {f : NumberFormat}
    {pre post : List NumberFormat} (J : Job C region cc D m s f pre post) {p : Str} (hp : ∀ u ∈ p, isDig u = true) {a : Aytf}
    (hn : a.nn = D ++ p) (hpre : a.pre = [43]) (hc : a.defaultCountry = region)
    (hm : a.currentMeta = metaFor C region ∨ a.currentMeta = m) :
    a.extractCallingCode C = ({ a with nn := p, currentMeta := m, pre := leadOf D, ndd := [] }, true) := by
  unfold extractCallingCode
  rw [if_neg (by rw [hn]; simp [J.ne]), hn, J.found p hp]
  dsimp only
  rw [if_neg J.code]
  have hmeta : (if C.mainRegion cc = nonGeoRegion then (C.metaForNonGeo cc).getD nilMetadata
      else if C.mainRegion cc ≠ a.defaultCountry then metaFor C (C.mainRegion cc) else a.currentMeta) = m := by
    split
    · rename_i h; exact J.nonGeo h
    · rename_i h
      split
      · exact J.geo h
      · rename_i h2
        rw [hc, Classical.not_not] at h2
        rcases hm with hm | hm
        · rw [hm, ← h2]; exact J.geo h
        · exact hm
  rw [hmeta, hpre, J.dec]
  rfl

theorem idd_plus {a : Aytf} {t : Str} (h : a.plain = 43 :: t) :
    a.extractIdd = .ok ({ a with complete := true, nn := t, pre := [43] }, true) := by
  unfold extractIdd
  obtain ⟨x, h1, h2⟩ := iddRe_plus a.currentMeta t
  have h1' : (Re.atStart (.alt (re! "\\+") a.currentMeta.internationalPrefix.re)).find a.plain = some x := by rw [h]; exact h1
  rw [h1']
  dsimp only
  rw [h, h2]
  rfl

/-- One more digit after formatting was given up. -/
theorem unableStep_on {C : Container} {region : Str} {cc : Int} {D : Str} {m : Metadata} {s : Str} {f : NumberFormat}
    {pre post : List NumberFormat} (J : Job C region cc D m s f pre post) {p : Str} (hp : p <+: s) (h3 : 3 ≤ p.length)
    {a : Aytf} (h : On region D m p a) {r : Aytf × Str} (hr : a.unableStep C = .ok r) :
    Res (rulesFor m .international) region D m s f pre p r := by
  have hpd : ∀ u ∈ p, isDig u = true := fun u hu => J.task.digits u (hp.subset hu)
  unfold unableStep at hr
  rw [if_neg (by rw [h.hasFmt]; simp), idd_plus h.plain, ok_bind] at hr
  dsimp only at hr
  rw [if_pos rfl, extract_on J hpd (p := p) (a := { a with complete := true, nn := D ++ p, pre := [43] }) rfl rfl h.country
    (.inr h.metadata)] at hr
  dsimp only at hr
  rw [if_pos rfl] at hr
  unfold choosePatternWithPrefix at hr
  refine choosePattern_on J hp h3 ?_ rfl hr
  exact ⟨rfl, rfl, rfl, rfl, rfl, h.plain, h.hasFmt, rfl, h.country⟩

/-! ## States by what was typed -/

/-- Up to two characters. -/
structure Begun (C : Container) (region t : Str) (a : Aytf) : Prop where
  short : t.length ≤ 2
  able : a.able = true
  plain : a.plain = t
  nn : a.nn = t.drop 1
  formats : a.formats = []
  ndd : a.ndd = []
  metadata : a.currentMeta = metaFor C region

/-- Waiting for the rest of the calling code. -/
structure Wait (C : Container) (region d : Str) (a : Aytf) : Prop where
  able : a.able = true
  plain : a.plain = 43 :: d
  nn : a.nn = d
  pre : a.pre = [43]
  complete : a.complete = true
  expecting : a.expecting = true
  formats : a.formats = []
  ndd : a.ndd = []
  metadata : a.currentMeta = metaFor C region

/-- After the calling code. -/
structure After (L : List NumberFormat) (region D : Str) (m : Metadata) (s : Str) (f : NumberFormat) (pre : List NumberFormat) (p : Str)
    (a : Aytf) (out : Str) : Prop where
  on : On region D m p a
  few : p.length < 3 → a.formats = [] ∧ a.able = true
  many : 3 ≤ p.length → a.able = true → Listed L f pre p a.formats
  out : p = s → out = leadOf D ++ layBy f s

/-- The state after the characters `t` of a plus sign, the calling code and the number. -/
inductive St (C : Container) (region D : Str) (m : Metadata) (s : Str) (f : NumberFormat) (pre : List NumberFormat) (t : Str) (a : Aytf)
    (out : Str) : Prop
  | start (h : Begun C region t a)
  | wait (d : Str) (ht : t = 43 :: d) (h2 : 2 ≤ d.length) (hp : d <+: D) (hne : d ≠ D) (h : Wait C region d a)
  | after (p : Str) (ht : t = 43 :: (D ++ p)) (h3 : 3 ≤ t.length) (hp : p <+: s) (h : After (rulesFor m .international) region D m s f pre p a out)

theorem Job.long {C : Container} {region : Str} {cc : Int} {D : Str} {m : Metadata} {s : Str} {f : NumberFormat}
    {pre post : List NumberFormat} (J : Job C region cc D m s f pre post) : 3 ≤ s.length := by
  obtain ⟨gs, hr⟩ := J.task.rules f (by rw [J.task.split]; simp)
  have h := (hr.applies.1 J.task.applies).1
  unfold Fits at h
  rw [hr.bounds] at h
  have := hr.least
  simp only at h
  omega

/-- A prefix of `D ++ s` ends within `D` or after it. -/
theorem prefix_split {d D s : Str} (h : d <+: D ++ s) : (d <+: D ∧ d ≠ D) ∨ ∃ p, d = D ++ p ∧ p <+: s := by
  by_cases hl : D.length ≤ d.length
  · obtain ⟨p, rfl⟩ := List.prefix_of_prefix_length_le (List.prefix_append D s) h hl
    exact .inr ⟨p, rfl, (List.prefix_append_right_inj D).1 h⟩
  · refine .inl ⟨List.prefix_of_prefix_length_le h (List.prefix_append D s) (by omega), ?_⟩
    rintro rfl; exact hl (Nat.le_refl _)

/-- A character while the calling code is awaited. -/
theorem expect_step {C : Container} {region : Str} {cc : Int} {D : Str} {m : Metadata} {s : Str} {f : NumberFormat}
    {pre post : List NumberFormat} (J : Job C region cc D m s f pre post) {d : Str} (hd : d <+: D ++ s) (h2 : 2 ≤ d.length)
    (h4 : d.length ≤ D.length ∨ d.length ≤ 2) {a : Aytf}
    (h : Wait C region d a) (hc : a.defaultCountry = region) (hf : a.hasFmt = false) {c : Nat} {r : Aytf × Str}
    (hr : a.laterStep C c = .ok r) : St C region D m s f pre (43 :: d) r.1 r.2 := by
  unfold laterStep at hr
  rw [if_pos h.expecting] at hr
  have hr := Except.ok.inj hr
  rcases prefix_split hd with ⟨k1, k2⟩ | ⟨p, rfl, hp⟩
  · have hne : d ≠ [] := by rintro rfl; simp at h2
    have he : a.extractCallingCode C = (a, false) := by
      unfold extractCallingCode
      rw [if_neg (by rw [h.nn]; exact hne)]
      dsimp only
      rw [h.nn, if_pos (J.early d k1 k2 hne)]
    rw [he] at hr
    rw [← hr]
    exact .wait d rfl h2 k1 k2 h
  · have hpd : ∀ u ∈ p, isDig u = true := fun u hu => J.task.digits u (hp.subset hu)
    rw [extract_on J hpd h.nn h.pre hc (.inl h.metadata)] at hr
    rw [← hr]
    have hlong := J.long
    have hne : 1 ≤ D.length := by
      have := J.ne
      cases D with
      | nil => exact absurd rfl this
      | cons => simp
    have hpl : p.length < 3 := by rw [List.length_append] at h4; omega
    refine .after p rfl (by simp only [List.length_cons]; omega) hp ⟨?_, fun _ => ⟨h.formats, h.able⟩, fun k => absurd k (by omega), fun k => ?_⟩
    · exact ⟨h.complete, rfl, rfl, rfl, rfl, h.plain, hf, rfl, hc⟩
    · rw [k] at hpl; omega

/-- One more character. -/
theorem st_step {C : Container} {region : Str} {cc : Int} {D : Str} {m : Metadata} {s : Str} {f : NumberFormat}
    {pre post : List NumberFormat} (J : Job C region cc D m s f pre post) {t : Str} {v : Nat} {a T : Aytf} {out : Str}
    (hst : St C region D m s f pre t a out) (hpre : t ++ [v] <+: 43 :: (D ++ s)) (hc : a.defaultCountry = region) (hf : a.hasFmt = false)
    (hT : T = { a with accrued := T.accrued, originalPos := T.originalPos, plain := T.plain, nn := T.nn, rememberPos := T.rememberPos })
    (hplain : T.plain = a.plain ++ [v]) (hnn : T.nn = if t = [] then [] else a.nn ++ [v]) {r : Aytf × Str}
    (hr : (a.able = false ∧ unableStep C T = .ok r) ∨ (a.able = true ∧ ableStep C T v = .ok r)) :
    St C region D m s f pre (t ++ [v]) r.1 r.2 := by
  have e2 : T.able = a.able := by rw [hT]
  have e3 : T.hasFmt = false := by rw [hT]; exact hf
  have e4 : T.formats = a.formats := by rw [hT]
  have e6 : T.pre = a.pre := by rw [hT]
  have e7 : T.ndd = a.ndd := by rw [hT]
  have e8 : T.currentMeta = a.currentMeta := by rw [hT]
  have e9 : T.complete = a.complete := by rw [hT]
  have e10 : T.expecting = a.expecting := by rw [hT]
  have e12 : T.defaultCountry = region := by rw [hT]; exact hc
  clear hT
  obtain ⟨d', hd'⟩ : ∃ d', t ++ [v] = 43 :: d' := by
    cases t with
    | nil => obtain ⟨w, hw⟩ := hpre; simp at hw; exact ⟨[], by rw [hw.1]; rfl⟩
    | cons u t => obtain ⟨w, hw⟩ := hpre; simp at hw; exact ⟨t ++ [v], by rw [hw.1]; rfl⟩
  have hdp : d' <+: D ++ s := by rw [hd', List.cons_prefix_cons] at hpre; exact hpre.2
  have hall : ∀ u ∈ D ++ s, isDig u = true := by
    intro u hu
    rcases List.mem_append.1 hu with hu | hu
    · exact J.digits u hu
    · exact J.task.digits u hu
  have hdd : ∀ u ∈ d', isDig u = true := fun u hu => hall u (hdp.subset hu)
  have hbl : blen (43 :: d') = d'.length + 1 := by
    rw [blen_ascii]
    · rfl
    · intro u hu
      rcases List.mem_cons.1 hu with rfl | hu
      · decide
      · exact isDig_lt (hdd u hu)
  cases hst with
  | start h =>
    have hpl : T.plain = 43 :: d' := by rw [hplain, h.plain, hd']
    have hnn' : T.nn = d' := by
      rw [hnn]
      split
      · rename_i h0; rw [h0] at hd'; simp at hd'; exact hd'.2.symm
      · rename_i h0
        rw [h.nn]
        cases t with
        | nil => exact absurd rfl h0
        | cons u t => simp at hd'; simp [hd'.2]
    have hlen : d'.length = t.length := by have := congrArg List.length hd'; simp at this; omega
    rcases hr with ⟨h1, _⟩ | ⟨_, hr⟩
    · rw [h.able] at h1; cases h1
    · unfold ableStep at hr
      rw [hpl, hbl] at hr
      have hs := h.short
      by_cases h3 : d'.length + 1 < 3
      · rw [if_pos h3] at hr
        have hr := Except.ok.inj hr
        rw [← hr, hd']
        exact .start ⟨by simp; omega, e2.trans h.able, hpl, by rw [hnn']; rfl, e4.trans h.formats, e7.trans h.ndd, e8.trans h.metadata⟩
      · rw [if_neg h3, if_pos (by omega), idd_plus hpl, ok_bind, if_pos rfl] at hr
        rw [hd']
        refine expect_step J hdp (by omega) (.inr (by omega)) ?_ ?_ ?_ hr
        · exact ⟨e2.trans h.able, hpl, rfl, rfl, rfl, rfl, e4.trans h.formats, e7.trans h.ndd, e8.trans h.metadata⟩
        · exact e12
        · exact e3
  | wait d ht h2 hp hne h =>
    subst ht
    have hdd' : d' = d ++ [v] := by simp at hd'; exact hd'.symm
    have hpl : T.plain = 43 :: d' := by rw [hplain, h.plain, hdd']; rfl
    have hnn' : T.nn = d' := by rw [hnn, if_neg (by simp), h.nn, hdd']
    have hlen : d'.length = d.length + 1 := by rw [hdd']; simp
    rcases hr with ⟨h1, _⟩ | ⟨_, hr⟩
    · rw [h.able] at h1; cases h1
    · unfold ableStep at hr
      rw [hpl, hbl, if_neg (by omega), if_neg (by omega)] at hr
      rw [hd']
      refine expect_step J hdp (by omega) (.inl ?_) ?_ e12 e3 hr
      · have := hp.length_le
        have : d.length ≠ D.length := fun k => hne (hp.eq_of_length k)
        omega
      · exact ⟨e2.trans h.able, hpl, hnn', e6.trans h.pre, e9.trans h.complete, e10.trans h.expecting, e4.trans h.formats, e7.trans h.ndd,
          e8.trans h.metadata⟩
  | after q ht h3 hq h =>
    subst ht
    have hdd' : d' = D ++ (q ++ [v]) := by simp at hd'; exact hd'.symm
    have hps : q ++ [v] <+: s := by
      rw [hdd', List.prefix_append_right_inj] at hdp; exact hdp
    have hon : On region D m (q ++ [v]) T :=
      ⟨e9.trans h.on.complete, e7.trans h.on.ndd, e8.trans h.on.metadata, e6.trans h.on.pre, by rw [hnn, if_neg (by simp), h.on.nn],
        by rw [hplain, h.on.plain, ← List.append_assoc]; rfl, e3, e10.trans h.on.expecting, e12⟩
    rw [hd', hdd']
    have h3' : 3 ≤ (43 :: (D ++ (q ++ [v]))).length := by simp at h3 ⊢; omega
    have fromRes : 3 ≤ (q ++ [v]).length → Res (rulesFor m .international) region D m s f pre (q ++ [v]) r →
        St C region D m s f pre (43 :: (D ++ (q ++ [v]))) r.1 r.2 := fun hl hres =>
      .after _ rfl h3' hps ⟨hres.on, fun k => absurd k (by omega), fun _ => hres.list, hres.out⟩
    rcases hr with ⟨h1, hr⟩ | ⟨h1, hr⟩
    · have hq3 : 3 ≤ q.length := by
        apply Classical.byContradiction
        intro k
        rw [(h.few (by omega)).2] at h1; cases h1
      have hl : 3 ≤ (q ++ [v]).length := by simp; omega
      exact fromRes hl (unableStep_on J hps hl hon hr)
    · unfold ableStep at hr
      have hbig : 3 < blen T.plain := by
        rw [hon.plain, ← hdd', hbl, hdd']; simp at h3 ⊢; omega
      rw [if_neg (by omega), if_neg (by omega)] at hr
      by_cases hq3 : 3 ≤ q.length
      · exact fromRes (by simp; omega) (laterStep_on J (List.prefix_append _ _) (by simp) hps hq3 hon (by rw [e4]; exact h.many hq3 h1) hr)
      · obtain ⟨hF, hab⟩ := h.few (by omega)
        have hF' : T.formats = [] := e4.trans hF
        unfold laterStep at hr
        rw [if_neg (by rw [hon.expecting]; simp), if_neg (by rw [hF']; simp)] at hr
        by_cases hl : 3 ≤ (q ++ [v]).length
        · exact fromRes hl (choosePattern_on J hps hl hon hF' hr)
        · unfold choosePattern at hr
          rw [if_neg (by rw [hon.nn, blen_dig (fun u hu => J.task.digits u (hps.subset hu))]; exact hl)] at hr
          have hr := Except.ok.inj hr
          rw [← hr]
          have hlong := J.long
          refine .after _ rfl h3' hps ⟨hon, fun _ => ⟨hF', e2.trans hab⟩, fun k => absurd k hl, fun k => ?_⟩
          rw [k] at hl; omega

theorem dial_single (c : Nat) : dial [c] = (dialOf c).toList := by
  unfold dial
  cases h : dialOf c with
  | none => rw [List.filterMap_cons_none h]; rfl
  | some v => rw [List.filterMap_cons_some h]; rfl

theorem dial_length_le (s : Str) : (dial s).length ≤ s.length := List.length_filterMap_le _ _

theorem taken_rest' (a : Aytf) (c : Nat) (r : Bool) : a.taken c r =
    { a with accrued := (a.taken c r).accrued, originalPos := (a.taken c r).originalPos, plain := (a.taken c r).plain,
             nn := (a.taken c r).nn, rememberPos := (a.taken c r).rememberPos } := by
  have h := taken_rest a c r
  have h1 : (a.taken c r).accrued = a.accrued ++ [c] := by rw [h]
  have h2 : (a.taken c r).originalPos = (a.noted c r).originalPos := by rw [h]
  rw [h1, h2]; exact h

/-- After a plus sign, the calling code and the number. -/
theorem shown_calls {C : Container} {region : Str} {cc : Int} {D : Str} {m : Metadata} {s : Str} {f : NumberFormat}
    {pre post : List NumberFormat} (J : Job C region cc D m s f pre post) {ks : List Call} {a : Aytf}
    (h : calls C (new C region) ks = .ok a) (hp : PhoneInput (typed ks)) (hh : (typed ks).head? = some 43)
    (hd : dial (typed ks) = 43 :: (D ++ s)) : a.currentOutput = leadOf D ++ layBy f s := by
  have key : Typed (typed ks) a ∧ Home C region a ∧ (PhoneInput (typed ks) → (typed ks).head? ≠ some 0xFF0B → dial (typed ks) <+: 43 :: (D ++ s) →
      a.hasFmt = false ∧ (dial (typed ks)).length = (typed ks).length ∧ St C region D m s f pre (dial (typed ks)) a a.currentOutput) := by
    refine calls_induct (P := fun x a => Typed x a ∧ Home C region a ∧ (PhoneInput x → x.head? ≠ some 0xFF0B → dial x <+: 43 :: (D ++ s) →
      a.hasFmt = false ∧ (dial x).length = x.length ∧ St C region D m s f pre (dial x) a a.currentOutput)) ?_ ?_ (s := [])
      ⟨typed_new C region, ⟨rfl, rfl⟩, fun _ _ _ => ⟨rfl, rfl, .start ⟨by decide, rfl, rfl, rfl, rfl, rfl, rfl⟩⟩⟩ h
    · intro x a ⟨_, ha, _⟩
      rw [clear_eq_new ha]
      exact ⟨typed_new C region, ⟨rfl, rfl⟩, fun _ _ _ => ⟨rfl, rfl, .start ⟨by decide, rfl, rfl, rfl, rfl, rfl, rfl⟩⟩⟩
    · intro x a c r q ⟨ht, ha, ih⟩ hc hq
      refine ⟨(typed_step C).2 x a c r q ht hc hq, home_step ha hq, fun hp hh hd => ?_⟩
      obtain ⟨hp1, hp2⟩ := phoneInput_split hp
      have hh1 : x.head? ≠ some 0xFF0B := by
        cases x with
        | nil => simp
        | cons => exact hh
      rw [dial_append] at hd
      obtain ⟨k1, k2, k3⟩ := ih hp1 hh1 (List.IsPrefix.trans (List.prefix_append _ _) hd)
      have hrune : rune c = c := by unfold rune badBase; split <;> omega
      -- what the character is
      have hv : ∃ v, dialOf c = some v ∧ (a.taken c r).plain = a.plain ++ [v] ∧
          (a.taken c r).nn = (if dial x = [] then [] else a.nn ++ [v]) ∧ (dial x ≠ [] → ((a.noted c r).accrue c r).2 = v) ∧ (dial x = [] → a.able = true) := by
        by_cases hx : x = []
        · subst hx
          have hc43 : c = 43 := by
            rcases hp2 with ⟨v, hv⟩ | ⟨_, h2⟩
            · have hv := (charDigit_iff c _).2 ⟨v, hv, rfl⟩
              have hdv : dialOf c = some (48 + v) := by unfold dialOf; rw [hrune, hv]
              rw [dial_single, hdv] at hd
              obtain ⟨w, hw⟩ := hd
              simp [dial] at hw
              have := charDigit_isDig hv
              rw [hw.1] at this; cases this
            · rcases h2 with h2 | h2
              · exact h2
              · rw [h2] at hh; simp at hh
          subst hc43
          obtain ⟨p1, p2⟩ := taken_plus a r
          have hst : Begun C region [] a := by
            cases k3 with
            | start h => exact h
            | wait d ht => cases ht
            | after p ht => cases ht
          refine ⟨43, by decide +kernel, p1, ?_, fun h => absurd rfl h, fun _ => hst.able⟩
          rw [p2, hst.nn]; rfl
        · have hx0 : dial x ≠ [] := by
            intro h0; rw [h0] at k2; exact hx (List.length_eq_zero_iff.1 k2.symm)
          have hdig : ∃ v, charDigit c = some v := by
            rcases hp2 with ⟨v, hv⟩ | ⟨h1, _⟩
            · exact ⟨_, (charDigit_iff c _).2 ⟨v, hv, rfl⟩⟩
            · cases x with
              | nil => exact absurd rfl hx
              | cons => cases h1
          obtain ⟨v, hv⟩ := hdig
          have hc43 : c ≠ 43 := by rintro rfl; exact absurd hv (by rw [show charDigit 43 = none by decide +kernel]; simp)
          obtain ⟨p1, p2, p3⟩ := taken_other a r hc43
          rw [hv, Option.getD_some] at p1 p2 p3
          exact ⟨v, by unfold dialOf; rw [hrune, hv], p1, by rw [if_neg hx0]; exact p2, fun _ => p3, fun h => absurd h hx0⟩
      obtain ⟨v, hv, p1, p2, p3, p4⟩ := hv
      have hdc : dial (x ++ [c]) = dial x ++ [v] := by rw [dial_append, dial_single, hv]; rfl
      have hph' : (a.noted c r).isDigitOrLeadingPlus c = true := (phoneish_iff hc).2 (ht.accrued ▸ hp2)
      have hfmt : q.1.hasFmt = false := by
        have e3 : (a.taken c r).hasFmt = false := by rw [taken_rest]; exact k1
        rcases inputCore_cases hq with ⟨h1, _⟩ | ⟨_, _, hq⟩ | ⟨_, _, hq⟩
        · rw [hph'] at h1; cases h1
        · rw [(unableStep_frame hq).hasFmt]; exact e3
        · rw [(ableStep_frame hq).hasFmt]; exact e3
      refine ⟨hfmt, by rw [hdc]; simp [k2], ?_⟩
      rw [hdc]
      have hd' : dial x ++ [v] <+: 43 :: (D ++ s) := by rw [dial_single, hv] at hd; exact hd
      have hcases : (a.able = false ∧ unableStep C (a.taken c r) = .ok q) ∨ (a.able = true ∧ ableStep C (a.taken c r) v = .ok q) := by
        rcases inputCore_cases hq with ⟨h1, _⟩ | ⟨_, h2, hq⟩ | ⟨_, h2, hq⟩
        · rw [hph'] at h1; cases h1
        · exact .inl ⟨h2, hq⟩
        · refine .inr ⟨h2, ?_⟩
          by_cases hx : dial x = []
          · have hpl : blen (a.taken c r).plain < 3 := by
              cases k3 with
              | start h => 
                have hx0 : x = [] := by rw [hx] at k2; exact List.length_eq_zero_iff.1 k2.symm
                have : v = 43 := by
                  rw [hx] at hd'; obtain ⟨w, hw⟩ := hd'; simp at hw; exact hw.1
                rw [p1, h.plain, hx, this]; decide
              | wait d ht => rw [hx] at ht; cases ht
              | after p ht => rw [hx] at ht; cases ht
            unfold ableStep at hq ⊢
            rw [if_pos hpl] at hq ⊢
            exact hq
          · rw [p3 hx] at hq; exact hq
      have hres := st_step J k3 hd' ha.country k1 (taken_rest' a c r) p1 p2 hcases
      cases hres with
      | start h => exact .start ⟨h.short, h.able, h.plain, h.nn, h.formats, h.ndd, h.metadata⟩
      | wait d e1 e2 e3 e4 h => exact .wait d e1 e2 e3 e4 ⟨h.able, h.plain, h.nn, h.pre, h.complete, h.expecting, h.formats, h.ndd, h.metadata⟩
      | after p e1 e2 e3 h =>
        exact .after p e1 e2 e3 ⟨⟨h.on.complete, h.on.ndd, h.on.metadata, h.on.pre, h.on.nn, h.on.plain, h.on.hasFmt, h.on.expecting, h.on.country⟩,
          h.few, h.many, h.out⟩
  obtain ⟨_, _, k⟩ := key
  obtain ⟨_, _, k⟩ := k hp (by rw [hh]; simp) (by rw [hd]; exact List.prefix_refl _)
  rw [hd] at k
  have hlong := J.long
  cases k with
  | start h => have := h.short; simp at this; omega
  | wait d ht _ hpd hne _ =>
    exfalso
    have : d = D ++ s := (List.cons.inj ht).2.symm
    rw [this] at hpd
    have := hpd.length_le
    rw [List.length_append] at this
    omega
  | after p ht _ _ h =>
    have : D ++ s = D ++ p := (List.cons.inj ht).2
    exact h.out (List.append_cancel_left this).symm

end Verif.Aytf
