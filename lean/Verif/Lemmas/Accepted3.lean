import Verif.Lemmas.Accepted2
/-
What the check of a date and time format says about the fields that a scan sets.
-/
namespace Scn
open Spec
variable {T : Type}

/-! ### The checker -/

theorem field_fold_ok (gmtoff : Bool) (k : TmKind) (fs : List ChronoField) : ∀ (F : List ChronoField), F.Nodup →
    (fs.foldl (fun c f => Checker.field gmtoff k f c) ⟨false, { set := F }⟩).failed = false →
    (∀ f ∈ fs, k.supports gmtoff f = true) ∧ (fs.reverse ++ F).Nodup := by
  induction fs with
  | nil => intro F hF _; exact ⟨fun _ h => (by cases h), hF⟩
  | cons f fs ih =>
    intro F hF h
    rw [List.foldl_cons] at h
    by_cases hbad : k.supports gmtoff f = true ∧ f ∉ F
    · have : Checker.field gmtoff k f ⟨false, { set := F }⟩ = ⟨false, { set := f :: F }⟩ := by
        unfold Checker.field SetterState.mark SetterState.has
        simp [hbad.1, hbad.2]
      rw [this] at h
      obtain ⟨h1, h2⟩ := ih (f :: F) (List.nodup_cons.2 ⟨hbad.2, hF⟩) h
      refine ⟨?_, ?_⟩
      · intro g hg
        rcases List.mem_cons.1 hg with rfl | hg
        · exact hbad.1
        · exact h1 g hg
      · rw [List.reverse_cons, List.append_assoc, List.singleton_append]; exact h2
    · exfalso
      have hf : (Checker.field gmtoff k f ⟨false, { set := F }⟩).failed = true := by
        unfold Checker.field SetterState.mark SetterState.has
        by_cases hs : k.supports gmtoff f = true
        · have : f ∈ F := Classical.byContradiction fun hn => hbad ⟨hs, hn⟩
          simp [this]
        · simp [hs]
      rw [check_fold_failed gmtoff k fs _ hf] at h
      cases h

theorem check_calls_ok (gmtoff : Bool) (k : TmKind) (xs : List ChronoCall) (hp : ∀ x ∈ xs, PlainCall x) : ∀ (F : List ChronoField) (c : Checker), F.Nodup →
    Calls (checkHandler gmtoff k) ⟨false, { set := F }⟩ xs c →
    (∀ f ∈ xs.flatMap ChronoCall.checkedFields, k.supports gmtoff f = true) ∧ ((xs.flatMap ChronoCall.checkedFields).reverse ++ F).Nodup ∧
      c = ⟨false, { set := (xs.flatMap ChronoCall.checkedFields).reverse ++ F }⟩ := by
  induction xs with
  | nil => intro F c hF h; cases h; exact ⟨fun _ h => (by cases h), hF, rfl⟩
  | cons x xs ih =>
    intro F c hF h
    cases h with
    | cons _ _ a _ _ hc hok hs =>
      have hc' : Checker.call gmtoff k ⟨false, { set := F }⟩ x = some a := hc
      rw [check_call gmtoff k _ x (hp x (by simp))] at hc'
      cases hc'
      obtain ⟨h1, h2⟩ := field_fold_ok gmtoff k x.checkedFields F hF (by simpa [checkHandler] using hok)
      rw [field_fold gmtoff k _ h1 F h2] at hs
      obtain ⟨h3, h4, h5⟩ := ih (fun y hy => hp y (by simp [hy])) _ c h2 hs
      rw [List.flatMap_cons, List.reverse_append, List.append_assoc]
      refine ⟨?_, h4, h5⟩
      intro f hf
      rcases List.mem_append.1 hf with hf | hf
      · exact h1 f hf
      · exact h3 f hf

/-- A format that is accepted: its checked fields are supported, different, and pass the final check. -/
theorem accepted_fields {e : Enc} {gmtoff : Bool} {k : TmKind} {is : List FmtItem} (hok : FormatOk e is) {r : List Nat} {v : List Nat × List Nat}
    (h : chronoParse e gmtoff k (formatText is ++ 125 :: r) = .ok v) :
    (∀ f ∈ (is.map FmtItem.call).flatMap ChronoCall.checkedFields, k.supports gmtoff f = true) ∧
      ((is.map FmtItem.call).flatMap ChronoCall.checkedFields).Nodup ∧
      SetterState.verify { set := ((is.map FmtItem.call).flatMap ChronoCall.checkedFields).reverse } = true := by
  obtain ⟨t, c, js, his⟩ := hok.1
  have hl : formatText is ++ 125 :: r = 37 :: (t ++ (formatText js ++ 125 :: r)) := by rw [his]; simp [formatText, FmtItem.text]
  unfold chronoParse at h
  rw [hl] at h
  dsimp only at h
  rw [if_neg (by decide), ← hl] at h
  split at h
  · cases h
  · rename_i chk p1 hparse
    split at h
    · cases h
    · rename_i hfail
      obtain ⟨xs, hx, hcalls⟩ := parse_success e (checkHandler gmtoff k) (check_sticky gmtoff k) hparse (by simpa [checkHandler] using hfail)
      have hd := (formatCalls_items hok (125 :: r) (Or.inr ⟨r, rfl⟩) hx).1
      have hcalls := calls_dropEmpty (h := checkHandler gmtoff k) (fun _ => rfl) hcalls
      rw [hd] at hcalls
      obtain ⟨a, ha, hv⟩ := hcalls.split
      obtain ⟨h1, h2, h3⟩ := check_calls_ok gmtoff k _ (by
        intro x hx
        obtain ⟨i, hi, rfl⟩ := List.mem_map.1 hx
        exact plain_item (hok.2.1 i hi)) [] a List.nodup_nil ha
      rw [List.append_nil] at h2 h3
      refine ⟨h1, ?_, ?_⟩
      · exact (List.pairwise_reverse.1 h2).imp Ne.symm
      · cases hv with
        | cons _ _ b _ _ hver hok' hnil =>
          cases hnil
          subst h3
          have hver' : some (if SetterState.verify _ then _ else _) = some chk := hver
          apply Classical.byContradiction
          intro hne
          rw [if_neg hne] at hver'
          cases hver'
          exact hfail rfl

/-! ### The checked fields and those that are set -/

/-- `%r` among the conversions, how often. -/
def countR (xs : List ChronoCall) : Nat := xs.count .loc12HourTime

theorem nodup_of_count {l : List ChronoField} (h : ∀ f, l.count f ≤ 1) : l.Nodup := by
  induction l with
  | nil => exact List.nodup_nil
  | cons a l ih =>
    refine List.nodup_cons.2 ⟨?_, ih fun f => Nat.le_trans (List.count_le_count_cons) (h f)⟩
    intro hm
    have h1 := h a
    have h2 := List.count_pos_iff.2 hm
    rw [List.count_cons_self] at h1
    omega

theorem count_of_nodup {l : List ChronoField} (h : l.Nodup) (f : ChronoField) : l.count f ≤ 1 := by
  induction l with
  | nil => simp
  | cons a l ih =>
    obtain ⟨h1, h2⟩ := List.nodup_cons.1 h
    by_cases hf : a = f
    · subst hf
      rw [List.count_cons_self, List.count_eq_zero_of_not_mem h1]
      exact Nat.le_refl _
    · rw [List.count_cons_of_ne (fun h => hf (by simpa using h))]; exact ih h2

theorem counts (xs : List ChronoCall) (hc : ∀ s, .locDatetime s ∉ xs) (hs : ∀ s, .subsecond s ∉ xs) :
    (∀ f, f ≠ .mon → f ≠ .hour24 → f ≠ .hour12 → f ≠ .amPm → (xs.flatMap realFields).count f = (xs.flatMap ChronoCall.checkedFields).count f) ∧
      (xs.flatMap ChronoCall.checkedFields).count .hour24 = (xs.flatMap realFields).count .hour24 + countR xs ∧
      (xs.flatMap realFields).count .hour12 = (xs.flatMap ChronoCall.checkedFields).count .hour12 + countR xs ∧
      (xs.flatMap realFields).count .amPm = (xs.flatMap ChronoCall.checkedFields).count .amPm + countR xs := by
  induction xs with
  | nil => exact ⟨fun _ _ _ _ _ => rfl, rfl, rfl, rfl⟩
  | cons x xs ih =>
    obtain ⟨i1, i2, i3, i4⟩ := ih (fun s h => hc s (by simp [h])) (fun s h => hs s (by simp [h]))
    have hx : (∀ f, f ≠ .mon → f ≠ .hour24 → f ≠ .hour12 → f ≠ .amPm → (realFields x).count f = x.checkedFields.count f) ∧
        x.checkedFields.count .hour24 = (realFields x).count .hour24 + countR [x] ∧
        (realFields x).count .hour12 = x.checkedFields.count .hour12 + countR [x] ∧
        (realFields x).count .amPm = x.checkedFields.count .amPm + countR [x] := by
      have hc' := fun s (h : x = .locDatetime s) => hc s (by simp [h])
      have hs' := fun s (h : x = .subsecond s) => hs s (by simp [h])
      cases x <;> first
        | exact absurd rfl (hc' _)
        | exact absurd rfl (hs' _)
        | (refine ⟨fun f h1 h2 h3 h4 => ?_, ?_, ?_, ?_⟩
           · cases f <;> first | exact absurd rfl h1 | exact absurd rfl h2 | exact absurd rfl h3 | exact absurd rfl h4 | rfl
           all_goals rfl)
    have hcr : countR (x :: xs) = countR [x] + countR xs := List.count_append (l₁ := [x])
    refine ⟨fun f h1 h2 h3 h4 => ?_, ?_, ?_, ?_⟩
    · rw [List.flatMap_cons, List.flatMap_cons, List.count_append, List.count_append, hx.1 f h1 h2 h3 h4, i1 f h1 h2 h3 h4]
    · rw [List.flatMap_cons, List.flatMap_cons, List.count_append, List.count_append, hx.2.1, i2, hcr]; omega
    · rw [List.flatMap_cons, List.flatMap_cons, List.count_append, List.count_append, hx.2.2.1, i3, hcr]; omega
    · rw [List.flatMap_cons, List.flatMap_cons, List.count_append, List.count_append, hx.2.2.2, i4, hcr]; omega

/-- The final check in terms of the fields. -/
theorem verify_iff (st : SetterState) : st.verify = true ↔
    ¬ (.hour24 ∈ st.set ∧ .hour12 ∈ st.set) ∧ (.amPm ∈ st.set → .hour12 ∈ st.set) ∧ (.fullYear ∈ st.set → .century ∉ st.set ∧ .shortYear ∉ st.set) ∧
      ¬ (.tzoff ∈ st.set ∧ .tzname ∈ st.set) ∧
      ((st.has .wday || st.has .mday || st.has .yday) && !((st.has .wday ^^ st.has .mday) ^^ st.has .yday)) = false := by
  have hh : ∀ f, st.has f = decide (f ∈ st.set) := fun f => List.contains_eq_mem f st.set
  unfold SetterState.verify
  generalize ((st.has .wday || st.has .mday || st.has .yday) && !((st.has .wday ^^ st.has .mday) ^^ st.has .yday)) = days
  simp only [hh]
  by_cases h1 : ChronoField.hour24 ∈ st.set <;> by_cases h2 : ChronoField.hour12 ∈ st.set <;> by_cases h3 : ChronoField.amPm ∈ st.set <;>
    by_cases h4 : ChronoField.fullYear ∈ st.set <;> by_cases h5 : ChronoField.century ∈ st.set <;> by_cases h6 : ChronoField.shortYear ∈ st.set <;>
    by_cases h7 : ChronoField.tzoff ∈ st.set <;> by_cases h8 : ChronoField.tzname ∈ st.set <;> cases days <;> simp [h1, h2, h3, h4, h5, h6, h7, h8]

/-- For a format that was accepted, with neither `%c` nor two months, the fields that a scan sets are supported, different, and
    pass the final check. -/
theorem accepted_real {e : Enc} {gmtoff : Bool} {k : TmKind} {is : List FmtItem} (hok : FormatOk e is) {r : List Nat} {v : List Nat × List Nat}
    (h : chronoParse e gmtoff k (formatText is ++ 125 :: r) = .ok v) (hc : ∀ s, .locDatetime s ∉ is.map FmtItem.call)
    (hmon : (fieldsOf (callsOf is)).count .mon ≤ 1) (marked : ChronoField → Bool) (hm : ∀ f, f ≠ .tzoff → marked f = true) :
    (∀ f ∈ fieldsOf (callsOf is), k.supports gmtoff f = true) ∧ (fieldsOf (callsOf is)).Nodup ∧
      ∀ st : SetterState, st.set = ((fieldsOf (callsOf is)).filter marked).reverse → st.verify = true := by
  obtain ⟨h1, h2, h3⟩ := accepted_fields hok h
  have hsub : ∀ s, .subsecond s ∉ is.map FmtItem.call := by
    intro s hs
    obtain ⟨i, hi, hcall⟩ := List.mem_map.1 hs
    have := item_oneField (hok.2.1 i hi) (.subsecond s) (by rw [hcall]; simp [expansion])
    exact this.2.2 s rfl
  obtain ⟨c1, c2, c3, c4⟩ := counts _ hc hsub
  have hreal : fieldsOf (callsOf is) = (is.map FmtItem.call).flatMap realFields := by
    rw [show callsOf is = (is.map FmtItem.call).flatMap expansion by unfold callsOf; rw [List.flatMap_map], fieldsOf_flatMap]
  rw [hreal] at hmon ⊢
  generalize (is.map FmtItem.call).flatMap realFields = R at *
  generalize (is.map FmtItem.call).flatMap ChronoCall.checkedFields = C at *
  generalize countR (is.map FmtItem.call) = n at *
  have mR : ∀ f, f ∈ R ↔ 0 < R.count f := fun f => List.count_pos_iff.symm
  have mC : ∀ f, f ∈ C ↔ 0 < C.count f := fun f => List.count_pos_iff.symm
  have nC := count_of_nodup h2
  rw [verify_iff] at h3
  simp only [List.mem_reverse] at h3
  obtain ⟨v1, v2, v3, v4, v5⟩ := h3
  rw [mC, mC] at v1 v2
  have n1 := nC .hour24
  have n2 := nC .hour12
  have n3 := nC .amPm
  have same : ∀ f, f ≠ .mon → f ≠ .hour24 → f ≠ .hour12 → f ≠ .amPm → (f ∈ R ↔ f ∈ C) := fun f a b c d => by rw [mR, mC, c1 f a b c d]
  refine ⟨?_, nodup_of_count fun f => ?_, ?_⟩
  · intro f hf
    by_cases hall : f ≠ .mon ∧ f ≠ .hour24 ∧ f ≠ .hour12 ∧ f ≠ .amPm
    · exact h1 f ((same f hall.1 hall.2.1 hall.2.2.1 hall.2.2.2).1 hf)
    · cases f <;> first | (cases k <;> rfl) | exact absurd ⟨by decide, by decide, by decide, by decide⟩ hall
  · by_cases hall : f ≠ .mon ∧ f ≠ .hour24 ∧ f ≠ .hour12 ∧ f ≠ .amPm
    · rw [c1 f hall.1 hall.2.1 hall.2.2.1 hall.2.2.2]; exact nC f
    · cases f <;> first | exact absurd ⟨by decide, by decide, by decide, by decide⟩ hall | exact hmon | omega
  · intro st hst
    have has : ∀ f, f ∈ st.set ↔ f ∈ R ∧ marked f = true := fun f => by rw [hst]; simp
    have has' : ∀ f, f ≠ .tzoff → (f ∈ st.set ↔ f ∈ R) := fun f hf => by rw [has, hm f hf]; simp
    have hb : ∀ f, f ≠ .tzoff → f ≠ .mon → f ≠ .hour24 → f ≠ .hour12 → f ≠ .amPm → st.has f = SetterState.has { set := C.reverse } f := by
      intro f a b c d e
      show st.set.contains f = C.reverse.contains f
      rw [List.contains_eq_mem, List.contains_eq_mem]
      congr 1
      rw [List.mem_reverse, has' f a, same f b c d e]
    rw [verify_iff, hb .wday (by decide) (by decide) (by decide) (by decide) (by decide), hb .mday (by decide) (by decide) (by decide) (by decide) (by decide),
      hb .yday (by decide) (by decide) (by decide) (by decide) (by decide)]
    rw [has' .hour24 (by decide), has' .hour12 (by decide), has' .amPm (by decide), has' .fullYear (by decide), has' .century (by decide), has' .shortYear (by decide),
      has' .tzname (by decide), same .fullYear (by decide) (by decide) (by decide) (by decide), same .century (by decide) (by decide) (by decide) (by decide),
      same .shortYear (by decide) (by decide) (by decide) (by decide), same .tzname (by decide) (by decide) (by decide) (by decide)]
    refine ⟨?_, ?_, v3, ?_, v5⟩
    · rw [mR, mR]; omega
    · rw [mR, mR]; omega
    · rw [has, same .tzoff (by decide) (by decide) (by decide) (by decide)]
      exact fun hh => v4 ⟨hh.1.1, hh.2⟩

/-- The whole path. -/
theorem custom_wrong_format {cfg : ChronoCfg} (hl : GoodLayouts cfg.enc cfg.lay) {set : TmSetter T} {gmtoff : Bool} {k : TmKind} {marked : ChronoField → Bool}
    (hs : SetterOk cfg set (TmKind.supports gmtoff k) marked) (hm : ∀ f, f ≠ .tzoff → marked f = true) {is : List FmtItem} (hok : FormatOk cfg.enc is)
    {r : List Nat} {v : List Nat × List Nat} (hacc : chronoParse cfg.enc gmtoff k (formatText is ++ 125 :: r) = .ok v) (hz : .tzName ∉ callsOf is)
    (hc : ∀ s, .locDatetime s ∉ is.map FmtItem.call) (hmon : (fieldsOf (callsOf is)).count .mon ≤ 1) {t0 : T} {src p' : List Nat} (hsrc : ∀ c ∈ src, IsScalar c)
    (h : chronoCustom cfg gmtoff k set t0 (formatText is ++ 125 :: r) (encodes cfg.enc src) = (p', .err .invalidFormatString)) :
    Mismatch (callsOf is) (src.dropWhile isSpace) := by
  obtain ⟨a1, a2, a3⟩ := accepted_real hok hacc hc hmon marked hm
  have hv := chronoParse_text (fmt := v.1) (p := v.2) hok hacc
  unfold chronoCustom at h
  rw [hacc] at h
  dsimp only at h
  rw [hv.1] at h
  exact scan_wrong_format hl hs hok hz a1 a2 a3 hsrc (congrArg Prod.snd h)

end Scn
