import Verif.Lemmas.Chrono4
/-
The format checker accepts the formats whose fields are compatible; the whole path from the replacement field to the value.
-/
namespace Scn
open Spec
variable {T : Type}

theorem field_fold (gmtoff : Bool) (k : TmKind) (fs : List ChronoField) (hsup : ∀ f ∈ fs, k.supports gmtoff f = true) (F : List ChronoField)
    (hnd : (fs.reverse ++ F).Nodup) :
    fs.foldl (fun c f => Checker.field gmtoff k f c) ⟨false, { set := F }⟩ = ⟨false, { set := fs.reverse ++ F }⟩ := by
  induction fs generalizing F with
  | nil => rfl
  | cons f fs ih =>
    rw [List.reverse_cons, List.append_assoc, List.singleton_append] at hnd ⊢
    have hf : f ∉ F := (List.nodup_cons.1 (List.nodup_append.1 hnd).2.1).1
    have : Checker.field gmtoff k f ⟨false, { set := F }⟩ = ⟨false, { set := f :: F }⟩ := by
      unfold Checker.field SetterState.mark SetterState.has
      simp [hsup f (by simp), hf]
    rw [List.foldl_cons, this]
    exact ih (fun g hg => hsup g (by simp [hg])) _ hnd

/-- The calls that a format of `FormatOk` makes. -/
def PlainCall (x : ChronoCall) : Prop := x ≠ .error ∧ x ≠ .verify ∧ x.unimplemented = false

theorem plain_item {e : Enc} {i : FmtItem} (h : i.Ok e) : PlainCall i.call := by
  cases i with
  | lit t => exact ⟨by simp [FmtItem.call], by simp [FmtItem.call], rfl⟩
  | space c => exact ⟨by simp [FmtItem.call], by simp [FmtItem.call], rfl⟩
  | conv t c =>
    rcases h with ⟨x, rfl, hx⟩ | ⟨m, x, rfl, hx⟩
    · have : ∀ p ∈ conversions, p.2 ≠ .error ∧ p.2 ≠ .verify ∧ p.2.unimplemented = false := by decide +kernel
      exact this _ hx
    · have : ∀ p ∈ modified, p.2.2 ≠ .error ∧ p.2.2 ≠ .verify ∧ p.2.2.unimplemented = false := by decide +kernel
      exact this _ hx

theorem check_call (gmtoff : Bool) (k : TmKind) (c : Checker) (x : ChronoCall) (h : PlainCall x) :
    c.call gmtoff k x = some (x.checkedFields.foldl (fun c f => Checker.field gmtoff k f c) c) := by
  obtain ⟨h1, h2, h3⟩ := h
  cases x <;> first | exact absurd rfl h1 | exact absurd rfl h2 | (simp [Checker.call, h3]) | cases h3

theorem check_calls (gmtoff : Bool) (k : TmKind) (xs : List ChronoCall) (hp : ∀ x ∈ xs, PlainCall x)
    (hsup : ∀ f ∈ xs.flatMap ChronoCall.checkedFields, k.supports gmtoff f = true) (F : List ChronoField)
    (hnd : ((xs.flatMap ChronoCall.checkedFields).reverse ++ F).Nodup) :
    Calls (checkHandler gmtoff k) ⟨false, { set := F }⟩ xs ⟨false, { set := (xs.flatMap ChronoCall.checkedFields).reverse ++ F }⟩ := by
  induction xs generalizing F with
  | nil => exact .nil _
  | cons x xs ih =>
    rw [List.flatMap_cons] at hsup hnd ⊢
    rw [List.reverse_append, List.append_assoc] at hnd ⊢
    refine .cons _ _ _ _ _ ?_ ?_ (ih (fun y hy => hp y (by simp [hy])) (fun f hf => hsup f (by simp [hf])) _ hnd)
    · show Checker.call gmtoff k _ x = _
      rw [check_call gmtoff k _ x (hp x (by simp)), field_fold gmtoff k _ (fun f hf => hsup f (by simp [hf])) F (List.nodup_append.1 hnd).2.1]
    · rfl

/-! ### The checked fields and the fields that are set -/

/-- The fields that a conversion sets in the end. -/
def realFields (x : ChronoCall) : List ChronoField := fieldsOf (expansion x)

theorem checked_real (x : ChronoCall) : ∀ f ∈ x.checkedFields, f ≠ .hour24 → f ≠ .subsec → f ∈ realFields x := by
  cases x <;> simp [ChronoCall.checkedFields, realFields, expansion, fieldsOf, fieldOf] <;> decide

theorem checked_hour (x : ChronoCall) (h : .hour24 ∈ x.checkedFields) : .hour24 ∈ realFields x ∨ (.hour12 ∈ realFields x ∧ .amPm ∈ realFields x) := by
  cases x <;> simp [ChronoCall.checkedFields, realFields, expansion, fieldsOf, fieldOf] at h ⊢

theorem real_hour12 (x : ChronoCall) (h : .hour12 ∈ realFields x) : .hour12 ∈ x.checkedFields ∨ .amPm ∈ realFields x := by
  cases x <;> simp [ChronoCall.checkedFields, realFields, expansion, fieldsOf, fieldOf] at h ⊢

theorem checked_nodup (x : ChronoCall) : x.checkedFields.Nodup := by
  cases x <;> simp [ChronoCall.checkedFields]

theorem amPm_checked (x : ChronoCall) (h : .amPm ∈ x.checkedFields) : x = .amPm := by
  cases x <;> simp [ChronoCall.checkedFields] at h ⊢

theorem hour12_checked (x : ChronoCall) (h : .hour12 ∈ x.checkedFields) : .amPm ∉ realFields x := by
  cases x <;> simp [ChronoCall.checkedFields, realFields, expansion, fieldsOf, fieldOf] at h ⊢

theorem fieldsOf_flatMap (xs : List ChronoCall) : fieldsOf (xs.flatMap expansion) = xs.flatMap realFields := by
  induction xs with
  | nil => rfl
  | cons x xs ih =>
    rw [List.flatMap_cons, List.flatMap_cons, ← ih]
    unfold realFields fieldsOf
    rw [List.filterMap_append]

theorem nodup_flatMap_cons {α β : Type} {f : α → List β} {x : α} {xs : List α} (h : ((x :: xs).flatMap f).Nodup) :
    (f x).Nodup ∧ (xs.flatMap f).Nodup ∧ ∀ b ∈ f x, b ∉ xs.flatMap f := by
  rw [List.flatMap_cons, List.nodup_append] at h
  exact ⟨h.1, h.2.1, fun b hb hb' => h.2.2 b hb b hb' rfl⟩

theorem nodup_unique {α β : Type} {f : α → List β} {xs : List α} (h : (xs.flatMap f).Nodup) {x y : α} (hx : x ∈ xs) (hy : y ∈ xs) {b : β}
    (hbx : b ∈ f x) (hby : b ∈ f y) : x = y := by
  induction xs with
  | nil => cases hx
  | cons z xs ih =>
    obtain ⟨_, h2, h3⟩ := nodup_flatMap_cons h
    rcases List.mem_cons.1 hx with hx1 | hx1 <;> rcases List.mem_cons.1 hy with hy1 | hy1
    · rw [hx1, hy1]
    · exact absurd (List.mem_flatMap.2 ⟨y, hy1, hby⟩) (h3 b (hx1 ▸ hbx))
    · exact absurd (List.mem_flatMap.2 ⟨x, hx1, hbx⟩) (h3 b (hy1 ▸ hby))
    · exact ih h2 hx1 hy1

/-- No part of the format is for subseconds. -/
def NoSubsec (xs : List ChronoCall) : Prop := ∀ x ∈ xs, .subsec ∉ x.checkedFields

theorem checked_flat_nodup (xs : List ChronoCall) (hs : NoSubsec xs) (hnd : (xs.flatMap realFields).Nodup)
    (hcl : ¬ (.hour24 ∈ xs.flatMap realFields ∧ .hour12 ∈ xs.flatMap realFields)) : (xs.flatMap ChronoCall.checkedFields).Nodup := by
  induction xs with
  | nil => simp
  | cons x xs ih =>
    obtain ⟨h1, h2, h3⟩ := nodup_flatMap_cons hnd
    rw [List.flatMap_cons] at hcl
    rw [List.flatMap_cons, List.nodup_append]
    refine ⟨checked_nodup x, ih (fun y hy => hs y (by simp [hy])) h2 (fun h => hcl ⟨List.mem_append_right _ h.1, List.mem_append_right _ h.2⟩), ?_⟩
    rintro f hf g hg rfl
    obtain ⟨y, hy, hfy⟩ := List.mem_flatMap.1 hg
    by_cases hh : f = .hour24
    · subst hh
      rcases checked_hour x hf with hx | ⟨hx, _⟩ <;> rcases checked_hour y hfy with hy' | ⟨hy', _⟩
      · exact h3 _ hx (List.mem_flatMap.2 ⟨y, hy, hy'⟩)
      · exact hcl ⟨List.mem_append_left _ hx, List.mem_append_right _ (List.mem_flatMap.2 ⟨y, hy, hy'⟩)⟩
      · exact hcl ⟨List.mem_append_right _ (List.mem_flatMap.2 ⟨y, hy, hy'⟩), List.mem_append_left _ hx⟩
      · exact h3 _ hx (List.mem_flatMap.2 ⟨y, hy, hy'⟩)
    · have hne : f ≠ .subsec := fun h => hs x (by simp) (h ▸ hf)
      exact h3 _ (checked_real x f hf hh hne) (List.mem_flatMap.2 ⟨y, hy, checked_real y f hfy hh hne⟩)

/-- What the final check of the format checker sees. -/
theorem checked_verify (xs : List ChronoCall) (hs : NoSubsec xs) (hnd : (xs.flatMap realFields).Nodup) (hF : Compatible (xs.flatMap realFields)) :
    SetterState.verify { set := (xs.flatMap ChronoCall.checkedFields).reverse ++ [] } = true := by
  have hreal : ∀ f, f ≠ .hour24 → f ∈ xs.flatMap ChronoCall.checkedFields → f ∈ xs.flatMap realFields := by
    intro f hh hf
    obtain ⟨x, hx, hfx⟩ := List.mem_flatMap.1 hf
    exact List.mem_flatMap.2 ⟨x, hx, checked_real x f hfx hh fun h => hs x hx (h ▸ hfx)⟩
  have hcomp : Compatible (xs.flatMap ChronoCall.checkedFields) := by
    refine ⟨?_, ?_, ?_, ?_, ?_⟩
    · rintro ⟨ha, hb⟩
      have hb' := hreal _ (by decide) hb
      obtain ⟨x, hx, hxa⟩ := List.mem_flatMap.1 ha
      rcases checked_hour x hxa with h | ⟨h, h'⟩
      · exact hF.clock ⟨List.mem_flatMap.2 ⟨x, hx, h⟩, hb'⟩
      · obtain ⟨y, hy, hyb⟩ := List.mem_flatMap.1 hb
        have := nodup_unique hnd hx hy h (checked_real y _ hyb (by decide) (by decide))
        subst this
        exact hour12_checked x hyb h'
    · intro ha
      have h12 := hF.amPm (hreal _ (by decide) ha)
      obtain ⟨x, hx, hxa⟩ := List.mem_flatMap.1 ha
      obtain ⟨y, hy, hyb⟩ := List.mem_flatMap.1 h12
      rcases real_hour12 y hyb with h | h
      · exact List.mem_flatMap.2 ⟨y, hy, h⟩
      · have := nodup_unique hnd hx hy (checked_real x _ hxa (by decide) (by decide)) h
        subst this
        have := amPm_checked x hxa
        subst this
        simp [realFields, expansion, fieldsOf, fieldOf] at hyb
    · intro h
      have := hF.year (hreal _ (by decide) h)
      exact ⟨fun h => this.1 (hreal _ (by decide) h), fun h => this.2 (hreal _ (by decide) h)⟩
    · rintro ⟨h1, h2⟩
      exact hF.tz ⟨hreal _ (by decide) h1, hreal _ (by decide) h2⟩
    · refine ⟨?_, ?_, ?_⟩
      · rintro ⟨h1, h2⟩; exact hF.day.1 ⟨hreal _ (by decide) h1, hreal _ (by decide) h2⟩
      · rintro ⟨h1, h2⟩; exact hF.day.2.1 ⟨hreal _ (by decide) h1, hreal _ (by decide) h2⟩
      · rintro ⟨h1, h2⟩; exact hF.day.2.2 ⟨hreal _ (by decide) h1, hreal _ (by decide) h2⟩
  refine verify_compatible _ _ hcomp (fun f _ => ?_) (fun h => ?_)
  · simp [SetterState.has]
  · simpa [SetterState.has] using h

theorem noSubsec_items {e : Enc} {is : List FmtItem} (h : ∀ i ∈ is, i.Ok e) : NoSubsec (is.map FmtItem.call) := by
  intro x hx
  obtain ⟨i, hi, rfl⟩ := List.mem_map.1 hx
  have := h i hi
  cases i with
  | lit t => simp [FmtItem.call, ChronoCall.checkedFields]
  | space c => simp [FmtItem.call, ChronoCall.checkedFields]
  | conv t c =>
    rcases this with ⟨x, rfl, hc⟩ | ⟨m, x, rfl, hc⟩
    · have : ∀ p ∈ conversions, ChronoField.subsec ∉ p.2.checkedFields := by decide +kernel
      exact this _ hc
    · have : ∀ p ∈ modified, ChronoField.subsec ∉ p.2.2.checkedFields := by decide +kernel
      exact this _ hc

/-- The checker accepts a format whose fields are compatible, and keeps exactly its text. -/
theorem chronoParse_ok (e : Enc) (gmtoff : Bool) (k : TmKind) (is : List FmtItem) (hfmt : FormatOk e is)
    (hnd : (fieldsOf (callsOf is)).Nodup) (hF : Compatible (fieldsOf (callsOf is))) (htz : .tzoff ∈ fieldsOf (callsOf is) → k.supports gmtoff .tzoff = true)
    (hname : .tzname ∉ fieldsOf (callsOf is)) (r : List Nat) :
    chronoParse e gmtoff k (formatText is ++ 125 :: r) = .ok (formatText is, 125 :: r) := by
  have hcalls : callsOf is = (is.map FmtItem.call).flatMap expansion := by unfold callsOf; rw [List.flatMap_map]
  rw [hcalls, fieldsOf_flatMap] at hnd hF htz hname
  have hns := noSubsec_items hfmt.2.1
  have hc := check_calls gmtoff k (is.map FmtItem.call) (by
      intro x hx
      obtain ⟨i, hi, rfl⟩ := List.mem_map.1 hx
      exact plain_item (hfmt.2.1 i hi))
    (by
      intro f hf
      by_cases hh : f = .hour24
      · subst hh; cases k <;> rfl
      · obtain ⟨x, hx, hfx⟩ := List.mem_flatMap.1 hf
        have hne : f ≠ .subsec := fun h => hns x hx (h ▸ hfx)
        have hr := List.mem_flatMap.2 ⟨x, hx, checked_real x f hfx hh hne⟩
        cases f <;> first | exact absurd rfl hne | exact absurd hr hname | exact htz hr | (cases k <;> rfl))
    [] (by rw [List.append_nil]; exact List.pairwise_reverse.2 ((checked_flat_nodup _ hns hnd hF.clock).imp Ne.symm))
  have hv : (checkHandler gmtoff k).call ⟨false, { set := ((is.map FmtItem.call).flatMap ChronoCall.checkedFields).reverse ++ [] }⟩ .verify =
      some ⟨false, { set := ((is.map FmtItem.call).flatMap ChronoCall.checkedFields).reverse ++ [] }⟩ := by
    show some (if _ then _ else _) = _
    rw [if_pos (checked_verify _ hns hnd hF)]
  have hp := parseChrono_items e (checkHandler gmtoff k) (fun c => rfl) is hfmt (125 :: r) (Or.inr ⟨r, rfl⟩) _ _ _ hc hv
  obtain ⟨⟨t, c, js, rfl⟩, _, _⟩ := hfmt
  have hl : formatText (.conv t c :: js) ++ 125 :: r = 37 :: (t ++ (formatText js ++ 125 :: r)) := by simp [formatText, FmtItem.text]
  have htake : (formatText (.conv t c :: js) ++ 125 :: r).take ((formatText (.conv t c :: js) ++ 125 :: r).length - (125 :: r).length) =
      formatText (.conv t c :: js) := by
    rw [List.length_append, Nat.add_sub_cancel, List.take_left]
  unfold chronoParse
  rw [hl] at hp htake ⊢
  dsimp only
  rw [if_neg (by decide)]
  rw [show ({} : Checker) = ⟨false, { set := [] }⟩ from rfl, hp]
  dsimp only
  rw [if_neg (by decide), htake]

theorem not_tzname {e : Enc} {c : Civil} {cs : List ChronoCall} {t rest : List Nat} (h : ShownSeq e c cs t rest) : .tzname ∉ fieldsOf cs := by
  induction h with
  | nil => simp [fieldsOf]
  | cons x cs t u f rest hx _ _ ih =>
    rw [fieldsOf_cons]
    intro hm
    rcases List.mem_append.1 hm with hm | hm
    · cases hx <;> simp [fieldOf] at hm
    · exact ih hm

theorem tm_supports (gmtoff : Bool) {cs : List ChronoCall} (htz : .tzoff ∈ fieldsOf cs → gmtoff = true) (hn : .tzname ∉ fieldsOf cs) :
    ∀ f ∈ fieldsOf cs, TmKind.supports gmtoff .tm f = true := by
  intro f hf
  cases f <;> first | rfl | exact htz hf | exact absurd hf hn | skip
  exfalso
  have : ∀ x : ChronoCall, fieldOf x ≠ some .subsec := by intro x; cases x <;> simp [fieldOf]
  unfold fieldsOf at hf
  obtain ⟨x, _, hx⟩ := List.mem_filterMap.1 hf
  exact this x hx

/-- From the replacement field to a `std::tm`. -/
theorem chronoCustom_tm (cfg : ChronoCfg) (hl : GoodLayouts cfg.enc cfg.lay) (gmtoff : Bool) (c : Civil) (hv : c.Valid) (is : List FmtItem)
    (hfmt : FormatOk cfg.enc is) (hnd : (fieldsOf (callsOf is)).Nodup) (hF : Compatible (fieldsOf (callsOf is)))
    (htz : .tzoff ∈ fieldsOf (callsOf is) → gmtoff = true)
    {ws t rest : List Nat} (h : ShownSeq cfg.enc c (callsOf is) t rest) (hw : Spaces ws) (hne : t ++ rest ≠ [])
    (hfirst : (t ++ rest).dropWhile isSpace = t ++ rest) (hs : ∀ c ∈ rest, IsScalar c) (t0 : Tm) (r : List Nat) :
    chronoCustom cfg gmtoff .tm (tmSetter gmtoff) t0 (formatText is ++ 125 :: r) (encodes cfg.enc (ws ++ (t ++ rest))) =
      (125 :: r, .ok (setTm (fieldsOf (callsOf is)) c t0, encodes cfg.enc rest)) := by
  unfold chronoCustom
  rw [chronoParse_ok cfg.enc gmtoff .tm is hfmt hnd hF (fun h => htz h) (not_tzname h)]
  dsimp only
  rw [chronoScan_shown cfg hl (tmSetter gmtoff) c hv (tracks_tm gmtoff c hv t0) t0 (by simp [trackedTm, trackedSt]) is hfmt h hw hne hfirst hs
    (tm_supports gmtoff htz (not_tzname h)) hnd hF.clock (setTm (fieldsOf (callsOf is)) c t0)
    (trackedSt c notTzoff (fieldsOf (callsOf is)).reverse) none ?_]
  · rfl
  · intro rg p
    rw [verify_tm gmtoff c hv t0 _ (compatible_reverse hF), setTm_reverse]

/-- From the replacement field to a `datetime_components`. -/
theorem chronoCustom_dt (cfg : ChronoCfg) (hl : GoodLayouts cfg.enc cfg.lay) (gmtoff : Bool) (c : Civil) (hv : c.Valid) (is : List FmtItem)
    (hfmt : FormatOk cfg.enc is) (hnd : (fieldsOf (callsOf is)).Nodup) (hF : Compatible (fieldsOf (callsOf is)))
    (hdt : ∀ f ∈ fieldsOf (callsOf is), f ≠ .shortYear ∧ f ≠ .century ∧ (f = .yday → c.yday ≤ 7))
    {ws t rest : List Nat} (h : ShownSeq cfg.enc c (callsOf is) t rest) (hw : Spaces ws) (hne : t ++ rest ≠ [])
    (hfirst : (t ++ rest).dropWhile isSpace = t ++ rest) (hs : ∀ c ∈ rest, IsScalar c) (t0 : DateTime) (r : List Nat) :
    chronoCustom cfg gmtoff .components dtSetter t0 (formatText is ++ 125 :: r) (encodes cfg.enc (ws ++ (t ++ rest))) =
      (125 :: r, .ok (setDateTime (fieldsOf (callsOf is)) c t0, encodes cfg.enc rest)) := by
  unfold chronoCustom
  rw [chronoParse_ok cfg.enc gmtoff .components is hfmt hnd hF (fun h => rfl) (not_tzname h)]
  dsimp only
  rw [chronoScan_shown cfg hl dtSetter c hv (tracks_dt c hv t0) t0 (by simp [trackedDateTime, trackedSt]) is hfmt h hw hne hfirst hs
    (fun f hf => by unfold dtCorrect; exact decide_eq_true (hdt f hf)) hnd hF.clock (setDateTime (fieldsOf (callsOf is)) c t0)
    (trackedSt c (fun _ => true) (fieldsOf (callsOf is)).reverse) none ?_]
  · rfl
  · intro rg p
    rw [verify_dt c hv t0 _ (compatible_reverse hF) (fun f hf => by unfold dtCorrect; exact decide_eq_true (hdt f (List.mem_reverse.1 hf))), setDateTime_reverse]

/-! ### Formats and texts -/

theorem digit_48 {d : Nat} (h : d ≤ 9) : digit? (48 + d) = some d ∧ IsDigit 10 (48 + d) := by
  have : digit? (48 + d) = some d := by unfold digit?; rw [if_pos (by omega)]; congr 1; omega
  exact ⟨this, d, this, by omega⟩

theorem digits_pad2 {lo n : Nat} (hlo : lo ≤ 2) (h : n ≤ 99) (f : List Nat → Prop) : Digits lo 2 n (pad2 n) f where
  digits c hc := by
    simp only [pad2, List.mem_cons, List.not_mem_nil, or_false] at hc
    rcases hc with rfl | rfl
    · exact (digit_48 (by omega)).2
    · exact (digit_48 (by omega)).2
  value := by
    unfold pad2 Spec.value
    simp only [List.foldl_cons, List.foldl_nil, (digit_48 (show n / 10 ≤ 9 by omega)).1, (digit_48 (show n % 10 ≤ 9 by omega)).1, Option.getD_some]
    omega
  low := hlo
  high := Nat.le_refl 2
  follow _ _ := Or.inl rfl

theorem digits_pad4 {n : Nat} (h : n ≤ 9999) (f : List Nat → Prop) : Digits 4 4 n (pad4 n) f where
  digits c hc := by
    unfold pad4 at hc
    rcases List.mem_append.1 hc with hc | hc
    · exact (digits_pad2 (lo := 0) (by omega) (by omega) (fun _ => True)).digits c hc
    · exact (digits_pad2 (lo := 0) (by omega) (by omega) (fun _ => True)).digits c hc
  value := by
    unfold pad4 pad2 Spec.value
    simp only [List.cons_append, List.nil_append, List.foldl_cons, List.foldl_nil, (digit_48 (show n / 100 / 10 ≤ 9 by omega)).1,
      (digit_48 (show n / 100 % 10 ≤ 9 by omega)).1, (digit_48 (show n % 100 / 10 ≤ 9 by omega)).1, (digit_48 (show n % 100 % 10 ≤ 9 by omega)).1,
      Option.getD_some]
    omega
  low := Nat.le_refl 4
  high := Nat.le_refl 4
  follow _ _ := Or.inl rfl


/-- Formats without literal text. -/
theorem formatOk_noLit {e : Enc} {t : List Nat} {c : ChronoCall} {js : List FmtItem} (hok : ∀ i ∈ FmtItem.conv t c :: js, i.Ok e)
    (hl : ∀ i ∈ FmtItem.conv t c :: js, i.isLit = false) : FormatOk e (.conv t c :: js) := by
  refine ⟨⟨t, c, js, rfl⟩, hok, ?_⟩
  intro pre a b post heq h
  have := hl a (by rw [heq]; simp)
  rw [h.1] at this
  cases this

theorem formatOk_one {e : Enc} {x : Nat} {c : ChronoCall} (h : (x, c) ∈ conversions) : FormatOk e [.conv [x] c] :=
  formatOk_noLit (by intro i hi; simp at hi; subst hi; exact Or.inl ⟨x, rfl, h⟩) (by intro i hi; simp at hi; subst hi; rfl)

theorem shown_sep {e : Enc} {c : Civil} {x : Nat} (hx : x < 128) (f : List Nat → Prop) : Shown e c (.text [x]) [x] f :=
  .text [x] f (by intro y hy; simp at hy; subst hy; exact ⟨ascii_scalar hx, encode_ascii e _ hx⟩)

theorem first_not_space {c : Nat} {t : List Nat} (h : isSpace c = false) : (c :: t).dropWhile isSpace = c :: t := by
  rw [List.dropWhile_cons, if_neg (by rw [h]; decide)]

theorem pad2_first (n : Nat) (h : n ≤ 99) (t : List Nat) : (pad2 n ++ t).dropWhile isSpace = pad2 n ++ t ∧ pad2 n ++ t ≠ [] :=
  ⟨first_not_space (digit_not_space (digit_48 (show n / 10 ≤ 9 by omega)).2), by simp [pad2]⟩

theorem seq_cons {e : Enc} {c : Civil} {x : ChronoCall} {cs : List ChronoCall} {t u rest : List Nat} (h : Shown e c x t fun _ => True)
    (hs : ShownSeq e c cs u rest) : ShownSeq e c (x :: cs) (t ++ u) rest := .cons _ _ _ _ _ _ h trivial hs

section
variable {e : Enc} {c : Civil} (hv : c.Valid) (rest : List Nat)
include hv

theorem shown_hm : ShownSeq e c [.hour24 .standard, .text [58], .minute .standard] (pad2 c.hour ++ [58] ++ pad2 c.minute) rest := by
  have h1 := hv.hour
  have h2 := hv.minute
  have := seq_cons (rest := rest) (.hour24 .standard _ _ (digits_pad2 (by decide) (by omega) _))
    (seq_cons (shown_sep (e := e) (c := c) (x := 58) (by decide) _) (seq_cons (.minute .standard _ _ (digits_pad2 (by decide) (by omega) _)) (.nil _)))
  simpa [List.append_assoc] using this

theorem shown_hms : ShownSeq e c [.hour24 .standard, .text [58], .minute .standard, .text [58], .second .standard]
    (pad2 c.hour ++ [58] ++ pad2 c.minute ++ [58] ++ pad2 c.second) rest := by
  have h1 := hv.hour
  have h2 := hv.minute
  have h3 := hv.second
  have := seq_cons (rest := rest) (.hour24 .standard _ _ (digits_pad2 (by decide) (by omega) _))
    (seq_cons (shown_sep (e := e) (c := c) (x := 58) (by decide) _) (seq_cons (.minute .standard _ _ (digits_pad2 (by decide) (by omega) _))
      (seq_cons (shown_sep (x := 58) (by decide) _) (seq_cons (.second .standard _ _ (digits_pad2 (by decide) (by omega) _)) (.nil _)))))
  simpa [List.append_assoc] using this

theorem shown_ymd : ShownSeq e c [.fullYear .standard, .text [45], .decMonth .standard, .text [45], .dayOfMonth .standard]
    (pad4 c.year ++ [45] ++ pad2 c.month ++ [45] ++ pad2 c.mday) rest := by
  have h1 := hv.year
  have h2 := hv.month
  have h3 := hv.mday
  have := seq_cons (rest := rest) (.fullYear .standard _ _ (digits_pad4 (by omega) _))
    (seq_cons (shown_sep (e := e) (c := c) (x := 45) (by decide) _) (seq_cons (.decMonth .standard _ _ (digits_pad2 (by decide) (by omega) _))
      (seq_cons (shown_sep (x := 45) (by decide) _) (seq_cons (.dayOfMonth .standard _ _ (digits_pad2 (by decide) (by omega) _)) (.nil _)))))
  simpa [List.append_assoc] using this

theorem shown_mdy : ShownSeq e c [.decMonth .standard, .text [47], .dayOfMonth .standard, .text [47], .shortYear .standard]
    (pad2 c.month ++ [47] ++ pad2 c.mday ++ [47] ++ pad2 (c.year % 100)) rest := by
  have h2 := hv.month
  have h3 := hv.mday
  have := seq_cons (rest := rest) (.decMonth .standard _ _ (digits_pad2 (by decide) (by omega) _))
    (seq_cons (shown_sep (e := e) (c := c) (x := 47) (by decide) _) (seq_cons (.dayOfMonth .standard _ _ (digits_pad2 (by decide) (by omega) _))
      (seq_cons (shown_sep (x := 47) (by decide) _) (seq_cons (.shortYear .standard _ _ (digits_pad2 (by decide) (by omega) _)) (.nil _)))))
  simpa [List.append_assoc] using this

end

end Scn
