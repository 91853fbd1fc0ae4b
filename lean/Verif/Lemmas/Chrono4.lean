import Verif.Lemmas.Chrono3
/-
Reading whole dates and times: which fields are set after a run of conversions, the final checks, and the format checker.
-/
namespace Scn
open Spec
variable {T : Type}

/-! ### The texts -/

theorem digits_scalar {lo hi v : Nat} {t : List Nat} {f : List Nat → Prop} (h : Digits lo hi v t f) : ∀ c ∈ t, IsScalar c :=
  fun c hc => ascii_scalar (by have := digits_pos h c hc; omega)

theorem case_scalar {a b : List Nat} (h : EqUpToCase a b) (ha : ∀ c ∈ a, letter c = true ∨ c = 46) : ∀ c ∈ b, IsScalar c :=
  fun c hc => ascii_scalar (eqUpToCase_ascii h ha c hc)

theorem offsetSign_mark (west : Bool) : OffsetSign west (if west then [45] else [43]) := by
  cases west
  · exact Or.inl rfl
  · rfl

theorem offsetSign_scalar {west : Bool} {sg : List Nat} (h : OffsetSign west sg) : ∀ c ∈ sg, IsScalar c := by
  unfold OffsetSign at h
  intro x hx
  split at h
  · subst h; simp at hx; subst hx; exact ascii_scalar (by decide)
  · rcases h with rfl | rfl
    · simp at hx; subst hx; exact ascii_scalar (by decide)
    · cases hx

theorem shown_scalar {e : Enc} {c : Civil} (hv : c.Valid) {x : ChronoCall} {t : List Nat} {f : List Nat → Prop} (h : Shown e c x t f) :
    ∀ c ∈ t, IsScalar c := by
  have named : ∀ {α : Type} {long short : List (List Nat × α)} (ht : NameTables long short) (o : List Nat × α), o ∈ long →
      Named o.1 t f → ∀ c ∈ t, IsScalar c := by
    intro α long short ht o ho h
    rcases h with h | h
    · exact case_scalar h fun c hc => Or.inl (ht.letters o ho c hc)
    · exact case_scalar h.1 fun c hc => Or.inl (ht.letters o ho c (List.mem_of_mem_take hc))
  cases h with
  | text _ _ h => exact fun x hx => (h x hx).1
  | whitespace _ _ h hsp => exact fun x hx => (h x hx).1
  | fullYear s _ _ h => exact digits_scalar h
  | shortYear s _ _ h => exact digits_scalar h
  | century s _ _ h => exact digits_scalar h
  | decMonth s _ _ h => exact digits_scalar h
  | monthName _ _ h => exact named months_tables _ (month_table c.month hv.month) h
  | dayOfYear _ _ h => exact digits_scalar h
  | dayOfMonth s _ _ h => exact digits_scalar h
  | weekdayName _ _ h => exact named weekdays_tables _ (weekday_table c.wday hv.wday) h
  | dec0Weekday s _ _ h => exact digits_scalar h
  | hour24 s _ _ h => exact digits_scalar h
  | hour12 s _ _ h => exact digits_scalar h
  | minute s _ _ h => exact digits_scalar h
  | second s _ _ h => exact digits_scalar h
  | am _ _ h hh => rcases h with h | h <;> exact case_scalar h (by decide)
  | pm _ _ h hh => rcases h with h | h <;> exact case_scalar h (by decide)
  | tzOffset s sg hh mm colon _ f' h0 h1 h2 h3 hff =>
    refine scalar_append (offsetSign_scalar h0) (scalar_append (digits_scalar h1) (scalar_append ?_ (digits_scalar h2)))
    intro x hx
    split at hx
    · simp at hx; subst hx; exact ascii_scalar (by decide)
    · cases hx
  | tzHours s sg hh _ h0 h1 h2 hff => exact scalar_append (offsetSign_scalar h0) (digits_scalar h1)

theorem shownSeq_scalar {e : Enc} {c : Civil} (hv : c.Valid) {cs : List ChronoCall} {t rest : List Nat} (h : ShownSeq e c cs t rest) :
    ∀ c ∈ t, IsScalar c := by
  induction h with
  | nil => intro c hc; cases hc
  | cons x cs t u f rest h _ _ ih => exact scalar_append (shown_scalar hv h) ih

theorem shownSeq_split {e : Enc} {c : Civil} (as : List ChronoCall) {bs : List ChronoCall} {t rest : List Nat} (h : ShownSeq e c (as ++ bs) t rest) :
    ∃ t1 t2, t = t1 ++ t2 ∧ ShownSeq e c as t1 (t2 ++ rest) ∧ ShownSeq e c bs t2 rest := by
  induction as generalizing t with
  | nil => exact ⟨[], t, rfl, .nil _, h⟩
  | cons a as ih =>
    cases h with
    | cons _ _ t1 u f _ h1 hf hs =>
      obtain ⟨u1, u2, rfl, h2, h3⟩ := ih hs
      refine ⟨t1 ++ u1, u2, by rw [List.append_assoc], ?_, h3⟩
      exact .cons _ _ _ _ f _ h1 (by rw [← List.append_assoc]; exact hf) h2

/-! ### Tracked fields -/

/-- A conversion with a field that can be shown. -/
def settable : ChronoCall → Bool
  | .dec1Weekday _ | .tzName => false
  | _ => true

/-- The destination and the setter state depend only on which fields were set: `E`. -/
structure Tracks (set : TmSetter T) (c : Civil) (sup : ChronoField → Bool) (E : List ChronoField → T × SetterState) : Prop where
  classic : ∀ F, (E F).2.localized = false
  step : ∀ F x f, fieldOf x = some f → settable x = true → sup f = true → f ∉ F → ¬ (.hour24 ∈ f :: F ∧ .hour12 ∈ f :: F) → ∀ rg p,
    assign set c x ⟨rg, p, (E F).1, (E F).2, none⟩ = ⟨rg, p, (E (f :: F)).1, (E (f :: F)).2, none⟩

theorem shown_settable {e : Enc} {c : Civil} {x : ChronoCall} {t : List Nat} {f : List Nat → Prop} (h : Shown e c x t f) : settable x = true := by
  cases h <;> rfl

theorem shown_none {e : Enc} {c : Civil} {x : ChronoCall} {t : List Nat} {f : List Nat → Prop} (h : Shown e c x t f) (hx : fieldOf x = none)
    (set : TmSetter T) (r : Rd T) : assign set c x r = r := by
  cases h <;> first | rfl | cases hx

theorem fieldsOf_cons (x : ChronoCall) (cs : List ChronoCall) : fieldsOf (x :: cs) = (fieldOf x).toList ++ fieldsOf cs := by
  unfold fieldsOf
  rw [List.filterMap_cons]
  cases fieldOf x <;> rfl

/-- A run of simple conversions. -/
theorem simples_shown (cfg : ChronoCfg) (hl : GoodLayouts cfg.enc cfg.lay) (set : TmSetter T) (c : Civil) (hv : c.Valid) {sup : ChronoField → Bool}
    {E : List ChronoField → T × SetterState} (hE : Tracks set c sup E) {cs : List ChronoCall} {t rest : List Nat} (h : ShownSeq cfg.enc c cs t rest)
    (hs : ∀ c ∈ rest, IsScalar c) (F : List ChronoField) (hsup : ∀ f ∈ fieldsOf cs, sup f = true) (hnd : ((fieldsOf cs).reverse ++ F).Nodup)
    (hcl : ¬ (.hour24 ∈ (fieldsOf cs).reverse ++ F ∧ .hour12 ∈ (fieldsOf cs).reverse ++ F)) (rg : List Nat) :
    Rd.simples cfg set cs ⟨rg, encodes cfg.enc (t ++ rest), (E F).1, (E F).2, none⟩ =
      some ⟨rg, encodes cfg.enc rest, (E ((fieldsOf cs).reverse ++ F)).1, (E ((fieldsOf cs).reverse ++ F)).2, none⟩ := by
  induction h generalizing F with
  | nil => rfl
  | cons x cs t u f rest hx hf hseq ih =>
    rw [fieldsOf_cons, List.reverse_append, List.append_assoc] at hnd hcl
    rw [fieldsOf_cons, List.reverse_append, List.append_assoc (fieldsOf cs).reverse]
    rw [fieldsOf_cons] at hsup
    rw [Rd.simples, shown_simple cfg hl set c hv hx (u ++ rest) (scalar_append (shownSeq_scalar hv hseq) hs) hf _ (by dsimp only; rw [List.append_assoc]) (hE.classic F),
      Option.bind_some]
    dsimp only
    cases hfo : fieldOf x with
    | none =>
      rw [hfo] at hnd hcl hsup
      rw [shown_none hx hfo]
      exact ih hs F (fun f hf => hsup f (by simp [hf])) hnd hcl
    | some g =>
      rw [hfo] at hnd hcl hsup
      have hrev : (some g).toList.reverse ++ F = g :: F := rfl
      rw [hrev] at hnd hcl ⊢
      have hg : g ∉ F := by
        have := (List.nodup_append.1 hnd).2.1
        exact (List.nodup_cons.1 this).1
      rw [hE.step F x g hfo (shown_settable hx) (hsup g (by simp)) hg (fun h => hcl ⟨List.mem_append_right _ h.1, List.mem_append_right _ h.2⟩)]
      exact ih hs (g :: F) (fun f hf => hsup f (by simp [hf])) hnd hcl

theorem call_expansion (cfg : ChronoCfg) (set : TmSetter T) (r : Rd T) (hloc : r.st.localized = false) (x : ChronoCall) :
    r.call cfg set x = r.simples cfg set (expansion x) := by
  have one : ∀ x, Rd.simples cfg set [x] r = r.simple cfg set x := by
    intro x
    unfold Rd.simples
    cases r.simple cfg set x <;> rfl
  unfold Rd.call
  rw [hloc]
  cases x <;> first | exact (one _).symm | rfl

/-- All the conversions of a format. -/
theorem calls_shown (cfg : ChronoCfg) (hl : GoodLayouts cfg.enc cfg.lay) (set : TmSetter T) (c : Civil) (hv : c.Valid) {sup : ChronoField → Bool}
    {E : List ChronoField → T × SetterState} (hE : Tracks set c sup E) (xs : List ChronoCall) {t rest : List Nat}
    (h : ShownSeq cfg.enc c (xs.flatMap expansion) t rest)
    (hs : ∀ c ∈ rest, IsScalar c) (F : List ChronoField) (hsup : ∀ f ∈ fieldsOf (xs.flatMap expansion), sup f = true)
    (hnd : ((fieldsOf (xs.flatMap expansion)).reverse ++ F).Nodup)
    (hcl : ¬ (.hour24 ∈ (fieldsOf (xs.flatMap expansion)).reverse ++ F ∧ .hour12 ∈ (fieldsOf (xs.flatMap expansion)).reverse ++ F)) (rg : List Nat) :
    Calls (readHandler cfg set) ⟨rg, encodes cfg.enc (t ++ rest), (E F).1, (E F).2, none⟩ xs
      ⟨rg, encodes cfg.enc rest, (E ((fieldsOf (xs.flatMap expansion)).reverse ++ F)).1, (E ((fieldsOf (xs.flatMap expansion)).reverse ++ F)).2, none⟩ := by
  induction xs generalizing t F with
  | nil =>
    cases h
    exact .nil _
  | cons x xs ih =>
    rw [List.flatMap_cons] at h hsup hnd hcl ⊢
    have hfa : fieldsOf (expansion x ++ xs.flatMap expansion) = fieldsOf (expansion x) ++ fieldsOf (xs.flatMap expansion) := by
      unfold fieldsOf; rw [List.filterMap_append]
    rw [hfa] at hsup hnd hcl ⊢
    rw [List.reverse_append, List.append_assoc] at hnd hcl ⊢
    obtain ⟨t1, t2, rfl, h1, h2⟩ := shownSeq_split _ h
    have hcall : (readHandler cfg set).call ⟨rg, encodes cfg.enc (t1 ++ t2 ++ rest), (E F).1, (E F).2, none⟩ x =
        some ⟨rg, encodes cfg.enc (t2 ++ rest), (E ((fieldsOf (expansion x)).reverse ++ F)).1, (E ((fieldsOf (expansion x)).reverse ++ F)).2, none⟩ := by
      show Rd.call cfg set _ x = _
      rw [call_expansion cfg set _ (hE.classic F), List.append_assoc]
      refine simples_shown cfg hl set c hv hE h1 (scalar_append (shownSeq_scalar hv h2) hs) F (fun f hf => hsup f (by simp [hf])) ?_ ?_ rg
      · exact (List.nodup_append.1 hnd).2.1
      · exact fun h => hcl ⟨List.mem_append_right _ h.1, List.mem_append_right _ h.2⟩
    exact .cons _ _ _ _ _ hcall rfl (ih h2 _ (fun f hf => hsup f (by simp [hf])) hnd hcl)

/-- The outcome of a scan from the error of the reader. -/
def scanResult {α : Type} : Option Err → α → Res α
  | some e, _ => .err e
  | none, v => .ok v

/-- A whole scan: the text of a date and time is read with its format. -/
theorem chronoScan_shown (cfg : ChronoCfg) (hl : GoodLayouts cfg.enc cfg.lay) (set : TmSetter T) (c : Civil) (hv : c.Valid) {sup : ChronoField → Bool}
    {E : List ChronoField → T × SetterState} (hE : Tracks set c sup E) (t0 : T) (h0 : E [] = (t0, {})) (is : List FmtItem) (hfmt : FormatOk cfg.enc is)
    {ws t rest : List Nat} (h : ShownSeq cfg.enc c (callsOf is) t rest) (hw : Spaces ws) (hne : t ++ rest ≠ []) (hfirst : (t ++ rest).dropWhile isSpace = t ++ rest)
    (hs : ∀ c ∈ rest, IsScalar c) (hsup : ∀ f ∈ fieldsOf (callsOf is), sup f = true) (hnd : (fieldsOf (callsOf is)).Nodup)
    (hcl : ¬ (.hour24 ∈ fieldsOf (callsOf is) ∧ .hour12 ∈ fieldsOf (callsOf is))) (tm : T) (st : SetterState) (er : Option Err)
    (hver : ∀ rg p, Rd.verify set ⟨rg, p, (E (fieldsOf (callsOf is)).reverse).1, (E (fieldsOf (callsOf is)).reverse).2, none⟩ =
      some ⟨rg, p, tm, st, er⟩) :
    chronoScan cfg set (formatText is) t0 (encodes cfg.enc (ws ++ (t ++ rest))) =
      scanResult er (tm, encodes cfg.enc rest) := by
  have hts := scalar_append (shownSeq_scalar hv h) hs
  have hall : ∀ c ∈ ws ++ (t ++ rest), IsScalar c := scalar_append (fun c hc => (hw c hc).1) hts
  have hcalls : callsOf is = (is.map FmtItem.call).flatMap expansion := by unfold callsOf; rw [List.flatMap_map]
  unfold chronoScan
  rw [skipSpace_encodes cfg.enc _ _ hall (hl _ hall), if_neg, spaces_drop' hw, hfirst]
  · show (match parseChrono cfg.enc (readHandler cfg set) ⟨encodes cfg.enc (t ++ rest), encodes cfg.enc (t ++ rest), t0, {}, none⟩ (formatText is) with
      | none => Res.ub
      | some (r, _) => match r.err with
        | some e => Res.err e
        | none => Res.ok (r.tm, r.pos)) = _
    rw [hcalls] at h hsup hnd hcl hver
    have hc := calls_shown cfg hl set c hv hE _ h hs [] hsup (by rw [List.append_nil]; exact List.pairwise_reverse.2 (hnd.imp Ne.symm)) (by simpa using hcl) (encodes cfg.enc (t ++ rest))
    rw [List.append_nil, h0] at hc
    have := parseChrono_items cfg.enc (readHandler cfg set) (fun r => rfl) is hfmt [] (Or.inl rfl) _ _ _ hc (hver _ _)
    rw [List.append_nil] at this
    rw [this]
    cases er <;> rfl
  · rintro ⟨_, h⟩
    rw [← dropWhile_nil_iff, spaces_drop' hw, hfirst] at h
    exact hne h

/-! ### `std::tm` -/

/-- A `std::tm` while fields are being set. -/
def trackedTm (c : Civil) (t : Tm) (F : List ChronoField) : Tm where
  sec := if .sec ∈ F then c.second else t.sec
  min := if .min ∈ F then c.minute else t.min
  hour := if .hour24 ∈ F then c.hour else if .hour12 ∈ F then Spec.hour12 c.hour else t.hour
  mday := if .mday ∈ F then c.mday else t.mday
  mon := if .mon ∈ F then (c.month : Int) - 1 else t.mon
  year := if .fullYear ∈ F then (c.year : Int) - 1900 else t.year
  wday := if .wday ∈ F then c.wday else t.wday
  yday := if .yday ∈ F then (c.yday : Int) - 1 else t.yday
  gmtoff := if .tzoff ∈ F then c.offset * 60 else t.gmtoff

def trackedSt (c : Civil) (marked : ChronoField → Bool) (F : List ChronoField) : SetterState where
  set := F.filter marked
  localized := false
  isPm := if .amPm ∈ F then decide (12 ≤ c.hour) else false
  shortYear := if .shortYear ∈ F then c.year % 100 else 0
  century := if .century ∈ F then c.year / 100 else 0

def notTzoff (f : ChronoField) : Bool := decide (f ≠ .tzoff)

theorem mark_new (rg p : List Nat) (t : T) (st : SetterState) (f : ChronoField) (h : st.has f = false) :
    (Rd.mark ⟨rg, p, t, st, none⟩ f : Rd T) = ⟨rg, p, t, { st with set := f :: st.set }, none⟩ := by
  unfold Rd.mark SetterState.mark
  simp only
  rw [if_neg (by rw [h]; decide)]

theorem setField_ok (rg p : List Nat) (t : T) (st : SetterState) (f : ChronoField) (h : st.has f = false) (lo hi v : Int) (hv : lo ≤ v ∧ v ≤ hi) (upd : T → T) :
    (Rd.setField ⟨rg, p, t, st, none⟩ f lo hi v upd : Rd T) = ⟨rg, p, upd t, { st with set := f :: st.set }, none⟩ := by
  unfold Rd.setField
  rw [if_neg (by omega), mark_new _ _ _ _ _ h]

theorem trackedSt_has (c : Civil) (marked : ChronoField → Bool) (F : List ChronoField) (f : ChronoField) (h : f ∉ F) : (trackedSt c marked F).has f = false := by
  unfold SetterState.has trackedSt
  simp only [List.contains_eq_mem, decide_eq_false_iff_not]
  intro h'
  exact h (List.mem_filter.1 h').1

theorem hour12_range (h : Nat) : 1 ≤ Spec.hour12 h ∧ Spec.hour12 h ≤ 12 := by
  unfold Spec.hour12
  split <;> omega

theorem tracks_tm (gmtoff : Bool) (c : Civil) (hv : c.Valid) (t : Tm) :
    Tracks (tmSetter gmtoff) c (TmKind.supports gmtoff .tm) (fun F => (trackedTm c t F, trackedSt c notTzoff F)) where
  classic _ := rfl
  step F x f hx hset hsup hf hcl rg p := by
    have hn := trackedSt_has c notTzoff F f hf
    have h12 := hour12_range c.hour
    obtain ⟨vy, vmo, vmd, vw, vyd, vh, vmi, vs⟩ := hv
    cases x <;> simp only [fieldOf, Option.some.injEq, reduceCtorEq] at hx <;> subst hx
    case fullYear =>
      dsimp only [assign, tmSetter, tmSetterOn]
      rw [if_neg (by omega)]
      rw [mark_new _ _ _ _ _ hn]
      simp [trackedTm, trackedSt, notTzoff]
    case shortYear =>
      dsimp only [assign, tmSetter, tmSetterOn]
      rw [if_neg (by omega)]
      rw [mark_new _ _ _ _ _ (by exact hn)]
      have : (((c.year % 100 : Nat) : Int) % 256).toNat = c.year % 100 := by omega
      simp only [this]
      simp [trackedTm, trackedSt, notTzoff]
    case century =>
      dsimp only [assign, tmSetter, tmSetterOn]
      rw [mark_new _ _ _ _ _ (by exact hn)]
      have : (((c.year / 100 : Nat) : Int) % 256).toNat = c.year / 100 := by omega
      simp only [this]
      simp [trackedTm, trackedSt, notTzoff]
    case amPm =>
      dsimp only [assign, tmSetter, tmSetterOn]
      rw [mark_new _ _ _ _ _ (by exact hn)]
      simp [trackedTm, trackedSt, notTzoff]
    case tzOffset =>
      dsimp only [assign, tmSetter, tmSetterOn]
      have : gmtoff = true := hsup
      rw [if_pos this]
      simp [trackedTm, trackedSt, notTzoff]
    case tzName => cases hset
    case dec1Weekday => cases hset
    case hour24 =>
      dsimp only [assign, tmSetter, tmSetterOn]
      rw [setField_ok _ _ _ _ _ hn _ _ _ (by omega)]
      simp [trackedTm, trackedSt, notTzoff]
    case hour12 =>
      dsimp only [assign, tmSetter, tmSetterOn]
      rw [setField_ok _ _ _ _ _ hn _ _ _ (by omega)]
      have : ChronoField.hour24 ∉ F := fun h => hcl ⟨by simp [h], by simp⟩
      simp [trackedTm, trackedSt, notTzoff, this]
    case monthName =>
      dsimp only [assign, tmSetter, tmSetterOn]
      rw [setField_ok _ _ _ _ _ hn _ _ _ (by omega)]
      simp [trackedTm, trackedSt, notTzoff]
    case decMonth =>
      dsimp only [assign, tmSetter, tmSetterOn]
      rw [setField_ok _ _ _ _ _ hn _ _ _ (by omega)]
      simp [trackedTm, trackedSt, notTzoff]
    case dayOfYear =>
      dsimp only [assign, tmSetter, tmSetterOn]
      rw [setField_ok _ _ _ _ _ hn _ _ _ (by omega)]
      simp [trackedTm, trackedSt, notTzoff]
    case dayOfMonth =>
      dsimp only [assign, tmSetter, tmSetterOn]
      rw [setField_ok _ _ _ _ _ hn _ _ _ (by omega)]
      simp [trackedTm, trackedSt, notTzoff]
    case weekdayName =>
      dsimp only [assign, tmSetter, tmSetterOn]
      rw [setField_ok _ _ _ _ _ hn _ _ _ (by omega)]
      simp [trackedTm, trackedSt, notTzoff]
    case dec0Weekday =>
      dsimp only [assign, tmSetter, tmSetterOn]
      rw [setField_ok _ _ _ _ _ hn _ _ _ (by omega)]
      simp [trackedTm, trackedSt, notTzoff]
    case minute =>
      dsimp only [assign, tmSetter, tmSetterOn]
      rw [setField_ok _ _ _ _ _ hn _ _ _ (by omega)]
      simp [trackedTm, trackedSt, notTzoff]
    case second =>
      dsimp only [assign, tmSetter, tmSetterOn]
      rw [setField_ok _ _ _ _ _ hn _ _ _ (by omega)]
      simp [trackedTm, trackedSt, notTzoff]

theorem trackedSt_has_iff (c : Civil) (marked : ChronoField → Bool) (F : List ChronoField) (f : ChronoField) (hm : marked f = true) :
    (trackedSt c marked F).has f = decide (f ∈ F) := by
  unfold SetterState.has trackedSt
  simp [List.contains_eq_mem, List.mem_filter, hm]

/-- Compatible fields pass the final check. -/
theorem verify_compatible (st : SetterState) (F : List ChronoField) (hF : Compatible F) (hst : ∀ f, f ≠ .tzoff → st.has f = decide (f ∈ F))
    (htz : st.has .tzoff = true → .tzoff ∈ F) : st.verify = true := by
  have h := hF
  unfold SetterState.verify
  rw [hst .hour24 (by decide), hst .hour12 (by decide), hst .amPm (by decide), hst .fullYear (by decide), hst .century (by decide),
    hst .shortYear (by decide), hst .tzname (by decide), hst .wday (by decide), hst .mday (by decide), hst .yday (by decide)]
  rw [if_neg, if_neg, if_neg, if_neg, if_neg, if_neg]
  · have h1 := h.day.1
    have h2 := h.day.2.1
    have h3 := h.day.2.2
    by_cases a : ChronoField.wday ∈ F <;> by_cases b : ChronoField.mday ∈ F <;> by_cases d : ChronoField.yday ∈ F <;> simp_all
  · intro hh
    simp only [Bool.and_eq_true, decide_eq_true_eq] at hh
    exact h.tz ⟨htz hh.1, hh.2⟩
  · intro hh
    simp only [Bool.and_eq_true, Bool.or_eq_true, decide_eq_true_eq] at hh
    have := h.year hh.1
    rcases hh.2 with h | h
    · exact this.1 h
    · exact this.2 h
  · intro hh
    simp only [Bool.and_eq_true, decide_eq_true_eq] at hh
    exact h.clock ⟨hh.2, h.amPm hh.1⟩
  · intro hh
    simp only [Bool.and_eq_true, Bool.not_eq_true', decide_eq_true_eq, decide_eq_false_iff_not] at hh
    exact hh.2 (h.amPm hh.1)
  · intro hh
    simp only [Bool.and_eq_true, decide_eq_true_eq] at hh
    exact h.clock hh

theorem compatible_reverse {F : List ChronoField} (h : Compatible F) : Compatible F.reverse := by
  obtain ⟨h1, h2, h3, h4, h5⟩ := h
  exact ⟨by simpa using h1, by simpa using h2, by simpa using h3, by simpa using h4, by simpa using h5⟩

/-- The 12-hour clock with am or pm. -/
theorem amPm_hour (h : Nat) (hh : h ≤ 23) :
    (if decide (12 ≤ h) = true then some (if ((Spec.hour12 h : Nat) : Int) = 12 then ((Spec.hour12 h : Nat) : Int) else (Spec.hour12 h : Nat) + 12)
      else some (if ((Spec.hour12 h : Nat) : Int) = 12 then (0 : Int) else (Spec.hour12 h : Nat))) = some (h : Int) := by
  unfold Spec.hour12
  by_cases h1 : 12 ≤ h
  · simp only [h1, decide_true, if_true]
    split <;> (congr 1; split <;> omega)
  · simp only [h1, decide_false, Bool.false_eq_true, if_false]
    split <;> (congr 1; split <;> omega)

theorem handleAmPm_hour (st : SetterState) (h : Nat) (hh : h ≤ 23) (h12 : st.has .hour12 = true) (hpm : st.isPm = decide (12 ≤ h)) :
    st.handleAmPm (Spec.hour12 h : Nat) = some (h : Int) := by
  have := hour12_range h
  unfold SetterState.handleAmPm
  rw [if_neg (by rw [h12]; simp; omega), hpm]
  exact amPm_hour h hh

theorem verify_tm_marked (gmtoff : Bool) {marked : ChronoField → Bool} (hm : ∀ f, f ≠ .tzoff → marked f = true) (c : Civil) (hv : c.Valid) (t : Tm) (F : List ChronoField) (hF : Compatible F) (rg p : List Nat) :
    Rd.verify (tmSetter gmtoff) ⟨rg, p, trackedTm c t F, trackedSt c marked F, none⟩ =
      some ⟨rg, p, setTm F c t, trackedSt c marked F, none⟩ := by
  have hhas : ∀ f, f ≠ .tzoff → (trackedSt c marked F).has f = decide (f ∈ F) := fun f hf => trackedSt_has_iff c _ F f (hm f hf)
  have hvf := verify_compatible (trackedSt c marked F) F hF hhas (by
    intro h
    unfold SetterState.has trackedSt at h
    simp only [List.contains_eq_mem, decide_eq_true_eq] at h
    exact (List.mem_filter.1 h).1)
  unfold Rd.verify
  dsimp only
  rw [if_pos hvf]
  dsimp only
  rw [hhas .amPm (by decide), hhas .hour12 (by decide)]
  have step1 : (if (decide (ChronoField.amPm ∈ F) && decide (ChronoField.hour12 ∈ F)) = true then (tmSetter gmtoff).handleAmPm ⟨rg, p, trackedTm c t F, trackedSt c marked F, none⟩
      else some ⟨rg, p, trackedTm c t F, trackedSt c marked F, none⟩) =
      some ⟨rg, p, { trackedTm c t F with hour := (setTm F c t).hour }, trackedSt c marked F, none⟩ := by
    by_cases ha : ChronoField.amPm ∈ F
    · have hb := hF.amPm ha
      have hno : ChronoField.hour24 ∉ F := fun h => hF.clock ⟨h, hb⟩
      rw [if_pos (by simp [ha, hb])]
      show ((trackedSt c marked F).handleAmPm (trackedTm c t F).hour).map _ = _
      have hhr : (trackedTm c t F).hour = (Spec.hour12 c.hour : Nat) := by simp [trackedTm, hno, hb]
      rw [hhr, handleAmPm_hour _ c.hour hv.hour (by rw [hhas .hour12 (by decide)]; simpa using hb) (by simp [trackedSt, ha])]
      simp [setTm, hourOf, ha, hb]
    · rw [if_neg (by simp [ha])]
      have : (setTm F c t).hour = (trackedTm c t F).hour := by
        unfold setTm trackedTm hourOf
        by_cases h1 : ChronoField.hour24 ∈ F
        · simp [h1]
        · by_cases h2 : ChronoField.hour12 ∈ F <;> simp [h1, h2, ha]
      rw [this]
  rw [step1, Option.bind_some]
  dsimp only
  rw [hhas .fullYear (by decide), hhas .shortYear (by decide), hhas .century (by decide)]
  by_cases hfy : ChronoField.fullYear ∈ F
  · rw [if_neg (by simp [hfy])]
    congr 2
    simp [setTm, trackedTm, yearOf, hfy]
  · by_cases hsc : ChronoField.shortYear ∈ F ∨ ChronoField.century ∈ F
    · rw [if_pos (by simpa [hfy] using hsc)]
      show ((trackedSt c marked F).handleYear _ 1900).map _ = _
      have hy : (trackedSt c marked F).handleYear ({ trackedTm c t F with hour := (setTm F c t).hour } : Tm).year 1900 = some ((yearOf F c : Int) - 1900) := by
        unfold SetterState.handleYear
        rw [hhas .fullYear (by decide), hhas .shortYear (by decide), hhas .century (by decide), if_neg (by simp [hfy])]
        unfold yearOf
        by_cases h1 : ChronoField.shortYear ∈ F
        · by_cases h2 : ChronoField.century ∈ F
          · simp [h1, h2, hfy, trackedSt]; omega
          · rw [if_neg (by simp [h2]), if_pos (by simp [h1])]
            have hn : ¬ (ChronoField.fullYear ∈ F ∨ ChronoField.century ∈ F ∧ ChronoField.shortYear ∈ F) := by simp [hfy, h2]
            simp only [trackedSt, if_pos h1, if_neg hn]
            congr 1
            split <;> split <;> omega
        · have h2 : ChronoField.century ∈ F := hsc.resolve_left h1
          simp [h1, h2, hfy, trackedSt]; omega
      show ((trackedSt c marked F).handleYear ({ trackedTm c t F with hour := (setTm F c t).hour } : Tm).year 1900).map _ = _
      rw [hy]
      have : ChronoField.fullYear ∈ F ∨ ChronoField.shortYear ∈ F ∨ ChronoField.century ∈ F := Or.inr hsc
      simp [setTm, trackedTm, this]
    · rw [if_neg (by simpa [hfy] using hsc)]
      have hs1 : ChronoField.shortYear ∉ F := fun h => hsc (Or.inl h)
      have hs2 : ChronoField.century ∉ F := fun h => hsc (Or.inr h)
      congr 2
      simp [setTm, trackedTm, hs1, hs2, hfy]

theorem verify_tm (gmtoff : Bool) (c : Civil) (hv : c.Valid) (t : Tm) (F : List ChronoField) (hF : Compatible F) (rg p : List Nat) :
    Rd.verify (tmSetter gmtoff) ⟨rg, p, trackedTm c t F, trackedSt c notTzoff F, none⟩ =
      some ⟨rg, p, setTm F c t, trackedSt c notTzoff F, none⟩ :=
  verify_tm_marked gmtoff (fun f hf => by simp [notTzoff, hf]) c hv t F hF rg p

theorem setTm_reverse (F : List ChronoField) (c : Civil) (t : Tm) : setTm F.reverse c t = setTm F c t := by
  simp [setTm, hourOf, yearOf]

/-! ### `datetime_components` -/

def trackedDateTime (c : Civil) (t : DateTime) (F : List ChronoField) : DateTime where
  subsec := t.subsec
  sec := if .sec ∈ F then some (c.second : Int) else t.sec
  min := if .min ∈ F then some (c.minute : Int) else t.min
  hour := if .hour24 ∈ F then some (c.hour : Int) else if .hour12 ∈ F then some (Spec.hour12 c.hour : Int) else t.hour
  mday := if .mday ∈ F then some (c.mday : Int) else t.mday
  mon := if .mon ∈ F then some (c.month : Int) else t.mon
  year := if .fullYear ∈ F then some (c.year : Int) else t.year
  wday := if .wday ∈ F then some (c.wday : Int) else t.wday
  yday := if .yday ∈ F then some ((c.yday : Int) - 1) else t.yday
  tzOffset := if .tzoff ∈ F then some c.offset else t.tzOffset
  tzName := t.tzName

/-- The fields that are set correctly: not the short year and the century, and the day of the year only in the first
    week. -/
def dtCorrect (c : Civil) (f : ChronoField) : Bool := decide (f ≠ .shortYear ∧ f ≠ .century ∧ (f = .yday → c.yday ≤ 7))

theorem tracks_dt (c : Civil) (hv : c.Valid) (t : DateTime) :
    Tracks dtSetter c (dtCorrect c) (fun F => (trackedDateTime c t F, trackedSt c (fun _ => true) F)) where
  classic _ := rfl
  step F x f hx hset hsup hf hcl rg p := by
    have hn := trackedSt_has c (fun _ => true) F f hf
    have h12 := hour12_range c.hour
    obtain ⟨vy, vmo, vmd, vw, vyd, vh, vmi, vs⟩ := hv
    cases x <;> simp only [fieldOf, Option.some.injEq, reduceCtorEq] at hx <;> subst hx
    case shortYear => simp [dtCorrect] at hsup
    case century => simp [dtCorrect] at hsup
    case tzName => cases hset
    case dec1Weekday => cases hset
    case fullYear =>
      dsimp only [assign, dtSetter]
      rw [mark_new _ _ _ _ _ (by exact hn)]
      simp [trackedDateTime, trackedSt]
    case tzOffset =>
      dsimp only [assign, dtSetter]
      rw [mark_new _ _ _ _ _ (by exact hn)]
      simp [trackedDateTime, trackedSt]
    case amPm =>
      dsimp only [assign, dtSetter]
      rw [mark_new _ _ _ _ _ (by exact hn)]
      simp [trackedDateTime, trackedSt]
    case hour24 =>
      dsimp only [assign, dtSetter]
      rw [setField_ok _ _ _ _ _ hn _ _ _ (by omega)]
      simp [trackedDateTime, trackedSt]
    case hour12 =>
      dsimp only [assign, dtSetter]
      rw [setField_ok _ _ _ _ _ hn _ _ _ (by omega)]
      have : ChronoField.hour24 ∉ F := fun h => hcl ⟨by simp [h], by simp⟩
      simp [trackedDateTime, trackedSt, this]
    case monthName =>
      dsimp only [assign, dtSetter]
      rw [setField_ok _ _ _ _ _ hn _ _ _ (by omega)]
      simp [trackedDateTime, trackedSt]
    case decMonth =>
      dsimp only [assign, dtSetter]
      rw [setField_ok _ _ _ _ _ hn _ _ _ (by omega)]
      simp [trackedDateTime, trackedSt]
    case dayOfYear =>
      dsimp only [assign, dtSetter]
      simp [dtCorrect] at hsup
      rw [setField_ok _ _ _ _ _ hn _ _ _ (by omega)]
      simp [trackedDateTime, trackedSt]
    case dayOfMonth =>
      dsimp only [assign, dtSetter]
      rw [setField_ok _ _ _ _ _ hn _ _ _ (by omega)]
      simp [trackedDateTime, trackedSt]
    case weekdayName =>
      dsimp only [assign, dtSetter]
      rw [setField_ok _ _ _ _ _ hn _ _ _ (by omega)]
      simp [trackedDateTime, trackedSt]
    case dec0Weekday =>
      dsimp only [assign, dtSetter]
      rw [setField_ok _ _ _ _ _ hn _ _ _ (by omega)]
      simp [trackedDateTime, trackedSt]
    case minute =>
      dsimp only [assign, dtSetter]
      rw [setField_ok _ _ _ _ _ hn _ _ _ (by omega)]
      simp [trackedDateTime, trackedSt]
    case second =>
      dsimp only [assign, dtSetter]
      rw [setField_ok _ _ _ _ _ hn _ _ _ (by omega)]
      simp [trackedDateTime, trackedSt]

theorem verify_dt (c : Civil) (hv : c.Valid) (t : DateTime) (F : List ChronoField) (hF : Compatible F) (hdt : ∀ f ∈ F, dtCorrect c f = true) (rg p : List Nat) :
    Rd.verify dtSetter ⟨rg, p, trackedDateTime c t F, trackedSt c (fun _ => true) F, none⟩ =
      some ⟨rg, p, setDateTime F c t, trackedSt c (fun _ => true) F, none⟩ := by
  have hhas : ∀ f, (trackedSt c (fun _ => true) F).has f = decide (f ∈ F) := fun f => trackedSt_has_iff c _ F f rfl
  have hvf := verify_compatible (trackedSt c (fun _ => true) F) F hF (fun f _ => hhas f) (by rw [hhas]; simp)
  have hsy : ChronoField.shortYear ∉ F := fun h => by have := hdt _ h; simp [dtCorrect] at this
  have hce : ChronoField.century ∉ F := fun h => by have := hdt _ h; simp [dtCorrect] at this
  unfold Rd.verify
  dsimp only
  rw [if_pos hvf]
  dsimp only
  rw [hhas .amPm, hhas .hour12]
  have step1 : (if (decide (ChronoField.amPm ∈ F) && decide (ChronoField.hour12 ∈ F)) = true then dtSetter.handleAmPm ⟨rg, p, trackedDateTime c t F, trackedSt c (fun _ => true) F, none⟩
      else some ⟨rg, p, trackedDateTime c t F, trackedSt c (fun _ => true) F, none⟩) =
      some ⟨rg, p, { trackedDateTime c t F with hour := (setDateTime F c t).hour }, trackedSt c (fun _ => true) F, none⟩ := by
    by_cases ha : ChronoField.amPm ∈ F
    · have hb := hF.amPm ha
      have hno : ChronoField.hour24 ∉ F := fun h => hF.clock ⟨h, hb⟩
      rw [if_pos (by simp [ha, hb])]
      have hhr : (trackedDateTime c t F).hour = some ((Spec.hour12 c.hour : Nat) : Int) := by simp [trackedDateTime, hno, hb]
      show (match (trackedDateTime c t F).hour with
        | none => none
        | some h => ((trackedSt c (fun _ => true) F).handleAmPm h).map _) = _
      rw [hhr]
      dsimp only
      rw [handleAmPm_hour _ c.hour hv.hour (by rw [hhas .hour12]; simpa using hb) (by simp [trackedSt, ha])]
      simp [setDateTime, hourOf, ha, hb]
    · rw [if_neg (by simp [ha])]
      have : (setDateTime F c t).hour = (trackedDateTime c t F).hour := by
        unfold setDateTime trackedDateTime hourOf
        by_cases h1 : ChronoField.hour24 ∈ F
        · simp [h1]
        · by_cases h2 : ChronoField.hour12 ∈ F <;> simp [h1, h2, ha]
      rw [this]
  rw [step1, Option.bind_some]
  dsimp only
  rw [hhas .fullYear, hhas .shortYear, hhas .century, if_neg (by simp [hsy, hce])]
  congr 2
  simp [setDateTime, trackedDateTime, hsy, hce, yearOf]
  split <;> simp_all

theorem setDateTime_reverse (F : List ChronoField) (c : Civil) (t : DateTime) : setDateTime F.reverse c t = setDateTime F c t := by
  simp [setDateTime, hourOf, yearOf]

end Scn
