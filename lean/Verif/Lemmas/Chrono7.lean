import Verif.Lemmas.Chrono6
/-
What success of a date and time scan implies, whatever the text: which fields are set.
-/
namespace Scn
open Spec
variable {T : Type}

theorem setError_err (r : Rd T) (e : Err) : (r.setError e).err ≠ none := by
  unfold Rd.setError
  cases h : r.err with
  | none => simp
  | some x => simp [h]

/-- `r'` is `r` after the field was marked for the first time; the position and the destination are not looked at. -/
def Marked (marked : ChronoField → Bool) (f : ChronoField) (r r' : Rd T) : Prop :=
  r.err = none ∧ r'.st.localized = r.st.localized ∧ r'.range = r.range ∧
    if marked f then f ∉ r.st.set ∧ r'.st.set = f :: r.st.set else r'.st.set = r.st.set

theorem mark_err {r : Rd T} {f : ChronoField} (h : (r.mark f).err = none) : Marked (fun _ => true) f r (r.mark f) := by
  unfold Rd.mark SetterState.mark at h ⊢
  dsimp only at h ⊢
  by_cases hf : r.st.has f = true
  · rw [if_pos hf] at h; exact absurd h (setError_err _ _)
  · rw [if_neg hf] at h ⊢
    refine ⟨h, rfl, rfl, ?_⟩
    simp only [if_true, and_true]
    simpa [SetterState.has] using hf

theorem setField_err {r : Rd T} {f : ChronoField} {lo hi v : Int} {upd : T → T} (h : (r.setField f lo hi v upd).err = none) :
    Marked (fun _ => true) f r (r.setField f lo hi v upd) := by
  unfold Rd.setField at h ⊢
  split at h
  · exact absurd h (setError_err _ _)
  · rename_i hc
    rw [if_neg hc]
    exact mark_err h

/-- Each setter marks its field, unless there is an error. -/
structure Marks (set : TmSetter T) (marked : ChronoField → Bool) : Prop where
  sec : ∀ r v, (set.sec r v).err = none → Marked marked .sec r (set.sec r v)
  min : ∀ r v, (set.min r v).err = none → Marked marked .min r (set.min r v)
  hour24 : ∀ r v, (set.hour24 r v).err = none → Marked marked .hour24 r (set.hour24 r v)
  hour12 : ∀ r v, (set.hour12 r v).err = none → Marked marked .hour12 r (set.hour12 r v)
  mday : ∀ r v, (set.mday r v).err = none → Marked marked .mday r (set.mday r v)
  mon : ∀ r v, (set.mon r v).err = none → Marked marked .mon r (set.mon r v)
  fullYear : ∀ r v, (set.fullYear r v).err = none → Marked marked .fullYear r (set.fullYear r v)
  century : ∀ r v, (set.century r v).err = none → Marked marked .century r (set.century r v)
  shortYear : ∀ r v, (set.shortYear r v).err = none → Marked marked .shortYear r (set.shortYear r v)
  wday : ∀ r v, (set.wday r v).err = none → Marked marked .wday r (set.wday r v)
  yday : ∀ r v, (set.yday r v).err = none → Marked marked .yday r (set.yday r v)
  tzOffset : ∀ r v, (set.tzOffset r v).err = none → Marked marked .tzoff r (set.tzOffset r v)
  tzName : ∀ r v, (set.tzName r v).err = none → Marked marked .tzname r (set.tzName r v)
  amPm : marked .amPm = true
  handleAmPm : ∀ r r', set.handleAmPm r = some r' → r'.err = r.err ∧ r'.st = r.st
  handleYear : ∀ r r', set.handleYear r = some r' → r'.err = r.err ∧ r'.st = r.st

theorem marked_weaken {marked : ChronoField → Bool} {f : ChronoField} {r r' : Rd T} (hm : marked f = true) (h : Marked (fun _ => true) f r r') :
    Marked marked f r r' := by
  unfold Marked at *
  rw [hm]
  exact h

theorem marks_tm (gmtoff : Bool) : Marks (tmSetter gmtoff) notTzoff where
  sec r v h := marked_weaken rfl (setField_err h)
  min r v h := marked_weaken rfl (setField_err h)
  hour24 r v h := marked_weaken rfl (setField_err h)
  hour12 r v h := marked_weaken rfl (setField_err h)
  mday r v h := marked_weaken rfl (setField_err h)
  mon r v h := marked_weaken rfl (setField_err h)
  fullYear r v h := by
    dsimp only [tmSetter, tmSetterOn] at h ⊢
    split at h
    · exact absurd h (setError_err _ _)
    · rename_i hc; rw [if_neg hc]
      have := mark_err h
      exact marked_weaken rfl ⟨this.1, this.2⟩
  century r v h := by
    dsimp only [tmSetter, tmSetterOn] at h ⊢
    have := mark_err h
    exact marked_weaken rfl ⟨this.1, this.2⟩
  shortYear r v h := by
    dsimp only [tmSetter, tmSetterOn] at h ⊢
    split at h
    · exact absurd h (setError_err _ _)
    · rename_i hc; rw [if_neg hc]
      have := mark_err h
      exact marked_weaken rfl ⟨this.1, this.2⟩
  wday r v h := marked_weaken rfl (setField_err h)
  yday r v h := marked_weaken rfl (setField_err h)
  tzOffset r v h := by
    dsimp only [tmSetter, tmSetterOn] at h ⊢
    cases gmtoff with
    | false => exact absurd h (setError_err _ _)
    | true => exact ⟨h, rfl, rfl, rfl⟩
  tzName r v h := absurd h (setError_err _ _)
  amPm := rfl
  handleAmPm r r' h := by
    obtain ⟨a, _, heq⟩ := Option.map_eq_some_iff.1 h
    subst heq; exact ⟨rfl, rfl⟩
  handleYear r r' h := by
    obtain ⟨a, _, heq⟩ := Option.map_eq_some_iff.1 h
    subst heq; exact ⟨rfl, rfl⟩

/-- A `std::tm` never has the name of a time zone set. -/
theorem marks_tm_noName (gmtoff : Bool) : Marks (tmSetter gmtoff) (fun f => decide (f ≠ .tzoff ∧ f ≠ .tzname)) :=
  have h := marks_tm gmtoff
  { sec := h.sec, min := h.min, hour24 := h.hour24, hour12 := h.hour12, mday := h.mday, mon := h.mon, fullYear := h.fullYear, century := h.century,
    shortYear := h.shortYear, wday := h.wday, yday := h.yday, tzOffset := h.tzOffset, tzName := fun _ _ he => absurd he (setError_err _ _), amPm := rfl,
    handleAmPm := h.handleAmPm, handleYear := h.handleYear }

theorem marks_dt : Marks dtSetter (fun _ => true) where
  sec r v h := setField_err h
  min r v h := setField_err h
  hour24 r v h := setField_err h
  hour12 r v h := setField_err h
  mday r v h := setField_err h
  mon r v h := setField_err h
  fullYear r v h := ⟨(mark_err h).1, (mark_err h).2⟩
  century r v h := ⟨(mark_err h).1, (mark_err h).2⟩
  shortYear r v h := ⟨(mark_err h).1, (mark_err h).2⟩
  wday r v h := setField_err h
  yday r v h := setField_err h
  tzOffset r v h := ⟨(mark_err h).1, (mark_err h).2⟩
  tzName r v h := ⟨(mark_err h).1, (mark_err h).2⟩
  amPm := rfl
  handleAmPm r r' h := by
    dsimp only [dtSetter] at h
    split at h
    · cases h
    · obtain ⟨a, _, heq⟩ := Option.map_eq_some_iff.1 h
      subst heq; exact ⟨rfl, rfl⟩
  handleYear r r' h := by
    dsimp only [dtSetter] at h
    split at h
    · cases h
    · obtain ⟨a, _, heq⟩ := Option.map_eq_some_iff.1 h
      subst heq; exact ⟨rfl, rfl⟩

/-- `r'` is `r` after these fields were marked for the first time. -/
def MarkedAll (marked : ChronoField → Bool) (fs : List ChronoField) (r r' : Rd T) : Prop :=
  r.err = none ∧ r'.st.localized = r.st.localized ∧
    r'.st.set = (fs.filter marked).reverse ++ r.st.set ∧ (r.st.set.Nodup → r'.st.set.Nodup)

theorem markedAll_nil {marked : ChronoField → Bool} {r r' : Rd T} (h : r.err = none) (hs : r'.st = r.st) : MarkedAll marked [] r r' := by
  unfold MarkedAll
  rw [hs]
  exact ⟨h, rfl, rfl, id⟩

theorem markedAll_one {marked : ChronoField → Bool} {f : ChronoField} {r s r' : Rd T} (h : Marked marked f s r') (hs : s.st = r.st)
    (he : s.err = none → r.err = none) : MarkedAll marked [f] r r' := by
  obtain ⟨h1, h2, _, h3⟩ := h
  refine ⟨he h1, by rw [h2, hs], ?_, ?_⟩
  · rw [hs] at h3
    cases hm : marked f with
    | true => rw [hm] at h3; simp only [if_true] at h3; simp [hm, h3.2]
    | false => rw [hm] at h3; simp at h3; simp [hm, h3]
  · rw [hs] at h3
    intro hnd
    cases hm : marked f with
    | true => rw [hm] at h3; simp only [if_true] at h3; rw [h3.2]; exact List.nodup_cons.2 ⟨h3.1, hnd⟩
    | false => rw [hm] at h3; simp at h3; rw [h3]; exact hnd

theorem markedAll_trans {marked : ChronoField → Bool} {fs gs : List ChronoField} {r s r' : Rd T} (h1 : MarkedAll marked fs r s)
    (h2 : MarkedAll marked gs s r') : MarkedAll marked (fs ++ gs) r r' := by
  obtain ⟨a1, a2, a3, a4⟩ := h1
  obtain ⟨b1, b2, b3, b4⟩ := h2
  refine ⟨a1, by rw [b2, a2], ?_, fun h => b4 (a4 h)⟩
  rw [b3, a3, List.filter_append, List.reverse_append, List.append_assoc]

theorem readUInt_st (lo hi : Nat) (r : Rd T) : (r.readUInt lo hi).2.st = r.st ∧ ((r.readUInt lo hi).2.err = none → r.err = none) := by
  unfold Rd.readUInt
  dsimp only
  split
  · refine ⟨?_, fun h => absurd h (setError_err _ _)⟩
    unfold Rd.setError; dsimp only; split <;> rfl
  · exact ⟨rfl, id⟩

theorem number_marked {marked : ChronoField → Bool} {f : ChronoField} (lo hi : Nat) (set : Rd T → Int → Rd T) (g : Int → Int)
    (hm : ∀ r v, (set r v).err = none → Marked marked f r (set r v)) {r r' : Rd T}
    (h : r.number lo hi (fun r v => set r (g v)) = r') (he : r'.err = none) : MarkedAll marked [f] r r' := by
  subst h
  have := readUInt_st lo hi r
  exact markedAll_one (hm _ _ he) this.1 this.2

theorem numberOr_marked {marked : ChronoField → Bool} {f : ChronoField} (cfg : ChronoCfg) (s : NumSys) (fmt : List Nat) (ft : Tm → Int) (g : Int → Int)
    (lo hi : Nat) (set : Rd T → Int → Rd T) (hm : ∀ r v, (set r v).err = none → Marked marked f r (set r v)) {r r' : Rd T} (hl : r.st.localized = false)
    (h : r.numberOr cfg s fmt ft g lo hi set = r') (he : r'.err = none) : MarkedAll marked [f] r r' := by
  unfold Rd.numberOr at h
  rw [if_neg (by simp [Rd.useLocale, hl])] at h
  exact number_marked lo hi set g hm h he

theorem name_marked {α : Type} {marked : ChronoField → Bool} {f : ChronoField} (long short : List (List Nat × α)) (set : Rd T → α → Rd T)
    (hm : ∀ r v, (set r v).err = none → Marked marked f r (set r v)) {r r' : Rd T}
    (h : r.name long short set = some r') (he : r'.err = none) : MarkedAll marked [f] r r' := by
  unfold Rd.name at h
  obtain ⟨a, _, h⟩ := bind_some_iff.1 h
  cases a with
  | some vp =>
    cases h
    exact markedAll_one (hm _ _ he) rfl id
  | none =>
    obtain ⟨b, _, h⟩ := Option.map_eq_some_iff.1 h
    cases b with
    | some vp =>
      subst h
      exact markedAll_one (hm _ _ he) rfl id
    | none => subst h; exact absurd he (setError_err _ _)

theorem tzHours_marked {marked : ChronoField → Bool} {f : ChronoField} (set : Rd T → Int → Rd T) (hm : ∀ r v, (set r v).err = none → Marked marked f r (set r v))
    (sys : NumSys) (minus : Bool) (r : Rd T) (he : (r.tzHours set sys minus).err = none) : MarkedAll marked [f] r (r.tzHours set sys minus) := by
  unfold Rd.tzHours at he ⊢
  split at he
  · exact absurd he (setError_err _ _)
  · rename_i hne
    rw [if_neg hne]
    dsimp only at he ⊢
    have h1 := readUInt_st (if sys = .standard then 2 else 1) 2 r
    have h2 : ∀ (b : Bool) (r : Rd T), (r.tzMinutes b).2.st = r.st ∧ ((r.tzMinutes b).2.err = none → r.err = none) := by
      intro b r
      unfold Rd.tzMinutes
      split
      · exact ⟨rfl, id⟩
      · rename_i c q _
        split
        · split
          · exact readUInt_st 2 2 { r with pos := q }
          · exact ⟨rfl, id⟩
        · split
          · exact ⟨rfl, id⟩
          · split
            · exact readUInt_st 2 2 r
            · exact ⟨rfl, id⟩
    have h3 := h2 (decide (sys ≠ .standard)) (r.readUInt (if sys = .standard then 2 else 1) 2).2
    exact markedAll_one (hm _ _ he) (h3.1.trans h1.1) (fun h => h1.2 (h3.2 h))

theorem onText_st (t : List Nat) : ∀ (r : Rd T), (r.onText t).st = r.st ∧ ((r.onText t).err = none → r.err = none) := by
  induction t with
  | nil => intro r; exact ⟨rfl, id⟩
  | cons c t ih =>
    intro r
    rw [Rd.onText]
    have se : ∀ e, (r.setError e).st = r.st := by intro e; unfold Rd.setError; split <;> rfl
    split
    · exact ⟨se _, fun h => absurd h (setError_err _ _)⟩
    · split
      · exact ⟨se _, fun h => absurd h (setError_err _ _)⟩
      · rename_i q _ _
        exact ih { r with pos := q }

/-- A conversion that succeeds marks its field. -/
theorem simple_marked (cfg : ChronoCfg) (set : TmSetter T) {marked : ChronoField → Bool} (hm : Marks set marked) (x : ChronoCall)
    (hx : x ≠ .verify ∧ x ≠ .localized ∧ ∀ s, x ≠ .subsecond s) {r r' : Rd T} (hl : r.st.localized = false) (h : r.simple cfg set x = some r') (he : r'.err = none) :
    MarkedAll marked (fieldsOf [x]) r r' := by
  have hfield : fieldsOf [x] = (fieldOf x).toList := by rw [fieldsOf_cons]; simp [fieldsOf]
  rw [hfield]
  cases x with
  | verify => exact absurd rfl hx.1
  | localized => exact absurd rfl hx.2.1
  | subsecond s => exact absurd rfl (hx.2.2 s)
  | text t => cases h; exact markedAll_nil ((onText_st t r).2 he) (onText_st t r).1
  | whitespace =>
    dsimp only [Rd.simple, Rd.onWhitespace] at h
    split at h
    · cases h; exact markedAll_nil he rfl
    · cases h; exact absurd he (setError_err _ _)
    · cases h
  | fullYear s => cases h; exact numberOr_marked cfg _ _ _ _ _ _ _ hm.fullYear hl rfl he
  | shortYear s => cases h; exact numberOr_marked cfg _ _ _ _ _ _ _ hm.shortYear hl rfl he
  | century s => cases h; exact numberOr_marked cfg _ _ _ _ _ _ _ hm.century hl rfl he
  | decMonth s => cases h; exact numberOr_marked cfg _ _ _ _ _ _ _ hm.mon hl rfl he
  | dayOfMonth s => cases h; exact numberOr_marked cfg _ _ _ _ _ _ _ hm.mday hl rfl he
  | dec0Weekday s => cases h; exact numberOr_marked cfg _ _ _ _ _ _ _ hm.wday hl rfl he
  | dec1Weekday s => cases h; exact numberOr_marked cfg _ _ _ _ _ _ _ hm.wday hl rfl he
  | hour24 s => cases h; exact numberOr_marked cfg _ _ _ _ _ _ _ hm.hour24 hl rfl he
  | hour12 s => cases h; exact numberOr_marked cfg _ _ _ _ _ _ _ hm.hour12 hl rfl he
  | minute s => cases h; exact numberOr_marked cfg _ _ _ _ _ _ _ hm.min hl rfl he
  | second s => cases h; exact numberOr_marked cfg _ _ _ _ _ _ _ hm.sec hl rfl he
  | dayOfYear => cases h; exact number_marked _ _ _ (fun v => v - 1) hm.yday rfl he
  | monthName =>
    dsimp only [Rd.simple] at h
    rw [if_neg (by rw [hl]; decide)] at h
    exact name_marked _ _ _ hm.mon h he
  | weekdayName =>
    dsimp only [Rd.simple] at h
    rw [if_neg (by rw [hl]; decide)] at h
    exact name_marked _ _ _ hm.wday h he
  | amPm =>
    dsimp only [Rd.simple, Rd.onAmPm] at h
    obtain ⟨a, _, h⟩ := Option.map_eq_some_iff.1 h
    cases a with
    | none => subst h; exact absurd he (setError_err _ _)
    | some bp =>
      subst h
      have := mark_err he
      refine markedAll_one (s := { r with pos := bp.2 }) (marked_weaken hm.amPm ⟨this.1, this.2.1, this.2.2.1, this.2.2.2⟩) rfl id
  | tzOffset s =>
    dsimp only [Rd.simple] at h
    cases h
    unfold Rd.onTzOffset at he ⊢
    split
    · rename_i hp
      rw [hp] at he
      exact absurd he (setError_err _ _)
    · rename_i c q hp
      rw [hp] at he
      dsimp only at he
      split
      · rename_i hc
        rw [if_pos hc] at he
        exact tzHours_marked _ hm.tzOffset s _ { r with pos := q } he
      · rename_i hc
        rw [if_neg hc] at he
        split
        · rename_i hc'
          rw [if_pos hc'] at he
          exact tzHours_marked _ hm.tzOffset s _ { r with pos := q } he
        · rename_i hc'
          rw [if_neg hc'] at he
          exact tzHours_marked _ hm.tzOffset s _ r he
  | tzName =>
    dsimp only [Rd.simple, Rd.onTzName] at h
    split at h
    · cases h
      have := hm.tzName r _ he
      exact markedAll_one (s := r) ⟨this.1, this.2⟩ rfl id
    · cases h
  | _ => cases h; exact absurd he (setError_err _ _)

/-- A `verify` that succeeds changes no marks, and the marks pass the check. -/
theorem verify_success (set : TmSetter T) {marked : ChronoField → Bool} (hm : Marks set marked) :
    ∀ (r r' : Rd T), r.verify set = some r' → r'.err = none → r.err = none ∧ r'.st = r.st ∧ r.st.verify = true := by
  intro r r' h he
  unfold Rd.verify at h
  dsimp only at h
  obtain ⟨a, ha, h⟩ := bind_some_iff.1 h
  have hst : ∀ e, (r.setError e).st = r.st := by intro e; unfold Rd.setError; split <;> rfl
  have h2 : r'.err = a.err ∧ r'.st = a.st := by
    split at h
    · exact hm.handleYear _ _ h
    · cases h; exact ⟨rfl, rfl⟩
  by_cases hv : r.st.verify = true
  · rw [if_pos hv] at ha
    have h1 : a.err = r.err ∧ a.st = r.st := by
      split at ha
      · exact hm.handleAmPm _ _ ha
      · cases ha; exact ⟨rfl, rfl⟩
    exact ⟨by rw [← h1.1, ← h2.1, he], by rw [h2.2, h1.2], hv⟩
  · rw [if_neg hv] at ha
    exfalso
    have h1 : a.err = (r.setError .invalidFormatString).err := by
      split at ha
      · exact (hm.handleAmPm _ _ ha).1
      · cases ha; rfl
    rw [h2.1, h1] at he
    exact setError_err _ _ he

end Scn
