import Verif.Lemmas.Chrono11
/-
What a scan leaves: the ranges of the fields, and the unread part.
-/
namespace Scn
open Spec

/-! ### Ranges -/

theorem mark_tm {T : Type} (r : Rd T) (f : ChronoField) : (r.mark f).tm = r.tm ∧ (r.mark f).st.set = f :: r.st.set ∧ (r.mark f).pos = r.pos ∧ (r.mark f).range = r.range := by
  unfold Rd.mark
  split
  · unfold Rd.setError
    split <;> exact ⟨rfl, rfl, rfl, rfl⟩
  · exact ⟨rfl, rfl, rfl, rfl⟩

theorem setError_tm {T : Type} (r : Rd T) (e : Err) : (r.setError e).tm = r.tm ∧ (r.setError e).st = r.st ∧ (r.setError e).pos = r.pos ∧ (r.setError e).range = r.range := by
  unfold Rd.setError
  split <;> exact ⟨rfl, rfl, rfl, rfl⟩

/-- An invariant of what is set and of the value. -/
def OnTm {T : Type} (Q : List ChronoField → T → Prop) (r : Rd T) : Prop := Q r.st.set r.tm

theorem onTm_err {T : Type} {Q : List ChronoField → T → Prop} {r : Rd T} {e : Err} (h : OnTm Q r) : OnTm Q (r.setError e) := by
  unfold OnTm; rw [(setError_tm r e).1, (setError_tm r e).2.1]; exact h

theorem onTm_mark {T : Type} {Q : List ChronoField → T → Prop} {r : Rd T} {f : ChronoField} (h : Q (f :: r.st.set) r.tm) : OnTm Q (r.mark f) := by
  unfold OnTm; rw [(mark_tm r f).1, (mark_tm r f).2.1]; exact h

theorem onTm_field {T : Type} {Q : List ChronoField → T → Prop} {r : Rd T} {f : ChronoField} {lo hi v : Int} {upd : T → T} (h : OnTm Q r)
    (hu : lo ≤ v → v ≤ hi → Q (f :: r.st.set) (upd r.tm)) : OnTm Q (r.setField f lo hi v upd) := by
  unfold Rd.setField
  split
  · exact onTm_err h
  · exact onTm_mark (hu (by omega) (by omega))

theorem tmIn_mark {t0 : Tm} {fs : List ChronoField} {t : Tm} (h : TmWithin t0 fs t) (f : ChronoField) (hf : f = .fullYear ∨ f = .century ∨ f = .shortYear ∨ f = .amPm) :
    TmWithin t0 (f :: fs) t := by
  obtain ⟨h1, h2, h3, h4, h5, h6, h7, h8⟩ := h
  rcases hf with rfl | rfl | rfl | rfl <;>
    exact ⟨by simpa using h1, by simpa using h2, by simpa using h3, by simpa using h4, by simpa using h5, by simpa using h6, by simpa using h7, by simpa using h8⟩

theorem handleAmPm_range {st : SetterState} {h h' : Int} (hh : st.handleAmPm h = some h') (h0 : 0 ≤ h) : 0 ≤ h' ∧ h' ≤ 23 := by
  unfold SetterState.handleAmPm at hh
  split at hh
  · cases hh
  · rename_i hn
    simp only [not_or] at hn
    split at hh <;> (cases hh; split <;> omega)

theorem has_iff {st : SetterState} {f : ChronoField} : st.has f = true ↔ f ∈ st.set := by
  unfold SetterState.has; simp

theorem has_false {st : SetterState} {f : ChronoField} : st.has f = false ↔ f ∉ st.set := by
  unfold SetterState.has; simp

theorem handleYear_none {st : SetterState} {y y' o : Int} (hh : st.handleYear y o = some y') (h1 : .shortYear ∉ st.set) (h2 : .century ∉ st.set) : y' = y := by
  unfold SetterState.handleYear at hh
  rw [has_false.2 h1, has_false.2 h2] at hh
  split at hh
  · cases hh
  · simpa using hh.symm

theorem tmIn_closed (cfg : ChronoCfg) (gmtoff : Bool) (t0 : Tm) : Closed cfg (tmSetter gmtoff) (OnTm (TmWithin t0)) where
  err r e h := onTm_err h
  pos r p h _ := h
  facet r _ _ p h _ := h
  localized r h := h
  amPm r b h := onTm_mark (tmIn_mark h _ (by simp))
  tzName r x n p h _ := by
    show TmWithin t0 (r.setError .invalidFormatString).st.set (r.setError .invalidFormatString).tm
    exact onTm_err h
  scanned r x n p h _ := h
  subsec r v h := onTm_err h
  sec r v h := onTm_field h fun a b => by
    obtain ⟨h1, h2, h3, h4, h5, h6, h7, h8⟩ := (h : TmWithin t0 r.st.set r.tm)
    exact ⟨by simp [a, b], by simpa using h2, by simpa using h3, by simpa using h4, by simpa using h5, by simpa using h6, by simpa using h7, by simpa using h8⟩
  min r v h := onTm_field h fun a b => by
    obtain ⟨h1, h2, h3, h4, h5, h6, h7, h8⟩ := (h : TmWithin t0 r.st.set r.tm)
    exact ⟨by simpa using h1, by simp [a, b], by simpa using h3, by simpa using h4, by simpa using h5, by simpa using h6, by simpa using h7, by simpa using h8⟩
  hour24 r v h := onTm_field h fun a b => by
    obtain ⟨h1, h2, h3, h4, h5, h6, h7, h8⟩ := (h : TmWithin t0 r.st.set r.tm)
    exact ⟨by simpa using h1, by simpa using h2, by simp [a, b], by simpa using h4, by simpa using h5, by simpa using h6, by simpa using h7, by simpa using h8⟩
  hour12 r v h := onTm_field h fun a b => by
    obtain ⟨h1, h2, h3, h4, h5, h6, h7, h8⟩ := (h : TmWithin t0 r.st.set r.tm)
    exact ⟨by simpa using h1, by simpa using h2, by simp; omega, by simpa using h4, by simpa using h5, by simpa using h6, by simpa using h7, by simpa using h8⟩
  mday r v h := onTm_field h fun a b => by
    obtain ⟨h1, h2, h3, h4, h5, h6, h7, h8⟩ := (h : TmWithin t0 r.st.set r.tm)
    exact ⟨by simpa using h1, by simpa using h2, by simpa using h3, by simp [a, b], by simpa using h5, by simpa using h6, by simpa using h7, by simpa using h8⟩
  mon r v h := onTm_field h fun a b => by
    obtain ⟨h1, h2, h3, h4, h5, h6, h7, h8⟩ := (h : TmWithin t0 r.st.set r.tm)
    exact ⟨by simpa using h1, by simpa using h2, by simpa using h3, by simpa using h4, by simp; omega, by simpa using h6, by simpa using h7, by simpa using h8⟩
  fullYear r v h := by
    dsimp only [tmSetter, tmSetterOn]
    split
    · exact onTm_err h
    · obtain ⟨h1, h2, h3, h4, h5, h6, h7, h8⟩ := (h : TmWithin t0 r.st.set r.tm)
      exact onTm_mark ⟨by simpa using h1, by simpa using h2, by simpa using h3, by simpa using h4, by simpa using h5, by simpa using h6, by simpa using h7, by simp⟩
  century r v h := onTm_mark (tmIn_mark h _ (by simp))
  shortYear r v h := by
    dsimp only [tmSetter, tmSetterOn]
    split
    · exact onTm_err h
    · exact onTm_mark (tmIn_mark h _ (by simp))
  wday r v h := onTm_field h fun a b => by
    obtain ⟨h1, h2, h3, h4, h5, h6, h7, h8⟩ := (h : TmWithin t0 r.st.set r.tm)
    exact ⟨by simpa using h1, by simpa using h2, by simpa using h3, by simpa using h4, by simpa using h5, by simp [a, b], by simpa using h7, by simpa using h8⟩
  yday r v h := onTm_field h fun a b => by
    obtain ⟨h1, h2, h3, h4, h5, h6, h7, h8⟩ := (h : TmWithin t0 r.st.set r.tm)
    exact ⟨by simpa using h1, by simpa using h2, by simpa using h3, by simpa using h4, by simpa using h5, by simpa using h6, by simp [a, b], by simpa using h8⟩
  tzOffset r v h := by
    dsimp only [tmSetter, tmSetterOn]
    split
    · exact ⟨h.sec, h.min, h.hour, h.mday, h.mon, h.wday, h.yday, h.year⟩
    · exact onTm_err h
  handleAmPm r r' h _ h12 hr := by
    obtain ⟨x, hx, rfl⟩ := Option.map_eq_some_iff.1 hr
    have hh := (h : TmWithin t0 r.st.set r.tm).hour.1 (Or.inr (has_iff.1 h12))
    have := handleAmPm_range hx hh.1
    exact ⟨h.sec, h.min, ⟨fun _ => this, fun _ hn => absurd (has_iff.1 h12) hn⟩, h.mday, h.mon, h.wday, h.yday, h.year⟩
  handleYear r r' h hf hr := by
    obtain ⟨x, hx, rfl⟩ := Option.map_eq_some_iff.1 hr
    refine ⟨h.sec, h.min, h.hour, h.mday, h.mon, h.wday, h.yday, fun h1 h2 h3 => ?_⟩
    have := handleYear_none hx h2 h3
    exact this.trans (h.year h1 h2 h3)

theorem dtIn_closed (cfg : ChronoCfg) (t0 : DateTime) : Closed cfg dtSetter (OnTm (DateTimeWithin t0)) where
  err r e h := onTm_err h
  pos r p h _ := h
  facet r _ _ p h _ := h
  localized r h := h
  amPm r b h := onTm_mark (by
    obtain ⟨h1, h2, h3, h4, h5, h6, h7, h8, h9, h10⟩ := (h : DateTimeWithin t0 r.st.set r.tm)
    exact ⟨by simpa using h1, by simpa using h2, by simpa using h3, by simpa using h4, by simpa using h5, by simpa using h6, by simpa using h7, by simpa using h8, by simpa using h9, by simpa using h10⟩)
  tzName r x n p h _ := by
    have : OnTm (DateTimeWithin t0) (Rd.mark { r with tm := { r.tm with tzName := some n } } .tzname) := onTm_mark (by
      obtain ⟨h1, h2, h3, h4, h5, h6, h7, h8, h9, h10⟩ := (h : DateTimeWithin t0 r.st.set r.tm)
      exact ⟨by simpa using h1, by simpa using h2, by simpa using h3, by simpa using h4, by simpa using h5, by simpa using h6, by simpa using h7, by simpa using h8, by simpa using h9, by simp⟩)
    exact this
  scanned r x n p h _ := h
  subsec r v h := onTm_mark (by
    obtain ⟨h1, h2, h3, h4, h5, h6, h7, h8, h9, h10⟩ := (h : DateTimeWithin t0 r.st.set r.tm)
    exact ⟨by simpa using h1, by simpa using h2, by simpa using h3, by simpa using h4, by simpa using h5, by simpa using h6, by simpa using h7, by simpa using h8, by simpa using h9, by simpa using h10⟩)
  sec r v h := onTm_field h fun a b => by
    obtain ⟨h1, h2, h3, h4, h5, h6, h7, h8, h9, h10⟩ := (h : DateTimeWithin t0 r.st.set r.tm)
    exact ⟨by simp [a, b], by simpa using h2, by simpa using h3, by simpa using h4, by simpa using h5, by simpa using h6, by simpa using h7, by simpa using h8, by simpa using h9, by simpa using h10⟩
  min r v h := onTm_field h fun a b => by
    obtain ⟨h1, h2, h3, h4, h5, h6, h7, h8, h9, h10⟩ := (h : DateTimeWithin t0 r.st.set r.tm)
    exact ⟨by simpa using h1, by simp [a, b], by simpa using h3, by simpa using h4, by simpa using h5, by simpa using h6, by simpa using h7, by simpa using h8, by simpa using h9, by simpa using h10⟩
  hour24 r v h := onTm_field h fun a b => by
    obtain ⟨h1, h2, h3, h4, h5, h6, h7, h8, h9, h10⟩ := (h : DateTimeWithin t0 r.st.set r.tm)
    exact ⟨by simpa using h1, by simpa using h2, by simp [a, b], by simpa using h4, by simpa using h5, by simpa using h6, by simpa using h7, by simpa using h8, by simpa using h9, by simpa using h10⟩
  hour12 r v h := onTm_field h fun a b => by
    obtain ⟨h1, h2, h3, h4, h5, h6, h7, h8, h9, h10⟩ := (h : DateTimeWithin t0 r.st.set r.tm)
    exact ⟨by simpa using h1, by simpa using h2, by simp; omega, by simpa using h4, by simpa using h5, by simpa using h6, by simpa using h7, by simpa using h8, by simpa using h9, by simpa using h10⟩
  mday r v h := onTm_field h fun a b => by
    obtain ⟨h1, h2, h3, h4, h5, h6, h7, h8, h9, h10⟩ := (h : DateTimeWithin t0 r.st.set r.tm)
    exact ⟨by simpa using h1, by simpa using h2, by simpa using h3, by simp [a, b], by simpa using h5, by simpa using h6, by simpa using h7, by simpa using h8, by simpa using h9, by simpa using h10⟩
  mon r v h := onTm_field h fun a b => by
    obtain ⟨h1, h2, h3, h4, h5, h6, h7, h8, h9, h10⟩ := (h : DateTimeWithin t0 r.st.set r.tm)
    exact ⟨by simpa using h1, by simpa using h2, by simpa using h3, by simpa using h4, by simp [a, b], by simpa using h6, by simpa using h7, by simpa using h8, by simpa using h9, by simpa using h10⟩
  fullYear r v h := onTm_mark (by
    obtain ⟨h1, h2, h3, h4, h5, h6, h7, h8, h9, h10⟩ := (h : DateTimeWithin t0 r.st.set r.tm)
    exact ⟨by simpa using h1, by simpa using h2, by simpa using h3, by simpa using h4, by simpa using h5, by simpa using h6, by simpa using h7, by simp, by simpa using h9, by simpa using h10⟩)
  century r v h := onTm_mark (by
    obtain ⟨h1, h2, h3, h4, h5, h6, h7, h8, h9, h10⟩ := (h : DateTimeWithin t0 r.st.set r.tm)
    exact ⟨by simpa using h1, by simpa using h2, by simpa using h3, by simpa using h4, by simpa using h5, by simpa using h6, by simpa using h7, by simp, by simpa using h9, by simpa using h10⟩)
  shortYear r v h := onTm_mark (by
    obtain ⟨h1, h2, h3, h4, h5, h6, h7, h8, h9, h10⟩ := (h : DateTimeWithin t0 r.st.set r.tm)
    exact ⟨by simpa using h1, by simpa using h2, by simpa using h3, by simpa using h4, by simpa using h5, by simpa using h6, by simpa using h7, by simp, by simpa using h9, by simpa using h10⟩)
  wday r v h := onTm_field h fun a b => by
    obtain ⟨h1, h2, h3, h4, h5, h6, h7, h8, h9, h10⟩ := (h : DateTimeWithin t0 r.st.set r.tm)
    exact ⟨by simpa using h1, by simpa using h2, by simpa using h3, by simpa using h4, by simpa using h5, by simp [a, b], by simpa using h7, by simpa using h8, by simpa using h9, by simpa using h10⟩
  yday r v h := onTm_field h fun a b => by
    obtain ⟨h1, h2, h3, h4, h5, h6, h7, h8, h9, h10⟩ := (h : DateTimeWithin t0 r.st.set r.tm)
    exact ⟨by simpa using h1, by simpa using h2, by simpa using h3, by simpa using h4, by simpa using h5, by simpa using h6, by simp; omega, by simpa using h8, by simpa using h9, by simpa using h10⟩
  tzOffset r v h := onTm_mark (by
    obtain ⟨h1, h2, h3, h4, h5, h6, h7, h8, h9, h10⟩ := (h : DateTimeWithin t0 r.st.set r.tm)
    exact ⟨by simpa using h1, by simpa using h2, by simpa using h3, by simpa using h4, by simpa using h5, by simpa using h6, by simpa using h7, by simpa using h8, by simp, by simpa using h10⟩)
  handleAmPm r r' h _ h12 hr := by
    obtain ⟨v, hv, h0, _⟩ := (h : DateTimeWithin t0 r.st.set r.tm).hour.1 (Or.inr (has_iff.1 h12))
    dsimp only [dtSetter] at hr
    rw [hv] at hr
    obtain ⟨x, hx, rfl⟩ := Option.map_eq_some_iff.1 hr
    have := handleAmPm_range hx h0
    exact ⟨h.sec, h.min, ⟨fun _ => ⟨x, rfl, this⟩, fun _ hn => absurd (has_iff.1 h12) hn⟩, h.mday, h.mon, h.wday, h.yday, h.year, h.tz, h.tzname⟩
  handleYear r r' h hf hr := by
    dsimp only [dtSetter] at hr
    cases hy : r.tm.year with
    | none => rw [hy] at hr; cases hr
    | some y =>
      rw [hy] at hr
      obtain ⟨x, hx, rfl⟩ := Option.map_eq_some_iff.1 hr
      refine ⟨h.sec, h.min, h.hour, h.mday, h.mon, h.wday, h.yday, ⟨fun _ => ⟨x, rfl⟩, fun h1 h2 h3 => ?_⟩, h.tz, h.tzname⟩
      have := handleYear_none hx h2 h3
      subst this
      exact hy.symm.trans ((h : DateTimeWithin t0 r.st.set r.tm).year.2 h1 h2 h3)

/-! ### The unread part -/

/-- The setter leaves the positions alone. -/
structure KeepsPos {T : Type} (set : TmSetter T) : Prop where
  subsec : ∀ r v, (set.subsec r v).pos = r.pos ∧ (set.subsec r v).range = r.range
  sec : ∀ r v, (set.sec r v).pos = r.pos ∧ (set.sec r v).range = r.range
  min : ∀ r v, (set.min r v).pos = r.pos ∧ (set.min r v).range = r.range
  hour24 : ∀ r v, (set.hour24 r v).pos = r.pos ∧ (set.hour24 r v).range = r.range
  hour12 : ∀ r v, (set.hour12 r v).pos = r.pos ∧ (set.hour12 r v).range = r.range
  mday : ∀ r v, (set.mday r v).pos = r.pos ∧ (set.mday r v).range = r.range
  mon : ∀ r v, (set.mon r v).pos = r.pos ∧ (set.mon r v).range = r.range
  fullYear : ∀ r v, (set.fullYear r v).pos = r.pos ∧ (set.fullYear r v).range = r.range
  century : ∀ r v, (set.century r v).pos = r.pos ∧ (set.century r v).range = r.range
  shortYear : ∀ r v, (set.shortYear r v).pos = r.pos ∧ (set.shortYear r v).range = r.range
  wday : ∀ r v, (set.wday r v).pos = r.pos ∧ (set.wday r v).range = r.range
  yday : ∀ r v, (set.yday r v).pos = r.pos ∧ (set.yday r v).range = r.range
  tzOffset : ∀ r v, (set.tzOffset r v).pos = r.pos ∧ (set.tzOffset r v).range = r.range
  tzName : ∀ r v, (set.tzName r v).pos = r.pos ∧ (set.tzName r v).range = r.range
  handleAmPm : ∀ r r', set.handleAmPm r = some r' → r'.pos = r.pos ∧ r'.range = r.range
  handleYear : ∀ r r', set.handleYear r = some r' → r'.pos = r.pos ∧ r'.range = r.range

theorem setField_pos {T : Type} (r : Rd T) (f : ChronoField) (lo hi v : Int) (upd : T → T) :
    (r.setField f lo hi v upd).pos = r.pos ∧ (r.setField f lo hi v upd).range = r.range := by
  unfold Rd.setField
  split
  · exact (setError_tm r _).2.2
  · exact (mark_tm _ f).2.2

theorem keepsPos_tmOn {T : Type} (gmtoff : Bool) (get : T → Tm) (upd : (Tm → Tm) → T → T) : KeepsPos (tmSetterOn gmtoff get upd) where
  subsec r v := (setError_tm r _).2.2
  sec r v := setField_pos _ _ _ _ _ _
  min r v := setField_pos _ _ _ _ _ _
  hour24 r v := setField_pos _ _ _ _ _ _
  hour12 r v := setField_pos _ _ _ _ _ _
  mday r v := setField_pos _ _ _ _ _ _
  mon r v := setField_pos _ _ _ _ _ _
  fullYear r v := by
    dsimp only [tmSetterOn]
    split
    · exact (setError_tm r _).2.2
    · exact (mark_tm _ _).2.2
  century r v := (mark_tm _ _).2.2
  shortYear r v := by
    dsimp only [tmSetterOn]
    split
    · exact (setError_tm r _).2.2
    · exact (mark_tm _ _).2.2
  wday r v := setField_pos _ _ _ _ _ _
  yday r v := setField_pos _ _ _ _ _ _
  tzOffset r v := by
    dsimp only [tmSetterOn]
    split
    · exact ⟨rfl, rfl⟩
    · exact (setError_tm r _).2.2
  tzName r v := (setError_tm r _).2.2
  handleAmPm r r' h := by obtain ⟨x, hx, rfl⟩ := Option.map_eq_some_iff.1 h; exact ⟨rfl, rfl⟩
  handleYear r r' h := by obtain ⟨x, hx, rfl⟩ := Option.map_eq_some_iff.1 h; exact ⟨rfl, rfl⟩

theorem keepsPos_tmTz (gmtoff : Bool) : KeepsPos (tmTzSetter gmtoff) :=
  have h := keepsPos_tmOn gmtoff (fun t : TmWithTz => t.tm) (fun f t => { t with tm := f t.tm })
  { h with
    tzOffset := fun r v => by
      dsimp only [tmTzSetter]
      split
      · exact h.tzOffset _ _
      · exact (mark_tm _ _).2.2
    tzName := fun r v => (mark_tm _ _).2.2 }

theorem keepsPos_dt : KeepsPos dtSetter where
  subsec r v := (mark_tm _ _).2.2
  sec r v := setField_pos _ _ _ _ _ _
  min r v := setField_pos _ _ _ _ _ _
  hour24 r v := setField_pos _ _ _ _ _ _
  hour12 r v := setField_pos _ _ _ _ _ _
  mday r v := setField_pos _ _ _ _ _ _
  mon r v := setField_pos _ _ _ _ _ _
  fullYear r v := (mark_tm _ _).2.2
  century r v := (mark_tm _ _).2.2
  shortYear r v := (mark_tm _ _).2.2
  wday r v := setField_pos _ _ _ _ _ _
  yday r v := setField_pos _ _ _ _ _ _
  tzOffset r v := (mark_tm _ _).2.2
  tzName r v := (mark_tm _ _).2.2
  handleAmPm r r' h := by
    dsimp only [dtSetter] at h
    split at h
    · cases h
    · obtain ⟨x, hx, rfl⟩ := Option.map_eq_some_iff.1 h; exact ⟨rfl, rfl⟩
  handleYear r r' h := by
    dsimp only [dtSetter] at h
    split at h
    · cases h
    · obtain ⟨x, hx, rfl⟩ := Option.map_eq_some_iff.1 h; exact ⟨rfl, rfl⟩

/-- The facet and the scans inside the reader stay in the text they are given. -/
structure Inside (cfg : ChronoCfg) : Prop where
  facet : ∀ fmt s t p, cfg.facet fmt s = some (t, p) → p <:+ s
  scanSet : ∀ x s n p, cfg.scanSet x s = .ok (n, p) → p <:+ s

theorem inside_closed {T : Type} {cfg : ChronoCfg} (hin : Inside cfg) {set : TmSetter T} (hk : KeepsPos set) (src : List Nat) :
    Closed cfg set (fun r => r.pos <:+ src ∧ r.range <:+ src) where
  err r e h := by rw [(setError_tm r e).2.2.1, (setError_tm r e).2.2.2]; exact h
  pos r p h hp := ⟨hp.trans h.1, h.2⟩
  facet r _ _ p h hf := ⟨(hin.facet _ _ _ _ hf).trans h.2, h.2⟩
  localized r h := h
  amPm r b h := by
    have := mark_tm { r with st := { r.st with isPm := b } } .amPm
    rw [this.2.2.1, this.2.2.2]; exact h
  tzName r x n p h hs := ⟨(hin.scanSet _ _ _ _ hs).trans h.1, by
    show (set.tzName r n).range <:+ src
    rw [(hk.tzName r n).2]; exact h.2⟩
  scanned r x n p h hs := ⟨(hin.scanSet _ _ _ _ hs).trans h.1, h.2⟩
  subsec r v h := by rw [(hk.subsec r v).1, (hk.subsec r v).2]; exact h
  sec r v h := by rw [(hk.sec r v).1, (hk.sec r v).2]; exact h
  min r v h := by rw [(hk.min r v).1, (hk.min r v).2]; exact h
  hour24 r v h := by rw [(hk.hour24 r v).1, (hk.hour24 r v).2]; exact h
  hour12 r v h := by rw [(hk.hour12 r v).1, (hk.hour12 r v).2]; exact h
  mday r v h := by rw [(hk.mday r v).1, (hk.mday r v).2]; exact h
  mon r v h := by rw [(hk.mon r v).1, (hk.mon r v).2]; exact h
  fullYear r v h := by rw [(hk.fullYear r v).1, (hk.fullYear r v).2]; exact h
  century r v h := by rw [(hk.century r v).1, (hk.century r v).2]; exact h
  shortYear r v h := by rw [(hk.shortYear r v).1, (hk.shortYear r v).2]; exact h
  wday r v h := by rw [(hk.wday r v).1, (hk.wday r v).2]; exact h
  yday r v h := by rw [(hk.yday r v).1, (hk.yday r v).2]; exact h
  tzOffset r v h := by rw [(hk.tzOffset r v).1, (hk.tzOffset r v).2]; exact h
  handleAmPm r r' h _ _ hr := by rw [(hk.handleAmPm r r' hr).1, (hk.handleAmPm r r' hr).2]; exact h
  handleYear r r' h _ hr := by rw [(hk.handleYear r r' hr).1, (hk.handleYear r r' hr).2]; exact h

end Scn
