import Verif.Lemmas.Chrono15
/-
Scans of dates and times with accepted formats are well-defined: the three destinations.
-/
namespace Scn
open Spec
variable {T : Type}

/-- What the setter of a destination with a `std::tm` keeps. -/
theorem tmOn_closed0 (cfg : ChronoCfg) (gmtoff : Bool) (get : T → Tm) (upd : (Tm → Tm) → T → T) (hget : ∀ f t, get (upd f t) = f (get t))
    {Q : Bool → List ChronoField → T → Prop} (hadd : ∀ f l fs t, f ≠ .hour24 → f ≠ .hour12 → Q l fs t → Q l (f :: fs) t)
    (hupd : ∀ l fs t t', (get t').hour = (get t).hour → Q l fs t → Q l fs t') {a b : Rd T → Int → Rd T}
    (ha : ∀ r v, OnRd Q r → OnRd Q (a r v)) (hb : ∀ r v, OnRd Q r → OnRd Q (b r v)) :
    Closed0 cfg (clockless (tmSetterOn gmtoff get upd) a b) (OnRd Q) :=
  have fld : ∀ (r : Rd T) (f : ChronoField) (lo hi v : Int) (g : Tm → Tm), OnRd Q r → f ≠ .hour24 → f ≠ .hour12 → (∀ t, (g t).hour = t.hour) →
      OnRd Q (r.setField f lo hi v (upd g)) := fun r f lo hi v g h h1 h2 hg =>
    onRd_field h fun _ _ => hadd _ _ _ _ h1 h2 (hupd _ _ _ _ (by rw [hget, hg]) h)
  { err := fun r e h => onRd_err h
    pos := fun r p h _ => h
    facet := fun r _ _ p h _ => h
    amPm := fun r b h => onRd_mark (hadd _ _ _ _ (by simp) (by simp) h)
    tzName := fun r x n p h _ => by
      show Q (r.setError .invalidFormatString).st.localized (r.setError .invalidFormatString).st.set (r.setError .invalidFormatString).tm
      exact onRd_err h
    scanned := fun r x n p h _ => h
    subsec := fun r v h => onRd_err h
    sec := fun r v h => fld _ _ _ _ _ _ h (by simp) (by simp) fun _ => rfl
    min := fun r v h => fld _ _ _ _ _ _ h (by simp) (by simp) fun _ => rfl
    hour24 := ha
    hour12 := hb
    mday := fun r v h => fld _ _ _ _ _ _ h (by simp) (by simp) fun _ => rfl
    mon := fun r v h => fld _ _ _ _ _ _ h (by simp) (by simp) fun _ => rfl
    fullYear := fun r v h => by
      dsimp only [clockless, tmSetterOn]
      split
      · exact onRd_err h
      · exact onRd_mark (hadd _ _ _ _ (by simp) (by simp) (hupd _ _ _ _ (by rw [hget]) h))
    century := fun r v h => onRd_mark (hadd _ _ _ _ (by simp) (by simp) h)
    shortYear := fun r v h => by
      dsimp only [clockless, tmSetterOn]
      split
      · exact onRd_err h
      · exact onRd_mark (hadd _ _ _ _ (by simp) (by simp) h)
    wday := fun r v h => fld _ _ _ _ _ _ h (by simp) (by simp) fun _ => rfl
    yday := fun r v h => fld _ _ _ _ _ _ h (by simp) (by simp) fun _ => rfl
    tzOffset := fun r v h => by
      dsimp only [clockless, tmSetterOn]
      split
      · exact hupd _ _ _ _ (by rw [hget]) h
      · exact onRd_err h
    handleAmPm := fun r r' h _ _ hr => by cases hr; exact h
    handleYear := fun r r' h _ hr => by cases hr; exact h }

theorem tmTz_closed0 (cfg : ChronoCfg) (gmtoff : Bool) {Q : Bool → List ChronoField → TmWithTz → Prop} (hadd : ∀ f l fs t, f ≠ .hour24 → f ≠ .hour12 → Q l fs t → Q l (f :: fs) t)
    (hupd : ∀ l fs t t', t'.tm.hour = t.tm.hour → Q l fs t → Q l fs t') {a b : Rd TmWithTz → Int → Rd TmWithTz}
    (ha : ∀ r v, OnRd Q r → OnRd Q (a r v)) (hb : ∀ r v, OnRd Q r → OnRd Q (b r v)) :
    Closed0 cfg (clockless (tmTzSetter gmtoff) a b) (OnRd Q) :=
  have h0 := tmOn_closed0 cfg gmtoff (fun t : TmWithTz => t.tm) (fun f t => { t with tm := f t.tm }) (fun _ _ => rfl) hadd hupd ha hb
  { h0 with
    tzName := fun r x n p h _ => by
      have : OnRd Q ({ r with tm := { r.tm with tzName := some n } }.mark .tzname) := onRd_mark (hadd _ _ _ _ (by simp) (by simp) (hupd _ _ r.tm _ rfl h))
      exact this
    tzOffset := fun r v h => by
      have h1 : OnRd Q { r with tm := { r.tm with tzOffset := some v } } := hupd _ _ r.tm _ rfl h
      dsimp only [clockless, tmTzSetter]
      split
      · exact h0.tzOffset _ v h1
      · exact onRd_mark (hadd _ _ _ _ (by simp) (by simp) h1) }

theorem dt_closed0 (cfg : ChronoCfg) {Q : Bool → List ChronoField → DateTime → Prop}
    (hadd : ∀ f l fs t, f ≠ .hour24 → f ≠ .hour12 → f ≠ .shortYear → f ≠ .century → Q l fs t → Q l (f :: fs) t)
    (hupd : ∀ l fs t t', t'.hour = t.hour → (t.year ≠ none → t'.year ≠ none) → Q l fs t → Q l fs t')
    (hyear : ∀ f l fs t, f ≠ .hour24 → f ≠ .hour12 → t.year ≠ none → Q l fs t → Q l (f :: fs) t)
    {a b : Rd DateTime → Int → Rd DateTime} (ha : ∀ r v, OnRd Q r → OnRd Q (a r v)) (hb : ∀ r v, OnRd Q r → OnRd Q (b r v)) :
    Closed0 cfg (clockless dtSetter a b) (OnRd Q) :=
  have fld : ∀ (r : Rd DateTime) (f : ChronoField) (lo hi v : Int) (g : DateTime → DateTime), OnRd Q r → f ≠ .hour24 → f ≠ .hour12 → f ≠ .shortYear → f ≠ .century →
      (∀ t, (g t).hour = t.hour) → (∀ t, (g t).year = t.year) → OnRd Q (r.setField f lo hi v g) := fun r f lo hi v g h h1 h2 h3 h4 hg hy =>
    onRd_field h fun _ _ => hadd _ _ _ _ h1 h2 h3 h4 (hupd _ _ _ _ (hg _) (by rw [hy]; exact id) h)
  have mrk : ∀ (r : Rd DateTime) (f : ChronoField) (t : DateTime), OnRd Q r → f ≠ .hour24 → f ≠ .hour12 → f ≠ .shortYear → f ≠ .century →
      t.hour = r.tm.hour → (r.tm.year ≠ none → t.year ≠ none) → OnRd Q ({ r with tm := t }.mark f) := fun r f t h h1 h2 h3 h4 hh hy =>
    onRd_mark (hadd _ _ _ _ h1 h2 h3 h4 (hupd _ _ _ _ hh hy h))
  { err := fun r e h => onRd_err h
    pos := fun r p h _ => h
    facet := fun r _ _ p h _ => h
    amPm := fun r b h => onRd_mark (hadd _ _ _ _ (by simp) (by simp) (by simp) (by simp) h)
    tzName := fun r x n p h _ => by
      have : OnRd Q ({ r with tm := { r.tm with tzName := some n } }.mark .tzname) := mrk _ _ _ h (by simp) (by simp) (by simp) (by simp) rfl id
      exact this
    scanned := fun r x n p h _ => h
    subsec := fun r v h => mrk _ _ _ h (by simp) (by simp) (by simp) (by simp) rfl id
    sec := fun r v h => fld _ _ _ _ _ _ h (by simp) (by simp) (by simp) (by simp) (fun _ => rfl) fun _ => rfl
    min := fun r v h => fld _ _ _ _ _ _ h (by simp) (by simp) (by simp) (by simp) (fun _ => rfl) fun _ => rfl
    hour24 := ha
    hour12 := hb
    mday := fun r v h => fld _ _ _ _ _ _ h (by simp) (by simp) (by simp) (by simp) (fun _ => rfl) fun _ => rfl
    mon := fun r v h => fld _ _ _ _ _ _ h (by simp) (by simp) (by simp) (by simp) (fun _ => rfl) fun _ => rfl
    fullYear := fun r v h => mrk _ _ _ h (by simp) (by simp) (by simp) (by simp) rfl (by simp)
    century := fun r v h => onRd_mark (hyear _ _ _ _ (by simp) (by simp) (by simp) (hupd _ _ r.tm _ rfl (by simp) h))
    shortYear := fun r v h => onRd_mark (hyear _ _ _ _ (by simp) (by simp) (by simp) (hupd _ _ r.tm _ rfl (by simp) h))
    wday := fun r v h => fld _ _ _ _ _ _ h (by simp) (by simp) (by simp) (by simp) (fun _ => rfl) fun _ => rfl
    yday := fun r v h => fld _ _ _ _ _ _ h (by simp) (by simp) (by simp) (by simp) (fun _ => rfl) fun _ => rfl
    tzOffset := fun r v h => mrk _ _ _ h (by simp) (by simp) (by simp) (by simp) rfl id
    handleAmPm := fun r r' h _ _ hr => by cases hr; exact h
    handleYear := fun r r' h _ hr => by cases hr; exact h }

/-- `verify` is well-defined if its two steps are. -/
theorem verify_defined (set : TmSetter T) {r : Rd T}
    (h1 : ∀ r1 : Rd T, r1.st = r.st → r1.tm = r.tm → .amPm ∈ r.st.set → .hour12 ∈ r.st.set →
      ∃ r2, set.handleAmPm r1 = some r2 ∧ ((.shortYear ∈ r2.st.set ∨ .century ∈ r2.st.set) → .fullYear ∉ r2.st.set → set.handleYear r2 ≠ none))
    (h2 : ∀ r1 : Rd T, r1.st = r.st → r1.tm = r.tm → (.shortYear ∈ r.st.set ∨ .century ∈ r.st.set) → .fullYear ∉ r.st.set → set.handleYear r1 ≠ none) :
    r.verify set ≠ none := by
  unfold Rd.verify
  dsimp only
  obtain ⟨r1, hr1, hst, htm⟩ : ∃ r1, (if r.st.verify = true then r else r.setError .invalidFormatString) = r1 ∧ r1.st = r.st ∧ r1.tm = r.tm := by
    refine ⟨_, rfl, ?_, ?_⟩ <;> split <;> first | rfl | exact (setError_tm r _).2.1 | exact (setError_tm r _).1
  rw [hr1]
  by_cases hc : (r1.st.has .amPm && r1.st.has .hour12) = true
  · rw [if_pos hc]
    rw [Bool.and_eq_true, has_iff, has_iff, hst] at hc
    obtain ⟨r2, hr2, hy⟩ := h1 r1 hst htm hc.1 hc.2
    rw [hr2, Option.bind_some]
    split
    · rename_i hcond
      rw [Bool.and_eq_true, Bool.not_eq_true', has_false, Bool.or_eq_true, has_iff, has_iff] at hcond
      exact hy hcond.2 hcond.1
    · simp
  · rw [if_neg hc, Option.bind_some]
    split
    · rename_i hcond
      rw [Bool.and_eq_true, Bool.not_eq_true', has_false, Bool.or_eq_true, has_iff, has_iff, hst] at hcond
      exact h2 r1 hst htm hcond.2 hcond.1
    · simp

theorem handleYear_defined {st : SetterState} {y o : Int} (h : .fullYear ∉ st.set) : st.handleYear y o ≠ none := by
  unfold SetterState.handleYear
  rw [has_false.2 h, if_neg (by simp)]
  split
  · simp
  · split
    · simp
    · split <;> simp

theorem handleAmPm_defined {st : SetterState} {h : Int} (h12 : .hour12 ∈ st.set) (hh : h ≤ 12) : ∃ v, st.handleAmPm h = some v := by
  unfold SetterState.handleAmPm
  rw [has_iff.2 h12, if_neg (by simp; omega)]
  split <;> exact ⟨_, rfl⟩

theorem verify_defined_tmOn (gmtoff : Bool) (get : T → Tm) (upd : (Tm → Tm) → T → T) {r : Rd T} {set : TmSetter T}
    (hs1 : set.handleAmPm = (tmSetterOn gmtoff get upd).handleAmPm) (hs2 : set.handleYear = (tmSetterOn gmtoff get upd).handleYear)
    (h : .hour12 ∈ r.st.set → (get r.tm).hour ≤ 12) : r.verify set ≠ none := by
  refine verify_defined set (fun r1 hst htm _ h12 => ?_) fun r1 hst htm _ hf => ?_
  · rw [← hst] at h12
    obtain ⟨v, hv⟩ := handleAmPm_defined (h := (get r1.tm).hour) h12 (by rw [htm]; rw [hst] at h12; exact h h12)
    refine ⟨{ r1 with tm := upd (fun t => { t with hour := v }) r1.tm }, ?_, fun _ hf => ?_⟩
    · rw [hs1]; dsimp only [tmSetterOn]; rw [hv]; rfl
    · rw [hs2]; dsimp only [tmSetterOn]; simp only [ne_eq, Option.map_eq_none_iff]; exact handleYear_defined hf
  · rw [hs2]; dsimp only [tmSetterOn]; simp only [ne_eq, Option.map_eq_none_iff]; exact handleYear_defined (by rw [hst]; exact hf)

theorem verify_defined_dt {r : Rd DateTime} (h : .hour12 ∈ r.st.set → ∃ v, r.tm.hour = some v ∧ v ≤ 12)
    (hy : .shortYear ∈ r.st.set ∨ .century ∈ r.st.set → r.tm.year ≠ none) : r.verify dtSetter ≠ none := by
  refine verify_defined dtSetter (fun r1 hst htm _ h12 => ?_) fun r1 hst htm hsc hf => ?_
  · obtain ⟨w, hw, hw12⟩ := h h12
    rw [← hst] at h12
    obtain ⟨v, hv⟩ := handleAmPm_defined (h := w) h12 hw12
    refine ⟨{ r1 with tm := { r1.tm with hour := some v } }, ?_, fun hsc hf => ?_⟩
    · dsimp only [dtSetter]; rw [htm, hw]; dsimp only; rw [hv]; rfl
    · dsimp only [dtSetter]
      cases hyr : r1.tm.year with
      | none =>
        rw [htm] at hyr
        exact absurd hyr (hy (by rw [← hst]; exact hsc))
      | some y =>
        dsimp only
        simp only [ne_eq, Option.map_eq_none_iff]
        exact handleYear_defined hf
  · dsimp only [dtSetter]
    cases hyr : r1.tm.year with
    | none => rw [htm] at hyr; exact absurd hyr (hy hsc)
    | some y =>
      dsimp only
      simp only [ne_eq, Option.map_eq_none_iff]
      exact handleYear_defined (by rw [hst]; exact hf)

/-- From the parse to the scan. -/
theorem scan_defined {cfg : ChronoCfg} {set : TmSetter T} {fmt src : List Nat} {t : T} (hu : UnitsOk cfg.enc src)
    (h : ∀ p, p <:+ src → parseChrono cfg.enc (readHandler cfg set) ⟨p, p, t, {}, none⟩ fmt ≠ none) : chronoScan cfg set fmt t src ≠ .ub := by
  unfold chronoScan
  rcases skipSpace_all cfg.enc (cfg.lay src) false src hu with ⟨p, hp, hs, _⟩ | hp
  · rw [hp, Res.bind_ok]
    split
    · rename_i hn; exact absurd hn (h p hs)
    · split <;> simp
  · rw [hp]; simp

/-- The common part of the three destinations. -/
theorem accepted_defined {cfg : ChronoCfg} (hin : Inside cfg) {set : TmSetter T} (hk : KeepsPos set) {gmtoff : Bool} {k : TmKind} {pos fmt p : List Nat}
    (hacc : chronoParse cfg.enc gmtoff k pos = .ok (fmt, p)) (htz : k.supports gmtoff .tzname = true → ¬ [37, 90] <:+: fmt)
    (hsub : k.supports gmtoff .subsec = true → ¬ [37, 46] <:+: fmt) {src : List Nat} (hu : UnitsOk cfg.enc src) {t : T}
    (h24 : ∀ b : Bool, ∃ Q : Bool → List ChronoField → T → Prop, Closed0 cfg (clockless set (fun r _ => r) set.hour12) (OnRd Q) ∧ (∀ l fs t, Q l fs t → l = b) ∧ Q b [] t ∧
      ∀ r, OnRd Q r → r.verify set ≠ none)
    (h12 : ∀ b : Bool, ∃ Q : Bool → List ChronoField → T → Prop, Closed0 cfg (clockless set set.hour24 (fun r _ => r)) (OnRd Q) ∧ (∀ l fs t, Q l fs t → l = b) ∧ Q b [] t ∧
      ∀ r, OnRd Q r → r.verify set ≠ none) : chronoScan cfg set fmt t src ≠ .ub := by
  obtain ⟨l, ys, hcalls, hinn, hl, hsup, hnd, hver⟩ := accepted hacc
  have hplain : ∀ y ∈ ys, ¬ Fragile y ∧ y ≠ .localized := by
    intro y hy
    obtain ⟨a, b, _, d, e⟩ := (hinn y hy).calls
    refine ⟨?_, b⟩
    rintro (rfl | rfl | ⟨s, rfl⟩)
    · exact a rfl
    · exact htz ((hsup _ hy).2 .tzname (by decide)) (e rfl)
    · exact hsub ((hsup _ hy).2 .subsec (by simp [ChronoCall.checkedFields])) (d s rfl)
  refine scan_defined hu fun p hp => ?_
  rcases one_clock hnd hver (!l.isEmpty) with hc | hc
  · obtain ⟨Q, h1, h2, h3, h4⟩ := h24 (!l.isEmpty)
    have hcl := (inside_closed hin (keepsPos_clockless hk (fun _ _ => ⟨rfl, rfl⟩) hk.hour12) src).toClosed0.and h1
    refine parse_defined hcl (fun r hr => hu.suffix hr.1.1) hplain (fun y hy r hr => ?_) (fun r hr => h4 r hr.2) hl hcalls ?_
    · exact (call_clockless cfg set (hplain y hy).1 r).1 (by rw [h2 _ _ _ hr.2]; exact hc y hy)
    · exact ⟨⟨hp, hp⟩, by simpa [OnRd] using h3⟩
  · obtain ⟨Q, h1, h2, h3, h4⟩ := h12 (!l.isEmpty)
    have hcl := (inside_closed hin (keepsPos_clockless hk hk.hour24 (fun _ _ => ⟨rfl, rfl⟩)) src).toClosed0.and h1
    refine parse_defined hcl (fun r hr => hu.suffix hr.1.1) hplain (fun y hy r hr => ?_) (fun r hr => h4 r hr.2) hl hcalls ?_
    · exact (call_clockless cfg set (hplain y hy).1 r).2 (by rw [h2 _ _ _ hr.2]; exact hc y hy)
    · exact ⟨⟨hp, hp⟩, by simpa [OnRd] using h3⟩

/-- A `std::tm`. -/
theorem accepted_tm {cfg : ChronoCfg} (hin : Inside cfg) {gmtoff : Bool} {pos fmt p : List Nat}
    (hacc : chronoParse cfg.enc gmtoff .tm pos = .ok (fmt, p)) {src : List Nat} (hu : UnitsOk cfg.enc src) (t : Tm) : chronoScan cfg (tmSetter gmtoff) fmt t src ≠ .ub := by
  refine accepted_defined hin (keepsPos_tmOn gmtoff _ _) hacc (fun h => by cases h) (fun h => by cases h) hu (fun b => ?_) fun b => ?_
  · refine ⟨fun l fs t => l = b ∧ (.hour12 ∈ fs → t.hour ≤ 12), tmOn_closed0 cfg gmtoff id (fun f => f) (fun _ _ => rfl) ?_ ?_ (fun r v h => h) ?_,
      fun _ _ _ h => h.1, ⟨rfl, by simp⟩, fun r hr => verify_defined_tmOn gmtoff id (fun f => f) rfl rfl hr.2⟩
    · intro f l fs t _ h2 h; exact ⟨h.1, by simpa [Ne.symm h2] using h.2⟩
    · intro l fs t t' ht h; exact ⟨h.1, fun hm => by have := h.2 hm; simp only [id] at ht; omega⟩
    · intro r v h; exact onRd_field h fun _ hv => ⟨h.1, fun _ => hv⟩
  · refine ⟨fun l fs t => l = b ∧ .hour12 ∉ fs, tmOn_closed0 cfg gmtoff id (fun f => f) (fun _ _ => rfl) ?_ ?_ ?_ (fun r v h => h),
      fun _ _ _ h => h.1, ⟨rfl, by simp⟩, fun r hr => verify_defined_tmOn gmtoff id (fun f => f) rfl rfl fun h => absurd h hr.2⟩
    · intro f l fs t _ h2 h; exact ⟨h.1, by simpa [Ne.symm h2] using h.2⟩
    · intro l fs t t' ht h; exact h
    · intro r v h; exact onRd_field h fun _ hv => ⟨h.1, by simpa using h.2⟩

/-- A `tm_with_tz`. -/
theorem accepted_tmTz {cfg : ChronoCfg} (hin : Inside cfg) {gmtoff : Bool} {pos fmt p : List Nat}
    (hacc : chronoParse cfg.enc gmtoff .tmWithTz pos = .ok (fmt, p)) (htz : ¬ [37, 90] <:+: fmt) {src : List Nat} (hu : UnitsOk cfg.enc src) (t : TmWithTz) :
    chronoScan cfg (tmTzSetter gmtoff) fmt t src ≠ .ub := by
  refine accepted_defined hin (keepsPos_tmTz gmtoff) hacc (fun _ => htz) (fun h => by cases h) hu (fun b => ?_) fun b => ?_
  · refine ⟨fun l fs t => l = b ∧ (.hour12 ∈ fs → t.tm.hour ≤ 12), tmTz_closed0 cfg gmtoff ?_ ?_ (fun r v h => h) ?_,
      fun _ _ _ h => h.1, ⟨rfl, by simp⟩, fun r hr => verify_defined_tmOn gmtoff (fun t : TmWithTz => t.tm) (fun f t => { t with tm := f t.tm }) rfl rfl hr.2⟩
    · intro f l fs t _ h2 h; exact ⟨h.1, by simpa [Ne.symm h2] using h.2⟩
    · intro l fs t t' ht h; exact ⟨h.1, fun hm => by have := h.2 hm; omega⟩
    · intro r v h; exact onRd_field h fun _ hv => ⟨h.1, fun _ => hv⟩
  · refine ⟨fun l fs t => l = b ∧ .hour12 ∉ fs, tmTz_closed0 cfg gmtoff ?_ ?_ ?_ (fun r v h => h),
      fun _ _ _ h => h.1, ⟨rfl, by simp⟩, fun r hr => verify_defined_tmOn gmtoff (fun t : TmWithTz => t.tm) (fun f t => { t with tm := f t.tm }) rfl rfl fun h => absurd h hr.2⟩
    · intro f l fs t _ h2 h; exact ⟨h.1, by simpa [Ne.symm h2] using h.2⟩
    · intro l fs t t' ht h; exact h
    · intro r v h; exact onRd_field h fun _ hv => ⟨h.1, by simpa using h.2⟩

/-- A `datetime_components`. -/
theorem accepted_dt {cfg : ChronoCfg} (hin : Inside cfg) {gmtoff : Bool} {pos fmt p : List Nat}
    (hacc : chronoParse cfg.enc gmtoff .components pos = .ok (fmt, p)) (htz : ¬ [37, 90] <:+: fmt) (hsub : ¬ [37, 46] <:+: fmt)
    {src : List Nat} (hu : UnitsOk cfg.enc src) (t : DateTime) : chronoScan cfg dtSetter fmt t src ≠ .ub := by
  refine accepted_defined hin keepsPos_dt hacc (fun _ => htz) (fun _ => hsub) hu (fun b => ?_) fun b => ?_
  · refine ⟨fun l fs t => l = b ∧ (.hour12 ∈ fs → ∃ v, t.hour = some v ∧ v ≤ 12) ∧ (.shortYear ∈ fs ∨ .century ∈ fs → t.year ≠ none),
      dt_closed0 cfg ?_ ?_ ?_ (fun r v h => h) ?_, fun _ _ _ h => h.1, ⟨rfl, by simp, by simp⟩, fun r hr => verify_defined_dt hr.2.1 hr.2.2⟩
    · intro f l fs t _ h2 h3 h4 h; exact ⟨h.1, by simpa [Ne.symm h2] using h.2.1, by simpa [Ne.symm h3, Ne.symm h4] using h.2.2⟩
    · intro l fs t t' ht hy h; exact ⟨h.1, fun hm => by rw [ht]; exact h.2.1 hm, fun hm => hy (h.2.2 hm)⟩
    · intro f l fs t _ h2 hy h; exact ⟨h.1, by simpa [Ne.symm h2] using h.2.1, fun _ => hy⟩
    · intro r v h; exact onRd_field h fun _ hv => ⟨h.1, fun _ => ⟨v, rfl, hv⟩, by simpa using h.2.2⟩
  · refine ⟨fun l fs t => l = b ∧ .hour12 ∉ fs ∧ (.shortYear ∈ fs ∨ .century ∈ fs → t.year ≠ none), dt_closed0 cfg ?_ ?_ ?_ ?_ (fun r v h => h),
      fun _ _ _ h => h.1, ⟨rfl, by simp, by simp⟩, fun r hr => verify_defined_dt (fun h => absurd h hr.2.1) hr.2.2⟩
    · intro f l fs t _ h2 h3 h4 h; exact ⟨h.1, by simpa [Ne.symm h2] using h.2.1, by simpa [Ne.symm h3, Ne.symm h4] using h.2.2⟩
    · intro l fs t t' ht hy h; exact ⟨h.1, h.2.1, fun hm => hy (h.2.2 hm)⟩
    · intro f l fs t _ h2 hy h; exact ⟨h.1, by simpa [Ne.symm h2] using h.2.1, fun _ => hy⟩
    · intro r v h; exact onRd_field h fun _ hv => ⟨h.1, by simpa using h.2.1, by simpa using h.2.2⟩

end Scn
