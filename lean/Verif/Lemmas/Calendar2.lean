import Verif.Lemmas.Calendar
/-
Reading a `datetime_components` and reading a `std::tm`: the two readers in step.
-/
namespace Scn
open Spec

/-- The reader of a `std::tm` in the state that corresponds to that of the reader of a `datetime_components`. `tzoff` is
    not marked by the former. -/
def asTm (g : Bool) (r : Rd DateTime) : Rd Tm :=
  ⟨r.range, r.pos, r.tm.toTm g, { r.st with set := r.st.set.filter (fun f => f ≠ .tzoff) }, r.err⟩

/-- What holds while no short year, century, name of a time zone or localized conversion is read. -/
structure TmStep (r : Rd DateTime) : Prop where
  localized : r.st.localized = false
  short : .shortYear ∉ r.st.set
  century : .century ∉ r.st.set
  name : .tzname ∉ r.st.set
  hour : .hour12 ∈ r.st.set → r.tm.hour.isSome = true

theorem asTm_has (g : Bool) (r : Rd DateTime) {f : ChronoField} (hf : f ≠ .tzoff) : (asTm g r).st.has f = r.st.has f := by
  by_cases h : r.st.has f = true
  · rw [h, has_iff]; rw [has_iff] at h
    exact List.mem_filter.2 ⟨h, by simpa using hf⟩
  · rw [Bool.not_eq_true] at h; rw [h, has_false]; rw [has_false] at h
    exact fun hm => h (List.mem_filter.1 hm).1

theorem asTm_err (g : Bool) (r : Rd DateTime) (e : Err) : asTm g (r.setError e) = (asTm g r).setError e := by
  unfold Rd.setError
  have : (asTm g r).err = r.err := rfl
  rw [this]
  split <;> rfl

theorem tmStep_err {r : Rd DateTime} (h : TmStep r) (e : Err) : TmStep (r.setError e) := by
  have := setError_tm r e
  constructor
  · rw [this.2.1]; exact h.localized
  · rw [this.2.1]; exact h.short
  · rw [this.2.1]; exact h.century
  · rw [this.2.1]; exact h.name
  · rw [this.2.1, this.1]; exact h.hour

theorem asTm_mark (g : Bool) (r : Rd DateTime) {f : ChronoField} (hf : f ≠ .tzoff) : asTm g (r.mark f) = (asTm g r).mark f := by
  have hset : (f :: r.st.set).filter (fun f => f ≠ .tzoff) = f :: r.st.set.filter (fun f => f ≠ .tzoff) := by simp [hf]
  unfold Rd.mark SetterState.mark
  dsimp only
  rw [asTm_has g r hf]
  split
  · rw [asTm_err]
    congr 1
    show Rd.mk _ _ _ _ _ = Rd.mk _ _ _ _ _
    simp only [hset]
    rfl
  · show Rd.mk _ _ _ _ _ = Rd.mk _ _ _ _ _
    simp only [hset]
    rfl

theorem mark_st {T : Type} (r : Rd T) (f : ChronoField) : (r.mark f).st = { r.st with set := f :: r.st.set } := by
  unfold Rd.mark SetterState.mark
  dsimp only
  split
  · rw [(setError_tm _ _).2.1]
  · rfl

theorem tmStep_mark {r : Rd DateTime} (h : TmStep r) {f : ChronoField} (hf : f ≠ .shortYear ∧ f ≠ .century ∧ f ≠ .tzname) (hh : f = .hour12 → r.tm.hour.isSome = true) :
    TmStep (r.mark f) := by
  have h1 := mark_st r f
  have h2 := (mark_tm r f).1
  constructor
  · rw [h1]; exact h.localized
  · rw [h1]; simp [h.short, Ne.symm hf.1]
  · rw [h1]; simp [h.century, Ne.symm hf.2.1]
  · rw [h1]; simp [h.name, Ne.symm hf.2.2]
  · rw [h1, h2]
    intro hm
    rcases List.mem_cons.1 hm with hm | hm
    · exact hh hm.symm
    · exact h.hour hm

theorem asTm_field (g : Bool) (r : Rd DateTime) {f : ChronoField} (hf : f ≠ .tzoff) (lo hi v : Int) {u : DateTime → DateTime} {u' : Tm → Tm}
    (hu : ∀ t, (u t).toTm g = u' (t.toTm g)) : asTm g (r.setField f lo hi v u) = (asTm g r).setField f lo hi v u' := by
  unfold Rd.setField
  split
  · exact asTm_err _ _ _
  · rw [asTm_mark _ _ hf]
    congr 1
    show Rd.mk _ _ _ _ _ = Rd.mk _ _ _ _ _
    rw [hu]
    rfl

theorem tmStep_field {r : Rd DateTime} (h : TmStep r) {f : ChronoField} (hf : f ≠ .shortYear ∧ f ≠ .century ∧ f ≠ .tzname) (lo hi v : Int) {u : DateTime → DateTime}
    (hu : f = .hour12 → (u r.tm).hour.isSome = true) (hu' : r.tm.hour.isSome = true → (u r.tm).hour.isSome = true) : TmStep (r.setField f lo hi v u) := by
  unfold Rd.setField
  split
  · exact tmStep_err h _
  · exact tmStep_mark (r := { r with tm := u r.tm }) ⟨h.localized, h.short, h.century, h.name, fun hm => hu' (h.hour hm)⟩ hf hu

/-- A pair of setters in step, from states and for values as given. -/
def SetStep (g : Bool) (P : SetterState → Prop) (Q : Int → Prop) (s : Rd DateTime → Int → Rd DateTime) (s' : Rd Tm → Int → Rd Tm) : Prop :=
  ∀ r v, TmStep r → P r.st → Q v → s' (asTm g r) v = asTm g (s r v) ∧ TmStep (s r v)

theorem step_field (g : Bool) (f : ChronoField) (lo hi : Int) (u : Int → DateTime → DateTime) (u' : Int → Tm → Tm) (hf : f ≠ .tzoff ∧ f ≠ .shortYear ∧ f ≠ .century ∧ f ≠ .tzname)
    (hu : ∀ v t, (u v t).toTm g = u' v (t.toTm g)) (h12 : ∀ v t, f = .hour12 → (u v t).hour.isSome = true) (hh : ∀ v t, t.hour.isSome = true → (u v t).hour.isSome = true) :
    SetStep g (fun _ => True) (fun _ => True) (fun r v => r.setField f lo hi v (u v)) (fun r v => r.setField f lo hi v (u' v)) := fun r v h _ _ =>
  ⟨(asTm_field g r hf.1 lo hi v (hu v)).symm, tmStep_field h hf.2 lo hi v (h12 v r.tm) (hh v r.tm)⟩

theorem step_sec (g : Bool) : SetStep g (fun _ => True) (fun _ => True) dtSetter.sec (tmSetter g).sec :=
  step_field g .sec 0 60 (fun v t => { t with sec := some v }) (fun v t => { t with sec := v }) (by simp) (fun _ _ => rfl) (by simp) (by simp)

theorem step_min (g : Bool) : SetStep g (fun _ => True) (fun _ => True) dtSetter.min (tmSetter g).min :=
  step_field g .min 0 59 (fun v t => { t with min := some v }) (fun v t => { t with min := v }) (by simp) (fun _ _ => rfl) (by simp) (by simp)

theorem step_hour24 (g : Bool) : SetStep g (fun _ => True) (fun _ => True) dtSetter.hour24 (tmSetter g).hour24 :=
  step_field g .hour24 0 23 (fun v t => { t with hour := some v }) (fun v t => { t with hour := v }) (by simp) (fun _ _ => rfl) (by simp) (by simp)

theorem step_hour12 (g : Bool) : SetStep g (fun _ => True) (fun _ => True) dtSetter.hour12 (tmSetter g).hour12 :=
  step_field g .hour12 1 12 (fun v t => { t with hour := some v }) (fun v t => { t with hour := v }) (by simp) (fun _ _ => rfl) (by simp) (by simp)

theorem step_mday (g : Bool) : SetStep g (fun _ => True) (fun _ => True) dtSetter.mday (tmSetter g).mday :=
  step_field g .mday 1 31 (fun v t => { t with mday := some v }) (fun v t => { t with mday := v }) (by simp) (fun _ _ => rfl) (by simp) (by simp)

theorem step_mon (g : Bool) : SetStep g (fun _ => True) (fun _ => True) dtSetter.mon (tmSetter g).mon :=
  step_field g .mon 1 12 (fun v t => { t with mon := some v }) (fun v t => { t with mon := v - 1 }) (by simp) (fun _ _ => rfl) (by simp) (by simp)

theorem step_wday (g : Bool) : SetStep g (fun _ => True) (fun _ => True) dtSetter.wday (tmSetter g).wday :=
  step_field g .wday 0 6 (fun v t => { t with wday := some v }) (fun v t => { t with wday := v }) (by simp) (fun _ _ => rfl) (by simp) (by simp)

theorem step_fullYear (g : Bool) : SetStep g (fun _ => True) (fun v => -2 ^ 31 + 1900 ≤ v) dtSetter.fullYear (tmSetter g).fullYear := by
  intro r v h _ hv
  refine ⟨?_, tmStep_mark (r := { r with tm := { r.tm with year := some v } }) ⟨h.localized, h.short, h.century, h.name, h.hour⟩ (by simp) (by simp)⟩
  dsimp only [tmSetter, tmSetterOn, dtSetter]
  rw [if_neg (by omega), asTm_mark _ _ (by simp)]
  rfl

theorem step_tzOffset : SetStep true (fun st => .tzoff ∉ st.set) (fun _ => True) dtSetter.tzOffset (tmSetter true).tzOffset := by
  intro r v h hp _
  refine ⟨?_, tmStep_mark (r := { r with tm := { r.tm with tzOffset := some v } }) ⟨h.localized, h.short, h.century, h.name, h.hour⟩ (by simp) (by simp)⟩
  dsimp only [tmSetter, tmSetterOn, dtSetter]
  rw [if_pos rfl]
  unfold Rd.mark SetterState.mark
  dsimp only
  rw [show ({ r with tm := { r.tm with tzOffset := some v } } : Rd DateTime).st = r.st from rfl, has_false.2 hp, if_neg (by simp)]
  show Rd.mk _ _ _ _ _ = Rd.mk _ _ _ _ _
  simp [DateTime.toTm, asTm]

theorem tmStep_pos {r : Rd DateTime} (h : TmStep r) (p : List Nat) : TmStep { r with pos := p } := ⟨h.localized, h.short, h.century, h.name, h.hour⟩

theorem readUInt_step (g : Bool) (a b : Nat) {r : Rd DateTime} (h : TmStep r) :
    (asTm g r).readUInt a b = ((r.readUInt a b).1, asTm g (r.readUInt a b).2) ∧ TmStep (r.readUInt a b).2 ∧ (r.readUInt a b).2.st = r.st ∧ -1 ≤ (r.readUInt a b).1 := by
  unfold Rd.readUInt
  dsimp only
  rw [show (asTm g r).pos = r.pos from rfl]
  split
  · refine ⟨by rw [asTm_err]; rfl, tmStep_err (tmStep_pos h _) _, by rw [(setError_tm _ _).2.1], by simp⟩
  · exact ⟨rfl, ⟨h.localized, h.short, h.century, h.name, h.hour⟩, rfl, by dsimp only; omega⟩

theorem number_step {g : Bool} {P : SetterState → Prop} {Q : Int → Prop} {s : Rd DateTime → Int → Rd DateTime} {s' : Rd Tm → Int → Rd Tm} (hs : SetStep g P Q s s')
    (hQ : ∀ v, -1 ≤ v → Q v) (a b : Nat) {r : Rd DateTime} (h : TmStep r) (hP : P r.st) : (asTm g r).number a b s' = asTm g (r.number a b s) ∧ TmStep (r.number a b s) := by
  obtain ⟨h1, h2, h3, h4⟩ := readUInt_step g a b h
  unfold Rd.number
  rw [h1]
  exact hs _ _ h2 (by rw [h3]; exact hP) (hQ _ h4)

theorem numberOr_step {g : Bool} {Q : Int → Prop} {s : Rd DateTime → Int → Rd DateTime} {s' : Rd Tm → Int → Rd Tm} (hs : SetStep g (fun _ => True) Q s s')
    (cfg : ChronoCfg) (n : NumSys) (fmt : List Nat) (ft : Tm → Int) {conv : Int → Int} (hQ : ∀ v, -1 ≤ v → Q (conv v)) (a b : Nat) {r : Rd DateTime} (h : TmStep r) :
    (asTm g r).numberOr cfg n fmt ft conv a b s' = asTm g (r.numberOr cfg n fmt ft conv a b s) ∧ TmStep (r.numberOr cfg n fmt ft conv a b s) := by
  unfold Rd.numberOr
  have h1 : r.useLocale n = false := by unfold Rd.useLocale; rw [h.localized]; rfl
  have h2 : (asTm g r).useLocale n = false := by unfold Rd.useLocale; rw [show (asTm g r).st.localized = r.st.localized from rfl, h.localized]; rfl
  rw [h1, h2]
  exact number_step (g := g) (P := fun _ => True) (Q := fun v => Q (conv v)) (s := fun r v => s r (conv v)) (s' := fun r v => s' r (conv v)) (fun r v hr hp hq => hs r (conv v) hr hp hq) hQ a b h trivial

theorem name_step {g : Bool} {s : Rd DateTime → Int → Rd DateTime} {s' : Rd Tm → Int → Rd Tm} (hs : SetStep g (fun _ => True) (fun _ => True) s s')
    (long short : List (List Nat × Int)) {r : Rd DateTime} (h : TmStep r) :
    (asTm g r).name long short s' = (r.name long short s).map (asTm g) ∧ ∀ r', r.name long short s = some r' → TmStep r' := by
  have hp : ∀ p, TmStep { r with pos := p } := fun p => ⟨h.localized, h.short, h.century, h.name, h.hour⟩
  unfold Rd.name
  rw [show (asTm g r).pos = r.pos from rfl]
  cases tryOneOf long 0 r.pos with
  | none => exact ⟨rfl, fun _ h => by cases h⟩
  | some o =>
    cases o with
    | some vp =>
      obtain ⟨v, p⟩ := vp
      simp only [Option.bind_some, Option.map_some, Option.some.injEq]
      exact ⟨(hs { r with pos := p } v (hp p) trivial trivial).1, fun _ he => he ▸ (hs _ _ (hp p) trivial trivial).2⟩
    | none =>
      simp only [Option.bind_some]
      cases tryOneOf short 0 r.pos with
      | none => exact ⟨rfl, fun _ h => by cases h⟩
      | some o =>
        cases o with
        | some vp =>
          obtain ⟨v, p⟩ := vp
          simp only [Option.map_some, Option.some.injEq]
          exact ⟨(hs { r with pos := p } v (hp p) trivial trivial).1, fun _ he => he ▸ (hs _ _ (hp p) trivial trivial).2⟩
        | none =>
          simp only [Option.map_some, Option.some.injEq]
          exact ⟨(asTm_err _ _ _).symm, fun _ he => he ▸ tmStep_err h _⟩

theorem text_step (g : Bool) (t : List Nat) : ∀ {r : Rd DateTime}, TmStep r → (asTm g r).onText t = asTm g (r.onText t) ∧ TmStep (r.onText t) := by
  induction t with
  | nil => intro r h; exact ⟨rfl, h⟩
  | cons c t ih =>
    intro r h
    unfold Rd.onText
    rw [show (asTm g r).pos = r.pos from rfl]
    split
    · exact ⟨(asTm_err _ _ _).symm, tmStep_err h _⟩
    · rename_i d q
      split
      · exact ⟨(asTm_err _ _ _).symm, tmStep_err h _⟩
      · exact ih (r := { r with pos := _ }) ⟨h.localized, h.short, h.century, h.name, h.hour⟩

theorem amPm_step (g : Bool) {r : Rd DateTime} (h : TmStep r) : (asTm g r).onAmPm = (r.onAmPm).map (asTm g) ∧ ∀ r', r.onAmPm = some r' → TmStep r' := by
  unfold Rd.onAmPm
  rw [show (asTm g r).pos = r.pos from rfl]
  cases tryOneOf amPmNames 0 r.pos with
  | none => exact ⟨rfl, fun _ h => by cases h⟩
  | some o =>
    cases o with
    | some vp =>
      obtain ⟨v, p⟩ := vp
      simp only [Option.map_some, Option.some.injEq]
      refine ⟨(asTm_mark g { r with pos := p, st := { r.st with isPm := v } } (by simp)).symm, fun _ he => he ▸ ?_⟩
      exact tmStep_mark (r := { r with pos := p, st := { r.st with isPm := v } }) ⟨h.localized, h.short, h.century, h.name, h.hour⟩ (by simp) (by simp)
    | none =>
      simp only [Option.map_some, Option.some.injEq]
      exact ⟨(asTm_err _ _ _).symm, fun _ he => he ▸ tmStep_err h _⟩

theorem tz_step (n : NumSys) {r : Rd DateTime} (h : TmStep r) (hP : .tzoff ∉ r.st.set) :
    (asTm true r).onTzOffset (tmSetter true).tzOffset n = asTm true (r.onTzOffset dtSetter.tzOffset n) ∧ TmStep (r.onTzOffset dtSetter.tzOffset n) := by
  have hours : ∀ (minus : Bool) (r : Rd DateTime), TmStep r → .tzoff ∉ r.st.set → (asTm true r).tzHours (tmSetter true).tzOffset n minus = asTm true (r.tzHours dtSetter.tzOffset n minus) ∧
      TmStep (r.tzHours dtSetter.tzOffset n minus) := by
    intro minus r h hP
    have mins : ∀ (c : Bool) (r : Rd DateTime), TmStep r → (asTm true r).tzMinutes c = ((r.tzMinutes c).1, asTm true (r.tzMinutes c).2) ∧ TmStep (r.tzMinutes c).2 ∧ (r.tzMinutes c).2.st = r.st := by
      intro c r h
      unfold Rd.tzMinutes
      rw [show (asTm true r).pos = r.pos from rfl]
      split
      · exact ⟨rfl, h, rfl⟩
      · rename_i c' q _
        split
        · split
          · have := readUInt_step true 2 2 (tmStep_pos h q)
            exact ⟨this.1, this.2.1, this.2.2.1⟩
          · exact ⟨rfl, h, rfl⟩
        · split
          · exact ⟨rfl, h, rfl⟩
          · split
            · have := readUInt_step true 2 2 h
              exact ⟨this.1, this.2.1, this.2.2.1⟩
            · exact ⟨rfl, h, rfl⟩
    unfold Rd.tzHours
    rw [show (asTm true r).pos = r.pos from rfl]
    split
    · exact ⟨(asTm_err _ _ _).symm, tmStep_err h _⟩
    · dsimp only
      obtain ⟨h1, h2, h3, _⟩ := readUInt_step true (if n = .standard then 2 else 1) 2 h
      rw [h1]
      dsimp only
      obtain ⟨m1, m2, m3⟩ := mins (decide (n ≠ .standard)) _ h2
      rw [m1]
      exact step_tzOffset _ _ m2 (by rw [m3, h3]; exact hP) trivial
  unfold Rd.onTzOffset
  rw [show (asTm true r).pos = r.pos from rfl]
  split
  · exact ⟨(asTm_err _ _ _).symm, tmStep_err h _⟩
  · rename_i c q _
    split
    · exact hours false { r with pos := q } ⟨h.localized, h.short, h.century, h.name, h.hour⟩ hP
    · split
      · exact hours true { r with pos := q } ⟨h.localized, h.short, h.century, h.name, h.hour⟩ hP
      · exact hours false r h hP

theorem verify_step (g : Bool) {r : Rd DateTime} (h : TmStep r) : (asTm g r).verify (tmSetter g) = (r.verify dtSetter).map (asTm g) := by
  have hst : (asTm g r).st.verify = r.st.verify := by
    have hn : r.st.has .tzname = false := has_false.2 h.name
    unfold SetterState.verify
    rw [asTm_has g r (f := .hour24) (by simp), asTm_has g r (f := .hour12) (by simp), asTm_has g r (f := .amPm) (by simp), asTm_has g r (f := .fullYear) (by simp),
      asTm_has g r (f := .century) (by simp), asTm_has g r (f := .shortYear) (by simp), asTm_has g r (f := .tzname) (by simp), asTm_has g r (f := .wday) (by simp),
      asTm_has g r (f := .mday) (by simp), asTm_has g r (f := .yday) (by simp), hn]
    simp only [Bool.and_false]
  unfold Rd.verify
  dsimp only
  rw [hst]
  obtain ⟨r1, hr1, h1⟩ : ∃ r1, (if r.st.verify = true then r else r.setError .invalidFormatString) = r1 ∧ TmStep r1 := by
    refine ⟨_, rfl, ?_⟩; split; (· exact h); exact tmStep_err h _
  have hr1' : (if r.st.verify = true then asTm g r else (asTm g r).setError .invalidFormatString) = asTm g r1 := by
    rw [← hr1]; split; (· rfl); exact (asTm_err _ _ _).symm
  rw [hr1, hr1']
  have hy : ∀ r2 : Rd DateTime, r2.st = r1.st → (!r2.st.has .fullYear && (r2.st.has .shortYear || r2.st.has .century)) = false := by
    intro r2 e; rw [e, has_false.2 h1.short, has_false.2 h1.century]; simp
  have hy' : ∀ r2 : Rd Tm, r2.st = (asTm g r1).st → (!r2.st.has .fullYear && (r2.st.has .shortYear || r2.st.has .century)) = false := by
    intro r2 e; rw [e, asTm_has g r1 (by simp), asTm_has g r1 (by simp), asTm_has g r1 (by simp)]; exact hy r1 rfl
  rw [asTm_has g r1 (by simp), asTm_has g r1 (by simp)]
  by_cases hc : (r1.st.has .amPm && r1.st.has .hour12) = true
  · rw [if_pos hc, if_pos hc]
    have h12 : .hour12 ∈ r1.st.set := has_iff.1 (by rw [Bool.and_eq_true] at hc; exact hc.2)
    obtain ⟨x, hx⟩ := Option.isSome_iff_exists.1 (h1.hour h12)
    dsimp only [tmSetter, tmSetterOn, dtSetter]
    have he : (id (asTm g r1).tm).hour = x := by simp [asTm, DateTime.toTm, hx]
    have hh : ∀ y, (asTm g r1).st.handleAmPm y = r1.st.handleAmPm y := by
      intro y; unfold SetterState.handleAmPm; rw [asTm_has g r1 (by simp)]; rfl
    rw [hx, he, hh]
    dsimp only
    cases r1.st.handleAmPm x with
    | none => rfl
    | some y =>
      simp only [Option.map_some, Option.bind_some]
      rw [hy _ rfl, hy' _ rfl]
      rfl
  · rw [if_neg hc, if_neg hc]
    simp only [Option.bind_some]
    rw [hy _ rfl, hy' _ rfl]
    rfl

/-- The conversions for which the readers are in step. -/
def stepCall : ChronoCall → Bool
  | .localized | .shortYear _ | .century _ | .dayOfYear | .subsecond _ | .tzOffset _ | .tzName | .verify | .usDate => false
  | _ => true

theorem simple_step (cfg : ChronoCfg) (g : Bool) {x : ChronoCall} (hx : stepCall x = true) {r : Rd DateTime} (h : TmStep r) :
    (asTm g r).simple cfg (tmSetter g) x = (r.simple cfg dtSetter x).map (asTm g) ∧ ∀ r', r.simple cfg dtSetter x = some r' → TmStep r' := by
  have one : ∀ {a : Rd DateTime} {b : Rd Tm}, b = asTm g a ∧ TmStep a → some b = (some a).map (asTm g) ∧ ∀ r', some a = some r' → TmStep r' :=
    fun h => ⟨by rw [h.1]; rfl, fun _ he => Option.some.inj he ▸ h.2⟩
  have hT : ∀ v : Int, -1 ≤ v → True := fun _ _ => trivial
  have herr := one (a := r.setError .invalidFormatString) (b := (asTm g r).setError .invalidFormatString) ⟨(asTm_err _ _ _).symm, tmStep_err h _⟩
  cases x <;> first | exact herr | (cases hx; done) | skip
  case text t => exact one (text_step g t h)
  case whitespace =>
    unfold Rd.simple
    dsimp only
    unfold Rd.onWhitespace
    rw [show (asTm g r).pos = r.pos from rfl]
    split
    · exact one ⟨rfl, ⟨h.localized, h.short, h.century, h.name, h.hour⟩⟩
    · exact one ⟨(asTm_err _ _ _).symm, tmStep_err h _⟩
    · exact ⟨rfl, fun _ he => by cases he⟩
  case fullYear s => exact one (numberOr_step (step_fullYear g) cfg _ _ _ (fun v hv => by simp; omega) _ _ h)
  case monthName =>
    unfold Rd.simple
    dsimp only
    rw [show (asTm g r).st.localized = r.st.localized from rfl, h.localized, if_neg (by simp), if_neg (by simp)]
    exact name_step (step_mon g) _ _ h
  case decMonth s => exact one (numberOr_step (step_mon g) cfg _ _ _ hT _ _ h)
  case dayOfMonth s => exact one (numberOr_step (step_mday g) cfg _ _ _ hT _ _ h)
  case weekdayName =>
    unfold Rd.simple
    dsimp only
    rw [show (asTm g r).st.localized = r.st.localized from rfl, h.localized, if_neg (by simp), if_neg (by simp)]
    exact name_step (step_wday g) _ _ h
  case dec0Weekday s => exact one (numberOr_step (step_wday g) cfg _ _ _ hT _ _ h)
  case dec1Weekday s => exact one (numberOr_step (step_wday g) cfg _ _ _ (fun _ _ => trivial) _ _ h)
  case hour24 s => exact one (numberOr_step (step_hour24 g) cfg _ _ _ hT _ _ h)
  case hour12 s => exact one (numberOr_step (step_hour12 g) cfg _ _ _ hT _ _ h)
  case minute s => exact one (numberOr_step (step_min g) cfg _ _ _ hT _ _ h)
  case second s => exact one (numberOr_step (step_sec g) cfg _ _ _ hT _ _ h)
  case amPm => exact amPm_step g h

theorem simples_step (cfg : ChronoCfg) (g : Bool) (cs : List ChronoCall) : (∀ x ∈ cs, stepCall x = true) → ∀ {r : Rd DateTime}, TmStep r →
    Rd.simples cfg (tmSetter g) cs (asTm g r) = (Rd.simples cfg dtSetter cs r).map (asTm g) ∧ ∀ r', Rd.simples cfg dtSetter cs r = some r' → TmStep r' := by
  induction cs with
  | nil => intro _ r h; exact ⟨rfl, fun _ he => Option.some.inj he ▸ h⟩
  | cons c cs ih =>
    intro hc r h
    obtain ⟨h1, h2⟩ := simple_step cfg g (hc c (by simp)) h
    unfold Rd.simples
    rw [h1]
    cases hr : r.simple cfg dtSetter c with
    | none => exact ⟨rfl, fun _ he => by cases he⟩
    | some a =>
      simp only [Option.map_some, Option.bind_some]
      exact ih (fun x hx => hc x (by simp [hx])) (h2 a hr)

theorem call_step (cfg : ChronoCfg) (g : Bool) {x : ChronoCall} (hx : stepCall x = true) {r : Rd DateTime} (h : TmStep r) :
    (asTm g r).call cfg (tmSetter g) x = (r.call cfg dtSetter x).map (asTm g) ∧ ∀ r', r.call cfg dtSetter x = some r' → TmStep r' := by
  have hex : ∀ y ∈ x.expand, stepCall y = true := by
    cases x <;> first | (cases hx; done) | simp [ChronoCall.expand, stepCall]
  unfold Rd.call
  split
  · exact simple_step cfg g hx h
  · rename_i cs hne
    rw [show (asTm g r).st.localized = r.st.localized from rfl, h.localized]
    exact simples_step cfg g _ hex h

/-- A conversion for which the readers are in step, if an offset from UTC can be read. -/
theorem stepCall_of_fields {x : ChronoCall} (h1 : ∀ y ∈ expansion x, oneField y)
    (hno : ∀ f ∈ fieldsOf (expansion x), f ≠ .shortYear ∧ f ≠ .century ∧ f ≠ .yday ∧ f ≠ .tzname) : stepCall x = true ∨ ∃ s, x = .tzOffset s := by
  cases x <;> first | exact Or.inl rfl | exact Or.inr ⟨_, rfl⟩ | skip
  case localized => exact absurd rfl (h1 _ (by simp [expansion])).2.1
  case shortYear s => exact absurd rfl (hno .shortYear (by simp [fieldsOf, expansion, fieldOf])).1
  case century s => exact absurd rfl (hno .century (by simp [fieldsOf, expansion, fieldOf])).2.1
  case dayOfYear => exact absurd rfl (hno .yday (by simp [fieldsOf, expansion, fieldOf])).2.2.1
  case subsecond s => exact absurd rfl ((h1 _ (by simp [expansion])).2.2 s)
  case tzName => exact absurd rfl (hno .tzname (by simp [fieldsOf, expansion, fieldOf])).2.2.2
  case verify => exact absurd rfl (h1 _ (by simp [expansion])).1
  case usDate => exact absurd rfl (hno .shortYear (by simp [fieldsOf, expansion, fieldOf])).1

theorem call_step_any (cfg : ChronoCfg) (g : Bool) {x : ChronoCall} (h1 : ∀ y ∈ expansion x, oneField y)
    (hno : ∀ f ∈ fieldsOf (expansion x), f ≠ .shortYear ∧ f ≠ .century ∧ f ≠ .yday ∧ f ≠ .tzname) {r : Rd DateTime} (h : TmStep r)
    (htz : .tzoff ∈ fieldsOf (expansion x) → g = true ∧ .tzoff ∉ r.st.set) :
    (asTm g r).call cfg (tmSetter g) x = (r.call cfg dtSetter x).map (asTm g) ∧ ∀ r', r.call cfg dtSetter x = some r' → TmStep r' := by
  rcases stepCall_of_fields h1 hno with hx | ⟨s, rfl⟩
  · exact call_step cfg g hx h
  · obtain ⟨rfl, hset⟩ := htz (by simp [fieldsOf, expansion, fieldOf])
    have := tz_step s h hset
    exact ⟨congrArg some this.1, fun _ he => Option.some.inj he ▸ this.2⟩

theorem calls_step (cfg : ChronoCfg) (g : Bool) (xs : List ChronoCall) : (∀ x ∈ xs, ∀ y ∈ expansion x, oneField y) →
    (∀ f ∈ fieldsOf (xs.flatMap expansion), f ≠ .shortYear ∧ f ≠ .century ∧ f ≠ .yday ∧ f ≠ .tzname) → (fieldsOf (xs.flatMap expansion)).Nodup →
    (.tzoff ∈ fieldsOf (xs.flatMap expansion) → g = true) → ∀ {r : Rd DateTime}, TmStep r → r.err = none → (.tzoff ∈ r.st.set → .tzoff ∉ fieldsOf (xs.flatMap expansion)) →
      (∀ r', Calls (readHandler cfg dtSetter) r xs r' → Calls (readHandler cfg (tmSetter g)) (asTm g r) xs (asTm g r') ∧ TmStep r') ∧
      ∀ q, Calls (readHandler cfg (tmSetter g)) (asTm g r) xs q → ∃ r', Calls (readHandler cfg dtSetter) r xs r' ∧ q = asTm g r' := by
  induction xs with
  | nil =>
    intro _ _ _ _ r h _ _
    exact ⟨fun r' hc => by cases hc; exact ⟨.nil _, h⟩, fun q hc => by cases hc; exact ⟨r, .nil _, rfl⟩⟩
  | cons x xs ih =>
    intro h1 hno hnd hg r h he htz
    have hsplit : fieldsOf ((x :: xs).flatMap expansion) = fieldsOf (expansion x) ++ fieldsOf (xs.flatMap expansion) := by
      rw [List.flatMap_cons]; unfold fieldsOf; rw [List.filterMap_append]
    rw [hsplit] at hno hnd hg htz
    have hcall := call_step_any cfg g (h1 x (by simp)) (fun f hf => hno f (by simp [hf])) h fun hm =>
      ⟨hg (by simp [hm]), fun hs => htz hs (by simp [hm])⟩
    have next : ∀ a, r.call cfg dtSetter x = some a → a.err = none →
        (∀ r', Calls (readHandler cfg dtSetter) a xs r' → Calls (readHandler cfg (tmSetter g)) (asTm g a) xs (asTm g r') ∧ TmStep r') ∧
        ∀ q, Calls (readHandler cfg (tmSetter g)) (asTm g a) xs q → ∃ r', Calls (readHandler cfg dtSetter) a xs r' ∧ q = asTm g r' := by
      intro a ha hae
      refine ih (fun y hy => h1 y (by simp [hy])) (fun f hf => hno f (by simp [hf])) (List.nodup_append.1 hnd).2.1 (fun hm => hg (by simp [hm])) (hcall.2 a ha) hae ?_
      have hm := calls_marked cfg dtSetter marks_dt (dt_sticky cfg) [x] (fun y hy => by simp at hy; subst hy; exact h1 y (by simp)) h.localized he
        (.cons r x a [] a ha (by show a.err.isNone = true; rw [hae]; rfl) (.nil _))
      rw [List.flatMap_cons, List.flatMap_nil, List.append_nil] at hm
      intro hs hm2
      rw [hm.2.2.1] at hs
      rcases List.mem_append.1 hs with hs | hs
      · rw [List.mem_reverse, List.mem_filter] at hs
        exact (List.nodup_append.1 hnd).2.2 _ hs.1 _ hm2 rfl
      · exact htz hs (by simp [hm2])
    constructor
    · intro r' hc
      cases hc with
      | cons _ _ a _ _ ha hok hs =>
        have ha : r.call cfg dtSetter x = some a := ha
        have hae : a.err = none := by have : a.err.isNone = true := hok; simpa using this
        obtain ⟨h3, h4⟩ := (next a ha hae).1 r' hs
        refine ⟨.cons _ _ (asTm g a) _ _ ?_ hok h3, h4⟩
        show (asTm g r).call cfg (tmSetter g) x = some (asTm g a)
        rw [hcall.1, ha]; rfl
    · intro q hc
      cases hc with
      | cons _ _ b _ _ hb hok hs =>
        have hb : (asTm g r).call cfg (tmSetter g) x = some b := hb
        rw [hcall.1] at hb
        obtain ⟨a, ha, rfl⟩ := Option.map_eq_some_iff.1 hb
        have hae : a.err = none := by have : a.err.isNone = true := hok; simpa using this
        obtain ⟨r', h3, h4⟩ := (next a ha hae).2 q hs
        exact ⟨r', .cons _ _ a _ _ ha hok h3, h4⟩

/-- A scan with a format succeeds if and only if its calls do. -/
theorem scan_iff_calls {T : Type} (cfg : ChronoCfg) (set : TmSetter T) (hst : Closed cfg set (fun r => r.err ≠ none)) (is : List FmtItem) (hok : FormatOk cfg.enc is)
    (t0 : T) (src : List Nat) (t : T) (rest : List Nat) :
    chronoScan cfg set (formatText is) t0 src = .ok (t, rest) ↔
      ∃ p a b, skipSpace cfg.enc (cfg.lay src) false src = .ok p ∧ Calls (readHandler cfg set) ⟨p, p, t0, {}, none⟩ (is.map FmtItem.call) a ∧ a.verify set = some b ∧
        b.err = none ∧ t = b.tm ∧ rest = b.pos := by
  constructor
  · intro h
    obtain ⟨r, ⟨p, p', hp, hparse, herr⟩, rfl, rfl⟩ := finished_of_ok h
    obtain ⟨xs, hx, hcalls⟩ := parse_success cfg.enc (readHandler cfg set) (sticky_reader hst) hparse (by show r.err.isNone = true; rw [herr]; rfl)
    have hx' : formatCalls cfg.enc (formatText is ++ []) = some (xs, p') := by rw [List.append_nil]; exact hx
    have hcalls := calls_dropEmpty (h := readHandler cfg set) (fun _ => rfl) hcalls
    rw [(formatCalls_items hok [] (Or.inl rfl) hx').1] at hcalls
    obtain ⟨a, ha, hv⟩ := hcalls.split
    cases hv with
    | cons _ _ b _ _ hver _ hnil =>
      cases hnil
      exact ⟨p, a, r, hp, ha, hver, herr, rfl, rfl⟩
  · rintro ⟨p, a, b, hp, ha, hv, hb, rfl, rfl⟩
    have := parseChrono_items cfg.enc (readHandler cfg set) (fun _ => rfl) is hok [] (Or.inl rfl) _ a b ha hv
    rw [List.append_nil] at this
    unfold chronoScan
    rw [hp, Res.bind_ok, this]
    dsimp only
    rw [hb]

/-- The two scans. -/
theorem scan_step (cfg : ChronoCfg) (g : Bool) (is : List FmtItem) (hok : FormatOk cfg.enc is) (hnd : (fieldsOf (callsOf is)).Nodup)
    (hno : ∀ f ∈ fieldsOf (callsOf is), f ≠ .shortYear ∧ f ≠ .century ∧ f ≠ .yday ∧ f ≠ .tzname) (hg : .tzoff ∈ fieldsOf (callsOf is) → g = true)
    (t0 : DateTime) (src : List Nat) (t : Tm) (rest : List Nat) :
    chronoScan cfg (tmSetter g) (formatText is) (t0.toTm g) src = .ok (t, rest) ↔
      ∃ d, chronoScan cfg dtSetter (formatText is) t0 src = .ok (d, rest) ∧ t = d.toTm g := by
  have hcl : callsOf is = (is.map FmtItem.call).flatMap expansion := by unfold callsOf; rw [List.flatMap_map]
  have h1 : ∀ x ∈ is.map FmtItem.call, ∀ y ∈ expansion x, oneField y := by
    intro x hx
    obtain ⟨i, hi, rfl⟩ := List.mem_map.1 hx
    exact item_oneField (hok.2.1 i hi)
  rw [hcl] at hnd hno hg
  have start : ∀ p, asTm g ⟨p, p, t0, {}, none⟩ = ⟨p, p, t0.toTm g, {}, none⟩ := fun _ => rfl
  have hcalls := fun p => calls_step cfg g (is.map FmtItem.call) h1 hno hnd hg (r := ⟨p, p, t0, {}, none⟩) ⟨rfl, by simp, by simp, by simp, by simp⟩ rfl (by simp)
  rw [scan_iff_calls cfg _ (tm_sticky cfg g) is hok]
  constructor
  · rintro ⟨p, a, b, hp, ha, hv, hb, rfl, rfl⟩
    rw [← start] at ha
    obtain ⟨a', ha', rfl⟩ := (hcalls p).2 a ha
    have hts := ((hcalls p).1 a' ha').2
    rw [verify_step g hts] at hv
    obtain ⟨b', hb', rfl⟩ := Option.map_eq_some_iff.1 hv
    exact ⟨b'.tm, (scan_iff_calls cfg _ (dt_sticky cfg) is hok ..).2 ⟨p, a', b', hp, ha', hb', hb, rfl, rfl⟩, rfl⟩
  · rintro ⟨d, hd, rfl⟩
    obtain ⟨p, a, b, hp, ha, hv, hb, rfl, rfl⟩ := (scan_iff_calls cfg _ (dt_sticky cfg) is hok ..).1 hd
    obtain ⟨ha', hts⟩ := (hcalls p).1 a ha
    exact ⟨p, asTm g a, asTm g b, hp, ha', by rw [verify_step g hts, hv]; rfl, hb, rfl, rfl⟩

end Scn
