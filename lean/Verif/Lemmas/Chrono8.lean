import Verif.Lemmas.Chrono7
/-
Invariants of the date and time reader.
-/
namespace Scn
open Spec
variable {T : Type}

/-- A property of the reader that everything it does preserves, except for the switch to the locale. -/
structure Closed0 (cfg : ChronoCfg) (set : TmSetter T) (P : Rd T → Prop) : Prop where
  err : ∀ r e, P r → P (r.setError e)
  pos : ∀ r p, P r → p <:+ r.pos → P { r with pos := p }
  facet : ∀ r fmt t p, P r → cfg.facet fmt r.range = some (t, p) → P { r with pos := p }
  amPm : ∀ r b, P r → P ({ r with st := { r.st with isPm := b } }.mark .amPm)
  tzName : ∀ r x n p, P r → cfg.scanSet x r.pos = .ok (n, p) → P { set.tzName r n with pos := p }
  scanned : ∀ r x n p, P r → cfg.scanSet x r.pos = .ok (n, p) → P { r with pos := p }
  subsec : ∀ r v, P r → P (set.subsec r v)
  sec : ∀ r v, P r → P (set.sec r v)
  min : ∀ r v, P r → P (set.min r v)
  hour24 : ∀ r v, P r → P (set.hour24 r v)
  hour12 : ∀ r v, P r → P (set.hour12 r v)
  mday : ∀ r v, P r → P (set.mday r v)
  mon : ∀ r v, P r → P (set.mon r v)
  fullYear : ∀ r v, P r → P (set.fullYear r v)
  century : ∀ r v, P r → P (set.century r v)
  shortYear : ∀ r v, P r → P (set.shortYear r v)
  wday : ∀ r v, P r → P (set.wday r v)
  yday : ∀ r v, P r → P (set.yday r v)
  tzOffset : ∀ r v, P r → P (set.tzOffset r v)
  handleAmPm : ∀ r r', P r → r.st.has .amPm = true → r.st.has .hour12 = true → set.handleAmPm r = some r' → P r'
  handleYear : ∀ r r', P r → r.st.has .fullYear = false → set.handleYear r = some r' → P r'

/-- A property of the reader that everything it does preserves. -/
structure Closed (cfg : ChronoCfg) (set : TmSetter T) (P : Rd T → Prop) : Prop extends Closed0 cfg set P where
  localized : ∀ r, P r → P { r with st := { r.st with localized := true } }

theorem readTmDigits_suffix (k : Nat) : ∀ n acc s, (readTmDigits k n acc s).2.2 <:+ s := by
  induction k with
  | zero => intro n acc s; exact List.suffix_refl _
  | succ k ih =>
    intro n acc s
    cases s with
    | nil => exact List.suffix_refl _
    | cons c s =>
      rw [readTmDigits]
      split
      · exact List.suffix_refl _
      · exact (ih _ _ _).trans (List.suffix_cons _ _)

theorem tryOneOf_suffix {α : Type} (s : List Nat) : ∀ (os : List (List Nat × α)) (k : Nat) v p, tryOneOf os k s = some (some (v, p)) → p <:+ s := by
  induction s with
  | nil =>
    intro os k v p h
    cases os with
    | nil => cases h
    | cons o os =>
      rw [tryOneOf] at h
      split at h
      · split at h
        · cases h; exact List.suffix_refl _
        · cases h
      · cases h
  | cons c s ih =>
    intro os k v p h
    cases os with
    | nil => cases h
    | cons o os =>
      rw [tryOneOf] at h
      split at h
      · split at h
        · cases h; exact List.suffix_refl _
        · cases h
      · split at h
        · cases h
        · exact (ih _ _ _ _ h).trans (List.suffix_cons _ _)

theorem closed_readUInt {P : Rd T → Prop} (he : ∀ r e, P r → P (r.setError e)) (hp : ∀ r p, P r → p <:+ r.pos → P { r with pos := p }) {r : Rd T} (h : P r)
    (lo hi : Nat) : P (r.readUInt lo hi).2 := by
  have := readTmDigits_suffix hi 0 0 r.pos
  unfold Rd.readUInt
  dsimp only
  split
  · exact he _ _ (hp _ _ h this)
  · exact hp _ _ h this

section
variable {cfg : ChronoCfg} {set : TmSetter T} {P : Rd T → Prop}

theorem closed_number (hc : Closed0 cfg set P) {r : Rd T} (h : P r) (lo hi : Nat) (f : Rd T → Int → Rd T) (hf : ∀ r v, P r → P (f r v)) : P (r.number lo hi f) :=
  hf _ _ (closed_readUInt hc.err hc.pos h lo hi)

theorem closed_localized (hc : Closed0 cfg set P) {r : Rd T} (h : P r) (fmt : List Nat) (f : Rd T → Tm → Rd T) (hf : ∀ r t, P r → P (f r t)) : P (r.localizedField cfg fmt f) := by
  unfold Rd.localizedField Rd.readLocalized
  split
  · rename_i heq
    split at heq
    · cases heq; exact hc.err _ _ h
    · cases heq
  · rename_i heq
    split at heq
    · cases heq
    · rename_i t p hfacet
      cases heq
      exact hf _ _ (hc.facet _ _ _ _ h hfacet)

theorem closed_numberOr (hc : Closed0 cfg set P) {r : Rd T} (h : P r) (s : NumSys) (fmt : List Nat) (ft : Tm → Int) (g : Int → Int) (lo hi : Nat) (f : Rd T → Int → Rd T)
    (hf : ∀ r v, P r → P (f r v)) : P (r.numberOr cfg s fmt ft g lo hi f) := by
  unfold Rd.numberOr
  split
  · exact closed_localized hc h _ _ fun r t hr => hf _ _ hr
  · exact closed_number hc h _ _ _ fun r v hr => hf _ _ hr

theorem closed_name (hc : Closed0 cfg set P) {α : Type} {r r' : Rd T} (h : P r) (long short : List (List Nat × α)) (f : Rd T → α → Rd T) (hf : ∀ r v, P r → P (f r v))
    (hr : r.name long short f = some r') : P r' := by
  unfold Rd.name at hr
  obtain ⟨a, ha, hr⟩ := bind_some_iff.1 hr
  cases a with
  | some vp =>
    cases hr
    exact hf _ _ (hc.pos _ _ h (tryOneOf_suffix _ _ _ _ _ ha))
  | none =>
    obtain ⟨b, hb, hr⟩ := Option.map_eq_some_iff.1 hr
    cases b with
    | some vp => subst hr; exact hf _ _ (hc.pos _ _ h (tryOneOf_suffix _ _ _ _ _ hb))
    | none => subst hr; exact hc.err _ _ h

theorem closed_text (hc : Closed0 cfg set P) (t : List Nat) : ∀ {r : Rd T}, P r → P (r.onText t) := by
  induction t with
  | nil => intro r h; exact h
  | cons c t ih =>
    intro r h
    rw [Rd.onText]
    split
    · exact hc.err _ _ h
    · rename_i d q hp
      split
      · exact hc.err _ _ h
      · exact ih (hc.pos _ _ h (by rw [hp]; exact List.suffix_cons _ _))

theorem closed_tzHours (hc : Closed0 cfg set P) {r : Rd T} (h : P r) (f : Rd T → Int → Rd T) (hf : ∀ r v, P r → P (f r v)) (sys : NumSys) (minus : Bool) :
    P (r.tzHours f sys minus) := by
  have hm : ∀ (b : Bool) (r : Rd T), P r → P (r.tzMinutes b).2 := by
    intro b r h
    unfold Rd.tzMinutes
    split
    · exact h
    · rename_i c q hp
      split
      · split
        · exact closed_readUInt hc.err hc.pos (hc.pos _ _ h (by rw [hp]; exact List.suffix_cons _ _)) 2 2
        · exact h
      · split
        · exact h
        · split
          · exact closed_readUInt hc.err hc.pos h 2 2
          · exact h
  unfold Rd.tzHours
  split
  · exact hc.err _ _ h
  · exact hf _ _ (hm _ _ (closed_readUInt hc.err hc.pos h _ _))

theorem closed_verify (hc : Closed0 cfg set P) {r r' : Rd T} (h : P r) (hr : r.verify set = some r') : P r' := by
  unfold Rd.verify at hr
  dsimp only at hr
  obtain ⟨a, ha, hr⟩ := bind_some_iff.1 hr
  have h1 : P (if r.st.verify = true then r else r.setError .invalidFormatString) := by
    split
    · exact h
    · exact hc.err _ _ h
  generalize (if r.st.verify = true then r else r.setError .invalidFormatString) = r1 at ha h1
  have h2 : P a := by
    split at ha
    · rename_i hcond
      rw [Bool.and_eq_true] at hcond
      exact hc.handleAmPm _ _ h1 hcond.1 hcond.2 ha
    · cases ha; exact h1
  split at hr
  · rename_i hcond
    rw [Bool.and_eq_true, Bool.not_eq_true'] at hcond
    exact hc.handleYear _ _ h2 hcond.1 hr
  · cases hr; exact h2

theorem closed_simple0 (hc : Closed0 cfg set P) {r r' : Rd T} (h : P r) (x : ChronoCall) (hx : x ≠ .localized) (hr : r.simple cfg set x = some r') : P r' := by
  cases x with
  | text t => cases hr; exact closed_text hc t h
  | whitespace =>
    dsimp only [Rd.simple, Rd.onWhitespace] at hr
    split at hr
    · rename_i p hp
      cases hr
      refine hc.pos _ _ h ?_
      unfold skipSpace at hp
      split at hp
      · cases hp
      · rename_i it hit
        split at hp
        · cases hp
        · cases hp; exact readWhileSpace_suffix _ _ _ _ hit
    · cases hr; exact hc.err _ _ h
    · cases hr
  | localized => exact absurd rfl hx
  | fullYear s => cases hr; exact closed_numberOr hc h _ _ _ _ _ _ _ hc.fullYear
  | shortYear s => cases hr; exact closed_numberOr hc h _ _ _ _ _ _ _ hc.shortYear
  | century s => cases hr; exact closed_numberOr hc h _ _ _ _ _ _ _ hc.century
  | decMonth s => cases hr; exact closed_numberOr hc h _ _ _ _ _ _ _ hc.mon
  | dayOfMonth s => cases hr; exact closed_numberOr hc h _ _ _ _ _ _ _ hc.mday
  | dec0Weekday s => cases hr; exact closed_numberOr hc h _ _ _ _ _ _ _ hc.wday
  | dec1Weekday s => cases hr; exact closed_numberOr hc h _ _ _ _ _ _ _ hc.wday
  | hour24 s => cases hr; exact closed_numberOr hc h _ _ _ _ _ _ _ hc.hour24
  | hour12 s => cases hr; exact closed_numberOr hc h _ _ _ _ _ _ _ hc.hour12
  | minute s => cases hr; exact closed_numberOr hc h _ _ _ _ _ _ _ hc.min
  | second s => cases hr; exact closed_numberOr hc h _ _ _ _ _ _ _ hc.sec
  | dayOfYear => cases hr; exact closed_number hc h _ _ _ fun r v hr => hc.yday _ _ hr
  | monthName =>
    dsimp only [Rd.simple] at hr
    split at hr
    · cases hr; exact closed_localized hc h _ _ fun r t hr => hc.mon _ _ hr
    · exact closed_name hc h _ _ _ hc.mon hr
  | weekdayName =>
    dsimp only [Rd.simple] at hr
    split at hr
    · cases hr; exact closed_localized hc h _ _ fun r t hr => hc.wday _ _ hr
    · exact closed_name hc h _ _ _ hc.wday hr
  | subsecond s =>
    dsimp only [Rd.simple, Rd.onSubsecond] at hr
    have h1 := closed_number hc h 1 2 set.sec hc.sec
    generalize r.number 1 2 set.sec = r1 at hr h1
    generalize (if r1.useLocale s = true then throughChar cfg.enc cfg.decimalPoint else 46) = point at hr
    split at hr
    · cases hr; exact hc.err _ _ h1
    · rename_i c q hp
      have h2 := hc.pos _ q h1 (by rw [hp]; exact List.suffix_cons _ _)
      split at hr
      · cases hr; exact hc.err _ _ h1
      · split at hr
        · cases hr
        · cases hr; exact hc.err _ _ h2
        · rename_i ds p hscan
          have h3 := hc.scanned _ _ _ _ h2 hscan
          split at hr
          · cases hr; exact hc.err _ _ h2
          split at hr
          · cases hr
          · cases hr; exact hc.err _ _ h3
          · cases hr; exact hc.subsec _ _ h3
  | tzOffset s =>
    cases hr
    unfold Rd.onTzOffset
    split
    · exact hc.err _ _ h
    · rename_i c q hp
      have h1 := hc.pos _ q h (by rw [hp]; exact List.suffix_cons _ _)
      split
      · exact closed_tzHours hc h1 _ hc.tzOffset _ _
      · split
        · exact closed_tzHours hc h1 _ hc.tzOffset _ _
        · exact closed_tzHours hc h _ hc.tzOffset _ _
  | tzName =>
    dsimp only [Rd.simple, Rd.onTzName] at hr
    split at hr
    · rename_i n p hscan
      cases hr
      exact hc.tzName _ _ _ _ h hscan
    · cases hr
  | amPm =>
    dsimp only [Rd.simple, Rd.onAmPm] at hr
    obtain ⟨a, ha, hr⟩ := Option.map_eq_some_iff.1 hr
    cases a with
    | none => subst hr; exact hc.err _ _ h
    | some bp => subst hr; exact hc.amPm _ _ (hc.pos _ _ h (tryOneOf_suffix _ _ _ _ _ ha))
  | verify => exact closed_verify hc h hr
  | _ => cases hr; exact hc.err _ _ h

theorem closed_simple (hc : Closed cfg set P) {r r' : Rd T} (h : P r) (x : ChronoCall) (hr : r.simple cfg set x = some r') : P r' := by
  by_cases hx : x = .localized
  · subst hx; cases hr; exact hc.localized _ h
  · exact closed_simple0 hc.toClosed0 h x hx hr

theorem closed_simples0 (hc : Closed0 cfg set P) (cs : List ChronoCall) (hcs : .localized ∉ cs) : ∀ {r r' : Rd T}, P r → r.simples cfg set cs = some r' → P r' := by
  induction cs with
  | nil => intro r r' h hr; cases hr; exact h
  | cons c cs ih =>
    intro r r' h hr
    rw [Rd.simples] at hr
    obtain ⟨a, ha, hr⟩ := bind_some_iff.1 hr
    exact ih (fun hm => hcs (List.mem_cons_of_mem _ hm)) (closed_simple0 hc h c (fun hx => hcs (hx ▸ List.mem_cons_self)) ha) hr

theorem closed_simples (hc : Closed cfg set P) (cs : List ChronoCall) : ∀ {r r' : Rd T}, P r → r.simples cfg set cs = some r' → P r' := by
  induction cs with
  | nil => intro r r' h hr; cases hr; exact h
  | cons c cs ih =>
    intro r r' h hr
    rw [Rd.simples] at hr
    obtain ⟨a, ha, hr⟩ := bind_some_iff.1 hr
    exact ih (closed_simple hc h c ha) hr

/-- Every call preserves it, but for the switch to the locale. -/
theorem closed_call0 (hc : Closed0 cfg set P) {r r' : Rd T} (h : P r) (x : ChronoCall) (hx : x ≠ .localized) (hr : r.call cfg set x = some r') : P r' := by
  unfold Rd.call at hr
  split at hr
  · exact closed_simple0 hc h _ hx hr
  · split at hr
    · cases hr
      refine closed_localized hc h _ _ fun r t hr => ?_
      have date : ∀ r, P r → P (set.mday (set.mon (set.fullYear r (t.year + 1900)) (t.mon + 1)) t.mday) :=
        fun r hr => hc.mday _ _ (hc.mon _ _ (hc.fullYear _ _ hr))
      have time : ∀ r, P r → P (set.sec (set.min (set.hour24 r t.hour) t.min) t.sec) := fun r hr => hc.sec _ _ (hc.min _ _ (hc.hour24 _ _ hr))
      unfold ChronoCall.fromLocale
      dsimp only
      split
      · exact time _ (date _ hr)
      · exact date _ hr
      · exact time _ hr
      · exact time _ hr
      · exact hr
    · exact closed_simples0 hc _ (by cases x <;> simp [ChronoCall.expand]) h hr

/-- Every call preserves it. -/
theorem closed_call (hc : Closed cfg set P) {r r' : Rd T} (h : P r) (x : ChronoCall) (hr : r.call cfg set x = some r') : P r' := by
  by_cases hx : x = .localized
  · subst hx; cases hr; exact hc.localized _ h
  · exact closed_call0 hc.toClosed0 h x hx hr

/-- A whole parse preserves it. -/
theorem closed_parse (hc : Closed cfg set P) {r r' : Rd T} (h : P r) {fmt p : List Nat} (hr : parseChrono cfg.enc (readHandler cfg set) r fmt = some (r', p)) : P r' :=
  parse_invariant cfg.enc (readHandler cfg set) P (fun _ x _ hst hcall => closed_call hc hst x hcall) h hr

end

/-! ### Errors stay -/

theorem setError_some (r : Rd T) (e : Err) : (r.setError e).err ≠ none := setError_err r e

theorem sticky_mark {r : Rd T} (f : ChronoField) (h : r.err ≠ none) : (r.mark f).err ≠ none := by
  unfold Rd.mark
  split
  · exact setError_err _ _
  · exact h

theorem sticky_setField {r : Rd T} (f : ChronoField) (lo hi v : Int) (upd : T → T) (h : r.err ≠ none) : (r.setField f lo hi v upd).err ≠ none := by
  unfold Rd.setField
  split
  · exact setError_err _ _
  · exact sticky_mark f h

theorem tm_sticky (cfg : ChronoCfg) (gmtoff : Bool) : Closed cfg (tmSetter gmtoff) (fun r => r.err ≠ none) where
  err r e _ := setError_err r e
  pos r p h _ := h
  facet r _ _ p h _ := h
  localized r h := h
  amPm r b h := sticky_mark .amPm h
  tzName r x n p _ _ := setError_err r _
  scanned r x n p h _ := h
  subsec r v _ := setError_err _ _
  sec r v h := sticky_setField _ _ _ _ _ h
  min r v h := sticky_setField _ _ _ _ _ h
  hour24 r v h := sticky_setField _ _ _ _ _ h
  hour12 r v h := sticky_setField _ _ _ _ _ h
  mday r v h := sticky_setField _ _ _ _ _ h
  mon r v h := sticky_setField _ _ _ _ _ h
  fullYear r v h := by
    dsimp only [tmSetter, tmSetterOn]
    split
    · exact setError_err _ _
    · exact sticky_mark .fullYear h
  century r v h := sticky_mark .century h
  shortYear r v h := by
    dsimp only [tmSetter, tmSetterOn]
    split
    · exact setError_err _ _
    · exact sticky_mark .shortYear h
  wday r v h := sticky_setField _ _ _ _ _ h
  yday r v h := sticky_setField _ _ _ _ _ h
  tzOffset r v h := by
    dsimp only [tmSetter, tmSetterOn]
    split
    · exact h
    · exact setError_err _ _
  handleAmPm r r' h _ _ hr := by rw [((marks_tm gmtoff).handleAmPm r r' hr).1]; exact h
  handleYear r r' h _ hr := by rw [((marks_tm gmtoff).handleYear r r' hr).1]; exact h

theorem dt_sticky (cfg : ChronoCfg) : Closed cfg dtSetter (fun r => r.err ≠ none) where
  err r e _ := setError_err r e
  pos r p h _ := h
  facet r _ _ p h _ := h
  localized r h := h
  amPm r b h := sticky_mark .amPm h
  tzName r x n p h _ := sticky_mark (r := { r with tm := { r.tm with tzName := some n } }) .tzname h
  scanned r x n p h _ := h
  subsec r v h := sticky_mark .subsec h
  sec r v h := sticky_setField _ _ _ _ _ h
  min r v h := sticky_setField _ _ _ _ _ h
  hour24 r v h := sticky_setField _ _ _ _ _ h
  hour12 r v h := sticky_setField _ _ _ _ _ h
  mday r v h := sticky_setField _ _ _ _ _ h
  mon r v h := sticky_setField _ _ _ _ _ h
  fullYear r v h := sticky_mark .fullYear h
  century r v h := sticky_mark .century h
  shortYear r v h := sticky_mark .shortYear h
  wday r v h := sticky_setField _ _ _ _ _ h
  yday r v h := sticky_setField _ _ _ _ _ h
  tzOffset r v h := sticky_mark .tzoff h
  handleAmPm r r' h _ _ hr := by rw [(marks_dt.handleAmPm r r' hr).1]; exact h
  handleYear r r' h _ hr := by rw [(marks_dt.handleYear r r' hr).1]; exact h

theorem sticky_reader {cfg : ChronoCfg} {set : TmSetter T} (h : Closed cfg set (fun r => r.err ≠ none)) : Sticky (readHandler cfg set) := by
  intro st x st' hok hcall
  have : st.err ≠ none := by
    intro he
    simp [readHandler, he] at hok
  have := closed_call h this x hcall
  show st'.err.isNone = false
  cases hst : st'.err with
  | none => exact absurd hst this
  | some _ => rfl

end Scn
