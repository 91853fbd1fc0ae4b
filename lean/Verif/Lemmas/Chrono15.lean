import Verif.Lemmas.Chrono14
import Verif.Lemmas.Ranges3
/-
Scans of dates and times with accepted formats are well-defined.
-/
namespace Scn
open Spec
variable {T : Type}

/-! ### What the check of a format establishes -/

theorem check_fold_ok (gmtoff : Bool) (k : TmKind) (fs : List ChronoField) : ∀ (c : Checker), (fs.foldl (fun c f => Checker.field gmtoff k f c) c).failed = false →
    c.failed = false ∧ (∀ f ∈ fs, k.supports gmtoff f = true) ∧
      (fs.foldl (fun c f => Checker.field gmtoff k f c) c).st.set = fs.reverse ++ c.st.set ∧ (c.st.set.Nodup → (fs.reverse ++ c.st.set).Nodup) := by
  induction fs with
  | nil => intro c h; exact ⟨h, by simp, rfl, fun h => h⟩
  | cons f fs ih =>
    intro c h
    rw [List.foldl_cons] at h ⊢
    obtain ⟨h1, h2, h3, h4⟩ := ih _ h
    have h1' : (c.failed || !k.supports gmtoff f || c.st.has f) = false := h1
    have hs : (Checker.field gmtoff k f c).st.set = f :: c.st.set := rfl
    rw [hs] at h3 h4
    simp only [Bool.or_eq_false_iff, Bool.not_eq_false'] at h1'
    refine ⟨h1'.1.1, ?_, ?_, ?_⟩
    · intro g hg
      rcases List.mem_cons.1 hg with rfl | hg
      · exact h1'.1.2
      · exact h2 g hg
    · rw [h3]; simp
    · intro hn
      have := h4 (List.nodup_cons.2 ⟨has_false.1 h1'.2, hn⟩)
      simpa using this

/-- The calls of a format that passes the check. -/
theorem check_marked (gmtoff : Bool) (k : TmKind) (ys : List ChronoCall) (hy : ∀ y ∈ ys, y ≠ .verify ∧ y ≠ .error) : ∀ {c c' : Checker},
    c.failed = false → Calls (checkHandler gmtoff k) c ys c' →
    c'.failed = false ∧ (∀ y ∈ ys, y.unimplemented = false ∧ ∀ f ∈ y.checkedFields, k.supports gmtoff f = true) ∧
      c'.st.set = (ys.flatMap ChronoCall.checkedFields).reverse ++ c.st.set ∧ (c.st.set.Nodup → c'.st.set.Nodup) := by
  induction ys with
  | nil =>
    intro c c' hf hc
    cases hc
    exact ⟨hf, by simp, rfl, fun h => h⟩
  | cons y ys ih =>
    intro c c' hf hc
    cases hc with
    | cons _ _ a _ _ h1 hok hs =>
      obtain ⟨hv, he⟩ := hy y (by simp)
      have hstep : a.failed = false ∧ y.unimplemented = false ∧ a = y.checkedFields.foldl (fun c f => Checker.field gmtoff k f c) c := by
        have h1' : Checker.call gmtoff k c y = some a := h1
        have hok' : a.failed = false := by simpa [checkHandler] using hok
        refine ⟨hok', ?_⟩
        cases hun : y.unimplemented with
        | true =>
          have : Checker.call gmtoff k c y = some c.onError := by
            unfold Checker.call
            split <;> first | exact absurd rfl hv | exact absurd rfl he | rw [if_pos hun]
          rw [this] at h1'
          cases h1'
          cases hok'
        | false =>
          rw [check_call gmtoff k c y ⟨he, hv, hun⟩] at h1'
          exact ⟨rfl, (Option.some.inj h1').symm⟩
      obtain ⟨ha, hun, rfl⟩ := hstep
      obtain ⟨_, hsup, hset, hnd⟩ := check_fold_ok gmtoff k _ c ha
      obtain ⟨i1, i2, i3, i4⟩ := ih (fun z hz => hy z (by simp [hz])) ha hs
      refine ⟨i1, ?_, ?_, ?_⟩
      · intro z hz
        rcases List.mem_cons.1 hz with rfl | hz
        · exact ⟨hun, hsup⟩
        · exact i2 z hz
      · rw [i3, hset, List.flatMap_cons]; simp
      · intro hn; exact i4 (by rw [hset]; exact hnd hn)

/-- An accepted format: its calls, and what the check says about them. -/
theorem accepted {e : Enc} {gmtoff : Bool} {k : TmKind} {pos fmt p : List Nat} (h : chronoParse e gmtoff k pos = .ok (fmt, p)) :
    ∃ l ys, formatCalls e fmt = some (l ++ ys ++ [.verify], []) ∧ (∀ y ∈ ys, Inner fmt y) ∧ (l = [] ∨ l = [.localized]) ∧
      (∀ y ∈ ys, y.unimplemented = false ∧ ∀ f ∈ y.checkedFields, k.supports gmtoff f = true) ∧
      (ys.flatMap ChronoCall.checkedFields).Nodup ∧ SetterState.verify { set := (ys.flatMap ChronoCall.checkedFields).reverse } = true := by
  have hparts := chronoParse_parts h
  subst hparts
  unfold chronoParse at h
  split at h
  · cases h
  · rename_i c r hpos
    rw [← hpos] at h
    split at h
    · cases h
    · split at h
      · cases h
      · rename_i chk p1 hparse
        split at h
        · cases h
        · rename_i hfail
          have hfail : chk.failed = false := by simpa using hfail
          have hp : p1 = p := by injection h with h; exact (Prod.mk.inj h).2
          subst hp
          obtain ⟨xs, hx, hcalls⟩ := parse_success e (checkHandler gmtoff k) (check_sticky gmtoff k) hparse (by simpa [checkHandler] using hfail)
          have herr : .error ∉ xs := by
            intro hmem
            obtain ⟨a, b, rfl⟩ := List.append_of_mem hmem
            obtain ⟨m, _, hm⟩ := hcalls.split
            cases hm with
            | cons _ _ m' _ _ h1 hok _ =>
              have h1 : Checker.call gmtoff k m .error = some m' := h1
              cases h1
              cases hok
          obtain ⟨hcut, l, ys, rfl, hin, hl⟩ := calls_cut e hx herr
          obtain ⟨m1, hm1, hv⟩ := hcalls.split
          obtain ⟨m0, hm0, hm1⟩ := hm1.split
          have h0 : m0 = {} := by
            rcases hl with ⟨rfl, _⟩ | ⟨rfl, _⟩
            · cases hm0; rfl
            · cases hm0 with
              | cons _ _ _ _ _ hc _ hn =>
                cases hn
                have hc : Checker.call gmtoff k {} .localized = some m0 := hc
                cases hc; rfl
          subst h0
          obtain ⟨i1, i2, i3, i4⟩ := check_marked gmtoff k ys (fun y hy => ⟨(hin y hy).calls.1, (hin y hy).calls.2.2.1⟩) rfl hm1
          refine ⟨l, ys, hcut, hin, hl.imp And.left And.left, i2, ?_, ?_⟩
          · have := i4 List.nodup_nil
            rw [i3, List.append_nil] at this
            exact List.pairwise_reverse.1 (List.Pairwise.imp Ne.symm this)
          · cases hv with
            | cons _ _ m' _ _ hc hok hn =>
              have hc : some (if m1.st.verify then m1 else m1.onError) = some m' := hc
              cases hc
              have hver : m1.st.verify = true := by
                by_cases hb : m1.st.verify = true
                · exact hb
                · rw [if_neg hb] at hok; cases hok
              have hset : m1.st.set = (ys.flatMap ChronoCall.checkedFields).reverse := by rw [i3]; exact List.append_nil _
              have : SetterState.verify { set := m1.st.set } = m1.st.verify := rfl
              rw [← hset, this, hver]

/-! ### Two clocks -/

/-- The call sets the hour of the 24-hour clock (`b`: by the locale). -/
def uses24 (b : Bool) : ChronoCall → Bool
  | .hour24 _ | .locDatetime _ | .locTime _ | .time24Hour | .isoTime => true
  | .loc12HourTime => b
  | _ => false

/-- The call sets the hour of the 12-hour clock. -/
def uses12 (b : Bool) : ChronoCall → Bool
  | .hour12 _ => true
  | .loc12HourTime => !b
  | _ => false

theorem uses24_checked (b : Bool) (x : ChronoCall) (h : uses24 b x = true) : .hour24 ∈ x.checkedFields := by
  cases x <;> first | (simp [uses24] at h; done) | simp [ChronoCall.checkedFields]

theorem uses12_checked (b : Bool) (x : ChronoCall) (h : uses12 b x = true) : .hour12 ∈ x.checkedFields ∨ x = .loc12HourTime := by
  cases x <;> first | (simp [uses12] at h; done) | (left; simp [ChronoCall.checkedFields]; done) | (right; rfl)

theorem one_clock {ys : List ChronoCall} (hnd : (ys.flatMap ChronoCall.checkedFields).Nodup)
    (hv : SetterState.verify { set := (ys.flatMap ChronoCall.checkedFields).reverse } = true) (b : Bool) :
    (∀ y ∈ ys, uses24 b y = false) ∨ ∀ y ∈ ys, uses12 b y = false := by
  by_cases h24 : ∀ y ∈ ys, uses24 b y = false
  · exact Or.inl h24
  refine Or.inr fun z hz => ?_
  apply Bool.eq_false_iff.2
  intro h12
  apply h24
  intro y hy
  apply Bool.eq_false_iff.2
  intro h24
  have hy24 := uses24_checked b y h24
  rcases uses12_checked b z h12 with hz12 | rfl
  · have hm24 : ChronoField.hour24 ∈ (ys.flatMap ChronoCall.checkedFields).reverse := by
      rw [List.mem_reverse]; exact List.mem_flatMap.2 ⟨y, hy, hy24⟩
    have hm12 : ChronoField.hour12 ∈ (ys.flatMap ChronoCall.checkedFields).reverse := by
      rw [List.mem_reverse]; exact List.mem_flatMap.2 ⟨z, hz, hz12⟩
    have : SetterState.verify { set := (ys.flatMap ChronoCall.checkedFields).reverse } = false := by
      unfold SetterState.verify
      rw [if_pos (by rw [has_iff.2 hm24, has_iff.2 hm12]; rfl)]
    rw [this] at hv; cases hv
  · have := nodup_unique hnd hy hz hy24 (by decide)
    subst this
    simp [uses24, uses12] at h24 h12
    rw [h24] at h12; cases h12

/-! ### Calls that are well-defined -/

/-- The calls that may be undefined. -/
def Fragile (x : ChronoCall) : Prop := x = .verify ∨ x = .tzName ∨ ∃ s, x = .subsecond s

theorem tryOneOf_total {α : Type} {os : List (List Nat × α)} (h : PrefixFree os) (s : List Nat) : ∃ r, tryOneOf os 0 s = some r :=
  ⟨_, tryOneOf_find os h s⟩

theorem name_total {α : Type} {long short : List (List Nat × α)} (ht : NameTables long short) (f : Rd T → α → Rd T) (r : Rd T) : r.name long short f ≠ none := by
  obtain ⟨a, ha⟩ := tryOneOf_total ht.longFree r.pos
  obtain ⟨b, hb⟩ := tryOneOf_total ht.shortFree r.pos
  unfold Rd.name
  rw [ha, Option.bind_some]
  cases a with
  | some v => simp
  | none => rw [hb]; simp

theorem simple_total (cfg : ChronoCfg) (set : TmSetter T) (r : Rd T) (hu : UnitsOk cfg.enc r.pos) (x : ChronoCall) (hx : ¬ Fragile x) : r.simple cfg set x ≠ none := by
  cases x with
  | verify => exact absurd (Or.inl rfl) hx
  | tzName => exact absurd (Or.inr (Or.inl rfl)) hx
  | subsecond s => exact absurd (Or.inr (Or.inr ⟨s, rfl⟩)) hx
  | whitespace =>
    dsimp only [Rd.simple, Rd.onWhitespace]
    rcases skipSpace_all cfg.enc (cfg.lay r.pos) true r.pos hu with ⟨p, hp, _⟩ | hp <;> rw [hp] <;> simp
  | monthName =>
    dsimp only [Rd.simple]
    split
    · simp
    · exact name_total months_tables _ _
  | weekdayName =>
    dsimp only [Rd.simple]
    split
    · simp
    · exact name_total weekdays_tables _ _
  | amPm =>
    obtain ⟨a, ha⟩ := tryOneOf_total amPm_free r.pos
    dsimp only [Rd.simple, Rd.onAmPm]
    rw [ha]
    simp
  | _ => simp [Rd.simple]

theorem expand_plain (x : ChronoCall) : ∀ c ∈ x.expand, ¬ Fragile c ∧ c ≠ .localized := by
  unfold Fragile
  cases x <;> simp [ChronoCall.expand]

theorem simples_total {cfg : ChronoCfg} {set : TmSetter T} {J : Rd T → Prop} (hJ : Closed0 cfg set J) (hpos : ∀ r, J r → UnitsOk cfg.enc r.pos) (cs : List ChronoCall)
    (hcs : ∀ c ∈ cs, ¬ Fragile c ∧ c ≠ .localized) : ∀ {r : Rd T}, J r → r.simples cfg set cs ≠ none := by
  induction cs with
  | nil => intro r _; simp [Rd.simples]
  | cons c cs ih =>
    intro r hr
    rw [Rd.simples]
    obtain ⟨h1, h2⟩ := hcs c (by simp)
    cases hc : r.simple cfg set c with
    | none => exact absurd hc (simple_total cfg set r (hpos r hr) c h1)
    | some a => exact ih (fun d hd => hcs d (by simp [hd])) (closed_simple0 hJ hr c h2 hc)

theorem call_total {cfg : ChronoCfg} {set : TmSetter T} {J : Rd T → Prop} (hJ : Closed0 cfg set J) (hpos : ∀ r, J r → UnitsOk cfg.enc r.pos) {x : ChronoCall}
    (hx : ¬ Fragile x) {r : Rd T} (hr : J r) : r.call cfg set x ≠ none := by
  unfold Rd.call
  split
  · exact simple_total cfg set r (hpos r hr) x hx
  · split
    · simp
    · exact simples_total hJ hpos _ (expand_plain x) hr

/-- A parse is well-defined if the calls before `verify` keep a property that makes `verify` well-defined. The property is
    looked at with another setter (`set'`) that does the same on these calls. -/
theorem parse_defined {cfg : ChronoCfg} {set set' : TmSetter T} {J : Rd T → Prop} (hJ : Closed0 cfg set' J) (hpos : ∀ r, J r → UnitsOk cfg.enc r.pos)
    {ys : List ChronoCall} (hys : ∀ y ∈ ys, ¬ Fragile y ∧ y ≠ .localized) (hsame : ∀ y ∈ ys, ∀ r, J r → r.call cfg set y = r.call cfg set' y)
    (hver : ∀ r, J r → r.verify set ≠ none) {l : List ChronoCall} (hl : l = [] ∨ l = [.localized]) {fmt : List Nat}
    (hfmt : formatCalls cfg.enc fmt = some (l ++ ys ++ [.verify], [])) {r : Rd T}
    (hr : J { r with st := { r.st with localized := r.st.localized || !l.isEmpty } }) :
    parseChrono cfg.enc (readHandler cfg set) r fmt ≠ none := by
  intro hn
  have steps : ∀ (ys zs : List ChronoCall) (r : Rd T) r', J r → (∀ y ∈ ys, ¬ Fragile y ∧ y ≠ .localized) → (∀ y ∈ ys, ∀ r, J r → r.call cfg set y = r.call cfg set' y) →
      Steps (readHandler cfg set) r zs r' → zs <+: ys → J r' := by
    intro ys
    induction ys with
    | nil =>
      intro zs r r' hr _ _ hs hz
      rw [List.prefix_nil.1 hz] at hs
      cases hs; exact hr
    | cons y ys ih =>
      intro zs r r' hr h1 h2 hs hz
      cases hs with
      | nil => exact hr
      | cons _ c a cs _ hc hs =>
        obtain ⟨rfl, hz'⟩ := List.cons_prefix_cons.1 hz
        have hc : r.call cfg set c = some a := hc
        rw [h2 c (by simp) r hr] at hc
        exact ih cs a r' (closed_call0 hJ hr c (h1 c (by simp)).2 hc) (fun d hd => h1 d (by simp [hd])) (fun d hd => h2 d (by simp [hd])) hs hz'
  have main : ∀ r : Rd T, J r → Breaks (readHandler cfg set) r (ys ++ [.verify]) → False := by
    intro r hr ⟨as, x, zs, r', heq, hs, hc⟩
    have hc : r'.call cfg set x = none := hc
    rcases List.eq_nil_or_concat zs with rfl | ⟨zs, z, rfl⟩
    · have := List.append_inj' (s₂ := as) heq rfl
      obtain ⟨rfl, h2⟩ := this
      cases h2
      exact hver _ (steps _ _ r r' hr hys hsame hs (List.prefix_refl _)) hc
    · rw [List.concat_eq_append, ← List.cons_append, ← List.append_assoc] at heq
      have := (List.append_inj' heq rfl).1
      have hx : x ∈ ys := by rw [this]; simp
      have hJ' := steps ys as r r' hr hys hsame hs ⟨x :: zs, this.symm⟩
      rw [hsame x hx r' hJ'] at hc
      exact call_total hJ hpos (hys x hx).1 hJ' hc
  have hb := parse_none cfg.enc _ hn hfmt
  rcases hl with rfl | rfl
  · refine main r ?_ hb
    simpa using hr
  · obtain ⟨as, x, zs, r', heq, hs, hc⟩ := hb
    cases as with
    | nil =>
      cases heq
      cases hc
    | cons a as =>
      simp only [List.cons_append, List.nil_append, List.cons.injEq] at heq
      obtain ⟨rfl, heq⟩ := heq
      cases hs with
      | cons _ _ r1 _ _ hc1 hs =>
        have hc1 : some { r with st := { r.st with localized := true } } = some r1 := hc1
        refine main r1 ?_ ⟨as, x, zs, r', heq, hs, hc⟩
        cases hc1
        simpa using hr

/-! ### The invariants -/

/-- A property of the mode, the fields that are set and the destination. -/
def OnRd (Q : Bool → List ChronoField → T → Prop) (r : Rd T) : Prop := Q r.st.localized r.st.set r.tm

section
variable {Q : Bool → List ChronoField → T → Prop}

theorem onRd_err {r : Rd T} {e : Err} (h : OnRd Q r) : OnRd Q (r.setError e) := by
  unfold OnRd; rw [(setError_tm r e).1, (setError_tm r e).2.1]; exact h

theorem onRd_mark {r : Rd T} {f : ChronoField} (h : Q r.st.localized (f :: r.st.set) r.tm) : OnRd Q (r.mark f) := by
  unfold OnRd Rd.mark
  split
  · exact onRd_err h
  · exact h

theorem onRd_field {r : Rd T} {f : ChronoField} {lo hi v : Int} {upd : T → T} (h : OnRd Q r) (hf : lo ≤ v → v ≤ hi → Q r.st.localized (f :: r.st.set) (upd r.tm)) :
    OnRd Q (r.setField f lo hi v upd) := by
  unfold Rd.setField
  split
  · exact onRd_err h
  · exact onRd_mark (hf (by omega) (by omega))

end

theorem Closed0.and {cfg : ChronoCfg} {set : TmSetter T} {P Q : Rd T → Prop} (hP : Closed0 cfg set P) (hQ : Closed0 cfg set Q) : Closed0 cfg set fun r => P r ∧ Q r where
  err r e h := ⟨hP.err r e h.1, hQ.err r e h.2⟩
  pos r p h hp := ⟨hP.pos r p h.1 hp, hQ.pos r p h.2 hp⟩
  facet r f t p h hf := ⟨hP.facet r f t p h.1 hf, hQ.facet r f t p h.2 hf⟩
  amPm r b h := ⟨hP.amPm r b h.1, hQ.amPm r b h.2⟩
  tzName r x n p h hs := ⟨hP.tzName r x n p h.1 hs, hQ.tzName r x n p h.2 hs⟩
  scanned r x n p h hs := ⟨hP.scanned r x n p h.1 hs, hQ.scanned r x n p h.2 hs⟩
  subsec r v h := ⟨hP.subsec r v h.1, hQ.subsec r v h.2⟩
  sec r v h := ⟨hP.sec r v h.1, hQ.sec r v h.2⟩
  min r v h := ⟨hP.min r v h.1, hQ.min r v h.2⟩
  hour24 r v h := ⟨hP.hour24 r v h.1, hQ.hour24 r v h.2⟩
  hour12 r v h := ⟨hP.hour12 r v h.1, hQ.hour12 r v h.2⟩
  mday r v h := ⟨hP.mday r v h.1, hQ.mday r v h.2⟩
  mon r v h := ⟨hP.mon r v h.1, hQ.mon r v h.2⟩
  fullYear r v h := ⟨hP.fullYear r v h.1, hQ.fullYear r v h.2⟩
  century r v h := ⟨hP.century r v h.1, hQ.century r v h.2⟩
  shortYear r v h := ⟨hP.shortYear r v h.1, hQ.shortYear r v h.2⟩
  wday r v h := ⟨hP.wday r v h.1, hQ.wday r v h.2⟩
  yday r v h := ⟨hP.yday r v h.1, hQ.yday r v h.2⟩
  tzOffset r v h := ⟨hP.tzOffset r v h.1, hQ.tzOffset r v h.2⟩
  handleAmPm r r' h h1 h2 hr := ⟨hP.handleAmPm r r' h.1 h1 h2 hr, hQ.handleAmPm r r' h.2 h1 h2 hr⟩
  handleYear r r' h h1 hr := ⟨hP.handleYear r r' h.1 h1 hr, hQ.handleYear r r' h.2 h1 hr⟩

/-- The setter without the two clocks and without the work of `verify`. -/
def clockless (set : TmSetter T) (a b : Rd T → Int → Rd T) : TmSetter T := { set with hour24 := a, hour12 := b, handleAmPm := some, handleYear := some }

theorem keepsPos_clockless {set : TmSetter T} (h : KeepsPos set) {a b : Rd T → Int → Rd T} (ha : ∀ r v, (a r v).pos = r.pos ∧ (a r v).range = r.range)
    (hb : ∀ r v, (b r v).pos = r.pos ∧ (b r v).range = r.range) : KeepsPos (clockless set a b) :=
  { h with
    hour24 := ha
    hour12 := hb
    handleAmPm := fun r r' h => by cases h; exact ⟨rfl, rfl⟩
    handleYear := fun r r' h => by cases h; exact ⟨rfl, rfl⟩ }

theorem call_clockless (cfg : ChronoCfg) (set : TmSetter T) {x : ChronoCall} (hx : ¬ Fragile x) (r : Rd T) :
    (uses24 r.st.localized x = false → r.call cfg set x = r.call cfg (clockless set (fun r _ => r) set.hour12) x) ∧
      (uses12 r.st.localized x = false → r.call cfg set x = r.call cfg (clockless set set.hour24 (fun r _ => r)) x) := by
  refine ⟨fun h => ?_, fun h => ?_⟩
  · cases x <;> first | rfl | exact absurd (Or.inl rfl) hx | exact absurd (Or.inr (Or.inr ⟨_, rfl⟩)) hx | (simp [uses24] at h; done) | skip
    have h : r.st.localized = false := h
    unfold Rd.call
    dsimp only [ChronoCall.expand, ChronoCall.localeFormat]
    rw [h]
    rfl
  · cases x <;> first | rfl | exact absurd (Or.inl rfl) hx | exact absurd (Or.inr (Or.inr ⟨_, rfl⟩)) hx | (simp [uses12] at h; done) | skip
    have h : r.st.localized = true := by simpa [uses12] using h
    unfold Rd.call
    dsimp only [ChronoCall.expand, ChronoCall.localeFormat]
    rw [h]
    rfl

end Scn
