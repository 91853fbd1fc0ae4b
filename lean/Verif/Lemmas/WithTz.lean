import Verif.Lemmas.Chrono15
/-
Two handlers of date and time formats in step, and reading a `tm_with_tz` compared to reading a `std::tm`.
-/
namespace Scn
open Spec
variable {σ τ T U : Type}

/-! ### Handlers in step -/

/-- One handler does what the other does, for these calls. -/
structure Along (h : ChronoHandler σ) (h' : ChronoHandler τ) (f : σ → τ) (A : ChronoCall → Prop) : Prop where
  ok : ∀ st, h'.ok (f st) = h.ok st
  call : ∀ st x, A x → h'.call (f st) x = (h.call st x).map f

theorem loop_along (e : Enc) {h : ChronoHandler σ} {h' : ChronoHandler τ} {f : σ → τ} {A : ChronoCall → Prop} (hs : Along h h' f A) (n : Nat) :
    ∀ st acc p xs q, chronoLoop e recorder n [] acc p = some (xs, q) → (∀ x ∈ xs, A x) →
      chronoLoop e h' n (f st) acc p = (chronoLoop e h n st acc p).map fun v => (f v.1, v.2) := by
  have key : ∀ (acc : List Nat) (tr : List ChronoCall), (if acc = [] then some tr else recorder.call tr (.text acc)) = some (tr ++ if acc = [] then [] else [.text acc]) := by
    intro acc tr; split <;> simp [recorder_call]
  have flush : ∀ (st : σ) (acc : List Nat), (∀ x ∈ (if acc = [] then [] else [ChronoCall.text acc]), A x) →
      (if acc = [] then some (f st) else h'.call (f st) (.text acc)) = (if acc = [] then some st else h.call st (.text acc)).map f := by
    intro st acc ha
    by_cases hacc : acc = []
    · simp [hacc]
    · simp only [hacc, if_false] at ha ⊢
      exact hs.call st _ (ha _ (by simp))
  have fin : ∀ st acc p xs q, chronoFinish recorder [] acc p = some (xs, q) → (∀ x ∈ xs, A x) →
      chronoFinish h' (f st) acc p = (chronoFinish h st acc p).map fun v => (f v.1, v.2) := by
    intro st acc p xs q hr ha
    unfold chronoFinish at hr ⊢
    rw [key] at hr
    simp only [recorder_call, Option.bind_some, Option.map_some, Option.some.injEq, Prod.mk.injEq, List.nil_append] at hr
    obtain ⟨rfl, rfl⟩ := hr
    rw [flush st acc fun x hx => ha x (List.mem_append_left _ hx)]
    cases (if acc = [] then some st else h.call st (.text acc)) with
    | none => rfl
    | some a =>
      simp only [Option.map_some, Option.bind_some]
      rw [hs.call a _ (ha _ (by simp))]
      cases h.call a .verify <;> rfl
  have err : ∀ (st : σ) (q : List Nat) xs q', ((recorder.call [] .error).map fun st => (st, q)) = some (xs, q') → (∀ x ∈ xs, A x) →
      ((h'.call (f st) .error).map fun st => (st, q)) = ((h.call st .error).map fun st => (st, q)).map fun v => (f v.1, v.2) := by
    intro st q xs q' hr ha
    cases hr
    rw [hs.call st _ (ha _ (by simp))]
    cases h.call st .error <;> rfl
  induction n with
  | zero => intro st acc p xs q hr; cases hr
  | succ n ih =>
    have sp : ∀ (st : σ) (acc q : List Nat) xs q',
        ((recorder.call [] (.text acc)).bind fun st => (recorder.call st .whitespace).bind fun st => chronoLoop e recorder n st [] q) = some (xs, q') → (∀ x ∈ xs, A x) →
        ((h'.call (f st) (.text acc)).bind fun st => (h'.call st .whitespace).bind fun st => chronoLoop e h' n st [] q) =
          ((h.call st (.text acc)).bind fun st => (h.call st .whitespace).bind fun st => chronoLoop e h n st [] q).map fun v => (f v.1, v.2) := by
      intro st acc q xs q' hr ha
      simp only [recorder_call, Option.bind_some] at hr
      rw [loop_shift] at hr
      obtain ⟨b, hb, heq⟩ := Option.map_eq_some_iff.1 hr
      cases heq
      rw [hs.call st _ (ha _ (by simp))]
      cases h.call st (.text acc) with
      | none => rfl
      | some a =>
        simp only [Option.map_some, Option.bind_some]
        rw [hs.call a _ (ha _ (by simp))]
        cases h.call a .whitespace with
        | none => rfl
        | some a' =>
          simp only [Option.map_some, Option.bind_some]
          exact ih a' [] q _ _ hb fun x hx => ha x (by simp [hx])
    intro st acc p xs q' hr ha
    cases p with
    | nil => exact fin _ _ _ _ _ hr ha
    | cons ch q =>
      rw [chronoLoop] at hr
      rw [chronoLoop, chronoLoop]
      by_cases h1 : ch = 125
      · rw [if_pos h1] at hr ⊢; rw [if_pos h1]; exact fin _ _ _ _ _ hr ha
      rw [if_neg h1] at hr ⊢
      rw [if_neg h1]
      by_cases h2 : ch ≠ 37
      · rw [if_pos h2] at hr ⊢
        rw [if_pos h2]
        by_cases h3 : ch = 32 ∨ 9 ≤ ch ∧ ch ≤ 13
        · rw [if_pos h3] at hr ⊢; rw [if_pos h3]; exact sp _ _ _ _ _ hr ha
        rw [if_neg h3] at hr ⊢
        rw [if_neg h3]
        by_cases h4 : cpLength e ch = 0
        · rw [if_pos h4] at hr ⊢; rw [if_pos h4]; exact err _ _ _ _ hr ha
        rw [if_neg h4] at hr ⊢
        rw [if_neg h4]
        by_cases h5 : cpLength e ch = 1
        · rw [if_pos h5] at hr ⊢; rw [if_pos h5]; exact ih _ _ _ _ _ hr ha
        rw [if_neg h5] at hr ⊢
        rw [if_neg h5]
        by_cases h6 : (ch :: q).length < cpLength e ch
        · rw [if_pos h6] at hr ⊢; rw [if_pos h6]; exact err _ _ _ _ hr ha
        rw [if_neg h6] at hr ⊢
        rw [if_neg h6]
        obtain ⟨cp, hcp, hr⟩ := bind_some_iff.1 hr
        rw [hcp, Option.bind_some, Option.bind_some]
        by_cases h7 : isCpSpace cp = true
        · rw [if_pos h7] at hr ⊢; rw [if_pos h7]; exact sp _ _ _ _ _ hr ha
        rw [if_neg h7] at hr ⊢
        rw [if_neg h7]
        cases hd : List.drop (cpLength e ch) (ch :: q) with
        | nil => rw [hd] at hr; cases hr
        | cons d r => rw [hd] at hr; exact ih _ _ _ _ _ hr ha
      · rw [if_neg h2] at hr ⊢
        rw [if_neg h2]
        rw [key, Option.bind_some] at hr
        cases hcv : chronoConversion q with
        | mk c r =>
          rw [hcv] at hr
          cases c with
          | none =>
            simp only [recorder_call, Option.map_some, Option.some.injEq, Prod.mk.injEq, List.nil_append] at hr
            obtain ⟨rfl, rfl⟩ := hr
            rw [flush st acc fun x hx => ha x (List.mem_append_left _ hx)]
            cases (if acc = [] then some st else h.call st (.text acc)) with
            | none => rfl
            | some a =>
              simp only [Option.map_some, Option.bind_some]
              rw [hs.call a _ (ha _ (by simp))]
              cases h.call a .error <;> rfl
          | some c =>
            simp only [recorder_call, Option.bind_some, recorder_ok, if_true] at hr
            rw [loop_shift] at hr
            obtain ⟨b, hb, heq⟩ := Option.map_eq_some_iff.1 hr
            cases heq
            rw [flush st acc fun x hx => ha x (by simp [hx])]
            cases (if acc = [] then some st else h.call st (.text acc)) with
            | none => rfl
            | some a =>
              simp only [Option.map_some, Option.bind_some]
              rw [hs.call a _ (ha _ (by simp))]
              cases h.call a c with
              | none => rfl
              | some a' =>
                simp only [Option.map_some, Option.bind_some]
                rw [hs.ok]
                split
                · exact ih a' [] r _ _ hb fun x hx => ha x (by simp [hx])
                · rfl

theorem parse_along (e : Enc) {h : ChronoHandler σ} {h' : ChronoHandler τ} {f : σ → τ} {A : ChronoCall → Prop} (hs : Along h h' f A) (st : σ)
    {fmt : List Nat} {xs : List ChronoCall} {q : List Nat} (hr : formatCalls e fmt = some (xs, q)) (ha : ∀ x ∈ xs, A x) :
    parseChrono e h' (f st) fmt = (parseChrono e h st fmt).map fun v => (f v.1, v.2) := by
  have err : ∀ (st : σ) (q : List Nat), A .error →
      ((h'.call (f st) .error).map fun st => (st, q)) = ((h.call st .error).map fun st => (st, q)).map fun v => (f v.1, v.2) := by
    intro st q ha
    rw [hs.call st _ ha]
    cases h.call st .error <;> rfl
  unfold formatCalls at hr
  unfold parseChrono at hr ⊢
  cases fmt with
  | nil => cases hr; exact err _ _ (ha _ (by simp))
  | cons c r =>
    dsimp only at hr ⊢
    by_cases h1 : c = 125
    · rw [if_pos h1] at hr ⊢; rw [if_pos h1]; cases hr; exact err _ _ (ha _ (by simp))
    rw [if_neg h1] at hr ⊢
    rw [if_neg h1]
    by_cases h2 : c = 76
    · rw [if_pos h2] at hr ⊢
      rw [if_pos h2]
      rw [recorder_call, Option.bind_some] at hr
      have hloc : A .localized → h'.call (f st) .localized = (h.call st .localized).map f := hs.call st _
      cases r with
      | nil =>
        cases hr
        rw [hloc (ha _ (by simp))]
        cases h.call st .localized with
        | none => rfl
        | some a => exact err a _ (ha _ (by simp))
      | cons d r =>
        dsimp only at hr ⊢
        by_cases h3 : d ≠ 37
        · rw [if_pos h3] at hr
          cases hr
          rw [hloc (ha _ (by simp))]
          cases h.call st .localized with
          | none => rfl
          | some a =>
            simp only [Option.map_some, Option.bind_some, if_pos h3]
            exact err a _ (ha _ (by simp))
        · rw [if_neg h3, loop_shift] at hr
          obtain ⟨b, hb, heq⟩ := Option.map_eq_some_iff.1 hr
          cases heq
          rw [hloc (ha _ (by simp))]
          cases h.call st .localized with
          | none => rfl
          | some a =>
            simp only [Option.map_some, Option.bind_some, if_neg h3]
            exact loop_along e hs _ a _ _ _ _ hb fun x hx => ha x (by simp [hx])
    rw [if_neg h2] at hr ⊢
    rw [if_neg h2]
    by_cases h3 : c ≠ 37
    · rw [if_pos h3] at hr ⊢; rw [if_pos h3]; cases hr; exact err _ _ (ha _ (by simp))
    rw [if_neg h3] at hr ⊢
    rw [if_neg h3]
    exact loop_along e hs _ st _ _ _ _ hr ha

/-! ### Readers in step -/

/-- The reader with a part of what it has read. -/
def Rd.part (f : T → U) (r : Rd T) : Rd U := ⟨r.range, r.pos, f r.tm, r.st, r.err⟩

theorem part_err (f : T → U) (r : Rd T) (e : Err) : (r.setError e).part f = (r.part f).setError e := by
  unfold Rd.setError
  rw [show (r.part f).err = r.err from rfl]
  split <;> rfl

theorem part_mark (f : T → U) (r : Rd T) (x : ChronoField) : (r.mark x).part f = (r.part f).mark x := by
  unfold Rd.mark
  rw [show (r.part f).st = r.st from rfl]
  split
  · rw [part_err]; rfl
  · rfl

theorem part_field (f : T → U) (r : Rd T) (x : ChronoField) (lo hi v : Int) {u : T → T} {u' : U → U} (hu : ∀ t, f (u t) = u' (f t)) :
    (r.setField x lo hi v u).part f = (r.part f).setField x lo hi v u' := by
  unfold Rd.setField
  split
  · exact part_err _ _ _
  · rw [part_mark]
    congr 1
    show Rd.mk _ _ _ _ _ = Rd.mk _ _ _ _ _
    rw [hu]
    rfl

/-- A pair of setters in step. -/
def SetAlong (f : T → U) {α : Type} (s : Rd T → α → Rd T) (s' : Rd U → α → Rd U) : Prop := ∀ r v, (s r v).part f = s' (r.part f) v

/-- The setters for everything but time zones in step. -/
structure SettersAlong (f : T → U) (set : TmSetter T) (set' : TmSetter U) : Prop where
  subsec : SetAlong f set.subsec set'.subsec
  sec : SetAlong f set.sec set'.sec
  min : SetAlong f set.min set'.min
  hour24 : SetAlong f set.hour24 set'.hour24
  hour12 : SetAlong f set.hour12 set'.hour12
  mday : SetAlong f set.mday set'.mday
  mon : SetAlong f set.mon set'.mon
  fullYear : SetAlong f set.fullYear set'.fullYear
  century : SetAlong f set.century set'.century
  shortYear : SetAlong f set.shortYear set'.shortYear
  wday : SetAlong f set.wday set'.wday
  yday : SetAlong f set.yday set'.yday
  handleAmPm : ∀ r, (set.handleAmPm r).map (Rd.part f) = set'.handleAmPm (r.part f)
  handleYear : ∀ r, (set.handleYear r).map (Rd.part f) = set'.handleYear (r.part f)

theorem part_readUInt (f : T → U) (a b : Nat) (r : Rd T) : (r.part f).readUInt a b = ((r.readUInt a b).1, (r.readUInt a b).2.part f) := by
  unfold Rd.readUInt
  dsimp only
  rw [show (r.part f).pos = r.pos from rfl]
  split
  · rw [part_err]; rfl
  · rfl

theorem part_number {f : T → U} {s : Rd T → Int → Rd T} {s' : Rd U → Int → Rd U} (hs : SetAlong f s s') (a b : Nat) (r : Rd T) :
    (r.number a b s).part f = (r.part f).number a b s' := by
  unfold Rd.number
  rw [part_readUInt, hs]

theorem part_localized {f : T → U} {s : Rd T → Tm → Rd T} {s' : Rd U → Tm → Rd U} (hs : SetAlong f s s') (cfg : ChronoCfg) (fmt : List Nat) (r : Rd T) :
    (r.localizedField cfg fmt s).part f = (r.part f).localizedField cfg fmt s' := by
  unfold Rd.localizedField Rd.readLocalized
  rw [show (r.part f).range = r.range from rfl]
  cases cfg.facet fmt r.range with
  | none => exact part_err f r _
  | some v => exact hs { r with pos := v.2 } v.1

theorem part_numberOr {f : T → U} {s : Rd T → Int → Rd T} {s' : Rd U → Int → Rd U} (hs : SetAlong f s s') (cfg : ChronoCfg) (n : NumSys) (fmt : List Nat) (ft : Tm → Int)
    (conv : Int → Int) (a b : Nat) (r : Rd T) : (r.numberOr cfg n fmt ft conv a b s).part f = (r.part f).numberOr cfg n fmt ft conv a b s' := by
  unfold Rd.numberOr
  rw [show (r.part f).useLocale n = r.useLocale n from rfl]
  split
  · exact part_localized (s := fun r t => s r (conv (ft t))) (s' := fun r t => s' r (conv (ft t))) (fun r t => hs r _) cfg fmt r
  · exact part_number (s := fun r v => s r (conv v)) (s' := fun r v => s' r (conv v)) (fun r v => hs r _) a b r

theorem part_name {f : T → U} {α : Type} {s : Rd T → α → Rd T} {s' : Rd U → α → Rd U} (hs : SetAlong f s s') (long short : List (List Nat × α)) (r : Rd T) :
    (r.name long short s).map (Rd.part f) = (r.part f).name long short s' := by
  unfold Rd.name
  rw [show (r.part f).pos = r.pos from rfl]
  cases tryOneOf long 0 r.pos with
  | none => rfl
  | some o =>
    cases o with
    | some v => exact congrArg some (hs { r with pos := v.2 } v.1)
    | none =>
      simp only [Option.bind_some]
      cases tryOneOf short 0 r.pos with
      | none => rfl
      | some o =>
        cases o with
        | some v => exact congrArg some (hs { r with pos := v.2 } v.1)
        | none => exact congrArg some (part_err f r _)

theorem part_text (f : T → U) (t : List Nat) : ∀ r : Rd T, (r.onText t).part f = (r.part f).onText t := by
  induction t with
  | nil => intro r; rfl
  | cons c t ih =>
    intro r
    unfold Rd.onText
    rw [show (r.part f).pos = r.pos from rfl]
    split
    · exact part_err _ _ _
    · split
      · exact part_err _ _ _
      · exact ih _

theorem part_amPm (f : T → U) (r : Rd T) : (r.onAmPm).map (Rd.part f) = (r.part f).onAmPm := by
  unfold Rd.onAmPm
  rw [show (r.part f).pos = r.pos from rfl]
  cases tryOneOf amPmNames 0 r.pos with
  | none => rfl
  | some o =>
    cases o with
    | some v => exact congrArg some (part_mark f _ _)
    | none => exact congrArg some (part_err f r _)

theorem part_whitespace (f : T → U) (cfg : ChronoCfg) (r : Rd T) : (r.onWhitespace cfg).map (Rd.part f) = (r.part f).onWhitespace cfg := by
  unfold Rd.onWhitespace
  rw [show (r.part f).pos = r.pos from rfl]
  cases skipSpace cfg.enc (cfg.lay r.pos) true r.pos with
  | ok p => rfl
  | err e => exact congrArg some (part_err f r _)
  | ub => rfl

theorem part_minutes (f : T → U) (c : Bool) (r : Rd T) : (r.part f).tzMinutes c = ((r.tzMinutes c).1, (r.tzMinutes c).2.part f) := by
  unfold Rd.tzMinutes
  rw [show (r.part f).pos = r.pos from rfl]
  split
  · rfl
  · rename_i c' q _
    split
    · split
      · exact part_readUInt f 2 2 { r with pos := q }
      · rfl
    · split
      · rfl
      · split
        · exact part_readUInt f 2 2 r
        · rfl

theorem part_offset {f : T → U} {s : Rd T → Int → Rd T} {s' : Rd U → Int → Rd U} (hs : SetAlong f s s') (n : NumSys) (r : Rd T) :
    (r.onTzOffset s n).part f = (r.part f).onTzOffset s' n := by
  have hours : ∀ (m : Bool) (r : Rd T), (r.tzHours s n m).part f = (r.part f).tzHours s' n m := by
    intro m r
    unfold Rd.tzHours
    rw [show (r.part f).pos = r.pos from rfl]
    split
    · exact part_err _ _ _
    · dsimp only
      rw [part_readUInt]
      dsimp only
      rw [part_minutes, hs]
  unfold Rd.onTzOffset
  rw [show (r.part f).pos = r.pos from rfl]
  split
  · exact part_err _ _ _
  · split
    · exact hours _ _
    · split
      · exact hours _ _
      · exact hours _ _

theorem part_subsecond {f : T → U} {set : TmSetter T} {set' : TmSetter U} (hs : SettersAlong f set set') (cfg : ChronoCfg) (n : NumSys) (r : Rd T) :
    (r.onSubsecond cfg set n).map (Rd.part f) = (r.part f).onSubsecond cfg set' n := by
  unfold Rd.onSubsecond
  dsimp only
  rw [← part_number hs.sec]
  generalize r.number 1 2 set.sec = r
  rw [show (r.part f).pos = r.pos from rfl, show (r.part f).useLocale n = r.useLocale n from rfl]
  split
  · exact congrArg some (part_err _ _ _)
  · rename_i c q _
    generalize (if r.useLocale n = true then throughChar cfg.enc cfg.decimalPoint else 46) = dp
    by_cases hc : c ≠ dp
    · rw [if_pos hc, if_pos hc]
      exact congrArg some (part_err _ _ _)
    · rw [if_neg hc, if_neg hc]
      cases cfg.scanSet [91, 48, 45, 57, 93] q with
      | ub => rfl
      | err e => exact congrArg some (part_err f { r with pos := q } _)
      | ok v =>
        obtain ⟨ds, p⟩ := v
        dsimp only
        by_cases hpq : p = q
        · rw [if_pos hpq, if_pos hpq]
          exact congrArg some (part_err f { r with pos := q } _)
        rw [if_neg hpq, if_neg hpq]
        cases cfg.subsec ds with
        | ub => rfl
        | err e => exact congrArg some (part_err f { r with pos := p } _)
        | ok a => exact congrArg some (hs.subsec { r with pos := p } ds)

theorem part_verify {f : T → U} {set : TmSetter T} {set' : TmSetter U} (hs : SettersAlong f set set') (r : Rd T) :
    (r.verify set).map (Rd.part f) = (r.part f).verify set' := by
  unfold Rd.verify
  dsimp only
  rw [show (r.part f).st = r.st from rfl]
  rw [show (if r.st.verify = true then r.part f else (r.part f).setError .invalidFormatString) =
    (if r.st.verify = true then r else r.setError .invalidFormatString).part f by split; (· rfl); exact (part_err _ _ _).symm]
  generalize (if r.st.verify = true then r else r.setError .invalidFormatString) = r
  have year : ∀ r : Rd T, Option.map (Rd.part f) (if (!r.st.has .fullYear && (r.st.has .shortYear || r.st.has .century)) = true then set.handleYear r else some r) =
      if (!(r.part f).st.has .fullYear && ((r.part f).st.has .shortYear || (r.part f).st.has .century)) = true then set'.handleYear (r.part f) else some (r.part f) := by
    intro r
    rw [show (r.part f).st = r.st from rfl]
    split
    · exact hs.handleYear r
    · rfl
  rw [show (r.part f).st = r.st from rfl]
  split
  · rw [← hs.handleAmPm]
    cases set.handleAmPm r with
    | none => rfl
    | some r => exact year r
  · exact year r

/-- What is read is a part of what is read with the other setters, for all calls but those that set a time zone. -/
theorem part_simple {f : T → U} {set : TmSetter T} {set' : TmSetter U} (hs : SettersAlong f set set') (cfg : ChronoCfg) {x : ChronoCall}
    (hn : x = .tzName → SetAlong f set.tzName set'.tzName)
    (hz : ∀ s, x = .tzOffset s → SetAlong f set.tzOffset set'.tzOffset) (r : Rd T) : (r.simple cfg set x).map (Rd.part f) = (r.part f).simple cfg set' x := by
  cases x <;> first | exact congrArg some (part_err f r _) | skip
  case text t => exact congrArg some (part_text f t r)
  case whitespace => exact part_whitespace f cfg r
  case localized => rfl
  case fullYear s => exact congrArg some (part_numberOr hs.fullYear ..)
  case shortYear s => exact congrArg some (part_numberOr hs.shortYear ..)
  case century s => exact congrArg some (part_numberOr hs.century ..)
  case monthName =>
    dsimp only [Rd.simple]
    rw [show (r.part f).st = r.st from rfl]
    split
    · exact congrArg some (part_localized (s := fun r t => set.mon r (t.mon + 1)) (s' := fun r t => set'.mon r (t.mon + 1)) (fun r t => hs.mon r _) cfg _ r)
    · exact part_name hs.mon _ _ r
  case decMonth s => exact congrArg some (part_numberOr hs.mon ..)
  case dayOfYear => exact congrArg some (part_number (s := fun r v => set.yday r (v - 1)) (s' := fun r v => set'.yday r (v - 1)) (fun r v => hs.yday r _) 1 3 r)
  case dayOfMonth s => exact congrArg some (part_numberOr hs.mday ..)
  case weekdayName =>
    dsimp only [Rd.simple]
    rw [show (r.part f).st = r.st from rfl]
    split
    · exact congrArg some (part_localized (s := fun r t => set.wday r t.wday) (s' := fun r t => set'.wday r t.wday) (fun r t => hs.wday r _) cfg _ r)
    · exact part_name hs.wday _ _ r
  case dec0Weekday s => exact congrArg some (part_numberOr hs.wday ..)
  case dec1Weekday s => exact congrArg some (part_numberOr hs.wday ..)
  case hour24 s => exact congrArg some (part_numberOr hs.hour24 ..)
  case hour12 s => exact congrArg some (part_numberOr hs.hour12 ..)
  case minute s => exact congrArg some (part_numberOr hs.min ..)
  case second s => exact congrArg some (part_numberOr hs.sec ..)
  case subsecond s => exact part_subsecond hs cfg s r
  case tzOffset s => exact congrArg some (part_offset (hz s rfl) s r)
  case tzName =>
    dsimp only [Rd.simple, Rd.onTzName]
    rw [show (r.part f).pos = r.pos from rfl]
    split
    · rename_i n p _
      refine congrArg some ?_
      rw [← hn rfl r n]
      rfl
    · rfl
  case amPm => exact part_amPm f r
  case verify => exact part_verify hs r

theorem part_simples {f : T → U} {set : TmSetter T} {set' : TmSetter U} (hs : SettersAlong f set set') (cfg : ChronoCfg) (cs : List ChronoCall)
    (hc : ∀ c ∈ cs, c ≠ .tzName ∧ ∀ s, c ≠ .tzOffset s) : ∀ r : Rd T, (r.simples cfg set cs).map (Rd.part f) = (r.part f).simples cfg set' cs := by
  induction cs with
  | nil => intro r; rfl
  | cons c cs ih =>
    intro r
    have h1 := part_simple hs cfg (fun h => absurd h (hc c (by simp)).1) (fun s h => absurd h ((hc c (by simp)).2 s)) r
    unfold Rd.simples
    rw [← h1]
    cases r.simple cfg set c with
    | none => rfl
    | some r => exact ih (fun x hx => hc x (by simp [hx])) r

theorem expand_untimed (x : ChronoCall) : ∀ c ∈ x.expand, c ≠ .tzName ∧ ∀ s, c ≠ .tzOffset s := by
  cases x <;> simp [ChronoCall.expand]

theorem part_fromLocale {f : T → U} {set : TmSetter T} {set' : TmSetter U} (hs : SettersAlong f set set') (x : ChronoCall) :
    SetAlong f (fun r t => x.fromLocale set r t) (fun r t => x.fromLocale set' r t) := by
  intro r t
  cases x <;> simp only [ChronoCall.fromLocale, hs.sec _ _, hs.min _ _, hs.hour24 _ _, hs.mday _ _, hs.mon _ _, hs.fullYear _ _]

theorem part_call {f : T → U} {set : TmSetter T} {set' : TmSetter U} (hs : SettersAlong f set set') (cfg : ChronoCfg) {x : ChronoCall}
    (hn : x = .tzName → SetAlong f set.tzName set'.tzName)
    (hz : ∀ s, x = .tzOffset s → SetAlong f set.tzOffset set'.tzOffset) (r : Rd T) : (r.call cfg set x).map (Rd.part f) = (r.part f).call cfg set' x := by
  unfold Rd.call
  rw [show (r.part f).st = r.st from rfl]
  split
  · exact part_simple hs cfg hn hz r
  · split
    · exact congrArg some (part_localized (part_fromLocale hs x) cfg _ r)
    · exact part_simples hs cfg _ (expand_untimed x) r

/-- What an accepted format reads with one setter is a part of what it reads with the other. -/
theorem part_scan {f : T → U} {set : TmSetter T} {set' : TmSetter U} (hs : SettersAlong f set set') (cfg : ChronoCfg) {fmt : List Nat} {xs : List ChronoCall} {q : List Nat}
    (hf : formatCalls cfg.enc fmt = some (xs, q)) (hx : ∀ x ∈ xs, (x = .tzName → SetAlong f set.tzName set'.tzName) ∧ ∀ s, x = .tzOffset s → SetAlong f set.tzOffset set'.tzOffset) (t : T) (src : List Nat) :
    chronoScan cfg set' fmt (f t) src = (chronoScan cfg set fmt t src).map fun v => (f v.1, v.2) := by
  have hal : Along (readHandler cfg set) (readHandler cfg set') (Rd.part f) fun x => (x = .tzName → SetAlong f set.tzName set'.tzName) ∧ ∀ s, x = .tzOffset s → SetAlong f set.tzOffset set'.tzOffset :=
    ⟨fun _ => rfl, fun r x hx => (part_call hs cfg hx.1 hx.2 r).symm⟩
  unfold chronoScan
  cases skipSpace cfg.enc (cfg.lay src) false src with
  | ub => rfl
  | err e => rfl
  | ok p =>
    simp only [Res.bind_ok]
    rw [show (⟨p, p, f t, {}, none⟩ : Rd U) = Rd.part f ⟨p, p, t, {}, none⟩ from rfl, parse_along cfg.enc hal _ hf hx]
    cases parseChrono cfg.enc (readHandler cfg set) ⟨p, p, t, {}, none⟩ fmt with
    | none => rfl
    | some v =>
      simp only [Option.map_some]
      rw [show (v.1.part f).err = v.1.err from rfl]
      cases v.1.err <;> rfl

theorem along_base (gmtoff : Bool) : SettersAlong TmWithTz.tm (tmTzSetter gmtoff) (tmSetter gmtoff) where
  subsec r v := part_err _ _ _
  sec r v := part_field _ _ _ _ _ _ fun _ => rfl
  min r v := part_field _ _ _ _ _ _ fun _ => rfl
  hour24 r v := part_field _ _ _ _ _ _ fun _ => rfl
  hour12 r v := part_field _ _ _ _ _ _ fun _ => rfl
  mday r v := part_field _ _ _ _ _ _ fun _ => rfl
  mon r v := part_field _ _ _ _ _ _ fun _ => rfl
  fullYear r v := by
    dsimp only [tmTzSetter, tmSetter, tmSetterOn]
    split
    · exact part_err _ _ _
    · exact part_mark _ _ _
  century r v := part_mark _ _ _
  shortYear r v := by
    dsimp only [tmTzSetter, tmSetter, tmSetterOn]
    split
    · exact part_err _ _ _
    · exact part_mark _ _ _
  wday r v := part_field _ _ _ _ _ _ fun _ => rfl
  yday r v := part_field _ _ _ _ _ _ fun _ => rfl
  handleAmPm r := by
    dsimp only [tmTzSetter, tmSetter, tmSetterOn]
    rw [Option.map_map]
    rfl
  handleYear r := by
    dsimp only [tmTzSetter, tmSetter, tmSetterOn]
    rw [Option.map_map]
    rfl

/-- A change of the time zone of a `tm_with_tz`: of `tm_gmtoff`, `tz_offset` and `tz_name`. -/
def TmWithTz.rezone (z : Int × Option Int × Option (List Nat) → Int × Option Int × Option (List Nat)) (t : TmWithTz) : TmWithTz :=
  ⟨{ t.tm with gmtoff := (z (t.tm.gmtoff, t.tzOffset, t.tzName)).1 }, (z (t.tm.gmtoff, t.tzOffset, t.tzName)).2.1, (z (t.tm.gmtoff, t.tzOffset, t.tzName)).2.2⟩

theorem along_rezone (gmtoff gmtoff' : Bool) (z : Int × Option Int × Option (List Nat) → Int × Option Int × Option (List Nat)) :
    SettersAlong (TmWithTz.rezone z) (tmTzSetter gmtoff) (tmTzSetter gmtoff') where
  subsec r v := part_err _ _ _
  sec r v := by
    dsimp only [tmTzSetter, tmSetterOn]
    refine part_field _ _ _ _ _ _ ?_
    intro _; rfl
  min r v := by
    dsimp only [tmTzSetter, tmSetterOn]
    refine part_field _ _ _ _ _ _ ?_
    intro _; rfl
  hour24 r v := by
    dsimp only [tmTzSetter, tmSetterOn]
    refine part_field _ _ _ _ _ _ ?_
    intro _; rfl
  hour12 r v := by
    dsimp only [tmTzSetter, tmSetterOn]
    refine part_field _ _ _ _ _ _ ?_
    intro _; rfl
  mday r v := by
    dsimp only [tmTzSetter, tmSetterOn]
    refine part_field _ _ _ _ _ _ ?_
    intro _; rfl
  mon r v := by
    dsimp only [tmTzSetter, tmSetterOn]
    refine part_field _ _ _ _ _ _ ?_
    intro _; rfl
  wday r v := by
    dsimp only [tmTzSetter, tmSetterOn]
    refine part_field _ _ _ _ _ _ ?_
    intro _; rfl
  yday r v := by
    dsimp only [tmTzSetter, tmSetterOn]
    refine part_field _ _ _ _ _ _ ?_
    intro _; rfl
  fullYear r v := by
    dsimp only [tmTzSetter, tmSetterOn]
    split
    · exact part_err _ _ _
    · exact part_mark _ _ _
  century r v := part_mark _ _ _
  shortYear r v := by
    dsimp only [tmTzSetter, tmSetterOn]
    split
    · exact part_err _ _ _
    · exact part_mark _ _ _
  handleAmPm r := by
    dsimp only [tmTzSetter, tmSetterOn]
    rw [Option.map_map]
    rfl
  handleYear r := by
    dsimp only [tmTzSetter, tmSetterOn]
    rw [Option.map_map]
    rfl

/-! ### The same format for the two destinations -/

theorem check_along (g g' : Bool) (k k' : TmKind) :
    Along (checkHandler g k) (checkHandler g' k') id fun x => ∀ f ∈ x.checkedFields, k.supports g f = true ∧ k'.supports g' f = true := by
  refine ⟨fun _ => rfl, fun c x hx => ?_⟩
  have hfold : ∀ (fs : List ChronoField) (c : Checker), (∀ f ∈ fs, k.supports g f = true ∧ k'.supports g' f = true) →
      fs.foldl (fun c f => Checker.field g' k' f c) c = fs.foldl (fun c f => Checker.field g k f c) c := by
    intro fs
    induction fs with
    | nil => intro c _; rfl
    | cons f fs ih =>
      intro c h
      have h1 := h f (by simp)
      rw [List.foldl_cons, List.foldl_cons, ih _ fun y hy => h y (by simp [hy])]
      congr 1
      simp only [Checker.field, h1.1, h1.2]
  show Checker.call g' k' c x = (Checker.call g k c x).map id
  rw [Option.map_id]
  by_cases hp : PlainCall x
  · rw [check_call g k c x hp, check_call g' k' c x hp]
    exact congrArg some (hfold _ c hx)
  · cases x <;> first | rfl | (exact absurd ⟨(by intro h; cases h), (by intro h; cases h), rfl⟩ hp)

theorem checked_calls {g : Bool} {k : TmKind} {c c' : Checker} {xs : List ChronoCall} (h : Calls (checkHandler g k) c xs c') :
    ∀ x ∈ xs, ∀ f ∈ x.checkedFields, k.supports g f = true := by
  induction h with
  | nil => intro x hx; cases hx
  | cons st x st' cs st'' hc hok hs ih =>
    intro y hy
    rcases List.mem_cons.1 hy with rfl | hy
    · have hc : Checker.call g k st y = some st' := hc
      by_cases hp : PlainCall y
      · rw [check_call g k st y hp] at hc
        cases hc
        exact (check_fold_ok g k _ st (by simpa [checkHandler] using hok)).2.1
      · intro f hf
        exfalso
        cases y <;> first | (cases hf; done) | (exact hp ⟨(by intro h; cases h), (by intro h; cases h), rfl⟩)
    · exact ih y hy

/-- An accepted format is accepted, with the same text, for a destination that supports all that the first supports. -/
theorem accepted_along {e : Enc} {g g' : Bool} {k k' : TmKind} (hsup : ∀ f, k.supports g f = true → k'.supports g' f = true) {pos fmt p : List Nat}
    (h : chronoParse e g k pos = .ok (fmt, p)) : chronoParse e g' k' pos = .ok (fmt, p) := by
  unfold chronoParse at h ⊢
  cases pos with
  | nil => cases h
  | cons c r =>
    dsimp only at h ⊢
    by_cases hc : c = 125
    · rw [if_pos hc] at h; cases h
    · rw [if_neg hc] at h ⊢
      cases hp : parseChrono e (checkHandler g k) {} (c :: r) with
      | none => rw [hp] at h; cases h
      | some v =>
        obtain ⟨chk, q⟩ := v
        rw [hp] at h
        dsimp only at h
        cases hf : chk.failed with
        | true => rw [hf, if_pos rfl] at h; cases h
        | false =>
          obtain ⟨xs, hx, hcalls⟩ := parse_success e (checkHandler g k) (check_sticky g k) hp (by simp [checkHandler, hf])
          have := parse_along e (check_along g g' k k') {} hx fun x hx f hf => ⟨checked_calls hcalls x hx f hf, hsup f (checked_calls hcalls x hx f hf)⟩
          rw [hp] at this
          rw [show ({} : Checker) = id {} from rfl, this]
          exact h

/-- What a format accepted for `std::tm` calls. -/
theorem accepted_zone {e : Enc} {g : Bool} {k : TmKind} {pos fmt p : List Nat} (h : chronoParse e g k pos = .ok (fmt, p)) :
    ∃ xs, formatCalls e fmt = some (xs, []) ∧ (k.supports g .tzname = false → .tzName ∉ xs) ∧ (k.supports g .tzoff = false → ∀ s, .tzOffset s ∉ xs) := by
  obtain ⟨l, ys, h1, _, hl, hy, _, _⟩ := accepted h
  have out : ∀ x, x ∈ l ++ ys ++ [.verify] → x ≠ .localized → x ≠ .verify → x ∈ ys := by
    intro x hx n1 n2
    rcases List.mem_append.1 hx with hx | hx
    · rcases List.mem_append.1 hx with hx | hx
      · rcases hl with rfl | rfl
        · cases hx
        · exact absurd (List.mem_singleton.1 hx) n1
      · exact hx
    · exact absurd (List.mem_singleton.1 hx) n2
  refine ⟨_, h1, fun hn hx => ?_, fun hz s hx => ?_⟩
  · have := (hy _ (out _ hx (by intro h; cases h) (by intro h; cases h))).2 .tzname (by simp [ChronoCall.checkedFields])
    rw [hn] at this; cases this
  · have := (hy _ (out _ hx (by intro h; cases h) (by intro h; cases h))).2 .tzoff (by simp [ChronoCall.checkedFields])
    rw [hz] at this; cases this

/-! ### What is written is read back into a `tm_with_tz` -/

/-- A `tm_with_tz` while fields are being set. -/
def trackedTz (gmtoff : Bool) (c : Civil) (t : TmWithTz) (F : List ChronoField) : TmWithTz where
  tm := { trackedTm c t.tm F with gmtoff := if gmtoff = true ∧ .tzoff ∈ F then c.offset * 60 else t.tm.gmtoff }
  tzOffset := if .tzoff ∈ F then some c.offset else t.tzOffset
  tzName := t.tzName

def markedTz (gmtoff : Bool) (f : ChronoField) : Bool := decide (f ≠ .tzoff ∨ gmtoff = false)

theorem tracks_tmTz (gmtoff : Bool) (c : Civil) (hv : c.Valid) (t : TmWithTz) :
    Tracks (tmTzSetter gmtoff) c (TmKind.supports gmtoff .tmWithTz) (fun F => (trackedTz gmtoff c t F, trackedSt c (markedTz gmtoff) F)) where
  classic _ := rfl
  step F x f hx hset hsup hf hcl rg p := by
    have hn := trackedSt_has c (markedTz gmtoff) F f hf
    have h12 := hour12_range c.hour
    obtain ⟨vy, vmo, vmd, vw, vyd, vh, vmi, vs⟩ := hv
    cases x <;> simp only [fieldOf, Option.some.injEq, reduceCtorEq] at hx <;> subst hx
    case fullYear =>
      dsimp only [assign, tmTzSetter, tmSetterOn]
      rw [if_neg (by omega)]
      rw [mark_new _ _ _ _ _ hn]
      simp [trackedTz, trackedTm, trackedSt, markedTz]
    case shortYear =>
      dsimp only [assign, tmTzSetter, tmSetterOn]
      rw [if_neg (by omega)]
      rw [mark_new _ _ _ _ _ (by exact hn)]
      have : (((c.year % 100 : Nat) : Int) % 256).toNat = c.year % 100 := by omega
      simp only [this]
      simp [trackedTz, trackedTm, trackedSt, markedTz]
    case century =>
      dsimp only [assign, tmTzSetter, tmSetterOn]
      rw [mark_new _ _ _ _ _ (by exact hn)]
      have : (((c.year / 100 : Nat) : Int) % 256).toNat = c.year / 100 := by omega
      simp only [this]
      simp [trackedTz, trackedTm, trackedSt, markedTz]
    case amPm =>
      dsimp only [assign, tmTzSetter, tmSetterOn]
      rw [mark_new _ _ _ _ _ (by exact hn)]
      simp [trackedTz, trackedTm, trackedSt, markedTz]
    case tzOffset =>
      dsimp only [assign, tmTzSetter, tmSetterOn]
      cases gmtoff with
      | true =>
        simp [trackedTz, trackedTm, trackedSt, markedTz]
      | false =>
        rw [if_neg (by decide)]
        rw [mark_new _ _ _ _ _ hn]
        simp [trackedTz, trackedTm, trackedSt, markedTz]
    case tzName => cases hset
    case dec1Weekday => cases hset
    case hour24 =>
      dsimp only [assign, tmTzSetter, tmSetterOn]
      rw [setField_ok _ _ _ _ _ hn _ _ _ (by omega)]
      simp [trackedTz, trackedTm, trackedSt, markedTz]
    case hour12 =>
      dsimp only [assign, tmTzSetter, tmSetterOn]
      rw [setField_ok _ _ _ _ _ hn _ _ _ (by omega)]
      have : ChronoField.hour24 ∉ F := fun h => hcl ⟨by simp [h], by simp⟩
      simp [trackedTz, trackedTm, trackedSt, markedTz, this]
    case monthName =>
      dsimp only [assign, tmTzSetter, tmSetterOn]
      rw [setField_ok _ _ _ _ _ hn _ _ _ (by omega)]
      simp [trackedTz, trackedTm, trackedSt, markedTz]
    case decMonth =>
      dsimp only [assign, tmTzSetter, tmSetterOn]
      rw [setField_ok _ _ _ _ _ hn _ _ _ (by omega)]
      simp [trackedTz, trackedTm, trackedSt, markedTz]
    case dayOfYear =>
      dsimp only [assign, tmTzSetter, tmSetterOn]
      rw [setField_ok _ _ _ _ _ hn _ _ _ (by omega)]
      simp [trackedTz, trackedTm, trackedSt, markedTz]
    case dayOfMonth =>
      dsimp only [assign, tmTzSetter, tmSetterOn]
      rw [setField_ok _ _ _ _ _ hn _ _ _ (by omega)]
      simp [trackedTz, trackedTm, trackedSt, markedTz]
    case weekdayName =>
      dsimp only [assign, tmTzSetter, tmSetterOn]
      rw [setField_ok _ _ _ _ _ hn _ _ _ (by omega)]
      simp [trackedTz, trackedTm, trackedSt, markedTz]
    case dec0Weekday =>
      dsimp only [assign, tmTzSetter, tmSetterOn]
      rw [setField_ok _ _ _ _ _ hn _ _ _ (by omega)]
      simp [trackedTz, trackedTm, trackedSt, markedTz]
    case minute =>
      dsimp only [assign, tmTzSetter, tmSetterOn]
      rw [setField_ok _ _ _ _ _ hn _ _ _ (by omega)]
      simp [trackedTz, trackedTm, trackedSt, markedTz]
    case second =>
      dsimp only [assign, tmTzSetter, tmSetterOn]
      rw [setField_ok _ _ _ _ _ hn _ _ _ (by omega)]
      simp [trackedTz, trackedTm, trackedSt, markedTz]


theorem verify_tmTz (gmtoff : Bool) (c : Civil) (hv : c.Valid) (t : TmWithTz) (F : List ChronoField) (hF : Compatible F) (rg p : List Nat) :
    Rd.verify (tmTzSetter gmtoff) ⟨rg, p, trackedTz gmtoff c t F, trackedSt c (markedTz gmtoff) F, none⟩ =
      some ⟨rg, p, setTmTz gmtoff F c t, trackedSt c (markedTz gmtoff) F, none⟩ := by
  have h1 := part_verify (along_base gmtoff) ⟨rg, p, ⟨trackedTm c t.tm F, none, none⟩, trackedSt c (markedTz gmtoff) F, none⟩
  have h2 : Rd.verify (tmSetter gmtoff) (Rd.part TmWithTz.tm ⟨rg, p, ⟨trackedTm c t.tm F, none, none⟩, trackedSt c (markedTz gmtoff) F, none⟩) = _ :=
    verify_tm_marked gmtoff (marked := markedTz gmtoff) (fun f hf => by simp [markedTz, hf]) c hv t.tm F hF rg p
  rw [h2] at h1
  obtain ⟨R, hR, hp⟩ := Option.map_eq_some_iff.1 h1
  let Z : Int × Option Int × Option (List Nat) :=
    (if gmtoff = true ∧ .tzoff ∈ F then c.offset * 60 else t.tm.gmtoff, if .tzoff ∈ F then some c.offset else t.tzOffset, t.tzName)
  have h3 := part_verify (along_rezone gmtoff gmtoff fun _ => Z) ⟨rg, p, ⟨trackedTm c t.tm F, none, none⟩, trackedSt c (markedTz gmtoff) F, none⟩
  rw [hR] at h3
  refine h3.symm.trans (congrArg some ?_)
  obtain ⟨rg', p', tm', st', e'⟩ := R
  unfold Rd.part at hp ⊢
  injection hp with a1 a2 a3 a4 a5
  dsimp only at a1 a2 a3 a4 a5 ⊢
  subst a1 a2 a4 a5
  congr 1
  unfold TmWithTz.rezone setTmTz
  rw [a3]

/-- From the replacement field to a `tm_with_tz`. -/
theorem chronoCustom_tmTz (cfg : ChronoCfg) (hl : GoodLayouts cfg.enc cfg.lay) (gmtoff : Bool) (c : Civil) (hv : c.Valid) (is : List FmtItem)
    (hfmt : FormatOk cfg.enc is) (hnd : (fieldsOf (callsOf is)).Nodup) (hF : Compatible (fieldsOf (callsOf is)))
    {ws t rest : List Nat} (h : ShownSeq cfg.enc c (callsOf is) t rest) (hw : Spaces ws) (hne : t ++ rest ≠ [])
    (hfirst : (t ++ rest).dropWhile isSpace = t ++ rest) (hs : ∀ c ∈ rest, IsScalar c) (t0 : TmWithTz) (r : List Nat) :
    chronoCustom cfg gmtoff .tmWithTz (tmTzSetter gmtoff) t0 (formatText is ++ 125 :: r) (encodes cfg.enc (ws ++ (t ++ rest))) =
      (125 :: r, .ok (setTmTz gmtoff (fieldsOf (callsOf is)) c t0, encodes cfg.enc rest)) := by
  have hsup : ∀ f ∈ fieldsOf (callsOf is), TmKind.supports gmtoff .tmWithTz f = true := by
    intro f hf
    cases f <;> first | rfl | skip
    exfalso
    have : ∀ x : ChronoCall, fieldOf x ≠ some .subsec := by intro x; cases x <;> simp [fieldOf]
    unfold fieldsOf at hf
    obtain ⟨x, _, hx⟩ := List.mem_filterMap.1 hf
    exact this x hx
  unfold chronoCustom
  rw [chronoParse_ok cfg.enc gmtoff .tmWithTz is hfmt hnd hF (fun _ => rfl) (not_tzname h)]
  dsimp only
  rw [chronoScan_shown cfg hl (tmTzSetter gmtoff) c hv (tracks_tmTz gmtoff c hv t0) t0 (by simp [trackedTz, trackedTm, trackedSt]) is hfmt h hw hne hfirst hs
    hsup hnd hF.clock (setTmTz gmtoff (fieldsOf (callsOf is)) c t0) (trackedSt c (markedTz gmtoff) (fieldsOf (callsOf is)).reverse) none ?_]
  · rfl
  · intro rg p
    rw [verify_tmTz gmtoff c hv t0 _ (compatible_reverse hF)]
    simp [setTmTz, setTm_reverse]

end Scn
