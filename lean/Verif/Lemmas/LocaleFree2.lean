import Verif.Model.Chrono
/-
Chrono specifications without the flag `L` under two locales.
-/
namespace Scn
variable {σ T : Type}

theorem specifier_not_localized (c : Nat) : chronoSpecifier c ≠ some .localized ∧ chronoSpecifierE c ≠ some .localized ∧ chronoSpecifierO c ≠ some .localized := by
  refine ⟨?_, ?_, ?_⟩
  · unfold chronoSpecifier; split <;> simp
  · unfold chronoSpecifierE; split <;> simp
  · unfold chronoSpecifierO; split <;> simp

theorem conversion_not_localized (q : List Nat) : (chronoConversion q).1 ≠ some .localized := by
  unfold chronoConversion
  split
  · simp
  · simp
  · split
    · split <;> simp
    · split <;> simp
  · simp
  · exact (specifier_not_localized _).2.1
  · simp
  · exact (specifier_not_localized _).2.2
  · exact (specifier_not_localized _).1

/-- Two handlers that agree on an invariant of theirs are led alike. -/
theorem chronoLoop_agree {e : Enc} {h h' : ChronoHandler σ} {I : σ → Prop}
    (agree : ∀ st c, I st → c ≠ .localized → h'.call st c = h.call st c) (ok : ∀ st, h'.ok st = h.ok st)
    (keep : ∀ st c st', I st → c ≠ .localized → h.call st c = some st' → I st') (n : Nat) :
    ∀ st acc p, I st → chronoLoop e h' n st acc p = chronoLoop e h n st acc p := by
  have bindEq : ∀ {α : Type} (st : σ) (c : ChronoCall) (f f' : σ → Option α), I st → c ≠ .localized → (∀ st', I st' → f' st' = f st') →
      (h'.call st c).bind f' = (h.call st c).bind f := by
    intro α st c f f' hi hc hf
    rw [agree st c hi hc]
    cases hcall : h.call st c with
    | none => rfl
    | some st' => exact hf st' (keep st c st' hi hc hcall)
  have mapEq : ∀ {α : Type} (st : σ) (c : ChronoCall) (f : σ → α), I st → c ≠ .localized → (h'.call st c).map f = (h.call st c).map f := by
    intro α st c f hi hc
    rw [agree st c hi hc]
  have flush : ∀ {α : Type} (st : σ) (acc : List Nat) (f f' : σ → Option α), I st → (∀ st', I st' → f' st' = f st') →
      (if acc = [] then some st else h'.call st (.text acc)).bind f' = (if acc = [] then some st else h.call st (.text acc)).bind f := by
    intro α st acc f f' hi hf
    split
    · exact hf st hi
    · exact bindEq st _ f f' hi (by simp) hf
  have fin : ∀ st acc p, I st → chronoFinish h' st acc p = chronoFinish h st acc p := by
    intro st acc p hi
    unfold chronoFinish
    exact flush st acc _ _ hi fun st' hi' => mapEq st' _ _ hi' (by simp)
  induction n with
  | zero => intro st acc p _; rfl
  | succ n ih =>
    intro st acc p hi
    cases p with
    | nil => exact fin st acc [] hi
    | cons ch q =>
      have sp : ∀ q, ((h'.call st (.text acc)).bind fun st => (h'.call st .whitespace).bind fun st => chronoLoop e h' n st [] q) =
          ((h.call st (.text acc)).bind fun st => (h.call st .whitespace).bind fun st => chronoLoop e h n st [] q) :=
        fun q => bindEq st _ _ _ hi (by simp) fun st' hi' => bindEq st' _ _ _ hi' (by simp) fun st'' hi'' => ih st'' [] q hi''
      rw [chronoLoop, chronoLoop]
      split
      · exact fin st acc _ hi
      · split
        · split
          · exact sp q
          · split
            · exact mapEq st _ _ hi (by simp)
            · split
              · exact ih st _ _ hi
              · split
                · exact mapEq st _ _ hi (by simp)
                · cases decodeCp e ((ch :: q).take (cpLength e ch)) with
                  | none => rfl
                  | some cp =>
                    simp only [Option.bind_some]
                    split
                    · exact sp _
                    · split
                      · rfl
                      · exact ih st _ _ hi
        · refine flush st acc _ _ hi fun st' hi' => ?_
          split
          · exact mapEq st' _ _ hi' (by simp)
          · rename_i c r hcv
            refine bindEq st' c _ _ hi' (fun hc => ?_) fun st'' hi'' => ?_
            · have := conversion_not_localized q
              rw [hcv, hc] at this
              exact this rfl
            · rw [ok]
              split
              · exact ih st'' [] r hi''
              · rfl

theorem setError_localized (r : Rd T) (e : Err) : (r.setError e).st.localized = r.st.localized := by
  unfold Rd.setError; split <;> rfl

theorem mark_localized (r : Rd T) (f : ChronoField) : (r.mark f).st.localized = r.st.localized := by
  have : (r.st.mark f).1.localized = r.st.localized := rfl
  unfold Rd.mark
  split
  · rw [setError_localized]; exact this
  · exact this

theorem setField_localized (r : Rd T) (f : ChronoField) (lo hi v : Int) (upd : T → T) : (r.setField f lo hi v upd).st.localized = r.st.localized := by
  unfold Rd.setField
  split
  · exact setError_localized _ _
  · exact mark_localized _ _

theorem readUInt_localized (r : Rd T) (lo hi : Nat) : (r.readUInt lo hi).2.st.localized = r.st.localized := by
  unfold Rd.readUInt
  dsimp only
  split
  · exact setError_localized _ _
  · rfl

/-- Setters that leave the flag alone. -/
structure TmSetter.Leaves (set : TmSetter T) : Prop where
  subsec : ∀ r v, (set.subsec r v).st.localized = r.st.localized
  sec : ∀ r v, (set.sec r v).st.localized = r.st.localized
  min : ∀ r v, (set.min r v).st.localized = r.st.localized
  hour24 : ∀ r v, (set.hour24 r v).st.localized = r.st.localized
  hour12 : ∀ r v, (set.hour12 r v).st.localized = r.st.localized
  mday : ∀ r v, (set.mday r v).st.localized = r.st.localized
  mon : ∀ r v, (set.mon r v).st.localized = r.st.localized
  fullYear : ∀ r v, (set.fullYear r v).st.localized = r.st.localized
  century : ∀ r v, (set.century r v).st.localized = r.st.localized
  shortYear : ∀ r v, (set.shortYear r v).st.localized = r.st.localized
  wday : ∀ r v, (set.wday r v).st.localized = r.st.localized
  yday : ∀ r v, (set.yday r v).st.localized = r.st.localized
  tzOffset : ∀ r v, (set.tzOffset r v).st.localized = r.st.localized
  tzName : ∀ r v, (set.tzName r v).st.localized = r.st.localized
  handleAmPm : ∀ r r', set.handleAmPm r = some r' → r'.st.localized = r.st.localized
  handleYear : ∀ r r', set.handleYear r = some r' → r'.st.localized = r.st.localized

theorem tmSetterOn_leaves (gmtoff : Bool) (get : T → Tm) (upd : (Tm → Tm) → T → T) : (tmSetterOn gmtoff get upd).Leaves where
  subsec _ _ := setError_localized _ _
  sec _ _ := setField_localized ..
  min _ _ := setField_localized ..
  hour24 _ _ := setField_localized ..
  hour12 _ _ := setField_localized ..
  mday _ _ := setField_localized ..
  mon _ _ := setField_localized ..
  fullYear r v := by
    dsimp only [tmSetterOn]
    split
    · exact setError_localized _ _
    · exact mark_localized _ _
  century _ _ := mark_localized _ _
  shortYear r v := by
    dsimp only [tmSetterOn]
    split
    · exact setError_localized _ _
    · exact mark_localized _ _
  wday _ _ := setField_localized ..
  yday _ _ := setField_localized ..
  tzOffset r v := by
    dsimp only [tmSetterOn]
    split
    · rfl
    · exact setError_localized _ _
  tzName _ _ := setError_localized _ _
  handleAmPm r r' h := by
    simp only [tmSetterOn, Option.map_eq_some_iff] at h
    obtain ⟨_, _, rfl⟩ := h
    rfl
  handleYear r r' h := by
    simp only [tmSetterOn, Option.map_eq_some_iff] at h
    obtain ⟨_, _, rfl⟩ := h
    rfl

theorem tmTzSetter_leaves (gmtoff : Bool) : (tmTzSetter gmtoff).Leaves :=
  have b := tmSetterOn_leaves gmtoff (fun t : TmWithTz => t.tm) (fun f t => { t with tm := f t.tm })
  { b with
    tzOffset := fun r v => by
      dsimp only [tmTzSetter]
      split
      · exact b.tzOffset _ _
      · exact mark_localized _ _
    tzName := fun _ _ => mark_localized _ _ }

theorem dtSetter_leaves : dtSetter.Leaves where
  subsec _ _ := mark_localized _ _
  sec _ _ := setField_localized ..
  min _ _ := setField_localized ..
  hour24 _ _ := setField_localized ..
  hour12 _ _ := setField_localized ..
  mday _ _ := setField_localized ..
  mon _ _ := setField_localized ..
  fullYear _ _ := mark_localized _ _
  century _ _ := mark_localized _ _
  shortYear _ _ := mark_localized _ _
  wday _ _ := setField_localized ..
  yday _ _ := setField_localized ..
  tzOffset _ _ := mark_localized _ _
  tzName _ _ := mark_localized _ _
  handleAmPm r r' h := by
    dsimp only [dtSetter] at h
    split at h
    · cases h
    · simp only [Option.map_eq_some_iff] at h
      obtain ⟨_, _, rfl⟩ := h
      rfl
  handleYear r r' h := by
    dsimp only [dtSetter] at h
    split at h
    · cases h
    · simp only [Option.map_eq_some_iff] at h
      obtain ⟨_, _, rfl⟩ := h
      rfl

theorem onText_localized (t : List Nat) : ∀ r : Rd T, (r.onText t).st.localized = r.st.localized := by
  induction t with
  | nil => intro r; rfl
  | cons c t ih =>
    intro r
    unfold Rd.onText
    split
    · exact setError_localized _ _
    · split
      · exact setError_localized _ _
      · exact ih _

theorem number_localized {set : Rd T → Int → Rd T} (hs : ∀ r v, (set r v).st.localized = r.st.localized) (lo hi : Nat) (r : Rd T) :
    (r.number lo hi set).st.localized = r.st.localized := by
  unfold Rd.number
  rw [hs, readUInt_localized]

theorem numberOr_classic (cfg : ChronoCfg) (s : NumSys) (fmt : List Nat) (fromTm : Tm → Int) (conv : Int → Int) (lo hi : Nat)
    (set : Rd T → Int → Rd T) {r : Rd T} (hr : r.st.localized = false) :
    r.numberOr cfg s fmt fromTm conv lo hi set = r.number lo hi fun r v => set r (conv v) := by
  unfold Rd.numberOr Rd.useLocale
  rw [hr]
  rfl

theorem numberOr_localized {cfg : ChronoCfg} {s : NumSys} {fmt : List Nat} {fromTm : Tm → Int} {conv : Int → Int} {lo hi : Nat}
    {set : Rd T → Int → Rd T} (hs : ∀ r v, (set r v).st.localized = r.st.localized) {r : Rd T} (hr : r.st.localized = false) :
    (r.numberOr cfg s fmt fromTm conv lo hi set).st.localized = false := by
  rw [numberOr_classic _ _ _ _ _ _ _ _ hr, number_localized (fun r v => hs r (conv v)), hr]

theorem name_localized {α : Type} {long short : List (List Nat × α)} {set : Rd T → α → Rd T} (hs : ∀ r v, (set r v).st.localized = r.st.localized)
    {r r' : Rd T} (hr : r.st.localized = false) (h : r.name long short set = some r') : r'.st.localized = false := by
  unfold Rd.name at h
  rw [Option.bind_eq_some_iff] at h
  obtain ⟨o, _, h⟩ := h
  split at h
  · cases h; rw [hs]; exact hr
  · rw [Option.map_eq_some_iff] at h
    obtain ⟨o2, _, h⟩ := h
    split at h
    · cases h; rw [hs]; exact hr
    · cases h; rw [setError_localized]; exact hr

theorem tzMinutes_localized (b : Bool) (r : Rd T) : (r.tzMinutes b).2.st.localized = r.st.localized := by
  unfold Rd.tzMinutes
  split
  · rfl
  · split
    · split
      · exact readUInt_localized _ _ _
      · rfl
    · split
      · rfl
      · split
        · exact readUInt_localized _ _ _
        · rfl

theorem tzHours_localized {set : Rd T → Int → Rd T} (hs : ∀ r v, (set r v).st.localized = r.st.localized) (s : NumSys) (b : Bool) (r : Rd T) :
    (r.tzHours set s b).st.localized = r.st.localized := by
  unfold Rd.tzHours
  split
  · exact setError_localized _ _
  · dsimp only
    rw [hs, tzMinutes_localized, readUInt_localized]

theorem onTzOffset_localized {set : Rd T → Int → Rd T} (hs : ∀ r v, (set r v).st.localized = r.st.localized) (s : NumSys) (r : Rd T) :
    (r.onTzOffset set s).st.localized = r.st.localized := by
  unfold Rd.onTzOffset
  split
  · exact setError_localized _ _
  · split
    · exact tzHours_localized hs _ _ _
    · split
      · exact tzHours_localized hs _ _ _
      · exact tzHours_localized hs _ _ _

theorem verify_localized {set : TmSetter T} (hs : set.Leaves) {r r' : Rd T} (hr : r.st.localized = false) (h : r.verify set = some r') :
    r'.st.localized = false := by
  unfold Rd.verify at h
  dsimp only at h
  generalize hr0 : (if r.st.verify then r else r.setError .invalidFormatString) = r0 at h
  have h0 : r0.st.localized = false := by
    rw [← hr0]; split
    · exact hr
    · rw [setError_localized]; exact hr
  rw [Option.bind_eq_some_iff] at h
  obtain ⟨r1, h1, h⟩ := h
  have hl1 : r1.st.localized = false := by
    split at h1
    · rw [hs.handleAmPm _ _ h1]; exact h0
    · cases h1; exact h0
  split at h
  · rw [hs.handleYear _ _ h]; exact hl1
  · cases h; exact hl1

/-- Two configurations that differ in the locale only. -/
structure SameButLocale (cfg cfg' : ChronoCfg) : Prop where
  enc : cfg'.enc = cfg.enc
  lay : cfg'.lay = cfg.lay
  subsec : cfg'.subsec = cfg.subsec
  scanSet : cfg'.scanSet = cfg.scanSet

theorem onSubsecond_localized {cfg : ChronoCfg} {set : TmSetter T} (hs : set.Leaves) {s : NumSys} {r r' : Rd T} (hr : r.st.localized = false)
    (h : r.onSubsecond cfg set s = some r') : r'.st.localized = false := by
  unfold Rd.onSubsecond at h
  have h0 : (r.number 1 2 set.sec).st.localized = false := by rw [number_localized hs.sec]; exact hr
  generalize r.number 1 2 set.sec = r0 at h h0
  dsimp only at h
  generalize (if r0.useLocale s then throughChar cfg.enc cfg.decimalPoint else 46) = point at h
  split at h
  · cases h; rw [setError_localized]; exact h0
  · split at h
    · cases h; rw [setError_localized]; exact h0
    · split at h
      · cases h
      · cases h; rw [setError_localized]; exact h0
      · split at h
        · cases h; rw [setError_localized]; exact h0
        · split at h
          · cases h
          · cases h; rw [setError_localized]; exact h0
          · cases h; rw [hs.subsec]; exact h0

theorem onSubsecond_agree {cfg cfg' : ChronoCfg} (hc : SameButLocale cfg cfg') {set : TmSetter T} (hs : set.Leaves) {s : NumSys} {r : Rd T} (hr : r.st.localized = false) :
    r.onSubsecond cfg' set s = r.onSubsecond cfg set s := by
  unfold Rd.onSubsecond
  have h0 : (r.number 1 2 set.sec).useLocale s = false := by
    unfold Rd.useLocale
    rw [number_localized hs.sec, hr]; rfl
  simp only [h0, hc.subsec, hc.scanSet, Bool.false_eq_true, if_false]

theorem simple_agree {cfg cfg' : ChronoCfg} (hc : SameButLocale cfg cfg') {set : TmSetter T} (hs : set.Leaves) {r : Rd T} (hr : r.st.localized = false)
    (c : ChronoCall) : r.simple cfg' set c = r.simple cfg set c := by
  cases c <;> simp only [Rd.simple, numberOr_classic _ _ _ _ _ _ _ _ hr, hr, Bool.false_eq_true, if_false, onSubsecond_agree hc hs hr]
  · unfold Rd.onWhitespace; rw [hc.enc, hc.lay]
  · unfold Rd.onTzName; rw [hc.scanSet]

theorem simple_localized {cfg : ChronoCfg} {set : TmSetter T} (hs : set.Leaves) {r r' : Rd T} (hr : r.st.localized = false)
    {c : ChronoCall} (hne : c ≠ .localized) (h : r.simple cfg set c = some r') : r'.st.localized = false := by
  have err : ∀ e, (r.setError e).st.localized = false := fun e => by rw [setError_localized]; exact hr
  unfold Rd.simple at h
  split at h
  case h_1 => cases h; rw [onText_localized]; exact hr
  case h_2 =>
    unfold Rd.onWhitespace at h
    split at h
    · cases h; exact hr
    · cases h; exact err _
    · cases h
  case h_3 => exact absurd rfl hne
  case h_4 => cases h; exact err _
  all_goals
    first
    | (cases h; exact numberOr_localized (by first | exact hs.fullYear | exact hs.shortYear | exact hs.century | exact hs.mon | exact hs.mday | exact hs.wday | exact hs.hour24 | exact hs.hour12 | exact hs.min | exact hs.sec) hr)
    | (rw [if_neg (by simp [hr])] at h; exact name_localized (by first | exact hs.mon | exact hs.wday) hr h)
    | (cases h; rw [number_localized (fun r v => hs.yday r (v - 1))]; exact hr)
    | exact onSubsecond_localized hs hr h
    | (cases h; rw [onTzOffset_localized hs.tzOffset]; exact hr)
    | exact verify_localized hs hr h
    | (cases h; exact err _)
    | skip
  · unfold Rd.onTzName at h
    split at h
    · cases h; exact (hs.tzName _ _).trans hr
    · cases h
  · unfold Rd.onAmPm at h
    rw [Option.map_eq_some_iff] at h
    obtain ⟨o, _, h⟩ := h
    split at h
    · cases h; rw [mark_localized]; exact hr
    · cases h; exact err _

theorem expand_not_localized {x c : ChronoCall} (h : c ∈ x.expand) : c ≠ .localized := by
  cases x <;> simp [ChronoCall.expand] at h <;> rintro rfl <;> simp at h

theorem simples_agree {cfg cfg' : ChronoCfg} (hc : SameButLocale cfg cfg') {set : TmSetter T} (hs : set.Leaves) :
    ∀ (cs : List ChronoCall), (∀ c ∈ cs, c ≠ .localized) → ∀ {r : Rd T}, r.st.localized = false →
      Rd.simples cfg' set cs r = Rd.simples cfg set cs r ∧ ∀ r', Rd.simples cfg set cs r = some r' → r'.st.localized = false := by
  intro cs
  induction cs with
  | nil => intro _ r hr; exact ⟨rfl, fun r' h => by cases h; exact hr⟩
  | cons c cs ih =>
    intro hcs r hr
    unfold Rd.simples
    rw [simple_agree hc hs hr c]
    cases h : r.simple cfg set c with
    | none => exact ⟨rfl, fun _ h => by cases h⟩
    | some r1 => exact ih (fun c h => hcs c (List.mem_cons_of_mem _ h)) (simple_localized hs hr (hcs c List.mem_cons_self) h)

theorem call_agree {cfg cfg' : ChronoCfg} (hc : SameButLocale cfg cfg') {set : TmSetter T} (hs : set.Leaves) {r : Rd T} (hr : r.st.localized = false)
    {c : ChronoCall} (hne : c ≠ .localized) :
    r.call cfg' set c = r.call cfg set c ∧ ∀ r', r.call cfg set c = some r' → r'.st.localized = false := by
  unfold Rd.call
  rw [hr]
  have key := simples_agree hc hs c.expand (fun _ => expand_not_localized) hr
  cases hx : c.expand with
  | nil => exact ⟨simple_agree hc hs hr c, fun r' h => simple_localized hs hr hne h⟩
  | cons a as => rw [hx] at key; exact key

/-- A chrono format that does not begin with `L` is scanned alike under two locales. -/
theorem chronoScan_locale {cfg cfg' : ChronoCfg} (hc : SameButLocale cfg cfg') {set : TmSetter T} (hs : set.Leaves) {fmt : List Nat}
    (hf : fmt.head? ≠ some 76) (t : T) (s : List Nat) : chronoScan cfg' set fmt t s = chronoScan cfg set fmt t s := by
  unfold chronoScan
  rw [hc.enc, hc.lay]
  congr 1
  funext p
  have : parseChrono cfg.enc (readHandler cfg' set) ⟨p, p, t, {}, none⟩ fmt = parseChrono cfg.enc (readHandler cfg set) ⟨p, p, t, {}, none⟩ fmt := by
    have agree : ∀ (st : Rd T) (c : ChronoCall), st.st.localized = false → c ≠ .localized → (readHandler cfg' set).call st c = (readHandler cfg set).call st c :=
      fun st c hi hne => (call_agree hc hs hi hne).1
    unfold parseChrono
    cases fmt with
    | nil => dsimp only; rw [agree _ _ rfl (by simp)]
    | cons c r =>
      have hc76 : c ≠ 76 := fun h => hf (by rw [h]; rfl)
      dsimp only
      rw [if_neg hc76, if_neg hc76, agree _ .error rfl (by simp)]
      split
      · rfl
      · split
        · rfl
        · exact chronoLoop_agree (h := readHandler cfg set) (h' := readHandler cfg' set) (I := fun r => r.st.localized = false) agree (fun _ => rfl)
            (fun st c st' hi hne h => (call_agree hc hs hi hne).2 st' h) _ ⟨p, p, t, {}, none⟩ _ _ rfl
  rw [this]

end Scn
