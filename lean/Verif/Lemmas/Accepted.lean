import Verif.Spec.Accepted
import Verif.Lemmas.Numbers
/-
Date and time formats that pass the check: which errors a scan can report then.
-/
namespace Scn
open Spec
variable {σ T : Type}

/-! ### The calls made, with errors or without -/

theorem Steps.append {h : ChronoHandler σ} {a b c : σ} {xs ys : List ChronoCall} (h1 : Steps h a xs b) (h2 : Steps h b ys c) : Steps h a (xs ++ ys) c := by
  induction h1 with
  | nil => exact h2
  | cons st x st' cs st'' hc _ ih => exact .cons _ _ _ _ _ hc (ih h2)

/-- The handler gets some of the calls, from the first on. -/
def Began (h : ChronoHandler σ) (st : σ) (xs : List ChronoCall) (st' : σ) : Prop := ∃ ys, ys <+: xs ∧ Steps h st ys st'

theorem Began.cons {h : ChronoHandler σ} {st a st' : σ} {x : ChronoCall} {xs : List ChronoCall} (hc : h.call st x = some a) (hb : Began h a xs st') :
    Began h st (x :: xs) st' := by
  obtain ⟨ys, h1, h2⟩ := hb
  exact ⟨x :: ys, (List.prefix_cons_inj x).2 h1, .cons _ _ _ _ _ hc h2⟩

theorem Began.nil (h : ChronoHandler σ) (st : σ) (xs : List ChronoCall) : Began h st xs st := ⟨[], List.nil_prefix, .nil _⟩

theorem Began.one {h : ChronoHandler σ} {st st' : σ} {x : ChronoCall} {xs : List ChronoCall} (hc : h.call st x = some st') : Began h st (x :: xs) st' :=
  .cons hc (.nil _ _ _)

theorem loop_began (e : Enc) (h : ChronoHandler σ) (n : Nat) : ∀ st acc p st' p', chronoLoop e h n st acc p = some (st', p') →
    ∀ xs q, chronoLoop e recorder n [] acc p = some (xs, q) → Began h st xs st' := by
  have key : ∀ (acc : List Nat) (tr : List ChronoCall), (if acc = [] then some tr else recorder.call tr (.text acc)) = some (tr ++ if acc = [] then [] else [.text acc]) := by
    intro acc tr; split <;> simp [recorder_call]
  have flush : ∀ (st : σ) (acc : List Nat) (f : σ → Option (σ × List Nat)) (xs : List ChronoCall) (v : σ × List Nat),
      ((if acc = [] then some st else h.call st (.text acc)).bind f) = some v → (∀ a, f a = some v → Began h a xs v.1) →
      Began h st ((if acc = [] then [] else [.text acc]) ++ xs) v.1 := by
    intro st acc f xs v hf hfa
    obtain ⟨a, ha, hf⟩ := bind_some_iff.1 hf
    by_cases hacc : acc = []
    · rw [if_pos hacc] at ha ⊢; cases ha; exact hfa _ hf
    · rw [if_neg hacc] at ha ⊢; exact .cons ha (hfa a hf)
  have fin : ∀ st acc p st' p', chronoFinish h st acc p = some (st', p') → ∀ xs q, chronoFinish recorder [] acc p = some (xs, q) → Began h st xs st' := by
    intro st acc p st' p' hf xs q hr
    unfold chronoFinish at hf hr
    rw [key] at hr
    simp only [recorder_call, Option.bind_some, Option.map_some, Option.some.injEq, Prod.mk.injEq, List.nil_append] at hr
    obtain ⟨rfl, rfl⟩ := hr
    refine flush st acc _ _ (st', p') hf fun a ha => ?_
    obtain ⟨b, hb, heq⟩ := Option.map_eq_some_iff.1 ha
    cases heq; exact .one hb
  have err : ∀ (st st' : σ) (p' q : List Nat), ((h.call st .error).map fun st => (st, q)) = some (st', p') → ∀ xs q',
      ((recorder.call [] .error).map fun st => (st, q)) = some (xs, q') → Began h st xs st' := by
    intro st st' p' q hf xs q' hr
    cases hr
    obtain ⟨b, hb, heq⟩ := Option.map_eq_some_iff.1 hf
    cases heq; exact .one hb
  induction n with
  | zero => intro st acc p st' p' hf; cases hf
  | succ n ih =>
    have sp : ∀ (st : σ) (acc q : List Nat) (st' : σ) (p' : List Nat),
        ((h.call st (.text acc)).bind fun st => (h.call st .whitespace).bind fun st => chronoLoop e h n st [] q) = some (st', p') → ∀ xs q',
        ((recorder.call [] (.text acc)).bind fun st => (recorder.call st .whitespace).bind fun st => chronoLoop e recorder n st [] q) = some (xs, q') →
          Began h st xs st' := by
      intro st acc q st' p' hf xs q' hr
      simp only [recorder_call, Option.bind_some] at hr
      rw [loop_shift] at hr
      obtain ⟨b, hb, heq⟩ := Option.map_eq_some_iff.1 hr
      cases heq
      obtain ⟨a, ha, hf⟩ := bind_some_iff.1 hf
      obtain ⟨a', ha', hf⟩ := bind_some_iff.1 hf
      exact .cons ha (.cons ha' (ih _ _ _ _ _ hf _ _ hb))
    intro st acc p st' p' hf xs q' hr
    cases p with
    | nil => exact fin _ _ _ _ _ hf _ _ hr
    | cons ch q =>
      rw [chronoLoop] at hf hr
      by_cases h1 : ch = 125
      · rw [if_pos h1] at hf hr; exact fin _ _ _ _ _ hf _ _ hr
      rw [if_neg h1] at hf hr
      by_cases h2 : ch ≠ 37
      · rw [if_pos h2] at hf hr
        by_cases h3 : ch = 32 ∨ 9 ≤ ch ∧ ch ≤ 13
        · rw [if_pos h3] at hf hr; exact sp _ _ _ _ _ hf _ _ hr
        rw [if_neg h3] at hf hr
        by_cases h4 : cpLength e ch = 0
        · rw [if_pos h4] at hf hr; exact err _ _ _ _ hf _ _ hr
        rw [if_neg h4] at hf hr
        by_cases h5 : cpLength e ch = 1
        · rw [if_pos h5] at hf hr; exact ih _ _ _ _ _ hf _ _ hr
        rw [if_neg h5] at hf hr
        by_cases h6 : (ch :: q).length < cpLength e ch
        · rw [if_pos h6] at hf hr; exact err _ _ _ _ hf _ _ hr
        rw [if_neg h6] at hf hr
        obtain ⟨cp, hcp, hr⟩ := bind_some_iff.1 hr
        rw [hcp, Option.bind_some] at hf
        by_cases h7 : isCpSpace cp = true
        · rw [if_pos h7] at hf hr; exact sp _ _ _ _ _ hf _ _ hr
        rw [if_neg h7] at hf hr
        cases hd : List.drop (cpLength e ch) (ch :: q) with
        | nil => rw [hd] at hr; cases hr
        | cons d r => rw [hd] at hf hr; exact ih _ _ _ _ _ hf _ _ hr
      · rw [if_neg h2] at hf hr
        rw [key, Option.bind_some] at hr
        cases hcv : chronoConversion q with
        | mk c r =>
          rw [hcv] at hf hr
          cases c with
          | none =>
            simp only [recorder_call, Option.map_some, Option.some.injEq, Prod.mk.injEq, List.nil_append] at hr
            obtain ⟨rfl, rfl⟩ := hr
            refine flush st acc _ _ (st', p') hf fun a ha => ?_
            obtain ⟨b, hb, heq⟩ := Option.map_eq_some_iff.1 ha
            cases heq; exact .one hb
          | some c =>
            simp only [recorder_call, Option.bind_some, recorder_ok, if_true] at hr
            rw [loop_shift] at hr
            obtain ⟨b, hb, heq⟩ := Option.map_eq_some_iff.1 hr
            cases heq
            rw [List.nil_append, List.append_assoc]
            refine flush st acc _ _ (st', p') hf fun a ha => ?_
            dsimp only at ha
            obtain ⟨a', ha', ha⟩ := bind_some_iff.1 ha
            split at ha
            · exact .cons ha' (ih _ _ _ _ _ ha _ _ hb)
            · cases ha; exact .one ha'

theorem steps_dropEmpty {h : ChronoHandler σ} (htext : ∀ st, h.call st (.text []) = some st) {xs : List ChronoCall} : ∀ {st st' : σ}, Steps h st xs st' →
    Steps h st (dropEmpty xs) st' := by
  induction xs with
  | nil => intro st st' hc; exact hc
  | cons x xs ih =>
    intro st st' hc
    cases hc with
    | cons _ _ a _ _ h1 hs =>
      by_cases hx : x = .text []
      · subst hx
        rw [htext] at h1
        cases h1
        have := ih hs
        simpa [dropEmpty] using this
      · have : dropEmpty (x :: xs) = x :: dropEmpty xs := by simp [dropEmpty, hx]
        rw [this]
        exact .cons _ _ _ _ _ h1 (ih hs)

theorem prefix_dropEmpty {xs ys : List ChronoCall} (h : ys <+: xs) : dropEmpty ys <+: dropEmpty xs := by
  obtain ⟨zs, rfl⟩ := h
  exact ⟨dropEmpty zs, by simp [dropEmpty]⟩

/-- Whatever the outcome, the handler got some of the calls of the format's parts, then `verify`, from the first on. -/
theorem items_began {e : Enc} {h : ChronoHandler σ} (htext : ∀ st, h.call st (.text []) = some st) {is : List FmtItem} (hok : FormatOk e is)
    {st st' : σ} {p : List Nat} (hf : parseChrono e h st (formatText is) = some (st', p)) :
    Began h st (is.map FmtItem.call ++ [.verify]) st' := by
  have hne : ∀ x ∈ is.map FmtItem.call, x ≠ .text [] := by
    intro x hx
    obtain ⟨i, hi, rfl⟩ := List.mem_map.1 hx
    exact item_text (hok.2.1 i hi)
  have h2 := parse_simulation e recorder brief dropEmpty (by
      intro s x
      rw [recorder_call]
      show some (if x = .text [] then dropEmpty s else dropEmpty s ++ [x]) = some (dropEmpty (s ++ [x]))
      unfold dropEmpty
      rw [List.filter_append]
      split
      · rename_i hx; subst hx; simp
      · rename_i hx; simp [hx]) (fun _ => rfl) [] (formatText is)
  have h1 := parseChrono_items e brief (fun st => rfl) is hok [] (Or.inl rfl) [] _ (is.map FmtItem.call ++ [.verify]) (brief_calls _ hne []) rfl
  rw [List.append_nil] at h1
  rw [show dropEmpty [] = [] from rfl, h1] at h2
  obtain ⟨⟨xs, q⟩, hx, _⟩ := Option.map_eq_some_iff.1 h2.symm
  have hd := (formatCalls_items hok [] (Or.inl rfl) (xs := xs) (p := q) (by rw [List.append_nil]; exact hx)).1
  obtain ⟨t, c, js, his⟩ := hok.1
  have hl : formatText is = 37 :: (t ++ formatText js) := by rw [his]; simp [formatText, FmtItem.text]
  have hb : Began h st xs st' := by
    rw [hl] at hf hx
    unfold parseChrono at hf hx
    dsimp only at hf hx
    rw [if_neg (by decide), if_neg (by decide), if_neg (by decide)] at hf hx
    exact loop_began e h _ _ _ _ _ _ hf _ _ hx
  obtain ⟨ys, hy, hs⟩ := hb
  refine ⟨dropEmpty ys, ?_, steps_dropEmpty htext hs⟩
  rw [← hd]
  exact prefix_dropEmpty hy

/-! ### Which setters report a wrong format -/

abbrev Rd.Fine (r : Rd T) : Prop := r.err ≠ some .invalidFormatString

theorem setError_fine {r : Rd T} {e : Err} (h : r.Fine) (he : e ≠ .invalidFormatString) : (r.setError e).Fine := by
  unfold Rd.Fine Rd.setError at *
  cases hr : r.err with
  | none => simpa using he
  | some x => rw [hr] at h; simpa [hr] using h

theorem mark_fine {r : Rd T} {f : ChronoField} (h : r.Fine) (hf : f ∉ r.st.set) : (r.mark f).Fine := by
  unfold Rd.mark SetterState.mark
  rw [if_neg (by simpa [SetterState.has] using hf)]
  exact h

theorem setField_fine {r : Rd T} {f : ChronoField} (lo hi v : Int) (upd : T → T) (h : r.Fine) (hf : f ∉ r.st.set) : (r.setField f lo hi v upd).Fine := by
  unfold Rd.setField
  split
  · exact setError_fine h (by decide)
  · exact mark_fine (r := { r with tm := upd r.tm }) h hf

/-- Setters that report a wrong format only if the field was set before. -/
structure Quiet (set : TmSetter T) (sup : ChronoField → Bool) : Prop where
  sec : ∀ r v, Rd.Fine r → .sec ∉ r.st.set → (set.sec r v).Fine
  min : ∀ r v, Rd.Fine r → .min ∉ r.st.set → (set.min r v).Fine
  hour24 : ∀ r v, Rd.Fine r → .hour24 ∉ r.st.set → (set.hour24 r v).Fine
  hour12 : ∀ r v, Rd.Fine r → .hour12 ∉ r.st.set → (set.hour12 r v).Fine
  mday : ∀ r v, Rd.Fine r → .mday ∉ r.st.set → (set.mday r v).Fine
  mon : ∀ r v, Rd.Fine r → .mon ∉ r.st.set → (set.mon r v).Fine
  fullYear : ∀ r v, Rd.Fine r → .fullYear ∉ r.st.set → (set.fullYear r v).Fine
  century : ∀ r v, Rd.Fine r → .century ∉ r.st.set → (set.century r v).Fine
  shortYear : ∀ r v, Rd.Fine r → .shortYear ∉ r.st.set → (set.shortYear r v).Fine
  wday : ∀ r v, Rd.Fine r → .wday ∉ r.st.set → (set.wday r v).Fine
  yday : ∀ r v, Rd.Fine r → .yday ∉ r.st.set → (set.yday r v).Fine
  tzOffset : sup .tzoff = true → ∀ r v, Rd.Fine r → .tzoff ∉ r.st.set → (set.tzOffset r v).Fine
  tzName : sup .tzname = true → ∀ r v, Rd.Fine r → .tzname ∉ r.st.set → (set.tzName r v).Fine

theorem quiet_tmOn (gmtoff : Bool) (get : T → Tm) (upd : (Tm → Tm) → T → T) : Quiet (tmSetterOn gmtoff get upd) (TmKind.supports gmtoff .tm) where
  sec r v h hf := setField_fine _ _ _ _ h hf
  min r v h hf := setField_fine _ _ _ _ h hf
  hour24 r v h hf := setField_fine _ _ _ _ h hf
  hour12 r v h hf := setField_fine _ _ _ _ h hf
  mday r v h hf := setField_fine _ _ _ _ h hf
  mon r v h hf := setField_fine _ _ _ _ h hf
  fullYear r v h hf := by
    dsimp only [tmSetterOn]
    split
    · exact setError_fine h (by decide)
    · apply mark_fine
      · exact h
      · exact hf
  century r v h hf := by
    apply mark_fine
    · exact h
    · exact hf
  shortYear r v h hf := by
    dsimp only [tmSetterOn]
    split
    · exact setError_fine h (by decide)
    · apply mark_fine
      · exact h
      · exact hf
  wday r v h hf := setField_fine _ _ _ _ h hf
  yday r v h hf := setField_fine _ _ _ _ h hf
  tzOffset hs r v h hf := by
    dsimp only [tmSetterOn]
    rw [if_pos (by exact hs)]
    exact h
  tzName hs := by cases hs

theorem quiet_tmTz (gmtoff : Bool) : Quiet (tmTzSetter gmtoff) (TmKind.supports gmtoff .tmWithTz) :=
  have b := quiet_tmOn gmtoff (fun t : TmWithTz => t.tm) (fun f t => { t with tm := f t.tm })
  { sec := b.sec, min := b.min, hour24 := b.hour24, hour12 := b.hour12, mday := b.mday, mon := b.mon, fullYear := b.fullYear, century := b.century,
    shortYear := b.shortYear, wday := b.wday, yday := b.yday
    tzOffset := fun _ r v h hf => by
      dsimp only [tmTzSetter, tmSetterOn]
      cases gmtoff with
      | false =>
        simp only [Bool.false_eq_true, if_false]
        apply mark_fine
        · exact h
        · exact hf
      | true => exact h
    tzName := fun _ r v h hf => by
      dsimp only [tmTzSetter]
      apply mark_fine
      · exact h
      · exact hf }

theorem quiet_dt (gmtoff : Bool) : Quiet dtSetter (TmKind.supports gmtoff .components) where
  sec r v h hf := setField_fine _ _ _ _ h hf
  min r v h hf := setField_fine _ _ _ _ h hf
  hour24 r v h hf := setField_fine _ _ _ _ h hf
  hour12 r v h hf := setField_fine _ _ _ _ h hf
  mday r v h hf := setField_fine _ _ _ _ h hf
  mon r v h hf := setField_fine _ _ _ _ h hf
  fullYear r v h hf := by apply mark_fine; exact h; exact hf
  century r v h hf := by apply mark_fine; exact h; exact hf
  shortYear r v h hf := by apply mark_fine; exact h; exact hf
  wday r v h hf := setField_fine _ _ _ _ h hf
  yday r v h hf := setField_fine _ _ _ _ h hf
  tzOffset _ r v h hf := by apply mark_fine; exact h; exact hf
  tzName _ r v h hf := by apply mark_fine; exact h; exact hf

theorem readUInt_fine (lo hi : Nat) {r : Rd T} (h : r.Fine) : (r.readUInt lo hi).2.Fine := by
  unfold Rd.readUInt
  dsimp only
  split
  · exact setError_fine (r := { r with pos := _ }) h (by decide)
  · exact h

theorem numberOr_fine {f : ChronoField} (cfg : ChronoCfg) (s : NumSys) (fmt : List Nat) (ft : Tm → Int) (g : Int → Int)
    (lo hi : Nat) (set : Rd T → Int → Rd T) (hq : ∀ r v, Rd.Fine r → f ∉ r.st.set → (set r v).Fine) {r : Rd T} (hl : r.st.localized = false)
    (h : r.Fine) (hf : f ∉ r.st.set) : (r.numberOr cfg s fmt ft g lo hi set).Fine := by
  unfold Rd.numberOr
  rw [if_neg (by simp [Rd.useLocale, hl])]
  exact hq _ _ (readUInt_fine lo hi h) (by rw [(readUInt_st lo hi r).1]; exact hf)

theorem name_fine {α : Type} {f : ChronoField} (long short : List (List Nat × α)) (set : Rd T → α → Rd T)
    (hq : ∀ r v, Rd.Fine r → f ∉ r.st.set → (set r v).Fine) {r r' : Rd T} (h : r.Fine) (hf : f ∉ r.st.set)
    (hr : r.name long short set = some r') : r'.Fine := by
  unfold Rd.name at hr
  obtain ⟨a, _, hr⟩ := bind_some_iff.1 hr
  cases a with
  | some vp => cases hr; exact hq _ _ h hf
  | none =>
    obtain ⟨b, _, hr⟩ := Option.map_eq_some_iff.1 hr
    cases b with
    | some vp => subst hr; exact hq _ _ h hf
    | none => subst hr; exact setError_fine h (by decide)

theorem tzHours_fine (set : Rd T → Int → Rd T) (hq : ∀ r v, Rd.Fine r → .tzoff ∉ r.st.set → (set r v).Fine) (sys : NumSys) (minus : Bool) {r : Rd T}
    (h : r.Fine) (hf : .tzoff ∉ r.st.set) : (r.tzHours set sys minus).Fine := by
  have h2 : ∀ (b : Bool) (r : Rd T), r.Fine → (r.tzMinutes b).2.st = r.st ∧ (r.tzMinutes b).2.Fine := by
    intro b r h
    unfold Rd.tzMinutes
    split
    · exact ⟨rfl, h⟩
    · rename_i c q _
      split
      · split
        · exact ⟨(readUInt_st 2 2 { r with pos := q }).1, readUInt_fine 2 2 h⟩
        · exact ⟨rfl, h⟩
      · split
        · exact ⟨rfl, h⟩
        · split
          · exact ⟨(readUInt_st 2 2 r).1, readUInt_fine 2 2 h⟩
          · exact ⟨rfl, h⟩
  unfold Rd.tzHours
  split
  · exact setError_fine h (by decide)
  · have h1 := readUInt_st (if sys = .standard then 2 else 1) 2 r
    have h3 := h2 (decide (sys ≠ .standard)) _ (readUInt_fine (if sys = .standard then 2 else 1) 2 h)
    exact hq _ _ h3.2 (by rw [h3.1, h1.1]; exact hf)

/-- The conversions that are read by themselves. -/
def Readable (x : ChronoCall) : Prop := (fieldOf x).isSome = true ∨ x = .whitespace

/-- Such a conversion reports a wrong format only if its field was set before. -/
theorem simple_fine (cfg : ChronoCfg) (set : TmSetter T) {sup : ChronoField → Bool} (hq : Quiet set sup) {x : ChronoCall} (hx : Readable x) {r r' : Rd T}
    (hl : r.st.localized = false) (hsup : ∀ f, fieldOf x = some f → sup f = true) (hnew : ∀ f, fieldOf x = some f → f ∉ r.st.set) (hf : r.Fine)
    (h : r.simple cfg set x = some r') : r'.Fine := by
  cases x with
  | whitespace =>
    dsimp only [Rd.simple, Rd.onWhitespace] at h
    split at h
    · cases h; exact hf
    · rename_i e he
      cases h
      unfold skipSpace at he
      split at he
      · cases he
      · split at he
        · cases he; exact setError_fine hf (by decide)
        · cases he
    · cases h
  | fullYear s => cases h; exact numberOr_fine cfg _ _ _ _ _ _ _ hq.fullYear hl hf (hnew _ rfl)
  | shortYear s => cases h; exact numberOr_fine cfg _ _ _ _ _ _ _ hq.shortYear hl hf (hnew _ rfl)
  | century s => cases h; exact numberOr_fine cfg _ _ _ _ _ _ _ hq.century hl hf (hnew _ rfl)
  | decMonth s => cases h; exact numberOr_fine cfg _ _ _ _ _ _ _ hq.mon hl hf (hnew _ rfl)
  | dayOfMonth s => cases h; exact numberOr_fine cfg _ _ _ _ _ _ _ hq.mday hl hf (hnew _ rfl)
  | dec0Weekday s => cases h; exact numberOr_fine cfg _ _ _ _ _ _ _ hq.wday hl hf (hnew _ rfl)
  | dec1Weekday s => cases h; exact numberOr_fine cfg _ _ _ _ _ _ _ hq.wday hl hf (hnew _ rfl)
  | hour24 s => cases h; exact numberOr_fine cfg _ _ _ _ _ _ _ hq.hour24 hl hf (hnew _ rfl)
  | hour12 s => cases h; exact numberOr_fine cfg _ _ _ _ _ _ _ hq.hour12 hl hf (hnew _ rfl)
  | minute s => cases h; exact numberOr_fine cfg _ _ _ _ _ _ _ hq.min hl hf (hnew _ rfl)
  | second s => cases h; exact numberOr_fine cfg _ _ _ _ _ _ _ hq.sec hl hf (hnew _ rfl)
  | dayOfYear =>
    cases h
    exact hq.yday _ _ (readUInt_fine _ _ hf) (by rw [(readUInt_st _ _ r).1]; exact hnew _ rfl)
  | monthName =>
    dsimp only [Rd.simple] at h
    rw [if_neg (by rw [hl]; decide)] at h
    exact name_fine _ _ _ hq.mon hf (hnew _ rfl) h
  | weekdayName =>
    dsimp only [Rd.simple] at h
    rw [if_neg (by rw [hl]; decide)] at h
    exact name_fine _ _ _ hq.wday hf (hnew _ rfl) h
  | amPm =>
    dsimp only [Rd.simple, Rd.onAmPm] at h
    obtain ⟨a, _, h⟩ := Option.map_eq_some_iff.1 h
    cases a with
    | none => subst h; exact setError_fine hf (by decide)
    | some bp =>
      subst h
      apply mark_fine
      · exact hf
      · exact hnew _ rfl
  | tzOffset s =>
    cases h
    unfold Rd.onTzOffset
    split
    · exact setError_fine hf (by decide)
    · rename_i c q hp
      split
      · exact tzHours_fine _ (hq.tzOffset (hsup _ rfl)) s _ (r := { r with pos := q }) hf (hnew _ rfl)
      · split
        · exact tzHours_fine _ (hq.tzOffset (hsup _ rfl)) s _ (r := { r with pos := q }) hf (hnew _ rfl)
        · exact tzHours_fine _ (hq.tzOffset (hsup _ rfl)) s _ hf (hnew _ rfl)
  | tzName =>
    dsimp only [Rd.simple, Rd.onTzName] at h
    split at h
    · cases h
      exact hq.tzName (hsup _ rfl) r _ hf (hnew _ rfl)
    · cases h
  | _ => rcases hx with h | h <;> cases h

/-- Literal text reports a wrong format only if another unit stands in the source. -/
theorem onText_mismatch (t : List Nat) : ∀ {r : Rd T}, r.err = none → (r.onText t).err = some .invalidFormatString →
    ∃ u c t' d q, t = u ++ c :: t' ∧ r.pos = u ++ d :: q ∧ c ≠ d := by
  induction t with
  | nil => intro r h h'; rw [Rd.onText, h] at h'; cases h'
  | cons c t ih =>
    intro r h h'
    rw [Rd.onText] at h'
    split at h'
    · simp [Rd.setError, h] at h'
    · rename_i d q hp
      split at h'
      · rename_i hne
        exact ⟨[], c, t, d, q, rfl, hp, hne⟩
      · rename_i heq
        obtain ⟨u, c', t', d', q', h1, h2, h3⟩ := ih (r := { r with pos := q }) h h'
        refine ⟨c :: u, c', t', d', q', by rw [h1]; rfl, ?_, h3⟩
        rw [hp, show q = u ++ d' :: q' from h2, show c = d from Classical.byContradiction heq]
        rfl

end Scn
