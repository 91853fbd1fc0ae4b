import Verif.Lemmas.Accepted2
import Verif.Lemmas.WithTz
import Verif.Spec.DateRead
/-
A date and time that is read was written.
-/
namespace Scn
open Spec
variable {T : Type}

/-! ### The setters check the ranges -/

/-- What is set without an error is in its range; `yd` is the largest day of the year, counted from 0. -/
structure InRange (set : TmSetter T) (yd : Nat) : Prop where
  sec : ∀ r v, (set.sec r v).err = none → 0 ≤ v ∧ v ≤ 60
  min : ∀ r v, (set.min r v).err = none → 0 ≤ v ∧ v ≤ 59
  hour24 : ∀ r v, (set.hour24 r v).err = none → 0 ≤ v ∧ v ≤ 23
  hour12 : ∀ r v, (set.hour12 r v).err = none → 1 ≤ v ∧ v ≤ 12
  mday : ∀ r v, (set.mday r v).err = none → 1 ≤ v ∧ v ≤ 31
  mon : ∀ r v, (set.mon r v).err = none → 1 ≤ v ∧ v ≤ 12
  wday : ∀ r v, (set.wday r v).err = none → 0 ≤ v ∧ v ≤ 6
  yday : ∀ r v, (set.yday r v).err = none → 0 ≤ v ∧ v ≤ yd

theorem setField_range {r : Rd T} {f : ChronoField} {lo hi v : Int} {upd : T → T} (h : (r.setField f lo hi v upd).err = none) : lo ≤ v ∧ v ≤ hi := by
  unfold Rd.setField at h
  split at h
  · exact absurd h (setError_err _ _)
  · omega

theorem inRange_tmOn (gmtoff : Bool) (get : T → Tm) (upd : (Tm → Tm) → T → T) : InRange (tmSetterOn gmtoff get upd) 365 where
  sec _ _ h := setField_range h
  min _ _ h := setField_range h
  hour24 _ _ h := setField_range h
  hour12 _ _ h := setField_range h
  mday _ _ h := setField_range h
  mon _ _ h := setField_range h
  wday _ _ h := setField_range h
  yday _ _ h := setField_range h

theorem inRange_tmTz (gmtoff : Bool) : InRange (tmTzSetter gmtoff) 365 :=
  have k := inRange_tmOn gmtoff (fun t : TmWithTz => t.tm) (fun f t => { t with tm := f t.tm })
  ⟨k.sec, k.min, k.hour24, k.hour12, k.mday, k.mon, k.wday, k.yday⟩

theorem inRange_dt : InRange dtSetter 6 where
  sec _ _ h := setField_range h
  min _ _ h := setField_range h
  hour24 _ _ h := setField_range h
  hour12 _ _ h := setField_range h
  mday _ _ h := setField_range h
  mon _ _ h := setField_range h
  wday _ _ h := setField_range h
  yday _ _ h := setField_range h

/-! ### One conversion -/

/-- January 1st of the year 0. -/
def someCivil : Civil := ⟨0, 1, 1, 0, 1, 0, 0, 0, false, 0, 0⟩

/-- A date whose fields are in their ranges, those of the setters. -/
def FitsSetter (yd : Nat) (c : Civil) : Prop := c.Valid ∧ c.yday ≤ yd + 1

theorem someCivil_valid : someCivil.Valid := by constructor <;> decide

theorem value_four {v : List Nat} {n : Nat} (h : ∀ c ∈ v, IsDigit 10 c) (hn : v.length ≤ n) : value 10 v < 10 ^ n := by
  have h1 : value 10 v < 10 ^ v.length := value_lt 10 v h
  exact Nat.lt_of_lt_of_le h1 (Nat.pow_le_pow_right (by decide) hn)

/-- The digits that were read are a numeral. -/
theorem readUInt_shown {e : Enc} {lo hi : Nat} {r : Rd T} {u : List Nat} (hu : ∀ c ∈ u, IsScalar c) (hp : r.pos = encodes e u)
    (he : (r.readUInt lo hi).2.err = none) : ∃ v q, u = v ++ q ∧ (r.readUInt lo hi).2.pos = encodes e q ∧ Digits lo hi (value 10 v) v (· = q) := by
  obtain ⟨w, h1, h2, h3, h4, h5⟩ := readUInt_takes lo hi r
  obtain ⟨q, hq, hq'⟩ := encodes_peel_ascii hu (digit_ascii h2) (hp ▸ h1)
  refine ⟨w, q, hq, hq', h2, rfl, h4 he, h3, ?_⟩
  rintro _ rfl
  exact h5.imp_right fun h => noDigit_encodes (e := e) (hq' ▸ h)

theorem readUInt_keeps {lo hi : Nat} {r : Rd T} (he : (r.readUInt lo hi).2.err = none) : r.err = none := by
  unfold Rd.readUInt at he
  dsimp only at he
  split at he
  · exact absurd he (setError_err _ _)
  · exact he

theorem number_shown {e : Enc} {lo hi : Nat} {set : Rd T → Int → Rd T} (hk : ∀ r v e, r.err = some e → (set r v).err = some e) (hp : ∀ r v, (set r v).pos = r.pos)
    {r : Rd T} {u : List Nat} (hu : ∀ c ∈ u, IsScalar c) (hr : r.pos = encodes e u) (he : (r.number lo hi set).err = none) :
    ∃ v q, u = v ++ q ∧ (r.number lo hi set).pos = encodes e q ∧ Digits lo hi (value 10 v) v (· = q) ∧
      (set { r with pos := encodes e q } (value 10 v : Nat)).err = none := by
  have h0 : (r.readUInt lo hi).2.err = none := by
    cases h : (r.readUInt lo hi).2.err with
    | none => rfl
    | some x => unfold Rd.number at he; rw [hk _ _ _ h] at he; cases he
  obtain ⟨v, q, h1, h2, h3⟩ := readUInt_shown hu hr h0
  have hq : ∀ c ∈ q, IsScalar c := fun c hc => hu c (by rw [h1]; simp [hc])
  have := number_digits h3 e q hq rfl set r (by rw [hr, h1])
  rw [this] at he ⊢
  exact ⟨v, q, h1, by rw [hp], h3, he⟩

theorem numberOr_shown {cfg : ChronoCfg} {s : NumSys} {fmt : List Nat} {ft : Tm → Int} {lo hi : Nat} {set : Rd T → Int → Rd T}
    (hk : ∀ r v e, r.err = some e → (set r v).err = some e) (hp : ∀ r v, (set r v).pos = r.pos) {r : Rd T} (hloc : r.st.localized = false)
    {u : List Nat} (hu : ∀ c ∈ u, IsScalar c) (hr : r.pos = encodes cfg.enc u) (he : (r.numberOr cfg s fmt ft id lo hi set).err = none) :
    ∃ v q, u = v ++ q ∧ (r.numberOr cfg s fmt ft id lo hi set).pos = encodes cfg.enc q ∧ Digits lo hi (value 10 v) v (· = q) ∧
      (set { r with pos := encodes cfg.enc q } (value 10 v : Nat)).err = none := by
  unfold Rd.numberOr at he ⊢
  rw [if_neg (by simp [Rd.useLocale, hloc])] at he ⊢
  exact number_shown hk hp hu hr he

/-- The name that was read. -/
theorem name_shown {α : Type} {long short : List (List Nat × α)} (ht : NameTables long short) (hsh : ∀ o ∈ short, ∃ o' ∈ long, o'.1.take 3 = o.1)
    {set : Rd T → α → Rd T} (hp : ∀ r v, (set r v).pos = r.pos) {e : Enc} {u : List Nat} (hu : ∀ c ∈ u, IsScalar c) {r r' : Rd T} (hpos : r.pos = encodes e u)
    (hr : r.name long short set = some r') (he : r'.err = none) : ∃ o ∈ long, ∃ v q, u = v ++ q ∧ r'.pos = encodes e q ∧ Named o.1 v (· = q) := by
  unfold Rd.name at hr
  rw [tryOneOf_find long ht.longFree, tryOneOf_find short ht.shortFree, Option.bind_some, Option.map_some] at hr
  have fin : ∀ name : List Nat, (∀ c ∈ name, letter c = true) → nearPrefix name r.pos = true →
      ∃ v q, u = v ++ q ∧ r.pos.drop name.length = encodes e q ∧ EqUpToCase name v := by
    intro name hl hn
    obtain ⟨h1, h2, h3⟩ := name_case hl hn
    obtain ⟨q, hq, hq'⟩ := encodes_peel_ascii hu h3 (by rw [← hpos]; exact h1)
    exact ⟨_, q, hq, hq', h2⟩
  cases h1 : long.find? fun o => nearPrefix o.1 r.pos with
  | some o =>
    rw [h1] at hr
    cases hr
    have ho := List.mem_of_find?_eq_some h1
    obtain ⟨v, q, h2, h3, h4⟩ := fin o.1 (ht.letters o ho) (List.find?_some (p := fun o : List Nat × α => nearPrefix o.1 r.pos) h1)
    exact ⟨o, ho, v, q, h2, (hp _ _).trans h3, Or.inl h4⟩
  | none =>
    rw [h1] at hr
    cases h2 : short.find? fun o => nearPrefix o.1 r.pos with
    | some o =>
      rw [h2] at hr
      cases hr
      obtain ⟨o', ho', heq⟩ := hsh o (List.mem_of_find?_eq_some h2)
      have hlet := ht.letters o' ho'
      obtain ⟨v, q, h3, h4, h5⟩ := fin o.1 (fun c hc => hlet c (List.mem_of_mem_take (heq ▸ hc)))
        (List.find?_some (p := fun o : List Nat × α => nearPrefix o.1 r.pos) h2)
      refine ⟨o', ho', v, q, h3, (hp _ _).trans h4, Or.inr ⟨heq ▸ h5, ?_⟩⟩
      rintro _ rfl hst
      have := List.find?_eq_none.1 h1 o' ho'
      rw [hpos, nearPrefix_encodes e _ _ hlet hu] at this
      exact this ((nearPrefix_letters _ _ hlet).2 (h3 ▸ hst))
    | none =>
      rw [h2] at hr
      cases hr
      exact absurd he (setError_err _ _)

/-- Characters that differ in one bit from those of a name of letters and periods. -/
theorem nearPrefix_periods {name s : List Nat} (hn : ∀ c ∈ name, letter c = true ∨ c = 46) (hs : 14 ∉ s) (h : nearPrefix name s = true) :
    EqUpToCase name (s.take name.length) := by
  induction name generalizing s with
  | nil => simp [EqUpToCase]
  | cons a name ih =>
    cases s with
    | nil => cases h
    | cons b s =>
      simp only [nearPrefix, Bool.and_eq_true] at h
      refine ⟨?_, ih (fun c hc => hn c (by simp [hc])) (fun hc => hs (by simp [hc])) h.2⟩
      rcases hn a (by simp) with ha | ha
      · exact (nearly_letter a b ha).1 h.1
      · subst ha
        rcases (nearly_iff _ _).1 h.1 with h | h
        · subst h; unfold SameLetter; simp
        · exact absurd (by rw [h]; decide) (fun h : b = 14 => hs (by simp [h]))

theorem tzMinutes_keeps {b : Bool} {r : Rd T} (h : (r.tzMinutes b).2.err = none) : r.err = none := by
  unfold Rd.tzMinutes at h
  split at h
  · exact h
  · split at h
    · split at h
      · exact (readUInt_keeps h : _)
      · exact h
    · split at h
      · exact h
      · split at h
        · exact readUInt_keeps h
        · exact h

theorem digitNext_encodes {e : Enc} {q : List Nat} (h : ¬ digitNext (encodes e q) = true) : NoDigitFirst 10 q := by
  intro c hc hd
  cases q with
  | nil => cases hc
  | cons a q =>
    simp only [List.head?_cons, Option.some.injEq] at hc
    subst hc
    have := isDigit10.1 hd
    rw [encodes_cons, encode_ascii e a (by omega)] at h
    exact h (by simp [digitNext]; omega)

theorem tzHours_shown {set : Rd T → Int → Rd T} (hk : ∀ r v e, r.err = some e → (set r v).err = some e) (hp : ∀ r v, (set r v).pos = r.pos) {e : Enc} (s : NumSys)
    (minus : Bool) {r : Rd T} {u : List Nat} (hu : ∀ c ∈ u, IsScalar c) (hr : r.pos = encodes e u) (he : (r.tzHours set s minus).err = none) :
    ∃ v q hours minutes, u = v ++ q ∧ (r.tzHours set s minus).pos = encodes e q ∧
      ∀ sg c, OffsetSign c.west sg → c.offHours = hours → c.offMinutes = minutes → Shown e c (.tzOffset s) (sg ++ v) (· = q) := by
  unfold Rd.tzHours at he ⊢
  by_cases hne : r.pos = []
  · rw [if_pos hne] at he; exact absurd he (setError_err _ _)
  rw [if_neg hne] at he ⊢
  dsimp only at he ⊢
  have h0 : ∀ x : Rd T, ∀ v, (set x v).err = none → x.err = none := by
    intro x v h
    cases hx : x.err with
    | none => rfl
    | some y => rw [hk _ _ _ hx] at h; cases h
  have he := h0 _ _ he
  rw [hp]
  have heh := tzMinutes_keeps he
  obtain ⟨hh, q, h1, h2, h3⟩ := readUInt_shown hu hr heh
  have hq : ∀ c ∈ q, IsScalar c := fun c hc => hu c (by rw [h1]; simp [hc])
  generalize (r.readUInt (if s = .standard then 2 else 1) 2).2 = r1 at *
  have only : (s = .standard → NoDigitFirst 10 q) → (∀ q', q = 58 :: q' → NoDigitFirst 10 q') → ∃ v q' hours minutes, u = v ++ q' ∧ r1.pos = encodes e q' ∧
      ∀ sg c, OffsetSign c.west sg → c.offHours = hours → c.offMinutes = minutes → Shown e c (.tzOffset s) (sg ++ v) (· = q') := by
    intro ha hb
    refine ⟨hh, q, value 10 hh, 0, h1, h2, ?_⟩
    intro sg c hs h5 h6
    exact .tzHours s sg hh _ hs (h5 ▸ h3) h6 (by rintro _ rfl; exact ⟨ha, hb⟩)
  have full : ∀ (colon : Bool) (mm q' : List Nat), (s ≠ .standard → colon = true) → q = (if colon then [58] else []) ++ (mm ++ q') → Digits 2 2 (value 10 mm) mm (· = q') →
      ∀ p, p = encodes e q' → ∃ v q' hours minutes, u = v ++ q' ∧ p = encodes e q' ∧
      ∀ sg c, OffsetSign c.west sg → c.offHours = hours → c.offMinutes = minutes → Shown e c (.tzOffset s) (sg ++ v) (· = q') := by
    intro colon mm q' hc hqq hm p hpq
    refine ⟨hh ++ ((if colon then [58] else []) ++ mm), q', value 10 hh, value 10 mm, by rw [h1, hqq]; simp, hpq, ?_⟩
    intro sg c hs h5 h6
    exact .tzOffset s sg hh mm colon _ (· = q) hs (h5 ▸ h3) (h6 ▸ hm) hc (by rintro _ rfl; exact hqq.symm)
  generalize hm : r1.tzMinutes (decide (s ≠ .standard)) = m at he ⊢
  unfold Rd.tzMinutes at hm
  split at hm
  · rename_i h4
    have : q = [] := by
      cases q with
      | nil => rfl
      | cons a q => rw [h2, encodes_cons] at h4; exact absurd (List.append_eq_nil_iff.1 h4).1 (encode_ne_nil e a)
    subst this
    subst hm
    exact only (fun _ c hc => by cases hc) (fun q' h => by cases h)
  · rename_i c p h4
    by_cases hc : c = 58
    · subst hc
      rw [if_pos rfl] at hm
      obtain ⟨q', hqq, hpq⟩ := encodes_peel_ascii (w := [58]) hq (by simp) (by rw [← h2]; exact h4)
      by_cases hd : digitNext p = true
      · rw [if_pos hd] at hm
        subst hm
        have hq' : ∀ c ∈ q', IsScalar c := fun c hc => hq c (by rw [hqq]; simp [hc])
        obtain ⟨mm, q2, h5, h6, h7⟩ := readUInt_shown (r := { r1 with pos := p }) hq' hpq he
        exact full true mm q2 (fun _ => rfl) (by rw [hqq, h5]; rfl) h7 _ h6
      · rw [if_neg hd] at hm
        subst hm
        rw [hpq] at hd
        refine only (fun _ => ?_) ?_
        · intro c hc hd
          rw [hqq] at hc
          simp at hc
          subst hc
          exact absurd (isDigit10.1 hd) (by omega)
        · intro q2 h
          rw [hqq] at h
          simp at h
          subst h
          exact digitNext_encodes hd
    · rw [if_neg hc] at hm
      have hno : ∀ q', q = 58 :: q' → NoDigitFirst 10 q' := by
        intro q' h
        rw [h2, h, encodes_cons, encode_ascii e 58 (by decide)] at h4
        simp at h4
        exact absurd h4.1.symm hc
      by_cases hs : decide (s ≠ .standard) = true
      · rw [if_pos hs] at hm
        subst hm
        exact only (fun h => absurd h (of_decide_eq_true hs)) hno
      · rw [if_neg hs] at hm
        have hs : s = .standard := by simpa using hs
        by_cases hd : digitNext (c :: p) = true
        · rw [if_pos hd] at hm
          subst hm
          obtain ⟨mm, q2, h5, h6, h7⟩ := readUInt_shown hq h2 he
          exact full false mm q2 (fun h => absurd hs h) (by rw [h5]; rfl) h7 _ h6
        · rw [if_neg hd] at hm
          subst hm
          rw [← h4, h2] at hd
          exact only (fun _ => digitNext_encodes hd) hno

theorem hour12_of {h : Nat} (h1 : 1 ≤ h ∧ h ≤ 12) : Spec.hour12 (h % 12) = h := by
  unfold Spec.hour12
  split <;> omega

/-- A conversion that succeeds read a text that shows a date. -/
theorem simple_wrote (cfg : ChronoCfg) (hl : GoodLayouts cfg.enc cfg.lay) (set : TmSetter T) (hpos : KeepsPos set) (herr : ∀ e, Closed cfg set (fun r => r.err = some e))
    {yd : Nat} (hrange : InRange set yd) (hyd : yd ≤ 365)
    {x : ChronoCall} (hx : Readable x ∨ ∃ t, x = .text t ∧ ∀ y ∈ t, IsScalar y ∧ encode cfg.enc y = [y]) (hz : x ≠ .tzName) (hw : ∀ s, x ≠ .dec1Weekday s) {r r' : Rd T}
    (hloc : r.st.localized = false) {u : List Nat} (hu : ∀ c ∈ u, IsScalar c) (h14 : x = .amPm → 14 ∉ u) (hp : r.pos = encodes cfg.enc u)
    (hr : r.simple cfg set x = some r') (he : r'.err = none) :
    ∃ v q c, u = v ++ q ∧ r'.pos = encodes cfg.enc q ∧ FitsSetter yd c ∧ Shown cfg.enc c x v (· = q) := by
  have hbase := someCivil_valid
  cases x with
  | text t =>
    rcases hx with (hx | hx) | ⟨t', ht, hx⟩
    · cases hx
    · cases hx
    · cases ht
      cases hr
      obtain ⟨q, h1, h2⟩ := encodes_peel t hu hx (by rw [← hp]; exact onText_takes t he)
      exact ⟨t, q, someCivil, h1, h2, ⟨hbase, by simp [someCivil]⟩, .text t _ hx⟩
  | whitespace =>
    dsimp only [Rd.simple, Rd.onWhitespace] at hr
    rw [hp, skipSpace_encodes cfg.enc _ _ hu (hl _ hu), if_neg (by simp)] at hr
    cases hr
    refine ⟨u.takeWhile isSpace, u.dropWhile isSpace, someCivil, List.takeWhile_append_dropWhile.symm, rfl, ⟨hbase, by simp [someCivil]⟩, .whitespace _ _ ?_ ?_⟩
    · exact fun c hc => ⟨hu c (List.takeWhile_subset _ hc), all_takeWhile _ hc⟩
    · rintro _ rfl; exact dropWhile_idem u
  | fullYear s =>
    cases hr
    obtain ⟨v, q, h1, h2, h3, h4⟩ := numberOr_shown (fun r v e h => (herr e).fullYear r v h) (fun r v => (hpos.fullYear r v).1) hloc hu hp he
    have := value_four h3.digits h3.high
    exact ⟨v, q, { someCivil with year := value 10 v }, h1, h2, ⟨{ hbase with year := by dsimp only; omega }, by simp [someCivil]⟩, .fullYear s _ _ h3⟩
  | shortYear s =>
    cases hr
    obtain ⟨v, q, h1, h2, h3, h4⟩ := numberOr_shown (fun r v e h => (herr e).shortYear r v h) (fun r v => (hpos.shortYear r v).1) hloc hu hp he
    have := value_four h3.digits h3.high
    refine ⟨v, q, { someCivil with year := value 10 v }, h1, h2, ⟨{ hbase with year := by dsimp only; omega }, by simp [someCivil]⟩, .shortYear s _ _ ?_⟩
    rw [Nat.mod_eq_of_lt this]; exact h3
  | century s =>
    cases hr
    obtain ⟨v, q, h1, h2, h3, h4⟩ := numberOr_shown (fun r v e h => (herr e).century r v h) (fun r v => (hpos.century r v).1) hloc hu hp he
    have := value_four h3.digits h3.high
    refine ⟨v, q, { someCivil with year := value 10 v * 100 }, h1, h2, ⟨{ hbase with year := by dsimp only; omega }, by simp [someCivil]⟩, .century s _ _ ?_⟩
    dsimp only
    rw [Nat.mul_div_cancel _ (by decide)]; exact h3
  | decMonth s =>
    cases hr
    obtain ⟨v, q, h1, h2, h3, h4⟩ := numberOr_shown (fun r v e h => (herr e).mon r v h) (fun r v => (hpos.mon r v).1) hloc hu hp he
    have := hrange.mon _ _ h4
    exact ⟨v, q, { someCivil with month := value 10 v }, h1, h2, ⟨{ hbase with month := by dsimp only; omega }, by simp [someCivil]⟩, .decMonth s _ _ h3⟩
  | dayOfMonth s =>
    cases hr
    obtain ⟨v, q, h1, h2, h3, h4⟩ := numberOr_shown (fun r v e h => (herr e).mday r v h) (fun r v => (hpos.mday r v).1) hloc hu hp he
    have := hrange.mday _ _ h4
    exact ⟨v, q, { someCivil with mday := value 10 v }, h1, h2, ⟨{ hbase with mday := by dsimp only; omega }, by simp [someCivil]⟩, .dayOfMonth s _ _ h3⟩
  | dec0Weekday s =>
    cases hr
    obtain ⟨v, q, h1, h2, h3, h4⟩ := numberOr_shown (fun r v e h => (herr e).wday r v h) (fun r v => (hpos.wday r v).1) hloc hu hp he
    have := hrange.wday _ _ h4
    exact ⟨v, q, { someCivil with wday := value 10 v }, h1, h2, ⟨{ hbase with wday := by dsimp only; omega }, by simp [someCivil]⟩, .dec0Weekday s _ _ h3⟩
  | dec1Weekday s => exact absurd rfl (hw s)
  | hour24 s =>
    cases hr
    obtain ⟨v, q, h1, h2, h3, h4⟩ := numberOr_shown (fun r v e h => (herr e).hour24 r v h) (fun r v => (hpos.hour24 r v).1) hloc hu hp he
    have := hrange.hour24 _ _ h4
    exact ⟨v, q, { someCivil with hour := value 10 v }, h1, h2, ⟨{ hbase with hour := by dsimp only; omega }, by simp [someCivil]⟩, .hour24 s _ _ h3⟩
  | hour12 s =>
    cases hr
    obtain ⟨v, q, h1, h2, h3, h4⟩ := numberOr_shown (fun r v e h => (herr e).hour12 r v h) (fun r v => (hpos.hour12 r v).1) hloc hu hp he
    have := hrange.hour12 _ _ h4
    refine ⟨v, q, { someCivil with hour := value 10 v % 12 }, h1, h2, ⟨{ hbase with hour := by dsimp only; omega }, by simp [someCivil]⟩, .hour12 s _ _ ?_⟩
    dsimp only
    rw [hour12_of (by omega)]; exact h3
  | minute s =>
    cases hr
    obtain ⟨v, q, h1, h2, h3, h4⟩ := numberOr_shown (fun r v e h => (herr e).min r v h) (fun r v => (hpos.min r v).1) hloc hu hp he
    have := hrange.min _ _ h4
    exact ⟨v, q, { someCivil with minute := value 10 v }, h1, h2, ⟨{ hbase with minute := by dsimp only; omega }, by simp [someCivil]⟩, .minute s _ _ h3⟩
  | second s =>
    cases hr
    obtain ⟨v, q, h1, h2, h3, h4⟩ := numberOr_shown (fun r v e h => (herr e).sec r v h) (fun r v => (hpos.sec r v).1) hloc hu hp he
    have := hrange.sec _ _ h4
    exact ⟨v, q, { someCivil with second := value 10 v }, h1, h2, ⟨{ hbase with second := by dsimp only; omega }, by simp [someCivil]⟩, .second s _ _ h3⟩
  | dayOfYear =>
    cases hr
    obtain ⟨v, q, h1, h2, h3, h4⟩ := number_shown (set := fun r v => set.yday r (v - 1)) (fun r v e => (herr e).yday r _) (fun r v => (hpos.yday r _).1) hu hp he
    have := hrange.yday _ _ h4
    exact ⟨v, q, { someCivil with yday := value 10 v }, h1, h2, ⟨{ hbase with yday := by dsimp only; omega }, by dsimp only; omega⟩, .dayOfYear _ _ h3⟩
  | monthName =>
    dsimp only [Rd.simple] at hr
    rw [if_neg (by rw [hloc]; decide)] at hr
    obtain ⟨o, ho, v, q, h1, h2, h3⟩ := name_shown months_tables (by decide +kernel) (fun r v => (hpos.mon r v).1) hu hp hr he
    have tab : ∀ o ∈ monthNames, ∃ m, m < 13 ∧ 1 ≤ m ∧ Spec.monthName m = o.1 := by decide +kernel
    obtain ⟨m, ha, hb, hc⟩ := tab o ho
    exact ⟨v, q, { someCivil with month := m }, h1, h2, ⟨{ hbase with month := by dsimp only; omega }, by simp [someCivil]⟩, .monthName _ _ (by dsimp only; rw [hc]; exact h3)⟩
  | weekdayName =>
    dsimp only [Rd.simple] at hr
    rw [if_neg (by rw [hloc]; decide)] at hr
    obtain ⟨o, ho, v, q, h1, h2, h3⟩ := name_shown weekdays_tables (by decide +kernel) (fun r v => (hpos.wday r v).1) hu hp hr he
    have tab : ∀ o ∈ weekdayNames, ∃ m, m < 7 ∧ Spec.weekdayName m = o.1 := by decide +kernel
    obtain ⟨m, ha, hc⟩ := tab o ho
    exact ⟨v, q, { someCivil with wday := m }, h1, h2, ⟨{ hbase with wday := by dsimp only; omega }, by simp [someCivil]⟩, .weekdayName _ _ (by dsimp only; rw [hc]; exact h3)⟩
  | amPm =>
    dsimp only [Rd.simple, Rd.onAmPm] at hr
    rw [tryOneOf_find amPmNames amPm_free, Option.map_some] at hr
    cases h1 : amPmNames.find? fun o => nearPrefix o.1 r.pos with
    | none =>
      rw [h1] at hr
      cases hr
      exact absurd he (setError_err _ _)
    | some o =>
      rw [h1] at hr
      cases hr
      have hm := List.mem_of_find?_eq_some h1
      have hn := List.find?_some (p := fun o : List Nat × Bool => nearPrefix o.1 r.pos) h1
      have tab : ∀ o ∈ amPmNames, (∀ c ∈ o.1, letter c = true ∨ c = 46) ∧ ((o = ([97,109], false) ∨ o = ([97,46,109,46], false)) ∨ o = ([112,109], true) ∨ o = ([112,46,109,46], true)) := by decide
      have hno : 14 ∉ r.pos := by
        rw [hp]
        intro h
        replace h14 := h14 rfl
        clear hp he h1 hn
        induction u with
        | nil => cases h
        | cons a u ih =>
          rw [encodes_cons] at h
          rcases List.mem_append.1 h with h | h
          · exact h14 (by rw [encode_mem_ascii cfg.enc a 14 (hu a (by simp)) h (by decide)]; simp)
          · exact ih (fun c hc => hu c (by simp [hc])) h (fun h => h14 (by simp [h]))
      have hE := nearPrefix_periods (tab o hm).1 hno hn
      obtain ⟨q, hq, hq'⟩ := encodes_peel_ascii hu (eqUpToCase_ascii hE (tab o hm).1) (by rw [← hp]; exact (List.take_append_drop o.1.length r.pos).symm)
      have hst : (({ r with pos := r.pos.drop o.1.length, st := { r.st with isPm := o.2 } } : Rd T).mark .amPm).pos = encodes cfg.enc q := by
        rw [mark_stays]; exact hq'
      rcases (tab o hm).2 with h | h
      · refine ⟨_, q, someCivil, hq, hst, ⟨hbase, by simp [someCivil]⟩, .am _ _ ?_ (by decide)⟩
        rcases h with rfl | rfl
        · exact Or.inl hE
        · exact Or.inr hE
      · refine ⟨_, q, { someCivil with hour := 12 }, hq, hst, ⟨{ hbase with hour := by decide }, by simp [someCivil]⟩, .pm _ _ ?_ (by decide)⟩
        rcases h with rfl | rfl
        · exact Or.inl hE
        · exact Or.inr hE
  | tzOffset s =>
    cases hr
    have hk : ∀ (r : Rd T) v e, r.err = some e → (set.tzOffset r v).err = some e := fun r v e h => (herr e).tzOffset r v h
    have hp' := fun r v => (hpos.tzOffset r v).1
    have main : ∀ (west : Bool) (sg : List Nat) (q : Rd T) (u' : List Nat), OffsetSign west sg → u = sg ++ u' → q.pos = encodes cfg.enc u' →
        (q.tzHours set.tzOffset s west).err = none →
        ∃ v z c, u = v ++ z ∧ (q.tzHours set.tzOffset s west).pos = encodes cfg.enc z ∧ FitsSetter yd c ∧ Shown cfg.enc c (.tzOffset s) v (· = z) := by
      intro west sg q u' hs hus hq he
      obtain ⟨v, z, hours, minutes, h1, h2, h3⟩ := tzHours_shown hk hp' s west (fun c hc => hu c (by rw [hus]; simp [hc])) hq he
      refine ⟨sg ++ v, z, { someCivil with west := west, offHours := hours, offMinutes := minutes }, by rw [hus, h1]; simp, h2, ⟨⟨hbase.1, hbase.2, hbase.3, hbase.4, hbase.5, hbase.6, hbase.7, hbase.8⟩, by simp [someCivil]⟩, h3 _ _ hs rfl rfl⟩
    generalize hm : r.onTzOffset set.tzOffset s = m at he ⊢
    unfold Rd.onTzOffset at hm
    split at hm
    · subst hm; exact absurd he (setError_err _ _)
    · rename_i c q hq
      by_cases hc : c = 43
      · subst hc
        rw [if_pos rfl] at hm
        subst hm
        obtain ⟨u', h1, h2⟩ := encodes_peel_ascii (w := [43]) hu (by simp) (by rw [← hp]; exact hq)
        exact main false [43] { r with pos := q } u' (by unfold OffsetSign; simp) h1 h2 he
      · rw [if_neg hc] at hm
        by_cases hc : c = 45
        · subst hc
          rw [if_pos rfl] at hm
          subst hm
          obtain ⟨u', h1, h2⟩ := encodes_peel_ascii (w := [45]) hu (by simp) (by rw [← hp]; exact hq)
          exact main true [45] { r with pos := q } u' (by unfold OffsetSign; simp) h1 h2 he
        · rw [if_neg hc] at hm
          subst hm
          exact main false [] r u (by unfold OffsetSign; simp) rfl hp he
  | tzName => exact absurd rfl hz
  | _ => rcases hx with (hx | hx) | ⟨t', ht, hx⟩ <;> first | cases hx | cases ht

/-! ### The conversions one after the other, each with its own date -/

def ShownEach (e : Enc) (yd : Nat) : List (ChronoCall × Civil) → List Nat → List Nat → Prop
  | [], w, _ => w = []
  | p :: ps, w, rest => ∃ v w', w = v ++ w' ∧ FitsSetter yd p.2 ∧ Shown e p.2 p.1 v (· = w' ++ rest) ∧ ShownEach e yd ps w' rest

theorem shownEach_append {e : Enc} {yd : Nat} {a b : List (ChronoCall × Civil)} {v w rest : List Nat} (ha : ShownEach e yd a v (w ++ rest)) (hb : ShownEach e yd b w rest) :
    ShownEach e yd (a ++ b) (v ++ w) rest := by
  induction a generalizing v with
  | nil => cases ha; exact hb
  | cons p a ih =>
    obtain ⟨v1, v2, rfl, h1, h2, h3⟩ := ha
    exact ⟨v1, v2 ++ w, by simp, h1, by rw [List.append_assoc]; exact h2, ih h3⟩

/-- The conversions that are considered here. -/
def Considered' (en : Enc) (x : ChronoCall) : Prop := Considered en x ∧ ∀ s, x ≠ .dec1Weekday s

theorem simples_keep {cfg : ChronoCfg} {set : TmSetter T} {sup marked : ChronoField → Bool} (hs : SetterOk cfg set sup marked) {e : Err} (xs : List ChronoCall) :
    ∀ {r r' : Rd T}, r.err = some e → r.simples cfg set xs = some r' → r'.err = some e := by
  induction xs with
  | nil => intro r r' h hr; cases hr; exact h
  | cons z zs ih =>
    intro r r' h hr
    rw [Rd.simples] at hr
    obtain ⟨b, hb, hr⟩ := bind_some_iff.1 hr
    exact ih (closed_simple (hs.err e) h z hb) hr

theorem simples_wrote {cfg : ChronoCfg} (hl : GoodLayouts cfg.enc cfg.lay) {set : TmSetter T} {sup marked : ChronoField → Bool} (hs : SetterOk cfg set sup marked)
    {yd : Nat} (hrange : InRange set yd) (hyd : yd ≤ 365) (xs : List ChronoCall) :
    ∀ {r r' : Rd T} {u : List Nat}, (∀ x ∈ xs, Considered' cfg.enc x) → (.amPm ∈ xs → 14 ∉ u) → (∀ c ∈ u, IsScalar c) → r.st.localized = false → r.pos = encodes cfg.enc u →
      r.simples cfg set xs = some r' → r'.err = none →
      ∃ ps w q, ps.map Prod.fst = xs ∧ u = w ++ q ∧ r'.pos = encodes cfg.enc q ∧ r'.st.localized = false ∧ ShownEach cfg.enc yd ps w q := by
  induction xs with
  | nil => intro r r' u _ _ _ hloc hp hr he; cases hr; exact ⟨[], [], u, rfl, rfl, hp, hloc, rfl⟩
  | cons x xs ih =>
    intro r r' u hx h14 hu hloc hp hr he
    rw [Rd.simples] at hr
    obtain ⟨a, ha, hr⟩ := bind_some_iff.1 hr
    have hea : a.err = none := by
      cases h : a.err with
      | none => rfl
      | some y =>
        rw [simples_keep hs xs h hr] at he; cases he
    obtain ⟨⟨hx1, hone, hz⟩, hw⟩ := hx x (by simp)
    obtain ⟨v, q, c, h1, h2, h3, h4⟩ := simple_wrote cfg hl set hs.pos hs.err hrange hyd hx1 hz hw hloc hu (fun h => h14 (by simp [h])) hp ha hea
    have hm := simple_marked cfg set hs.marks x hone hloc ha hea
    obtain ⟨ps, w, q', g1, g2, g3, g4, g5⟩ := ih (fun y hy => hx y (by simp [hy])) (fun h hc => h14 (by simp [h]) (by rw [h1]; simp [hc])) (fun c hc => hu c (by rw [h1]; simp [hc]))
      (by rw [hm.2.1]; exact hloc) h2 hr he
    refine ⟨(x, c) :: ps, v ++ w, q', by simp [g1], by rw [h1, g2]; simp, g3, g4, v, w, rfl, h3, ?_, g5⟩
    rw [← g2]; exact h4

theorem calls_wrote {cfg : ChronoCfg} (hl : GoodLayouts cfg.enc cfg.lay) {set : TmSetter T} {sup marked : ChronoField → Bool} (hs : SetterOk cfg set sup marked)
    {yd : Nat} (hrange : InRange set yd) (hyd : yd ≤ 365) {ys : List ChronoCall} {r r' : Rd T} (hst : Calls (readHandler cfg set) r ys r') :
    ∀ {u : List Nat}, (∀ x ∈ ys.flatMap expansion, Considered' cfg.enc x) → (.amPm ∈ ys.flatMap expansion → 14 ∉ u) → (∀ c ∈ u, IsScalar c) → r.st.localized = false →
      r.pos = encodes cfg.enc u → ∃ ps w q, ps.map Prod.fst = ys.flatMap expansion ∧ u = w ++ q ∧ r'.pos = encodes cfg.enc q ∧ ShownEach cfg.enc yd ps w q := by
  induction hst with
  | nil r => intro u _ _ _ _ hp; exact ⟨[], [], u, rfl, rfl, hp, rfl⟩
  | cons r x a ys r' hc hok _ ih =>
    intro u hx h14 hu hloc hp
    rw [List.flatMap_cons] at hx h14 ⊢
    have hc' : r.simples cfg set (expansion x) = some a := by rw [← call_expansion cfg set r hloc x]; exact hc
    have hea : a.err = none := by
      have : a.err.isNone = true := hok
      simpa using this
    obtain ⟨ps, w, q, h1, h2, h3, h4, h5⟩ := simples_wrote hl hs hrange hyd _ (fun y hy => hx y (by simp [hy])) (fun h => h14 (by simp [h])) hu hloc hp hc' hea
    obtain ⟨ps', w', q', g1, g2, g3, g4⟩ := ih (fun y hy => hx y (by simp [hy])) (fun h hc => h14 (by simp [h]) (by rw [h2]; simp [hc])) (fun c hc => hu c (by rw [h2]; simp [hc])) h4 h3
    exact ⟨ps ++ ps', w ++ w', q', by rw [List.map_append, h1, g1], by rw [h2, g2]; simp, g3, shownEach_append (g2 ▸ h5) g4⟩

/-! ### One date for all of them -/

/-- The two dates have the same value of this field. -/
def SameField (a b : Civil) : ChronoField → Prop
  | .fullYear => a.year = b.year
  | .shortYear => a.year % 100 = b.year % 100
  | .century => a.year / 100 = b.year / 100
  | .mon => a.month = b.month
  | .mday => a.mday = b.mday
  | .yday => a.yday = b.yday
  | .wday => a.wday = b.wday
  | .hour24 => a.hour = b.hour
  | .hour12 => Spec.hour12 a.hour = Spec.hour12 b.hour
  | .min => a.minute = b.minute
  | .sec => a.second = b.second
  | .amPm => (a.hour < 12 ↔ b.hour < 12)
  | .tzoff => a.west = b.west ∧ a.offHours = b.offHours ∧ a.offMinutes = b.offMinutes
  | _ => True

theorem shown_agree {e : Enc} {a b : Civil} {x : ChronoCall} {t : List Nat} {f : List Nat → Prop} (h : Shown e a x t f) (hab : ∀ fl, fieldOf x = some fl → SameField a b fl) :
    Shown e b x t f := by
  cases h with
  | text _ _ h => exact .text _ _ h
  | whitespace _ _ h hf => exact .whitespace _ _ h hf
  | fullYear s _ _ h => exact .fullYear s _ _ ((hab _ rfl : a.year = b.year) ▸ h)
  | shortYear s _ _ h => exact .shortYear s _ _ ((hab _ rfl : a.year % 100 = b.year % 100) ▸ h)
  | century s _ _ h => exact .century s _ _ ((hab _ rfl : a.year / 100 = b.year / 100) ▸ h)
  | decMonth s _ _ h => exact .decMonth s _ _ ((hab _ rfl : a.month = b.month) ▸ h)
  | monthName _ _ h => exact .monthName _ _ ((hab _ rfl : a.month = b.month) ▸ h)
  | dayOfYear _ _ h => exact .dayOfYear _ _ ((hab _ rfl : a.yday = b.yday) ▸ h)
  | dayOfMonth s _ _ h => exact .dayOfMonth s _ _ ((hab _ rfl : a.mday = b.mday) ▸ h)
  | weekdayName _ _ h => exact .weekdayName _ _ ((hab _ rfl : a.wday = b.wday) ▸ h)
  | dec0Weekday s _ _ h => exact .dec0Weekday s _ _ ((hab _ rfl : a.wday = b.wday) ▸ h)
  | hour24 s _ _ h => exact .hour24 s _ _ ((hab _ rfl : a.hour = b.hour) ▸ h)
  | hour12 s _ _ h => exact .hour12 s _ _ ((hab _ rfl : Spec.hour12 a.hour = Spec.hour12 b.hour) ▸ h)
  | minute s _ _ h => exact .minute s _ _ ((hab _ rfl : a.minute = b.minute) ▸ h)
  | second s _ _ h => exact .second s _ _ ((hab _ rfl : a.second = b.second) ▸ h)
  | am _ _ h hh => exact .am _ _ h ((hab _ rfl : (a.hour < 12 ↔ b.hour < 12)).1 hh)
  | pm _ _ h hh => exact .pm _ _ h (Nat.le_of_not_lt fun h => absurd ((hab _ rfl : (a.hour < 12 ↔ b.hour < 12)).2 h) (by omega))
  | tzOffset s sg hh mm colon _ f' h0 h1 h2 h3 hf =>
    obtain ⟨g1, g2, g3⟩ : a.west = b.west ∧ a.offHours = b.offHours ∧ a.offMinutes = b.offMinutes := hab _ rfl
    exact .tzOffset s sg hh mm colon _ f' (g1 ▸ h0) (g2 ▸ h1) (g3 ▸ h2) h3 hf
  | tzHours s sg hh _ h0 h1 h2 hf =>
    obtain ⟨g1, g2, g3⟩ : a.west = b.west ∧ a.offHours = b.offHours ∧ a.offMinutes = b.offMinutes := hab _ rfl
    exact .tzHours s sg hh _ (g1 ▸ h0) (g2 ▸ h1) (g3 ▸ h2) hf

/-- The date of the conversion that sets this field. -/
def pickDate (ps : List (ChronoCall × Civil)) (f : ChronoField) : Option Civil := (ps.find? fun p => decide (fieldOf p.1 = some f)).map Prod.snd

theorem pickDate_mem {ps : List (ChronoCall × Civil)} (hnd : (fieldsOf (ps.map Prod.fst)).Nodup) {p : ChronoCall × Civil} (hp : p ∈ ps) {f : ChronoField} (hf : fieldOf p.1 = some f) :
    pickDate ps f = some p.2 := by
  unfold pickDate
  induction ps with
  | nil => cases hp
  | cons a ps ih =>
    rw [List.find?_cons]
    rcases List.mem_cons.1 hp with rfl | hp
    · simp [hf]
    · have hmem : f ∈ fieldsOf (ps.map Prod.fst) := List.mem_filterMap.2 ⟨p.1, List.mem_map.2 ⟨p, hp, rfl⟩, hf⟩
      rw [List.map_cons] at hnd
      have hne : fieldOf a.1 ≠ some f := by
        intro h
        rw [show a.1 :: ps.map Prod.fst = [a.1] ++ ps.map Prod.fst from rfl, fieldsOf_append, show fieldsOf [a.1] = [f] from by simp [fieldsOf, h]] at hnd
        exact (List.nodup_append.1 hnd).2.2 f (by simp) f hmem rfl
      rw [decide_eq_false hne]
      refine ih ?_ hp
      rw [show a.1 :: ps.map Prod.fst = [a.1] ++ ps.map Prod.fst from rfl, fieldsOf_append] at hnd
      exact (List.nodup_append.1 hnd).2.1

theorem pickDate_none {ps : List (ChronoCall × Civil)} {f : ChronoField} (h : f ∉ fieldsOf (ps.map Prod.fst)) : pickDate ps f = none := by
  unfold pickDate
  rw [Option.map_eq_none_iff, List.find?_eq_none]
  intro p hp
  simp only [decide_eq_true_eq]
  intro hf
  exact h (List.mem_filterMap.2 ⟨p.1, List.mem_map.2 ⟨p, hp, rfl⟩, hf⟩)

theorem pickDate_fits {ps : List (ChronoCall × Civil)} {yd : Nat} (h : ∀ p ∈ ps, FitsSetter yd p.2) (f : ChronoField) : FitsSetter yd ((pickDate ps f).getD someCivil) := by
  unfold pickDate
  cases hf : ps.find? fun p => decide (fieldOf p.1 = some f) with
  | none => exact ⟨someCivil_valid, by simp [someCivil]⟩
  | some p => exact h p (List.mem_of_find?_eq_some hf)

/-- One date with the fields of all. -/
def mergeDates (ps : List (ChronoCall × Civil)) : Civil :=
  let g := fun f => (pickDate ps f).getD someCivil
  { year := if (pickDate ps .fullYear).isSome then (g .fullYear).year else (g .century).year / 100 * 100 + (g .shortYear).year % 100
    month := (g .mon).month
    mday := (g .mday).mday
    wday := (g .wday).wday
    yday := (g .yday).yday
    hour := if (pickDate ps .hour24).isSome then (g .hour24).hour else (g .hour12).hour % 12 + if 12 ≤ (g .amPm).hour then 12 else 0
    minute := (g .min).minute
    second := (g .sec).second
    west := (g .tzoff).west
    offHours := (g .tzoff).offHours
    offMinutes := (g .tzoff).offMinutes }

theorem mergeDates_fits {ps : List (ChronoCall × Civil)} {yd : Nat} (h : ∀ p ∈ ps, FitsSetter yd p.2) : FitsSetter yd (mergeDates ps) := by
  have g := pickDate_fits h
  refine ⟨⟨?_, (g .mon).1.month, (g .mday).1.mday, (g .wday).1.wday, (g .yday).1.yday, ?_, (g .min).1.minute, (g .sec).1.second⟩, (g .yday).2⟩
  · have h1 := (g .fullYear).1.year
    have h2 := (g .century).1.year
    have h3 := (g .shortYear).1.year
    dsimp only [mergeDates]
    split <;> omega
  · have h1 := (g .hour24).1.hour
    dsimp only [mergeDates]
    split
    · omega
    · split <;> omega

theorem hour12_shift (h k : Nat) (hk : k = 0 ∨ k = 12) : Spec.hour12 (h % 12 + k) = Spec.hour12 h := by
  unfold Spec.hour12
  have : (h % 12 + k) % 12 = h % 12 := by omega
  rw [this]

theorem mergeDates_agree {ps : List (ChronoCall × Civil)} (hnd : (fieldsOf (ps.map Prod.fst)).Nodup) (hF : Compatible (fieldsOf (ps.map Prod.fst))) {p : ChronoCall × Civil} (hp : p ∈ ps)
    {f : ChronoField} (hf : fieldOf p.1 = some f) : SameField p.2 (mergeDates ps) f := by
  have hpick := pickDate_mem hnd hp hf
  have hmem : f ∈ fieldsOf (ps.map Prod.fst) := List.mem_filterMap.2 ⟨p.1, List.mem_map.2 ⟨p, hp, rfl⟩, hf⟩
  have h24 : .hour12 ∈ fieldsOf (ps.map Prod.fst) → pickDate ps .hour24 = none := fun h => pickDate_none fun h' => hF.clock ⟨h', h⟩
  cases f with
  | fullYear => show _ = _; simp [mergeDates, hpick]
  | shortYear =>
    have h1 : pickDate ps .fullYear = none := pickDate_none fun h => (hF.year h).2 hmem
    show _ = _
    simp [mergeDates, hpick, h1]
  | century =>
    have h1 : pickDate ps .fullYear = none := pickDate_none fun h => (hF.year h).1 hmem
    show _ = _
    simp only [mergeDates, hpick, h1, Option.isSome_none, Bool.false_eq_true, if_false, Option.getD_some]
    omega
  | hour24 => show _ = _; simp [mergeDates, hpick]
  | hour12 =>
    show _ = _
    simp only [mergeDates, hpick, h24 hmem, Option.isSome_none, Bool.false_eq_true, if_false, Option.getD_some]
    rw [hour12_shift]
    split <;> simp
  | amPm =>
    show _ ↔ _
    simp only [mergeDates, hpick, h24 (hF.amPm hmem), Option.isSome_none, Bool.false_eq_true, if_false, Option.getD_some]
    split <;> omega
  | tzoff => show _ ∧ _ ∧ _; simp [mergeDates, hpick]
  | subsec => trivial
  | tzname => trivial
  | _ => show _ = _; simp [mergeDates, hpick]

theorem shownEach_mem {e : Enc} {yd : Nat} {ps : List (ChronoCall × Civil)} : ∀ {w rest : List Nat}, ShownEach e yd ps w rest → ∀ p ∈ ps, FitsSetter yd p.2 := by
  induction ps with
  | nil => intro w rest _ p hp; cases hp
  | cons a ps ih =>
    rintro w rest ⟨v, w', _, h1, _, h2⟩ p hp
    rcases List.mem_cons.1 hp with rfl | hp
    · exact h1
    · exact ih h2 p hp

theorem shownEach_seq {e : Enc} {yd : Nat} {c : Civil} {ps : List (ChronoCall × Civil)} : ∀ {w rest : List Nat}, ShownEach e yd ps w rest →
    (∀ p ∈ ps, ∀ f, fieldOf p.1 = some f → SameField p.2 c f) → ShownSeq e c (ps.map Prod.fst) w rest := by
  induction ps with
  | nil => intro w rest h _; cases h; exact .nil _
  | cons a ps ih =>
    rintro w rest ⟨v, w', rfl, _, h1, h2⟩ h
    exact .cons _ _ _ _ _ _ (shown_agree h1 (h a (by simp))) rfl (ih h2 fun p hp => h p (by simp [hp]))

/-! ### A whole scan -/

theorem sticky_setter {cfg : ChronoCfg} {set : TmSetter T} {sup marked : ChronoField → Bool} (hs : SetterOk cfg set sup marked) : Sticky (readHandler cfg set) := by
  intro st x st' hok hcall
  cases he : st.err with
  | none =>
    have : st.err.isNone = false := hok
    rw [he] at this; cases this
  | some e =>
    show st'.err.isNone = false
    rw [closed_call (hs.err e) he x hcall]
    rfl

/-- A scan that succeeds read a text that shows a date. -/
theorem scan_shown {cfg : ChronoCfg} (hl : GoodLayouts cfg.enc cfg.lay) {set : TmSetter T} {sup marked : ChronoField → Bool} (hs : SetterOk cfg set sup marked)
    {yd : Nat} (hrange : InRange set yd) (hyd : yd ≤ 365) {is : List FmtItem} (hok : FormatOk cfg.enc is)
    (hz : .tzName ∉ callsOf is) (hw : ∀ s, .dec1Weekday s ∉ callsOf is) (hnd : (fieldsOf (callsOf is)).Nodup) (hF : Compatible (fieldsOf (callsOf is)))
    {t0 t : T} {src out : List Nat} (hsrc : ∀ c ∈ src, IsScalar c) (h14 : .amPm ∈ callsOf is → 14 ∉ src)
    (h : chronoScan cfg set (formatText is) t0 (encodes cfg.enc src) = .ok (t, out)) :
    ∃ c rest, FitsSetter yd c ∧ DateWritten cfg.enc is c src rest ∧ ∀ x ∈ rest, IsScalar x := by
  obtain ⟨r, ⟨p, p', hp, hparse, herr⟩, rfl, rfl⟩ := finished_of_ok h
  rw [skipSpace_encodes cfg.enc _ _ hsrc (hl _ hsrc)] at hp
  split at hp
  · cases hp
  rename_i hne
  have hp := (Res.ok.inj hp).symm
  have hsc : ∀ c ∈ src.dropWhile isSpace, IsScalar c := fun c hc => hsrc c (List.dropWhile_subset _ hc)
  have hcl : callsOf is = (is.map FmtItem.call).flatMap expansion := by unfold callsOf; rw [List.flatMap_map]
  have hsu := parse_success cfg.enc (readHandler cfg set) (sticky_setter hs) hparse (by show r.err.isNone = true; rw [herr]; rfl)
  obtain ⟨xs, hx, hcalls⟩ := hsu
  have hx' : formatCalls cfg.enc (formatText is ++ []) = some (xs, p') := by rw [List.append_nil]; exact hx
  have hd := (formatCalls_items hok [] (Or.inl rfl) hx').1
  have hcalls := calls_dropEmpty (h := readHandler cfg set) (fun _ => rfl) hcalls
  rw [hd] at hcalls
  obtain ⟨a, ha, _⟩ := hcalls.split
  have hxx : ∀ x ∈ callsOf is, Considered' cfg.enc x := by
    intro x hx
    obtain ⟨i, hi, hxi⟩ := List.mem_flatMap.1 hx
    exact ⟨⟨item_readable (hok.2.1 i hi) x hxi, item_oneField (hok.2.1 i hi) x hxi, fun h => hz (h ▸ hx)⟩, fun s h => hw s (h ▸ hx)⟩
  rw [hcl] at hxx h14
  obtain ⟨ps, w, q, h1, h2, h3, h4⟩ := calls_wrote hl hs hrange hyd ha hxx (fun h hc => h14 h (List.dropWhile_subset _ hc)) hsc rfl hp
  rw [← hcl] at h1
  rw [← h1] at hnd hF
  refine ⟨mergeDates ps, q, mergeDates_fits (shownEach_mem h4), ⟨src.takeWhile isSpace, w, ?_, ?_, ?_, ?_, ?_⟩, fun x hx => hsc x (by rw [h2]; simp [hx])⟩
  · rw [← h2]; exact List.takeWhile_append_dropWhile.symm
  · exact fun c hc => ⟨hsrc c (List.takeWhile_subset _ hc), all_takeWhile _ hc⟩
  · rw [← h2]
    intro hnil
    have h := List.takeWhile_append_dropWhile (p := isSpace) (l := src)
    rw [hnil] at h
    exact hne ⟨rfl, by simpa using h⟩
  · rw [← h2]; exact dropWhile_idem src
  · rw [← h1]; exact shownEach_seq h4 fun p hp f hf => mergeDates_agree hnd hF hp hf

end Scn
