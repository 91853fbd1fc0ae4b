import Verif.Spec.Accepted
import Verif.Lemmas.Accepted
import Verif.Lemmas.Driver4
/-
What the conversions of a date and time format take from the source.
-/
namespace Scn
open Spec

variable {T : Type}

theorem pieces_append {a b : List ChronoCall} {v w rest : List Nat} (ha : Pieces a v (w ++ rest)) (hb : Pieces b w rest) : Pieces (a ++ b) (v ++ w) rest := by
  induction a generalizing v with
  | nil => cases ha; exact hb
  | cons x a ih =>
    obtain ⟨v1, v2, rfl, h1, h2⟩ := ha
    exact ⟨v1, v2 ++ w, by simp, by rw [List.append_assoc]; exact h1, ih h2⟩

theorem pieces_one {x : ChronoCall} {v rest : List Nat} (h : Piece x v rest) : Pieces [x] v rest := ⟨v, [], by simp, h, rfl⟩

theorem noDigit_encodes {e : Enc} {q : List Nat} (h : NoDigitFirst 10 (encodes e q)) : NoDigitFirst 10 q := by
  intro c hc hd
  cases q with
  | nil => cases hc
  | cons a q =>
    simp only [List.head?_cons, Option.some.injEq] at hc
    subst hc
    have ha : a < 128 := by have := isDigit10.1 hd; omega
    rw [encodes_cons, encode_ascii e a ha] at h
    exact h a rfl hd

/-- Characters of one unit at the front of encoded text are characters of the text. -/
theorem encodes_peel {e : Enc} (w : List Nat) : ∀ {u s : List Nat}, (∀ c ∈ u, IsScalar c) → (∀ x ∈ w, IsScalar x ∧ encode e x = [x]) → encodes e u = w ++ s →
    ∃ q, u = w ++ q ∧ s = encodes e q := by
  induction w with
  | nil => intro u s _ _ h; exact ⟨u, rfl, h.symm⟩
  | cons x w ih =>
    intro u s hu hw h
    cases u with
    | nil => cases h
    | cons c u =>
      rw [encodes_cons] at h
      have hx := hw x (by simp)
      cases hE : encode e c with
      | nil => exact absurd hE (encode_ne_nil e c)
      | cons y ys =>
        rw [hE] at h
        simp only [List.cons_append, List.cons.injEq] at h
        obtain ⟨rfl, h⟩ := h
        have hc : y = c := encode_inj_single hx.1 (hu c (by simp)) hx.2 hE
        subst hc
        rw [hx.2] at hE
        cases hE
        obtain ⟨q, rfl, hs⟩ := ih (fun c hc => hu c (by simp [hc])) (fun z hz => hw z (by simp [hz])) h
        exact ⟨q, rfl, hs⟩

theorem encodes_peel_ascii {e : Enc} {w u s : List Nat} (hu : ∀ c ∈ u, IsScalar c) (hw : ∀ x ∈ w, x < 128) (h : encodes e u = w ++ s) :
    ∃ q, u = w ++ q ∧ s = encodes e q :=
  encodes_peel w hu (fun x hx => ⟨ascii_scalar (hw x hx), encode_ascii e x (hw x hx)⟩) h

theorem digit_ascii {w : List Nat} (h : ∀ c ∈ w, IsDigit 10 c) : ∀ c ∈ w, c < 128 := fun c hc => by have := isDigit10.1 (h c hc); omega

/-- The digits that are read. -/
theorem readTmDigits_takes (k : Nat) : ∀ n acc s, ∃ w, s = w ++ (readTmDigits k n acc s).2.2 ∧ (∀ c ∈ w, IsDigit 10 c) ∧ w.length ≤ k ∧
    (readTmDigits k n acc s).1 = n + w.length ∧ (w.length = k ∨ NoDigitFirst 10 (readTmDigits k n acc s).2.2) := by
  induction k with
  | zero => intro n acc s; exact ⟨[], rfl, (by simp), Nat.le_refl _, rfl, Or.inl rfl⟩
  | succ k ih =>
    intro n acc s
    cases s with
    | nil => exact ⟨[], rfl, (by simp), Nat.zero_le _, rfl, Or.inr (fun c h => by cases h)⟩
    | cons c s =>
      rw [readTmDigits]
      split
      · rename_i hd
        refine ⟨[], rfl, (by simp), Nat.zero_le _, rfl, Or.inr fun x hx => ?_⟩
        cases hx
        rw [isDigit10]
        omega
      · rename_i hd
        obtain ⟨w, h1, h2, h3, h4, h5⟩ := ih (n + 1) (acc * 10 + (c - 48)) s
        refine ⟨c :: w, by rw [List.cons_append, ← h1], ?_, by simp; exact h3, by rw [h4]; simp; omega, by simpa using h5⟩
        intro x hx
        rcases List.mem_cons.1 hx with rfl | hx
        · exact isDigit10.2 (by omega)
        · exact h2 x hx

theorem setError_stays (r : Rd T) (e : Err) : (r.setError e).pos = r.pos := by unfold Rd.setError; split <;> rfl

theorem mark_stays (r : Rd T) (f : ChronoField) : (r.mark f).pos = r.pos := by
  unfold Rd.mark
  split
  · rw [setError_stays]
  · rfl

theorem all_takeWhile {p : Nat → Bool} : ∀ (s : List Nat) {c : Nat}, c ∈ s.takeWhile p → p c = true := by
  intro s
  induction s with
  | nil => intro c h; cases h
  | cons a s ih =>
    intro c h
    rw [List.takeWhile_cons] at h
    split at h
    · rename_i ha
      rcases List.mem_cons.1 h with rfl | h
      · exact ha
      · exact ih h
    · cases h

theorem readUInt_takes (lo hi : Nat) (r : Rd T) : ∃ w, r.pos = w ++ (r.readUInt lo hi).2.pos ∧ (∀ c ∈ w, IsDigit 10 c) ∧ w.length ≤ hi ∧
    ((r.readUInt lo hi).2.err = none → lo ≤ w.length) ∧ (w.length = hi ∨ NoDigitFirst 10 (r.readUInt lo hi).2.pos) := by
  obtain ⟨w, h1, h2, h3, h4, h5⟩ := readTmDigits_takes hi 0 0 r.pos
  refine ⟨w, ?_, h2, h3, ?_, ?_⟩
  · unfold Rd.readUInt
    dsimp only
    split
    · rw [setError_stays]; exact h1
    · exact h1
  · unfold Rd.readUInt
    dsimp only
    split
    · intro h; exact absurd h (setError_err _ _)
    · intro _; omega
  · unfold Rd.readUInt
    dsimp only
    split
    · rw [setError_stays]; exact h5
    · exact h5

theorem number_takes {lo hi : Nat} {set : Rd T → Int → Rd T} (hk : ∀ r v e, r.err = some e → (set r v).err = some e) (hp : ∀ r v, (set r v).pos = r.pos) {r : Rd T}
    (h : (r.number lo hi set).err = none) : ∃ w, r.pos = w ++ (r.number lo hi set).pos ∧ (∀ c ∈ w, IsDigit 10 c) ∧ lo ≤ w.length ∧ w.length ≤ hi ∧
      (w.length = hi ∨ NoDigitFirst 10 (r.number lo hi set).pos) := by
  obtain ⟨w, h1, h2, h3, h4, h5⟩ := readUInt_takes lo hi r
  unfold Rd.number at h ⊢
  refine ⟨w, by rw [hp]; exact h1, h2, h4 ?_, h3, by rw [hp]; exact h5⟩
  cases he : (r.readUInt lo hi).2.err with
  | none => rfl
  | some e => rw [hk _ _ _ he] at h; cases h

theorem name_takes {α : Type} {long short : List (List Nat × α)} (hl : PrefixFree long) (hs : PrefixFree short) {set : Rd T → α → Rd T}
    (hp : ∀ r v, (set r v).pos = r.pos) {r r' : Rd T} (hr : r.name long short set = some r') (he : r'.err = none) :
    ∃ o, (o ∈ long ∨ o ∈ short) ∧ nearPrefix o.1 r.pos = true ∧ r'.pos = r.pos.drop o.1.length := by
  unfold Rd.name at hr
  rw [tryOneOf_find long hl, tryOneOf_find short hs, Option.bind_some, Option.map_some] at hr
  cases h1 : long.find? fun o => nearPrefix o.1 r.pos with
  | some o =>
    rw [h1] at hr
    cases hr
    exact ⟨o, Or.inl (List.mem_of_find?_eq_some h1), List.find?_some (p := fun o : List Nat × α => nearPrefix o.1 r.pos) h1, hp _ _⟩
  | none =>
    rw [h1] at hr
    cases h2 : short.find? fun o => nearPrefix o.1 r.pos with
    | some o =>
      rw [h2] at hr
      cases hr
      exact ⟨o, Or.inr (List.mem_of_find?_eq_some h2), List.find?_some (p := fun o : List Nat × α => nearPrefix o.1 r.pos) h2, hp _ _⟩
    | none =>
      rw [h2] at hr
      cases hr
      exact absurd he (setError_err _ _)

/-- The name that was read. -/
theorem name_case {name s : List Nat} (hl : ∀ c ∈ name, letter c = true) (h : nearPrefix name s = true) :
    s = s.take name.length ++ s.drop name.length ∧ EqUpToCase name (s.take name.length) ∧ ∀ c ∈ s.take name.length, c < 128 := by
  have := (nearPrefix_letters name s hl).1 h
  exact ⟨(List.take_append_drop _ _).symm, this, eqUpToCase_ascii this fun c hc => Or.inl (hl c hc)⟩

theorem tzHours_takes {set : Rd T → Int → Rd T} (hp : ∀ r v, (set r v).pos = r.pos) (sys : NumSys) (minus : Bool) (r : Rd T) :
    ∃ w, r.pos = w ++ (r.tzHours set sys minus).pos ∧ ∀ c ∈ w, IsDigit 10 c ∨ c = 58 := by
  have hmin : ∀ (b : Bool) (r : Rd T), ∃ w, r.pos = w ++ (r.tzMinutes b).2.pos ∧ ∀ c ∈ w, IsDigit 10 c ∨ c = 58 := by
    intro b r
    unfold Rd.tzMinutes
    split
    · exact ⟨[], rfl, by simp⟩
    · rename_i c q hq
      split
      · rename_i hc
        split
        · obtain ⟨w, h1, h2, _⟩ := readUInt_takes 2 2 { r with pos := q }
          refine ⟨c :: w, by rw [hq, List.cons_append, ← h1], ?_⟩
          intro x hx
          rcases List.mem_cons.1 hx with rfl | hx
          · exact Or.inr hc
          · exact Or.inl (h2 x hx)
        · exact ⟨[], rfl, by simp⟩
      · split
        · exact ⟨[], rfl, by simp⟩
        · split
          · obtain ⟨w, h1, h2, _⟩ := readUInt_takes 2 2 r
            exact ⟨w, h1, fun x hx => Or.inl (h2 x hx)⟩
          · exact ⟨[], rfl, by simp⟩
  unfold Rd.tzHours
  split
  · exact ⟨[], by rw [setError_stays]; rfl, by simp⟩
  · obtain ⟨w, h1, h2, _⟩ := readUInt_takes (if sys = .standard then 2 else 1) 2 r
    obtain ⟨w', h1', h2'⟩ := hmin (decide (sys ≠ .standard)) (r.readUInt (if sys = .standard then 2 else 1) 2).2
    refine ⟨w ++ w', ?_, ?_⟩
    · dsimp only
      rw [hp, List.append_assoc, ← h1', ← h1]
    · intro x hx
      rcases List.mem_append.1 hx with hx | hx
      · exact Or.inl (h2 x hx)
      · exact h2' x hx

theorem onText_takes (t : List Nat) : ∀ {r : Rd T}, (r.onText t).err = none → r.pos = t ++ (r.onText t).pos := by
  induction t with
  | nil => intro r _; rfl
  | cons c t ih =>
    intro r h
    rw [Rd.onText] at h ⊢
    split at h
    · exact absurd h (setError_err _ _)
    · rename_i d q hp
      split at h
      · exact absurd h (setError_err _ _)
      · rename_i heq
        have := ih (r := { r with pos := q }) h
        have hcd : c = d := Classical.byContradiction heq
        rw [hp, if_neg heq, List.cons_append, ← this, hcd]

/-- What a conversion that succeeds takes from the source. -/
theorem simple_piece (cfg : ChronoCfg) (hl : GoodLayouts cfg.enc cfg.lay) (set : TmSetter T) (hpos : KeepsPos set) (herr : ∀ e, Closed cfg set (fun r => r.err = some e))
    {x : ChronoCall} (hx : Readable x ∨ ∃ t, x = .text t ∧ ∀ y ∈ t, IsScalar y ∧ encode cfg.enc y = [y]) (hz : x ≠ .tzName) {r r' : Rd T}
    (hloc : r.st.localized = false) {u : List Nat} (hu : ∀ c ∈ u, IsScalar c) (hp : r.pos = encodes cfg.enc u)
    (hr : r.simple cfg set x = some r') (he : r'.err = none) : ∃ v q, u = v ++ q ∧ r'.pos = encodes cfg.enc q ∧ Piece x v q := by
  have fin : ∀ {p w : List Nat}, r.pos = w ++ p → (∀ c ∈ w, c < 128) → ∃ q, u = w ++ q ∧ p = encodes cfg.enc q := by
    intro p w h hw
    exact encodes_peel_ascii hu hw (hp ▸ h)
  have num : ∀ {s : NumSys} {fmt : List Nat} {ft : Tm → Int} {conv : Int → Int} {lo hi : Nat} {f : Rd T → Int → Rd T},
      (∀ r v e, r.err = some e → (f r v).err = some e) → (∀ r v, (f r v).pos = r.pos) → r' = r.numberOr cfg s fmt ft conv lo hi f →
      ∃ v q, u = v ++ q ∧ r'.pos = encodes cfg.enc q ∧ (∀ c ∈ v, IsDigit 10 c) ∧ lo ≤ v.length ∧ v.length ≤ hi ∧ (v.length = hi ∨ NoDigitFirst 10 q) := by
    intro s fmt ft conv lo hi f h1 h2 h3
    unfold Rd.numberOr at h3
    rw [if_neg (by simp [Rd.useLocale, hloc])] at h3
    rw [h3] at he
    obtain ⟨w, a, b, c, d, d'⟩ := number_takes (set := fun r v => f r (conv v)) (fun r v e => h1 r _ e) (fun r v => h2 r _) he
    rw [← h3] at a d'
    obtain ⟨q, hq, hq'⟩ := fin a (digit_ascii b)
    exact ⟨w, q, hq, hq', b, c, d, d'.imp_right fun h => noDigit_encodes (e := cfg.enc) (hq' ▸ h)⟩
  cases x with
  | text t =>
    rcases hx with (hx | hx) | ⟨t', ht, hx⟩
    · cases hx
    · cases hx
    · cases ht
      cases hr
      obtain ⟨q, h1, h2⟩ := encodes_peel t hu hx (by rw [← hp]; exact onText_takes t he)
      exact ⟨t, q, h1, h2, rfl⟩
  | whitespace =>
    dsimp only [Rd.simple, Rd.onWhitespace] at hr
    rw [hp, skipSpace_encodes cfg.enc _ _ hu (hl _ hu), if_neg (by simp)] at hr
    cases hr
    refine ⟨u.takeWhile isSpace, u.dropWhile isSpace, List.takeWhile_append_dropWhile.symm, rfl, ?_⟩
    refine ⟨fun c hc => ⟨hu c (List.takeWhile_subset _ hc), all_takeWhile _ hc⟩, ?_⟩
    exact dropWhile_idem u
  | fullYear s => exact num (fun r v e h => (herr e).fullYear r v h) (fun r v => (hpos.fullYear r v).1) (Option.some.inj hr).symm
  | shortYear s => exact num (fun r v e h => (herr e).shortYear r v h) (fun r v => (hpos.shortYear r v).1) (Option.some.inj hr).symm
  | century s => exact num (fun r v e h => (herr e).century r v h) (fun r v => (hpos.century r v).1) (Option.some.inj hr).symm
  | decMonth s => exact num (fun r v e h => (herr e).mon r v h) (fun r v => (hpos.mon r v).1) (Option.some.inj hr).symm
  | dayOfMonth s => exact num (fun r v e h => (herr e).mday r v h) (fun r v => (hpos.mday r v).1) (Option.some.inj hr).symm
  | dec0Weekday s => exact num (fun r v e h => (herr e).wday r v h) (fun r v => (hpos.wday r v).1) (Option.some.inj hr).symm
  | dec1Weekday s => exact num (fun r v e h => (herr e).wday r v h) (fun r v => (hpos.wday r v).1) (Option.some.inj hr).symm
  | hour24 s => exact num (fun r v e h => (herr e).hour24 r v h) (fun r v => (hpos.hour24 r v).1) (Option.some.inj hr).symm
  | hour12 s => exact num (fun r v e h => (herr e).hour12 r v h) (fun r v => (hpos.hour12 r v).1) (Option.some.inj hr).symm
  | minute s => exact num (fun r v e h => (herr e).min r v h) (fun r v => (hpos.min r v).1) (Option.some.inj hr).symm
  | second s => exact num (fun r v e h => (herr e).sec r v h) (fun r v => (hpos.sec r v).1) (Option.some.inj hr).symm
  | dayOfYear =>
    cases hr
    obtain ⟨w, a, b, c, d, d'⟩ := number_takes (set := fun r v => set.yday r (v - 1)) (fun r v e => (herr e).yday r _) (fun r v => (hpos.yday r _).1) he
    obtain ⟨q, hq, hq'⟩ := fin a (digit_ascii b)
    exact ⟨w, q, hq, hq', b, c, d, d'.imp_right fun h => noDigit_encodes (e := cfg.enc) (hq' ▸ h)⟩
  | monthName =>
    dsimp only [Rd.simple] at hr
    rw [if_neg (by rw [hloc]; decide)] at hr
    obtain ⟨o, ho, hn, hd⟩ := name_takes months_tables.longFree months_tables.shortFree (fun r v => (hpos.mon r v).1) hr he
    have tab : (∀ o ∈ monthNames, (∀ c ∈ o.1, letter c = true) ∧ ∃ m, m < 13 ∧ 1 ≤ m ∧ Spec.monthName m = o.1) ∧
        ∀ o ∈ monthNamesShort, (∀ c ∈ o.1, letter c = true) ∧ ∃ m, m < 13 ∧ 1 ≤ m ∧ (Spec.monthName m).take 3 = o.1 := by decide +kernel
    have hlet : ∀ c ∈ o.1, letter c = true := ho.elim (fun h => (tab.1 o h).1) (fun h => (tab.2 o h).1)
    obtain ⟨h1, h2, h3⟩ := name_case hlet hn
    rw [← hd] at h1
    obtain ⟨q, hq, hq'⟩ := fin h1 h3
    refine ⟨_, q, hq, hq', ?_⟩
    rcases ho with ho | ho
    · obtain ⟨_, m, ha, hb, hc⟩ := tab.1 o ho
      exact ⟨m, hb, by omega, Or.inl (hc ▸ h2)⟩
    · obtain ⟨_, m, ha, hb, hc⟩ := tab.2 o ho
      exact ⟨m, hb, by omega, Or.inr (hc ▸ h2)⟩
  | weekdayName =>
    dsimp only [Rd.simple] at hr
    rw [if_neg (by rw [hloc]; decide)] at hr
    obtain ⟨o, ho, hn, hd⟩ := name_takes weekdays_tables.longFree weekdays_tables.shortFree (fun r v => (hpos.wday r v).1) hr he
    have tab : (∀ o ∈ weekdayNames, (∀ c ∈ o.1, letter c = true) ∧ ∃ m, m < 7 ∧ Spec.weekdayName m = o.1) ∧
        ∀ o ∈ weekdayNamesShort, (∀ c ∈ o.1, letter c = true) ∧ ∃ m, m < 7 ∧ (Spec.weekdayName m).take 3 = o.1 := by decide +kernel
    have hlet : ∀ c ∈ o.1, letter c = true := ho.elim (fun h => (tab.1 o h).1) (fun h => (tab.2 o h).1)
    obtain ⟨h1, h2, h3⟩ := name_case hlet hn
    rw [← hd] at h1
    obtain ⟨q, hq, hq'⟩ := fin h1 h3
    refine ⟨_, q, hq, hq', ?_⟩
    rcases ho with ho | ho
    · obtain ⟨_, m, ha, hc⟩ := tab.1 o ho
      exact ⟨m, by omega, Or.inl (hc ▸ h2)⟩
    · obtain ⟨_, m, ha, hc⟩ := tab.2 o ho
      exact ⟨m, by omega, Or.inr (hc ▸ h2)⟩
  | amPm =>
    dsimp only [Rd.simple, Rd.onAmPm] at hr
    rw [tryOneOf_find amPmNames amPm_free, Option.map_some] at hr
    cases h1 : amPmNames.find? fun o => nearPrefix o.1 r.pos with
    | none =>
      rw [h1] at hr
      cases hr
      exact absurd he (setError_err _ _)
    | some o =>
      rw [h1] at hr
      cases hr
      have hm := List.mem_of_find?_eq_some h1
      have hn := List.find?_some (p := fun o : List Nat × Bool => nearPrefix o.1 r.pos) h1
      have near : ∀ (name s : List Nat), (∀ c ∈ name, c < 128) → nearPrefix name s = true → name.length ≤ s.length ∧ ∀ c ∈ s.take name.length, c < 128 := by
        intro name
        induction name with
        | nil => intro s _ _; simp
        | cons a name ih =>
          intro s hname h
          cases s with
          | nil => cases h
          | cons b s =>
            simp only [nearPrefix, Bool.and_eq_true] at h
            obtain ⟨i1, i2⟩ := ih s (fun c hc => hname c (by simp [hc])) h.2
            refine ⟨by simp; exact i1, ?_⟩
            intro c hc
            simp only [List.length_cons, List.take_succ_cons, List.mem_cons] at hc
            rcases hc with rfl | hc
            · rcases (nearly_iff _ _).1 h.1 with h | h
              · rw [h]; exact hname a (by simp)
              · rw [h]; exact Nat.xor_lt_two_pow (n := 7) (hname a (by simp)) (by decide)
            · exact i2 c hc
      have tab : ∀ o ∈ amPmNames, (∀ c ∈ o.1, c < 128) ∧ (o.1.length = 2 ∨ o.1.length = 4) := by decide
      obtain ⟨n1, n2⟩ := near _ _ (tab o hm).1 hn
      obtain ⟨q, hq, hq'⟩ := fin (List.take_append_drop o.1.length r.pos).symm n2
      refine ⟨_, q, hq, ?_, ?_⟩
      · rw [← hq']
        exact mark_stays _ _
      · show _ ∨ _
        rw [List.length_take]
        rcases (tab o hm).2 with h | h <;> omega
  | tzOffset s =>
    cases hr
    have main : ∀ w, r.pos = w ++ (r.onTzOffset set.tzOffset s).pos → (∀ c ∈ w, IsDigit 10 c ∨ c = 43 ∨ c = 45 ∨ c = 58) →
        ∃ v q, u = v ++ q ∧ (r.onTzOffset set.tzOffset s).pos = encodes cfg.enc q ∧ Piece (.tzOffset s) v q := by
      intro w hw h
      obtain ⟨q, hq, hq'⟩ := fin hw fun c hc => by
        rcases h c hc with h | h | h | h
        · have := isDigit10.1 h; omega
        all_goals omega
      exact ⟨w, q, hq, hq', h⟩
    have hset := fun r v => (hpos.tzOffset r v).1
    have lift : ∀ {w : List Nat}, (∀ c ∈ w, IsDigit 10 c ∨ c = 58) → ∀ c ∈ w, IsDigit 10 c ∨ c = 43 ∨ c = 45 ∨ c = 58 := by
      intro w h c hc
      rcases h c hc with h | h <;> simp [h]
    clear he num
    generalize hg : r.onTzOffset set.tzOffset s = r' at *
    unfold Rd.onTzOffset at hg
    split at hg
    · exact main [] (by rw [← hg, setError_stays]; rfl) (by simp)
    · rename_i c q hq
      split at hg
      · rename_i hc
        obtain ⟨w, h1, h2⟩ := tzHours_takes hset s false { r with pos := q }
        refine main (c :: w) (by rw [hq, ← hg, List.cons_append, ← h1]) ?_
        intro x hx
        rcases List.mem_cons.1 hx with rfl | hx
        · simp [hc]
        · exact lift h2 x hx
      · split at hg
        · rename_i hc
          obtain ⟨w, h1, h2⟩ := tzHours_takes hset s true { r with pos := q }
          refine main (c :: w) (by rw [hq, ← hg, List.cons_append, ← h1]) ?_
          intro x hx
          rcases List.mem_cons.1 hx with rfl | hx
          · simp [hc]
          · exact lift h2 x hx
        · obtain ⟨w, h1, h2⟩ := tzHours_takes hset s false r
          exact main w (by rw [← hg]; exact h1) (lift h2)
  | tzName => exact absurd rfl hz
  | _ => rcases hx with (hx | hx) | ⟨t', ht, hx⟩ <;> first | cases hx | cases ht

end Scn
