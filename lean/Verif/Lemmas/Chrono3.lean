import Verif.Lemmas.Chrono2
/-
The reader of dates and times on texts that show values: names, am/pm, offsets, and every simple conversion.
-/
namespace Scn
open Spec
variable {T : Type}

def letter (c : Nat) : Bool := decide (65 ≤ c ∧ c ≤ 90 ∨ 97 ≤ c ∧ c ≤ 122)

theorem xor32 (a : Nat) (h : letter a = true) : a ^^^ 32 = if a ≤ 90 then a + 32 else a - 32 := by
  have hall : ∀ a, a < 123 → letter a = true → a ^^^ 32 = if a ≤ 90 then a + 32 else a - 32 := by decide +kernel
  have : a < 123 := by unfold letter at h; simp at h; omega
  exact hall a this h

theorem nearly_letter (a b : Nat) (h : letter a = true) : nearly b a = true ↔ SameLetter a b := by
  rw [nearly_iff, xor32 a h]
  unfold letter at h
  unfold SameLetter
  simp at h
  split <;> omega

theorem nearPrefix_letters (name s : List Nat) (h : ∀ c ∈ name, letter c = true) : nearPrefix name s = true ↔ StartsWithName name s := by
  unfold StartsWithName
  induction name generalizing s with
  | nil => simp [nearPrefix, EqUpToCase]
  | cons a name ih =>
    cases s with
    | nil => simp [nearPrefix, EqUpToCase]
    | cons b s =>
      rw [nearPrefix, Bool.and_eq_true, nearly_letter a b (h a (by simp)), ih s fun c hc => h c (by simp [hc])]
      rfl

/-- Letters and periods. -/
theorem nearly_case {a b : Nat} (h : SameLetter a b) (ha : letter a = true ∨ a = 46) : nearly b a = true := by
  rcases ha with ha | rfl
  · exact (nearly_letter a b ha).2 h
  · have : b = 46 := by unfold SameLetter at h; omega
    subst this; decide

theorem nearPrefix_case {name t : List Nat} (h : EqUpToCase name t) (hn : ∀ c ∈ name, letter c = true ∨ c = 46) (q : List Nat) :
    nearPrefix name (t ++ q) = true := by
  induction name generalizing t with
  | nil => cases t <;> rfl
  | cons a name ih =>
    cases t with
    | nil => cases h
    | cons b t =>
      rw [List.cons_append, nearPrefix, nearly_case h.1 (hn a (by simp)), ih h.2 fun c hc => hn c (by simp [hc])]
      rfl

theorem eqUpToCase_length {a b : List Nat} (h : EqUpToCase a b) : a.length = b.length := by
  induction a generalizing b with
  | nil => cases b with
    | nil => rfl
    | cons => cases h
  | cons x a ih => cases b with
    | nil => cases h
    | cons y b => simp [ih h.2]

theorem eqUpToCase_ascii {a b : List Nat} (h : EqUpToCase a b) (ha : ∀ c ∈ a, letter c = true ∨ c = 46) : ∀ c ∈ b, c < 128 := by
  induction a generalizing b with
  | nil => cases b with
    | nil => intro c hc; cases hc
    | cons => cases h
  | cons x a ih => cases b with
    | nil => cases h
    | cons y b =>
      intro c hc
      rcases List.mem_cons.1 hc with rfl | hc
      · have h1 := h.1
        have h2 := ha x (by simp)
        unfold SameLetter at h1
        unfold letter at h2
        simp at h2
        omega
      · exact ih h.2 (fun c hc => ha c (by simp [hc])) c hc

theorem nearPrefix_comparable {a b s : List Nat} (ha : nearPrefix a s = true) (hb : nearPrefix b s = true) :
    nearPrefix a b = true ∨ nearPrefix b a = true := by
  induction s generalizing a b with
  | nil =>
    cases a with
    | nil => left; rfl
    | cons => cases ha
  | cons c s ih =>
    cases a with
    | nil => left; rfl
    | cons x a =>
      cases b with
      | nil => right; rfl
      | cons y b =>
        simp only [nearPrefix, Bool.and_eq_true] at ha hb ⊢
        rcases ih ha.2 hb.2 with h | h
        · left; exact ⟨nearly_trans hb.1 ha.1, h⟩
        · right; exact ⟨nearly_trans ha.1 hb.1, h⟩

/-- Searching an ASCII name in encoded text. -/
theorem nearPrefix_encodes (e : Enc) (name s : List Nat) (hn : ∀ c ∈ name, letter c = true) (hs : ∀ c ∈ s, IsScalar c) :
    nearPrefix name (encodes e s) = nearPrefix name s := by
  induction s generalizing name with
  | nil => rfl
  | cons c s ih =>
    cases name with
    | nil => cases h : encodes e (c :: s) <;> rfl
    | cons a name =>
      rcases encodes_cases e c s (hs c (by simp)) with ⟨_, hE⟩ | ⟨hc, u, us, hu, hE⟩
      · rw [hE, nearPrefix, nearPrefix, ih name (fun c hc => hn c (by simp [hc])) fun c hc => hs c (by simp [hc])]
      · have big : ∀ x, 128 ≤ x → nearly x a = false := by
          intro x hx
          cases h : nearly x a with
          | false => rfl
          | true =>
            have := (nearly_letter a x (hn a (by simp))).1 h
            have hl := hn a (by simp)
            unfold SameLetter at this
            unfold letter at hl
            simp at hl
            omega
        rw [hE, nearPrefix, nearPrefix, big u hu, big c hc, Bool.false_and, Bool.false_and]

theorem find?_unique {α : Type} {os : List (List Nat × α)} (hpf : PrefixFree os) {o : List Nat × α} (ho : o ∈ os) {s : List Nat}
    (h : nearPrefix o.1 s = true) : os.find? (fun o => nearPrefix o.1 s) = some o := by
  induction os with
  | nil => cases ho
  | cons x os ih =>
    have hp := List.pairwise_cons.1 hpf
    rw [List.find?_cons]
    rcases List.mem_cons.1 ho with rfl | ho'
    · rw [h]
    · have hx : nearPrefix x.1 s = false := by
        cases hx : nearPrefix x.1 s with
        | false => rfl
        | true =>
          have := hp.1 o ho'
          rcases nearPrefix_comparable hx h with h' | h'
          · rw [h'] at this; cases this.1
          · rw [h'] at this; cases this.2
      rw [hx]
      exact ih hp.2 ho'

theorem dropNames_zero {α : Type} (os : List (List Nat × α)) : dropNames 0 os = os := by
  unfold dropNames
  rw [show (fun o : List Nat × α => (o.1.drop 0, o.2)) = id from by funext o; simp, List.map_id]

theorem tryOneOf_find {α : Type} (os : List (List Nat × α)) (hpf : PrefixFree os) (s : List Nat) :
    tryOneOf os 0 s = some ((os.find? fun o => nearPrefix o.1 s).map fun o => (o.2, s.drop o.1.length)) := by
  have := tryOneOf_spec s os 0 (by rw [dropNames_zero]; exact hpf) (fun _ _ => Nat.zero_le _)
  simpa using this

instance {α : Type} (os : List (List Nat × α)) : Decidable (PrefixFree os) := by unfold PrefixFree; infer_instance

/-- A pair of tables of long and short names. -/
structure NameTables {α : Type} (long short : List (List Nat × α)) : Prop where
  longFree : PrefixFree long
  shortFree : PrefixFree short
  letters : ∀ o ∈ long, ∀ c ∈ o.1, letter c = true
  abbreviated : ∀ o ∈ long, ((o.1.take 3, o.2) ∈ short ∧ ∀ o' ∈ long, (nearPrefix (o.1.take 3) o'.1 = true ∨ nearPrefix o'.1 (o.1.take 3) = true) → o' = o) ∨
    o.1.take 3 = o.1

theorem months_tables : NameTables monthNames monthNamesShort := by
  constructor <;> decide +kernel

theorem weekdays_tables : NameTables weekdayNames weekdayNamesShort := by
  constructor <;> decide +kernel

theorem amPm_free : PrefixFree amPmNames := by decide +kernel

/-- A name is read, in full or abbreviated. -/
theorem name_named {α : Type} {long short : List (List Nat × α)} (ht : NameTables long short) (o : List Nat × α) (ho : o ∈ long)
    {t : List Nat} {f : List Nat → Prop} (h : Named o.1 t f) (e : Enc) (rest : List Nat) (hs : ∀ c ∈ rest, IsScalar c) (hf : f rest)
    (set : Rd T → α → Rd T) (r : Rd T) (hr : r.pos = encodes e (t ++ rest)) :
    r.name long short set = some (set { r with pos := encodes e rest } o.2) := by
  have hlet := ht.letters o ho
  have hpos : ∀ name, (∀ c ∈ name, letter c = true) → EqUpToCase name t →
      r.pos = t ++ encodes e rest ∧ nearPrefix name r.pos = true ∧ r.pos.drop name.length = encodes e rest := by
    intro name hn hE
    have : r.pos = t ++ encodes e rest := by
      rw [hr, encodes_append, encodes_asciis e t (eqUpToCase_ascii hE fun c hc => Or.inl (hn c hc))]
    refine ⟨this, ?_, ?_⟩
    · rw [this]; exact nearPrefix_case hE (fun c hc => Or.inl (hn c hc)) _
    · rw [this, eqUpToCase_length hE, List.drop_left]
  have htake : ∀ c ∈ o.1.take 3, letter c = true := fun c hc => hlet c (List.mem_of_mem_take hc)
  unfold Rd.name
  have hfull : EqUpToCase o.1 t → ((tryOneOf long 0 r.pos).bind fun
    | some (v, p) => some (set { r with pos := p } v)
    | none => (tryOneOf short 0 r.pos).map fun
      | some (v, p) => set { r with pos := p } v
      | none => r.setError .invalidScannedValue) = some (set { r with pos := encodes e rest } o.2) := by
    intro hE
    obtain ⟨_, h2, h3⟩ := hpos o.1 hlet hE
    rw [tryOneOf_find long ht.longFree, find?_unique ht.longFree ho h2]
    simp [h3]
  rcases h with hE | ⟨hE, hno⟩
  · exact hfull hE
  · rcases ht.abbreviated o ho with ⟨hshort, honly⟩ | heq
    · obtain ⟨h1, h2, h3⟩ := hpos (o.1.take 3) htake hE
      have hnone : long.find? (fun o => nearPrefix o.1 r.pos) = none := by
        apply List.find?_eq_none.2
        intro o' ho' hp
        have := honly o' ho' (nearPrefix_comparable h2 hp)
        subst this
        have hst : nearPrefix o'.1 (t ++ rest) = true := by
          rw [← nearPrefix_encodes e o'.1 (t ++ rest) hlet ?_, ← hr]
          · exact hp
          · exact scalar_append (fun c hc => ascii_scalar (eqUpToCase_ascii hE (fun c hc => Or.inl (htake c hc)) c hc)) hs
        exact hno rest hf ((nearPrefix_letters _ _ hlet).1 hst)
      rw [tryOneOf_find long ht.longFree, hnone, tryOneOf_find short ht.shortFree, find?_unique ht.shortFree hshort h2]
      simp only [Option.map_none, Option.bind_some, Option.map_some, h3]
    · rw [heq] at hE; exact hfull hE

/-! ### Offsets -/

theorem digits_pos {lo hi v : Nat} {t : List Nat} {f : List Nat → Prop} (h : Digits lo hi v t f) : ∀ c ∈ t, 48 ≤ c ∧ c ≤ 57 :=
  fun c hc => isDigit10.1 (h.digits c hc)

theorem encodes_head {e : Enc} {rest : List Nat} (hs : ∀ c ∈ rest, IsScalar c) {x : Nat} (hx : x < 128) (h : rest.head? ≠ some x) :
    (encodes e rest).head? ≠ some x := by
  cases rest with
  | nil => intro h; cases h
  | cons c rest =>
    rcases encodes_cases e c rest (hs c (by simp)) with ⟨_, hE⟩ | ⟨_, u, us, hu, hE⟩
    · rw [hE]; exact h
    · rw [hE]; intro h; simp at h; omega

theorem digitNext_false {s : List Nat} (h : NoDigitFirst 10 s) : digitNext s = false := by
  cases s with
  | nil => rfl
  | cons c s =>
    have := h c rfl
    rw [isDigit10] at this
    unfold digitNext
    simp; omega

theorem digitNext_digits {lo hi v : Nat} {t : List Nat} {f : List Nat → Prop} (h : Digits lo hi v t f) (hlo : 0 < lo) (q : List Nat) :
    digitNext (t ++ q) = true := by
  have hl := h.low
  cases t with
  | nil => simp at hl; omega
  | cons c t =>
    have := digits_pos h c (by simp)
    unfold digitNext
    simp; omega

theorem tzHours_full (set : Rd T → Int → Rd T) (s : NumSys) (minus : Bool) (e : Enc) {h m : Nat} {hh mm : List Nat} {colon : Bool}
    {f f' : List Nat → Prop} (h1 : Digits (if s = .standard then 2 else 1) 2 h hh f') (h2 : Digits 2 2 m mm f)
    (h3 : s ≠ .standard → colon = true) (hf : ∀ rest, f rest → f' ((if colon then [58] else []) ++ (mm ++ rest)))
    (rest : List Nat) (hs : ∀ c ∈ rest, IsScalar c) (hfr : f rest) (r : Rd T)
    (hr : r.pos = encodes e (hh ++ ((if colon then [58] else []) ++ (mm ++ rest)))) :
    r.tzHours set s minus = set { r with pos := encodes e rest } ((if minus then -1 else 1) * ((h : Int) * 60 + m)) := by
  have hmm : ∀ c ∈ mm, c < 128 := fun c hc => by have := digits_pos h2 c hc; omega
  have hmms : ∀ c ∈ mm ++ rest, IsScalar c := scalar_append (fun c hc => ascii_scalar (hmm c hc)) hs
  have hcs : ∀ c ∈ (if colon then [58] else []) ++ (mm ++ rest), IsScalar c := by
    refine scalar_append (fun c hc => ?_) hmms
    split at hc
    · simp at hc; subst hc; exact ascii_scalar (by decide)
    · cases hc
  have hne : r.pos ≠ [] := by
    rw [hr]
    have hl := h1.low
    cases hh with
    | nil => simp at hl; split at hl <;> omega
    | cons c hh =>
      rw [List.cons_append, encodes_cons, encode_ascii e c (by have := digits_pos h1 c (by simp); omega)]
      simp
  have hread := readUInt_digits h1 e _ hcs (hf rest hfr) r hr
  unfold Rd.tzHours
  rw [if_neg hne]
  dsimp only
  rw [hread]
  dsimp only
  have hmin : ({ r with pos := encodes e ((if colon then [58] else []) ++ (mm ++ rest)) } : Rd T).tzMinutes (decide (s ≠ .standard)) =
      ((m : Int), { r with pos := encodes e rest }) := by
    have hdn : digitNext (encodes e (mm ++ rest)) = true := by
      rw [encodes_append, encodes_asciis e mm hmm]; exact digitNext_digits h2 (by decide) _
    cases colon with
    | true =>
      have hc : encodes e ((if true = true then [58] else []) ++ (mm ++ rest)) = 58 :: encodes e (mm ++ rest) := by
        rw [if_pos rfl, List.singleton_append, encodes_cons, encode_ascii e 58 (by decide)]; rfl
      rw [hc]
      unfold Rd.tzMinutes
      dsimp only
      rw [if_pos rfl, if_pos hdn]
      exact readUInt_digits h2 e rest hs hfr _ rfl
    | false =>
      have hstd : s = .standard := Classical.byContradiction fun h => by cases h3 h
      subst hstd
      have hc : encodes e ((if false = true then [58] else []) ++ (mm ++ rest)) = encodes e (mm ++ rest) := by simp
      rw [hc]
      unfold Rd.tzMinutes
      dsimp only
      cases hp : encodes e (mm ++ rest) with
      | nil => rw [hp] at hdn; cases hdn
      | cons c q =>
        have hne58 : c ≠ 58 := by rw [hp] at hdn; unfold digitNext at hdn; simp at hdn; omega
        dsimp only
        rw [if_neg hne58, if_neg (by simp), ← hp, if_pos hdn]
        exact readUInt_digits h2 e rest hs hfr _ rfl
  rw [hmin]

theorem tzHours_only (set : Rd T → Int → Rd T) (s : NumSys) (minus : Bool) (e : Enc) {h : Nat} {hh : List Nat}
    {f : List Nat → Prop} (h1 : Digits (if s = .standard then 2 else 1) 2 h hh f)
    (rest : List Nat) (hs : ∀ c ∈ rest, IsScalar c) (hfr : f rest) (hno : (s = .standard → NoDigitFirst 10 rest) ∧ ∀ q, rest = 58 :: q → NoDigitFirst 10 q) (r : Rd T)
    (hr : r.pos = encodes e (hh ++ rest)) :
    r.tzHours set s minus = set { r with pos := encodes e rest } ((if minus then -1 else 1) * ((h : Int) * 60 + 0)) := by
  have hne : r.pos ≠ [] := by
    rw [hr]
    have hl := h1.low
    cases hh with
    | nil => simp at hl; split at hl <;> omega
    | cons c hh =>
      rw [List.cons_append, encodes_cons, encode_ascii e c (by have := digits_pos h1 c (by simp); omega)]
      simp
  have hread := readUInt_digits h1 e _ hs hfr r hr
  unfold Rd.tzHours
  rw [if_neg hne]
  dsimp only
  rw [hread]
  dsimp only
  have hmin : ({ r with pos := encodes e rest } : Rd T).tzMinutes (decide (s ≠ .standard)) = (0, { r with pos := encodes e rest }) := by
    unfold Rd.tzMinutes
    dsimp only
    cases rest with
    | nil => rfl
    | cons c q =>
      by_cases h58 : c = 58
      · subst h58
        have hnd := digitNext_false (noDigitFirst_encodes e 10 q (fun c hc => hs c (by simp [hc])) (hno.2 q rfl))
        rw [encodes_cons, encode_ascii e 58 (by decide), List.singleton_append]
        dsimp only
        rw [if_pos rfl, hnd]
        simp
      · have h58 := encodes_head (e := e) hs (x := 58) (by decide) (by simpa using h58)
        cases hp : encodes e (c :: q) with
        | nil => rfl
        | cons d u =>
          rw [hp] at h58
          dsimp only
          rw [if_neg (by simpa using h58)]
          by_cases hst : s = .standard
          · have hnd := digitNext_false (noDigitFirst_encodes e 10 (c :: q) hs (hno.1 hst))
            rw [hp] at hnd
            rw [hnd]
            simp
          · rw [if_pos (by simpa using hst)]
  rw [hmin]

/-- The sign of an offset is taken. -/
theorem onTzOffset_sign (e : Enc) (set : Rd T → Int → Rd T) (s : NumSys) {west : Bool} {sg hh : List Nat} (h0 : OffsetSign west sg) {lo hi v : Nat} {f : List Nat → Prop}
    (h1 : Digits lo hi v hh f) (hlo : 0 < lo) (u : List Nat) (r : Rd T) (hr : r.pos = encodes e (sg ++ (hh ++ u))) {res : Rd T}
    (h : ∀ q : Rd T, q.pos = encodes e (hh ++ u) → (∀ p, { q with pos := p } = { r with pos := p }) → q.tzHours set s west = res) : some (r.onTzOffset set s) = some res := by
  congr 1
  unfold Rd.onTzOffset
  unfold OffsetSign at h0
  cases west with
  | true =>
    rw [if_pos rfl] at h0
    subst h0
    rw [hr, List.singleton_append, encodes_cons, encode_ascii e 45 (by decide), List.singleton_append]
    dsimp only
    rw [if_neg (by decide), if_pos rfl]
    exact h _ rfl fun _ => rfl
  | false =>
    rw [if_neg (by decide)] at h0
    rcases h0 with rfl | rfl
    · rw [hr, List.singleton_append, encodes_cons, encode_ascii e 43 (by decide), List.singleton_append]
      dsimp only
      rw [if_pos rfl]
      exact h _ rfl fun _ => rfl
    · have hl := h1.low
      cases hh with
      | nil => simp at hl; omega
      | cons c hh =>
        have hc := digits_pos h1 c (by simp)
        have hp : r.pos = c :: encodes e (hh ++ u) := by
          rw [hr, List.nil_append, List.cons_append, encodes_cons, encode_ascii e c (by omega)]; rfl
        rw [hp]
        dsimp only
        rw [if_neg (by omega), if_neg (by omega)]
        exact h r (by rw [hr]; rfl) fun _ => rfl

/-! ### All simple conversions -/

/-- What a conversion assigns. -/
def assign (set : TmSetter T) (c : Civil) : ChronoCall → Rd T → Rd T
  | .fullYear _, r => set.fullYear r c.year
  | .shortYear _, r => set.shortYear r (c.year % 100 : Nat)
  | .century _, r => set.century r (c.year / 100 : Nat)
  | .decMonth _, r => set.mon r c.month
  | .monthName, r => set.mon r c.month
  | .dayOfYear, r => set.yday r (c.yday - 1)
  | .dayOfMonth _, r => set.mday r c.mday
  | .weekdayName, r => set.wday r c.wday
  | .dec0Weekday _, r => set.wday r c.wday
  | .hour24 _, r => set.hour24 r c.hour
  | .hour12 _, r => set.hour12 r (Spec.hour12 c.hour)
  | .minute _, r => set.min r c.minute
  | .second _, r => set.sec r c.second
  | .amPm, r => { r with st := { r.st with isPm := decide (12 ≤ c.hour) } }.mark .amPm
  | .tzOffset _, r => set.tzOffset r c.offset
  | _, r => r

theorem month_table (m : Nat) (h : 1 ≤ m ∧ m ≤ 12) : (Spec.monthName m, (m : Int)) ∈ monthNames := by
  have : ∀ m, m < 13 → 1 ≤ m → (Spec.monthName m, (m : Int)) ∈ monthNames := by decide +kernel
  exact this m (by omega) h.1

theorem weekday_table (w : Nat) (h : w ≤ 6) : (Spec.weekdayName w, (w : Int)) ∈ weekdayNames := by
  have : ∀ m, m < 7 → (Spec.weekdayName m, (m : Int)) ∈ weekdayNames := by decide +kernel
  exact this w (by omega)

theorem onAmPm_read (e : Enc) (name : List Nat) (b : Bool) (ho : (name, b) ∈ amPmNames) {t : List Nat} (h : EqUpToCase name t) (rest : List Nat)
    (r : Rd T) (hr : r.pos = encodes e (t ++ rest)) :
    r.onAmPm = some ({ r with pos := encodes e rest, st := { r.st with isPm := b } }.mark .amPm) := by
  have hlet : ∀ o ∈ amPmNames, ∀ c ∈ o.1, letter c = true ∨ c = 46 := by decide +kernel
  have hn := hlet _ ho
  have hp : r.pos = t ++ encodes e rest := by rw [hr, encodes_append, encodes_asciis e t (eqUpToCase_ascii h hn)]
  unfold Rd.onAmPm
  have hnp : nearPrefix (name, b).1 r.pos = true := by rw [hp]; exact nearPrefix_case h hn _
  rw [tryOneOf_find _ amPm_free, find?_unique amPm_free ho hnp]
  have hd : r.pos.drop name.length = encodes e rest := by rw [hp, eqUpToCase_length h, List.drop_left]
  simp only [Option.map_some, hd]

theorem shown_simple (cfg : ChronoCfg) (hl : GoodLayouts cfg.enc cfg.lay) (set : TmSetter T) (c : Civil) (hv : c.Valid) {x : ChronoCall} {t : List Nat}
    {f : List Nat → Prop} (h : Shown cfg.enc c x t f) (rest : List Nat) (hs : ∀ c ∈ rest, IsScalar c) (hf : f rest)
    (r : Rd T) (hr : r.pos = encodes cfg.enc (t ++ rest)) (hloc : r.st.localized = false) :
    r.simple cfg set x = some (assign set c x { r with pos := encodes cfg.enc rest }) := by
  cases h with
  | text _ _ h => rw [Rd.simple, onText_text cfg.enc t rest (fun x hx => (h x hx).2) r hr]; rfl
  | whitespace _ _ h hsp => rw [Rd.simple, onWhitespace_spaces cfg hl t rest h hs (hsp rest hf) r hr]; rfl
  | fullYear s _ _ h => rw [Rd.simple, numberOr_digits h cfg cfg.enc _ _ _ _ rest hs hf _ r hr hloc]; rfl
  | shortYear s _ _ h => rw [Rd.simple, numberOr_digits h cfg cfg.enc _ _ _ _ rest hs hf _ r hr hloc]; rfl
  | century s _ _ h => rw [Rd.simple, numberOr_digits h cfg cfg.enc _ _ _ _ rest hs hf _ r hr hloc]; rfl
  | decMonth s _ _ h => rw [Rd.simple, numberOr_digits h cfg cfg.enc _ _ _ _ rest hs hf _ r hr hloc]; rfl
  | monthName _ _ h =>
    rw [Rd.simple, if_neg (by rw [hloc]; decide)]
    exact name_named months_tables _ (month_table c.month hv.month) h cfg.enc rest hs hf _ r hr
  | dayOfYear _ _ h => rw [Rd.simple, number_digits h cfg.enc rest hs hf _ r hr]; rfl
  | dayOfMonth s _ _ h => rw [Rd.simple, numberOr_digits h cfg cfg.enc _ _ _ _ rest hs hf _ r hr hloc]; rfl
  | weekdayName _ _ h =>
    rw [Rd.simple, if_neg (by rw [hloc]; decide)]
    exact name_named weekdays_tables _ (weekday_table c.wday hv.wday) h cfg.enc rest hs hf _ r hr
  | dec0Weekday s _ _ h => rw [Rd.simple, numberOr_digits h cfg cfg.enc _ _ _ _ rest hs hf _ r hr hloc]; rfl
  | hour24 s _ _ h => rw [Rd.simple, numberOr_digits h cfg cfg.enc _ _ _ _ rest hs hf _ r hr hloc]; rfl
  | hour12 s _ _ h => rw [Rd.simple, numberOr_digits h cfg cfg.enc _ _ _ _ rest hs hf _ r hr hloc]; rfl
  | minute s _ _ h => rw [Rd.simple, numberOr_digits h cfg cfg.enc _ _ _ _ rest hs hf _ r hr hloc]; rfl
  | second s _ _ h => rw [Rd.simple, numberOr_digits h cfg cfg.enc _ _ _ _ rest hs hf _ r hr hloc]; rfl
  | am _ _ h hh =>
    rw [Rd.simple]
    have : decide (12 ≤ c.hour) = false := by simp; omega
    rcases h with h | h <;>
      rw [onAmPm_read cfg.enc _ false (by decide) h rest r hr, assign, this]
  | pm _ _ h hh =>
    rw [Rd.simple]
    have : decide (12 ≤ c.hour) = true := by simpa using hh
    rcases h with h | h <;>
      rw [onAmPm_read cfg.enc _ true (by decide) h rest r hr, assign, this]
  | tzOffset s sg hh mm colon _ f' h0 h1 h2 h3 hff =>
    rw [Rd.simple, assign]
    have key : ∀ (w : Bool) (q : Rd T), q.pos = encodes cfg.enc (hh ++ ((if colon then [58] else []) ++ (mm ++ rest))) →
        q.tzHours set.tzOffset s w = set.tzOffset { q with pos := encodes cfg.enc rest } ((if w then -1 else 1) * ((c.offHours : Int) * 60 + c.offMinutes)) :=
      fun w q hq => tzHours_full set.tzOffset s w cfg.enc h1 h2 h3 hff rest hs hf q hq
    refine onTzOffset_sign cfg.enc set.tzOffset s h0 h1 (by split <;> omega) ((if colon then [58] else []) ++ (mm ++ rest)) r (by rw [hr]; simp [List.append_assoc]) ?_
    intro q hq hq'
    rw [key _ q hq, hq' (encodes cfg.enc rest)]
    unfold Civil.offset
    push_cast
    rfl
  | tzHours s sg hh _ h0 h1 h2 hff =>
    rw [Rd.simple, assign]
    have key : ∀ (w : Bool) (q : Rd T), q.pos = encodes cfg.enc (hh ++ rest) →
        q.tzHours set.tzOffset s w = set.tzOffset { q with pos := encodes cfg.enc rest } ((if w then -1 else 1) * ((c.offHours : Int) * 60 + 0)) :=
      fun w q hq => tzHours_only set.tzOffset s w cfg.enc h1 rest hs hf (hff rest hf) q hq
    refine onTzOffset_sign cfg.enc set.tzOffset s h0 h1 (by split <;> omega) rest r (by rw [hr]; simp [List.append_assoc]) ?_
    intro q hq hq'
    rw [key _ q hq, hq' (encodes cfg.enc rest)]
    unfold Civil.offset
    rw [h2]
    simp

end Scn
