import Verif.Lemmas.Chrono12
/-
Names that are not there, the numbers of the ISO weekdays, and the unread part of a scan.
-/
namespace Scn
open Spec
variable {T : Type}

theorem skipSpace_suffix {e : Enc} {l : Layout} {b : Bool} {s p : List Nat} (h : skipSpace e l b s = .ok p) : p <:+ s := by
  unfold skipSpace at h
  split at h
  · cases h
  · rename_i q hq
    split at h
    · cases h
    · cases h
      exact readWhileSpace_suffix _ _ _ _ hq

theorem tmWithin_congr {t0 t : Tm} {a b : List ChronoField} (hm : ∀ f, f ≠ .tzoff → (f ∈ a ↔ f ∈ b)) (h : TmWithin t0 a t) : TmWithin t0 b t := by
  have m1 := hm .sec (by decide)
  have m2 := hm .min (by decide)
  have m3 := hm .hour24 (by decide)
  have m4 := hm .hour12 (by decide)
  have m5 := hm .mday (by decide)
  have m6 := hm .mon (by decide)
  have m7 := hm .wday (by decide)
  have m8 := hm .yday (by decide)
  have m9 := hm .fullYear (by decide)
  have m10 := hm .shortYear (by decide)
  have m11 := hm .century (by decide)
  obtain ⟨a1, a2, a3, a4, a5, a6, a7, a8⟩ := h
  rw [m1] at a1
  rw [m2] at a2
  rw [m3, m4] at a3
  rw [m5] at a4
  rw [m6] at a5
  rw [m7] at a6
  rw [m8] at a7
  rw [m9, m10, m11] at a8
  exact ⟨a1, a2, a3, a4, a5, a6, a7, a8⟩

theorem dateTimeWithin_congr {t0 t : DateTime} {a b : List ChronoField} (hm : ∀ f, f ∈ a ↔ f ∈ b) (h : DateTimeWithin t0 a t) : DateTimeWithin t0 b t := by
  obtain ⟨a1, a2, a3, a4, a5, a6, a7, a8, a9, a10⟩ := h
  simp only [hm] at a1 a2 a3 a4 a5 a6 a7 a8 a9 a10
  exact ⟨a1, a2, a3, a4, a5, a6, a7, a8, a9, a10⟩

/-- What a scan leaves unread is the rest of its source. -/
theorem scan_unread {cfg : ChronoCfg} (hin : Inside cfg) {set : TmSetter T} (hk : KeepsPos set) {fmt : List Nat} {t0 t : T} {src rest : List Nat}
    (h : chronoScan cfg set fmt t0 src = .ok (t, rest)) : rest <:+ src := by
  obtain ⟨r, ⟨p, p', hp, hparse, _⟩, _, rfl⟩ := finished_of_ok h
  exact (closed_parse (inside_closed hin hk src) (r := ⟨p, p, t0, {}, none⟩) ⟨skipSpace_suffix hp, skipSpace_suffix hp⟩ hparse).1

/-- No name, in full or abbreviated. -/
theorem name_none {α : Type} {long short : List (List Nat × α)} (ht : NameTables long short) (hsl : ∀ o ∈ short, ∀ c ∈ o.1, letter c = true)
    (e : Enc) (u : List Nat) (hs : ∀ c ∈ u, IsScalar c) (hl : ∀ o ∈ long, ¬ StartsWithName o.1 u) (hsh : ∀ o ∈ short, ¬ StartsWithName o.1 u)
    (set : Rd T → α → Rd T) (r : Rd T) (hr : r.pos = encodes e u) : r.name long short set = some (r.setError .invalidScannedValue) := by
  have hnone : ∀ os : List (List Nat × α), (∀ o ∈ os, ∀ c ∈ o.1, letter c = true) → (∀ o ∈ os, ¬ StartsWithName o.1 u) →
      os.find? (fun o => nearPrefix o.1 r.pos) = none := by
    intro os hlet hno
    apply List.find?_eq_none.2
    intro o ho hp
    rw [hr, nearPrefix_encodes e o.1 u (hlet o ho) hs] at hp
    exact hno o ho ((nearPrefix_letters _ _ (hlet o ho)).1 hp)
  unfold Rd.name
  rw [tryOneOf_find long ht.longFree, hnone long ht.letters hl, tryOneOf_find short ht.shortFree, hnone short hsl hsh]
  rfl

theorem startsWith_take {name s : List Nat} (n : Nat) (h : StartsWithName name s) : StartsWithName (name.take n) s := by
  unfold StartsWithName at *
  induction n generalizing name s with
  | zero => simp [EqUpToCase]
  | succ n ih =>
    cases name with
    | nil => simpa using h
    | cons a name =>
      cases s with
      | nil => simp [EqUpToCase] at h
      | cons b s =>
        simp only [List.length_cons, List.take_succ_cons, EqUpToCase] at h ⊢
        exact ⟨h.1, ih h.2⟩

/-- A weekday by number, `%u`, into any destination. -/
theorem scan_isoWeekday (cfg : ChronoCfg) (hl : GoodLayouts cfg.enc cfg.lay) (set : TmSetter T) (t0 : T) {ws rest : List Nat} {v : Nat} (hw : Spaces ws)
    (hv : v ≤ 9) (hs : ∀ c ∈ rest, IsScalar c) :
    chronoScan cfg set [37, 117] t0 (encodes cfg.enc (ws ++ ([48 + v] ++ rest))) =
      scanEnd (let r := set.wday ⟨encodes cfg.enc ([48 + v] ++ rest), encodes cfg.enc rest, t0, {}, none⟩ (if v = 0 then 6 else (v : Int) - 1)
        if r.err.isNone then (r.verify set).map fun s => (s, []) else some (r, [])) := by
  have ht : Digits 1 1 v [48 + v] fun u => u = rest :=
    { digits_one (hi := 0) hv with follow := fun _ _ => Or.inl rfl }
  have hf := digits_first ht (by decide) rest
  rw [chronoScan_at cfg hl set [37, 117] t0 hw hf.2 hf.1 (scalar_append (digits_scalar ht) hs), parse_one _ _ _ (c := .dec1Weekday .standard) (by decide)]
  have : (readHandler cfg set).call ⟨encodes cfg.enc ([48 + v] ++ rest), encodes cfg.enc ([48 + v] ++ rest), t0, {}, none⟩ (.dec1Weekday .standard) =
      some (set.wday ⟨encodes cfg.enc ([48 + v] ++ rest), encodes cfg.enc rest, t0, {}, none⟩ (if v = 0 then 6 else (v : Int) - 1)) := by
    show some (Rd.numberOr cfg _ _ _ adjustWday 1 1 _ _) = _
    rw [numberOr_digits ht cfg cfg.enc .standard _ _ adjustWday rest hs rfl _ _ rfl rfl]
    unfold adjustWday
    simp
  rw [this]
  rfl

/-- A name does not begin with whitespace. -/
theorem name_first {name t : List Nat} {f : List Nat → Prop} (hl : ∀ c ∈ name, letter c = true) (h3 : 3 ≤ name.length) (h : Named name t f) (rest : List Nat) :
    (t ++ rest).dropWhile isSpace = t ++ rest ∧ t ++ rest ≠ [] := by
  have : ∀ n : List Nat, (∀ c ∈ n, letter c = true) → n ≠ [] → EqUpToCase n t → (t ++ rest).dropWhile isSpace = t ++ rest ∧ t ++ rest ≠ [] := by
    intro n hn hne hE
    cases n with
    | nil => exact absurd rfl hne
    | cons a n =>
      cases t with
      | nil => cases hE
      | cons b t =>
        refine ⟨first_not_space ?_, by simp⟩
        have ha := hn a (by simp)
        have hab := hE.1
        unfold letter at ha
        unfold SameLetter at hab
        simp at ha
        have : 65 ≤ b ∧ b ≤ 122 := by omega
        have hall : ∀ b, b < 123 → 65 ≤ b → isSpace b = false := by decide +kernel
        exact hall b (by omega) this.1
  rcases h with hE | ⟨hE, _⟩
  · exact this name hl (by intro hn; subst hn; simp at h3) hE
  · refine this (name.take 3) (fun c hc => hl c (List.mem_of_mem_take hc)) (fun hn => ?_) hE
    have hlen := congrArg List.length hn
    rw [List.length_take, List.length_nil] at hlen
    omega

theorem callsOf_one (x : Nat) (c : ChronoCall) : callsOf [.conv [x] c] = expansion c := by simp [callsOf, FmtItem.call]

/-- One conversion of one field, alone. -/
theorem alone_tm (cfg : ChronoCfg) (hl : GoodLayouts cfg.enc cfg.lay) (gmtoff : Bool) (c : Civil) (hv : c.Valid) {x : Nat} {call : ChronoCall}
    (hx : (x, call) ∈ conversions) {f : ChronoField} (hf : fieldsOf (expansion call) = [f]) (he : expansion call = [call]) (hap : f ≠ .amPm) (htz : f ≠ .tzoff)
    {ws t rest : List Nat} {fo : List Nat → Prop} (h : Shown cfg.enc c call t fo) (hfo : fo rest) (hw : Spaces ws)
    (hfirst : (t ++ rest).dropWhile isSpace = t ++ rest ∧ t ++ rest ≠ []) (hs : ∀ c ∈ rest, IsScalar c) (t0 : Tm) (r : List Nat) :
    chronoCustom cfg gmtoff .tm (tmSetter gmtoff) t0 (37 :: x :: 125 :: r) (encodes cfg.enc (ws ++ (t ++ rest))) =
      (125 :: r, .ok (setTm [f] c t0, encodes cfg.enc rest)) := by
  have hcomp : Compatible [f] := by
    cases f <;> first | exact absurd rfl hap | (constructor <;> decide)
  have := chronoCustom_tm cfg hl gmtoff c hv [.conv [x] call] (formatOk_one hx) (by rw [callsOf_one, hf]; simp) (by rw [callsOf_one, hf]; exact hcomp)
    (by rw [callsOf_one, hf]; intro h; simp at h; exact absurd h.symm htz) (by rw [callsOf_one, he]; exact seq_one h hfo) hw hfirst.2 hfirst.1 hs t0 r
  rw [callsOf_one, hf] at this
  exact this

theorem alone_dt (cfg : ChronoCfg) (hl : GoodLayouts cfg.enc cfg.lay) (gmtoff : Bool) (c : Civil) (hv : c.Valid) {x : Nat} {call : ChronoCall}
    (hx : (x, call) ∈ conversions) {f : ChronoField} (hf : fieldsOf (expansion call) = [f]) (he : expansion call = [call])
    (hno : f ≠ .amPm ∧ f ≠ .shortYear ∧ f ≠ .century ∧ f ≠ .yday)
    {ws t rest : List Nat} {fo : List Nat → Prop} (h : Shown cfg.enc c call t fo) (hfo : fo rest) (hw : Spaces ws)
    (hfirst : (t ++ rest).dropWhile isSpace = t ++ rest ∧ t ++ rest ≠ []) (hs : ∀ c ∈ rest, IsScalar c) (t0 : DateTime) (r : List Nat) :
    chronoCustom cfg gmtoff .components dtSetter t0 (37 :: x :: 125 :: r) (encodes cfg.enc (ws ++ (t ++ rest))) =
      (125 :: r, .ok (setDateTime [f] c t0, encodes cfg.enc rest)) := by
  have hcomp : Compatible [f] := by
    cases f <;> first | exact absurd rfl hno.1 | (constructor <;> decide)
  have := chronoCustom_dt cfg hl gmtoff c hv [.conv [x] call] (formatOk_one hx) (by rw [callsOf_one, hf]; simp) (by rw [callsOf_one, hf]; exact hcomp)
    (by rw [callsOf_one, hf]; intro g hg; simp at hg; subst hg; exact ⟨hno.2.1, hno.2.2.1, fun h => absurd h hno.2.2.2⟩) (by rw [callsOf_one, he]; exact seq_one h hfo) hw hfirst.2 hfirst.1 hs t0 r
  rw [callsOf_one, hf] at this
  exact this

theorem alone_parse (e : Enc) (gmtoff : Bool) (k : TmKind) {x : Nat} {call : ChronoCall} (hx : (x, call) ∈ conversions) {f : ChronoField}
    (hf : fieldsOf (expansion call) = [f]) (hap : f ≠ .amPm) (htz : f ≠ .tzoff) (hname : f ≠ .tzname) (r : List Nat) :
    chronoParse e gmtoff k (37 :: x :: 125 :: r) = .ok ([37, x], 125 :: r) := by
  have hcomp : Compatible [f] := by
    cases f <;> first | exact absurd rfl hap | (constructor <;> decide)
  exact chronoParse_ok e gmtoff k [.conv [x] call] (formatOk_one hx) (by rw [callsOf_one, hf]; simp) (by rw [callsOf_one, hf]; exact hcomp)
    (by rw [callsOf_one, hf]; intro h; simp at h; exact absurd h.symm htz) (by rw [callsOf_one, hf]; intro h; simp at h; exact absurd h.symm hname) r

/-- A scan with one conversion that fails. -/
theorem scan_one_err (cfg : ChronoCfg) (hl : GoodLayouts cfg.enc cfg.lay) (set : TmSetter T) (t0 : T) {ws u : List Nat} (hw : Spaces ws) (hne : u ≠ [])
    (hfirst : u.dropWhile isSpace = u) (hs : ∀ c ∈ u, IsScalar c) {x : Nat} {c : ChronoCall} (hx : (x, c) ∈ conversions) {er : Err} {r : Rd T}
    (hc : (readHandler cfg set).call ⟨encodes cfg.enc u, encodes cfg.enc u, t0, {}, none⟩ c = some r) (he : r.err = some er) :
    chronoScan cfg set [37, x] t0 (encodes cfg.enc (ws ++ u)) = .err er := by
  rw [chronoScan_at cfg hl set [37, x] t0 hw hne hfirst hs, parse_one _ _ _ hx, hc, Option.bind_some, if_neg (by simp [readHandler, he])]
  simp [scanEnd, scanResult, he]

end Scn
