import Verif.Spec.Modifiers
import Verif.Lemmas.Chrono13
import Verif.Lemmas.Accepted2
/-
Lemmas on the modifiers `E` and `O` without the locale.
-/
namespace Scn
open Spec

variable {T σ : Type}

/-- Two formats whose parts have the same effect on the states of interest. -/
inductive SameItems (h : ChronoHandler σ) (P : σ → Prop) : List FmtItem → List FmtItem → Prop where
  | nil : SameItems h P [] []
  | same (i is js) (hs : SameItems h P is js) : SameItems h P (i :: is) (i :: js)
  | conv (t u c d is js) (hcd : ∀ st, P st → h.call st c = h.call st d) (hs : SameItems h P is js) : SameItems h P (.conv t c :: is) (.conv u d :: js)

/-- A conversion. -/
theorem loop_conv {e : Enc} (h : ChronoHandler σ) {t : List Nat} {c : ChronoCall} (hi : FmtItem.Ok e (.conv t c)) (n : Nat) (st : σ) (acc r : List Nat) :
    chronoLoop e h (n + 1) st acc (37 :: (t ++ r)) = (if acc = [] then some st else h.call st (.text acc)).bind fun st =>
      (h.call st c).bind fun st => if h.ok st then chronoLoop e h n st [] r else some (st, r) := by
  rw [chronoLoop, if_neg (by decide), if_neg (by decide), conversion_ok e hi]

theorem loop_same (e : Enc) (h : ChronoHandler σ) {P : σ → Prop} (hP : ∀ st x st', P st → x ≠ .localized → h.call st x = some st' → P st')
    {is js : List FmtItem} (hsame : SameItems h P is js) (tail : List Nat) (htail : tail = [] ∨ ∃ r, tail = 125 :: r) :
    (∀ i ∈ is, i.Ok e ∧ i.call ≠ .localized) → (∀ j ∈ js, j.Ok e) → ∀ (n m : Nat) (st : σ) (acc : List Nat), P st → (formatText is).length < n → (formatText js).length < m →
    (chronoLoop e h n st acc (formatText is ++ tail)).map Prod.fst = (chronoLoop e h m st acc (formatText js ++ tail)).map Prod.fst := by
  induction hsame with
  | nil =>
    intro _ _ n m st acc _ hn hm
    obtain ⟨n, rfl⟩ : ∃ k, n = k + 1 := ⟨n - 1, by omega⟩
    obtain ⟨m, rfl⟩ : ∃ k, m = k + 1 := ⟨m - 1, by omega⟩
    rcases htail with rfl | ⟨r, rfl⟩
    · rfl
    · show (chronoLoop e h (n + 1) st acc (125 :: r)).map _ = (chronoLoop e h (m + 1) st acc (125 :: r)).map _
      rw [chronoLoop, chronoLoop, if_pos rfl, if_pos rfl]
  | same i is js _ ih =>
    intro hi hj n m st acc hst hn hm
    have ih := ih (fun x hx => hi x (by simp [hx])) (fun x hx => hj x (by simp [hx]))
    obtain ⟨hoi, hloc⟩ := hi i (by simp)
    cases i with
    | lit t =>
      have hl : ∀ ks, formatText (.lit t :: ks) ++ tail = t ++ (formatText ks ++ tail) := by intro ks; simp [formatText, FmtItem.text, List.append_assoc]
      have hlen : ∀ ks, (formatText (.lit t :: ks)).length = t.length + (formatText ks).length := by intro ks; simp [formatText, FmtItem.text]
      rw [hlen] at hn hm
      obtain ⟨a, rfl⟩ : ∃ k, n = t.length + k := ⟨n - t.length, by omega⟩
      obtain ⟨b, rfl⟩ : ∃ k, m = t.length + k := ⟨m - t.length, by omega⟩
      rw [hl, hl, loop_lit e h t hoi.2, loop_lit e h t hoi.2]
      exact ih a b st _ hst (by omega) (by omega)
    | space c =>
      have hl : ∀ ks, formatText (.space c :: ks) ++ tail = c :: (formatText ks ++ tail) := fun ks => rfl
      have hlen : ∀ ks, (formatText (.space c :: ks)).length = (formatText ks).length + 1 := by intro ks; simp [formatText, FmtItem.text]
      rw [hlen] at hn hm
      obtain ⟨n, rfl⟩ : ∃ k, n = k + 1 := ⟨n - 1, by omega⟩
      obtain ⟨m, rfl⟩ : ∃ k, m = k + 1 := ⟨m - 1, by omega⟩
      have hcs : c = 32 ∨ 9 ≤ c ∧ c ≤ 13 := hoi
      rw [hl, hl, chronoLoop, chronoLoop, if_neg (by omega), if_pos (by omega), if_pos hcs, if_neg (by omega), if_pos (by omega), if_pos hcs]
      cases h1 : h.call st (.text acc) with
      | none => rfl
      | some st1 =>
        have p1 := hP _ _ _ hst (by simp) h1
        simp only [Option.bind_some]
        cases h2 : h.call st1 .whitespace with
        | none => rfl
        | some st2 => exact ih n m st2 [] (hP _ _ _ p1 (by simp) h2) (by omega) (by omega)
    | conv t c =>
      have hl : ∀ ks, formatText (.conv t c :: ks) ++ tail = 37 :: (t ++ (formatText ks ++ tail)) := by intro ks; simp [formatText, FmtItem.text, List.append_assoc]
      have hlen : ∀ ks, (formatText (.conv t c :: ks)).length = t.length + 1 + (formatText ks).length := by intro ks; simp [formatText, FmtItem.text]; omega
      rw [hlen] at hn hm
      obtain ⟨n, rfl⟩ : ∃ k, n = k + 1 := ⟨n - 1, by omega⟩
      obtain ⟨m, rfl⟩ : ∃ k, m = k + 1 := ⟨m - 1, by omega⟩
      rw [hl, hl, loop_conv h hoi, loop_conv h hoi]
      cases h1 : (if acc = [] then some st else h.call st (.text acc)) with
      | none => rfl
      | some st1 =>
        have p1 : P st1 := by
          split at h1
          · cases h1; exact hst
          · exact hP _ _ _ hst (by simp) h1
        simp only [Option.bind_some]
        cases h2 : h.call st1 c with
        | none => rfl
        | some st2 =>
          simp only [Option.bind_some]
          split
          · exact ih n m st2 [] (hP _ _ _ p1 hloc h2) (by omega) (by omega)
          · rfl
  | conv t u c d is js hcd _ ih =>
    intro hi hj n m st acc hst hn hm
    have ih := ih (fun x hx => hi x (by simp [hx])) (fun x hx => hj x (by simp [hx]))
    obtain ⟨hoi, hloc⟩ := hi _ List.mem_cons_self
    have hoj := hj _ List.mem_cons_self
    have hl : ∀ t c ks, formatText (.conv t c :: ks) ++ tail = 37 :: (t ++ (formatText ks ++ tail)) := by intro t c ks; simp [formatText, FmtItem.text, List.append_assoc]
    have hlen : ∀ t c ks, (formatText (.conv t c :: ks)).length = t.length + 1 + (formatText ks).length := by intro t c ks; simp [formatText, FmtItem.text]; omega
    rw [hlen] at hn hm
    obtain ⟨n, rfl⟩ : ∃ k, n = k + 1 := ⟨n - 1, by omega⟩
    obtain ⟨m, rfl⟩ : ∃ k, m = k + 1 := ⟨m - 1, by omega⟩
    rw [hl, hl, loop_conv h hoi, loop_conv h hoj]
    cases h1 : (if acc = [] then some st else h.call st (.text acc)) with
    | none => rfl
    | some st1 =>
      have p1 : P st1 := by
        split at h1
        · cases h1; exact hst
        · exact hP _ _ _ hst (by simp) h1
      simp only [Option.bind_some]
      rw [← hcd st1 p1]
      cases h2 : h.call st1 c with
      | none => rfl
      | some st2 =>
        simp only [Option.bind_some]
        split
        · exact ih n m st2 [] (hP _ _ _ p1 hloc h2) (by omega) (by omega)
        · rfl

theorem parse_same (e : Enc) (h : ChronoHandler σ) {P : σ → Prop} (hP : ∀ st x st', P st → x ≠ .localized → h.call st x = some st' → P st')
    {is js : List FmtItem} (hsame : SameItems h P is js) {tail : List Nat} (htail : tail = [] ∨ ∃ r, tail = 125 :: r) (hi : FormatOk e is) (hj : FormatOk e js)
    (hloc : ∀ i ∈ is, i.call ≠ .localized) {st : σ} (hst : P st) :
    (parseChrono e h st (formatText is ++ tail)).map Prod.fst = (parseChrono e h st (formatText js ++ tail)).map Prod.fst := by
  have key := loop_same e h hP hsame tail htail (fun i hi' => ⟨hi.2.1 i hi', hloc i hi'⟩) hj.2.1 ((formatText is ++ tail).length + 1) ((formatText js ++ tail).length + 1)
    st [] hst (by simp; omega) (by simp; omega)
  have hp : ∀ {ks}, FormatOk e ks → parseChrono e h st (formatText ks ++ tail) = chronoLoop e h ((formatText ks ++ tail).length + 1) st [] (formatText ks ++ tail) := by
    intro ks hk
    obtain ⟨⟨t, c, ls, rfl⟩, _, _⟩ := hk
    rw [show formatText (.conv t c :: ls) ++ tail = 37 :: (t ++ (formatText ls ++ tail)) by simp [formatText, FmtItem.text]]
    unfold parseChrono
    dsimp only
    rw [if_neg (by decide), if_neg (by decide), if_neg (by decide)]
  rw [hp hi, hp hj]
  exact key

/-! ### The locale is never used -/

def Classic (r : Rd T) : Prop := r.st.localized = false

theorem classic_err {r : Rd T} (h : Classic r) (e : Err) : Classic (r.setError e) := by
  unfold Rd.setError
  split <;> exact h

theorem classic_mark {r : Rd T} (h : Classic r) (f : ChronoField) : Classic (r.mark f) := by
  unfold Rd.mark
  split
  · exact classic_err (r := { r with st := (r.st.mark f).1 }) h _
  · exact h

theorem classic_field {r : Rd T} (h : Classic r) (f : ChronoField) (lo hi v : Int) (u : T → T) : Classic (r.setField f lo hi v u) := by
  unfold Rd.setField
  split
  · exact classic_err h _
  · exact classic_mark (r := { r with tm := u r.tm }) h _

theorem mark_of {r : Rd T} {f : ChronoField} (h : r.st.localized = false) : Classic (r.mark f) := classic_mark h f

theorem classic_tmOn (cfg : ChronoCfg) (gmtoff : Bool) (get : T → Tm) (upd : (Tm → Tm) → T → T) : Closed0 cfg (tmSetterOn gmtoff get upd) Classic where
  err r e h := classic_err h e
  pos r p h _ := h
  facet r f t p h _ := h
  amPm r b h := mark_of h
  tzName r x n p h _ := classic_err h _
  scanned r x n p h _ := h
  subsec r v h := classic_err h _
  sec r v h := classic_field h _ _ _ _ _
  min r v h := classic_field h _ _ _ _ _
  hour24 r v h := classic_field h _ _ _ _ _
  hour12 r v h := classic_field h _ _ _ _ _
  mday r v h := classic_field h _ _ _ _ _
  mon r v h := classic_field h _ _ _ _ _
  fullYear r v h := by
    dsimp only [tmSetterOn]
    split
    · exact classic_err h _
    · exact mark_of h
  century r v h := mark_of h
  shortYear r v h := by
    dsimp only [tmSetterOn]
    split
    · exact classic_err h _
    · exact mark_of h
  wday r v h := classic_field h _ _ _ _ _
  yday r v h := classic_field h _ _ _ _ _
  tzOffset r v h := by
    dsimp only [tmSetterOn]
    split
    · exact h
    · exact classic_err h _
  handleAmPm r r' h _ _ hr := by
    simp only [tmSetterOn, Option.map_eq_some_iff] at hr
    obtain ⟨_, _, rfl⟩ := hr
    exact h
  handleYear r r' h _ hr := by
    simp only [tmSetterOn, Option.map_eq_some_iff] at hr
    obtain ⟨_, _, rfl⟩ := hr
    exact h

theorem classic_tm (cfg : ChronoCfg) (gmtoff : Bool) : Closed0 cfg (tmSetter gmtoff) Classic := classic_tmOn cfg gmtoff _ _

theorem classic_tmTz (cfg : ChronoCfg) (gmtoff : Bool) : Closed0 cfg (tmTzSetter gmtoff) Classic :=
  { classic_tmOn cfg gmtoff (fun t : TmWithTz => t.tm) (fun f t => { t with tm := f t.tm }) with
    tzName := fun r x n p h _ => mark_of h
    tzOffset := fun r v h => by
      dsimp only [tmTzSetter, tmSetterOn]
      split
      · exact h
      · exact mark_of h }

theorem classic_dt (cfg : ChronoCfg) : Closed0 cfg dtSetter Classic where
  err r e h := classic_err h e
  pos r p h _ := h
  facet r f t p h _ := h
  amPm r b h := mark_of h
  tzName r x n p h _ := mark_of h
  scanned r x n p h _ := h
  subsec r v h := mark_of h
  sec r v h := classic_field h _ _ _ _ _
  min r v h := classic_field h _ _ _ _ _
  hour24 r v h := classic_field h _ _ _ _ _
  hour12 r v h := classic_field h _ _ _ _ _
  mday r v h := classic_field h _ _ _ _ _
  mon r v h := classic_field h _ _ _ _ _
  fullYear r v h := mark_of h
  century r v h := mark_of h
  shortYear r v h := mark_of h
  wday r v h := classic_field h _ _ _ _ _
  yday r v h := classic_field h _ _ _ _ _
  tzOffset r v h := mark_of h
  handleAmPm r r' h _ _ hr := by
    dsimp only [dtSetter] at hr
    split at hr
    · cases hr
    · obtain ⟨_, _, rfl⟩ := Option.map_eq_some_iff.1 hr
      exact h
  handleYear r r' h _ hr := by
    dsimp only [dtSetter] at hr
    split at hr
    · cases hr
    · obtain ⟨_, _, rfl⟩ := Option.map_eq_some_iff.1 hr
      exact h

theorem unmodified_call (cfg : ChronoCfg) (set : TmSetter T) {r : Rd T} (h : Classic r) (x : ChronoCall) : r.call cfg set (unmodifiedCall x) = r.call cfg set x := by
  have hl : r.st.localized = false := h
  cases x <;> simp [unmodifiedCall, Rd.call, ChronoCall.expand, Rd.simple, Rd.numberOr, Rd.useLocale, hl]

theorem unmodified_check (gmtoff : Bool) (k : TmKind) (c : Checker) (x : ChronoCall) : c.call gmtoff k (unmodifiedCall x) = c.call gmtoff k x := by
  cases x <;> rfl

theorem unmodified_table : ∀ p ∈ modified, p.2.1 ≠ 122 → (p.2.1, unmodifiedCall p.2.2) ∈ conversions := by decide +kernel

theorem item_call_localized {e : Enc} {i : FmtItem} (h : i.Ok e) : i.call ≠ .localized := by
  cases i with
  | lit t => simp [FmtItem.call]
  | space c => simp [FmtItem.call]
  | conv t c =>
    rcases h with ⟨x, rfl, hc⟩ | ⟨m, x, rfl, hc⟩
    · have : ∀ p ∈ conversions, p.2 ≠ .localized := by decide +kernel
      exact this _ hc
    · have : ∀ p ∈ modified, p.2.2 ≠ .localized := by decide +kernel
      exact this _ hc

theorem unmodified_ok {e : Enc} {i : FmtItem} (h : i.Ok e) : (unmodified i).Ok e ∧ (unmodified i).isLit = i.isLit := by
  cases i with
  | lit t => exact ⟨h, rfl⟩
  | space c => exact ⟨h, rfl⟩
  | conv t c =>
    rcases h with ⟨x, rfl, hc⟩ | ⟨m, x, rfl, hc⟩
    · exact ⟨Or.inl ⟨x, rfl, hc⟩, rfl⟩
    · dsimp only [unmodified]
      by_cases hx : x = 122
      · rw [if_pos hx]
        exact ⟨Or.inr ⟨m, x, rfl, hc⟩, rfl⟩
      · rw [if_neg hx]
        exact ⟨Or.inl ⟨x, rfl, unmodified_table _ hc hx⟩, rfl⟩

theorem unmodified_format {e : Enc} {is : List FmtItem} (h : FormatOk e is) : FormatOk e (is.map unmodified) := by
  obtain ⟨⟨t, c, js, rfl⟩, hi, hadj⟩ := h
  refine ⟨?_, ?_, ?_⟩
  · rcases hi _ List.mem_cons_self with ⟨x, rfl, _⟩ | ⟨m, x, rfl, _⟩
    · exact ⟨_, _, _, rfl⟩
    · rw [List.map_cons]
      dsimp only [unmodified]
      by_cases hx : x = 122
      · rw [if_pos hx]; exact ⟨_, _, _, rfl⟩
      · rw [if_neg hx]; exact ⟨_, _, _, rfl⟩
  · intro i hi'
    obtain ⟨j, hj, rfl⟩ := List.mem_map.1 hi'
    exact (unmodified_ok (hi j hj)).1
  · intro pre a b post heq
    obtain ⟨l1, l2, h0, h1, h2⟩ := List.map_eq_append_iff.1 heq
    obtain ⟨a', l3, rfl, rfl, h3⟩ := List.map_eq_cons_iff.1 h2
    obtain ⟨b', l4, rfl, rfl, h4⟩ := List.map_eq_cons_iff.1 h3
    rw [(unmodified_ok (hi a' (by rw [h0]; simp))).2, (unmodified_ok (hi b' (by rw [h0]; simp))).2]
    exact hadj l1 a' b' l4 h0

theorem unmodified_same {e : Enc} {h : ChronoHandler σ} {P : σ → Prop} (hc : ∀ st x, P st → h.call st (unmodifiedCall x) = h.call st x) :
    ∀ {is : List FmtItem}, (∀ i ∈ is, i.Ok e) → SameItems h P is (is.map unmodified) := by
  intro is hi
  induction is with
  | nil => exact .nil
  | cons i is ih =>
    have ih := ih fun j hj => hi j (by simp [hj])
    have := hi i (by simp)
    cases i with
    | lit t => exact .same _ _ _ ih
    | space c => exact .same _ _ _ ih
    | conv t c =>
      rcases this with ⟨x, rfl, _⟩ | ⟨m, x, rfl, _⟩
      · exact .same _ _ _ ih
      · rw [List.map_cons]
        dsimp only [unmodified]
        by_cases hx : x = 122
        · rw [if_pos hx]; exact .same _ _ _ ih
        · rw [if_neg hx]; exact .conv _ _ _ _ _ _ (fun st hst => (hc st c hst).symm) ih

/-- What is accepted does not depend on the modifiers. -/
theorem check_unmodified (e : Enc) (gmtoff : Bool) (k : TmKind) {is : List FmtItem} (hok : FormatOk e is) (r : List Nat) :
    (chronoParse e gmtoff k (formatText is ++ 125 :: r) = .ok (formatText is, 125 :: r) ∧
        chronoParse e gmtoff k (formatText (is.map unmodified) ++ 125 :: r) = .ok (formatText (is.map unmodified), 125 :: r)) ∨
      ∃ o : Res (List Nat × List Nat), chronoParse e gmtoff k (formatText is ++ 125 :: r) = o ∧ chronoParse e gmtoff k (formatText (is.map unmodified) ++ 125 :: r) = o ∧
        (o = .ub ∨ ∃ er, o = .err er) := by
  have hs : SameItems (checkHandler gmtoff k) (fun _ => True) is (is.map unmodified) :=
    unmodified_same (e := e) (fun st x _ => unmodified_check gmtoff k st x) hok.2.1
  have hp := parse_same e (checkHandler gmtoff k) (P := fun _ => True) (fun _ _ _ _ _ _ => trivial) hs (tail := 125 :: r) (Or.inr ⟨r, rfl⟩) hok (unmodified_format hok)
    (fun i hi => item_call_localized (hok.2.1 i hi)) (st := {}) trivial
  have hcp : ∀ ks, FormatOk e ks → chronoParse e gmtoff k (formatText ks ++ 125 :: r) =
      (match parseChrono e (checkHandler gmtoff k) {} (formatText ks ++ 125 :: r) with
      | none => .ub
      | some (chk, p) => if chk.failed then .err .invalidFormatString
        else .ok ((formatText ks ++ 125 :: r).take ((formatText ks ++ 125 :: r).length - p.length), p)) := by
    intro ks hk
    obtain ⟨⟨t, c, ls, rfl⟩, _, _⟩ := hk
    rw [show formatText (.conv t c :: ls) ++ 125 :: r = 37 :: (t ++ (formatText ls ++ 125 :: r)) by simp [formatText, FmtItem.text]]
    rfl
  have h1 := hcp is hok
  have h2 := hcp _ (unmodified_format hok)
  cases ha : parseChrono e (checkHandler gmtoff k) {} (formatText is ++ 125 :: r) with
  | none =>
    rw [ha] at hp h1
    cases hb : parseChrono e (checkHandler gmtoff k) {} (formatText (is.map unmodified) ++ 125 :: r) with
    | none => rw [hb] at h2; exact Or.inr ⟨.ub, h1, h2, Or.inl rfl⟩
    | some b => rw [hb] at hp; cases hp
  | some a =>
    rw [ha] at hp h1
    cases hb : parseChrono e (checkHandler gmtoff k) {} (formatText (is.map unmodified) ++ 125 :: r) with
    | none => rw [hb] at hp; cases hp
    | some b =>
      rw [hb] at hp h2
      obtain ⟨a1, a2⟩ := a
      obtain ⟨b1, b2⟩ := b
      simp only [Option.map_some, Option.some.injEq] at hp
      subst hp
      dsimp only at h1 h2
      by_cases hf : a1.failed = true
      · rw [if_pos hf] at h1 h2
        exact Or.inr ⟨_, h1, h2, Or.inr ⟨_, rfl⟩⟩
      · rw [if_neg hf] at h1 h2
        obtain ⟨x1, x2⟩ := chronoParse_text hok h1
        obtain ⟨y1, y2⟩ := chronoParse_text (unmodified_format hok) h2
        rw [x1, x2] at h1
        rw [y1, y2] at h2
        exact Or.inl ⟨h1, h2⟩

/-- Nor does what is read. -/
theorem custom_unmodified (cfg : ChronoCfg) (gmtoff : Bool) (k : TmKind) {set : TmSetter T} (hset : Closed0 cfg set Classic) {is : List FmtItem} (hok : FormatOk cfg.enc is)
    (t0 : T) (r src : List Nat) :
    (chronoCustom cfg gmtoff k set t0 (formatText is ++ 125 :: r) src).2 = (chronoCustom cfg gmtoff k set t0 (formatText (is.map unmodified) ++ 125 :: r) src).2 := by
  unfold chronoCustom
  rcases check_unmodified cfg.enc gmtoff k hok r with ⟨h1, h2⟩ | ⟨o, h1, h2, h3⟩
  · rw [h1, h2]
    show chronoScan cfg set (formatText is) t0 src = chronoScan cfg set (formatText (is.map unmodified)) t0 src
    unfold chronoScan
    cases skipSpace cfg.enc (cfg.lay src) false src with
    | ub => rfl
    | err er => rfl
    | ok p =>
      have hs : SameItems (readHandler cfg set) Classic is (is.map unmodified) :=
        unmodified_same (e := cfg.enc) (fun st x h => unmodified_call cfg set h x) hok.2.1
      have hp := parse_same cfg.enc (readHandler cfg set) (fun st x st' h hx hc => closed_call0 hset h x hx hc) hs (tail := []) (Or.inl rfl) hok (unmodified_format hok)
        (fun i hi => item_call_localized (hok.2.1 i hi)) (st := ⟨p, p, t0, {}, none⟩) rfl
      rw [List.append_nil, List.append_nil] at hp
      show (match parseChrono cfg.enc (readHandler cfg set) ⟨p, p, t0, {}, none⟩ (formatText is) with
        | none => Res.ub
        | some (r, _) => match r.err with
          | some e => Res.err e
          | none => Res.ok (r.tm, r.pos)) = (match parseChrono cfg.enc (readHandler cfg set) ⟨p, p, t0, {}, none⟩ (formatText (is.map unmodified)) with
        | none => Res.ub
        | some (r, _) => match r.err with
          | some e => Res.err e
          | none => Res.ok (r.tm, r.pos))
      cases ha : parseChrono cfg.enc (readHandler cfg set) ⟨p, p, t0, {}, none⟩ (formatText is) with
      | none =>
        rw [ha] at hp
        cases hb : parseChrono cfg.enc (readHandler cfg set) ⟨p, p, t0, {}, none⟩ (formatText (is.map unmodified)) with
        | none => rfl
        | some b => rw [hb] at hp; cases hp
      | some a =>
        rw [ha] at hp
        cases hb : parseChrono cfg.enc (readHandler cfg set) ⟨p, p, t0, {}, none⟩ (formatText (is.map unmodified)) with
        | none => rw [hb] at hp; cases hp
        | some b =>
          rw [hb] at hp
          obtain ⟨a1, a2⟩ := a
          obtain ⟨b1, b2⟩ := b
          simp only [Option.map_some, Option.some.injEq] at hp
          subst hp
          rfl
  · rw [h1, h2]
    rcases h3 with rfl | ⟨er, rfl⟩ <;> rfl

/-- `%OW` reads what `%u` reads. -/
theorem scan_weekO (cfg : ChronoCfg) (hl : GoodLayouts cfg.enc cfg.lay) (set : TmSetter T) (t0 : T) {ws rest : List Nat} {v : Nat} (hw : Spaces ws)
    (hv : v ≤ 9) (hs : ∀ c ∈ rest, IsScalar c) :
    chronoScan cfg set [37, 79, 87] t0 (encodes cfg.enc (ws ++ ([48 + v] ++ rest))) =
      scanEnd (let r := set.wday ⟨encodes cfg.enc ([48 + v] ++ rest), encodes cfg.enc rest, t0, {}, none⟩ (if v = 0 then 6 else (v : Int) - 1)
        if r.err.isNone then (r.verify set).map fun s => (s, []) else some (r, [])) := by
  have ht : Digits 1 1 v [48 + v] fun u => u = rest :=
    { digits_one (hi := 0) hv with follow := fun _ _ => Or.inl rfl }
  have hf := digits_first ht (by decide) rest
  have hp : ∀ st, parseChrono cfg.enc (readHandler cfg set) st [37, 79, 87] = ((readHandler cfg set).call st (.dec1Weekday .altO)).bind fun st =>
      if (readHandler cfg set).ok st then ((readHandler cfg set).call st .verify).map fun s => (s, []) else some (st, []) := fun _ => rfl
  rw [chronoScan_at cfg hl set [37, 79, 87] t0 hw hf.2 hf.1 (scalar_append (digits_scalar ht) hs), hp]
  have : (readHandler cfg set).call ⟨encodes cfg.enc ([48 + v] ++ rest), encodes cfg.enc ([48 + v] ++ rest), t0, {}, none⟩ (.dec1Weekday .altO) =
      some (set.wday ⟨encodes cfg.enc ([48 + v] ++ rest), encodes cfg.enc rest, t0, {}, none⟩ (if v = 0 then 6 else (v : Int) - 1)) := by
    show some (Rd.numberOr cfg _ _ _ adjustWday 1 1 _ _) = _
    rw [numberOr_digits ht cfg cfg.enc .altO _ _ adjustWday rest hs rfl _ _ rfl rfl]
    unfold adjustWday
    simp
  rw [this]
  rfl

end Scn
