import Verif.Lemmas.Chrono8
/-
A date and time scan that succeeds: the fields of its format were all set, each once, and pass the check.
-/
namespace Scn
open Spec
variable {T : Type}

/-- A conversion without a composite meaning, of those that mark one field at most. -/
def oneField (x : ChronoCall) : Prop := x ≠ .verify ∧ x ≠ .localized ∧ ∀ s, x ≠ .subsecond s

theorem simples_marked (cfg : ChronoCfg) (set : TmSetter T) {marked : ChronoField → Bool} (hm : Marks set marked) (hst : Closed cfg set (fun r => r.err ≠ none))
    (cs : List ChronoCall) (hcs : ∀ x ∈ cs, oneField x) : ∀ {r r' : Rd T}, r.st.localized = false → r.err = none → r.simples cfg set cs = some r' → r'.err = none →
      MarkedAll marked (fieldsOf cs) r r' := by
  induction cs with
  | nil => intro r r' hl hr0 h he; cases h; exact markedAll_nil hr0 rfl
  | cons c cs ih =>
    intro r r' hl hr0 h he
    rw [Rd.simples] at h
    obtain ⟨a, ha, h⟩ := bind_some_iff.1 h
    have hae : a.err = none := by
      cases hh : a.err with
      | none => rfl
      | some x => exact absurd he (closed_simples hst cs (by rw [hh]; simp) h)
    have h1 := simple_marked cfg set hm c (hcs c (by simp)) hl ha hae
    have h2 := ih (fun x hx => hcs x (by simp [hx])) (by rw [h1.2.1]; exact hl) hae h he
    have := markedAll_trans h1 h2
    rw [show fieldsOf (c :: cs) = fieldsOf [c] ++ fieldsOf cs by unfold fieldsOf; rw [← List.filterMap_append]; rfl]
    exact this

theorem item_oneField {e : Enc} {i : FmtItem} (h : i.Ok e) : ∀ x ∈ expansion i.call, oneField x := by
  have hdec : ∀ p ∈ conversions, ∀ x ∈ expansion p.2, x ≠ .verify ∧ x ≠ .localized ∧ x ≠ .subsecond .standard ∧ x ≠ .subsecond .altE ∧ x ≠ .subsecond .altO := by decide +kernel
  have hdec' : ∀ p ∈ modified, ∀ x ∈ expansion p.2.2, x ≠ .verify ∧ x ≠ .localized ∧ x ≠ .subsecond .standard ∧ x ≠ .subsecond .altE ∧ x ≠ .subsecond .altO := by decide +kernel
  have lift : ∀ x : ChronoCall, (x ≠ .verify ∧ x ≠ .localized ∧ x ≠ .subsecond .standard ∧ x ≠ .subsecond .altE ∧ x ≠ .subsecond .altO) → oneField x := by
    rintro x ⟨h1, h2, h3, h4, h5⟩
    refine ⟨h1, h2, fun s => ?_⟩
    cases s
    · exact h3
    · exact h4
    · exact h5
  intro x hx
  cases i with
  | lit t =>
    simp only [FmtItem.call, expansion, List.mem_singleton] at hx
    subst hx
    exact lift _ (by simp)
  | space c =>
    simp only [FmtItem.call, expansion, List.mem_singleton] at hx
    subst hx
    exact lift _ (by simp)
  | conv t c =>
    rcases h with ⟨y, rfl, hy⟩ | ⟨m, y, rfl, hy⟩
    · exact lift _ (hdec _ hy x hx)
    · exact lift _ (hdec' _ hy x hx)

theorem calls_marked (cfg : ChronoCfg) (set : TmSetter T) {marked : ChronoField → Bool} (hm : Marks set marked) (hst : Closed cfg set (fun r => r.err ≠ none))
    (xs : List ChronoCall) (hxs : ∀ x ∈ xs, ∀ y ∈ expansion x, oneField y) : ∀ {r r' : Rd T}, r.st.localized = false → r.err = none →
      Calls (readHandler cfg set) r xs r' → MarkedAll marked (fieldsOf (xs.flatMap expansion)) r r' := by
  induction xs with
  | nil => intro r r' hl hr0 h; cases h; exact markedAll_nil hr0 rfl
  | cons x xs ih =>
    intro r r' hl hr0 h
    cases h with
    | cons _ _ a _ _ hc hok hs =>
      have hae : a.err = none := by
        have : a.err.isNone = true := hok
        simpa using this
      have hc' : r.simples cfg set (expansion x) = some a := by rw [← call_expansion cfg set r hl x]; exact hc
      have h1 := simples_marked cfg set hm hst _ (hxs x (by simp)) hl hr0 hc' hae
      have h2 := ih (fun y hy => hxs y (by simp [hy])) (by rw [h1.2.1]; exact hl) hae hs
      have := markedAll_trans h1 h2
      rw [List.flatMap_cons, show fieldsOf (expansion x ++ xs.flatMap expansion) = fieldsOf (expansion x) ++ fieldsOf (xs.flatMap expansion) by
        unfold fieldsOf; rw [List.filterMap_append]]
      exact this

/-! ### The calls of a format -/

/-- A handler that does the same as another, seen through `f`. -/
theorem loop_simulation {σ τ : Type} (e : Enc) (h : ChronoHandler σ) (k : ChronoHandler τ) (f : σ → τ) (hc : ∀ s x, k.call (f s) x = (h.call s x).map f)
    (ho : ∀ s, k.ok (f s) = h.ok s) (n : Nat) : ∀ st acc p, chronoLoop e k n (f st) acc p = (chronoLoop e h n st acc p).map fun r => (f r.1, r.2) := by
  have flush : ∀ st acc, (if acc = [] then some (f st) else k.call (f st) (.text acc)) = (if acc = [] then some st else h.call st (.text acc)).map f := by
    intro st acc; split
    · rfl
    · exact hc _ _
  have fin : ∀ st acc p, chronoFinish k (f st) acc p = (chronoFinish h st acc p).map fun r => (f r.1, r.2) := by
    intro st acc p
    unfold chronoFinish
    rw [flush]
    cases (if acc = [] then some st else h.call st (.text acc)) with
    | none => rfl
    | some a =>
      simp only [Option.map_some, Option.bind_some, hc]
      cases h.call a .verify <;> rfl
  have err : ∀ st (q : List Nat), ((k.call (f st) .error).map fun st => (st, q)) = ((h.call st .error).map fun st => (st, q)).map fun r => (f r.1, r.2) := by
    intro st q
    rw [hc]
    cases h.call st .error <;> rfl
  induction n with
  | zero => intro st acc p; rfl
  | succ n ih =>
    have sp : ∀ st (acc q : List Nat), ((k.call (f st) (.text acc)).bind fun st => (k.call st .whitespace).bind fun st => chronoLoop e k n st [] q) =
        ((h.call st (.text acc)).bind fun st => (h.call st .whitespace).bind fun st => chronoLoop e h n st [] q).map fun r => (f r.1, r.2) := by
      intro st acc q
      rw [hc]
      cases h.call st (.text acc) with
      | none => rfl
      | some a =>
        simp only [Option.map_some, Option.bind_some, hc]
        cases h.call a .whitespace with
        | none => rfl
        | some b => simp only [Option.map_some, Option.bind_some, ih]
    intro st acc p
    cases p with
    | nil => exact fin _ _ _
    | cons ch q =>
      rw [chronoLoop, chronoLoop]
      by_cases h1 : ch = 125
      · rw [if_pos h1, if_pos h1]; exact fin _ _ _
      rw [if_neg h1, if_neg h1]
      by_cases h2 : ch ≠ 37
      · rw [if_pos h2, if_pos h2]
        by_cases h3 : ch = 32 ∨ 9 ≤ ch ∧ ch ≤ 13
        · rw [if_pos h3, if_pos h3]; exact sp _ _ _
        rw [if_neg h3, if_neg h3]
        by_cases h4 : cpLength e ch = 0
        · rw [if_pos h4, if_pos h4]; exact err _ _
        rw [if_neg h4, if_neg h4]
        by_cases h5 : cpLength e ch = 1
        · rw [if_pos h5, if_pos h5]; exact ih _ _ _
        rw [if_neg h5, if_neg h5]
        by_cases h6 : (ch :: q).length < cpLength e ch
        · rw [if_pos h6, if_pos h6]; exact err _ _
        rw [if_neg h6, if_neg h6]
        cases decodeCp e ((ch :: q).take (cpLength e ch)) with
        | none => rfl
        | some cp =>
          simp only [Option.bind_some]
          by_cases h7 : isCpSpace cp = true
          · rw [if_pos h7, if_pos h7]; exact sp _ _ _
          rw [if_neg h7, if_neg h7]
          cases List.drop (cpLength e ch) (ch :: q) with
          | nil => rfl
          | cons d r => exact ih _ _ _
      · rw [if_neg h2, if_neg h2, flush]
        cases (if acc = [] then some st else h.call st (.text acc)) with
        | none => rfl
        | some a =>
          simp only [Option.map_some, Option.bind_some]
          cases chronoConversion q with
          | mk c r =>
            cases c with
            | none => exact err _ _
            | some c =>
              dsimp only
              rw [hc]
              cases h.call a c with
              | none => rfl
              | some b =>
                simp only [Option.map_some, Option.bind_some, ho]
                split
                · exact ih _ _ _
                · rfl

theorem parse_simulation {σ τ : Type} (e : Enc) (h : ChronoHandler σ) (k : ChronoHandler τ) (f : σ → τ) (hc : ∀ s x, k.call (f s) x = (h.call s x).map f)
    (ho : ∀ s, k.ok (f s) = h.ok s) (st : σ) (fmt : List Nat) : parseChrono e k (f st) fmt = (parseChrono e h st fmt).map fun r => (f r.1, r.2) := by
  have err : ∀ st (q : List Nat), ((k.call (f st) .error).map fun st => (st, q)) = ((h.call st .error).map fun st => (st, q)).map fun r => (f r.1, r.2) := by
    intro st q
    rw [hc]
    cases h.call st .error <;> rfl
  unfold parseChrono
  cases fmt with
  | nil => exact err _ _
  | cons c r =>
    dsimp only
    by_cases h1 : c = 125
    · rw [if_pos h1, if_pos h1]; exact err _ _
    rw [if_neg h1, if_neg h1]
    by_cases h2 : c = 76
    · rw [if_pos h2, if_pos h2, hc]
      cases h.call st .localized with
      | none => rfl
      | some a =>
        simp only [Option.map_some, Option.bind_some]
        cases r with
        | nil => exact err _ _
        | cons d r =>
          dsimp only
          by_cases h3 : d ≠ 37
          · rw [if_pos h3, if_pos h3]; exact err _ _
          · rw [if_neg h3, if_neg h3]; exact loop_simulation e h k f hc ho _ _ _ _
    · rw [if_neg h2, if_neg h2]
      by_cases h3 : c ≠ 37
      · rw [if_pos h3, if_pos h3]; exact err _ _
      · rw [if_neg h3, if_neg h3]; exact loop_simulation e h k f hc ho _ _ _ _

/-- Calls without those for empty texts. -/
def dropEmpty (xs : List ChronoCall) : List ChronoCall := xs.filter fun x => decide (x ≠ .text [])

/-- A recorder that passes over empty texts. -/
def brief : ChronoHandler (List ChronoCall) := ⟨fun tr x => some (if x = .text [] then tr else tr ++ [x]), fun _ => true⟩

theorem brief_calls (xs : List ChronoCall) (h : ∀ x ∈ xs, x ≠ .text []) : ∀ tr, Calls brief tr xs (tr ++ xs) := by
  induction xs with
  | nil => intro tr; rw [List.append_nil]; exact .nil _
  | cons x xs ih =>
    intro tr
    have := ih (fun y hy => h y (by simp [hy])) (tr ++ [x])
    rw [List.append_assoc, List.singleton_append] at this
    refine .cons _ _ (tr ++ [x]) _ _ ?_ rfl this
    show some (if x = .text [] then tr else tr ++ [x]) = _
    rw [if_neg (h x (by simp))]

theorem item_text {e : Enc} {i : FmtItem} (h : i.Ok e) : i.call ≠ .text [] := by
  cases i with
  | lit t => intro heq; cases heq; exact h.1 rfl
  | space c => simp [FmtItem.call]
  | conv t c =>
    have hdec : ∀ p ∈ conversions, p.2 ≠ .text [] := by decide +kernel
    have hdec' : ∀ p ∈ modified, p.2.2 ≠ .text [] := by decide +kernel
    rcases h with ⟨y, rfl, hy⟩ | ⟨m, y, rfl, hy⟩
    · exact hdec _ hy
    · exact hdec' _ hy

/-- The calls of a format of `FormatOk` are those of its parts, then `verify`. -/
theorem formatCalls_items {e : Enc} {is : List FmtItem} (hok : FormatOk e is) (tail : List Nat) (htail : tail = [] ∨ ∃ r, tail = 125 :: r)
    {xs : List ChronoCall} {p : List Nat} (h : formatCalls e (formatText is ++ tail) = some (xs, p)) :
    dropEmpty xs = is.map FmtItem.call ++ [.verify] ∧ p = tail := by
  have hne : ∀ x ∈ is.map FmtItem.call, x ≠ .text [] := by
    intro x hx
    obtain ⟨i, hi, rfl⟩ := List.mem_map.1 hx
    exact item_text (hok.2.1 i hi)
  have h1 := parseChrono_items e brief (fun st => rfl) is hok tail htail [] _ (is.map FmtItem.call ++ [.verify]) (brief_calls _ hne []) rfl
  have h2 := parse_simulation e recorder brief dropEmpty (by
      intro s x
      rw [recorder_call]
      show some (if x = .text [] then dropEmpty s else dropEmpty s ++ [x]) = some (dropEmpty (s ++ [x]))
      unfold dropEmpty
      rw [List.filter_append]
      split
      · rename_i hx; subst hx; simp
      · rename_i hx; simp [hx]) (fun _ => rfl) [] (formatText is ++ tail)
  rw [show dropEmpty [] = [] from rfl, h1] at h2
  unfold formatCalls at h
  rw [h] at h2
  simp only [Option.map_some, Option.some.injEq, Prod.mk.injEq] at h2
  exact ⟨h2.1.symm, h2.2.symm⟩

theorem calls_dropEmpty {σ : Type} {h : ChronoHandler σ} (htext : ∀ st, h.call st (.text []) = some st) {xs : List ChronoCall} : ∀ {st st' : σ}, Calls h st xs st' →
    Calls h st (dropEmpty xs) st' := by
  induction xs with
  | nil => intro st st' hc; exact hc
  | cons x xs ih =>
    intro st st' hc
    cases hc with
    | cons _ _ a _ _ h1 hok hs =>
      by_cases hx : x = .text []
      · subst hx
        rw [htext] at h1
        cases h1
        have := ih hs
        simpa [dropEmpty] using this
      · have : dropEmpty (x :: xs) = x :: dropEmpty xs := by simp [dropEmpty, hx]
        rw [this]
        exact .cons _ _ _ _ _ h1 hok (ih hs)

theorem resBind_ok {α β : Type} {x : Res α} {f : α → Res β} {b : β} (h : x.bind f = .ok b) : ∃ a, x = .ok a ∧ f a = .ok b := by
  cases x with
  | ok a => exact ⟨a, rfl, h⟩
  | err e => cases h
  | ub => cases h

/-- The reader at the end of a scan that succeeds. -/
def Finished (cfg : ChronoCfg) (set : TmSetter T) (fmt : List Nat) (t0 : T) (src : List Nat) (r : Rd T) : Prop :=
  ∃ p p', skipSpace cfg.enc (cfg.lay src) false src = .ok p ∧ parseChrono cfg.enc (readHandler cfg set) ⟨p, p, t0, {}, none⟩ fmt = some (r, p') ∧ r.err = none

theorem finished_of_ok {cfg : ChronoCfg} {set : TmSetter T} {fmt : List Nat} {t0 : T} {src : List Nat} {t : T} {rest : List Nat}
    (h : chronoScan cfg set fmt t0 src = .ok (t, rest)) : ∃ r, Finished cfg set fmt t0 src r ∧ t = r.tm ∧ rest = r.pos := by
  unfold chronoScan at h
  obtain ⟨p, hp, h⟩ := resBind_ok h
  split at h
  · cases h
  · rename_i r p' hparse
    split at h
    · cases h
    · rename_i herr
      cases h
      exact ⟨r, ⟨p, p', hp, hparse, herr⟩, rfl, rfl⟩

/-- A scan that succeeds marked the fields of its format, and these pass the check. -/
theorem finished_marked (cfg : ChronoCfg) (set : TmSetter T) {marked : ChronoField → Bool} (hm : Marks set marked) (hst : Closed cfg set (fun r => r.err ≠ none))
    (is : List FmtItem) (hok : FormatOk cfg.enc is) (t0 : T) (src : List Nat) {r : Rd T} (h : Finished cfg set (formatText is) t0 src r) :
    r.st.set = ((fieldsOf (callsOf is)).filter marked).reverse ∧ r.st.set.Nodup ∧ r.st.verify = true := by
  obtain ⟨p, p', hp, hparse, herr⟩ := h
  have hs := parse_success cfg.enc (readHandler cfg set) (sticky_reader hst) hparse (by show r.err.isNone = true; rw [herr]; rfl)
  obtain ⟨xs, hx, hcalls⟩ := hs
  have hx' : formatCalls cfg.enc (formatText is ++ []) = some (xs, p') := by rw [List.append_nil]; exact hx
  have hd := (formatCalls_items hok [] (Or.inl rfl) hx').1
  have hcalls := calls_dropEmpty (h := readHandler cfg set) (fun _ => rfl) hcalls
  rw [hd] at hcalls
  obtain ⟨a, ha, hv⟩ := hcalls.split
  cases hv with
  | cons _ _ b _ _ hver _ hnil =>
    cases hnil
    have hmk := calls_marked cfg set hm hst _ (by
      intro x hx
      obtain ⟨i, hi, rfl⟩ := List.mem_map.1 hx
      exact item_oneField (hok.2.1 i hi)) rfl rfl ha
    have hcl : callsOf is = (is.map FmtItem.call).flatMap expansion := by unfold callsOf; rw [List.flatMap_map]
    rw [← hcl] at hmk
    have hvs := verify_success set hm a r hver herr
    rw [hvs.2.1]
    exact ⟨by rw [hmk.2.2.1]; exact List.append_nil _, hmk.2.2.2 List.nodup_nil, hvs.2.2⟩

theorem verify_steps (h24 h12 ap fy ce sy tzo tzn wd md yd : Bool)
    (h : (if h24 && h12 then false else if ap && !h12 then false else if ap && h24 then false else if fy && (ce || sy) then false
      else if tzo && tzn then false else if (wd || md || yd) && !((wd ^^ md) ^^ yd) then false else true) = true) :
    (h24 && h12) = false ∧ (ap && !h12) = false ∧ (fy && (ce || sy)) = false ∧ (tzo && tzn) = false ∧ ((wd || md || yd) && !((wd ^^ md) ^^ yd)) = false := by
  by_cases c1 : (h24 && h12) = true
  · rw [if_pos c1] at h; cases h
  rw [if_neg c1] at h
  by_cases c2 : (ap && !h12) = true
  · rw [if_pos c2] at h; cases h
  rw [if_neg c2] at h
  by_cases c3 : (ap && h24) = true
  · rw [if_pos c3] at h; cases h
  rw [if_neg c3] at h
  by_cases c4 : (fy && (ce || sy)) = true
  · rw [if_pos c4] at h; cases h
  rw [if_neg c4] at h
  by_cases c5 : (tzo && tzn) = true
  · rw [if_pos c5] at h; cases h
  rw [if_neg c5] at h
  by_cases c6 : ((wd || md || yd) && !((wd ^^ md) ^^ yd)) = true
  · rw [if_pos c6] at h; cases h
  exact ⟨by simpa using c1, by simpa using c2, by simpa using c4, by simpa using c5, by simpa using c6⟩

/-- What the final check rejects: everything that is not compatible, unless all three days are given. -/
theorem verify_rejects {st : SetterState} (h : st.verify = true) (hdays : ¬ (.wday ∈ st.set ∧ .mday ∈ st.set ∧ .yday ∈ st.set)) : Compatible st.set := by
  have hh : ∀ f, st.has f = decide (f ∈ st.set) := fun f => List.contains_eq_mem f st.set
  unfold SetterState.verify at h
  simp only [hh] at h
  obtain ⟨h1, h2, h3, h4, h5⟩ := verify_steps _ _ _ _ _ _ _ _ _ _ _ h
  refine ⟨by simpa using h1, by simpa using h2, ?_, by simpa using h4, ?_⟩
  · intro hf; simp [hf] at h3; exact h3
  · by_cases b3 : ChronoField.wday ∈ st.set <;> by_cases b4 : ChronoField.mday ∈ st.set <;> by_cases b5 : ChronoField.yday ∈ st.set <;>
      simp [b3, b4, b5] at h5 hdays ⊢

end Scn
