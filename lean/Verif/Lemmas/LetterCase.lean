import Verif.Lemmas.AnyEncoding
import Verif.Lemmas.Widen
import Verif.Lemmas.Layouts
import Verif.Spec.LetterCase
/-
Helper lemmas: upper and lower case letters in integers.
-/
namespace Scn
open Spec

theorem digit?_lower (c : Nat) : digit? (lower c) = digit? c := by
  unfold lower
  split
  · rename_i h
    have : ∀ k : Fin 26, digit? (k.val + 65 + 32) = digit? (k.val + 65) := by decide
    have := this ⟨c - 65, by omega⟩
    have h2 : c - 65 + 65 = c := by omega
    simpa [h2] using this
  · rfl

theorem isDigit_lower (b c : Nat) : IsDigit b (lower c) ↔ IsDigit b c := by
  unfold IsDigit; rw [digit?_lower]

theorem lower_eq_iff_other {c d : Nat} (hd : ¬ (97 ≤ d ∧ d ≤ 122)) (hd' : ¬ (65 ≤ d ∧ d ≤ 90)) : lower c = d ↔ c = d := by
  unfold lower; split <;> omega

theorem digitRun_lower (b : Nat) (s : List Nat) : digitRun b (s.map lower) = (digitRun b s).map lower := by
  unfold digitRun
  rw [List.takeWhile_map]
  congr 2
  funext c
  exact decide_eq_decide.2 (isDigit_lower b c)

theorem afterRun_lower (b : Nat) (s : List Nat) : afterRun b (s.map lower) = (afterRun b s).map lower := by
  unfold afterRun
  rw [List.dropWhile_map]
  congr 2
  funext c
  exact decide_eq_decide.2 (isDigit_lower b c)

theorem value_lower (b : Nat) (s : List Nat) : value b (s.map lower) = value b s := by
  unfold value
  rw [List.foldl_map]
  congr 1
  funext a c
  rw [digit?_lower]

theorem hasPrefix_lower {lo up b : Nat} (h : (lo = 120 ∧ up = 88) ∨ (lo = 98 ∧ up = 66) ∨ (lo = 111 ∧ up = 79)) (t : List Nat) :
    HasPrefix lo up b (t.map lower) ↔ HasPrefix lo up b t := by
  match t with
  | [] => exact Iff.rfl
  | [_] => exact Iff.rfl
  | [_, _] => exact Iff.rfl
  | c :: l :: d :: r =>
    show (lower c = 48 ∧ (lower l = lo ∨ lower l = up) ∧ IsDigit b (lower d)) ↔ (c = 48 ∧ (l = lo ∨ l = up) ∧ IsDigit b d)
    rw [isDigit_lower, lower_eq_iff_other (by decide) (by decide)]
    have : (lower l = lo ∨ lower l = up) ↔ (l = lo ∨ l = up) := by
      unfold lower
      split <;> omega
    rw [this]

theorem chooseBase_lower (base : Nat) (t : List Nat) : chooseBase base (t.map lower) = ((chooseBase base t).1, (chooseBase base t).2.map lower) := by
  unfold chooseBase
  simp only [hasPrefix_lower (lo := 120) (up := 88) (by decide), hasPrefix_lower (lo := 98) (up := 66) (by decide), hasPrefix_lower (lo := 111) (up := 79) (by decide)]
  have hz : (t.map lower).head? = some 48 ↔ t.head? = some 48 := by
    cases t with
    | nil => exact Iff.rfl
    | cons c cs =>
      simp only [List.map_cons, List.head?_cons, Option.some.injEq]
      exact lower_eq_iff_other (by decide) (by decide)
  simp only [hz]
  repeat' split
  all_goals simp only [List.map_drop]

theorem scanDigitsW_lower (T : IntTy) (neg : Bool) (b : Nat) (s : List Nat) :
    scanDigitsW T neg b (s.map lower) = (scanDigitsW T neg b s).map fun r => (r.1, r.2.map lower) := by
  unfold scanDigitsW
  rw [digitRun_lower, afterRun_lower, value_lower]
  simp only [List.map_eq_nil_iff]
  repeat' split
  all_goals rfl

theorem scanIntW_lower (T : IntTy) (base : Nat) (uo : Bool) (s : List Nat) :
    scanIntW T base uo (s.map lower) = (scanIntW T base uo s).map fun r => (r.1, r.2.map lower) := by
  cases s with
  | nil => rfl
  | cons c cs =>
    have h45 : lower c = 45 ↔ c = 45 := lower_eq_iff_other (by decide) (by decide)
    have h43 : lower c = 43 ↔ c = 43 := lower_eq_iff_other (by decide) (by decide)
    have hb : (lower c == 45) = (c == 45) := by
      rw [Bool.eq_iff_iff, beq_iff_eq, beq_iff_eq]; exact h45
    simp only [scanIntW, List.map_cons]
    rw [hb]
    split
    · rfl
    · have ht : (if lower c = 45 ∨ lower c = 43 then cs.map lower else lower c :: cs.map lower) = (if c = 45 ∨ c = 43 then cs else c :: cs).map lower := by
        simp only [h45, h43]; split <;> rfl
      rw [ht, chooseBase_lower]
      exact scanDigitsW_lower _ _ _ _

theorem isSpace_lower (c : Nat) : isSpace (lower c) = isSpace c := by
  unfold lower
  split
  · rename_i h
    have : ∀ k : Fin 26, isSpace (k.val + 65 + 32) = isSpace (k.val + 65) := by decide
    have := this ⟨c - 65, by omega⟩
    have h2 : c - 65 + 65 = c := by omega
    simpa [h2] using this
  · rfl

theorem afterSign_lower (s : List Nat) : (afterSign (s.map lower)).head? = some 16 ↔ (afterSign s).head? = some 16 := by
  cases s with
  | nil => exact Iff.rfl
  | cons c cs =>
    have h45 : lower c = 45 ↔ c = 45 := lower_eq_iff_other (by decide) (by decide)
    have h43 : lower c = 43 ↔ c = 43 := lower_eq_iff_other (by decide) (by decide)
    simp only [afterSign, List.map_cons, h45, h43]
    split
    · cases cs with
      | nil => exact Iff.rfl
      | cons d ds =>
        simp only [List.map_cons, List.head?_cons, Option.some.injEq]
        exact lower_eq_iff_other (by decide) (by decide)
    · simp only [List.head?_cons, Option.some.injEq]
      exact lower_eq_iff_other (by decide) (by decide)

theorem lower_bytes {s : List Nat} (h : ∀ c ∈ s, c < 256) : ∀ c ∈ s.map lower, c < 256 := by
  intro c hc
  obtain ⟨d, hd, rfl⟩ := List.mem_map.1 hc
  have := h d hd
  unfold lower; split <;> omega

theorem lower_scalar {s : List Nat} (h : ∀ c ∈ s, IsScalar c ∧ c ≠ 16) : ∀ c ∈ s.map lower, IsScalar c ∧ c ≠ 16 := by
  intro c hc
  obtain ⟨d, hd, rfl⟩ := List.mem_map.1 hc
  have := h d hd
  unfold IsScalar at *
  unfold lower; split <;> omega

theorem sameReading_of_map {V : Type} {a b : Res (V × List Nat)}
    (h : (a.map fun r => (r.1, r.2.map lower)) = b.map fun r => (r.1, r.2.map lower)) : SameReading a b := by
  cases a with
  | ok x =>
    cases b with
    | ok y => have h := Prod.mk.inj (Res.ok.inj h); exact ⟨h.1, h.2⟩
    | err y => cases h
    | ub => cases h
  | err x =>
    cases b with
    | ok y => cases h
    | err y => exact Res.err.inj h
    | ub => cases h
  | ub =>
    cases b with
    | ok y => cases h
    | err y => cases h
    | ub => trivial

theorem sameReading_map {V W : Type} (f : V → W) {a b : Res (V × List Nat)} (h : SameReading a b) :
    SameReading (a.map fun r => (f r.1, r.2)) (b.map fun r => (f r.1, r.2)) := by
  cases a <;> cases b <;> first | exact h.elim | exact ⟨congrArg f h.1, h.2⟩ | exact h

theorem scanIntW_case (T : IntTy) (base : Nat) (uo : Bool) {s s' : List Nat} (h : SameButCase s s') : SameReading (scanIntW T base uo s) (scanIntW T base uo s') :=
  sameReading_of_map (by rw [← scanIntW_lower, ← scanIntW_lower, h])

theorem encode_lower (e : Enc) (c : Nat) (h : IsScalar c) : encode e (lower c) = (encode e c).map lower := by
  by_cases hc : c < 128
  · have : lower c < 128 := by unfold lower; split <;> omega
    rw [encode_ascii e _ this, encode_ascii e _ hc]; rfl
  · have hl : lower c = c := by unfold lower; split <;> omega
    rw [hl]
    symm
    rw [List.map_congr_left (g := id), List.map_id]
    intro u hu
    have : ¬ u < 128 := fun hx => by
      have := encode_mem_ascii e c u h hu hx
      omega
    unfold lower
    show _ = u
    split <;> omega

theorem encodes_lower (e : Enc) (cps : List Nat) (h : ∀ c ∈ cps, IsScalar c) : encodes e (cps.map lower) = (encodes e cps).map lower := by
  induction cps with
  | nil => rfl
  | cons c cs ih =>
    show encode e (lower c) ++ encodes e (cs.map lower) = (encode e c ++ encodes e cs).map lower
    rw [List.map_append, encode_lower e c (h c (by simp)), ih fun x hx => h x (by simp [hx])]

theorem encodes_case {e : Enc} {cps cps' : List Nat} (h : ∀ c ∈ cps, IsScalar c) (h' : ∀ c ∈ cps', IsScalar c) (hc : SameButCase cps cps') :
    SameButCase (encodes e cps) (encodes e cps') := by
  unfold SameButCase at *
  rw [← encodes_lower e _ h, ← encodes_lower e _ h', hc]

theorem dropSpaces_lower (cps : List Nat) : (cps.map lower).dropWhile isSpace = (cps.dropWhile isSpace).map lower := by
  rw [List.dropWhile_map]
  congr 2
  funext c
  exact isSpace_lower c

theorem dropSpaces_case {cps cps' : List Nat} (hc : SameButCase cps cps') : SameButCase (cps.dropWhile isSpace) (cps'.dropWhile isSpace) := by
  unfold SameButCase at *
  rw [← dropSpaces_lower, ← dropSpaces_lower, hc]

theorem sameButCase_nil {s s' : List Nat} (h : SameButCase s s') : s = [] ↔ s' = [] := by
  unfold SameButCase at h
  rw [← List.map_eq_nil_iff (f := lower), h, List.map_eq_nil_iff]

theorem afterSign_case {s s' : List Nat} (h : SameButCase s s') : (afterSign s).head? = some 16 ↔ (afterSign s').head? = some 16 := by
  rw [← afterSign_lower s, ← afterSign_lower s', h]

theorem afterSign_noDle {e : Enc} {cps : List Nat} (h : ∀ x ∈ cps, IsScalar x ∧ x ≠ 16) : (afterSign (encodes e cps)).head? ≠ some 16 := fun hx => by
  obtain ⟨c, hc, hm⟩ := List.mem_flatMap.1 (afterSign_mem hx)
  exact (h c hc).2 (encode_mem_ascii e c 16 (h c hc).1 hm (by decide))

/-- A reader after whitespace. -/
theorem afterSpaces_case {e : Enc} {V : Type} {rd rd' : List Nat → Res (V × List Nat)} {cps cps' : List Nat} (hs : ∀ c ∈ cps, IsScalar c) (hs' : ∀ c ∈ cps', IsScalar c)
    (hc : SameButCase cps cps')
    (h : SameButCase (encodes e (cps.dropWhile isSpace)) (encodes e (cps'.dropWhile isSpace)) →
      SameReading (rd (encodes e (cps.dropWhile isSpace))) (rd' (encodes e (cps'.dropWhile isSpace)))) :
    SameReading (afterSpaces e rd cps) (afterSpaces e rd' cps') := by
  have hd := dropSpaces_case hc
  have hn := sameButCase_nil hd
  unfold afterSpaces
  by_cases hx : cps.dropWhile isSpace = []
  · rw [if_pos hx, if_pos (hn.1 hx)]; exact rfl
  · rw [if_neg hx, if_neg fun hy => hx (hn.2 hy)]
    exact h (encodes_case (fun c hm => hs c ((List.dropWhile_suffix _).subset hm)) (fun c hm => hs' c ((List.dropWhile_suffix _).subset hm)) hd)

/-! ### Calls -/

theorem litCp_case {t : List Nat} (n : Nat) (ht : NoLetters t) {s s' : List Nat} (h : SameButCase s s') :
    SameButCase (litCp n s t).1 (litCp n s' t).1 ∧ (litCp n s t).2 = (litCp n s' t).2 := by
  induction n generalizing t s s' with
  | zero => cases t <;> exact ⟨h, rfl⟩
  | succ n ih =>
    cases t with
    | nil => exact ⟨h, rfl⟩
    | cons c t =>
      have ht' : NoLetters t := fun x hx => ht x (by simp [hx])
      have hc := ht c (by simp)
      cases s with
      | nil => rw [(sameButCase_nil h).1 rfl]; exact ⟨rfl, rfl⟩
      | cons d ds =>
        cases s' with
        | nil => cases (sameButCase_nil h).2 rfl
        | cons d' ds' =>
          have hd : lower d = lower d' := (List.cons.inj h).1
          have hds : SameButCase ds ds' := (List.cons.inj h).2
          simp only [litCp]
          by_cases hsp : isSpace c = true
          · rw [if_pos hsp, if_pos hsp]
            exact ih (fun x hx => ht' x ((List.dropWhile_suffix _).subset hx)) (dropSpaces_case h)
          · rw [if_neg hsp, if_neg hsp]
            have hdc : d = c ↔ d' = c := by
              rw [← lower_eq_iff_other (c := d) hc.2 hc.1, hd, lower_eq_iff_other hc.2 hc.1]
            by_cases hx : d = c
            · rw [if_pos hx, if_pos (hdc.1 hx)]; exact ih ht' hds
            · rw [if_neg hx, if_neg fun hy => hx (hdc.2 hy)]; exact ⟨h, rfl⟩

theorem litText_case {t : List Nat} (ht : NoLetters t) {s s' : List Nat} (h : SameButCase s s') :
    (∃ r r', litText t s = .ok r ∧ litText t s' = .ok r' ∧ SameButCase r r') ∨ ∃ x, litText t s = .err x ∧ litText t s' = .err x := by
  obtain ⟨h1, h2⟩ := litCp_case t.length ht h
  unfold litText
  cases ha : litCp t.length s t with
  | mk a b =>
    cases hb : litCp t.length s' t with
    | mk a' b' =>
      rw [ha, hb] at h1 h2
      have h2 : b = b' := h2
      subst h2
      cases b with
      | none => exact Or.inl ⟨_, _, rfl, rfl, h1⟩
      | some x => exact Or.inr ⟨x, rfl, rfl⟩

theorem sameReading_cases {V : Type} {a b : Res (V × List Nat)} (h : SameReading a b) :
    (∃ v r r', a = .ok (v, r) ∧ b = .ok (v, r') ∧ SameButCase r r') ∨ (∃ x, a = .err x ∧ b = .err x) ∨ (a = .ub ∧ b = .ub) := by
  cases a with
  | ok p =>
    cases b with
    | ok q => obtain ⟨v, r⟩ := p; obtain ⟨v', r'⟩ := q; obtain ⟨h1, h2⟩ := h; subst h1; exact Or.inl ⟨_, _, _, rfl, rfl, h2⟩
    | err y => exact h.elim
    | ub => exact h.elim
  | err x =>
    cases b with
    | ok q => exact h.elim
    | err y => have h : x = y := h; subst h; exact Or.inr (Or.inl ⟨_, rfl, rfl⟩)
    | ub => exact h.elim
  | ub =>
    cases b with
    | ok q => exact h.elim
    | err y => exact h.elim
    | ub => exact Or.inr (Or.inr ⟨rfl, rfl⟩)

/-- Code points of a source. -/
def Plainly (s : List Nat) : Prop := ∀ c ∈ s, IsScalar c ∧ c ≠ 16

theorem Plainly.suffix {s t : List Nat} (h : Plainly s) (ht : t <:+ s) : Plainly t := fun c hc => h c (ht.subset hc)

/-- A field on code points that does not regard the case of letters. -/
structure CaseField (g : CallField Val) : Prop where
  gap : NoLetters g.gap
  suffix : ∀ cps v r, g.read cps = .ok (v, r) → r <:+ cps
  read : ∀ s s', Plainly s → Plainly s' → SameButCase s s' → SameReading (g.read s) (g.read s')

theorem inOrder_case {last : List Nat} (hl : NoLetters last) (gs : List (CallField Val)) : (∀ g ∈ gs, CaseField g) →
    ∀ s s', Plainly s → Plainly s' → SameButCase s s' →
      SameReading (inOrder litText gs last s) (inOrder litText gs last s') ∧ readBefore litText gs s = readBefore litText gs s' ∧
        reached litText gs s = reached litText gs s' := by
  induction gs with
  | nil =>
    intro _ s s' _ _ h
    refine ⟨?_, rfl, rfl⟩
    simp only [inOrder]
    rcases litText_case hl h with ⟨r, r', h1, h2, h3⟩ | ⟨x, h1, h2⟩
    · rw [h1, h2]; exact ⟨rfl, h3⟩
    · rw [h1, h2]; exact rfl
  | cons g gs ih =>
    intro hg s s' hs hs' h
    have hG := hg g (by simp)
    simp only [inOrder, readBefore, reached]
    rcases litText_case hG.gap h with ⟨r, r', h1, h2, h3⟩ | ⟨x, h1, h2⟩
    · rw [h1, h2]
      simp only [Res.bind_ok]
      have hr := hs.suffix (litText_suffix h1)
      have hr' := hs'.suffix (litText_suffix h2)
      rcases sameReading_cases (hG.read r r' hr hr' h3) with ⟨v, q, q', h4, h5, h6⟩ | ⟨x, h4, h5⟩ | ⟨h4, h5⟩
      · rw [h4, h5]
        simp only [Res.bind_ok]
        obtain ⟨i1, i2, i3⟩ := ih (fun y hy => hg y (List.mem_cons_of_mem _ hy)) q q' (hr.suffix (hG.suffix _ _ _ h4)) (hr'.suffix (hG.suffix _ _ _ h5)) h6
        rw [i2, i3]
        exact ⟨sameReading_map (fun vs => (g.id, v) :: vs) i1, rfl, rfl⟩
      · rw [h4, h5]; exact ⟨rfl, rfl, rfl⟩
      · rw [h4, h5]; exact ⟨trivial, rfl, rfl⟩
    · rw [h1, h2]; exact ⟨rfl, rfl, rfl⟩

theorem cpResult_case {last : List Nat} (hl : NoLetters last) {gs : List (CallField Val)} (hg : ∀ g ∈ gs, CaseField g) {s s' : List Nat} (hs : Plainly s) (hs' : Plainly s')
    (h : SameButCase s s') (hsuf : ∀ t q, inOrder litText gs last t = .ok q → q.2 <:+ t) (e : Enc) :
    SameOutcome ((cpResult gs last s).map (resultIn e)) ((cpResult gs last s').map (resultIn e)) := by
  obtain ⟨h1, h2, h3⟩ := inOrder_case hl gs hg s s' hs hs' h
  unfold cpResult
  rcases sameReading_cases h1 with ⟨v, q, q', h4, h5, h6⟩ | ⟨x, h4, h5⟩ | ⟨h4, h5⟩
  · rw [h4, h5]
    exact ⟨rfl, encodes_case (fun c hc => (hs.suffix (hsuf _ _ h4) c hc).1) (fun c hc => (hs'.suffix (hsuf _ _ h5) c hc).1) h6⟩
  · rw [h4, h5, h2, h3]; exact ⟨rfl, rfl⟩
  · rw [h4, h5]; trivial

theorem inOrder_suffix_case {last : List Nat} : ∀ (gs : List (CallField Val)), (∀ g ∈ gs, CaseField g) → ∀ t q, inOrder litText gs last t = .ok q → q.2 <:+ t := by
  intro gs
  induction gs with
  | nil =>
    intro _ t q h
    simp only [inOrder] at h
    cases hl : litText last t with
    | ok r => rw [hl] at h; cases h; exact litText_suffix hl
    | err x => rw [hl] at h; cases h
    | ub => rw [hl] at h; cases h
  | cons g gs ih =>
    intro hg t q h
    simp only [inOrder] at h
    cases hl : litText g.gap t with
    | err x => rw [hl] at h; cases h
    | ub => rw [hl] at h; cases h
    | ok r =>
      rw [hl, Res.bind_ok] at h
      cases hr : g.read r with
      | err x => rw [hr] at h; cases h
      | ub => rw [hr] at h; cases h
      | ok p =>
        rw [hr, Res.bind_ok] at h
        cases hi : inOrder litText gs last p.2 with
        | err x => rw [hi] at h; cases h
        | ub => rw [hi] at h; cases h
        | ok z =>
          rw [hi] at h; cases h
          exact ((ih (fun y hy => hg y (List.mem_cons_of_mem _ hy)) _ _ hi).trans ((hg g (by simp)).suffix _ p.1 p.2 hr)).trans (litText_suffix hl)

/-- What a field is, given its specification. -/
theorem fieldMeans_unique {V : Type} {env : Env V} {gap gap' spec : List Nat} {id : Nat} {rd rd' : List Nat → Res (V × List Nat)} (hc : env.argTy id ≠ .custom)
    (h : FieldMeans env ⟨gap, id, some spec, rd⟩) (h' : FieldMeans env ⟨gap', id, some spec, rd'⟩) : rd = rd' := by
  unfold FieldMeans at h h'
  simp only [] at h h'
  rw [if_neg hc] at h h'
  obtain ⟨sp, h1, h2⟩ := h
  obtain ⟨sp', h1', h2'⟩ := h'
  have := (h1 []).symm.trans (h1' [])
  simp only [Option.some.injEq, Prod.mk.injEq] at this
  have hsp : sp = sp' := by
    have := this.1; injection this
  subst hsp
  exact h2.trans h2'.symm

end Scn
