import Verif.Lemmas.IntMore
import Verif.Lemmas.Boundary6
/-
What an integer reader has read is read in the same way when nothing follows it.
-/
namespace Scn
open Spec
variable {V : Type}

theorem dropWhile_cut {p : Nat → Bool} {t : List Nat} : ∀ {s r : List Nat}, (s ++ t).dropWhile p = r ++ t →
    s.dropWhile p = r ∧ s.takeWhile p = (s ++ t).takeWhile p
  | [], r, h => by
    rw [List.nil_append] at h ⊢
    have hl := congrArg List.length (List.takeWhile_append_dropWhile (p := p) (l := t))
    rw [List.length_append, h, List.length_append] at hl
    have hr : r = [] := List.eq_nil_of_length_eq_zero (by omega)
    have ht : t.takeWhile p = [] := List.eq_nil_of_length_eq_zero (by omega)
    rw [hr, ht]
    exact ⟨rfl, rfl⟩
  | c :: s, r, h => by
    rw [List.cons_append] at h ⊢
    by_cases hc : p c = true
    · rw [List.dropWhile_cons_of_pos hc] at h
      rw [List.dropWhile_cons_of_pos hc, List.takeWhile_cons_of_pos hc, List.takeWhile_cons_of_pos hc]
      obtain ⟨h1, h2⟩ := dropWhile_cut h
      exact ⟨h1, by rw [h2]⟩
    · rw [List.dropWhile_cons_of_neg hc] at h
      rw [List.dropWhile_cons_of_neg hc, List.takeWhile_cons_of_neg hc, List.takeWhile_cons_of_neg hc]
      exact ⟨List.append_cancel_right (by rw [List.cons_append]; exact h), rfl⟩

/-- What is needed of the reader of the digits. -/
structure DigitsAlone (D : Nat → List Nat → Res (Int × List Nat)) (B : List Nat → Prop) : Prop where
  cut : ∀ b s t v r, 2 ≤ b → b ≤ 36 → B (s ++ t) → D b (s ++ t) = .ok (v, r ++ t) → D b s = .ok (v, r)
  shorter : ∀ b s v r, 2 ≤ b → b ≤ 36 → B s → D b s = .ok (v, r) → r.length < s.length
  zero : ∀ b v, 2 ≤ b → b ≤ 36 → D b [48] = .ok (v, []) → v = 0
  digit : ∀ b x v, 2 ≤ b → b ≤ 36 → B [x] → D b [x] = .ok (v, []) → charToInt x < b

theorem scanDigitsW_cut {T : IntTy} {neg : Bool} {b : Nat} {s t r : List Nat} {v : Int} (h : scanDigitsW T neg b (s ++ t) = .ok (v, r ++ t)) :
    scanDigitsW T neg b s = .ok (v, r) := by
  have hr : (s ++ t).dropWhile (fun c => decide (IsDigit b c)) = r ++ t := (scanDigitsW_rest h).symm
  obtain ⟨h1, h2⟩ := dropWhile_cut hr
  have e1 : afterRun b s = r := h1
  have e2 : digitRun b s = digitRun b (s ++ t) := h2
  have e3 : afterRun b (s ++ t) = r ++ t := hr
  unfold scanDigitsW at h ⊢
  rw [e1, e2]
  rw [e3] at h
  revert h
  split
  · intro h; cases h
  · split
    · intro h; cases h; rfl
    · split
      · intro h; cases h; rfl
      · intro h; cases h

theorem scanDigitsW_shorter {T : IntTy} {neg : Bool} {b : Nat} {s r : List Nat} {v : Int} (h : scanDigitsW T neg b s = .ok (v, r)) :
    r.length < s.length := by
  have hr := scanDigitsW_rest h
  dsimp only at hr
  have hl := run_length b s
  rw [← hr] at hl
  have hne : digitRun b s ≠ [] := by
    intro h0
    unfold scanDigitsW at h
    rw [if_pos h0] at h
    cases h
  have := List.length_pos_iff.2 hne
  omega

theorem scanDigitsW_single {T : IntTy} {neg : Bool} {b x : Nat} {v : Int} (h : scanDigitsW T neg b [x] = .ok (v, [])) : IsDigit b x := by
  apply Classical.byContradiction
  intro hx
  rw [scanDigitsW_none (by intro c hc; simp at hc; subst hc; exact hx)] at h
  cases h

theorem digitRun_single {b x : Nat} (h : IsDigit b x) : digitRun b [x] = [x] := by
  have := (digitRun_numeral b [x] [] (by simpa using h) (by intro c hc; simp at hc)).1
  simpa using this

theorem scanDigitsW_zero {T : IntTy} {neg : Bool} {b : Nat} {v : Int} (hb : 2 ≤ b) (h : scanDigitsW T neg b [48] = .ok (v, [])) : v = 0 := by
  have hv : value b [48] = 0 := by
    rw [value_zero_cons]; rfl
  unfold scanDigitsW at h
  generalize afterRun b [48] = w at h
  rw [digitRun_single (isDigit_zero b hb), hv] at h
  have hs : signed neg 0 = 0 := by cases neg <;> rfl
  rw [show (0 : Nat) % 2 ^ 64 = 0 from rfl, hs] at h
  split at h
  · cases h
  · split at h
    · cases h; rfl
    · split at h
      · cases h; rfl
      · cases h

theorem scanSepW_cut {T : IntTy} {neg : Bool} {b sep : Nat} {s t r : List Nat} {v : Int} (h : scanSepW T neg b sep (s ++ t) = .ok (v, r ++ t)) :
    scanSepW T neg b sep s = .ok (v, r) := by
  unfold scanSepW at h ⊢
  cases hd : scanDigitsW T neg b ((sepRun sep b (s ++ t)).filter (fun c => c ≠ sep)) with
  | ub => rw [hd] at h; cases h
  | err x => rw [hd] at h; cases h
  | ok x =>
    rw [hd] at h
    simp only [Res.map, Res.ok.injEq, Prod.mk.injEq] at h
    obtain ⟨h1, h2⟩ := dropWhile_cut (p := fun c => decide (c = sep ∨ IsDigit b c)) h.2
    have e1 : afterSepRun sep b s = r := h1
    have e2 : sepRun sep b s = sepRun sep b (s ++ t) := h2
    rw [e1, e2, hd, ← h.1]
    rfl

theorem scanSepW_run {T : IntTy} {neg : Bool} {b sep : Nat} {s r : List Nat} {v : Int} (h : scanSepW T neg b sep s = .ok (v, r)) :
    (sepRun sep b s).filter (fun c => c ≠ sep) ≠ [] ∧ r = afterSepRun sep b s ∧
      ∃ r', scanDigitsW T neg b ((sepRun sep b s).filter (fun c => c ≠ sep)) = .ok (v, r') := by
  unfold scanSepW at h
  cases hd : scanDigitsW T neg b ((sepRun sep b s).filter (fun c => c ≠ sep)) with
  | ub => rw [hd] at h; cases h
  | err x => rw [hd] at h; cases h
  | ok x =>
    rw [hd] at h
    simp only [Res.map, Res.ok.injEq, Prod.mk.injEq] at h
    refine ⟨?_, h.2.symm, x.2, by rw [← h.1]⟩
    intro h0
    rw [h0] at hd
    have := scanDigitsW_shorter hd
    simp at this

theorem scanSepW_shorter {T : IntTy} {neg : Bool} {b sep : Nat} {s r : List Nat} {v : Int} (h : scanSepW T neg b sep s = .ok (v, r)) :
    r.length < s.length := by
  obtain ⟨h1, rfl, _⟩ := scanSepW_run h
  have hl := congrArg List.length (List.takeWhile_append_dropWhile (p := fun c => decide (c = sep ∨ IsDigit b c)) (l := s))
  have hne : sepRun sep b s ≠ [] := by intro h0; rw [h0] at h1; exact h1 rfl
  have := List.length_pos_iff.2 hne
  unfold sepRun at this
  unfold afterSepRun
  rw [List.length_append] at hl
  omega

theorem scanSepW_single {T : IntTy} {neg : Bool} {b sep x : Nat} {v : Int} (h : scanSepW T neg b sep [x] = .ok (v, [])) :
    scanDigitsW T neg b [x] = .ok (v, []) := by
  obtain ⟨h1, h2, r', h3⟩ := scanSepW_run h
  have hx : x = sep ∨ IsDigit b x := by
    apply Classical.byContradiction
    intro hx
    apply h1
    unfold sepRun
    rw [List.takeWhile_cons_of_neg (by simpa using hx)]
    rfl
  have hrun : sepRun sep b [x] = [x] := by
    unfold sepRun
    rw [List.takeWhile_cons_of_pos (by simpa using hx)]
    rfl
  rw [hrun] at h1 h3
  have hs : x ≠ sep := by
    rintro rfl
    exact h1 (by simp)
  rw [show List.filter (fun c => decide (c ≠ sep)) [x] = [x] by simp [hs]] at h3
  have : IsDigit b x := by
    rcases hx with hx | hx
    · exact absurd hx hs
    · exact hx
  have hr := scanDigitsW_rest h3
  dsimp only at hr
  have hl := run_length b [x]
  rw [digitRun_single this, ← hr] at hl
  have : r' = [] := List.eq_nil_of_length_eq_zero (by simpa using hl)
  rw [h3, this]

/-- The units of a narrow source are bytes. -/
def NarrowBytes (k : Src) (s : List Nat) : Prop := k.narrow = true → ∀ c ∈ s, c < 256

theorem NarrowBytes.left {k : Src} {s t : List Nat} (h : NarrowBytes k (s ++ t)) : NarrowBytes k s := fun hn c hc => h hn c (List.mem_append_left _ hc)

theorem readDigits_alone (k : Src) (T : IntTy) (hT : T.Std) (sg : Sign) (hsg : T.signed = false → sg = .plus) :
    DigitsAlone (readDigits k T sg) (NarrowBytes k) where
  cut b s t v r h2 h36 hb h := by
    rw [readDigits_spec k T hT sg b h2 h36 hsg _ hb] at h
    rw [readDigits_spec k T hT sg b h2 h36 hsg _ hb.left]
    exact scanDigitsW_cut h
  shorter b s v r h2 h36 hb h := by
    rw [readDigits_spec k T hT sg b h2 h36 hsg _ hb] at h
    exact scanDigitsW_shorter h
  zero b v h2 h36 h := by
    rw [readDigits_spec k T hT sg b h2 h36 hsg _ (by intro _ c hc; simp at hc; omega)] at h
    exact scanDigitsW_zero h2 h
  digit b x v h2 h36 hb h := by
    rw [readDigits_spec k T hT sg b h2 h36 hsg _ hb] at h
    exact (charToInt_lt_iff b x (by omega)).2 (scanDigitsW_single h)

theorem readSep_alone (k : Src) (T : IntTy) (hT : T.Std) (sg : Sign) (hsg : T.signed = false → sg = .plus) (sep : Nat) :
    DigitsAlone (fun b s => readSep k T sg b sep s) (NarrowBytes k) where
  cut b s t v r h2 h36 hb h := by
    rw [readSep_spec k T hT sg b sep h2 h36 hsg _ hb] at h
    rw [readSep_spec k T hT sg b sep h2 h36 hsg _ hb.left]
    exact scanSepW_cut h
  shorter b s v r h2 h36 hb h := by
    rw [readSep_spec k T hT sg b sep h2 h36 hsg _ hb] at h
    exact scanSepW_shorter h
  zero b v h2 h36 h := by
    rw [readSep_spec k T hT sg b sep h2 h36 hsg _ (by intro _ c hc; simp at hc; omega)] at h
    exact scanDigitsW_zero h2 (scanSepW_single h)
  digit b x v h2 h36 hb h := by
    rw [readSep_spec k T hT sg b sep h2 h36 hsg _ hb] at h
    exact (charToInt_lt_iff b x (by omega)).2 (scanDigitsW_single (scanSepW_single h))

/-! ### The base prefix -/

theorem match2_append (k : Src) (x y l : Nat) (w t : List Nat) (hl : l = 98 ∨ l = 120 ∨ l = 111) :
    readMatchingNocase k (x :: y :: (w ++ t)) [48, l] = (readMatchingNocase k (x :: y :: w) [48, l]).map (· ++ t) := by
  rw [readMatch2 k _ l hl, readMatch2 k _ l hl]
  dsimp only
  split <;> rfl

theorem basePrefix_append (k : Src) (x y base : Nat) (w t : List Nat) :
    basePrefix k (x :: y :: (w ++ t)) base = ((basePrefix k (x :: y :: w) base).1 ++ t, (basePrefix k (x :: y :: w) base).2) := by
  have hb := match2_append k x y 98 w t (by simp)
  have hh := match2_append k x y 120 w t (by simp)
  have ho := match2_append k x y 111 w t (by simp)
  unfold basePrefix basePrefixDetect binPrefix hexPrefix octPrefix
  rw [hb, hh, ho]
  cases readMatchingNocase k (x :: y :: w) [48, 98] <;> cases readMatchingNocase k (x :: y :: w) [48, 120] <;>
    cases readMatchingNocase k (x :: y :: w) [48, 111] <;> dsimp only [Option.map, Option.getD] <;>
    by_cases h48 : x = 48 <;> (try simp only [h48, if_true, if_false]) <;> (repeat' split) <;> first | rfl | simp_all

theorem basePrefix_base (k : Src) (s : List Nat) (base : Nat) (h : base = 0 ∨ (2 ≤ base ∧ base ≤ 36)) :
    2 ≤ (basePrefix k s base).2.1 ∧ (basePrefix k s base).2.1 ≤ 36 := by
  unfold basePrefix
  split
  · simp
  · split
    · cases octPrefix k s <;> simp
    · split
      · simp
      · split
        · unfold basePrefixDetect
          split
          · simp
          · split
            · simp
            · split <;> simp
        · dsimp only; omega

/-- What follows the prefix. -/
def finishBy (D : Nat → List Nat → Res (Int × List Nat)) (p : PrefixResult) : Res (Int × List Nat) :=
  if p.isZero then .ok (0, p.rest.drop 1) else D p.base p.rest

theorem noDigitAt_append {d : Nat} {ds t : List Nat} {n : Nat} : noDigitAt ((d :: ds) ++ t) n = noDigitAt (d :: ds) n := rfl


theorem afterSign_base (k : Src) (u : List Nat) (base : Nat) (sg : Sign) (h : base = 0 ∨ (2 ≤ base ∧ base ≤ 36)) :
    2 ≤ (afterSignPrefix k u base sg).base ∧ (afterSignPrefix k u base sg).base ≤ 36 := by
  have := basePrefix_base k u base h
  unfold afterSignPrefix
  dsimp only
  split
  · split <;> exact this
  · exact this

/-- With two units at least, the prefix is the same; a digit behind them would have been read. -/
theorem prefix_alone_two {D : Nat → List Nat → Res (Int × List Nat)} {B : List Nat → Prop} (hD : DigitsAlone D B) (hB : ∀ s t, t <:+ s → B s → B t)
    {k : Src} {x y base : Nat} {w t r : List Nat} {sg : Sign} {v : Int} (hbase : base = 0 ∨ (2 ≤ base ∧ base ≤ 36))
    (hb : B (x :: y :: (w ++ t)))
    (h : finishBy D (afterSignPrefix k (x :: y :: (w ++ t)) base sg) = .ok (v, r ++ t)) :
    finishBy D (afterSignPrefix k (x :: y :: w) base sg) = .ok (v, r) := by
  have h36 := basePrefix_base k (x :: y :: w) base hbase
  have hd : Dropped .utf8 (x :: y :: w) (basePrefix k (x :: y :: w) base).1 := basePrefix_dropped _ k _ base
  unfold afterSignPrefix at h ⊢
  dsimp only at h ⊢
  rw [basePrefix_append] at h
  dsimp only at h
  generalize basePrefix k (x :: y :: w) base = P at h h36 hd ⊢
  obtain ⟨digits, b, z⟩ := P
  dsimp only at h h36 hd ⊢
  have hbd : B (digits ++ t) := by
    obtain ⟨a, ha, _⟩ := hd
    refine hB _ _ ⟨a, ?_⟩ hb
    rw [← List.append_assoc, ← ha]; rfl
  have hcut : ∀ s v, B (s ++ t) → D b (s ++ t) = .ok (v, r ++ t) → D b s = .ok (v, r) := fun s v hb h => hD.cut b s t v r h36.1 h36.2 hb h
  cases digits with
  | nil =>
    -- a digit behind the prefix would have been read
    have hn : ¬ (D b t = .ok (v, r ++ t)) := by
      intro h0
      have := hD.shorter b t v _ h36.1 h36.2 (by simpa using hbd) h0
      simp at this
      omega
    rw [List.nil_append] at h
    cases z with
    | true =>
      simp only [if_true] at h ⊢
      by_cases hnd : noDigitAt t 8 = true
      · rw [if_pos hnd] at h
        unfold finishBy at h ⊢
        simp only [if_true, Res.ok.injEq, Prod.mk.injEq, List.drop_succ_cons, List.drop_zero, noDigitAt] at h ⊢
        exact ⟨h.1, List.append_cancel_right (as := y :: w) (by rw [List.cons_append]; exact h.2)⟩
      · rw [if_neg hnd] at h
        unfold finishBy at h
        simp only [Bool.false_eq_true, if_false] at h
        exact absurd h hn
    | false =>
      simp only [Bool.false_eq_true, if_false] at h ⊢
      unfold backtrack at h ⊢
      by_cases hnd : noDigitAt t b = true
      · rw [if_pos hnd] at h
        rw [if_pos (show noDigitAt [] b = true from rfl)]
        exact hcut (x :: y :: w) v hb h
      · rw [if_neg hnd] at h
        exact absurd h hn
  | cons d ds =>
    rw [noDigitAt_append] at h
    cases z with
    | true =>
      simp only [if_true] at h ⊢
      split
      · rename_i hnd
        rw [if_pos hnd] at h
        unfold finishBy at h ⊢
        simp only [if_true, Res.ok.injEq, Prod.mk.injEq, List.drop_succ_cons, List.drop_zero] at h ⊢
        exact ⟨h.1, List.append_cancel_right (as := y :: w) (by rw [List.cons_append]; exact h.2)⟩
      · rename_i hnd
        rw [if_neg hnd] at h
        exact hcut (d :: ds) v hbd h
    | false =>
      simp only [Bool.false_eq_true, if_false] at h ⊢
      unfold backtrack at h ⊢
      rw [noDigitAt_append] at h
      split
      · rename_i hnd
        rw [if_pos hnd] at h
        exact hcut (x :: y :: w) v hb h
      · rename_i hnd
        rw [if_neg hnd] at h
        exact hcut (d :: ds) v hbd h


theorem basePrefix_given (k : Src) (s : List Nat) {base : Nat} (h : base ≠ 0) : (basePrefix k s base).2.1 = base := by
  unfold basePrefix
  split
  · rename_i h2; rw [h2]
  · split
    · rename_i h8; cases octPrefix k s <;> rw [h8]
    · split
      · rename_i h16; rw [h16]
      · rfl

theorem basePrefix_zero {k : Src} {x base : Nat} {t : List Nat} (h : (basePrefix k (x :: t) base).2.2 = true) : x = 48 ∧ (base = 8 ∨ base = 0) := by
  have ho : ∀ r z, octPrefix k (x :: t) = some (r, z) → z = true → x = 48 := by
    intro r z hz hz'
    unfold octPrefix at hz
    split at hz
    · cases hz; cases hz'
    · dsimp only at hz
      split at hz
      · assumption
      · cases hz
  unfold basePrefix at h
  split at h
  · cases h
  · split at h
    · rename_i h8
      cases hz : octPrefix k (x :: t) with
      | none => rw [hz] at h; cases h
      | some rz => rw [hz] at h; exact ⟨ho rz.1 rz.2 hz h, Or.inl h8⟩
    · split at h
      · cases h
      · split at h
        · rename_i h0
          unfold basePrefixDetect at h
          split at h
          · cases h
          · split at h
            · cases h
            · cases hz : octPrefix k (x :: t) with
              | none => rw [hz] at h; cases h
              | some rz => rw [hz] at h; exact ⟨ho rz.1 rz.2 hz h, Or.inr h0⟩
        · cases h

theorem basePrefix_other {k : Src} {x : Nat} {t : List Nat} (h48 : x ≠ 48) (h16 : x ≠ 16) : (basePrefix k (x :: t) 0).2.1 = 10 := by
  have hm : ∀ l, l = 98 ∨ l = 120 ∨ l = 111 → readMatchingNocase k (x :: t) [48, l] = none := by
    intro l hl
    rw [readMatch2 k _ l hl]
    cases t with
    | nil => rfl
    | cons y w =>
      dsimp only
      rw [if_neg]
      rintro ⟨h | h, _⟩
      · exact h48 h
      · exact h16 h.2.2
  unfold basePrefix basePrefixDetect hexPrefix binPrefix octPrefix
  rw [hm 120 (by simp), hm 98 (by simp), hm 111 (by simp)]
  simp [h48]

theorem afterSign_one (k : Src) (x base : Nat) (sg : Sign) (hbase : base = 0 ∨ (2 ≤ base ∧ base ≤ 36)) : afterSignPrefix k [x] base sg =
    if (base = 8 ∨ base = 0) ∧ x = 48 then ⟨[x], 8, sg, true⟩ else ⟨[x], if base = 0 then 10 else base, sg, false⟩ := by
  have hm : ∀ l, readMatchingNocase k [x] [48, l] = none := fun l => by
    unfold readMatchingNocase; rw [if_pos (by simp)]
  have hbt : ∀ b, backtrack [x] [x] b = [x] := fun b => by unfold backtrack; split <;> rfl
  unfold afterSignPrefix basePrefix basePrefixDetect hexPrefix binPrefix octPrefix
  rw [hm 120, hm 98, hm 111]
  by_cases h2 : base = 2
  · subst h2; simp [hbt]
  by_cases h8 : base = 8
  · subst h8
    by_cases hx : x = 48
    · subst hx; simp [noDigitAt]
    · simp [hx, hbt]
  by_cases h16 : base = 16
  · subst h16; simp [hbt]
  by_cases h0 : base = 0
  · subst h0
    by_cases hx : x = 48
    · subst hx; simp [noDigitAt]
    · simp [hx, hbt]
  · simp [h2, h8, h16, h0, hbt]

/-- One unit. -/
theorem prefix_alone_one {D : Nat → List Nat → Res (Int × List Nat)} {B : List Nat → Prop} (hD : DigitsAlone D B) (hB : ∀ s t, t <:+ s → B s → B t)
    (hB' : ∀ s t, B (s ++ t) → B s) {k : Src} {x base : Nat} {t : List Nat} {sg : Sign} {v : Int} (hbase : base = 0 ∨ (2 ≤ base ∧ base ≤ 36))
    (hb : B (x :: t)) (h : finishBy D (afterSignPrefix k (x :: t) base sg) = .ok (v, t)) :
    finishBy D (afterSignPrefix k [x] base sg) = .ok (v, []) := by
  have h36 := basePrefix_base k (x :: t) base hbase
  have hb1 : B [x] := hB' [x] t hb
  have hd : Dropped .utf8 (x :: t) (basePrefix k (x :: t) base).1 := basePrefix_dropped _ k _ base
  have hshort : ∀ s, B s → s.length ≤ t.length → D (basePrefix k (x :: t) base).2.1 s ≠ .ok (v, t) := by
    intro s hs hl h0
    have := hD.shorter _ s v _ h36.1 h36.2 hs h0
    omega
  -- the digits begin with the unit
  have key : (v = 0 ∧ x = 48 ∧ (base = 8 ∨ base = 0)) ∨ D (basePrefix k (x :: t) base).2.1 [x] = .ok (v, []) := by
    have hwhole : D (basePrefix k (x :: t) base).2.1 (x :: t) = .ok (v, t) → D (basePrefix k (x :: t) base).2.1 [x] = .ok (v, []) :=
      fun h => hD.cut _ [x] t v [] h36.1 h36.2 hb h
    have hdig : D (basePrefix k (x :: t) base).2.1 (basePrefix k (x :: t) base).1 = .ok (v, t) →
        D (basePrefix k (x :: t) base).2.1 [x] = .ok (v, []) := by
      intro h0
      obtain ⟨a, ha, _⟩ := hd
      cases a with
      | nil => rw [← show x :: t = (basePrefix k (x :: t) base).1 from ha] at h0; exact hwhole h0
      | cons z zs =>
        refine absurd h0 (hshort _ (hB _ _ ⟨z :: zs, ha.symm⟩ hb) ?_)
        have := congrArg List.length ha
        simp at this
        omega
    unfold afterSignPrefix at h
    dsimp only at h
    by_cases hz : (basePrefix k (x :: t) base).2.2 = true
    · rw [if_pos hz] at h
      split at h
      · unfold finishBy at h
        simp at h
        exact Or.inl ⟨h.symm, basePrefix_zero hz⟩
      · exact Or.inr (hdig h)
    · rw [if_neg hz] at h
      unfold finishBy backtrack at h
      simp only [Bool.false_eq_true, if_false] at h
      split at h
      · exact Or.inr (hwhole h)
      · exact Or.inr (hdig h)
  rw [afterSign_one k x base sg hbase]
  rcases key with ⟨rfl, h48, h0⟩ | key
  · rw [if_pos ⟨h0, h48⟩]; rfl
  · split
    · rename_i hx
      obtain ⟨_, rfl⟩ := hx
      rw [hD.zero _ v h36.1 h36.2 key]
      rfl
    · rename_i hx
      have h16 : x ≠ 16 := by
        rintro rfl
        have := hD.digit _ 16 v h36.1 h36.2 hb1 key
        rw [show charToInt 16 = 255 by decide] at this
        omega
      unfold finishBy
      simp only [Bool.false_eq_true, if_false]
      by_cases h0 : base = 0
      · subst h0
        rw [if_pos rfl]
        rw [basePrefix_other (fun h => hx ⟨Or.inr rfl, h⟩) h16] at key
        exact key
      · rw [if_neg h0]
        rw [basePrefix_given k _ h0] at key
        exact key

/-- The reader of digits in the two cases. -/
def digitsBy (k : Src) (T : IntTy) (sg : Sign) : Option Nat → Nat → List Nat → Res (Int × List Nat)
  | none => readDigits k T sg
  | some sep => fun b s => readSep k T sg b sep s

theorem readInt_by (k : Src) (T : IntTy) (sp : IntSpecs) (s : List Nat) : readInt k T sp s =
    match parseIntegerPrefix k s sp.base with
    | none => .err .endOfInput
    | some p =>
      if p.sign = .minus ∧ (T.signed = false ∨ sp.unsignedOnly = true) then .err .invalidScannedValue
      else finishBy (digitsBy k T p.sign sp.thsep) p := by
  obtain ⟨b, u, th⟩ := sp
  cases th <;> rfl

theorem digitsBy_alone (k : Src) (T : IntTy) (hT : T.Std) (sg : Sign) (hsg : T.signed = false → sg = .plus) (th : Option Nat) :
    DigitsAlone (digitsBy k T sg th) (NarrowBytes k) := by
  cases th with
  | none => exact readDigits_alone k T hT sg hsg
  | some sep => exact readSep_alone k T hT sg hsg sep

theorem NarrowBytes.suffix {k : Src} {s t : List Nat} (h : t <:+ s) (hs : NarrowBytes k s) : NarrowBytes k t := fun hn c hc => hs hn c (h.subset hc)

theorem finishBy_shorter {D : Nat → List Nat → Res (Int × List Nat)} {B : List Nat → Prop} (hD : DigitsAlone D B) (hB : ∀ s t, t <:+ s → B s → B t)
    {k : Src} {u r : List Nat} {base : Nat} {sg : Sign} {v : Int} (hbase : base = 0 ∨ (2 ≤ base ∧ base ≤ 36)) (hb : B u)
    (h : finishBy D (afterSignPrefix k u base sg) = .ok (v, r)) : r.length < u.length := by
  have h36 := basePrefix_base k u base hbase
  have hd : Dropped .utf8 u (basePrefix k u base).1 := basePrefix_dropped _ k _ base
  obtain ⟨a, ha, _⟩ := hd
  have hdig : D (basePrefix k u base).2.1 (basePrefix k u base).1 = .ok (v, r) → r.length < u.length := by
    intro h0
    have h1 := hD.shorter _ _ v r h36.1 h36.2 (hB _ _ ⟨a, ha.symm⟩ hb) h0
    have := congrArg List.length ha
    rw [List.length_append] at this
    omega
  unfold afterSignPrefix at h
  dsimp only at h
  by_cases hz : (basePrefix k u base).2.2 = true
  · rw [if_pos hz] at h
    split at h
    · unfold finishBy at h
      simp at h
      cases u with
      | nil =>
        have hm : ∀ l, readMatchingNocase k [] [48, l] = none := fun l => by
          unfold readMatchingNocase; rw [if_pos (by simp)]
        exfalso
        unfold basePrefix basePrefixDetect octPrefix hexPrefix binPrefix at hz
        rw [hm 120, hm 98, hm 111] at hz
        dsimp only at hz
        split at hz
        · cases hz
        · split at hz
          · cases hz
          · split at hz
            · cases hz
            · split at hz <;> cases hz
      | cons x t =>
        rw [← h.2]; simp
    · exact hdig h
  · rw [if_neg hz] at h
    unfold finishBy backtrack at h
    simp only [Bool.false_eq_true, if_false] at h
    split at h
    · exact hD.shorter _ _ v r h36.1 h36.2 hb h
    · exact hdig h

theorem prefix_alone {D : Nat → List Nat → Res (Int × List Nat)} {B : List Nat → Prop} (hD : DigitsAlone D B) (hB : ∀ s t, t <:+ s → B s → B t)
    (hB' : ∀ s t, B (s ++ t) → B s) {k : Src} {base : Nat} {u t r : List Nat} {sg : Sign} {v : Int} (hbase : base = 0 ∨ (2 ≤ base ∧ base ≤ 36))
    (hb : B (u ++ t)) (h : finishBy D (afterSignPrefix k (u ++ t) base sg) = .ok (v, r ++ t)) :
    finishBy D (afterSignPrefix k u base sg) = .ok (v, r) := by
  have hlt := finishBy_shorter hD hB hbase hb h
  rw [List.length_append, List.length_append] at hlt
  match u, h, hb, hlt with
  | [], h, hb, hlt => simp at hlt; omega
  | [x], h, hb, hlt =>
    have : r = [] := List.eq_nil_of_length_eq_zero (by simp only [List.length_cons, List.length_nil] at hlt; omega)
    subst this
    exact prefix_alone_one hD hB hB' hbase hb h
  | x :: y :: w, h, hb, _ => exact prefix_alone_two hD hB hbase hb h

/-- Reading an integer. -/
theorem readInt_alone {k : Src} {T : IntTy} (hT : T.Std) {sp : IntSpecs} (hbase : sp.base = 0 ∨ (2 ≤ sp.base ∧ sp.base ≤ 36)) {s t r : List Nat} {v : Int}
    (hb : NarrowBytes k (s ++ t)) (hr : r.length ≤ s.length) (h : readInt k T sp (s ++ t) = .ok (v, r ++ t)) :
    readInt k T sp s = .ok (v, r) ∧ r.length < s.length := by
  have hB : ∀ s t : List Nat, t <:+ s → NarrowBytes k s → NarrowBytes k t := fun _ _ h hs => hs.suffix h
  have hB' : ∀ s t : List Nat, NarrowBytes k (s ++ t) → NarrowBytes k s := fun _ _ h => h.left
  rw [readInt_by, parseIntegerPrefix_eq] at h
  rw [readInt_by, parseIntegerPrefix_eq]
  cases s with
  | nil =>
    have hr0 : r = [] := List.eq_nil_of_length_eq_zero (by simpa using hr)
    subst hr0
    rw [List.nil_append] at h hb
    exfalso
    cases t with
    | nil => cases h
    | cons c cs =>
      dsimp only at h
      rw [afterSignPrefix_sign] at h
      by_cases hbad : (if c = 45 then Sign.minus else Sign.plus) = .minus ∧ (T.signed = false ∨ sp.unsignedOnly = true)
      · rw [if_pos hbad] at h; cases h
      · rw [if_neg hbad] at h
        have hD := digitsBy_alone k T hT (if c = 45 then .minus else .plus) (fun hs => by
          by_cases hc : c = 45
          · exact absurd ⟨by simp [hc], Or.inl hs⟩ hbad
          · simp [hc]) sp.thsep
        have hbc : NarrowBytes k (if c = 45 ∨ c = 43 then cs else c :: cs) := by
          split
          · exact hB _ _ (List.suffix_cons _ _) hb
          · exact hb
        have hlt := finishBy_shorter hD hB hbase hbc h
        split at hlt <;> simp at hlt
        omega
  | cons c cs =>
    rw [List.cons_append] at h hb
    dsimp only at h ⊢
    rw [afterSignPrefix_sign] at h
    rw [afterSignPrefix_sign]
    by_cases hbad : (if c = 45 then Sign.minus else Sign.plus) = .minus ∧ (T.signed = false ∨ sp.unsignedOnly = true)
    · rw [if_pos hbad] at h; cases h
    · rw [if_neg hbad] at h
      rw [if_neg hbad]
      have hD := digitsBy_alone k T hT (if c = 45 then .minus else .plus) (fun hs => by
          by_cases hc : c = 45
          · exact absurd ⟨by simp [hc], Or.inl hs⟩ hbad
          · simp [hc]) sp.thsep
      by_cases hc : c = 45 ∨ c = 43
      · rw [if_pos hc] at h
        rw [if_pos hc]
        have hbc : NarrowBytes k (cs ++ t) := hB _ _ (List.suffix_cons _ _) hb
        have hlt := finishBy_shorter hD hB hbase hbc h
        rw [List.length_append, List.length_append] at hlt
        exact ⟨prefix_alone hD hB hB' hbase hbc h, by simp; omega⟩
      · rw [if_neg hc] at h
        rw [if_neg hc]
        have hlt := finishBy_shorter hD hB hbase hb h
        rw [← List.cons_append, List.length_append, List.length_append] at hlt
        exact ⟨prefix_alone hD hB hB' hbase (u := c :: cs) hb h, by omega⟩

end Scn
