import Verif.Lemmas.Float3
/-
The sign, the meaning of numerals, sources, and a conversion for examples.
-/
namespace Scn
open Spec

theorem sign_split {src s : List Nat} {sign : Option Sign} (h : parseNumericSign src = some (s, sign)) :
    ∃ sg, src = sg ++ s ∧ SignText sg ∧ sg.length = (if sign.isSome then 1 else 0) ∧ (sign = some .minus ↔ sg = [45]) := by
  cases src with
  | nil => cases h
  | cons c cs =>
    unfold parseNumericSign at h
    dsimp only at h
    split at h
    · rename_i h1
      cases h
      exact ⟨[45], by simp [h1], Or.inr (Or.inr rfl), rfl, by simp⟩
    · split at h
      · rename_i h1
        cases h
        exact ⟨[43], by simp [h1], Or.inr (Or.inl rfl), rfl, by simp⟩
      · cases h
        exact ⟨[], by simp, Or.inl rfl, rfl, by simp⟩

theorem sign_join {sg s : List Nat} (h : SignText sg) {c : Nat} {cs : List Nat} (hs : s = c :: cs) (hc : c ≠ 43 ∧ c ≠ 45) :
    ∃ sign, parseNumericSign (sg ++ s) = some (s, sign) ∧ sg.length = (if sign.isSome then 1 else 0) ∧ (sign = some .minus ↔ sg = [45]) := by
  rcases h with rfl | rfl | rfl
  · refine ⟨none, ?_, rfl, by simp⟩
    rw [List.nil_append, hs]
    unfold parseNumericSign
    dsimp only
    rw [if_neg hc.2, if_neg hc.1]
  · exact ⟨some .plus, rfl, rfl, by simp⟩
  · exact ⟨some .minus, rfl, rfl, by simp⟩

/-- Without a locale, the sign is read, and then the rest. -/
theorem readFloat_eval {V : Type} (cv : FloatConv V) (e : Enc) (k : Src) (seg : Bool) (o : FloatOpts) (src : List Nat) :
    readFloat cv e k seg .classic o src = match parseNumericSign src with
      | none => .err .endOfInput
      | some (s, sign) => match floatBody k .classic o s with
        | .ub => .ub
        | .err x => .err x
        | .ok _ => match evalFloat cv e k seg o s with
          | .ub => .ub
          | .err x => .err (signedErr sign x)
          | .ok (v, n) => .ok (cv.copysign (decide (sign = some .minus)) v, src.drop (n + (if sign.isSome then 1 else 0))) := by
  unfold readFloat evalFloat
  cases hp : parseNumericSign src with
  | none => rfl
  | some r =>
    obtain ⟨s, sign⟩ := r
    dsimp only
    cases hb : floatBody k .classic o s with
    | ub => rfl
    | err x => rfl
    | ok body =>
      simp only [Res.bind]
      rw [separators_classic]
      cases floatDispatch cv e o body.kind _ body.payload <;> rfl

theorem signedErr_invalid (sign : Option Sign) : signedErr sign .invalidScannedValue = .invalidScannedValue := rfl

/-- The errors of the search for the text. -/
theorem floatBody_err {k : Src} {o : FloatOpts} {s : List Nat} {x : Err} (h : floatBody k .classic o s = .err x) : x = .invalidScannedValue := by
  have hreg : ∀ o' s x, (readRegularFloat .classic o' s).map (fun r => ({ kind := r.1, text := r.2 } : FloatBody)) = .err x → x = .invalidScannedValue := by
    intro o' s x h
    unfold readRegularFloat at h
    split at h
    · cases h; rfl
    · dsimp only at h
      generalize (if o'.sci then readExponent [101, 69] _ else []) = y at h
      by_cases hy : (o'.sci && !o'.fixed && y.isEmpty) = true
      · rw [if_pos hy] at h; cases h; rfl
      · rw [if_neg hy] at h; cases h
  have hhex : ∀ (kd : FloatKind) (pre s : List Nat) x, floatHex k .classic kd pre s = .err x → x = .invalidScannedValue := by
    intro kd pre s x h
    unfold floatHex at h
    split at h
    · split at h
      · cases h; rfl
      · cases h
    · unfold readHexfloat at h
      split at h
      · cases h; rfl
      · cases h
  unfold floatBody at h
  split at h
  · cases h
  · split at h
    · rename_i r hr
      rcases readNan_cases hr with ⟨pl, rfl⟩ | rfl
      · cases h
      · cases h; rfl
    · split at h
      · split at h
        · exact hhex _ _ _ _ h
        · exact hhex _ _ _ _ h
      · split at h
        · exact hreg _ _ _ h
        · split at h
          · exact hhex _ _ _ _ h
          · unfold floatRegular at h
            split at h
            · split at h
              · cases h; rfl
              · cases h
            · exact hreg _ _ _ h

theorem floatBody_ub {k : Src} {o : FloatOpts} {s : List Nat} : floatBody k .classic o s ≠ .ub := by
  intro h
  have hreg : ∀ o' s, (readRegularFloat .classic o' s).map (fun r => ({ kind := r.1, text := r.2 } : FloatBody)) ≠ .ub := by
    intro o' s h
    unfold readRegularFloat at h
    split at h
    · cases h
    · dsimp only at h
      generalize (if o'.sci then readExponent [101, 69] _ else []) = y at h
      by_cases hy : (o'.sci && !o'.fixed && y.isEmpty) = true
      · rw [if_pos hy] at h; cases h
      · rw [if_neg hy] at h; cases h
  have hhex : ∀ (kd : FloatKind) (pre s : List Nat), floatHex k .classic kd pre s ≠ .ub := by
    intro kd pre s h
    unfold floatHex at h
    split at h
    · split at h <;> cases h
    · unfold readHexfloat at h
      split at h <;> cases h
  unfold floatBody at h
  split at h
  · cases h
  · split at h
    · rename_i r hr
      rcases readNan_cases hr with ⟨pl, rfl⟩ | rfl <;> cases h
    · split at h
      · split at h
        · exact hhex _ _ _ h
        · exact hhex _ _ _ h
      · split at h
        · exact hreg _ _ h
        · split at h
          · exact hhex _ _ _ h
          · unfold floatRegular at h
            split at h
            · split at h <;> cases h
            · exact hreg _ _ h

/-- The sign and the rest, in terms of `evalFloat` alone. -/
theorem readFloat_eval' {V : Type} (cv : FloatConv V) (e : Enc) (k : Src) (seg : Bool) (o : FloatOpts) {src s : List Nat} {sign : Option Sign}
    (hp : parseNumericSign src = some (s, sign)) :
    readFloat cv e k seg .classic o src = match evalFloat cv e k seg o s with
          | .ub => .ub
          | .err x => .err (signedErr sign x)
          | .ok (v, n) => .ok (cv.copysign (decide (sign = some .minus)) v, src.drop (n + (if sign.isSome then 1 else 0))) := by
  rw [readFloat_eval, hp]
  dsimp only
  cases hb : floatBody k .classic o s with
  | ub => exact absurd hb floatBody_ub
  | err x =>
    have := floatBody_err hb
    subst this
    dsimp only
    have he : evalFloat cv e k seg o s = .err .invalidScannedValue := by unfold evalFloat; rw [hb]; rfl
    rw [he]; rfl
  | ok b => rfl

theorem eval_inf {V : Type} (cv : FloatConv V) (e : Enc) (k : Src) (seg : Bool) (o : FloatOpts) {s : List Nat} {kd : FloatKind} (h : readInf k s = some kd) :
    (kd = .infShort → evalFloat cv e k seg o s = .ok (cv.inf, 3)) ∧ (kd = .infLong → evalFloat cv e k seg o s = .ok (cv.inf, 8)) := by
  constructor <;>
  · rintro rfl
    unfold evalFloat floatBody
    rw [h]; rfl

theorem eval_nan {V : Type} (cv : FloatConv V) (e : Enc) (k : Src) (seg : Bool) (o : FloatOpts) {s : List Nat} {x : Res (Option (List Nat))}
    (hi : readInf k s = none) (h : readNan k s = some x) :
    (x = .err .invalidScannedValue → evalFloat cv e k seg o s = .err .invalidScannedValue) ∧ (x = .ok none → evalFloat cv e k seg o s = .ok (cv.nan, 3)) ∧
      ∀ p, x = .ok (some p) → evalFloat cv e k seg o s = .ok (cv.nan, 5 + p.length) := by
  refine ⟨?_, ?_, ?_⟩
  · rintro rfl
    unfold evalFloat floatBody
    rw [hi, h]; rfl
  · rintro rfl
    unfold evalFloat floatBody
    rw [hi, h]; rfl
  · rintro p rfl
    unfold evalFloat floatBody
    rw [hi, h]; rfl

/-- All of it: what is read from a text without a sign. -/
theorem eval_core {V : Type} {cv : FloatConv V} {round : List Nat → Rounded V} (hcv : ConvOk cv round) (e : Enc) (k : Src) (seg : Bool) {ty : Pres} {o : FloatOpts}
    (ho : floatOptions ty = some o) {s : List Nat} (hb : e = .utf8 → ∀ u ∈ s, u < 256) :
    evalFloat cv e k seg o s = .err .invalidScannedValue ∨
    ∃ p r, Longest (FloatText ty) s p ∧ FloatMeans cv round ty p r ∧ evalFloat cv e k seg o s = roundOutcome r p.length := by
  cases hi : readInf k s with
  | some kd =>
    right
    obtain ⟨t, h1, h2, h3⟩ := readInf_some hi ty
    refine ⟨t, _, h2, Or.inl ⟨h1, rfl⟩, ?_⟩
    rcases h3 with ⟨rfl, h3⟩ | ⟨rfl, h3⟩
    · rw [(eval_inf cv e k seg o hi).1 rfl, h3]; rfl
    · rw [(eval_inf cv e k seg o hi).2 rfl, h3]; rfl
  | none =>
    cases hn : readNan k s with
    | some x =>
      have he := eval_nan cv e k seg o hi hn
      rcases readNan_cases hn with ⟨pl, rfl⟩ | rfl
      · right
        obtain ⟨t, h1, h2, h3⟩ := readNan_ok hn ty
        refine ⟨t, _, h2, Or.inr (Or.inl ⟨h1, rfl⟩), ?_⟩
        rcases h3 with ⟨rfl, h3⟩ | ⟨p, rfl, h3⟩
        · rw [he.2.1 rfl, h3]; rfl
        · rw [he.2.2 p rfl, h3]; rfl
      · exact Or.inl (he.1 rfl)
    | none =>
      by_cases hd : ∃ c cs, s = c :: cs ∧ IsDigit 10 c
      · obtain ⟨c, cs, rfl, hc⟩ := hd
        rcases digit_core hcv e k seg ho hc hb with ⟨h, _⟩ | ⟨p, t, h1, h2, h3⟩
        · exact Or.inl h
        · refine Or.inr ⟨p, round t, ⟨Or.inr (Or.inr h1.1), h1.2.1, ?_⟩, Or.inr (Or.inr ⟨h1.1, t, h2, rfl⟩), h3⟩
          rintro q (h | h | h) hq
          · exact absurd hq (readInf_none hi q h)
          · exact absurd hq (readNan_none hn q h)
          · exact h1.2.2 q h hq
      · exact Or.inl (other_core cv e k seg ho (fun c cs h h' => hd ⟨c, cs, h, h'⟩) hi hn)

/-- Prefixed and other hexadecimal numbers are distinct. -/
theorem prefixed_not_hex {t : List Nat} (h : PrefixedHex t) : ¬ HexText t := by
  obtain ⟨x, h', rfl, hx, _⟩ := h
  intro h
  have := noX_hex h x (by simp)
  omega

theorem means_unique {ty : Pres} {t a b : List Nat} (ha : NumberMeans ty t a) (hb : NumberMeans ty t b) : a = b := by
  rcases ha with ⟨rfl, h1⟩ | ⟨h1, h2, rfl⟩ <;> rcases hb with ⟨rfl, h3⟩ | ⟨h3, h4, rfl⟩
  · rfl
  · exact absurd h4 (prefixed_not_hex (h1 h3))
  · exact absurd h2 (prefixed_not_hex (h3 h1))
  · rfl

theorem number_not_inf {ty : Pres} {t : List Nat} (h : NumberText ty t) (hi : InfText t) : False := by
  obtain ⟨c, cs, rfl, hc⟩ := inf_head hi
  have := not_number_of_letter h (List.prefix_refl _) rfl
  omega

theorem number_not_nan {ty : Pres} {t : List Nat} (h : NumberText ty t) (hn : NanText t) : False := by
  obtain ⟨c, cs, rfl, hc⟩ := nan_head hn
  have := not_number_of_letter h (List.prefix_refl _) rfl
  omega

theorem inf_not_nan {t : List Nat} (hi : InfText t) (hn : NanText t) : False := by
  obtain ⟨c, cs, rfl, hc⟩ := inf_head hi
  obtain ⟨c', cs', h, hc'⟩ := nan_head hn
  cases h
  omega

theorem floatMeans_unique {V : Type} {cv : FloatConv V} {round : List Nat → Rounded V} {ty : Pres} {t : List Nat} {r r' : Rounded V}
    (h : FloatMeans cv round ty t r) (h' : FloatMeans cv round ty t r') : r = r' := by
  rcases h with ⟨h1, rfl⟩ | ⟨h1, rfl⟩ | ⟨h1, a, h2, rfl⟩ <;> rcases h' with ⟨h3, rfl⟩ | ⟨h3, rfl⟩ | ⟨h3, b, h4, rfl⟩
  · rfl
  · exact (inf_not_nan h1 h3).elim
  · exact (number_not_inf h3 h1).elim
  · exact (inf_not_nan h3 h1).elim
  · rfl
  · exact (number_not_nan h3 h1).elim
  · exact (number_not_inf h1 h3).elim
  · exact (number_not_nan h1 h3).elim
  · rw [means_unique h2 h4]

theorem readNan_err {k : Src} {s : List Nat} {x : Err} (h : readNan k s = some (.err x)) :
    ∃ a r, s = a ++ 40 :: r ∧ a.map lower = [110, 97, 110] ∧ ∀ q v, r = q ++ 41 :: v → ¬ ∀ c ∈ q, IsWordChar c := by
  unfold readNan at h
  cases h1 : readMatchingNocase k s [110, 97, 110] with
  | none => rw [h1] at h; cases h
  | some r =>
    rw [h1] at h
    simp only [Option.map_some, Option.some.injEq] at h
    obtain ⟨a, rfl, ha⟩ := (readMatching_word k s wN r).1 h1
    cases r with
    | nil => cases h
    | cons d r =>
      dsimp only at h
      by_cases hd : d = 40
      · subst hd
        rw [if_pos rfl] at h
        refine ⟨a, r, rfl, ha, ?_⟩
        rintro q v rfl hq
        have : (q ++ 41 :: v).takeWhile isPayloadChar = q := by
          rw [takeWhile_all_append (fun c hc => (payload_iff c).2 (hq c hc)), List.takeWhile_cons, if_neg (by decide)]
          simp
        rw [this, List.drop_left] at h
        cases h
      · rw [if_neg hd] at h
        cases h

/-- What is read from the texts that are read as they should be. -/
theorem eval_complete {V : Type} {cv : FloatConv V} {round : List Nat → Rounded V} (hcv : ConvOk cv round) (e : Enc) (k : Src) (seg : Bool) {ty : Pres} {o : FloatOpts}
    (ho : floatOptions ty = some o) {t rest : List Nat} (hb : e = .utf8 → ∀ u ∈ t ++ rest, u < 256) (hL : Longest (FloatText ty) (t ++ rest) t)
    {r : Rounded V} (hr : FloatMeans cv round ty t r)
    (ht : (∃ c cs, t = c :: cs ∧ IsDigit 10 c) ∨ InfText t ∨ (NanText t ∧ (t.length = 3 → ∀ cs, rest ≠ 40 :: cs)))
    (hsrc : k.contiguous = true ∨ (ty ≠ .none ∧ ty ≠ .floatHex) ∨ ¬ BarePrefix (t ++ rest)) :
    evalFloat cv e k seg o (t ++ rest) = roundOutcome r t.length := by
  rcases eval_core hcv e k seg ho hb with h | ⟨p, r', h1, h2, h3⟩
  · exfalso
    rcases ht with ⟨c, cs, rfl, hc⟩ | hi | ⟨hn, hn'⟩
    · rw [List.cons_append] at *
      have hnum : NumberText ty (c :: cs) := by
        rcases hL.1 with h | h | h
        · obtain ⟨c', cs', h', hc'⟩ := inf_head h
          cases h'
          rcases hc' with rfl | rfl <;> exact absurd hc (by decide)
        · obtain ⟨c', cs', h', hc'⟩ := nan_head h
          cases h'
          rcases hc' with rfl | rfl <;> exact absurd hc (by decide)
        · exact h
      rcases digit_core hcv e k seg ho hc hb with ⟨_, h4 | ⟨h4, h5, h6⟩⟩ | ⟨p, u, h4, h5, h6⟩
      · exact h4 _ hnum hL.2.1
      · rcases hsrc with hs | hs | hs
        · rw [h4] at hs; cases hs
        · rcases h5 with h5 | h5
          · exact hs.1 h5
          · exact hs.2 h5
        · exact hs h6
      · have hp : p = c :: cs := by
          refine prefix_eq_of_length h4.2.1 hL.2.1 (Nat.le_antisymm (hL.2.2 p (Or.inr (Or.inr h4.1)) h4.2.1) (h4.2.2 _ hnum hL.2.1))
        subst hp
        rw [h] at h6
        cases hru : round u <;> rw [hru] at h6 <;> cases h6
    · cases hri : readInf k (t ++ rest) with
      | none => exact readInf_none hri t hi ⟨rest, rfl⟩
      | some kd =>
        obtain ⟨u, _, _, h4⟩ := readInf_some hri ty
        rcases h4 with ⟨rfl, _⟩ | ⟨rfl, _⟩
        · rw [(eval_inf cv e k seg o hri).1 rfl] at h; cases h
        · rw [(eval_inf cv e k seg o hri).2 rfl] at h; cases h
    · have hri : readInf k (t ++ rest) = none := by
        cases hri : readInf k (t ++ rest) with
        | none => rfl
        | some kd =>
          obtain ⟨u, h4, h5, _⟩ := readInf_some hri ty
          have : u = t := longest_unique h5 hL
          subst this
          exact (inf_not_nan h4 hn).elim
      cases hrn : readNan k (t ++ rest) with
      | none => exact readNan_none hrn t hn ⟨rest, rfl⟩
      | some x =>
        have he := eval_nan cv e k seg o hri hrn
        rcases readNan_cases hrn with ⟨pl, rfl⟩ | rfl
        · cases pl with
          | none => rw [he.2.1 rfl] at h; cases h
          | some p => rw [he.2.2 p rfl] at h; cases h
        · obtain ⟨a, r', h4, h5, h6⟩ := readNan_err hrn
          obtain ⟨a', p, rfl, h7, h8⟩ := hn
          rw [List.append_assoc] at h4
          obtain ⟨rfl, h9⟩ := word_prefix_eq h7 h5 h4
          have hal : a'.length = 3 := by have := congrArg List.length h5; simpa using this
          rcases h8 with rfl | ⟨q, rfl, hq⟩
          · exact hn' (by simpa using hal) r' h9
          · have : r' = q ++ 41 :: rest := by have := (List.cons.inj h9).2; rw [← this]; simp
            exact h6 q rest this hq
  · have := longest_unique h1 hL
    subst this
    rw [floatMeans_unique h2 hr] at h3
    exact h3

/-! ### The same on all sources -/

theorem readMatching_source (k k' : Src) (s : List Nat) {w : List Nat} (hw : ∀ c ∈ w, 97 ≤ c ∧ c ≤ 122) :
    readMatchingNocase k s w = readMatchingNocase k' s w := by
  apply Option.ext
  intro r
  rw [readMatching_word k s hw, readMatching_word k' s hw]

theorem readInf_source (k k' : Src) (s : List Nat) : readInf k s = readInf k' s := by
  unfold readInf
  rw [readMatching_source k k' s wI]
  congr 1
  funext r
  rw [readMatching_source k k' r wI2]

theorem readNan_source (k k' : Src) (s : List Nat) : readNan k s = readNan k' s := by
  unfold readNan
  rw [readMatching_source k k' s wN]

theorem eval_source {V : Type} {cv : FloatConv V} {round : List Nat → Rounded V} (hcv : ConvOk cv round) (e e' : Enc) (k k' : Src) (seg seg' : Bool) {ty : Pres} {o : FloatOpts}
    (ho : floatOptions ty = some o) {s : List Nat} (hb : e = .utf8 ∨ e' = .utf8 → ∀ u ∈ s, u < 256) (hbp : (ty = .none ∨ ty = .floatHex) → ¬ BarePrefix s) :
    evalFloat cv e k seg o s = evalFloat cv e' k' seg' o s := by
  cases hi : readInf k s with
  | some kd =>
    have hi' := hi
    rw [readInf_source k k' s] at hi'
    obtain ⟨t, _, _, h3⟩ := readInf_some hi ty
    rcases h3 with ⟨rfl, _⟩ | ⟨rfl, _⟩
    · rw [(eval_inf cv e k seg o hi).1 rfl, (eval_inf cv e' k' seg' o hi').1 rfl]
    · rw [(eval_inf cv e k seg o hi).2 rfl, (eval_inf cv e' k' seg' o hi').2 rfl]
  | none =>
    have hi' := hi
    rw [readInf_source k k' s] at hi'
    cases hn : readNan k s with
    | some x =>
      have hn' := hn
      rw [readNan_source k k' s] at hn'
      have he := eval_nan cv e k seg o hi hn
      have he' := eval_nan cv e' k' seg' o hi' hn'
      rcases readNan_cases hn with ⟨pl, rfl⟩ | rfl
      · cases pl with
        | none => rw [he.2.1 rfl, he'.2.1 rfl]
        | some p => rw [he.2.2 p rfl, he'.2.2 p rfl]
      · rw [he.1 rfl, he'.1 rfl]
    | none =>
      have hn' := hn
      rw [readNan_source k k' s] at hn'
      by_cases hd : ∃ c cs, s = c :: cs ∧ IsDigit 10 c
      · obtain ⟨c, cs, rfl, hc⟩ := hd
        have h1 := digit_core hcv e k seg ho hc (fun he => hb (Or.inl he))
        have h2 := digit_core hcv e' k' seg' ho hc (fun he => hb (Or.inr he))
        rcases h1 with ⟨h1, h1' | h1'⟩ | ⟨p, t, h1, h1', h1''⟩
        · rcases h2 with ⟨h2, _⟩ | ⟨p', t', h2, _, _⟩
          · rw [h1, h2]
          · exact absurd h2.2.1 (h1' p' h2.1)
        · exact absurd h1'.2.2 (hbp h1'.2.1)
        · rcases h2 with ⟨h2, h2' | h2'⟩ | ⟨p', t', h2, h2', h2''⟩
          · exact absurd h1.2.1 (h2' p h1.1)
          · exact absurd h2'.2.2 (hbp h2'.2.1)
          · have := longest_unique h1 h2
            subst this
            have := means_unique h1' h2'
            subst this
            rw [h1'', h2'']
      · rw [other_core cv e k seg ho (fun c cs h h' => hd ⟨c, cs, h, h'⟩) hi hn, other_core cv e' k' seg' ho (fun c cs h h' => hd ⟨c, cs, h, h'⟩) hi' hn']

/-! ### A conversion for examples -/

/-- The values of the example: a text stands for itself, `1e999` is too large and `1e-999` too small. -/
def exRound (p : List Nat) : Rounded (List Nat) :=
  if p = [49, 101, 57, 57, 57] then .tooLarge else if p = [49, 101, 45, 57, 57, 57] then .tooSmall
  else if p = [48, 120, 48] then .finite [48] else .finite p

open Classical in
/-- A conversion with those values; the empty text stands for 0, and `i` for infinity. -/
noncomputable def exConv : FloatConv (List Nat) where
  useFast := true
  fast f s t := if h : ∃ p, Longest (DecText f s) t p then
      match exRound h.choose with
      | .finite v => .ok v h.choose.length
      | _ => .outOfRange
    else .invalid
  strtod t := if h : ∃ p, Longest StrtodText t p then
      match exRound h.choose with
      | .finite v => ⟨v, h.choose.length, false⟩
      | .tooLarge => ⟨[105], h.choose.length, true⟩
      | .tooSmall => ⟨[], h.choose.length, true⟩
    else ⟨[], 0, false⟩
  isZero v := decide (v = [])
  isInf v := decide (v = [105])
  inf := [105]
  nan := [110]
  copysign b v := if b then 45 :: v else v

theorem exRound_finite {p v : List Nat} (h : exRound p = .finite v) : v = p ∨ v = [48] := by
  unfold exRound at h
  split at h
  · cases h
  · split at h
    · cases h
    · split at h
      · cases h; exact Or.inr rfl
      · cases h; exact Or.inl rfl

open Classical in
theorem exConv_ok : ConvOk exConv exRound where
  fast f s c cs p hc hp := by
    have hex : ∃ p, Longest (DecText f s) (c :: cs) p := ⟨p, hp⟩
    have hch : hex.choose = p := longest_unique hex.choose_spec hp
    show (if h : ∃ p, Longest (DecText f s) (c :: cs) p then _ else _) = FastRes.outOfRange ∨ ∃ v, exRound p = .finite v ∧ (if h : ∃ p, Longest (DecText f s) (c :: cs) p then _ else _) = FastRes.ok v p.length
    rw [dif_pos hex, hch]
    cases exRound p with
    | finite v => exact Or.inr ⟨v, rfl, rfl⟩
    | tooLarge => exact Or.inl rfl
    | tooSmall => exact Or.inl rfl
  fastNone f s c cs hc h := by
    show (if h : ∃ p, Longest (DecText f s) (c :: cs) p then _ else _) = FastRes.invalid
    rw [dif_neg]
    rintro ⟨p, hp⟩
    exact h p hp.1 hp.2.1
  strtod c cs p hc hp := by
    have hex : ∃ p, Longest StrtodText (c :: cs) p := ⟨p, hp⟩
    have hch : hex.choose = p := longest_unique hex.choose_spec hp
    have : exConv.strtod (c :: cs) = (match exRound p with
      | .finite v => ⟨v, p.length, false⟩
      | .tooLarge => ⟨[105], p.length, true⟩
      | .tooSmall => ⟨[], p.length, true⟩ : StrtodRes (List Nat)) := by
      show (if h : ∃ p, Longest StrtodText (c :: cs) p then _ else _) = _
      rw [dif_pos hex, hch]
    rw [this]
    cases hr : exRound p with
    | finite v =>
      refine ⟨rfl, rfl, ?_, fun _ => rfl⟩
      rcases exRound_finite hr with rfl | rfl
      · have hne : v ≠ [105] := by
          rintro rfl
          rcases hp.1 with h | ⟨x, h, h', _⟩
          · obtain ⟨m, x, hmx, hm, _⟩ := h
            obtain ⟨d, ds, h1, h2⟩ := number_head (ty := .floatGeneral) (t := [105]) ⟨m, x, hmx, hm, by assumption⟩
            cases h1
            rcases h2 with h2 | h2
            · exact absurd h2 (by decide)
            · exact absurd h2 (by decide)
          · cases h'
        show decide (v = [105]) = false
        exact decide_eq_false hne
      · rfl
    | tooLarge => exact ⟨rfl, rfl, rfl⟩
    | tooSmall => exact ⟨rfl, rfl, rfl⟩
  zero := rfl

theorem floatText_head {ty : Pres} {t : List Nat} (h : FloatText ty t) : ∃ c cs, t = c :: cs ∧ c ≠ 43 ∧ c ≠ 45 := by
  rcases h with h | h | h
  · obtain ⟨c, cs, h1, h2⟩ := inf_head h
    exact ⟨c, cs, h1, by omega⟩
  · obtain ⟨c, cs, h1, h2⟩ := nan_head h
    exact ⟨c, cs, h1, by omega⟩
  · obtain ⟨c, cs, h1, h2⟩ := number_head h
    refine ⟨c, cs, h1, ?_⟩
    rcases h2 with h2 | rfl
    · constructor <;> (rintro rfl; revert h2; decide)
    · decide

theorem ex_1e999 : DecText true true [49, 101, 57, 57, 57] :=
  ⟨[49], [101, 57, 57, 57], rfl, digits_significand (by decide), Or.inr ⟨rfl, 101, [], [57, 57, 57], rfl, by decide, Or.inl rfl, by decide, by decide⟩⟩

theorem ex_not_bare {c d : Nat} {cs : List Nat} (h : c ≠ 48 ∨ (d ≠ 120 ∧ d ≠ 88)) : ¬ BarePrefix (c :: d :: cs) := by
  rintro ⟨x, r, h1, hx, _⟩
  cases h1
  omega

end Scn
