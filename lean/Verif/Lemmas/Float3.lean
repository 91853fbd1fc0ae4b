import Verif.Lemmas.Float2
/-
What is read from a text that begins with a digit.
-/
namespace Scn
open Spec

/-! ### The prefix -/

theorem noX_significand {base : Nat} (hb : base ≤ 16) {m : List Nat} (h : Significand base m) : ∀ c ∈ m, c ≠ 120 ∧ c ≠ 88 := by
  obtain ⟨i, f, rfl, h1, h2, _⟩ := h
  have hd : ∀ c, IsDigit base c → c ≠ 120 ∧ c ≠ 88 := by
    rintro c ⟨d, hd, hl⟩
    have : IsDigit 16 c := ⟨d, hd, by omega⟩
    constructor <;> (rintro rfl; revert this; decide)
  intro c hc
  rcases List.mem_append.1 hc with hc | hc
  · exact hd c (h1 c hc)
  · rcases h2 with rfl | ⟨ds, rfl, h2⟩
    · cases hc
    · rcases List.mem_cons.1 hc with rfl | hc
      · decide
      · exact hd c (h2 c hc)

theorem noX_exponent {letters x : List Nat} (hl : ∀ l ∈ letters, l ≠ 120 ∧ l ≠ 88) (h : Exponent letters x) : ∀ c ∈ x, c ≠ 120 ∧ c ≠ 88 := by
  obtain ⟨l, sg, ds, rfl, h1, h2, _, h3⟩ := h
  intro c hc
  rcases List.mem_cons.1 hc with rfl | hc
  · exact hl _ h1
  · rcases List.mem_append.1 hc with hc | hc
    · rcases h2 with rfl | rfl | rfl
      · cases hc
      · simp at hc; subst hc; decide
      · simp at hc; subst hc; decide
    · have := h3 c hc
      constructor <;> (rintro rfl; revert this; decide)

theorem noX_dec {f s : Bool} {t : List Nat} (h : DecText f s t) : ∀ c ∈ t, c ≠ 120 ∧ c ≠ 88 := by
  obtain ⟨m, x, rfl, h1, h2⟩ := h
  intro c hc
  rcases List.mem_append.1 hc with hc | hc
  · exact noX_significand (by decide) h1 c hc
  · rcases h2 with ⟨rfl, _⟩ | ⟨_, h2⟩
    · cases hc
    · exact noX_exponent (by decide) h2 c hc

theorem noX_hex {t : List Nat} (h : HexText t) : ∀ c ∈ t, c ≠ 120 ∧ c ≠ 88 := by
  obtain ⟨m, x, rfl, h1, h2⟩ := h
  intro c hc
  rcases List.mem_append.1 hc with hc | hc
  · exact noX_significand (by decide) h1 c hc
  · rcases h2 with rfl | h2
    · cases hc
    · exact noX_exponent (by decide) h2 c hc

theorem noX_prefix {q r : List Nat} {x : Nat} (hx : x = 120 ∨ x = 88) (h : ∀ c ∈ q, c ≠ 120 ∧ c ≠ 88) (hp : q <+: 48 :: x :: r) : q = [] ∨ q = [48] := by
  obtain ⟨v, hv⟩ := hp
  match q with
  | [] => exact Or.inl rfl
  | [a] => right; rw [(List.cons.inj hv).1]
  | a :: b :: q =>
    have : b = x := (List.cons.inj (List.cons.inj hv).2).1
    have := h b (by simp)
    omega

theorem digits_significand {base c : Nat} (hc : IsDigit base c) : Significand base [c] :=
  ⟨[c], [], by simp, by simpa using hc, Or.inl rfl, Or.inl (by simp)⟩

theorem dec_digit {s : Bool} {c : Nat} (hc : IsDigit 10 c) : DecText true s [c] := ⟨[c], [], by simp, digits_significand hc, Or.inl ⟨rfl, rfl⟩⟩

theorem hex_digit {c : Nat} (hc : IsDigit 16 c) : HexText [c] := ⟨[c], [], by simp, digits_significand hc, Or.inl rfl⟩

theorem digit16 {c : Nat} (hc : IsDigit 10 c) : IsDigit 16 c := by
  obtain ⟨d, hd, hl⟩ := hc
  exact ⟨d, hd, by omega⟩

theorem significand_ne_nil {base : Nat} {m x : List Nat} (h : Significand base m) : m ++ x ≠ [] := by
  obtain ⟨i, f, rfl, _, _, h⟩ := h
  intro h'
  simp at h'
  rcases h with h | h
  · exact h h'.1
  · rw [h'.2.1] at h; simp at h

theorem dec_ne_nil {f s : Bool} {t : List Nat} (h : DecText f s t) : t ≠ [] := by
  obtain ⟨m, x, rfl, h1, _⟩ := h
  exact significand_ne_nil h1

theorem hex_ne_nil {t : List Nat} (h : HexText t) : t ≠ [] := by
  obtain ⟨m, x, rfl, h1, _⟩ := h
  exact significand_ne_nil h1

theorem strtod_ne_nil {t : List Nat} (h : StrtodText t) : t ≠ [] := by
  rcases h with h | ⟨x, h, rfl, _⟩
  · exact dec_ne_nil h
  · simp

theorem dec_mono {f s : Bool} {t : List Nat} (h : DecText f s t) : DecText true true t := by
  obtain ⟨m, x, rfl, h1, h2⟩ := h
  refine ⟨m, x, rfl, h1, ?_⟩
  rcases h2 with ⟨h, _⟩ | ⟨_, h⟩
  · exact Or.inl ⟨h, rfl⟩
  · exact Or.inr ⟨rfl, h⟩

theorem hexPrefix_some {k : Src} {c : Nat} {cs r : List Nat} (hc : IsDigit 10 c) (h : hexPrefix k (c :: cs) = some r) :
    c = 48 ∧ ∃ x, (x = 120 ∨ x = 88) ∧ cs = x :: r := by
  unfold hexPrefix at h
  rw [readMatch2 k _ 120 (by decide)] at h
  cases cs with
  | nil => cases h
  | cons x cs =>
    dsimp only at h
    split at h
    · rename_i h'
      cases h
      refine ⟨?_, x, h'.2, rfl⟩
      rcases h'.1 with h | ⟨_, _, rfl⟩
      · exact h
      · exact absurd hc (by decide)
    · cases h

theorem hexPrefix_none {k : Src} {s : List Nat} (h : hexPrefix k s = none) : ∀ q, PrefixedHex q → ¬ q <+: s := by
  rintro q ⟨x, t, rfl, hx, _⟩ ⟨v, rfl⟩
  unfold hexPrefix at h
  rw [readMatch2 k _ 120 (by decide)] at h
  simp only [List.cons_append] at h
  rw [if_pos ⟨Or.inl trivial, hx⟩] at h
  cases h

/-! ### The value -/

/-- The value and the number of units, without the sign. -/
def evalFloat {V : Type} (cv : FloatConv V) (e : Enc) (k : Src) (seg : Bool) (o : FloatOpts) (s : List Nat) : Res (V × Nat) :=
  (floatBody k .classic o s).bind fun body => floatDispatch cv e o body.kind (handleSeparators .classic (!k.contiguous && seg) body.text) body.payload

theorem separators_classic (b : Bool) (t : List Nat) : handleSeparators .classic b t = ⟨if b then some t else none, t, 0⟩ := rfl

theorem floatRegular_contiguous {k : Src} (hk : k.contiguous = true) (o : FloatOpts) (c : Nat) (cs : List Nat) :
    floatRegular k .classic o (c :: cs) = .ok { kind := .generic, text := c :: cs } := by
  unfold floatRegular; rw [hk]; rfl

theorem floatRegular_other {k : Src} (hk : k.contiguous = false) (o : FloatOpts) (s : List Nat) :
    floatRegular k .classic o s = (readRegularFloat .classic o s).map fun r => { kind := r.1, text := r.2 } := by
  unfold floatRegular; rw [hk]; rfl

theorem floatHex_contiguous {k : Src} (hk : k.contiguous = true) (kd : FloatKind) {pre s : List Nat} {c : Nat} {cs : List Nat} (h : pre ++ s = c :: cs) :
    floatHex k .classic kd pre s = .ok { kind := kd, text := c :: cs } := by
  unfold floatHex; rw [hk, h]; rfl

theorem floatHex_other {k : Src} (hk : k.contiguous = false) (kd : FloatKind) (pre s : List Nat) :
    floatHex k .classic kd pre s = (readHexfloat .classic s).map fun t => { kind := kd, text := pre ++ t } := by
  unfold floatHex; rw [hk]; rfl

theorem prefix_cons_of {p : List Nat} {c : Nat} {cs : List Nat} (hp : p <+: c :: cs) (hn : p ≠ []) : ∃ ps, p = c :: ps := by
  cases p with
  | nil => exact absurd rfl hn
  | cons d p =>
    obtain ⟨v, hv⟩ := hp
    exact ⟨p, by rw [(List.cons.inj hv).1]⟩

theorem floatOptions_some {ty : Pres} {o : FloatOpts} (h : floatOptions ty = some o) :
    (ty = .none ∧ o = ⟨true, true, true⟩) ∨ (ty = .floatHex ∧ o = ⟨true, false, false⟩) ∨
    ((ty = .floatScientific ∨ ty = .floatFixed ∨ ty = .floatGeneral) ∧ o.hex = false ∧ (o.fixed = true ∨ o.sci = true) ∧ NumberText ty = DecText o.fixed o.sci) := by
  cases ty <;> simp [floatOptions] at h <;> subst h <;> simp <;> try (funext t; rfl)

/-- The decimal presentations. -/
theorem digit_dec {V : Type} {cv : FloatConv V} {round : List Nat → Rounded V} (hcv : ConvOk cv round) (e : Enc) (k : Src) (seg : Bool) {o : FloatOpts}
    (ho : o.hex = false) (ho' : o.fixed = true ∨ o.sci = true) {c : Nat} {cs : List Nat} (hc : IsDigit 10 c) (hb : e = .utf8 → ∀ u ∈ c :: cs, u < 256) :
    (evalFloat cv e k seg o (c :: cs) = .err .invalidScannedValue ∧ ∀ q, DecText o.fixed o.sci q → ¬ q <+: c :: cs) ∨
    ∃ p, Longest (DecText o.fixed o.sci) (c :: cs) p ∧ evalFloat cv e k seg o (c :: cs) = roundOutcome (round p) p.length := by
  have hbody : floatBody k .classic o (c :: cs) = (readRegularFloat .classic o (c :: cs)).map fun r => { kind := r.1, text := r.2 } := by
    unfold floatBody
    rw [readInf_digit (digit16 hc), readNan_digit (digit16 hc)]
    dsimp only
    rw [if_neg (by simp [ho]), if_pos (by rcases ho' with h | h <;> simp [ho, h])]
  unfold evalFloat
  rw [hbody]
  rcases regular_longest o ho' cs hc with ⟨kd, t, h1, h2, h3⟩ | ⟨h1, h2⟩
  · right
    refine ⟨t, h3, ?_⟩
    rw [h1]
    show floatDispatch cv e o kd (handleSeparators .classic _ t) [] = _
    rw [separators_classic]
    obtain ⟨ts, rfl⟩ := prefix_cons_of h3.2.1 (dec_ne_nil h3.1)
    refine dispatch_dec hcv e o (Or.inr h2) _ hc (longest_self h3.1) (longest_self (Or.inl (dec_mono h3.1))) ?_
    intro he u hu
    exact hb he u (h3.2.1.subset hu)
  · left
    rw [h1]
    exact ⟨rfl, h2⟩

/-- The presentations with hexadecimal numbers, on a text with the prefix. -/
theorem digit_prefixed {V : Type} {cv : FloatConv V} {round : List Nat → Rounded V} (hcv : ConvOk cv round) (e : Enc) (k : Src) (seg : Bool) {o : FloatOpts}
    (ho : o = ⟨true, true, true⟩ ∨ o = ⟨true, false, false⟩) {x : Nat} {r : List Nat} (hx : x = 120 ∨ x = 88) (hb : e = .utf8 → ∀ u ∈ 48 :: x :: r, u < 256) :
    (evalFloat cv e k seg o (48 :: x :: r) = .err .invalidScannedValue ∧ k.contiguous = false ∧ ∀ d ds, r = d :: ds → ¬ IsDigit 16 d) ∨
    ∃ p, Longest StrtodText (48 :: x :: r) p ∧ evalFloat cv e k seg o (48 :: x :: r) = roundOutcome (round p) p.length := by
  have hm : hexPrefix k (48 :: x :: r) = some r := by
    unfold hexPrefix
    rw [readMatch2 k _ 120 (by decide)]
    exact if_pos ⟨Or.inl rfl, hx⟩
  have hbody : floatBody k .classic o (48 :: x :: r) = floatHex k .classic .hexWith [48, x] r := by
    unfold floatBody
    rw [readInf_digit (by decide), readNan_digit (by decide)]
    dsimp only
    rw [hm]
    rcases ho with rfl | rfl <;> rfl
  have h10 : IsDigit 10 48 := by decide
  unfold evalFloat
  rw [hbody]
  cases hk : k.contiguous with
  | true =>
    right
    rw [floatHex_contiguous hk .hexWith (c := 48) (cs := x :: r) rfl]
    show ∃ p, _ ∧ floatDispatch cv e o .hexWith (handleSeparators .classic _ (48 :: x :: r)) [] = _
    rw [separators_classic]
    obtain ⟨p, hp⟩ := exists_longest (P := StrtodText) (s := 48 :: x :: r) (q := [48]) (Or.inl (dec_digit h10)) ⟨x :: r, rfl⟩
    exact ⟨p, hp, dispatch_hex hcv e o (Or.inl rfl) _ h10 hp.2.1 (strtod_ne_nil hp.1) hp hb⟩
  | false =>
    rw [floatHex_other hk]
    by_cases hd : ∃ d ds, r = d :: ds ∧ IsDigit 16 d
    · right
      obtain ⟨d, ds, rfl, hd⟩ := hd
      obtain ⟨t, h1, h2⟩ := hexfloat_longest ds hd
      rw [h1]
      show ∃ p, _ ∧ floatDispatch cv e o .hexWith (handleSeparators .classic _ ([48, x] ++ t)) [] = _
      rw [separators_classic]
      have hph : PrefixedHex (48 :: x :: t) := ⟨x, t, rfl, hx, h2.1⟩
      have hpre : 48 :: x :: t <+: 48 :: x :: d :: ds := by
        rw [List.cons_prefix_cons, List.cons_prefix_cons]; exact ⟨rfl, rfl, h2.2.1⟩
      refine ⟨48 :: x :: t, ⟨Or.inr hph, hpre, ?_⟩, ?_⟩
      · rintro q (hq | ⟨x', t', rfl, hx', ht'⟩) hq'
        · rcases noX_prefix hx (noX_dec hq) hq' with rfl | rfl <;> simp
        · rw [List.cons_prefix_cons, List.cons_prefix_cons] at hq'
          have := h2.2.2 t' ht' hq'.2.2
          simp; omega
      · refine dispatch_hex hcv e o (Or.inl rfl) _ h10 (List.prefix_refl _) (by simp) (longest_self (Or.inr hph)) ?_
        intro he u hu
        exact hb he u (hpre.subset hu)
    · left
      rw [hexfloat_none (fun d ds h1 h2 => hd ⟨d, ds, h1, h2⟩)]
      exact ⟨rfl, rfl, fun d ds h1 h2 => hd ⟨d, ds, h1, h2⟩⟩

/-- The general presentation, on a text without the prefix. -/
theorem digit_none {V : Type} {cv : FloatConv V} {round : List Nat → Rounded V} (hcv : ConvOk cv round) (e : Enc) (k : Src) (seg : Bool)
    {c : Nat} {cs : List Nat} (hc : IsDigit 10 c) (hm : hexPrefix k (c :: cs) = none) (hb : e = .utf8 → ∀ u ∈ c :: cs, u < 256) :
    ∃ p, Longest StrtodText (c :: cs) p ∧ evalFloat cv e k seg ⟨true, true, true⟩ (c :: cs) = roundOutcome (round p) p.length := by
  have hbody : floatBody k .classic ⟨true, true, true⟩ (c :: cs) = floatRegular k .classic ⟨true, true, true⟩ (c :: cs) := by
    unfold floatBody
    rw [readInf_digit (digit16 hc), readNan_digit (digit16 hc)]
    dsimp only
    rw [hm]
    rfl
  have hL : ∀ p, Longest (DecText true true) (c :: cs) p → Longest StrtodText (c :: cs) p := by
    intro p hp
    refine ⟨Or.inl hp.1, hp.2.1, ?_⟩
    rintro q (hq | hq) hq'
    · exact hp.2.2 q hq hq'
    · exact absurd hq' (hexPrefix_none hm q hq)
  unfold evalFloat
  rw [hbody]
  cases hk : k.contiguous with
  | true =>
    rw [floatRegular_contiguous hk]
    show ∃ p, _ ∧ floatDispatch cv e _ .generic (handleSeparators .classic _ (c :: cs)) [] = _
    rw [separators_classic]
    obtain ⟨p, hp⟩ := exists_longest (P := DecText true true) (s := c :: cs) (q := [c]) (dec_digit hc) ⟨cs, rfl⟩
    exact ⟨p, hL p hp, dispatch_dec hcv e ⟨true, true, true⟩ (Or.inl rfl) _ hc hp (hL p hp) hb⟩
  | false =>
    rw [floatRegular_other hk]
    rcases regular_longest ⟨true, true, true⟩ (Or.inl rfl) cs hc with ⟨kd, t, h1, h2, h3⟩ | ⟨h1, h2⟩
    · refine ⟨t, hL t h3, ?_⟩
      rw [h1]
      show floatDispatch cv e _ kd (handleSeparators .classic _ t) [] = _
      rw [separators_classic]
      obtain ⟨ts, rfl⟩ := prefix_cons_of h3.2.1 (dec_ne_nil h3.1)
      refine dispatch_dec hcv e ⟨true, true, true⟩ (Or.inr h2) _ hc (longest_self h3.1) (longest_self (Or.inl (dec_mono h3.1))) ?_
      intro he u hu
      exact hb he u (h3.2.1.subset hu)
    · exact absurd ⟨cs, rfl⟩ (h2 [c] (dec_digit hc))

/-- The hexadecimal presentation, on a text without the prefix. -/
theorem digit_hex {V : Type} {cv : FloatConv V} {round : List Nat → Rounded V} (hcv : ConvOk cv round) (e : Enc) (k : Src) (seg : Bool)
    {c : Nat} {cs : List Nat} (hc : IsDigit 10 c) (hm : hexPrefix k (c :: cs) = none) (hb : e = .utf8 → ∀ u ∈ c :: cs, u < 256) :
    ∃ p, Longest HexText (c :: cs) p ∧ evalFloat cv e k seg ⟨true, false, false⟩ (c :: cs) = roundOutcome (round (48 :: 120 :: p)) p.length := by
  have hbody : floatBody k .classic ⟨true, false, false⟩ (c :: cs) = floatHex k .classic .hexWithout [] (c :: cs) := by
    unfold floatBody
    rw [readInf_digit (digit16 hc), readNan_digit (digit16 hc)]
    dsimp only
    rw [hm]
    rfl
  have hL : ∀ s p, Longest HexText s p → Longest StrtodText ((if FloatKind.hexWithout = .hexWithout then [48, 120] else []) ++ s) ((if FloatKind.hexWithout = .hexWithout then [48, 120] else []) ++ p) := by
    intro s p hp
    rw [if_pos rfl]
    refine ⟨Or.inr ⟨120, p, rfl, Or.inl rfl, hp.1⟩, (List.prefix_append_right_inj _).2 hp.2.1, ?_⟩
    rintro q (hq | ⟨x', t', rfl, hx', ht'⟩) hq'
    · rcases noX_prefix (Or.inl rfl) (noX_dec hq) hq' with rfl | rfl <;> simp
    · have hq' : 48 :: x' :: t' <+: 48 :: 120 :: s := hq'
      rw [List.cons_prefix_cons, List.cons_prefix_cons] at hq'
      have := hp.2.2 t' ht' hq'.2.2
      simp; omega
  unfold evalFloat
  rw [hbody]
  cases hk : k.contiguous with
  | true =>
    rw [floatHex_contiguous hk .hexWithout (c := c) (cs := cs) rfl]
    show ∃ p, _ ∧ floatDispatch cv e _ .hexWithout (handleSeparators .classic _ (c :: cs)) [] = _
    rw [separators_classic]
    obtain ⟨p, hp⟩ := exists_longest (P := HexText) (s := c :: cs) (q := [c]) (hex_digit (digit16 hc)) ⟨cs, rfl⟩
    exact ⟨p, hp, dispatch_hex hcv e _ (Or.inr rfl) _ hc hp.2.1 (hex_ne_nil hp.1) (hL _ p hp) hb⟩
  | false =>
    rw [floatHex_other hk]
    obtain ⟨t, h1, h2⟩ := hexfloat_longest cs (digit16 hc)
    rw [h1]
    show ∃ p, _ ∧ floatDispatch cv e _ .hexWithout (handleSeparators .classic _ ([] ++ t)) [] = _
    rw [List.nil_append, separators_classic]
    refine ⟨t, h2, ?_⟩
    obtain ⟨ts, rfl⟩ := prefix_cons_of h2.2.1 (hex_ne_nil h2.1)
    refine dispatch_hex hcv e _ (Or.inr rfl) _ hc (List.prefix_refl _) (by simp) (hL _ _ (longest_self h2.1)) ?_
    intro he u hu
    exact hb he u (h2.2.1.subset hu)

/-- What is read from a text that begins with a digit. -/
theorem digit_core {V : Type} {cv : FloatConv V} {round : List Nat → Rounded V} (hcv : ConvOk cv round) (e : Enc) (k : Src) (seg : Bool) {ty : Pres} {o : FloatOpts}
    (ho : floatOptions ty = some o) {c : Nat} {cs : List Nat} (hc : IsDigit 10 c) (hb : e = .utf8 → ∀ u ∈ c :: cs, u < 256) :
    (evalFloat cv e k seg o (c :: cs) = .err .invalidScannedValue ∧
      ((∀ q, NumberText ty q → ¬ q <+: c :: cs) ∨ (k.contiguous = false ∧ (ty = .none ∨ ty = .floatHex) ∧ BarePrefix (c :: cs)))) ∨
    ∃ p t, Longest (NumberText ty) (c :: cs) p ∧ NumberMeans ty p t ∧ evalFloat cv e k seg o (c :: cs) = roundOutcome (round t) p.length := by
  rcases floatOptions_some ho with ⟨rfl, rfl⟩ | ⟨rfl, rfl⟩ | ⟨hty, h1, h2, h3⟩
  · -- none
    have hN : NumberText .none = StrtodText := by funext t; rfl
    rw [hN]
    cases hm : hexPrefix k (c :: cs) with
    | some r =>
      obtain ⟨rfl, x, hx, rfl⟩ := hexPrefix_some hc hm
      rcases digit_prefixed hcv e k seg (Or.inl rfl) hx hb with ⟨h1, h2, h3⟩ | ⟨p, h1, h2⟩
      · exact Or.inl ⟨h1, Or.inr ⟨h2, Or.inl rfl, x, r, rfl, hx, h3⟩⟩
      · exact Or.inr ⟨p, p, h1, Or.inl ⟨rfl, fun h => by cases h⟩, h2⟩
    | none =>
      obtain ⟨p, h1, h2⟩ := digit_none hcv e k seg hc hm hb
      exact Or.inr ⟨p, p, h1, Or.inl ⟨rfl, fun h => by cases h⟩, h2⟩
  · -- hexadecimal
    cases hm : hexPrefix k (c :: cs) with
    | some r =>
      obtain ⟨rfl, x, hx, rfl⟩ := hexPrefix_some hc hm
      rcases digit_prefixed hcv e k seg (Or.inr rfl) hx hb with ⟨h1, h2, h3⟩ | ⟨p, h1, h2⟩
      · exact Or.inl ⟨h1, Or.inr ⟨h2, Or.inr rfl, x, r, rfl, hx, h3⟩⟩
      · right
        have hmax : ∀ q, NumberText .floatHex q → q <+: 48 :: x :: r → q.length ≤ p.length := by
          rintro q (hq | hq) hq'
          · exact h1.2.2 q (Or.inr hq) hq'
          · rcases noX_prefix hx (noX_hex hq) hq' with rfl | rfl
            · simp
            · have := strtod_ne_nil h1.1
              have : p.length ≠ 0 := fun h => this (List.eq_nil_of_length_eq_zero h)
              simp; omega
        rcases h1.1 with hp | hp
        · rcases noX_prefix hx (noX_dec hp) h1.2.1 with rfl | rfl
          · exact absurd rfl (dec_ne_nil hp)
          · refine ⟨[48], [48, 120, 48], ⟨Or.inr (hex_digit (by decide)), h1.2.1, hmax⟩, Or.inr ⟨rfl, hex_digit (by decide), rfl⟩, ?_⟩
            rw [hcv.zero]; exact h2
        · exact ⟨p, p, ⟨Or.inl hp, h1.2.1, hmax⟩, Or.inl ⟨rfl, fun _ => hp⟩, h2⟩
    | none =>
      obtain ⟨p, h1, h2⟩ := digit_hex hcv e k seg hc hm hb
      refine Or.inr ⟨p, _, ⟨Or.inr h1.1, h1.2.1, ?_⟩, Or.inr ⟨rfl, h1.1, rfl⟩, h2⟩
      rintro q (hq | hq) hq'
      · exact absurd hq' (hexPrefix_none hm q hq)
      · exact h1.2.2 q hq hq'
  · rcases digit_dec hcv e k seg h1 h2 hc hb with ⟨h4, h5⟩ | ⟨p, h4, h5⟩
    · left
      rw [h3]
      exact ⟨h4, Or.inl h5⟩
    · right
      rw [h3]
      refine ⟨p, p, h4, Or.inl ⟨rfl, fun h => ?_⟩, h5⟩
      subst h
      rcases hty with h | h | h <;> cases h

/-- Other texts are not read. -/
theorem other_core {V : Type} (cv : FloatConv V) (e : Enc) (k : Src) (seg : Bool) {ty : Pres} {o : FloatOpts} (ho : floatOptions ty = some o)
    {s : List Nat} (hs : ∀ c cs, s = c :: cs → ¬ IsDigit 10 c) (hi : readInf k s = none) (hn : readNan k s = none) :
    evalFloat cv e k seg o s = .err .invalidScannedValue := by
  have disp : ∀ kd b, (kd = .generic ∨ kd = .fixed ∨ kd = .scientific ∨ kd = .hexWith ∨ kd = .hexWithout) → ∀ c cs, ¬ IsDigit 10 c →
      floatDispatch cv e o kd (handleSeparators .classic b (c :: cs)) [] = .err .invalidScannedValue := by
    intro kd b hk c cs hc
    rw [separators_classic]
    have h10 : charToInt c ≥ 10 := by
      have := mt (charToInt_lt_iff 10 c (by decide)).1 hc
      omega
    rcases hk with rfl | rfl | rfl | rfl | rfl
    all_goals
      unfold floatDispatch
      dsimp only
      rw [if_pos h10]
      try exact ite_self _
  have hreg : ∀ o', readRegularFloat .classic o' s = .err .invalidScannedValue := fun o' => regular_none o' hs
  have hex : ∀ (pre r : List Nat) kd, pre ++ r = s → (kd = .hexWith ∨ kd = .hexWithout) →
      ((floatHex k .classic kd pre r).bind fun body => floatDispatch cv e o body.kind (handleSeparators .classic (!k.contiguous && seg) body.text) body.payload) = .err .invalidScannedValue := by
    intro pre r kd hpr hk
    cases s with
    | nil =>
      have h1 : pre = [] := (List.append_eq_nil_iff.1 hpr).1
      have h2 : r = [] := (List.append_eq_nil_iff.1 hpr).2
      subst h1; subst h2
      unfold floatHex
      split
      · rfl
      · rw [hexfloat_none (by intro c cs h; cases h)]; rfl
    | cons c cs =>
      cases hkc : k.contiguous with
      | true =>
        rw [floatHex_contiguous hkc kd hpr]
        exact disp kd _ (by rcases hk with rfl | rfl <;> simp) c cs (hs c cs rfl)
      | false =>
        rw [floatHex_other hkc]
        cases hr : readHexfloat .classic r with
        | err x =>
          unfold readHexfloat at hr
          split at hr
          · cases hr; rfl
          · cases hr
        | ub =>
          unfold readHexfloat at hr
          split at hr <;> cases hr
        | ok t =>
          show floatDispatch cv e o kd (handleSeparators .classic _ (pre ++ t)) [] = _
          cases pre with
          | cons a pre =>
            have : a = c := (List.cons.inj hpr).1
            subst this
            exact disp kd _ (by rcases hk with rfl | rfl <;> simp) a (pre ++ t) (hs a cs rfl)
          | nil =>
            have hpr : r = c :: cs := hpr
            subst hpr
            by_cases hd : IsDigit 16 c
            · obtain ⟨t', h1, h2⟩ := hexfloat_longest cs hd
              rw [h1] at hr
              cases hr
              obtain ⟨ts, rfl⟩ := prefix_cons_of h2.2.1 (hex_ne_nil h2.1)
              exact disp kd _ (by rcases hk with rfl | rfl <;> simp) c ts (hs c cs rfl)
            · rw [hexfloat_none (fun d ds h => by cases h; exact hd)] at hr
              cases hr
  have htake : ∀ r, hexPrefix k s = some r → s.take 2 ++ r = s := by
    intro r hr
    unfold hexPrefix at hr
    rw [readMatch2 k _ 120 (by decide)] at hr
    match s, hr with
    | [], hr => cases hr
    | [_], hr => cases hr
    | a :: b :: t, hr =>
      dsimp only at hr
      split at hr
      · cases hr; rfl
      · cases hr
  unfold evalFloat floatBody
  rw [hi, hn]
  dsimp only
  rcases floatOptions_some ho with ⟨rfl, rfl⟩ | ⟨rfl, rfl⟩ | ⟨hty, h1, h2, h3⟩
  · rw [if_neg (by decide), if_neg (by decide)]
    cases hm : hexPrefix k s with
    | some r => exact hex _ _ _ (htake r hm) (Or.inl rfl)
    | none =>
      dsimp only
      cases hkc : k.contiguous with
      | true =>
        cases s with
        | nil => unfold floatRegular; rw [hkc]; rfl
        | cons c cs =>
          rw [floatRegular_contiguous hkc]
          exact disp _ _ (Or.inl rfl) c cs (hs c cs rfl)
      | false =>
        rw [floatRegular_other hkc, hreg]; rfl
  · rw [if_pos (by decide)]
    cases hm : hexPrefix k s with
    | some r => exact hex _ _ _ (htake r hm) (Or.inl rfl)
    | none => exact hex _ _ _ rfl (Or.inr rfl)
  · rw [if_neg (by simp [h1]), if_pos (by rcases h2 with h | h <;> simp [h1, h]), hreg]
    rfl

end Scn
