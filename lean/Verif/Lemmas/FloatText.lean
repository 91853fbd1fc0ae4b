import Verif.Lemmas.Float4
import Verif.Lemmas.Literal
import Verif.Lemmas.Records
import Verif.Lemmas.Chrono11
/-
A floating-point number is read from the ASCII characters at the beginning of a text alone, so that it is the same in all
encodings.
-/
namespace Scn
open Spec

/-- Two texts with the same ASCII characters at the beginning; both end there, or other units follow in both. -/
def SameAscii (s t : List Nat) : Prop :=
  ∃ a r r', s = a ++ r ∧ t = a ++ r' ∧ (∀ c ∈ a, c < 128) ∧ (r = [] ↔ r' = []) ∧ (∀ c cs, r = c :: cs → 128 ≤ c) ∧ ∀ c cs, r' = c :: cs → 128 ≤ c

theorem SameAscii.symm {s t : List Nat} (h : SameAscii s t) : SameAscii t s := by
  obtain ⟨a, r, r', h1, h2, h3, h4, h5, h6⟩ := h
  exact ⟨a, r', r, h2, h1, h3, h4.symm, h6, h5⟩

theorem SameAscii.cons {s t : List Nat} (h : SameAscii s t) {c : Nat} {cs : List Nat} (hs : s = c :: cs) :
    (c < 128 ∧ ∃ ds, t = c :: ds ∧ SameAscii cs ds) ∨ (128 ≤ c ∧ ∃ d ds, t = d :: ds ∧ 128 ≤ d) := by
  obtain ⟨a, r, r', rfl, rfl, h3, h4, h5, h6⟩ := h
  cases a with
  | nil =>
    right
    refine ⟨h5 c cs hs, ?_⟩
    cases r' with
    | nil => rw [h4.2 rfl] at hs; cases hs
    | cons d ds => exact ⟨d, ds, rfl, h6 d ds rfl⟩
  | cons x a =>
    left
    rw [List.cons_append] at hs
    cases hs
    exact ⟨h3 c (by simp), a ++ r', rfl, a, r, r', rfl, rfl, fun c hc => h3 c (by simp [hc]), h4, h5, h6⟩

theorem SameAscii.nil {t : List Nat} (h : SameAscii [] t) : t = [] := by
  obtain ⟨a, r, r', h1, rfl, h3, h4, h5, h6⟩ := h
  obtain ⟨rfl, rfl⟩ := List.append_eq_nil_iff.1 h1.symm
  rw [h4.1 rfl]; rfl

/-- What is ASCII at the beginning of one text is at the beginning of the other. -/
theorem SameAscii.split {s t : List Nat} (h : SameAscii s t) {q u : List Nat} (hs : s = q ++ u) (hq : ∀ c ∈ q, c < 128) :
    ∃ v, t = q ++ v ∧ SameAscii u v := by
  induction q generalizing s t with
  | nil => exact ⟨t, rfl, by rw [← show s = u from hs]; exact h⟩
  | cons c q ih =>
    rcases h.cons hs with ⟨_, ds, rfl, h1⟩ | ⟨h1, _⟩
    · obtain ⟨v, rfl, h2⟩ := ih h1 rfl (fun x hx => hq x (by simp [hx]))
      exact ⟨v, rfl, h2⟩
    · have := hq c (by simp); omega

theorem SameAscii.prefix {s t : List Nat} (h : SameAscii s t) {q : List Nat} (hq : ∀ c ∈ q, c < 128) (hp : q <+: s) : q <+: t := by
  obtain ⟨u, rfl⟩ := hp
  obtain ⟨v, rfl, _⟩ := h.split rfl hq
  exact ⟨v, rfl⟩

theorem SameAscii.longest {s t : List Nat} (h : SameAscii s t) {P : List Nat → Prop} (hP : ∀ q, P q → ∀ c ∈ q, c < 128) {p : List Nat}
    (hL : Longest P s p) : Longest P t p :=
  ⟨hL.1, h.prefix (hP p hL.1) hL.2.1, fun q h1 h2 => hL.2.2 q h1 (h.symm.prefix (hP q h1) h2)⟩

theorem SameAscii.encodes (e : Enc) {cps : List Nat} (h : ∀ c ∈ cps, IsScalar c) : SameAscii (encodes e cps) cps := by
  induction cps with
  | nil => exact ⟨[], [], [], rfl, rfl, by simp, Iff.rfl, by simp, by simp⟩
  | cons c cps ih =>
    by_cases hc : c < 128
    · obtain ⟨a, r, r', h1, h2, h3, h4, h5, h6⟩ := ih (fun x hx => h x (by simp [hx]))
      refine ⟨c :: a, r, r', ?_, ?_, ?_, h4, h5, h6⟩
      · rw [encodes_cons, encode_ascii e c hc, h1]; rfl
      · rw [h2]; rfl
      · intro x hx
        rcases List.mem_cons.1 hx with rfl | hx
        · exact hc
        · exact h3 x hx
    · refine ⟨[], Spec.encodes e (c :: cps), c :: cps, rfl, rfl, by simp, ?_, ?_, ?_⟩
      · obtain ⟨d, ds, hd⟩ := encode_cons e c
        simp [encodes_cons, hd]
      · intro d ds hd
        rw [encodes_cons] at hd
        obtain ⟨d', ds', hd'⟩ := encode_cons e c
        rw [hd', List.cons_append] at hd
        cases hd
        by_cases hl : d < 128
        · have := encode_mem_ascii e c d (h c (by simp)) (by rw [hd']; simp) hl
          omega
        · omega
      · intro d ds hd
        cases hd; omega

theorem encodes_prefix_iff (e : Enc) : ∀ {w cps : List Nat}, (∀ c ∈ w, IsScalar c) → (∀ c ∈ cps, IsScalar c) →
    (encodes e w <+: encodes e cps ↔ w <+: cps)
  | [], cps, _, _ => by simp [encodes_nil]
  | c :: w, [], hw, _ => by
    obtain ⟨d, ds, hd⟩ := encode_cons e c
    rw [encodes_cons, hd, encodes_nil]
    simp
  | c :: w, d :: cps, hw, hc => by
    have ih := encodes_prefix_iff e (w := w) (cps := cps) (fun x hx => hw x (by simp [hx])) (fun x hx => hc x (by simp [hx]))
    rw [encodes_cons, encodes_cons, List.cons_prefix_cons]
    constructor
    · intro h
      have h1 : encode e c <+: encode e d ++ encodes e cps := (List.prefix_append _ _).trans h
      have h2 := (encode_prefix_iff e c d (hw c (by simp)) (hc d (by simp)) _).1 h1
      subst h2
      exact ⟨rfl, ih.1 ((List.prefix_append_right_inj _).1 h)⟩
    · rintro ⟨rfl, h⟩
      exact (List.prefix_append_right_inj _).2 (ih.2 h)

theorem ascii_number {ty : Pres} {q : List Nat} (h : NumberText ty q) : ∀ c ∈ q, c < 128 := by
  have dec : ∀ {f s}, DecText f s q → ∀ c ∈ q, c < 128 := fun h c hc => (plain_dec h c hc).1
  cases ty <;> try exact h.elim
  · rcases h with h | h
    · exact dec h
    · exact fun c hc => (plain_strtod (Or.inr h) c hc).1
  all_goals first
    | exact dec h
    | (rcases h with h | h
       · exact fun c hc => (plain_strtod (Or.inr h) c hc).1
       · exact fun c hc => (plain_hex h c hc).1)

theorem lower_ascii {a w : List Nat} (h : a.map lower = w) (hw : ∀ c ∈ w, 97 ≤ c ∧ c ≤ 122) : ∀ c ∈ a, c < 128 := by
  intro c hc
  have := hw (lower c) (by rw [← h]; exact List.mem_map_of_mem hc)
  unfold lower at this
  split at this <;> omega

/-- A word is found in both texts or in none. -/
theorem readMatching_same (k k' : Src) {s t : List Nat} (h : SameAscii s t) {w : List Nat} (hw : ∀ c ∈ w, 97 ≤ c ∧ c ≤ 122) :
    (readMatchingNocase k s w = none ∧ readMatchingNocase k' t w = none) ∨
      ∃ r r', readMatchingNocase k s w = some r ∧ readMatchingNocase k' t w = some r' ∧ SameAscii r r' := by
  cases h1 : readMatchingNocase k s w with
  | none =>
    left
    refine ⟨rfl, ?_⟩
    cases h2 : readMatchingNocase k' t w with
    | none => rfl
    | some r =>
      obtain ⟨a, rfl, ha⟩ := (readMatching_word k' t hw r).1 h2
      obtain ⟨v, rfl, _⟩ := h.symm.split rfl (lower_ascii ha hw)
      rw [(readMatching_word k _ hw v).2 ⟨a, rfl, ha⟩] at h1
      cases h1
  | some r =>
    right
    obtain ⟨a, rfl, ha⟩ := (readMatching_word k s hw r).1 h1
    obtain ⟨v, rfl, hv⟩ := h.split rfl (lower_ascii ha hw)
    exact ⟨r, v, rfl, (readMatching_word k' _ hw v).2 ⟨a, rfl, ha⟩, hv⟩

theorem readInf_same (k k' : Src) {s t : List Nat} (h : SameAscii s t) : readInf k s = readInf k' t := by
  unfold readInf
  rcases readMatching_same k k' h wI with ⟨h1, h2⟩ | ⟨r, r', h1, h2, h3⟩
  · rw [h1, h2]; rfl
  · rw [h1, h2]
    simp only [Option.map_some]
    rcases readMatching_same k k' h3 wI2 with ⟨h4, h5⟩ | ⟨_, _, h4, h5, _⟩
    · rw [h4, h5]
    · rw [h4, h5]; rfl

theorem takeWhile_same {p : Nat → Bool} (hp : ∀ c, p c = true → c < 128) : ∀ {s t : List Nat}, SameAscii s t →
    s.takeWhile p = t.takeWhile p ∧ SameAscii (s.drop (s.takeWhile p).length) (t.drop (t.takeWhile p).length)
  | [], t, h => by have := h.nil; subst this; exact ⟨rfl, h⟩
  | c :: s, t, h => by
    rcases h.cons rfl with ⟨h1, ds, rfl, h2⟩ | ⟨h1, d, ds, rfl, h2⟩
    · cases hc : p c with
      | true =>
        rw [List.takeWhile_cons_of_pos hc, List.takeWhile_cons_of_pos hc]
        obtain ⟨h3, h4⟩ := takeWhile_same hp h2
        exact ⟨by rw [h3], h4⟩
      | false =>
        rw [List.takeWhile_cons_of_neg (by simp [hc]), List.takeWhile_cons_of_neg (by simp [hc])]
        exact ⟨rfl, h⟩
    · rw [List.takeWhile_cons_of_neg (fun hc => by have := hp c hc; omega), List.takeWhile_cons_of_neg (fun hc => by have := hp d hc; omega)]
      exact ⟨rfl, h⟩

theorem readNan_same (k k' : Src) {s t : List Nat} (h : SameAscii s t) : readNan k s = readNan k' t := by
  unfold readNan
  rcases readMatching_same k k' h wN with ⟨h1, h2⟩ | ⟨r, r', h1, h2, h3⟩
  · rw [h1, h2]
  · rw [h1, h2]
    simp only [Option.map_some, Option.some.injEq]
    cases r with
    | nil => rw [h3.nil]
    | cons c r =>
      rcases h3.cons rfl with ⟨hc, ds, rfl, h4⟩ | ⟨hc, d, ds, rfl, hd⟩
      · dsimp only
        by_cases h40 : c = 40
        · rw [if_pos h40, if_pos h40]
          obtain ⟨h5, h6⟩ := takeWhile_same (p := isPayloadChar) (fun c hc => by
            have := (payload_iff c).1 hc
            unfold IsWordChar at this; omega) h4
          rw [h5] at h6 ⊢
          generalize r.drop (ds.takeWhile isPayloadChar).length = x at h6 ⊢
          generalize ds.drop (ds.takeWhile isPayloadChar).length = y at h6 ⊢
          cases x with
          | nil => rw [h6.nil]
          | cons c x =>
            rcases h6.cons rfl with ⟨hc, ds, rfl, h7⟩ | ⟨hc, d, ds, rfl, hd⟩
            · by_cases h41 : c = 41
              · subst h41; rfl
              · split
                · rename_i heq; exact absurd (List.cons.inj heq).1 h41
                · split
                  · rename_i heq; exact absurd (List.cons.inj heq).1 h41
                  · rfl
            · split
              · rename_i heq; have := (List.cons.inj heq).1; omega
              · split
                · rename_i heq; have := (List.cons.inj heq).1; omega
                · rfl
        · rw [if_neg h40, if_neg h40]
      · dsimp only
        rw [if_neg (by omega), if_neg (by omega)]

theorem bare_same {s t : List Nat} (h : SameAscii s t) (hb : BarePrefix s) : BarePrefix t := by
  obtain ⟨x, r, hs, hx, hr⟩ := hb
  have : s = [48, x] ++ r := hs
  obtain ⟨v, rfl, hv⟩ := h.split this (by
    intro c hc
    rcases List.mem_cons.1 hc with rfl | hc
    · decide
    · rw [List.mem_singleton] at hc; omega)
  refine ⟨x, v, rfl, hx, ?_⟩
  rintro d ds rfl hd
  rcases hv.symm.cons rfl with ⟨_, es, rfl, _⟩ | ⟨h1, _⟩
  · exact hr d es rfl hd
  · have := (plainUnit_digit (by decide) hd).1
    omega

/-- On sources that are not contiguous, a prefix without digits is not read. -/
theorem bare_eval {V : Type} (cv : FloatConv V) (e : Enc) (k : Src) (hk : k.contiguous = false) (seg : Bool) {ty : Pres} {o : FloatOpts}
    (ho : floatOptions ty = some o) (hty : ty = .none ∨ ty = .floatHex) {s : List Nat} (h : BarePrefix s) :
    evalFloat cv e k seg o s = .err .invalidScannedValue := by
  obtain ⟨x, r, rfl, hx, hr⟩ := h
  have hm : hexPrefix k (48 :: x :: r) = some r := by
    unfold hexPrefix
    rw [readMatch2 k _ 120 (by decide)]
    exact if_pos ⟨Or.inl rfl, hx⟩
  unfold evalFloat floatBody
  rw [readInf_digit (by decide), readNan_digit (by decide)]
  dsimp only
  rw [hm]
  have hf : floatHex k .classic .hexWith [48, x] r = .err .invalidScannedValue := by
    rw [floatHex_other hk, hexfloat_none hr]; rfl
  rcases hty with rfl | rfl
  · cases ho
    show (floatHex k .classic .hexWith [48, x] r).bind _ = _
    rw [hf]; rfl
  · cases ho
    show (floatHex k .classic .hexWith [48, x] r).bind _ = _
    rw [hf]; rfl

/-- What is read depends on the ASCII characters at the beginning alone. -/
theorem eval_same {V : Type} {cv : FloatConv V} {round : List Nat → Rounded V} (hcv : ConvOk cv round) (e e' : Enc) (k k' : Src)
    (hk : k.contiguous = k'.contiguous) (seg seg' : Bool) {ty : Pres} {o : FloatOpts}
    (ho : floatOptions ty = some o) {s t : List Nat} (hst : SameAscii s t) (hb : e = .utf8 → ∀ u ∈ s, u < 256) (hb' : e' = .utf8 → ∀ u ∈ t, u < 256) :
    evalFloat cv e k seg o s = evalFloat cv e' k' seg' o t := by
  cases hi : readInf k s with
  | some kd =>
    have hi' := hi
    rw [readInf_same k k' hst] at hi'
    obtain ⟨t, _, _, h3⟩ := readInf_some hi ty
    rcases h3 with ⟨rfl, _⟩ | ⟨rfl, _⟩
    · rw [(eval_inf cv e k seg o hi).1 rfl, (eval_inf cv e' k' seg' o hi').1 rfl]
    · rw [(eval_inf cv e k seg o hi).2 rfl, (eval_inf cv e' k' seg' o hi').2 rfl]
  | none =>
    have hi' := hi
    rw [readInf_same k k' hst] at hi'
    cases hn : readNan k s with
    | some x =>
      have hn' := hn
      rw [readNan_same k k' hst] at hn'
      have he := eval_nan cv e k seg o hi hn
      have he' := eval_nan cv e' k' seg' o hi' hn'
      rcases readNan_cases hn with ⟨pl, rfl⟩ | rfl
      · cases pl with
        | none => rw [he.2.1 rfl, he'.2.1 rfl]
        | some p => rw [he.2.2 p rfl, he'.2.2 p rfl]
      · rw [he.1 rfl, he'.1 rfl]
    | none =>
      have hn' := hn
      rw [readNan_same k k' hst] at hn'
      by_cases hd : ∃ c cs, s = c :: cs ∧ IsDigit 10 c
      · obtain ⟨c, cs, rfl, hc⟩ := hd
        have hcl := (plainUnit_digit (by decide) hc).1
        obtain ⟨ds, rfl⟩ : ∃ ds, t = c :: ds := by
          rcases hst.cons rfl with ⟨_, ds, rfl, _⟩ | ⟨h, _⟩
          · exact ⟨ds, rfl⟩
          · omega
        have h1 := digit_core hcv e k seg ho hc hb
        have h2 := digit_core hcv e' k' seg' ho hc hb'
        have hN : ∀ q, NumberText ty q → ∀ c ∈ q, c < 128 := fun q hq => ascii_number hq
        rcases h1 with ⟨h1, h1' | h1'⟩ | ⟨p, t, h1, h1', h1''⟩
        · rcases h2 with ⟨h2, _⟩ | ⟨p', t', h2, _, _⟩
          · rw [h1, h2]
          · exact absurd (hst.symm.prefix (hN p' h2.1) h2.2.1) (h1' p' h2.1)
        · rw [h1, bare_eval cv e' k' (hk ▸ h1'.1) seg' ho h1'.2.1 (bare_same hst h1'.2.2)]
        · rcases h2 with ⟨h2, h2' | h2'⟩ | ⟨p', t', h2, h2', h2''⟩
          · exact absurd (hst.prefix (hN p h1.1) h1.2.1) (h2' p h1.1)
          · rw [h2, bare_eval cv e k (hk.trans h2'.1) seg ho h2'.2.1 (bare_same hst.symm h2'.2.2)]
          · have := longest_unique (hst.longest hN h1) h2
            subst this
            have := means_unique h1' h2'
            subst this
            rw [h1'', h2'']
      · have hd' : ∀ c cs, t = c :: cs → ¬ IsDigit 10 c := by
          intro c cs h h'
          have hcl := (plainUnit_digit (by decide) h').1
          rcases hst.symm.cons h with ⟨_, ds, h2, _⟩ | ⟨h2, _⟩
          · exact hd ⟨c, ds, h2, h'⟩
          · omega
        rw [other_core cv e k seg ho (fun c cs h h' => hd ⟨c, cs, h, h'⟩) hi hn, other_core cv e' k' seg' ho hd' hi' hn']

theorem eval_read {V : Type} {cv : FloatConv V} {round : List Nat → Rounded V} (hcv : ConvOk cv round) (e : Enc) (k : Src) (seg : Bool) {ty : Pres} {o : FloatOpts}
    (ho : floatOptions ty = some o) {s : List Nat} (hb : e = .utf8 → ∀ u ∈ s, u < 256) {v : V} {n : Nat} (h : evalFloat cv e k seg o s = .ok (v, n)) :
    ∃ p, p <+: s ∧ p.length = n ∧ ∀ c ∈ p, c < 128 := by
  rcases eval_core hcv e k seg ho hb with h1 | ⟨p, r, h1, h2, h3⟩
  · rw [h1] at h; cases h
  · refine ⟨p, h1.2.1, ?_, ?_⟩
    · rw [h3] at h
      cases r <;> cases h
      rfl
    · rcases h1.1 with h4 | h4 | h4
      · rcases h4 with h4 | h4
        · exact lower_ascii h4 (by decide)
        · exact lower_ascii h4 (by decide)
      · obtain ⟨a, q, rfl, ha, hq⟩ := h4
        intro c hc
        rcases List.mem_append.1 hc with hc | hc
        · exact lower_ascii ha (by decide) c hc
        · rcases hq with rfl | ⟨q, rfl, hq⟩
          · cases hc
          · rcases List.mem_cons.1 hc with rfl | hc
            · decide
            · rcases List.mem_append.1 hc with hc | hc
              · have := hq c hc
                unfold IsWordChar at this; omega
              · rw [List.mem_singleton] at hc; omega
      · exact ascii_number h4

/-- A floating-point number is read from a text as from its characters. -/
theorem readFloatAs_encodes {V : Type} {cv : FloatConv V} {round : List Nat → Rounded V} (hcv : ConvOk cv round) (e : Enc) (k k' : Src)
    (hk : k.contiguous = k'.contiguous) (seg seg' : Bool) (ty : Pres) (cps : List Nat) (h : ∀ c ∈ cps, IsScalar c) :
    readFloatAs cv e k seg .classic ty (encodes e cps) = (readFloatAs cv .utf32 k' seg' .classic ty cps).map fun r => (r.1, encodes e r.2) := by
  unfold readFloatAs
  cases ho : floatOptions ty with
  | none => rfl
  | some o =>
    dsimp only
    have hby : ∀ s, s <:+ encodes e cps → e = .utf8 → ∀ u ∈ s, u < 256 := by
      rintro s hs rfl u hu
      exact utf8s_bytes cps h u (hs.subset hu)
    cases cps with
    | nil => rfl
    | cons c cs =>
      have hcs : ∀ x ∈ cs, IsScalar x := fun x hx => h x (by simp [hx])
      by_cases hc : c = 45 ∨ c = 43
      · have hE : encodes e (c :: cs) = c :: encodes e cs := by
          rw [encodes_cons, encode_ascii e c (by omega)]; rfl
        rw [hE] at hby ⊢
        have hs := eval_same hcv e .utf32 k k' hk seg seg' ho (SameAscii.encodes e hcs) (hby _ (List.suffix_cons _ _)) (by intro h; cases h)
        obtain ⟨sign, hp⟩ : ∃ sign, ∀ t, parseNumericSign (c :: t) = some (t, some sign) := by
          rcases hc with rfl | rfl
          · exact ⟨.minus, fun _ => rfl⟩
          · exact ⟨.plus, fun _ => rfl⟩
        rw [readFloat_eval' cv e k seg o (hp _), readFloat_eval' cv .utf32 k' seg' o (hp _), hs]
        cases hv : evalFloat cv .utf32 k' seg' o cs with
        | ub => rfl
        | err x => rfl
        | ok r =>
          obtain ⟨v, n⟩ := r
          obtain ⟨p, ⟨u, rfl⟩, rfl, hp'⟩ := eval_read hcv .utf32 k' seg' ho (by intro h; cases h) hv
          simp only [Option.isSome_some, if_true, List.drop_succ_cons, List.drop_left, Res.map]
          rw [encodes_append, encodes_asciis e p hp', List.drop_left]
      · have hs := eval_same hcv e .utf32 k k' hk seg seg' ho (SameAscii.encodes e h) (hby _ (List.suffix_refl _)) (by intro h; cases h)
        have hp : ∀ d t, d ≠ 45 → d ≠ 43 → parseNumericSign (d :: t) = some (d :: t, none) := by
          intro d t h1 h2
          unfold parseNumericSign
          dsimp only
          rw [if_neg h1, if_neg h2]
        have hp1 : parseNumericSign (encodes e (c :: cs)) = some (encodes e (c :: cs), none) := by
          obtain ⟨d, ds, hd⟩ := encode_cons e c
          rw [encodes_cons, hd, List.cons_append]
          have : ∀ y, y < 128 → d = y → c = y := by
            rintro y hy rfl
            exact encode_mem_ascii e c d (h c (by simp)) (by rw [hd]; simp) hy
          exact hp d _ (fun h1 => hc (Or.inl (this 45 (by decide) h1))) (fun h1 => hc (Or.inr (this 43 (by decide) h1)))
        rw [readFloat_eval' cv e k seg o hp1, readFloat_eval' cv .utf32 k' seg' o (hp c cs (fun h => hc (Or.inl h)) (fun h => hc (Or.inr h))), hs]
        cases hv : evalFloat cv .utf32 k' seg' o (c :: cs) with
        | ub => rfl
        | err x => rfl
        | ok r =>
          obtain ⟨v, n⟩ := r
          obtain ⟨p, ⟨u, hu⟩, rfl, hp'⟩ := eval_read hcv .utf32 k' seg' ho (by intro h; cases h) hv
          simp only [Option.isSome_none, Res.map, ← hu]
          rw [encodes_append, encodes_asciis e p hp']
          simp

end Scn
