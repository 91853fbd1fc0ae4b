import Verif.Lemmas.Float4
/-
C39: the float reader consumes exactly a floating-point numeral.
-/
namespace Scn
open Spec

/-- Whatever is read is a number: a sign or none, and then the longest text that is a number in the presentation, and nothing
    else; and the value is the value of that text. On every source, with every conversion as in the standards. -/
theorem C39_reads_longest_number {V : Type} {cv : FloatConv V} {round : List Nat → Rounded V} (hcv : ConvOk cv round) (e : Enc) (k : Src) (seg : Bool) (ty : Pres)
    (src rest : List Nat) (v : V) (hb : e = .utf8 → ∀ u ∈ src, u < 256) (h : readFloatAs cv e k seg .classic ty src = .ok (v, rest)) :
    ∃ sg t v0, src = sg ++ t ++ rest ∧ SignText sg ∧ Longest (FloatText ty) (t ++ rest) t ∧ FloatMeans cv round ty t (.finite v0) ∧
      v = cv.copysign (decide (sg = [45])) v0 := by
  unfold readFloatAs at h
  cases ho : floatOptions ty with
  | none => rw [ho] at h; cases h
  | some o =>
    rw [ho] at h
    dsimp only at h
    cases hp : parseNumericSign src with
    | none => rw [readFloat_eval, hp] at h; cases h
    | some r =>
      obtain ⟨s, sign⟩ := r
      rw [readFloat_eval' cv e k seg o hp] at h
      obtain ⟨sg, rfl, h1, h2, h3⟩ := sign_split hp
      rcases eval_core hcv e k seg ho (s := s) (fun he u hu => hb he u (by simp [hu])) with h4 | ⟨p, r, h4, h5, h6⟩
      · rw [h4] at h; cases h
      · rw [h6] at h
        cases r with
        | tooLarge => cases h
        | tooSmall => cases h
        | finite v0 =>
          simp only [roundOutcome, Res.ok.injEq, Prod.mk.injEq] at h
          obtain ⟨hv, hr⟩ := h
          have hs := drop_of_prefix h4.2.1
          have hrest : s.drop p.length = rest := by
            rw [← hr, ← h2, Nat.add_comm, ← List.drop_drop, List.drop_left]
          rw [hrest] at hs
          refine ⟨sg, p, v0, by rw [List.append_assoc, hs], h1, by rw [hs]; exact h4, h5, ?_⟩
          rw [← hv]
          congr 1
          exact decide_eq_decide.2 h3

example : ∃ v rest, readFloatAs exConv .utf8 ⟨true, true⟩ false .classic .none [45, 105, 110, 102, 111] = .ok (v, rest) :=
  ⟨[45, 105], [111], rfl⟩

/-- Numbers are read, with any sign, whatever follows, on every source, as the value that the text has; and if that is too large
    or too small, the error says so and has the right sign.

    Not covered (see `C39_violated`): numbers that do not begin with a decimal digit (`.5`, and `a` in the hexadecimal
    presentation), `nan` before a parenthesis that is not closed, and, on sources that are not contiguous, `0x` before what is
    not a hexadecimal digit. -/
theorem C39_roundtrip_partial {V : Type} {cv : FloatConv V} {round : List Nat → Rounded V} (hcv : ConvOk cv round) (e : Enc) (k : Src) (seg : Bool) (ty : Pres)
    (hty : FloatPres ty) (sg t rest : List Nat) (hsg : SignText sg) (hb : e = .utf8 → ∀ u ∈ rest, u < 256) (hL : Longest (FloatText ty) (t ++ rest) t)
    (r : Rounded V) (hr : FloatMeans cv round ty t r)
    (ht : (∃ c cs, t = c :: cs ∧ IsDigit 10 c) ∨ InfText t ∨ (NanText t ∧ (t.length = 3 → ∀ cs, rest ≠ 40 :: cs)))
    (hsrc : k.contiguous = true ∨ (ty ≠ .none ∧ ty ≠ .floatHex) ∨ ¬ BarePrefix (t ++ rest)) :
    readFloatAs cv e k seg .classic ty (sg ++ t ++ rest) = scanned cv sg rest r := by
  obtain ⟨o, ho⟩ : ∃ o, floatOptions ty = some o := by
    rcases hty with rfl | rfl | rfl | rfl | rfl <;> exact ⟨_, rfl⟩
  obtain ⟨c, cs, hc, hc'⟩ := floatText_head hL.1
  have hbt : ∀ u ∈ t, u < 256 := by
    rcases hL.1 with h | h | h
    · have : ∀ w : List Nat, t.map lower = w → (∀ x ∈ w, x < 123) → ∀ u ∈ t, u < 256 := by
        rintro w rfl hw u hu
        have := hw (lower u) (List.mem_map_of_mem hu)
        unfold lower at this
        split at this <;> omega
      rcases h with h | h
      · exact this _ h (by decide)
      · exact this _ h (by decide)
    · obtain ⟨a, p, rfl, ha, hp⟩ := h
      intro u hu
      rcases List.mem_append.1 hu with hu | hu
      · have : lower u ∈ [110, 97, 110] := by rw [← ha]; exact List.mem_map_of_mem hu
        unfold lower at this
        simp at this
        split at this <;> omega
      · rcases hp with rfl | ⟨q, rfl, hq⟩
        · cases hu
        · simp at hu
          rcases hu with rfl | hu | rfl
          · decide
          · have := hq u hu
            unfold IsWordChar at this
            omega
          · decide
    · have hpl : ∀ u ∈ t, PlainUnit u := by
        rcases hty with rfl | rfl | rfl | rfl | rfl
        · exact plain_strtod h
        · rcases h with h | h
          · exact plain_strtod (Or.inr h)
          · exact plain_hex h
        · exact plain_dec h
        · exact plain_dec h
        · exact plain_dec h
      intro u hu
      have := (hpl u hu).1
      omega
  have hev := eval_complete hcv e k seg ho (t := t) (rest := rest) (fun he u hu => by
    rcases List.mem_append.1 hu with hu | hu
    · exact hbt u hu
    · exact hb he u hu) hL hr ht hsrc
  obtain ⟨sign, h1, h2, h3⟩ := sign_join (s := t ++ rest) hsg (c := c) (cs := cs ++ rest) (by rw [hc]; rfl) hc'
  unfold readFloatAs
  rw [ho, List.append_assoc]
  dsimp only
  rw [readFloat_eval' cv e k seg o h1, hev]
  cases r with
  | finite v =>
    simp only [roundOutcome, scanned]
    rw [← h2, Nat.add_comm, ← List.drop_drop, List.drop_left, List.drop_left]
    congr 3
    exact decide_eq_decide.2 h3
  | tooLarge =>
    simp only [roundOutcome, scanned, signedErr]
    by_cases h : sign = some .minus
    · rw [if_pos h, if_pos (h3.1 h)]
    · rw [if_neg h, if_neg (fun h' => h (h3.2 h'))]
  | tooSmall =>
    simp only [roundOutcome, scanned, signedErr]
    by_cases h : sign = some .minus
    · rw [if_pos h, if_pos (h3.1 h)]
    · rw [if_neg h, if_neg (fun h' => h (h3.2 h'))]

example : readFloatAs exConv .utf8 ⟨true, false⟩ true .classic .none [45, 49, 101, 57, 57, 57] = .err .valueNegativeOverflow :=
  C39_roundtrip_partial exConv_ok .utf8 ⟨true, false⟩ true .none (Or.inl rfl) [45] [49, 101, 57, 57, 57] [] (Or.inr (Or.inr rfl)) (by simp)
    (by rw [List.append_nil]; exact longest_self (Or.inr (Or.inr (Or.inl ex_1e999)))) .tooLarge
    (Or.inr (Or.inr ⟨Or.inl ex_1e999, _, Or.inl ⟨rfl, fun h => by cases h⟩, rfl⟩)) (Or.inl ⟨49, _, rfl, by decide⟩) (Or.inr (Or.inr (ex_not_bare (by decide))))

/-- If no number is there, with the sign or without, nothing is read, and the error is `invalid_scanned_value`. -/
theorem C39_rejects_other_text {V : Type} {cv : FloatConv V} {round : List Nat → Rounded V} (hcv : ConvOk cv round) (e : Enc) (k : Src) (seg : Bool) (ty : Pres)
    (hty : FloatPres ty) (src : List Nat) (hne : src ≠ []) (hb : e = .utf8 → ∀ u ∈ src, u < 256) (h : ∀ sg t rest, SignText sg → FloatText ty t → src ≠ sg ++ t ++ rest) :
    readFloatAs cv e k seg .classic ty src = .err .invalidScannedValue := by
  obtain ⟨o, ho⟩ : ∃ o, floatOptions ty = some o := by
    rcases hty with rfl | rfl | rfl | rfl | rfl <;> exact ⟨_, rfl⟩
  unfold readFloatAs
  rw [ho]
  dsimp only
  cases hp : parseNumericSign src with
  | none =>
    cases src with
    | nil => exact absurd rfl hne
    | cons c cs =>
      unfold parseNumericSign at hp
      dsimp only at hp
      split at hp
      · cases hp
      · split at hp <;> cases hp
  | some r =>
    obtain ⟨s, sign⟩ := r
    rw [readFloat_eval' cv e k seg o hp]
    obtain ⟨sg, rfl, h1, h2, h3⟩ := sign_split hp
    rcases eval_core hcv e k seg ho (s := s) (fun he u hu => hb he u (by simp [hu])) with h4 | ⟨p, r, h4, h5, h6⟩
    · rw [h4]; rfl
    · obtain ⟨v, hv⟩ := h4.2.1
      exact absurd (by rw [List.append_assoc, hv]) (h sg p v h1 h4.1)

example : readFloatAs exConv .utf8 ⟨true, true⟩ true .classic .none [45, 120] = .err .invalidScannedValue := by
  refine C39_rejects_other_text exConv_ok .utf8 ⟨true, true⟩ true .none (Or.inl rfl) [45, 120] (by decide) (by decide) ?_
  intro sg t rest hsg ht
  have hd : ∀ c cs, t = c :: cs → c ≠ 120 ∧ c ≠ 45 := by
    rintro c cs rfl
    rcases ht with h | h | h
    · obtain ⟨c', cs', h', hc'⟩ := inf_head h
      cases h'
      omega
    · obtain ⟨c', cs', h', hc'⟩ := nan_head h
      cases h'
      omega
    · obtain ⟨c', cs', h', hc'⟩ := number_head h
      cases h'
      rcases hc' with hc' | rfl
      · constructor <;> (rintro rfl; revert hc'; decide)
      · decide
  obtain ⟨c, cs, rfl, _⟩ := floatText_head ht
  have := hd c cs rfl
  intro h
  rcases hsg with rfl | rfl | rfl
  · exact this.2 (List.cons.inj h).1.symm
  · cases h
  · exact this.1 (List.cons.inj (List.cons.inj h).2).1.symm

/-- The kind of source makes no difference: contiguous or not, in one segment or more, narrow or wide, the same is read and the
    same errors are given.

    Not covered (see `C39_violated`): `0x` before what is not a hexadecimal digit, where hexadecimal numbers are allowed. -/
theorem C39_same_on_all_sources_partial {V : Type} {cv : FloatConv V} {round : List Nat → Rounded V} (hcv : ConvOk cv round) (e e' : Enc) (k k' : Src) (seg seg' : Bool)
    (ty : Pres) (src : List Nat) (hb : e = .utf8 ∨ e' = .utf8 → ∀ u ∈ src, u < 256)
    (h : (ty = .none ∨ ty = .floatHex) → ∀ sg s, SignText sg → src = sg ++ s → ¬ BarePrefix s) :
    readFloatAs cv e k seg .classic ty src = readFloatAs cv e' k' seg' .classic ty src := by
  unfold readFloatAs
  cases ho : floatOptions ty with
  | none => rfl
  | some o =>
    dsimp only
    cases hp : parseNumericSign src with
    | none => rw [readFloat_eval, readFloat_eval, hp]
    | some r =>
      obtain ⟨s, sign⟩ := r
      obtain ⟨sg, hs, h1, h2, h3⟩ := sign_split hp
      rw [readFloat_eval' cv e k seg o hp, readFloat_eval' cv e' k' seg' o hp,
        eval_source hcv e e' k k' seg seg' ho (s := s) (fun he u hu => hb he u (by simp [hs, hu])) (fun hty => h hty sg s h1 hs)]

example : readFloatAs exConv .utf8 ⟨true, true⟩ false .classic .none [49, 46, 53, 32] = readFloatAs exConv .utf8 ⟨true, false⟩ true .classic .none [49, 46, 53, 32] := by
  refine C39_same_on_all_sources_partial exConv_ok .utf8 .utf8 _ _ _ _ .none _ (fun _ => by decide) ?_
  rintro - sg s hsg h
  rcases hsg with rfl | rfl | rfl
  · rw [List.nil_append] at h
    rw [← h]
    exact ex_not_bare (by decide)
  · cases h
  · cases h

/-- Numbers that are not read: `.5`, in all presentations that have it; `a` in the hexadecimal one; `nan` before a parenthesis
    that is not closed; and `0`, before `x` and something that is no digit, on sources that are not contiguous, while it is
    read from the others. -/
theorem C39_violated :
    (Longest (FloatText .none) [46, 53] [46, 53] ∧
      ∀ (V : Type) (cv : FloatConv V) e k seg, readFloatAs cv e k seg .classic .none [46, 53] = .err .invalidScannedValue) ∧
    (Longest (FloatText .floatHex) [97] [97] ∧
      ∀ (V : Type) (cv : FloatConv V) e k seg, readFloatAs cv e k seg .classic .floatHex [97] = .err .invalidScannedValue) ∧
    (Longest (FloatText .none) [110, 97, 110, 40] [110, 97, 110] ∧
      ∀ (V : Type) (cv : FloatConv V) e k seg, readFloatAs cv e k seg .classic .none [110, 97, 110, 40] = .err .invalidScannedValue) ∧
    (Longest (FloatText .none) [48, 120, 103] [48] ∧
      ∀ (V : Type) (cv : FloatConv V) (round : List Nat → Rounded V), ConvOk cv round → ∀ v, round [48] = .finite v → ∀ e n seg,
        readFloatAs cv e ⟨n, true⟩ seg .classic .none [48, 120, 103] = .ok (cv.copysign false v, [120, 103]) ∧
        readFloatAs cv e ⟨n, false⟩ seg .classic .none [48, 120, 103] = .err .invalidScannedValue) := by
  have hL : Longest (FloatText .none) [48, 120, 103] [48] := by
    refine ⟨Or.inr (Or.inr (Or.inl (dec_digit (by decide)))), ⟨[120, 103], rfl⟩, ?_⟩
    rintro q (h | h | h) hq
    · obtain ⟨c, cs, rfl, hc⟩ := inf_head h
      rw [List.cons_prefix_cons] at hq
      omega
    · obtain ⟨c, cs, rfl, hc⟩ := nan_head h
      rw [List.cons_prefix_cons] at hq
      omega
    · rcases h with h | ⟨x, t, rfl, hx, ht⟩
      · rcases noX_prefix (Or.inl rfl) (noX_dec h) hq with rfl | rfl <;> simp
      · rw [List.cons_prefix_cons, List.cons_prefix_cons] at hq
        obtain ⟨c, cs, rfl, hc⟩ := number_head (ty := .floatHex) (Or.inr ht)
        have := List.cons_prefix_cons.1 hq.2.2
        obtain ⟨rfl, _⟩ := this
        rcases hc with hc | hc <;> exact absurd hc (by decide)
  refine ⟨⟨longest_self (Or.inr (Or.inr (Or.inl ⟨[46, 53], [], rfl, ⟨[], [46, 53], rfl, by simp, Or.inr ⟨[53], rfl, by decide⟩, Or.inr (by decide)⟩, Or.inl ⟨rfl, rfl⟩⟩))), ?_⟩,
    ⟨longest_self (Or.inr (Or.inr (Or.inr (hex_digit (by decide))))), ?_⟩, ⟨⟨Or.inr (Or.inl ⟨[110, 97, 110], [], rfl, rfl, Or.inl rfl⟩), ⟨[40], rfl⟩, ?_⟩, ?_⟩, hL, ?_⟩
  · rintro V cv e ⟨n, c⟩ seg
    cases n <;> cases c <;> rfl
  · rintro V cv e ⟨n, c⟩ seg
    cases n <;> cases c <;> rfl
  · intro q hq hp
    have hlen : q.length ≤ 4 := hp.length_le
    rcases Nat.lt_or_ge q.length 4 with h | h
    · show q.length ≤ 3; omega
    · exfalso
      have hq4 : q = [110, 97, 110, 40] := prefix_eq_of_length hp (List.prefix_refl _) (by show q.length = 4; omega)
      subst hq4
      rcases hq with h | ⟨a, p, h1, h2, h3⟩ | h
      · obtain ⟨c, cs, h', hc'⟩ := inf_head h
        cases h'
        omega
      · rcases h3 with rfl | ⟨q, rfl, _⟩
        · rw [List.append_nil] at h1
          rw [← h1] at h2
          cases h2
        · have : 41 ∈ [110, 97, 110, 40] := by rw [h1]; simp
          exact absurd this (by decide)
      · have := not_number_of_letter h (List.prefix_refl _) rfl
        omega
  · rintro V cv e ⟨n, c⟩ seg
    cases n <;> cases c <;> rfl
  · intro V cv round hcv v hv e n seg
    constructor
    · have := C39_roundtrip_partial hcv e ⟨n, true⟩ seg .none (Or.inl rfl) [] [48] [120, 103] (Or.inl rfl) (by intro _; decide) hL (round [48])
        (Or.inr (Or.inr ⟨Or.inl (dec_digit (by decide)), [48], Or.inl ⟨rfl, fun h => by cases h⟩, rfl⟩)) (Or.inl ⟨48, [], rfl, by decide⟩) (Or.inl rfl)
      rw [hv] at this
      exact this
    · cases n <;> rfl

end Scn
