import Verif.Lemmas.Alone2
import Verif.Lemmas.FloatText
import Verif.Props.Float
/-
Floating-point numbers, on the part that was consumed.
-/
namespace Scn
open Spec
variable {V : Type}

/-- What was read, if a number was read. -/
theorem eval_shape {cv : FloatConv V} {round : List Nat → Rounded V} (hcv : ConvOk cv round) (e : Enc) (k : Src) (seg : Bool) {ty : Pres} {o : FloatOpts}
    (ho : floatOptions ty = some o) {s : List Nat} (hb : e = .utf8 → ∀ u ∈ s, u < 256) {v : V} {n : Nat} (h : evalFloat cv e k seg o s = .ok (v, n)) :
    ∃ t rest, s = t ++ rest ∧ n = t.length ∧ Longest (FloatText ty) s t ∧ FloatMeans cv round ty t (.finite v) ∧
      ((∃ c cs, t = c :: cs ∧ IsDigit 10 c) ∨ InfText t ∨ (NanText t ∧ (t.length = 3 → ∀ cs, rest ≠ 40 :: cs))) ∧
      (k.contiguous = true ∨ (ty ≠ .none ∧ ty ≠ .floatHex) ∨ ¬ BarePrefix s) := by
  have hbare : k.contiguous = true ∨ (ty ≠ .none ∧ ty ≠ .floatHex) ∨ ¬ BarePrefix s := by
    cases hk : k.contiguous with
    | true => exact Or.inl rfl
    | false =>
      right
      by_cases hty : ty = .none ∨ ty = .floatHex
      · refine Or.inr fun hbp => ?_
        rw [bare_eval cv e k hk seg ho hty hbp] at h
        cases h
      · exact Or.inl ⟨fun h => hty (Or.inl h), fun h => hty (Or.inr h)⟩
  rcases eval_core hcv e k seg ho hb with h1 | ⟨p, r, h1, h2, h3⟩
  · rw [h1] at h; cases h
  rw [h3] at h
  have hr : r = .finite v ∧ n = p.length := by
    cases r with
    | finite v' =>
      simp only [roundOutcome, Res.ok.injEq, Prod.mk.injEq] at h
      exact ⟨by rw [h.1], h.2.symm⟩
    | tooLarge => cases h
    | tooSmall => cases h
  obtain ⟨rfl, rfl⟩ := hr
  refine ⟨p, s.drop p.length, (drop_of_prefix h1.2.1).symm, rfl, h1, h2, ?_, hbare⟩
  cases hi : readInf k s with
  | some kd =>
    obtain ⟨t, g1, g2, _⟩ := readInf_some hi ty
    rw [longest_unique h1 g2]
    exact Or.inr (Or.inl g1)
  | none =>
    cases hn : readNan k s with
    | some x =>
      rcases readNan_cases hn with ⟨pl, rfl⟩ | rfl
      · obtain ⟨t, g1, g2, g3⟩ := readNan_ok hn ty
        have := longest_unique h1 g2
        subst this
        refine Or.inr (Or.inr ⟨g1, fun h3 cs hcs => ?_⟩)
        rcases g3 with ⟨rfl, _⟩ | ⟨q, _, g3⟩
        · -- the name and a parenthesis
          have hs : s = p ++ 40 :: cs := by rw [← hcs]; exact (drop_of_prefix h1.2.1).symm
          unfold readNan at hn
          cases hm : readMatchingNocase k s [110, 97, 110] with
          | none => rw [hm] at hn; cases hn
          | some r =>
            rw [hm] at hn
            obtain ⟨a, ha, ha'⟩ := (readMatching_word k s wN r).1 hm
            have hal : a.length = 3 := by have := congrArg List.length ha'; simpa using this
            have : r = 40 :: cs := by
              rw [hs] at ha
              exact (List.append_inj ha (by omega)).2.symm
            subst this
            simp only [Option.map_some, if_true, Option.some.injEq] at hn
            split at hn <;> cases hn
        · omega
      · rw [(eval_nan cv e k seg o hi hn).1 rfl] at h3
        cases h3
    | none =>
      by_cases hd : ∃ c cs, s = c :: cs ∧ IsDigit 10 c
      · obtain ⟨c, cs, rfl, hc⟩ := hd
        obtain ⟨d, ds, rfl, _⟩ := floatText_head h1.1
        obtain ⟨w, hw⟩ := h1.2.1
        obtain ⟨rfl, _⟩ := List.cons.inj hw
        exact Or.inl ⟨d, ds, rfl, hc⟩
      · rw [other_core cv e k seg ho (fun c cs h h' => hd ⟨c, cs, h, h'⟩) hi hn] at h3
        cases h3

theorem readFloatAs_alone {cv : FloatConv V} {round : List Nat → Rounded V} (hcv : ConvOk cv round) (e : Enc) (k : Src) (seg : Bool) (ty : Pres)
    {s r q : List Nat} {v : V} (hb : e = .utf8 → ∀ u ∈ s ++ q, u < 256) (hrs : r.length ≤ s.length)
    (h : readFloatAs cv e k seg .classic ty (s ++ q) = .ok (v, r ++ q)) :
    readFloatAs cv e k seg .classic ty s = .ok (v, r) ∧ r.length < s.length := by
  have h0 := h
  unfold readFloatAs at h
  cases ho : floatOptions ty with
  | none => rw [ho] at h; cases h
  | some o =>
    rw [ho] at h
    dsimp only at h
    have hty : FloatPres ty := by
      rcases floatOptions_some ho with ⟨rfl, _⟩ | ⟨rfl, _⟩ | ⟨h, _⟩
      · exact Or.inl rfl
      · exact Or.inr (Or.inl rfl)
      · exact Or.inr (Or.inr h)
    cases hp : parseNumericSign (s ++ q) with
    | none => rw [readFloat_eval, hp] at h; cases h
    | some x =>
      obtain ⟨s', sign⟩ := x
      rw [readFloat_eval' cv e k seg o hp] at h
      obtain ⟨sg, hsrc, h1, h2, h3⟩ := sign_split hp
      cases hev : evalFloat cv e k seg o s' with
      | ub => rw [hev] at h; cases h
      | err y => rw [hev] at h; cases h
      | ok y =>
        obtain ⟨v0, n⟩ := y
        rw [hev] at h
        simp only [Res.ok.injEq, Prod.mk.injEq] at h
        obtain ⟨hv, hrest⟩ := h
        have hb' : e = .utf8 → ∀ u ∈ s', u < 256 := fun he u hu => hb he u (by rw [hsrc]; simp [hu])
        obtain ⟨t, rest, rfl, rfl, g1, g2, g3, g4⟩ := eval_shape hcv e k seg ho hb' hev
        rw [hsrc, ← h2, Nat.add_comm, ← List.drop_drop, List.drop_left, List.drop_left] at hrest
        subst hrest
        have hs : s = sg ++ t ++ r := by
          have : s ++ q = (sg ++ t ++ r) ++ q := by rw [hsrc]; simp
          exact List.append_cancel_right this
        subst hs
        obtain ⟨c, cs, rfl, _⟩ := floatText_head g1.1
        refine ⟨?_, by simp; omega⟩
        have hround := C39_roundtrip_partial hcv e k seg ty hty sg (c :: cs) r h1 (fun he u hu => hb he u (by simp [hu]))
          (longest_mono g1 (List.prefix_append _ _) (by rw [← List.append_assoc]; exact List.prefix_append _ _)) (.finite v0) g2 (by
            rcases g3 with g3 | g3 | ⟨g3, g5⟩
            · exact Or.inl g3
            · exact Or.inr (Or.inl g3)
            · refine Or.inr (Or.inr ⟨g3, fun hl ds hd => g5 hl (ds ++ q) (by rw [hd]; rfl)⟩)) (by
            rcases g4 with g4 | g4 | g4
            · exact Or.inl g4
            · exact Or.inr (Or.inl g4)
            · by_cases hty' : ty = .none ∨ ty = .floatHex
              · refine Or.inr (Or.inr fun ⟨x, r1, hx1, hx2, hx3⟩ => g4 ⟨x, r1 ++ q, ?_, hx2, ?_⟩)
                · rw [← List.append_assoc, hx1]; rfl
                · intro d ds hds hd
                  cases r1 with
                  | cons d' r1 =>
                    obtain ⟨rfl, _⟩ := List.cons.inj hds
                    exact hx3 _ _ rfl hd
                  | nil =>
                    have hds : q = d :: ds := hds
                    have hph : PrefixedHex [48, x, d] := ⟨x, [d], rfl, hx2, hex_digit hd⟩
                    have hft : FloatText ty [48, x, d] := by
                      rcases hty' with rfl | rfl
                      · exact Or.inr (Or.inr (Or.inr hph))
                      · exact Or.inr (Or.inr (Or.inl hph))
                    have := g1.2.2 _ hft ⟨ds, by rw [← List.append_assoc, hx1, hds]; rfl⟩
                    have hl := congrArg List.length hx1
                    simp at this hl
                    omega
              · exact Or.inr (Or.inl ⟨fun h => hty' (Or.inl h), fun h => hty' (Or.inr h)⟩))
        rw [hround, ← hv]
        simp only [scanned, Res.ok.injEq, Prod.mk.injEq, and_true]
        congr 1
        exact decide_eq_decide.2 h3.symm

theorem float_alone {cv : FloatConv V} {round : List Nat → Rounded V} (hcv : ConvOk cv round) (e : Enc) (seg : Bool) (ty : Pres) :
    Alone e (fun l s => readFloatAs cv e (srcOf e l) seg .classic ty s) := by
  intro l _ a b q v hs hb hr
  dsimp only at hr ⊢
  have hl : (encodes e b).length ≤ (encodes e a).length := between_length ⟨b, hb, rfl⟩
  rw [encodes_append, encodes_append] at hr
  refine (readFloatAs_alone hcv e _ seg ty (fun he => ?_) hl hr).1
  rw [← encodes_append]
  exact encodes_unitsOk e hs he

theorem float_moves {cv : FloatConv V} {round : List Nat → Rounded V} (hcv : ConvOk cv round) (e : Enc) (seg : Bool) (ty : Pres) :
    Moves e (fun l s => readFloatAs cv e (srcOf e l) seg .classic ty s) := by
  intro l _ c cps v r hs _ hr
  have hk := between_length (readFloatAs_keeps (k := srcOf e) (convOk_reads hcv) (fun h => absurd rfl h) (single_ascii e (by decide)) ty l _ hs v r hr)
  refine (readFloatAs_alone (q := []) hcv e (srcOf e l) seg ty (v := v) (fun he => ?_) hk ?_).2
  · rw [List.append_nil]; exact encodes_unitsOk e hs he
  · rw [List.append_nil, List.append_nil]; exact hr

/-! ### A conversion for examples, to the bits of a number -/

/-- The values of the example: `1e999` is too large, `1e-999` is too small, and any other text has its length for a value, at most 999. -/
def exRoundNat (p : List Nat) : Rounded Nat :=
  match exRound p with
  | .finite v => .finite (min v.length 999)
  | .tooLarge => .tooLarge
  | .tooSmall => .tooSmall

open Classical in
/-- A conversion with those values; 1000 stands for infinity, 2000 for a NaN. -/
noncomputable def exConvNat : FloatConv Nat where
  useFast := true
  fast f s t := if h : ∃ p, Longest (DecText f s) t p then
      match exRoundNat h.choose with
      | .finite v => .ok v h.choose.length
      | _ => .outOfRange
    else .invalid
  strtod t := if h : ∃ p, Longest StrtodText t p then
      match exRoundNat h.choose with
      | .finite v => ⟨v, h.choose.length, false⟩
      | .tooLarge => ⟨1000, h.choose.length, true⟩
      | .tooSmall => ⟨0, h.choose.length, true⟩
    else ⟨0, 0, false⟩
  isZero v := decide (v = 0)
  isInf v := decide (v = 1000)
  inf := 1000
  nan := 2000
  copysign b v := if b then v + 10000 else v

open Classical in
theorem exConvNat_ok : ConvOk exConvNat exRoundNat where
  fast f s c cs p hc hp := by
    have hex : ∃ p, Longest (DecText f s) (c :: cs) p := ⟨p, hp⟩
    have hch : hex.choose = p := longest_unique hex.choose_spec hp
    show (if h : ∃ p, Longest (DecText f s) (c :: cs) p then _ else _) = FastRes.outOfRange ∨ ∃ v, exRoundNat p = .finite v ∧ (if h : ∃ p, Longest (DecText f s) (c :: cs) p then _ else _) = FastRes.ok v p.length
    rw [dif_pos hex, hch]
    cases exRoundNat p with
    | finite v => exact Or.inr ⟨v, rfl, rfl⟩
    | tooLarge => exact Or.inl rfl
    | tooSmall => exact Or.inl rfl
  fastNone f s c cs hc h := by
    show (if h : ∃ p, Longest (DecText f s) (c :: cs) p then _ else _) = FastRes.invalid
    rw [dif_neg]
    rintro ⟨p, hp⟩
    exact h p hp.1 hp.2.1
  strtod c cs p hc hp := by
    have hex : ∃ p, Longest StrtodText (c :: cs) p := ⟨p, hp⟩
    have hch : hex.choose = p := longest_unique hex.choose_spec hp
    have : exConvNat.strtod (c :: cs) = (match exRoundNat p with
      | .finite v => ⟨v, p.length, false⟩
      | .tooLarge => ⟨1000, p.length, true⟩
      | .tooSmall => ⟨0, p.length, true⟩ : StrtodRes Nat) := by
      show (if h : ∃ p, Longest StrtodText (c :: cs) p then _ else _) = _
      rw [dif_pos hex, hch]
    rw [this]
    cases hr : exRoundNat p with
    | finite v =>
      refine ⟨rfl, rfl, ?_, fun _ => rfl⟩
      have hv : v ≤ 999 := by
        unfold exRoundNat at hr
        split at hr
        · cases hr; exact Nat.min_le_right _ _
        · cases hr
        · cases hr
      show decide (v = 1000) = false
      exact decide_eq_false (by omega)
    | tooLarge => exact ⟨rfl, rfl, rfl⟩
    | tooSmall => exact ⟨rfl, rfl, rfl⟩
  zero := rfl

end Scn
