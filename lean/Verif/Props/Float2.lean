import Verif.Lemmas.Float5
/-
C73: numbers are read with the thousands separator and the decimal point of the locale.
-/
namespace Scn
open Spec

/-- With the flag `L`, a number with the separator and the point of the locale is read, all of it and nothing else, and it is the
    number without the separators and with `.` for the point, whatever the source and whatever follows.

    Not covered (see `C73_violated`): locales with `.` for the separator. Also not covered: hexadecimal numbers, infinities and
    NaNs, and numbers that do not begin with a digit; and that there is a separator or a point that is not the usual one, for
    else this is C39. -/
theorem C73_localized_partial {V : Type} {cv : FloatConv V} {round : List Nat → Rounded V} (hcv : ConvOk cv round) (e : Enc) (k : Src) (seg : Bool)
    (loc : FloatLoc) (hl : LocOk loc) (hn : ¬ (loc.sep = 0 ∧ loc.point = 46)) (ty : Pres) (sg t rest : List Nat) (hsg : SignText sg)
    (hL : Longest (LocNumberText loc ty) (t ++ rest) t) (ht : ∃ c cs, t = c :: cs ∧ IsDigit 10 c)
    (hx : ty = .none → ∀ x r, t ++ rest = 48 :: x :: r → x ≠ 120 ∧ x ≠ 88) :
    readFloatAs cv e k seg loc ty (sg ++ t ++ rest) = scanned cv sg rest (round (delocalize loc t)) := by
  obtain ⟨c, cs, hc, hd⟩ := ht
  obtain ⟨o, ho, hoo, hoL, hox⟩ : ∃ o, floatOptions ty = some o ∧ ((o.hex = false ∧ (o.fixed = true ∨ o.sci = true)) ∨ o = ⟨true, true, true⟩) ∧
      LocNumberText loc ty = LocDecText loc o.fixed o.sci ∧ (o.hex = true → ty = .none) := by
    have := hL.1
    cases ty <;> try exact this.elim
    · exact ⟨_, rfl, Or.inr rfl, by funext t; rfl, fun _ => rfl⟩
    · exact ⟨_, rfl, Or.inl ⟨rfl, Or.inr rfl⟩, by funext t; rfl, fun h => by cases h⟩
    · exact ⟨_, rfl, Or.inl ⟨rfl, Or.inl rfl⟩, by funext t; rfl, fun h => by cases h⟩
    · exact ⟨_, rfl, Or.inl ⟨rfl, Or.inl rfl⟩, by funext t; rfl, fun h => by cases h⟩
  rw [hoL] at hL
  obtain ⟨body, h1, h2, h3⟩ := eval_loc hcv e k seg hl hn hoo hc hd hL (fun h => hx (hox h))
  obtain ⟨sign, h4, h5, h6⟩ := sign_join (s := t ++ rest) hsg (c := c) (cs := cs ++ rest) (by rw [hc]; rfl)
    (by constructor <;> (rintro rfl; revert hd; decide))
  unfold readFloatAs
  rw [ho, List.append_assoc]
  dsimp only
  unfold readFloat
  rw [h4]
  dsimp only
  rw [h1]
  simp only [Res.bind]
  rw [h2]
  cases hr : round (delocalize loc t) with
  | finite v =>
    simp only [roundOutcome, scanned]
    rw [show (delocalize loc t).length + (if sign.isSome = true then 1 else 0) + (handleSeparators loc (!k.contiguous && seg) body.text).seps = sg.length + t.length by
      rw [h5]; omega, ← List.drop_drop, List.drop_left, List.drop_left]
    congr 3
    exact decide_eq_decide.2 h6
  | tooLarge =>
    simp only [roundOutcome, scanned, signedErr]
    by_cases h : sign = some .minus
    · rw [if_pos h, if_pos (h6.1 h)]
    · rw [if_neg h, if_neg (fun h' => h (h6.2 h'))]
  | tooSmall =>
    simp only [roundOutcome, scanned, signedErr]
    by_cases h : sign = some .minus
    · rw [if_pos h, if_pos (h6.1 h)]
    · rw [if_neg h, if_neg (fun h' => h (h6.2 h'))]

/-- `-1,234.5` with the English separator. -/
example : readFloatAs exConv .utf8 ⟨true, true⟩ false ⟨44, 46⟩ .floatFixed [45, 49, 44, 50, 51, 52, 46, 53] = .ok ([45, 49, 50, 51, 52, 46, 53], []) := by
  have h := C73_localized_partial exConv_ok .utf8 ⟨true, true⟩ false ⟨44, 46⟩ (by unfold LocOk; decide) (by decide) .floatFixed [45] [49, 44, 50, 51, 52, 46, 53] []
    (Or.inr (Or.inr rfl))
    (by rw [List.append_nil]
        exact longest_self ⟨[49, 44, 50, 51, 52, 46, 53], [], rfl, ⟨[49, 44, 50, 51, 52], [46, 53], rfl, by decide, Or.inr ⟨[53], rfl, by decide⟩, Or.inl (by decide)⟩, Or.inl ⟨rfl, rfl⟩⟩)
    ⟨49, _, rfl, by decide⟩ (by intro h; cases h)
  exact h

/-- In a locale with `.` for the separator and `,` for the point, such as the German one, the point is dropped with the separators:
    `0,5` is read as `05`, and `1.234,5` as `12345`, and no error is given. -/
theorem C73_violated {V : Type} {cv : FloatConv V} {round : List Nat → Rounded V} (hcv : ConvOk cv round) (e : Enc) (k : Src) (seg : Bool) (v w : V)
    (hv : round [48, 53] = .finite v) (hw : round [49, 50, 51, 52, 53] = .finite w) :
    (delocalize ⟨46, 44⟩ [48, 44, 53] = [48, 46, 53] ∧ readFloatAs cv e k seg ⟨46, 44⟩ .floatFixed [48, 44, 53] = .ok (cv.copysign false v, [])) ∧
    (delocalize ⟨46, 44⟩ [49, 46, 50, 51, 52, 44, 53] = [49, 50, 51, 52, 46, 53] ∧
      readFloatAs cv e k seg ⟨46, 44⟩ .floatFixed [49, 46, 50, 51, 52, 44, 53] = .ok (cv.copysign false w, [])) := by
  have key : ∀ (src p z : List Nat) (c : Nat) (cs : List Nat) (x : V) (n : Nat), p = c :: cs → IsDigit 10 c → (∀ d ∈ p, IsDigit 10 d) → round p = .finite x → (∃ d ds, src = d :: ds ∧ IsDigit 10 d) →
      readRegularFloat ⟨46, 44⟩ ⟨false, false, true⟩ src = .ok (.fixed, src) → (∀ b, handleSeparators ⟨46, 44⟩ b src = ⟨some p, p ++ 0 :: z, n⟩) → p.length + n = src.length →
      readFloatAs cv e k seg ⟨46, 44⟩ .floatFixed src = .ok (cv.copysign false x, []) := by
    rintro src p z c cs x n rfl hc hp hx ⟨d, ds, rfl, hd⟩ hr hs hlen
    have hbody : floatBody k ⟨46, 44⟩ ⟨false, false, true⟩ (d :: ds) = .ok { kind := .fixed, text := d :: ds } := by
      unfold floatBody
      rw [readInf_digit (digit16 hd), readNan_digit (digit16 hd)]
      dsimp only
      rw [if_neg (by decide), if_pos (by decide), hr]
      rfl
    have hdec : DecText true false (c :: cs) := ⟨c :: cs, [], by simp, ⟨c :: cs, [], by simp, hp, Or.inl rfl, Or.inl (by simp)⟩, Or.inl ⟨rfl, rfl⟩⟩
    have hdisp : floatDispatch cv e ⟨false, false, true⟩ .fixed ⟨some (c :: cs), c :: cs ++ 0 :: z, n⟩ [] = roundOutcome (round (c :: cs)) (c :: cs).length := by
      refine dispatch_view hcv (Or.inr (Or.inl rfl)) rfl hc (longest_stop hdec (Or.inr ⟨z, rfl⟩)) ?_
      exact strtodImpl_input hcv (kind := .fixed) (p := c :: cs) rfl hc (by simp) (longest_self (Or.inl (dec_mono hdec)))
    have hsign : parseNumericSign (d :: ds) = some (d :: ds, none) := by
      unfold parseNumericSign
      dsimp only
      rw [if_neg (by rintro rfl; revert hd; decide), if_neg (by rintro rfl; revert hd; decide)]
    show readFloat cv e k seg ⟨46, 44⟩ ⟨false, false, true⟩ (d :: ds) = _
    unfold readFloat
    rw [hsign]
    dsimp only
    rw [hbody]
    simp only [Res.bind]
    rw [hs, hdisp, hx]
    show Res.ok (cv.copysign false x, (d :: ds).drop ((c :: cs).length + 0 + n)) = _
    rw [show (c :: cs).length + 0 + n = (d :: ds).length by omega, List.drop_length]
  refine ⟨⟨rfl, ?_⟩, ⟨rfl, ?_⟩⟩
  · exact key [48, 44, 53] [48, 53] [] 48 [53] v 1 rfl (by decide) (by decide) hv ⟨48, _, rfl, by decide⟩ rfl (fun b => rfl) rfl
  · exact key [49, 46, 50, 51, 52, 44, 53] [49, 50, 51, 52, 53] [53] 49 [50, 51, 52, 53] w 2 rfl (by decide) (by decide) hw ⟨49, _, rfl, by decide⟩ rfl (fun b => rfl) rfl

example : readFloatAs exConv .utf8 ⟨true, true⟩ false ⟨46, 44⟩ .floatFixed [48, 44, 53] = .ok ([48, 53], []) :=
  (C73_violated exConv_ok .utf8 ⟨true, true⟩ false [48, 53] [49, 50, 51, 52, 53] rfl rfl).1.2

end Scn
