import Verif.Lemmas.Readers
import Verif.Lemmas.Advance
/-
The readers of built-in types have no undefined behaviour, on any source, and stay inside it.
-/
namespace Scn
open Spec

/-- No undefined behaviour, and what is left is the end of the source. -/
def Sound {V : Type} (r : Res (V × List Nat)) (s : List Nat) : Prop := r ≠ .ub ∧ ∀ v p, r = .ok (v, p) → p <:+ s

theorem Sound.err {V : Type} (x : Err) (s : List Nat) : Sound (.err x : Res (V × List Nat)) s := ⟨by simp, by simp⟩

theorem Sound.ok {V : Type} (v : V) {p s : List Nat} (h : p <:+ s) : Sound (.ok (v, p)) s :=
  ⟨by simp, fun _ _ hx => by cases hx; exact h⟩

theorem Sound.map {V W : Type} {r : Res (V × List Nat)} {s : List Nat} (h : Sound r s) (f : V → W) :
    Sound (r.map fun x => (f x.1, x.2)) s := by
  cases r with
  | ub => exact absurd rfl h.1
  | err x => exact Sound.err x s
  | ok a => exact Sound.ok _ (h.2 a.1 a.2 rfl)

theorem Sound.bind {V W : Type} {r : Res (V × List Nat)} {s : List Nat} (h : Sound r s) {f : V × List Nat → Res (W × List Nat)}
    (hf : ∀ v p, r = .ok (v, p) → p <:+ s → Sound (f (v, p)) s) : Sound (r.bind f) s := by
  cases r with
  | ub => exact absurd rfl h.1
  | err x => exact Sound.err x s
  | ok a => exact hf a.1 a.2 rfl (h.2 a.1 a.2 rfl)

theorem Sound.trans {V : Type} {r : Res (V × List Nat)} {s t : List Nat} (h : Sound r s) (hs : s <:+ t) : Sound r t :=
  ⟨h.1, fun v p hp => (h.2 v p hp).trans hs⟩

theorem UnitsOk.sub {e : Enc} {s t : List Nat} (h : UnitsOk e s) (ht : ∀ b ∈ t, b ∈ s) : UnitsOk e t :=
  fun he b hb => h he b (ht b hb)

/-! ### Whitespace -/

theorem suffix_drop_sub {s t : List Nat} (n : Nat) (_ : t.length ≤ n) : s.drop (n - t.length) <:+ s := List.drop_suffix _ _

theorem readWhileSpace_any (e : Enc) (l : Layout) (s : List Nat) (h : UnitsOk e s) :
    ∃ p, readWhileSpace e l s = some p ∧ p <:+ s := by
  cases l with
  | contiguous => exact readWhileSpace_total e s h
  | segmented k =>
    cases e with
    | utf8 =>
      obtain ⟨p, hp, _⟩ := readWhileSpace_total .utf8 (s.take k) (h.sub fun b hb => List.mem_of_mem_take hb)
      have hp' : findNonspace (s.take k) = some p := hp
      simp only [readWhileSpace, hp']
      split
      · exact ⟨_, rfl, List.drop_suffix _ _⟩
      · exact readUntilCp_total .utf8 _ s
    | utf16 => exact readUntilCp_total .utf16 _ s
    | utf32 => exact readUntilCp_total .utf32 _ s

theorem readUntilSpace_any (e : Enc) (l : Layout) (s : List Nat) (h : UnitsOk e s) :
    ∃ p, readUntilSpace e l s = some p ∧ p <:+ s := by
  cases e with
  | utf8 =>
    cases l with
    | contiguous =>
      obtain ⟨p, hp, hps⟩ := refFind_total .utf8 isCpSpace s.length s (Nat.le_refl _)
      exact ⟨p, by rw [readUntilSpace, findSpace_ref s (h rfl), hp], hps⟩
    | segmented k =>
      obtain ⟨p, hp, _⟩ := refFind_total .utf8 isCpSpace (s.take k).length (s.take k) (Nat.le_refl _)
      rw [← findSpace_ref _ (fun b hb => h rfl b (List.mem_of_mem_take hb))] at hp
      simp only [readUntilSpace, hp]
      split
      · exact ⟨_, rfl, List.drop_suffix _ _⟩
      · obtain ⟨q, hq, hqs⟩ := readUntilCp_total .utf8 isCpSpace (s.drop (s.take k).length)
        exact ⟨q, hq, hqs.trans (List.drop_suffix _ _)⟩
  | utf16 => cases l <;> exact readUntilCp_total .utf16 _ s
  | utf32 => cases l <;> exact readUntilCp_total .utf32 _ s

/-- Skipping whitespace: an error, or a suffix. -/
theorem skipSpace_cases (e : Enc) (l : Layout) (b : Bool) (s : List Nat) (h : UnitsOk e s) :
    (∃ x, skipSpace e l b s = .err x) ∨ ∃ p, skipSpace e l b s = .ok p ∧ p <:+ s := by
  obtain ⟨p, hp, hps⟩ := readWhileSpace_any e l s h
  unfold skipSpace
  rw [hp]
  dsimp only
  split
  · exact Or.inl ⟨_, rfl⟩
  · exact Or.inr ⟨p, rfl, hps⟩

/-! ### Integers -/

theorem parseIntegerValue_ne_ub {n : Bool} {T : IntTy} {sg : Sign} {base : Nat} {s : List Nat} (hs : s ≠ [])
    (hsg : ¬ (T.signed = false ∧ sg = .minus)) (hb : 2 ≤ base ∧ base ≤ 36) : parseIntegerValue n T sg base s ≠ .ub := by
  cases s with
  | nil => exact absurd rfl hs
  | cons c cs =>
    unfold parseIntegerValue
    dsimp only
    rw [if_neg hsg, if_neg (by omega)]
    split
    · simp
    · split
      · simp
      · split
        · simp
        · split
          · unfold parseDecimalFast; dsimp only; split <;> simp
          · unfold parseRegular; dsimp only; split <;> simp

theorem readInt_sound (k : Src) (T : IntTy) (sp : IntSpecs) (hbase : sp.base = 0 ∨ (2 ≤ sp.base ∧ sp.base ≤ 36)) (s : List Nat) :
    Sound (readInt k T sp s) s := by
  refine ⟨?_, fun v p h => readInt_suffix h⟩
  unfold readInt
  split
  · simp
  · rename_i p hp
    obtain ⟨_, hb⟩ := parseIntegerPrefix_suffix hp
    have h2 := hb hbase
    split
    · simp
    · rename_i hsg
      have hsg' : ¬ (T.signed = false ∧ p.sign = .minus) := fun h => hsg ⟨h.2, Or.inl h.1⟩
      split
      · simp
      · split
        · obtain ⟨hd1, hd2⟩ := digitsWithoutThsep_ok k p.rest p.base
          cases hd : digitsWithoutThsep k p.rest p.base with
          | ub => exact absurd hd hd1
          | err e => simp [Res.bind]
          | ok buf =>
            have := parseIntegerValue_ne_ub (n := k.narrow) (hd2 buf hd).1 hsg' h2
            simp only [Res.bind]
            cases hv : parseIntegerValue k.narrow T p.sign p.base buf with
            | ub => exact absurd hv this
            | err e => simp
            | ok a => simp
        · dsimp only
          split
          · simp
          · rename_i hne
            have := parseIntegerValue_ne_ub (n := k.narrow) (s := (thsepLoop (by assumption) p.base p.rest).2.1)
              (fun h => hne h) hsg' h2
            cases hv : parseIntegerValue k.narrow T p.sign p.base (thsepLoop (by assumption) p.base p.rest).2.1 with
            | ub => exact absurd hv this
            | err e => simp [Res.bind]
            | ok a => simp [Res.bind]

/-! ### Booleans -/

theorem readBoolNames_suffix {t f s p : List Nat} {b : Bool} (h : readBoolNames t f s = some (b, p)) : p <:+ s := by
  unfold readBoolNames at h
  dsimp only at h
  split at h
  · rename_i r hr
    cases h
    exact ⟨_, ((readMatchingString_iff _ _ _).1 hr).symm⟩
  · split at h
    · rename_i r hr
      cases h
      exact ⟨_, ((readMatchingString_iff _ _ _).1 hr).symm⟩
    · cases h

theorem readBoolText_suffix {s p : List Nat} {b : Bool} (h : readBoolText s = some (b, p)) : p <:+ s := by
  unfold readBoolText at h
  split at h
  · rename_i r hr
    cases h
    exact ⟨_, ((readMatchingString_iff _ _ _).1 hr).symm⟩
  · split at h
    · rename_i r hr
      cases h
      exact ⟨_, ((readMatchingString_iff _ _ _).1 hr).symm⟩
    · cases h

theorem readBoolNumeric_suffix {s p : List Nat} {b : Bool} (h : readBoolNumeric s = some (b, p)) : p <:+ s := by
  rcases readBoolNumeric_cases s with ⟨w, b', r, _, rfl, h2⟩ | ⟨_, h2⟩
  · rw [h2] at h; cases h; exact ⟨w, rfl⟩
  · rw [h2] at h; cases h

theorem readBool_sound (n t : Bool) (rd : List Nat → Option (Bool × List Nat)) (hrd : ∀ s b p, rd s = some (b, p) → p <:+ s)
    (s : List Nat) : Sound (readBool n t rd s) s := by
  unfold readBool
  split
  · rename_i r hr
    cases n
    · simp at hr
    · exact Sound.ok r.1 (readBoolNumeric_suffix hr)
  · split
    · rename_i r hr
      cases t
      · simp at hr
      · exact Sound.ok r.1 (hrd s r.1 r.2 hr)
    · exact Sound.err _ _

/-! ### Strings -/

/-- A pair of encodings the library is built for: narrow and wide, of one platform. -/
def EncPair (src dst : Enc) : Prop := src = dst ∨ src = .utf8 ∨ dst = .utf8

theorem transcode_defined {src dst : Enc} (hp : EncPair src dst) {s : List Nat} (h : validateUnicode src s = some true) :
    ∃ t, transcodeIfNecessary src dst s = .ok t := by
  unfold transcodeIfNecessary
  split
  · exact ⟨s, rfl⟩
  · rename_i hne
    obtain ⟨cps, h1, h2, h3⟩ := valid_agree_aux src _ s (Nat.le_refl _) h
    have h4 := transcodeValidTo32_eq src s cps h h1
    have : ∃ t, transcodeValid src dst s = some t := by
      unfold transcodeValid
      rw [if_neg (by simp [h])]
      rcases hp with hp | rfl | rfl
      · exact absurd hp hne
      · cases dst with
        | utf8 => exact absurd rfl hne
        | utf16 => simp only [h4]; exact ⟨_, rfl⟩
        | utf32 => simp only [h4]; exact ⟨_, rfl⟩
      · cases src with
        | utf8 => exact absurd rfl hne
        | utf16 => simp only [h4]; exact ⟨_, rfl⟩
        | utf32 => exact ⟨_, rfl⟩
    obtain ⟨t, ht⟩ := this
    rw [ht]
    exact ⟨t, rfl⟩

theorem readString_sound {src dst : Enc} (hp : EncPair src dst) {s rest : List Nat} (h : rest <:+ s) :
    Sound (readString src dst s rest) s := by
  unfold readString
  obtain ⟨b, hb⟩ := validate_total_aux src _ (between s rest) (Nat.le_refl _)
  have hb' : validateUnicode src (between s rest) = some b := hb
  rw [hb']
  cases b with
  | false => exact Sound.err _ _
  | true =>
    obtain ⟨t, ht⟩ := transcode_defined hp hb'
    dsimp only
    rw [ht]
    exact Sound.ok t h

theorem readUntilUnits_suffix (needle : List Nat) (s : List Nat) : readUntilUnits needle s <:+ s := by
  induction s with
  | nil => exact List.suffix_refl _
  | cons c cs ih =>
    simp only [readUntilUnits]
    split
    · exact List.suffix_refl _
    · exact suffix_cons_of ih

theorem readWhileUnits_total (needle : List Nat) (hn : needle ≠ []) (s : List Nat) :
    ∃ p, readWhileUnits needle s = some p ∧ p <:+ s := by
  have hl : 1 ≤ needle.length := by cases needle with
    | nil => exact absurd rfl hn
    | cons => simp
  suffices H : ∀ n, ∀ s : List Nat, s.length ≤ n → ∃ p, readWhileUnitsAux needle n s = some p ∧ p <:+ s from
    H _ s (Nat.le_refl _)
  intro n
  induction n with
  | zero =>
    intro s hs
    cases s with
    | nil => exact ⟨[], rfl, List.suffix_refl _⟩
    | cons => simp at hs
  | succ n ih =>
    intro s hs
    cases s with
    | nil => exact ⟨[], rfl, List.suffix_refl _⟩
    | cons c cs =>
      simp only [readWhileUnitsAux]
      split
      · obtain ⟨p, hp, hps⟩ := ih ((c :: cs).drop needle.length) (by rw [List.length_drop]; simp at hs ⊢; omega)
        exact ⟨p, hp, hps.trans (List.drop_suffix _ _)⟩
      · exact ⟨_, rfl, List.suffix_refl _⟩

theorem readWord_sound {src dst : Enc} (hp : EncPair src dst) (l : Layout) {s : List Nat} (hu : UnitsOk src s) :
    Sound (readWord src dst l s) s := by
  unfold readWord
  obtain ⟨p, h1, h2⟩ := readUntilSpace_any src l s hu
  rw [h1]
  exact readString_sound hp h2

theorem readCustomWord_sound {src dst : Enc} (hp : EncPair src dst) (sp : Specs) (s : List Nat) :
    Sound (readCustomWord src dst sp s) s := by
  unfold readCustomWord
  split
  · exact readString_sound hp (List.dropWhile_suffix _)
  · exact readString_sound hp (readUntilUnits_suffix _ _)

theorem readCharacters_sound {src dst : Enc} (hp : EncPair src dst) (b : Bool) (s : List Nat) :
    Sound (readCharacters src dst b s) s := by
  unfold readCharacters
  split
  · exact readString_sound hp List.nil_suffix
  · exact Sound.err _ _

theorem checkNonempty_cases (it s : List Nat) : (∃ x, checkNonempty it s = .err x) ∨ checkNonempty it s = .ok it := by
  unfold checkNonempty; split
  · exact Or.inl ⟨_, rfl⟩
  · exact Or.inr rfl

theorem readCharset_sound {src dst : Enc} (hp : EncPair src dst) {sp : Specs} (hset : handleNonascii src sp ≠ .ub) (s : List Nat) :
    Sound (readCharset src dst sp s) s := by
  unfold readCharset charsetSource
  cases hr : handleNonascii src sp with
  | ub => exact absurd hr hset
  | err x => exact Sound.err _ _
  | ok ranges =>
    simp only [Res.bind_ok]
    have key : ∀ it, it <:+ s → Sound ((checkNonempty it s).bind (readString src dst s)) s := by
      intro it hit
      rcases checkNonempty_cases it s with ⟨x, hx⟩ | hx <;> rw [hx]
      · exact Sound.err _ _
      · exact readString_sound hp hit
    cases sp.nonascii with
    | true =>
      simp only [if_true]
      obtain ⟨p, h1, h2⟩ : ∃ p, (if sp.inverted then readUntilCp src (onExtraRanges sp ranges) s
             else readWhileCp src (onExtraRanges sp ranges) s) = some p ∧ p <:+ s := by
        split
        · exact readUntilCp_total _ _ _
        · exact readUntilCp_total _ _ _
      rw [h1]
      exact key p h2
    | false =>
      simp only [Bool.false_eq_true, if_false]
      apply key
      split <;> exact List.dropWhile_suffix _

end Scn
