import Verif.Lemmas.LetterCase
import Verif.Lemmas.Float4
/-
Helper lemmas: upper and lower case letters in floating-point numbers.
-/
namespace Scn
open Spec

theorem sameCase_symm {s t : List Nat} (h : SameButCase s t) : SameButCase t s := Eq.symm h

theorem sameCase_append {a b t : List Nat} (h : SameButCase (a ++ b) t) : ∃ a' b', t = a' ++ b' ∧ SameButCase a a' ∧ SameButCase b b' := by
  unfold SameButCase at h
  rw [List.map_append] at h
  obtain ⟨a', b', h1, h2, h3⟩ := List.map_eq_append_iff.1 h.symm
  exact ⟨a', b', h1, h2.symm, h3.symm⟩

theorem sameCase_cons {c : Nat} {cs t : List Nat} (h : SameButCase (c :: cs) t) : ∃ d ds, t = d :: ds ∧ lower c = lower d ∧ SameButCase cs ds := by
  cases t with
  | nil => cases h
  | cons d ds => exact ⟨d, ds, rfl, (List.cons.inj h).1, (List.cons.inj h).2⟩

theorem sameCase_nil {t : List Nat} (h : SameButCase [] t) : t = [] := (sameButCase_nil h).1 rfl

theorem sameCase_length {s t : List Nat} (h : SameButCase s t) : s.length = t.length := by
  have := congrArg List.length h
  rwa [List.length_map, List.length_map] at this

theorem sameCase_other {c d : Nat} (h : lower c = lower d) (hc : ¬ (97 ≤ c ∧ c ≤ 122)) (hc' : ¬ (65 ≤ c ∧ c ≤ 90)) : d = c := by
  have : lower c = c := (lower_eq_iff_other hc hc').2 rfl
  exact (lower_eq_iff_other hc hc').1 (h.symm.trans this)

theorem sameCase_digits {b : Nat} {s t : List Nat} (h : SameButCase s t) (hs : ∀ c ∈ s, IsDigit b c) : ∀ c ∈ t, IsDigit b c := by
  intro c hc
  have : lower c ∈ s.map lower := by rw [show s.map lower = t.map lower from h]; exact List.mem_map_of_mem hc
  obtain ⟨d, hd, hl⟩ := List.mem_map.1 this
  rw [← isDigit_lower, ← hl, isDigit_lower]
  exact hs d hd

theorem sameCase_ne {s t : List Nat} (h : SameButCase s t) (hs : s ≠ []) : t ≠ [] := fun hx => hs ((sameButCase_nil h).2 hx)

theorem sameCase_significand {b : Nat} {s t : List Nat} (h : SameButCase s t) (hs : Significand b s) : Significand b t := by
  obtain ⟨i, f, rfl, h1, h2, h3⟩ := hs
  obtain ⟨i', f', rfl, hi, hf⟩ := sameCase_append h
  refine ⟨i', f', rfl, sameCase_digits hi h1, ?_, ?_⟩
  · rcases h2 with rfl | ⟨ds, rfl, hds⟩
    · exact Or.inl (sameCase_nil hf)
    · obtain ⟨d, ds', rfl, hd, hds'⟩ := sameCase_cons hf
      exact Or.inr ⟨ds', by rw [sameCase_other hd (by decide) (by decide)], sameCase_digits hds' hds⟩
  · rw [← sameCase_length hf]
    exact h3.imp_left (sameCase_ne hi)

theorem sameCase_sign {s t : List Nat} (h : SameButCase s t) (hs : s = [] ∨ s = [43] ∨ s = [45]) : t = s := by
  rcases hs with rfl | rfl | rfl
  · exact sameCase_nil h
  · obtain ⟨d, ds, rfl, hd, hds⟩ := sameCase_cons h
    rw [sameCase_nil hds, sameCase_other hd (by decide) (by decide)]
  · obtain ⟨d, ds, rfl, hd, hds⟩ := sameCase_cons h
    rw [sameCase_nil hds, sameCase_other hd (by decide) (by decide)]

theorem sameCase_exponent {l u : Nat} (hl : (l = 101 ∧ u = 69) ∨ (l = 112 ∧ u = 80)) {s t : List Nat} (h : SameButCase s t) (hs : Exponent [l, u] s) : Exponent [l, u] t := by
  obtain ⟨c, sg, ds, rfl, h1, h2, h3, h4⟩ := hs
  obtain ⟨d, r, rfl, hd, hr⟩ := sameCase_cons h
  obtain ⟨sg', ds', rfl, hsg, hds⟩ := sameCase_append hr
  refine ⟨d, sg', ds', rfl, ?_, ?_, sameCase_ne hds h3, sameCase_digits hds h4⟩
  · simp only [List.mem_cons, List.not_mem_nil, or_false] at h1 ⊢
    unfold lower at hd
    split at hd <;> split at hd <;> omega
  · rw [sameCase_sign hsg h2]; exact h2

theorem sameCase_dec {f x : Bool} {s t : List Nat} (h : SameButCase s t) (hs : DecText f x s) : DecText f x t := by
  obtain ⟨m, e, rfl, h1, h2⟩ := hs
  obtain ⟨m', e', rfl, hm, he⟩ := sameCase_append h
  refine ⟨m', e', rfl, sameCase_significand hm h1, ?_⟩
  rcases h2 with ⟨rfl, h2⟩ | ⟨h2, h3⟩
  · exact Or.inl ⟨sameCase_nil he, h2⟩
  · exact Or.inr ⟨h2, sameCase_exponent (by decide) he h3⟩

theorem sameCase_hex {s t : List Nat} (h : SameButCase s t) (hs : HexText s) : HexText t := by
  obtain ⟨m, e, rfl, h1, h2⟩ := hs
  obtain ⟨m', e', rfl, hm, he⟩ := sameCase_append h
  refine ⟨m', e', rfl, sameCase_significand hm h1, ?_⟩
  rcases h2 with rfl | h2
  · exact Or.inl (sameCase_nil he)
  · exact Or.inr (sameCase_exponent (by decide) he h2)

theorem sameCase_prefixed {s t : List Nat} (h : SameButCase s t) (hs : PrefixedHex s) : PrefixedHex t := by
  obtain ⟨x, r, rfl, h1, h2⟩ := hs
  obtain ⟨d, t1, rfl, hd, ht1⟩ := sameCase_cons h
  obtain ⟨y, t2, rfl, hy, ht2⟩ := sameCase_cons ht1
  refine ⟨y, t2, by rw [sameCase_other hd (by decide) (by decide)], ?_, sameCase_hex ht2 h2⟩
  unfold lower at hy
  split at hy <;> split at hy <;> omega

theorem sameCase_inf {s t : List Nat} (h : SameButCase s t) (hs : InfText s) : InfText t := by
  unfold InfText at *
  rwa [← show s.map lower = t.map lower from h]

theorem wordChar_case {c d : Nat} (h : lower c = lower d) (hc : IsWordChar c) : IsWordChar d := by
  unfold IsWordChar at *
  unfold lower at h
  split at h <;> split at h <;> omega

theorem sameCase_words {s t : List Nat} (h : SameButCase s t) (hs : ∀ c ∈ s, IsWordChar c) : ∀ c ∈ t, IsWordChar c := by
  intro c hc
  have : lower c ∈ s.map lower := by rw [show s.map lower = t.map lower from h]; exact List.mem_map_of_mem hc
  obtain ⟨d, hd, hl⟩ := List.mem_map.1 this
  exact wordChar_case hl (hs d hd)

theorem sameCase_nan {s t : List Nat} (h : SameButCase s t) (hs : NanText s) : NanText t := by
  obtain ⟨a, p, rfl, h1, h2⟩ := hs
  obtain ⟨a', p', rfl, ha, hp⟩ := sameCase_append h
  refine ⟨a', p', rfl, (show a.map lower = a'.map lower from ha) ▸ h1, ?_⟩
  rcases h2 with rfl | ⟨q, rfl, hq⟩
  · exact Or.inl (sameCase_nil hp)
  · obtain ⟨d, r, rfl, hd, hr⟩ := sameCase_cons hp
    obtain ⟨q', z, rfl, hq', hz⟩ := sameCase_append hr
    obtain ⟨w, ws, rfl, hw, hws⟩ := sameCase_cons hz
    refine Or.inr ⟨q', ?_, sameCase_words hq' hq⟩
    rw [sameCase_nil hws, sameCase_other hd (by decide) (by decide), sameCase_other hw (by decide) (by decide)]

theorem sameCase_number {ty : Pres} {s t : List Nat} (h : SameButCase s t) (hs : NumberText ty s) : NumberText ty t := by
  unfold NumberText at *
  split at hs
  · exact hs.imp (sameCase_prefixed h) (sameCase_hex h)
  · exact sameCase_dec h hs
  · exact sameCase_dec h hs
  · exact sameCase_dec h hs
  · exact hs.imp (sameCase_dec h) (sameCase_prefixed h)
  · exact hs.elim

theorem sameCase_float {ty : Pres} {s t : List Nat} (h : SameButCase s t) (hs : FloatText ty s) : FloatText ty t :=
  hs.imp (sameCase_inf h) fun hs => hs.imp (sameCase_nan h) (sameCase_number h)

theorem sameCase_longest {P : List Nat → Prop} (hP : ∀ {s t}, SameButCase s t → P s → P t) {p r p' r' : List Nat} (hp : SameButCase p p') (hr : SameButCase r r')
    (h : Longest P (p ++ r) p) : Longest P (p' ++ r') p' := by
  refine ⟨hP hp h.1, ⟨r', rfl⟩, fun q hq hpre => ?_⟩
  obtain ⟨z, hz⟩ := hpre
  have hall : SameButCase (q ++ z) (p ++ r) := by
    rw [hz]
    show (p' ++ r').map lower = (p ++ r).map lower
    rw [List.map_append, List.map_append, show p.map lower = p'.map lower from hp, show r.map lower = r'.map lower from hr]
  obtain ⟨q', z', h1, h2, _⟩ := sameCase_append hall
  rw [sameCase_length h2, ← sameCase_length hp]
  exact h.2.2 q' (hP h2 hq) ⟨z', h1.symm⟩

theorem sameCase_means {V : Type} {cv : FloatConv V} {round : List Nat → Rounded V} (hround : ∀ p p', SameButCase p p' → round p = round p') {ty : Pres}
    {s t : List Nat} (h : SameButCase s t) {r : Rounded V} (hs : FloatMeans cv round ty s r) : FloatMeans cv round ty t r := by
  refine hs.imp (And.imp_left (sameCase_inf h)) fun hs => hs.imp (And.imp_left (sameCase_nan h)) fun ⟨h1, u, h2, h3⟩ => ⟨sameCase_number h h1, ?_⟩
  rcases h2 with ⟨rfl, h4⟩ | ⟨h4, h5, rfl⟩
  · exact ⟨t, Or.inl ⟨rfl, fun hx => sameCase_prefixed h (h4 hx)⟩, h3.trans (hround _ _ h)⟩
  · refine ⟨48 :: 120 :: t, Or.inr ⟨h4, sameCase_hex h h5, rfl⟩, h3.trans (hround _ _ ?_)⟩
    show (48 :: 120 :: s).map lower = (48 :: 120 :: t).map lower
    rw [List.map_cons, List.map_cons, List.map_cons, List.map_cons, show s.map lower = t.map lower from h]

/-- Every text of a number has a value. -/
theorem floatText_means {V : Type} (cv : FloatConv V) (round : List Nat → Rounded V) {ty : Pres} {t : List Nat} (h : FloatText ty t) : ∃ r, FloatMeans cv round ty t r := by
  rcases h with h | h | h
  · exact ⟨_, Or.inl ⟨h, rfl⟩⟩
  · exact ⟨_, Or.inr (Or.inl ⟨h, rfl⟩)⟩
  · by_cases hty : ty = .floatHex
    · subst hty
      rcases h with h | h
      · exact ⟨_, Or.inr (Or.inr ⟨Or.inl h, _, Or.inl ⟨rfl, fun _ => h⟩, rfl⟩)⟩
      · exact ⟨_, Or.inr (Or.inr ⟨Or.inr h, _, Or.inr ⟨rfl, h, rfl⟩, rfl⟩)⟩
    · exact ⟨_, Or.inr (Or.inr ⟨h, _, Or.inl ⟨rfl, fun hx => absurd hx hty⟩, rfl⟩)⟩

/-! ### A conversion for examples -/

/-- The values of the example: those of `exRound`, without regard to case. -/
def caseRound (p : List Nat) : Rounded (List Nat) := exRound (p.map lower)

open Classical in
/-- A conversion with those values. -/
noncomputable def caseConv : FloatConv (List Nat) where
  useFast := true
  fast f s t := if h : ∃ p, Longest (DecText f s) t p then
      match caseRound h.choose with
      | .finite v => .ok v h.choose.length
      | _ => .outOfRange
    else .invalid
  strtod t := if h : ∃ p, Longest StrtodText t p then
      match caseRound h.choose with
      | .finite v => ⟨v, h.choose.length, false⟩
      | .tooLarge => ⟨[105], h.choose.length, true⟩
      | .tooSmall => ⟨[], h.choose.length, true⟩
    else ⟨[], 0, false⟩
  isZero v := decide (v = [])
  isInf v := decide (v = [105])
  inf := [105]
  nan := [110]
  copysign b v := if b then 45 :: v else v

theorem sameCase_lower (t : List Nat) : SameButCase t (t.map lower) := by
  unfold SameButCase
  rw [List.map_map]
  refine List.map_congr_left fun c _ => ?_
  show lower c = lower (lower c)
  unfold lower
  repeat' split
  all_goals omega

open Classical in
theorem caseConv_ok : ConvOk caseConv caseRound where
  fast f s c cs p hc hp := by
    have hex : ∃ p, Longest (DecText f s) (c :: cs) p := ⟨p, hp⟩
    have hch : hex.choose = p := longest_unique hex.choose_spec hp
    show (if h : ∃ p, Longest (DecText f s) (c :: cs) p then _ else _) = FastRes.outOfRange ∨ ∃ v, caseRound p = .finite v ∧ (if h : ∃ p, Longest (DecText f s) (c :: cs) p then _ else _) = FastRes.ok v p.length
    rw [dif_pos hex, hch]
    cases caseRound p with
    | finite v => exact Or.inr ⟨v, rfl, rfl⟩
    | tooLarge => exact Or.inl rfl
    | tooSmall => exact Or.inl rfl
  fastNone f s c cs hc h := by
    show (if h : ∃ p, Longest (DecText f s) (c :: cs) p then _ else _) = FastRes.invalid
    rw [dif_neg]
    rintro ⟨p, hp⟩
    exact h p hp.1 hp.2.1
  strtod c cs p hc hp := by
    have hex : ∃ p, Longest StrtodText (c :: cs) p := ⟨p, hp⟩
    have hch : hex.choose = p := longest_unique hex.choose_spec hp
    have : caseConv.strtod (c :: cs) = (match caseRound p with
      | .finite v => ⟨v, p.length, false⟩
      | .tooLarge => ⟨[105], p.length, true⟩
      | .tooSmall => ⟨[], p.length, true⟩ : StrtodRes (List Nat)) := by
      show (if h : ∃ p, Longest StrtodText (c :: cs) p then _ else _) = _
      rw [dif_pos hex, hch]
    rw [this]
    cases hr : caseRound p with
    | finite v =>
      refine ⟨rfl, rfl, ?_, fun _ => rfl⟩
      show decide (v = [105]) = false
      refine decide_eq_false fun hv => ?_
      rcases exRound_finite hr with h | h
      · have h5 : StrtodText [105] := by
          rw [← hv, h]
          exact hp.1.imp (sameCase_dec (sameCase_lower p)) (sameCase_prefixed (sameCase_lower p))
        rcases h5 with h5 | ⟨x, r, h', _⟩
        · obtain ⟨d, ds, h1, h2⟩ := number_head (ty := .floatGeneral) (t := [105]) h5
          cases h1
          rcases h2 with h2 | h2 <;> exact absurd h2 (by decide)
        · cases h'
      · rw [h] at hv; cases hv
    | tooLarge => exact ⟨rfl, rfl, rfl⟩
    | tooSmall => exact ⟨rfl, rfl, rfl⟩
  zero := rfl

theorem caseRound_case (p p' : List Nat) (h : SameButCase p p') : caseRound p = caseRound p' := by
  unfold caseRound
  rw [show p.map lower = p'.map lower from h]

end Scn
