import Verif.Spec.Texts
import Verif.Lemmas.Defined5
/-
What is read into strings are parts of the source.
-/
namespace Scn
open Spec

theorem units_ok {e : Enc} {s : List Nat} (h : Units e s) : UnitsOk e s := by
  intro he; subst he; exact h

theorem units_sub {e : Enc} {s t : List Nat} (h : Units e s) (ht : ∀ c ∈ t, c ∈ s) : Units e t := by
  cases e with
  | utf8 => exact fun c hc => h c (ht c hc)
  | utf16 => exact fun c hc => h c (ht c hc)
  | utf32 => trivial

theorem element_value (p : List Nat) (hp : LooseUnit p) (cp : Nat) (hd : decodeUtf8 p = some cp) : looseValue p = cp := by
  rcases loose_cases p hp with ⟨a, rfl, h⟩ | ⟨a, b, rfl, h⟩ | ⟨a, b, c, rfl, h⟩ | ⟨a, b, c, d, rfl, h⟩
  · rw [dec1, if_pos (by omega)] at hd; exact Option.some.inj hd
  · rw [dec2 _ _ (by omega), if_pos (by omega)] at hd; exact Option.some.inj hd
  · rw [dec3 _ _ _ (by omega), if_pos (by omega)] at hd; exact Option.some.inj hd
  · rw [dec4 _ _ _ _ (by omega), if_pos (by omega)] at hd; exact Option.some.inj hd

/-- One accepted element. -/
theorem element_of {e : Enc} {c : Nat} {cs : List Nat} (hu : Units e (c :: cs)) (h0 : cpLength e c ≠ 0)
    (h1 : cpLength e c ≤ (c :: cs).length) {cp : Nat} (hc : cp < invalidCp)
    (hd : decodeCp e ((c :: cs).take (cpLength e c)) = some cp) : Element e ((c :: cs).take (cpLength e c)) cp := by
  cases e with
  | utf8 =>
    have hb : ∀ b ∈ c :: cs, b < 256 := hu
    obtain ⟨p, r, hp, he⟩ := (loose_iff c cs hb).2 ⟨h0, h1, cp, hc, hd⟩
    have hlen : cpLength8 c = p.length := by
      obtain ⟨c', cs', e1, e2, _⟩ := loose_prefix p r hp (fun b h => hb b (by rw [he]; simp [h]))
      rw [← he] at e1
      simp only [List.cons.injEq] at e1
      rw [e1.1, e2]
    have ht : (c :: cs).take (cpLength .utf8 c) = p := by
      rw [show cpLength .utf8 c = cpLength8 c from rfl, hlen, he, List.take_left]
    rw [ht] at hd ⊢
    exact ⟨hp, element_value p hp cp hd⟩
  | utf16 =>
    have hb : ∀ b ∈ c :: cs, b < 65536 := hu
    have hc16 : c < 65536 := hb c (by simp)
    have hL : cpLength .utf16 c = _ := cpLength16_eq c hc16
    rw [hL] at h0 h1 hd ⊢
    split at hd
    · rename_i hhi
      rw [if_pos hhi] at h1 ⊢
      match cs, h1 with
      | b :: r, _ =>
        simp only [List.take_succ_cons, List.take_zero] at hd ⊢
        simp only [decodeCp, decodeUtf16, Option.some.injEq] at hd
        split at hd
        · omega
        · rename_i hno
          have hor : ((c - 0xd800) <<< 10) ||| (b - 0xdc00) = (c - 0xd800) * 1024 + (b - 0xdc00) := by
            rw [or_shift _ _ 10 (by omega)]
          rw [hor] at hd
          unfold Element
          refine ⟨⟨by unfold invalidCp at hc; omega, by omega⟩, ?_⟩
          unfold utf16
          rw [if_neg (by omega)]
          simp only [List.cons.injEq, and_true]
          omega
    · rename_i hhi
      rw [if_neg hhi] at h0 h1 ⊢
      split at hd
      · rename_i h; rw [if_pos h] at h0; exact absurd rfl h0
      · rename_i hlo
        rw [if_neg hlo]
        simp only [List.take_succ_cons, List.take_zero, decodeCp, decodeUtf16, Option.some.injEq] at hd ⊢
        subst hd
        unfold Element
        refine ⟨⟨by omega, by omega⟩, ?_⟩
        unfold utf16
        rw [if_pos hc16]
  | utf32 =>
    have hL : cpLength .utf32 c = 1 := rfl
    rw [hL] at hd ⊢
    simp only [List.take_succ_cons, List.take_zero, decodeCp, Option.some.injEq] at hd ⊢
    split at hd
    · omega
    · subst hd
      exact ⟨rfl, hc⟩

/-- A validated text consists of elements, whose values are what the decoder for valid text yields. -/
theorem validate_denotes {e : Enc} (n : Nat) (s : List Nat) (hl : s.length ≤ n) (hu : Units e s)
    (h : validateUnicode e s = some true) : ∃ cps, Denotes e s cps ∧ forEachCp e s = some cps := by
  induction n generalizing s with
  | zero =>
    cases s with
    | nil => exact ⟨[], .nil, forEachCp_nil e⟩
    | cons c cs => simp at hl
  | succ n ih =>
    cases s with
    | nil => exact ⟨[], .nil, forEachCp_nil e⟩
    | cons c cs =>
      obtain ⟨h0, h1, cp, hc, hd, hv⟩ := validate_true_cons h
      obtain ⟨cps, i1, i2⟩ := ih _ (by rw [List.length_drop]; simp only [List.length_cons] at *; omega)
        (units_sub hu fun c hc => List.mem_of_mem_drop hc) hv
      refine ⟨cp :: cps, ?_, ?_⟩
      · have := Denotes.cons (element_of hu h0 h1 hc hd) i1
        rwa [List.take_append_drop] at this
      · rw [forEachCp_step e _ _ cp (getNext_of rfl h0 h1 hd), i2]; rfl

theorem denotes_below {e : Enc} {s cps : List Nat} (h : Denotes e s cps) : ∀ cp ∈ cps, cp < 0x110000 := by
  induction h with
  | nil => intro cp h; cases h
  | cons h _ ih =>
    intro x hx
    rcases List.mem_cons.1 hx with rfl | hx
    · cases e with
      | utf8 =>
        obtain ⟨h1, h2⟩ := h
        rw [← h2]
        rcases loose_cases _ h1 with ⟨a, rfl, h⟩ | ⟨a, b, rfl, h⟩ | ⟨a, b, c, rfl, h⟩ | ⟨a, b, c, d, rfl, h⟩
        · rw [looseValue1]; omega
        · rw [looseValue2]; omega
        · rw [looseValue3]; omega
        · rw [looseValue4]; omega
      | utf16 => exact h.1.1
      | utf32 => exact h.2
    · exact ih x hx

theorem denotes_utf32 {s cps : List Nat} (h : Denotes .utf32 s cps) : s = cps := by
  induction h with
  | nil => rfl
  | cons h _ ih => rw [h.1, ih]; rfl

theorem transcode16_low (cps : List Nat) (hb : ∀ cp ∈ cps, cp < 0x10000) : transcode32to16 true cps = encodes .utf16 cps := by
  have key : ∀ cp, cp < 0x10000 → encode16 true cp = encode .utf16 cp := by
    intro cp h
    simp only [encode]
    rw [utf16, encode16, if_pos h, if_neg (by simp), if_pos h]
  unfold transcode32to16 encodes
  rw [List.flatMap_def, List.flatMap_def, List.map_congr_left fun cp h => key cp (hb cp h)]

/-- Transcoding of validated text; to UTF-16 only below U+10000 (`C15_wide16_violated`). -/
theorem transcribed_of {e dst : Enc} {s v : List Nat} (hu : Units e s) (h : validateUnicode e s = some true)
    (ht : transcodeIfNecessary e dst s = .ok v) (hb : ∀ cps, Denotes e s cps → dst = .utf16 → e ≠ .utf16 → ∀ cp ∈ cps, cp < 0x10000) :
    Transcribed e dst s v := by
  obtain ⟨cps, h1, h2⟩ := validate_denotes _ s (Nat.le_refl _) hu h
  refine ⟨cps, h1, ?_⟩
  unfold transcodeIfNecessary at ht
  split at ht
  · rename_i he; rw [if_pos he]; cases ht; rfl
  · rename_i he
    rw [if_neg he]
    have h32 := transcodeValidTo32_eq e s cps h h2
    simp only [transcodeValid, h, ne_eq, not_true_eq_false, if_false] at ht
    cases e with
    | utf8 =>
      cases dst with
      | utf8 => exact absurd rfl he
      | utf16 =>
        rw [h32] at ht
        cases ht
        exact transcode16_low cps (hb cps h1 rfl (by simp))
      | utf32 =>
        rw [h32] at ht
        cases ht
        exact (encodes_utf32 _).symm
    | utf16 =>
      cases dst with
      | utf8 =>
        rw [h32] at ht
        cases ht
        exact transcode32to8_eq true cps (denotes_below h1)
      | utf16 => exact absurd rfl he
      | utf32 => cases ht
    | utf32 =>
      have hs := denotes_utf32 h1
      subst hs
      cases dst with
      | utf8 =>
        cases ht
        exact transcode32to8_eq true s (denotes_below h1)
      | utf16 =>
        cases ht
        exact transcode16_low s (hb s h1 rfl (by simp))
      | utf32 => exact absurd rfl he

/-- What a field's reader read, and where. -/
theorem argRead_inner {V : Type} {e : Enc} {sp : Specs} (hs : sp.fill.units e ≠ []) (rd : Reader V)
    (hrd : ∀ l s, UnitsOk e s → Sound (rd.read l s) s) (lay : List Nat → Layout) (s : List Nat) (hu : UnitsOk e s)
    {v : V} {rest : List Nat} (h : argRead e sp rd lay s = .ok (v, rest)) :
    ∃ pre mid it w l, s = pre ++ (mid ++ it ++ w) ∧ rd.read l (mid ++ it) = .ok (v, it) ∧ rest <:+ it ++ w := by
  unfold argRead at h
  have hb := argBefore_within hs rd.skipWs (lay s) s hu
  cases h1 : argBefore e sp rd.skipWs (lay s) s with
  | ub => exact absurd h1 hb.1
  | err x => rw [h1] at h; cases h
  | ok b =>
    obtain ⟨b, pw⟩ := b
    obtain ⟨hbs, -⟩ := hb.2 b pw h1
    rw [h1] at h
    simp only [Res.bind_ok] at h
    have hub : UnitsOk e b := hu.sub fun _ h => hbs.subset h
    obtain ⟨pre, hpre⟩ := hbs
    cases h2 : argValue e sp rd (lay b) pw b with
    | ub => rw [h2] at h; cases h
    | err x => rw [h2] at h; cases h
    | ok r =>
      obtain ⟨v', q, w⟩ := r
      rw [h2] at h
      simp only [Res.bind_ok] at h
      have hq : ∃ mid it wd l, b = mid ++ it ++ wd ∧ q = it ++ wd ∧ rd.read l (mid ++ it) = .ok (v', it) ∧
          (sp.precision ≠ 0 → pw + w ≤ sp.precision) := by
        unfold argValue at h2
        split at h2
        · split at h2
          · cases h2
          · rename_i hlt
            dsimp only at h2
            have hcw := consumedWidth_le e ((sp.precision : Int) - pw) (by omega) b
            obtain ⟨wd, hwd⟩ := takeWidth_prefix e ((sp.precision : Int) - pw) b
            have hr := hrd (.segmented 0) _ (hub.take ((sp.precision : Int) - pw))
            generalize takeWidth e ((sp.precision : Int) - pw) b = view at *
            cases h3 : rd.read (.segmented 0) view with
            | ub => rw [h3] at h2; cases h2
            | err x => rw [h3] at h2; cases h2
            | ok a =>
              obtain ⟨a, it⟩ := a
              obtain ⟨mid, hmid⟩ := hr.2 a it h3
              rw [h3] at h2
              simp only [Res.map, Res.ok.injEq, Prod.mk.injEq] at h2
              obtain ⟨rfl, rfl, rfl⟩ := h2
              have hcw' := hcw (view.length - it.length) (by omega)
              subst hmid
              refine ⟨mid, it, wd, .segmented 0, hwd.symm, ?_, h3, fun _ => by omega⟩
              rw [← hwd, List.length_append, Nat.add_sub_cancel, List.append_assoc, List.drop_left]
        · rename_i hp0
          have hr := hrd (lay b) b hub
          cases h3 : rd.read (lay b) b with
          | ub => rw [h3] at h2; cases h2
          | err x => rw [h3] at h2; cases h2
          | ok a =>
            obtain ⟨a, it⟩ := a
            obtain ⟨mid, hmid⟩ := hr.2 a it h3
            rw [h3] at h2
            simp only [Res.map, Res.ok.injEq, Prod.mk.injEq] at h2
            obtain ⟨rfl, rfl, -⟩ := h2
            exact ⟨mid, it, [], lay b, by rw [List.append_nil, hmid], by simp, by rw [hmid]; exact h3, fun h => absurd h hp0⟩
      obtain ⟨mid, it, wd, l, e1, rfl, e3, hpv⟩ := hq
      have hrest : rest <:+ it ++ wd ∧ v' = v := by
        have hw : UnitsOk e (it ++ wd) := hub.sub fun c hc => by rw [e1, List.append_assoc]; exact List.mem_append_right _ hc
        cases h4 : argAfter e sp rd.skipWs (lay (it ++ wd)) pw w (it ++ wd) with
        | ub => rw [h4] at h; cases h
        | err x => rw [h4] at h; cases h
        | ok a =>
          rw [h4] at h
          simp only [Res.bind_ok] at h
          cases h5 : checkWidths sp (pw + w + a.2) with
          | ub => rw [h5] at h; cases h
          | err x => rw [h5] at h; cases h
          | ok u =>
            rw [h5] at h
            simp only [Res.bind_ok, Res.ok.injEq, Prod.mk.injEq] at h
            obtain ⟨rfl, rfl⟩ := h
            refine ⟨?_, rfl⟩
            exact ((argAfter_within hs rd.skipWs _ pw w _ hw hpv).2 a.1 a.2 h4).1
      obtain ⟨h6, rfl⟩ := hrest
      exact ⟨pre, mid, it, wd, l, by rw [← hpre, e1], e3, h6⟩

theorem readString_part {e dst : Enc} {a b v rest : List Nat} (hu : Units e a)
    (h : readString e dst (a ++ b) b = .ok (v, rest)) :
    Transcribed e dst a v ∨ (dst = .utf16 ∧ e ≠ .utf16 ∧ ∃ cps, Denotes e a cps ∧ ∃ cp ∈ cps, 0x10000 ≤ cp) := by
  unfold readString at h
  rw [between_append] at h
  split at h
  · cases h
  · cases h
  · rename_i hv
    cases ht : transcodeIfNecessary e dst a with
    | ub => rw [ht] at h; cases h
    | err x => rw [ht] at h; cases h
    | ok t =>
      rw [ht] at h
      simp only [Res.map, Res.ok.injEq, Prod.mk.injEq] at h
      obtain ⟨rfl, -⟩ := h
      by_cases hc : dst = .utf16 ∧ e ≠ .utf16 ∧ ∃ cps, Denotes e a cps ∧ ∃ cp ∈ cps, 0x10000 ≤ cp
      · exact Or.inr hc
      · refine Or.inl (transcribed_of hu hv ht fun cps h1 h2 h3 cp h4 => ?_)
        by_cases hlt : cp < 0x10000
        · exact hlt
        · exact absurd ⟨h2, h3, cps, h1, cp, h4, by omega⟩ hc

theorem readStringView_part {e dst : Enc} {stored : Bool} {a b v rest : List Nat} (hu : Units e a)
    (h : readStringView e dst stored (a ++ b) b = .ok (v, rest)) :
    e = dst ∧ stored = false ∧ v = a ∧ ∃ cps, Denotes e a cps := by
  unfold readStringView at h
  rw [between_append] at h
  split at h
  · cases h
  · rename_i hst
    split at h
    · cases h
    · rename_i he
      split at h
      · cases h
      · cases h
      · rename_i hv
        cases h
        obtain ⟨cps, h1, -⟩ := validate_denotes _ a (Nat.le_refl _) hu hv
        exact ⟨by simpa using he, by simpa using hst, rfl, cps, h1⟩

/-- The readers of strings are `stringEnd` and `read_string_impl`. -/
theorem stringReader_end (e dst : Enc) (sp : Specs) (k : StrKind) (l : Layout) (s : List Nat) :
    (stringReader e dst sp k).read l s = (stringEnd e sp k l s).bind (readString e dst s) := by
  cases k with
  | word =>
    show readWord e dst l s = _
    unfold readWord stringEnd
    dsimp only
    cases readUntilSpace e l s <;> rfl
  | customWord =>
    show readCustomWord e dst sp s = _
    unfold readCustomWord stringEnd
    dsimp only
    split
    · rename_i h; rw [h]; rfl
    · rename_i us h
      split
      · rename_i u h2; exact absurd h2 (by simpa using h u)
      · rfl
  | character =>
    show readCharacters e dst _ s = _
    unfold readCharacters stringEnd
    dsimp only
    by_cases h : (sp.precision != 0) = true
    · rw [if_pos h, if_pos h]; rfl
    · rw [if_neg h, if_neg h]; rfl
  | characterSet => rfl

theorem bind_end {v rest : List Nat} {r : Res (List Nat)} {f : List Nat → Res (List Nat × List Nat)}
    (hf : ∀ x, f x = .ok (v, rest) → rest = x) (h : r.bind f = .ok (v, rest)) : f rest = .ok (v, rest) := by
  cases r with
  | ub => cases h
  | err x => cases h
  | ok x =>
    simp only [Res.bind_ok] at h
    have := hf x h
    rw [this] at h ⊢
    exact h

theorem readString_rest {e dst : Enc} {s x v rest : List Nat} (h : readString e dst s x = .ok (v, rest)) : rest = x := by
  unfold readString at h
  split at h
  · cases h
  · cases h
  · cases ht : transcodeIfNecessary e dst (between s x) with
    | ub => rw [ht] at h; cases h
    | err y => rw [ht] at h; cases h
    | ok t =>
      rw [ht] at h
      simp only [Res.map, Res.ok.injEq, Prod.mk.injEq] at h
      exact h.2.symm

theorem readStringView_rest {e dst : Enc} {st : Bool} {s x v rest : List Nat} (h : readStringView e dst st s x = .ok (v, rest)) :
    rest = x := by
  unfold readStringView at h
  split at h
  · cases h
  · split at h
    · cases h
    · split at h
      · cases h
      · cases h
      · cases h; rfl

/-- Every reader of a string ends with `read_string_impl`. -/
theorem string_specs_end {e wide dst : Enc} {loc : LocaleData} {old : Nat} {sp : Specs} {l : Layout} {s it : List Nat} {v : Val}
    (h : ((Dest.string dst).specsReader e wide loc old sp).read l s = .ok (v, it)) :
    ∃ w, v = .string w ∧ readString e dst s it = .ok (w, it) := by
  have key : ∀ r : Res (List Nat), (r.bind (readString e dst s)).map (fun r => (Val.string r.1, r.2)) = .ok (v, it) →
      ∃ w, v = .string w ∧ readString e dst s it = .ok (w, it) := by
    intro r h
    cases hr : r.bind (readString e dst s) with
    | ub => rw [hr] at h; cases h
    | err x => rw [hr] at h; cases h
    | ok a =>
      rw [hr] at h
      obtain ⟨w, i⟩ := a
      simp only [Res.map, Res.ok.injEq, Prod.mk.injEq] at h
      obtain ⟨rfl, rfl⟩ := h
      exact ⟨w, rfl, bind_end (fun x hx => readString_rest hx) hr⟩
  cases hk : strKind sp with
  | some k =>
    simp only [Dest.specsReader, hk] at h
    have h' : ((stringReader e dst sp k).read l s).map (fun r => (Val.string r.1, r.2)) = .ok (v, it) := h
    rw [stringReader_end] at h'
    exact key _ h'
  | none =>
    simp only [Dest.specsReader, hk] at h
    exact key _ h

/-- Every reader of a string view ends with `read_string_view_impl`. -/
theorem view_specs_end {e wide dst : Enc} {st : Bool} {loc : LocaleData} {old : Nat} {sp : Specs} {l : Layout} {s it : List Nat} {v : Val}
    (h : ((Dest.view dst st).specsReader e wide loc old sp).read l s = .ok (v, it)) :
    ∃ w, v = .string w ∧ readStringView e dst st s it = .ok (w, it) := by
  have key : ∀ r : Res (List Nat), (r.bind (readStringView e dst st s)).map (fun r => (Val.string r.1, r.2)) = .ok (v, it) →
      ∃ w, v = .string w ∧ readStringView e dst st s it = .ok (w, it) := by
    intro r h
    cases hr : r.bind (readStringView e dst st s) with
    | ub => rw [hr] at h; cases h
    | err x => rw [hr] at h; cases h
    | ok a =>
      rw [hr] at h
      obtain ⟨w, i⟩ := a
      simp only [Res.map, Res.ok.injEq, Prod.mk.injEq] at h
      obtain ⟨rfl, rfl⟩ := h
      exact ⟨w, rfl, bind_end (fun x hx => readStringView_rest hx) hr⟩
  cases hk : strKind sp with
  | some k =>
    simp only [Dest.specsReader, hk] at h
    exact key _ h
  | none =>
    simp only [Dest.specsReader, hk] at h
    exact key _ h

theorem defaultRead_inner {V : Type} {e : Enc} (rd : Reader V)
    (hrd : ∀ l s, UnitsOk e s → Sound (rd.read l s) s) (lay : List Nat → Layout) (s : List Nat) (hu : UnitsOk e s)
    {v : V} {rest : List Nat} (h : defaultRead e rd lay s = .ok (v, rest)) :
    ∃ pre mid l, s = pre ++ mid ++ rest ∧ rd.read l (mid ++ rest) = .ok (v, rest) := by
  unfold defaultRead at h
  split at h
  · cases h
  · split at h
    · rcases skipSpace_cases e (lay s) false s hu with ⟨x, hx⟩ | ⟨p, hp, hps⟩
      · rw [hx] at h; cases h
      · rw [hp] at h
        simp only [Res.bind_ok] at h
        obtain ⟨mid, hmid⟩ := (hrd (lay p) p (hu.suffix hps)).2 v rest h
        obtain ⟨pre, hpre⟩ := hps
        exact ⟨pre, mid, lay p, by rw [List.append_assoc, hmid, hpre], by rw [hmid]; exact h⟩
    · obtain ⟨mid, hmid⟩ := (hrd (lay s) s hu).2 v rest h
      exact ⟨[], mid, lay s, by rw [List.nil_append, hmid], by rw [hmid]; exact h⟩

/-- Strings with a specification. -/
theorem string_specs_part {e wide dst : Enc} {loc : LocaleData} {old : Nat} {sp : Specs} (hp : EncPair e dst) (hsp : SpecsOk e sp)
    {lay : List Nat → Layout} {s rest : List Nat} (hu : Units e s) {v : Val}
    (h : (Dest.string dst).readSpecs e wide loc old sp lay s = .ok (v, rest)) : ∃ w, v = .string w ∧ PartOf e dst s rest w := by
  unfold Dest.readSpecs at h
  split at h
  · cases h
  · cases h
  · rename_i hck
    have hd : (Dest.string dst).Tame e := hp
    obtain ⟨pre, mid, it, wd, l, h1, h2, h3⟩ := argRead_inner hsp.fill _ (specsReader_sound e wide loc old hd hsp hck) lay s (units_ok hu) h
    obtain ⟨w, rfl, h4⟩ := string_specs_end h2
    refine ⟨w, rfl, pre, mid, it ++ wd, by rw [h1]; simp only [List.append_assoc], h3, ?_⟩
    exact readString_part (units_sub hu fun c hc => by rw [h1]; simp [hc]) h4

/-- String views with a specification. -/
theorem view_specs_part {e wide dst : Enc} {st : Bool} {loc : LocaleData} {old : Nat} {sp : Specs} (hsp : SpecsOk e sp)
    {lay : List Nat → Layout} {s rest : List Nat} (hu : Units e s) {v : Val}
    (h : (Dest.view dst st).readSpecs e wide loc old sp lay s = .ok (v, rest)) :
    e = dst ∧ st = false ∧ ∃ pre mid post cps, s = pre ++ mid ++ post ∧ rest <:+ post ∧ v = .string mid ∧ Denotes e mid cps := by
  unfold Dest.readSpecs at h
  split at h
  · cases h
  · cases h
  · rename_i hck
    have hd : (Dest.view dst st).Tame e := trivial
    obtain ⟨pre, mid, it, wd, l, h1, h2, h3⟩ := argRead_inner hsp.fill _ (specsReader_sound e wide loc old hd hsp hck) lay s (units_ok hu) h
    obtain ⟨w, rfl, h4⟩ := view_specs_end h2
    obtain ⟨h5, h6, rfl, cps, h7⟩ := readStringView_part (units_sub hu fun c hc => by rw [h1]; simp [hc]) h4
    exact ⟨h5, h6, pre, w, it ++ wd, cps, by rw [h1]; simp only [List.append_assoc], h3, rfl, h7⟩

/-- Strings without a specification. -/
theorem string_default_part {e wide dst : Enc} (hp : EncPair e dst) {lay : List Nat → Layout} {s rest : List Nat} (hu : Units e s) {v : Val}
    (h : defaultRead e ((Dest.string dst).defaultReader e wide) lay s = .ok (v, rest)) : ∃ w, v = .string w ∧ PartOf e dst s rest w := by
  have hd : (Dest.string dst).Tame e := hp
  obtain ⟨pre, mid, l, h1, h2⟩ := defaultRead_inner _ (defaultReader_sound e wide hd) lay s (units_ok hu) h
  have h2' : ((stringReader e dst {} .word).read l (mid ++ rest)).map (fun r => (Val.string r.1, r.2)) = .ok (v, rest) := h2
  rw [stringReader_end] at h2'
  cases hr : (stringEnd e {} .word l (mid ++ rest)).bind (readString e dst (mid ++ rest)) with
  | ub => rw [hr] at h2'; cases h2'
  | err x => rw [hr] at h2'; cases h2'
  | ok a =>
    rw [hr] at h2'
    obtain ⟨w, i⟩ := a
    simp only [Res.map, Res.ok.injEq, Prod.mk.injEq] at h2'
    obtain ⟨rfl, rfl⟩ := h2'
    have h4 := bind_end (fun x hx => readString_rest hx) hr
    exact ⟨w, rfl, pre, mid, i, h1, List.suffix_refl _, readString_part (units_sub hu fun c hc => by rw [h1]; simp [hc]) h4⟩

/-- String views without a specification. -/
theorem view_default_part {e wide dst : Enc} {st : Bool} {lay : List Nat → Layout} {s rest : List Nat} (hu : Units e s) {v : Val}
    (h : defaultRead e ((Dest.view dst st).defaultReader e wide) lay s = .ok (v, rest)) :
    e = dst ∧ st = false ∧ ∃ pre mid post cps, s = pre ++ mid ++ post ∧ rest <:+ post ∧ v = .string mid ∧ Denotes e mid cps := by
  have hd : (Dest.view dst st).Tame e := trivial
  obtain ⟨pre, mid, l, h1, h2⟩ := defaultRead_inner _ (defaultReader_sound e wide hd) lay s (units_ok hu) h
  have h2' : ((stringEnd e {} .word l (mid ++ rest)).bind (readStringView e dst st (mid ++ rest))).map (fun r => (Val.string r.1, r.2)) = .ok (v, rest) := h2
  cases hr : (stringEnd e {} .word l (mid ++ rest)).bind (readStringView e dst st (mid ++ rest)) with
  | ub => rw [hr] at h2'; cases h2'
  | err x => rw [hr] at h2'; cases h2'
  | ok a =>
    rw [hr] at h2'
    obtain ⟨w, i⟩ := a
    simp only [Res.map, Res.ok.injEq, Prod.mk.injEq] at h2'
    obtain ⟨rfl, rfl⟩ := h2'
    have h4 := bind_end (fun x hx => readStringView_rest hx) hr
    obtain ⟨h5, h6, rfl, cps, h7⟩ := readStringView_part (units_sub hu fun c hc => by rw [h1]; simp [hc]) h4
    exact ⟨h5, h6, pre, w, i, cps, h1, List.suffix_refl _, rfl, h7⟩

end Scn
