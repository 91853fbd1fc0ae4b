import Verif.Lemmas.Alone
import Verif.Lemmas.Texts
/-
The readers: what a value has consumed is read the same on its own.
-/
namespace Scn
open Spec
variable {V : Type}

/-- What has been read, read again without what followed it. -/
def Alone (e : Enc) (rd : Layout → List Nat → Res (V × List Nat)) : Prop :=
  ∀ l, (l = .contiguous ∨ l = .segmented 0) → ∀ a b q v, (∀ c ∈ a ++ q, IsScalar c) → b <:+ a →
    rd l (encodes e (a ++ q)) = .ok (v, encodes e (b ++ q)) → rd l (encodes e a) = .ok (v, encodes e b)

/-- A value that begins with a character that is not whitespace is not empty. -/
def Moves (e : Enc) (rd : Layout → List Nat → Res (V × List Nat)) : Prop :=
  ∀ l, (l = .contiguous ∨ l = .segmented 0) → ∀ c cps v r, (∀ x ∈ c :: cps, IsScalar x) → isSpace c = false →
    rd l (encodes e (c :: cps)) = .ok (v, r) → r.length < (encodes e (c :: cps)).length

theorem map_ok {α β : Type} {x : Res α} {f : α → β} {y : β} (h : x.map f = .ok y) : ∃ z, x = .ok z ∧ f z = y := by
  cases x with
  | ok z => cases h; exact ⟨z, rfl, rfl⟩
  | err z => cases h
  | ub => cases h

theorem Alone.map {W : Type} {e : Enc} {rd : Reader V} (f : V → W) (h : Alone e rd.read) : Alone e (rd.mapVal f).read := by
  intro l hl a b q v hs hb hr
  obtain ⟨z, h1, h2⟩ := map_ok (x := rd.read l (encodes e (a ++ q))) hr
  obtain ⟨z1, z2⟩ := z
  simp only [Prod.mk.injEq] at h2
  obtain ⟨rfl, rfl⟩ := h2
  show (rd.read l (encodes e a)).map _ = _
  rw [h l hl a b q z1 hs hb h1]
  rfl

theorem Moves.map {W : Type} {e : Enc} {rd : Reader V} (f : V → W) (h : Moves e rd.read) : Moves e (rd.mapVal f).read := by
  intro l hl c cps v r hs hc hr
  obtain ⟨z, h1, h2⟩ := map_ok (x := rd.read l (encodes e (c :: cps))) hr
  cases h2
  exact h l hl c cps _ _ hs hc h1

theorem encodes_inj (e : Enc) {a b : List Nat} (ha : ∀ c ∈ a, IsScalar c) (hb : ∀ c ∈ b, IsScalar c) (h : encodes e a = encodes e b) : a = b := by
  have h1 := (encodes_prefix_iff e ha hb).1 (h ▸ List.prefix_refl _)
  have h2 := (encodes_prefix_iff e hb ha).1 (h ▸ List.prefix_refl _)
  exact h1.eq_of_length_le h2.length_le

/-- The same on units. -/
theorem Alone.units {e : Enc} {rd : List Nat → Res (V × List Nat)}
    (h : ∀ s t r v, r.length ≤ s.length → rd (s ++ t) = .ok (v, r ++ t) → rd s = .ok (v, r)) : Alone e (fun _ s => rd s) := by
  intro l _ a b q v _ hb hr
  dsimp only at hr ⊢
  rw [encodes_append, encodes_append] at hr
  obtain ⟨c, rfl⟩ := hb
  exact h _ _ _ _ (by rw [encodes_append, List.length_append]; omega) hr

/-! ### Integers -/

theorem encodes_narrow {e : Enc} {cps : List Nat} (hs : ∀ c ∈ cps, IsScalar c) (l : Layout) : NarrowBytes (srcOf e l) (encodes e cps) := by
  intro hn
  have he : e = .utf8 := by simpa [srcOf] using hn
  exact encodes_unitsOk e hs he

theorem readInt_alone_at {e : Enc} {T : IntTy} (hT : T.Std) {sp : IntSpecs} (hbase : sp.base = 0 ∨ (2 ≤ sp.base ∧ sp.base ≤ 36)) :
    Alone e (fun l s => readInt (srcOf e l) T sp s) := by
  intro l _ a b q v hs hb hr
  dsimp only at hr ⊢
  have hn : NarrowBytes (srcOf e l) (encodes e (a ++ q)) := encodes_narrow hs l
  rw [encodes_append] at hr hn
  rw [encodes_append] at hr
  refine (readInt_alone hT hbase hn ?_ hr).1
  obtain ⟨c, rfl⟩ := hb
  rw [encodes_append, List.length_append]; omega

theorem between_length {e : Enc} {cps r : List Nat} (h : Between e cps r) : r.length ≤ (encodes e cps).length := by
  obtain ⟨t, ⟨c, rfl⟩, rfl⟩ := h
  rw [encodes_append, List.length_append]; omega

theorem readInt_moves {e : Enc} {T : IntTy} (hT : T.Std) {sp : IntSpecs} (hbase : sp.base = 0 ∨ (2 ≤ sp.base ∧ sp.base ≤ 36))
    (hsep : ∀ c, sp.thsep = some c → Single e c) : Moves e (fun l s => readInt (srcOf e l) T sp s) := by
  intro l _ c cps v r hs _ hr
  have hb := between_length (readInt_keeps (T := T) hbase hsep l _ hs v r hr)
  refine (readInt_alone (t := []) (r := r) (v := v) hT hbase (by rw [List.append_nil]; exact encodes_narrow hs l) hb ?_).2
  rw [List.append_nil, List.append_nil]; exact hr

theorem intSpecs_alone {e : Enc} {loc : LocaleData} {T : IntTy} (hT : T.Std) (sp : Specs) : Alone e (intSpecsReader e loc T sp).read := by
  intro l hl a b q v hs hb hr
  simp only [intSpecsReader] at hr ⊢
  cases hg : sp.getBase with
  | none => rw [hg] at hr; cases hr
  | some n =>
    rw [hg] at hr
    exact readInt_alone_at hT (getBase_bound hg) l hl a b q v hs hb hr

theorem intSpecs_moves {e : Enc} {loc : LocaleData} (hloc : PlainLocale e loc) {T : IntTy} (hT : T.Std) (sp : Specs) :
    Moves e (intSpecsReader e loc T sp).read := by
  intro l hl c cps v r hs hc hr
  simp only [intSpecsReader] at hr
  cases hg : sp.getBase with
  | none => rw [hg] at hr; cases hr
  | some n =>
    rw [hg] at hr
    refine readInt_moves hT (sp := ⟨n, decide (sp.type = .intUnsigned), if sp.localized then some loc.thsep else none⟩) (getBase_bound hg)
      (fun x hx => ?_) l hl c cps v r hs hc hr
    dsimp only at hx
    split at hx
    · cases hx; exact hloc.thsep
    · cases hx

/-! ### Truth values -/

/-- A reader of a name, on a part of the text. -/
structure NameAlone (f : List Nat → Option (Bool × List Nat)) : Prop where
  some : ∀ s t b r, r.length ≤ s.length → f (s ++ t) = .some (b, r ++ t) → f s = .some (b, r)
  none : ∀ s t, f (s ++ t) = .none → f s = .none

theorem matching_alone (w : List Nat) {s t r : List Nat} (h : readMatchingString w (s ++ t) = some (r ++ t)) : readMatchingString w s = some r := by
  rw [readMatchingString_iff] at h ⊢
  rw [← List.append_assoc] at h
  exact List.append_cancel_right h

theorem matching_none_alone (w : List Nat) {s t : List Nat} (h : readMatchingString w (s ++ t) = none) : readMatchingString w s = none := by
  rw [readMatchingString_none] at h ⊢
  exact fun hp => h (hp.trans (List.prefix_append _ _))

/-- Two names in order. -/
theorem two_alone (w x : List Nat) (b c : Bool) : NameAlone (fun s => match readMatchingString w s with
    | .some r => some (b, r)
    | .none => match readMatchingString x s with
      | .some r => some (c, r)
      | .none => .none) where
  some s t d r _ h := by
    cases h1 : readMatchingString w (s ++ t) with
    | some y => rw [h1] at h; cases h; rw [matching_alone w h1]
    | none =>
      rw [h1] at h
      rw [matching_none_alone w h1]
      dsimp only at h ⊢
      cases h2 : readMatchingString x (s ++ t) with
      | some y => rw [h2] at h; cases h; rw [matching_alone x h2]
      | none => rw [h2] at h; cases h
  none s t h := by
    cases h1 : readMatchingString w (s ++ t) with
    | some y => rw [h1] at h; cases h
    | none =>
      rw [h1] at h
      rw [matching_none_alone w h1]
      dsimp only at h ⊢
      cases h2 : readMatchingString x (s ++ t) with
      | some y => rw [h2] at h; cases h
      | none => rw [matching_none_alone x h2]

theorem readBoolNumeric_alone : NameAlone readBoolNumeric where
  some s t b r hl h := by
    cases s with
    | nil =>
      cases r with
      | cons => simp at hl
      | nil =>
        exfalso
        unfold readBoolNumeric readMatchingUnit at h
        cases t with
        | nil => simp at h
        | cons c cs =>
          simp only [List.nil_append] at h
          have hne : cs ≠ c :: cs := by simp
          by_cases h48 : c = 48
          · rw [if_neg (by simpa using h48)] at h
            simp at h
          · rw [if_pos h48] at h
            by_cases h49 : c = 49
            · rw [if_neg (by simpa using h49)] at h
              simp at h
            · rw [if_pos h49] at h; cases h
    | cons c cs =>
      unfold readBoolNumeric readMatchingUnit at h ⊢
      simp only [List.cons_append] at h ⊢
      by_cases h48 : c = 48
      · rw [if_neg (by simpa using h48)] at h ⊢
        simp only [Option.some.injEq, Prod.mk.injEq] at h ⊢
        exact ⟨h.1, List.append_cancel_right h.2⟩
      · rw [if_pos h48] at h ⊢
        by_cases h49 : c = 49
        · rw [if_neg (by simpa using h49)] at h ⊢
          simp only [Option.some.injEq, Prod.mk.injEq] at h ⊢
          exact ⟨h.1, List.append_cancel_right h.2⟩
        · rw [if_pos h49] at h; cases h
  none s t h := by
    cases s with
    | nil => rfl
    | cons c cs =>
      unfold readBoolNumeric readMatchingUnit at h ⊢
      simp only [List.cons_append] at h ⊢
      by_cases h48 : c = 48
      · rw [if_neg (by simpa using h48)] at h; cases h
      · rw [if_pos h48] at h ⊢
        by_cases h49 : c = 49
        · rw [if_neg (by simpa using h49)] at h; cases h
        · rw [if_pos h49]

theorem readBool_alone {e : Enc} {numeric text : Bool} {rdText : List Nat → Option (Bool × List Nat)} (ht : NameAlone rdText) :
    Alone e (fun _ s => readBool numeric text rdText s) := by
  refine Alone.units fun s t r v hl h => ?_
  unfold readBool at h ⊢
  have hsel : ∀ (b : Bool) (f : List Nat → Option (Bool × List Nat)), NameAlone f → NameAlone (fun s => if b then f s else none) := by
    intro b f hf
    cases b with
    | true => simpa using hf
    | false => exact ⟨fun _ _ _ _ _ h => by simp at h, fun _ _ _ => rfl⟩
  have h1 := hsel numeric _ readBoolNumeric_alone
  have h2 := hsel text _ ht
  cases hx : (if numeric then readBoolNumeric (s ++ t) else none) with
  | some y => rw [hx] at h; cases h; rw [h1.some _ _ _ _ hl hx]
  | none =>
    rw [hx] at h
    rw [h1.none _ _ hx]
    dsimp only at h ⊢
    cases hy : (if text then rdText (s ++ t) else none) with
    | some y => rw [hy] at h; cases h; rw [h2.some _ _ _ _ hl hy]
    | none => rw [hy] at h; cases h

theorem readBool_moves {e : Enc} {numeric text : Bool} {rdText : List Nat → Option (Bool × List Nat)}
    (ht : ∀ s b r, rdText s = some (b, r) → r.length < s.length) : Moves e (fun _ s => readBool numeric text rdText s) := by
  intro l _ c cps v r _ _ h
  dsimp only at h
  generalize encodes e (c :: cps) = s at h ⊢
  unfold readBool at h
  split at h
  · rename_i x hx
    cases h
    split at hx
    · unfold readBoolNumeric readMatchingUnit at hx
      cases s with
      | nil => simp at hx
      | cons d ds =>
        dsimp only at hx
        by_cases h48 : d = 48
        · rw [if_neg (by simpa using h48)] at hx; cases hx; simp
        · rw [if_pos h48] at hx
          dsimp only at hx
          by_cases h49 : d = 49
          · rw [if_neg (by simpa using h49)] at hx; cases hx; simp
          · rw [if_pos h49] at hx; cases hx
    · cases hx
  · split at h
    · rename_i x hx
      cases h
      split at hx
      · exact ht _ _ _ hx
      · cases hx
    · cases h

theorem matching_shorter {w s r : List Nat} (hw : w ≠ []) (h : readMatchingString w s = some r) : r.length < s.length := by
  rw [readMatchingString_iff] at h
  have := List.length_pos_iff.2 hw
  rw [h, List.length_append]; omega

theorem readBoolText_alone : NameAlone readBoolText := two_alone [116, 114, 117, 101] [102, 97, 108, 115, 101] true false

theorem readBoolText_shorter (s : List Nat) (b : Bool) (r : List Nat) (h : readBoolText s = some (b, r)) : r.length < s.length := by
  unfold readBoolText at h
  split at h
  · rename_i hx; cases h; exact matching_shorter (by simp) hx
  · split at h
    · rename_i hx; cases h; exact matching_shorter (by simp) hx
    · cases h

theorem readBoolNames_alone (t f : List Nat) : NameAlone (readBoolNames t f) := two_alone _ _ _ _

theorem readBoolNames_shorter {t f : List Nat} (ht : t ≠ []) (hf : f ≠ []) (s : List Nat) (b : Bool) (r : List Nat)
    (h : readBoolNames t f s = some (b, r)) : r.length < s.length := by
  unfold readBoolNames at h
  dsimp only at h
  split at h
  · rename_i hx; cases h; exact matching_shorter (by split <;> assumption) hx
  · split at h
    · rename_i hx; cases h; exact matching_shorter (by split <;> assumption) hx
    · cases h

/-! ### Characters -/

theorem codePoint_alone (e : Enc) : Alone e (codePointReader e).read := by
  intro l _ a b q v hs hb h
  have h' : readCodePoint e (encodes e (a ++ q)) = .ok (v, encodes e (b ++ q)) := h
  show readCodePoint e (encodes e a) = _
  have hsb : ∀ c ∈ b ++ q, IsScalar c := fun c hc => hs c (by
    rcases List.mem_append.1 hc with hc | hc
    · exact List.mem_append_left _ (hb.subset hc)
    · exact List.mem_append_right _ hc)
  cases a with
  | nil =>
    exfalso
    have : b = [] := List.suffix_nil.1 hb
    subst this
    cases q with
    | nil => simp [readCodePoint, encodes_nil, readCpInto] at h'
    | cons x q =>
      rw [List.nil_append, encodes_cons, readCodePoint_encode e x (hs x (by simp))] at h'
      have h2 := congrArg (fun r : Res (Nat × List Nat) => match r with | .ok x => x.2.length | _ => 0) h'
      dsimp only at h2
      rw [List.length_append] at h2
      have := List.length_pos_iff.2 (encode_ne_nil e x)
      omega
  | cons x a =>
    rw [List.cons_append, encodes_cons, readCodePoint_encode e x (hs x (by simp))] at h'
    rw [encodes_cons, readCodePoint_encode e x (hs x (by simp))]
    cases hx : (encodes e (a ++ q))
    all_goals
      rw [hx] at h'
      injection h' with h'
      injection h' with h1 h2
      rw [← hx] at h2
      have := encodes_inj e (fun c hc => hs c (by simp at hc ⊢; exact Or.inr hc)) hsb h2
      rw [h1, List.append_cancel_right this]

theorem wideChar_alone (e wide : Enc) : Alone e (fun _ s => readWideChar e wide s) := by
  intro l hl a b q v hs hb h
  have h' : (readCodePoint e (encodes e (a ++ q))).bind (fun r => (encodeWide wide r.1 true).map fun c => (c, r.2)) = .ok (v, encodes e (b ++ q)) := h
  show (readCodePoint e (encodes e a)).bind (fun r => (encodeWide wide r.1 true).map fun c => (c, r.2)) = _
  cases hx : readCodePoint e (encodes e (a ++ q)) with
  | ub => rw [hx] at h'; cases h'
  | err x => rw [hx] at h'; cases h'
  | ok x =>
    rw [hx, Res.bind_ok] at h'
    obtain ⟨y, hy, hz⟩ := map_ok h'
    cases hz' : x.2
    all_goals
      injection hz with h1 h2
      have := codePoint_alone e l hl a b q x.1 hs hb (by rw [← h2]; exact hx)
      have this : readCodePoint e (encodes e a) = _ := this
      rw [this, Res.bind_ok]
      dsimp only
      rw [hy, ← h1]
      rfl

theorem readCodeUnit_alone (e : Enc) : Alone e (fun _ s => readCodeUnit s) := by
  refine Alone.units fun s t r v hl h => ?_
  cases s with
  | nil =>
    cases r with
    | cons => simp at hl
    | nil =>
      cases t with
      | nil => cases h
      | cons c cs => simp [readCodeUnit] at h
  | cons c cs =>
    simp only [List.cons_append, readCodeUnit, Res.ok.injEq, Prod.mk.injEq] at h ⊢
    exact ⟨h.1, List.append_cancel_right h.2⟩

theorem wcharDefault_alone (e wide : Enc) : Alone e (fun _ s => readWcharDefault e wide s) := by
  intro l hl a b q v hs hb h
  dsimp only at h ⊢
  unfold readWcharDefault at h ⊢
  split at h
  · rename_i he
    rw [if_pos he]
    exact wideChar_alone e wide l hl a b q v hs hb h
  · rename_i he
    rw [if_neg he]
    exact readCodeUnit_alone e l hl a b q v hs hb h

/-! ### Strings -/

theorem good_layout {e : Enc} {l : Layout} (hl : l = .contiguous ∨ l = .segmented 0) (cps : List Nat) : GoodLayout e l cps := by
  rcases hl with rfl | rfl
  · cases e <;> trivial
  · exact goodLayout_zero e cps

/-- The end of the text, found again in a part that ends after it. -/
def EndAlone (e : Enc) (f : Layout → List Nat → Res (List Nat)) : Prop :=
  ∀ l, (l = .contiguous ∨ l = .segmented 0) → ∀ a b q, (∀ c ∈ a ++ q, IsScalar c) → b <:+ a →
    f l (encodes e (a ++ q)) = .ok (encodes e (b ++ q)) → f l (encodes e a) = .ok (encodes e b)

theorem dropWhile_encodes_alone {e : Enc} {p : Nat → Bool} {a b q : List Nat} (hs : ∀ c ∈ a ++ q, IsScalar c) (hb : b <:+ a)
    (h : encodes e ((a ++ q).dropWhile p) = encodes e (b ++ q)) : a.dropWhile p = b := by
  have hsb : ∀ c ∈ b ++ q, IsScalar c := fun c hc => hs c (by
    rcases List.mem_append.1 hc with hc | hc
    · exact List.mem_append_left _ (hb.subset hc)
    · exact List.mem_append_right _ hc)
  exact (dropWhile_cut (encodes_inj e (fun c hc => hs c ((List.dropWhile_suffix _).subset hc)) hsb h)).1

theorem units_end_alone {e : Enc} {p : Nat → Bool} {a b q : List Nat}
    (h : (encodes e (a ++ q)).dropWhile p = encodes e (b ++ q)) : (encodes e a).dropWhile p = encodes e b := by
  rw [encodes_append, encodes_append] at h
  exact (dropWhile_cut h).1

theorem checkNonempty_alone {it s t r : List Nat} (h : checkNonempty it (s ++ t) = .ok (r ++ t)) : it = r ++ t ∧ checkNonempty r s = .ok r := by
  unfold checkNonempty at h ⊢
  split at h
  · cases h
  · rename_i hn
    cases h
    refine ⟨rfl, if_neg ?_⟩
    rw [List.length_append, List.length_append] at hn
    omega

theorem charsetSource_alone {e : Enc} {sp : Specs} : EndAlone e (fun _ s => charsetSource e sp s) := by
  intro l _ a b q hs hb h
  dsimp only at h ⊢
  have hsa : ∀ c ∈ a, IsScalar c := fun c hc => hs c (List.mem_append_left _ hc)
  unfold charsetSource at h ⊢
  cases hr : handleNonascii e sp with
  | ub => rw [hr] at h; cases h
  | err x => rw [hr] at h; cases h
  | ok ranges =>
    rw [hr, Res.bind_ok] at h
    rw [Res.bind_ok]
    have key : ∀ p : Nat → Bool, checkNonempty (encodes e ((a ++ q).dropWhile p)) (encodes e (a ++ q)) = .ok (encodes e (b ++ q)) →
        checkNonempty (encodes e (a.dropWhile p)) (encodes e a) = .ok (encodes e b) := by
      intro p hc
      rw [encodes_append e a, encodes_append e b] at hc
      obtain ⟨h1, h2⟩ := checkNonempty_alone hc
      rw [← encodes_append] at h1
      rw [dropWhile_encodes_alone hs hb h1]
      exact h2
    have key2 : ∀ p : Nat → Bool, checkNonempty ((encodes e (a ++ q)).dropWhile p) (encodes e (a ++ q)) = .ok (encodes e (b ++ q)) →
        checkNonempty ((encodes e a).dropWhile p) (encodes e a) = .ok (encodes e b) := by
      intro p hc
      rw [encodes_append e a, encodes_append e b] at hc
      obtain ⟨h1, h2⟩ := checkNonempty_alone hc
      rw [(dropWhile_cut h1).1]
      exact h2
    cases hna : sp.nonascii with
    | true =>
      rw [hna] at h
      cases hi : sp.inverted with
      | true =>
        rw [hi] at h
        simp only [if_true, readUntilCp_encodes e _ _ hs, readUntilCp_encodes e _ _ hsa] at h ⊢
        exact key _ h
      | false =>
        rw [hi] at h
        simp only [if_true, if_false, readWhileCp, readUntilCp_encodes e _ _ hs, readUntilCp_encodes e _ _ hsa, Bool.false_eq_true] at h ⊢
        exact key _ h
    | false =>
      rw [hna] at h
      cases hi : sp.inverted with
      | true =>
        rw [hi] at h
        simp only [if_true, if_false, Bool.false_eq_true] at h ⊢
        exact key2 _ h
      | false =>
        rw [hi] at h
        simp only [if_false, Bool.false_eq_true] at h ⊢
        exact key2 _ h

theorem stringEnd_alone {e : Enc} {sp : Specs} (hfill : ∃ f, IsScalar f ∧ sp.fill.units e = encode e f) (k : StrKind) :
    EndAlone e (stringEnd e sp k) := by
  intro l hl a b q hs hb h
  have hsa : ∀ c ∈ a, IsScalar c := fun c hc => hs c (List.mem_append_left _ hc)
  cases k with
  | word =>
    simp only [stringEnd] at h ⊢
    rw [readUntilSpace_encodes e l _ hs (good_layout hl _)] at h
    rw [readUntilSpace_encodes e l _ hsa (good_layout hl _)]
    dsimp only at h ⊢
    rw [dropWhile_encodes_alone hs hb (Res.ok.inj h)]
  | customWord =>
    obtain ⟨f, hf, hfu⟩ := hfill
    have hun : ∀ cps, (∀ c ∈ cps, IsScalar c) → stringEnd e sp .customWord l (encodes e cps) =
        match encode e f with
        | [u] => .ok ((encodes e cps).dropWhile (fun c => ! (c == u)))
        | _ => .ok (encodes e (cps.dropWhile (· != f))) := by
      intro cps hc
      simp only [stringEnd, hfu]
      have hu := readUntilUnits_encodes e f hf cps hc
      generalize encode e f = us at hu
      rcases us with _ | ⟨u, _ | ⟨w, us⟩⟩
      · dsimp only; rw [hu]
      · rfl
      · dsimp only; rw [hu]
    rw [hun _ hs] at h
    rw [hun _ hsa]
    generalize encode e f = us at h
    rcases us with _ | ⟨u, _ | ⟨w, us⟩⟩
    · dsimp only at h ⊢; rw [dropWhile_encodes_alone hs hb (Res.ok.inj h)]
    · dsimp only at h ⊢; rw [units_end_alone (Res.ok.inj h)]
    · dsimp only at h ⊢; rw [dropWhile_encodes_alone hs hb (Res.ok.inj h)]
  | character =>
    simp only [stringEnd] at h ⊢
    split at h
    · rename_i hp
      rw [if_pos hp]
      have hnil : encodes e (b ++ q) = [] := (Res.ok.inj h).symm
      rw [encodes_append, List.append_eq_nil_iff] at hnil
      rw [hnil.1]; rfl
    · cases h
  | characterSet => exact charsetSource_alone l hl a b q hs hb h

theorem between_alone {e : Enc} {a b q : List Nat} (hb : b <:+ a) :
    between (encodes e (a ++ q)) (encodes e (b ++ q)) = between (encodes e a) (encodes e b) := by
  obtain ⟨c, rfl⟩ := hb
  rw [List.append_assoc, encodes_append e c (b ++ q), encodes_append e c b, between_append, between_append]

theorem readString_alone {e dst : Enc} {a b q v : List Nat} (hb : b <:+ a)
    (h : readString e dst (encodes e (a ++ q)) (encodes e (b ++ q)) = .ok (v, encodes e (b ++ q))) :
    readString e dst (encodes e a) (encodes e b) = .ok (v, encodes e b) := by
  unfold readString at h ⊢
  rw [between_alone hb] at h
  split at h
  · cases h
  · cases h
  · rename_i hv
    obtain ⟨z, h1, h2⟩ := map_ok h
    cases h2
    rw [h1]
    rfl

theorem readStringView_alone {e dst : Enc} {stored : Bool} {a b q v : List Nat} (hb : b <:+ a)
    (h : readStringView e dst stored (encodes e (a ++ q)) (encodes e (b ++ q)) = .ok (v, encodes e (b ++ q))) :
    readStringView e dst stored (encodes e a) (encodes e b) = .ok (v, encodes e b) := by
  unfold readStringView at h ⊢
  rw [between_alone hb] at h
  split at h
  · cases h
  · rename_i h1
    rw [if_neg h1]
    split at h
    · cases h
    · rename_i h2
      rw [if_neg h2]
      split at h
      · cases h
      · cases h
      · rename_i hv
        injection h with h
        injection h with h _
        rw [h]

theorem end_alone {e : Enc} {f : Layout → List Nat → Res (List Nat)} (hf : EndAlone e f) {k : List Nat → List Nat → Res (List Nat × List Nat)}
    (hk : ∀ s it v r, k s it = .ok (v, r) → r = it)
    (ha : ∀ a b q v, b <:+ a → k (encodes e (a ++ q)) (encodes e (b ++ q)) = .ok (v, encodes e (b ++ q)) → k (encodes e a) (encodes e b) = .ok (v, encodes e b)) :
    Alone e (fun l s => (f l s).bind (k s)) := by
  intro l hl a b q v hs hb h
  dsimp only at h ⊢
  cases hx : f l (encodes e (a ++ q)) with
  | ub => rw [hx] at h; cases h
  | err x => rw [hx] at h; cases h
  | ok it =>
    rw [hx, Res.bind_ok] at h
    have := hk _ _ _ _ h
    subst this
    rw [hf l hl a b q hs hb hx, Res.bind_ok]
    exact ha a b q v hb h

theorem stringReader_alone {e dst : Enc} {sp : Specs} (hfill : ∃ f, IsScalar f ∧ sp.fill.units e = encode e f) (k : StrKind) :
    Alone e (stringReader e dst sp k).read := by
  have h := end_alone (stringEnd_alone hfill k) (k := readString e dst) (fun _ _ _ _ h => readString_rest h) (fun _ _ _ _ hb h => readString_alone hb h)
  intro l hl a b q v hs hb hr
  rw [stringReader_end] at hr ⊢
  exact h l hl a b q v hs hb hr

theorem viewReader_alone {e dst : Enc} {stored : Bool} {sp : Specs} (hfill : ∃ f, IsScalar f ∧ sp.fill.units e = encode e f) (k : StrKind) :
    Alone e (viewReader e dst stored sp k).read :=
  end_alone (stringEnd_alone hfill k) (k := readStringView e dst stored) (fun _ _ _ _ h => readStringView_rest h)
    (fun _ _ _ _ hb h => readStringView_alone hb h)

/-- A regex engine that finds a match finds it in the text up to its end, or beyond. -/
def LocalRegex (loc : LocaleData) : Prop :=
  ∀ e p fl s t n, loc.regex e p fl (s ++ t) = .found n → n ≤ s.length → loc.regex e p fl s = .found n

theorem regexStringEnd_alone {e : Enc} {loc : LocaleData} (hre : LocalRegex loc) (sp : Specs) : EndAlone e (regexStringEnd e loc sp) := by
  intro l _ a b q _ hb h
  unfold regexStringEnd at h ⊢
  split at h
  · cases h
  · rename_i hl
    rw [if_neg hl]
    cases hp : regexPattern sp with
    | none => rw [hp] at h; cases h
    | some p =>
      rw [hp] at h
      dsimp only at h ⊢
      split at h
      · cases h
      · cases h
      · rename_i n hn
        have hd := Res.ok.inj h
        obtain ⟨c, rfl⟩ := hb
        rw [encodes_append] at hn
        by_cases hlen : n ≤ (encodes e (c ++ b)).length
        · rw [hre _ _ _ _ _ _ hn hlen]
          dsimp only
          rw [encodes_append e (c ++ b), encodes_append e b, List.drop_append_of_le_length hlen] at hd
          rw [List.append_cancel_right hd]
        · -- the match goes further: nothing is left after it, and the text ends there
          have hl2 := congrArg List.length hd
          rw [List.length_drop, encodes_append e (c ++ b), List.length_append, encodes_append e b, List.length_append] at hl2
          have hq : (encodes e q).length = 0 ∧ (encodes e b).length = 0 := by omega
          rw [List.length_eq_zero_iff.1 hq.1, List.append_nil] at hn
          rw [hn, List.length_eq_zero_iff.1 hq.2]
          dsimp only
          rw [List.drop_eq_nil_of_le (by omega)]

theorem regexReader_alone {e dst : Enc} {loc : LocaleData} (hre : LocalRegex loc) (sp : Specs) : Alone e (regexReader e dst loc sp).read :=
  end_alone (regexStringEnd_alone hre sp) (k := readString e dst) (fun _ _ _ _ h => readString_rest h) (fun _ _ _ _ hb h => readString_alone hb h)

theorem regexViewReader_alone {e dst : Enc} {stored : Bool} {loc : LocaleData} (hre : LocalRegex loc) (sp : Specs) :
    Alone e (regexViewReader e dst stored loc sp).read :=
  end_alone (regexStringEnd_alone hre sp) (k := readStringView e dst stored) (fun _ _ _ _ h => readStringView_rest h)
    (fun _ _ _ _ hb h => readStringView_alone hb h)

/-- Words are not empty. -/
theorem wordEnd_moves {e : Enc} {sp : Specs} {l : Layout} (hl : l = .contiguous ∨ l = .segmented 0) {c : Nat} {cps it : List Nat}
    (hs : ∀ x ∈ c :: cps, IsScalar x) (hc : isSpace c = false) (h : stringEnd e sp .word l (encodes e (c :: cps)) = .ok it) :
    it.length < (encodes e (c :: cps)).length := by
  simp only [stringEnd] at h
  rw [readUntilSpace_encodes e l _ hs (good_layout hl _)] at h
  cases h
  rw [List.dropWhile_cons_of_pos (by simp [hc]), encodes_cons, List.length_append]
  have hn := List.length_pos_iff.2 (encode_ne_nil e c)
  have hb : Between e cps (encodes e (cps.dropWhile fun cp => ! isSpace cp)) := ⟨_, List.dropWhile_suffix _, rfl⟩
  have := between_length hb
  omega

theorem stringReader_moves {e dst : Enc} (sp : Specs) : Moves e (stringReader e dst sp .word).read := by
  intro l hl c cps v r hs hc h
  rw [stringReader_end] at h
  cases hx : stringEnd e sp .word l (encodes e (c :: cps)) with
  | ub => rw [hx] at h; cases h
  | err x => rw [hx] at h; cases h
  | ok it =>
    rw [hx, Res.bind_ok] at h
    rw [readString_rest h]
    exact wordEnd_moves hl hs hc hx

theorem viewReader_moves {e dst : Enc} {stored : Bool} (sp : Specs) : Moves e (viewReader e dst stored sp .word).read := by
  intro l hl c cps v r hs hc h
  have h' : (stringEnd e sp .word l (encodes e (c :: cps))).bind (readStringView e dst stored (encodes e (c :: cps))) = .ok (v, r) := h
  cases hx : stringEnd e sp .word l (encodes e (c :: cps)) with
  | ub => rw [hx] at h'; cases h'
  | err x => rw [hx] at h'; cases h'
  | ok it =>
    rw [hx, Res.bind_ok] at h'
    rw [readStringView_rest h']
    exact wordEnd_moves hl hs hc hx

end Scn
