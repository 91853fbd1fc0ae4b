import Verif.Lemmas.Boundary3
/-
The reader of floating-point numbers takes characters of one unit.
-/
namespace Scn
open Spec
variable {V : Type}

/-- What is assumed about the conversions: from a text that begins with a digit they read no more than there is, and only ASCII
    characters, `fast_float` no terminating zeros. -/
structure ReadsNumerals (cv : FloatConv V) : Prop where
  fast : ∀ f s c t v n, charToInt c < 10 → cv.fast f s (c :: t) = .ok v n → n ≤ (c :: t).length ∧ ∀ u ∈ (c :: t).take n, 0 < u ∧ u < 128
  strtod : ∀ c t, charToInt c < 10 → (cv.strtod (c :: t)).read ≤ (c :: t).length ∧ ∀ u ∈ (c :: t).take (cv.strtod (c :: t)).read, u < 128

theorem dec_pos {f s : Bool} {t : List Nat} (h : DecText f s t) : ∀ c ∈ t, 0 < c := by
  have hdig : ∀ {c : Nat}, IsDigit 10 c → 0 < c := by
    intro c hc
    apply Classical.byContradiction
    intro h0
    rw [show c = 0 by omega] at hc
    exact absurd hc (by decide)
  obtain ⟨m, x, rfl, ⟨i, g, rfl, h1, h2, _⟩, h3⟩ := h
  intro c hc
  rcases List.mem_append.1 hc with hc | hc
  · rcases List.mem_append.1 hc with hc | hc
    · exact hdig (h1 c hc)
    · rcases h2 with rfl | ⟨ds, rfl, h2⟩
      · cases hc
      · rcases List.mem_cons.1 hc with rfl | hc
        · decide
        · exact hdig (h2 c hc)
  · rcases h3 with ⟨rfl, _⟩ | ⟨_, l, sg, ds, rfl, hl, hsg, _, hds⟩
    · cases hc
    · rcases List.mem_cons.1 hc with rfl | hc
      · simp at hl; omega
      · rcases List.mem_append.1 hc with hc | hc
        · rcases hsg with rfl | rfl | rfl
          · cases hc
          · rw [List.mem_singleton.1 hc]; decide
          · rw [List.mem_singleton.1 hc]; decide
        · exact hdig (hds c hc)

theorem convOk_reads {cv : FloatConv V} {round : List Nat → Rounded V} (h : ConvOk cv round) : ReadsNumerals cv where
  fast f s c t v n hc hr := by
    have hd : IsDigit 10 c := (charToInt_lt_iff 10 c (by decide)).1 hc
    by_cases hex : ∃ q, DecText f s q ∧ q <+: c :: t
    · obtain ⟨q, hq, hqp⟩ := hex
      obtain ⟨p, hp⟩ := exists_longest hq hqp
      rcases h.fast f s c t p hd hp with h1 | ⟨v', _, h1⟩
      · rw [h1] at hr; cases hr
      · rw [h1] at hr
        cases hr
        obtain ⟨w, hw⟩ := hp.2.1
        refine ⟨hp.2.1.length_le, fun u hu => ?_⟩
        rw [← hw, List.take_left] at hu
        have hst : StrtodText p := Or.inl (by
          obtain ⟨m, x, h1, h2, h3⟩ := hp.1
          exact ⟨m, x, h1, h2, h3.imp (fun h => ⟨h.1, rfl⟩) (fun h => ⟨rfl, h.2⟩)⟩)
        exact ⟨dec_pos hp.1 u hu, (plain_strtod hst u hu).1⟩
    · rw [h.fastNone f s c t hd (fun p hp hpp => hex ⟨p, hp, hpp⟩)] at hr
      cases hr
  strtod c t hc := by
    have hd : IsDigit 10 c := (charToInt_lt_iff 10 c (by decide)).1 hc
    have h1 : StrtodText [c] := Or.inl ⟨[c], [], rfl, ⟨[c], [], rfl, (fun x hx => by rw [List.mem_singleton.1 hx]; exact hd), Or.inl rfl, Or.inl (by simp)⟩,
      Or.inl ⟨rfl, rfl⟩⟩
    obtain ⟨p, hp⟩ := exists_longest h1 (⟨t, rfl⟩ : [c] <+: c :: t)
    rw [(h.strtod c t p hd hp).1]
    obtain ⟨w, hw⟩ := hp.2.1
    refine ⟨hp.2.1.length_le, fun u hu => ?_⟩
    rw [← hw, List.take_left] at hu
    have := plain_strtod hp.1 u hu
    unfold PlainUnit at this
    omega

theorem strtodImpl_read {cv : FloatConv V} {e : Enc} {kind : FloatKind} {b : FloatBuffer} {v : V} {n : Nat}
    (h : strtodImpl cv e kind b = .ok (v, n)) {t : List Nat} (ht : strtodInput e b = some t) :
    n = if kind = .hexWithout then if 2 ≤ (cv.strtod (48 :: 120 :: t)).read then (cv.strtod (48 :: 120 :: t)).read - 2 else (cv.strtod (48 :: 120 :: t)).read
      else (cv.strtod t).read := by
  unfold strtodImpl at h
  rw [ht] at h
  by_cases hk : kind = .hexWithout
  · simp only [hk, if_true] at h
    rw [if_pos hk]
    split at h
    · cases h
    · split at h
      · cases h
      · split at h
        · cases h
        · cases h; simp
  · simp only [hk, if_false] at h
    rw [if_neg hk]
    split at h
    · cases h
    · split at h
      · cases h
      · split at h
        · cases h
        · cases h; rfl

theorem strtodImpl_reads {cv : FloatConv V} (hcv : ReadsNumerals cv) {e : Enc} {kind : FloatKind} {b : FloatBuffer} {v : V} {n : Nat}
    (h : strtodImpl cv e kind b = .ok (v, n)) {t : List Nat} (ht : strtodInput e b = some t) {c : Nat} {w : List Nat} (hw : t <+: c :: w)
    (hne : t ≠ []) (hd : charToInt c < 10) : n ≤ (c :: w).length ∧ ∀ u ∈ (c :: w).take n, u < 128 := by
  obtain ⟨y, ys, rfl⟩ : ∃ y ys, t = y :: ys := by
    cases t with
    | nil => exact absurd rfl hne
    | cons y ys => exact ⟨y, ys, rfl⟩
  have hy : y = c := by
    obtain ⟨q, hq⟩ := hw
    exact (List.cons.inj hq).1
  subst hy
  have hlift : ∀ m, m ≤ (y :: ys).length → (∀ u ∈ (y :: ys).take m, u < 128) → m ≤ (y :: w).length ∧ ∀ u ∈ (y :: w).take m, u < 128 := by
    intro m h1 h2
    have := hw.length_le
    refine ⟨by omega, fun u hu => h2 u ?_⟩
    obtain ⟨q, hq⟩ := hw
    rw [← hq, List.take_append_of_le_length h1] at hu
    exact hu
  rw [strtodImpl_read h ht]
  split
  · obtain ⟨h1, h2⟩ := hcv.strtod 48 (120 :: y :: ys) (by decide +kernel)
    generalize (cv.strtod (48 :: 120 :: y :: ys)).read = m at h1 h2
    split
    · obtain ⟨j, rfl⟩ : ∃ j, m = j + 2 := ⟨m - 2, by omega⟩
      refine hlift _ (by simpa using h1) fun u hu => h2 u ?_
      simp only [List.take_succ_cons]
      simp only [Nat.add_sub_cancel] at hu
      simp [hu]
    · refine ⟨by simp; omega, fun u hu => ?_⟩
      have : m = 0 ∨ m = 1 := by omega
      rcases this with rfl | rfl
      · simp at hu
      · simp at hu
        subst hu
        exact digitValue_ascii (by omega) hd
  · obtain ⟨h1, h2⟩ := hcv.strtod y ys hd
    exact hlift _ h1 h2

/-- What `handle_separators` leaves: the text itself, the text with the point replaced, or the text without the
    separators and after a terminating zero what was there. -/
theorem separators_cases (loc : FloatLoc) (st : Bool) (text : List Nat) :
    let b := handleSeparators loc st text
    ((b.stored = none ∨ b.stored = some text) ∧ b.view = text ∧ b.seps = 0 ∧ loc.sep = 0 ∧ loc.point = 46) ∨
    ((¬ (loc.sep = 0 ∧ loc.point = 46)) ∧ ∃ str tail, b.stored = some str ∧ b.seps + str.length = text.length ∧
      (b.view = str ∨ b.view = str ++ 0 :: tail)) := by
  dsimp only
  unfold handleSeparators
  by_cases hc : loc.sep = 0 ∧ loc.point = 46
  · rw [if_pos hc]
    exact Or.inl ⟨by cases st <;> simp, rfl, rfl, hc⟩
  · rw [if_neg hc]
    refine Or.inr ⟨hc, ?_⟩
    dsimp only
    have hlen : (if loc.point ≠ 46 then text.map (fun c => if c = loc.point then 46 else c) else text).length = text.length := by
      split <;> simp
    generalize (if loc.point ≠ 46 then text.map (fun c => if c = loc.point then 46 else c) else text) = str at hlen
    by_cases h2 : loc.sep = 0 ∨ loc.sep ∉ str
    · rw [if_pos h2]
      exact ⟨str, [], rfl, by simpa using hlen, Or.inl rfl⟩
    · rw [if_neg h2]
      refine ⟨str.filter (· ≠ loc.sep), _, rfl, ?_, Or.inr rfl⟩
      have := List.length_filter_le (fun c => decide (c ≠ loc.sep)) str
      dsimp only
      omega

/-- How much of its text a numeral takes: no more than there is, and without a locale only ASCII characters. -/
theorem floatDispatch_reads {cv : FloatConv V} (hcv : ReadsNumerals cv) {e : Enc} {o : FloatOpts} {kind : FloatKind} {loc : FloatLoc} {st : Bool}
    {text payload : List Nat} {v : V} {n : Nat} (hbytes : UnitsOk e text)
    (hk : kind ≠ .infShort ∧ kind ≠ .infLong ∧ kind ≠ .nanSimple ∧ kind ≠ .nanPayload)
    (h : floatDispatch cv e o kind (handleSeparators loc st text) payload = .ok (v, n)) :
    n + (handleSeparators loc st text).seps ≤ text.length ∧ (loc.sep = 0 → loc.point = 46 → ∀ u ∈ text.take n, u < 128) := by
  have hcases := separators_cases loc st text
  dsimp only at hcases
  generalize handleSeparators loc st text = b at h hcases
  unfold floatDispatch at h
  split at h
  · exact absurd rfl hk.1
  · exact absurd rfl hk.2.1
  · exact absurd rfl hk.2.2.1
  · exact absurd rfl hk.2.2.2
  · split at h
    · cases h
    · rename_i c cs hview
      split at h
      · cases h
      · split at h
        · cases h
        · rename_i hdig
          have hdig' : charToInt c < 10 := by omega
          -- what `strtod` gets
          have hstr : strtodImpl cv e kind b = .ok (v, n) →
              n + b.seps ≤ text.length ∧ (loc.sep = 0 → loc.point = 46 → ∀ u ∈ text.take n, u < 128) := by
            intro h
            rcases hcases with ⟨hs, hv, h0, hl⟩ | ⟨hl, str, tail, hs, hlen, hv⟩
            · cases ht : strtodInput e b with
              | none => unfold strtodImpl at h; rw [ht] at h; cases h
              | some t =>
                have hp : t <+: c :: cs ∧ t ≠ [] := by
                  unfold strtodInput at ht
                  rcases hs with hs | hs
                  · rw [hs, hview] at ht
                    simp only [Option.map_eq_some_iff] at ht
                    obtain ⟨r, hr, rfl⟩ := ht
                    refine ⟨List.take_prefix _ _, ?_⟩
                    have hpl : ∀ u ∈ [c], PlainUnit u := by
                      intro u hu
                      rw [List.mem_singleton.1 hu]
                      have hst : StrtodText [c] := Or.inl ⟨[c], [], rfl, ⟨[c], [], rfl,
                        (fun x hx => by rw [List.mem_singleton.1 hx]; exact (charToInt_lt_iff 10 c (by decide)).1 hdig'), Or.inl rfl, Or.inl (by simp)⟩, Or.inl ⟨rfl, rfl⟩⟩
                      exact plain_strtod hst c (by simp)
                    obtain ⟨q, h1, ⟨w, hw⟩⟩ := untilSpace_plain e cs hpl (by
                      show UnitsOk e (c :: cs)
                      rw [← hview, hv]
                      exact hbytes)
                    have h1' : readUntilSpace e .contiguous (c :: cs) = some q := h1
                    rw [h1'] at hr
                    cases hr
                    have := congrArg List.length hw
                    simp only [List.length_append] at this
                    intro h0
                    have := congrArg List.length h0
                    simp only [List.length_take, List.length_cons, List.length_nil] at this
                    omega
                  · rw [hs] at ht
                    cases ht
                    rw [← hview, hv]
                    refine ⟨List.prefix_refl _, ?_⟩
                    rw [← hv, hview]
                    simp
                obtain ⟨h1, h2⟩ := strtodImpl_reads hcv h ht hp.1 hp.2 hdig'
                rw [← hview, hv] at h1 h2
                rw [h0]
                exact ⟨by omega, fun _ _ => h2⟩
            · have ht : strtodInput e b = some str := by unfold strtodInput; rw [hs]
              obtain ⟨ys, rfl⟩ : ∃ ys, str = c :: ys := by
                rw [hview] at hv
                cases str with
                | nil =>
                  rcases hv with hv | hv
                  · cases hv
                  · cases hv
                    exact absurd hdig' (by decide +kernel)
                | cons y ys => rcases hv with hv | hv <;> (cases hv; exact ⟨_, rfl⟩)
              obtain ⟨h1, _⟩ := strtodImpl_reads hcv h ht (List.prefix_refl _) (by simp) hdig'
              exact ⟨by omega, fun ha hb => absurd ⟨ha, hb⟩ hl⟩
          split at h
          · split at h
            · exact hstr h
            · split at h
              · cases h
              · exact hstr h
              · rename_i hf
                cases h
                rw [hview] at hf
                obtain ⟨h1, h2⟩ := hcv.fast _ _ _ _ _ _ hdig' hf
                rw [← hview] at h1 h2
                rcases hcases with ⟨hs, hv, h0, hl⟩ | ⟨hl, str, tail, hs, hlen, hv⟩
                · rw [hv] at h1 h2
                  exact ⟨by omega, fun _ _ u hu => (h2 u hu).2⟩
                · refine ⟨?_, fun ha hb => absurd ⟨ha, hb⟩ hl⟩
                  have : n ≤ str.length := by
                    rcases hv with hv | hv
                    · rw [hv] at h1; exact h1
                    · apply Classical.byContradiction
                      intro hgt
                      have hmem : (0 : Nat) ∈ b.view.take n := by
                        rw [hv, List.take_append]
                        obtain ⟨j, hj⟩ : ∃ j, n - str.length = j + 1 := ⟨n - str.length - 1, by omega⟩
                        rw [hj]
                        simp
                      exact absurd (h2 0 hmem).1 (by omega)
                  omega
          · exact hstr h

theorem nocase_drop {k : Src} {s str r : List Nat} (h : readMatchingNocase k s str = some r) : r = s.drop str.length ∧ str.length ≤ s.length := by
  unfold readMatchingNocase at h
  split at h
  · cases h
  · split at h <;> split at h <;> cases h <;> exact ⟨rfl, by omega⟩

theorem signLength {s t : List Nat} {sg : Option Sign} (h : parseNumericSign s = some (t, sg)) : t = s.drop (if sg.isSome then 1 else 0) := by
  unfold parseNumericSign at h
  split at h
  · cases h
  · split at h
    · cases h; rfl
    · split at h <;> cases h <;> rfl

theorem sign_suffix {s t : List Nat} {sg : Option Sign} (h : parseNumericSign s = some (t, sg)) : t <:+ s := by
  rw [signLength h]
  exact List.drop_suffix _ _

theorem floatDigit_single {e : Enc} {loc : FloatLoc} (hsep : loc.sep ≠ 0 → Single e loc.sep) {b : Nat} (hb : b ≤ 36) {th : Bool} {c : Nat}
    (h : floatDigit loc b th c = true) : Single e c := by
  unfold floatDigit at h
  simp only [Bool.or_eq_true, Bool.and_eq_true, decide_eq_true_eq, bne_iff_ne, beq_iff_eq] at h
  rcases h with h | ⟨⟨_, h0⟩, rfl⟩
  · exact single_ascii e (digitValue_ascii hb h)
  · exact hsep h0

/-- A prefix of `s` of characters of one unit. -/
def SinglePrefix (e : Enc) (s t : List Nat) : Prop := t <+: s ∧ ∀ u ∈ t, Single e u

theorem SinglePrefix.append {e : Enc} {s t x : List Nat} (h : SinglePrefix e s t) (hx : SinglePrefix e (s.drop t.length) x) :
    SinglePrefix e s (t ++ x) := by
  obtain ⟨⟨q, rfl⟩, h2⟩ := h
  obtain ⟨h3, h4⟩ := hx
  rw [List.drop_left] at h3
  refine ⟨(List.prefix_append_right_inj t).2 h3, fun u hu => ?_⟩
  rcases List.mem_append.1 hu with h | h
  · exact h2 u h
  · exact h4 u h

theorem SinglePrefix.nil (e : Enc) (s : List Nat) : SinglePrefix e s [] := ⟨List.nil_prefix, by simp⟩

theorem singlePrefix_run {e : Enc} (s : List Nat) {p : Nat → Bool} (h : ∀ c, p c = true → Single e c) : SinglePrefix e s (s.takeWhile p) :=
  ⟨List.takeWhile_prefix _, fun c hc => h c (mem_takeWhile_true hc)⟩

theorem readSignificand_single {e : Enc} {loc : FloatLoc} (hsep : loc.sep ≠ 0 → Single e loc.sep) (hp : Single e loc.point) {b : Nat} (hb : b ≤ 36)
    {s t : List Nat} (h : readSignificand loc b s = some t) : SinglePrefix e s t := by
  unfold readSignificand at h
  split at h
  · cases h
  · cases h
    refine SinglePrefix.append (SinglePrefix.append (singlePrefix_run s fun c hc => floatDigit_single hsep hb hc) ?_)
      (singlePrefix_run _ fun c hc => floatDigit_single hsep hb hc)
    generalize s.drop _ = r
    unfold readPoint
    split
    · exact SinglePrefix.nil _ _
    · split
      · rename_i c cs hc
        subst hc
        exact ⟨⟨cs, rfl⟩, fun u hu => by rw [List.mem_singleton.1 hu]; exact hp⟩
      · exact SinglePrefix.nil _ _

theorem readExponent_single {e : Enc} {letters : List Nat} (hl : ∀ c ∈ letters, c < 128) (s : List Nat) : SinglePrefix e s (readExponent letters s) := by
  unfold readExponent
  split
  · exact SinglePrefix.nil _ _
  · rename_i c cs
    split
    · rename_i hc
      have hsg : SinglePrefix e cs (match parseNumericSign cs with
          | some (_, some _) => cs.take 1
          | _ => []) := by
        split
        · rename_i hs
          refine ⟨List.take_prefix _ _, ?_⟩
          obtain ⟨a, ha, hb⟩ := sign_dropped (e := e) hs
          have hd := signLength hs
          simp only [Option.isSome_some, if_true] at hd
          cases cs with
          | nil => simp
          | cons d ds =>
            simp only [List.drop_succ_cons, List.drop_zero] at hd
            subst hd
            intro u hu
            simp only [List.take_succ_cons, List.take_zero, List.mem_singleton] at hu
            subst hu
            cases a with
            | nil => exact absurd (congrArg List.length ha) (by simp)
            | cons y ys =>
              simp only [List.cons_append, List.cons.injEq] at ha
              rw [ha.1]
              exact hb y (by simp)
        · exact SinglePrefix.nil _ _
      have key : ∀ sg, SinglePrefix e cs sg → SinglePrefix e (c :: cs) (if ((cs.drop sg.length).takeWhile fun d => charToInt d < 10) = [] then []
          else c :: (sg ++ (cs.drop sg.length).takeWhile fun d => charToInt d < 10)) := by
        intro sg hsg
        split
        · exact SinglePrefix.nil _ _
        · exact SinglePrefix.append (t := [c]) ⟨⟨cs, rfl⟩, fun u hu => by rw [List.mem_singleton.1 hu]; exact single_ascii e (hl _ hc)⟩
            (SinglePrefix.append hsg (singlePrefix_run _ fun d hd => single_ascii e (digitValue_ascii (b := 10) (by omega) (by simpa using hd))))
      exact key _ hsg
    · exact SinglePrefix.nil _ _

theorem readRegularFloat_single {e : Enc} {loc : FloatLoc} (hsep : loc.sep ≠ 0 → Single e loc.sep) (hp : Single e loc.point) {o : FloatOpts}
    {s : List Nat} {r : FloatKind × List Nat} (h : readRegularFloat loc o s = .ok r) :
    SinglePrefix e s r.2 ∧ (r.1 = .fixed ∨ r.1 = .scientific) := by
  unfold readRegularFloat at h
  split at h
  · cases h
  · rename_i t ht
    dsimp only at h
    have hx : SinglePrefix e (s.drop t.length) (if o.sci then readExponent [101, 69] (s.drop t.length) else []) := by
      split
      · exact readExponent_single (by decide) _
      · exact SinglePrefix.nil _ _
    generalize (if o.sci then readExponent [101, 69] (s.drop t.length) else []) = x at h hx
    split at h
    · cases h
    · cases h
      refine ⟨(readSignificand_single hsep hp (by omega) ht).append hx, ?_⟩
      dsimp only
      split
      · exact Or.inl rfl
      · exact Or.inr rfl

theorem readHexfloat_single {e : Enc} {loc : FloatLoc} (hsep : loc.sep ≠ 0 → Single e loc.sep) (hp : Single e loc.point)
    {s t : List Nat} (h : readHexfloat loc s = .ok t) : SinglePrefix e s t := by
  unfold readHexfloat at h
  split at h
  · cases h
  · rename_i t ht
    cases h
    exact (readSignificand_single hsep hp (by omega) ht).append (readExponent_single (by decide) _)

/-- The text of a numeral: a beginning of the source, of characters of one unit unless the text is all of the source and there is
    no locale. -/
def NumeralText (e : Enc) (loc : FloatLoc) (s : List Nat) (body : FloatBody) : Prop :=
  (body.kind ≠ .infShort ∧ body.kind ≠ .infLong ∧ body.kind ≠ .nanSimple ∧ body.kind ≠ .nanPayload) ∧ body.text <+: s ∧
    ((∀ u ∈ body.text, Single e u) ∨ (loc.sep = 0 ∧ loc.point = 46))

/-- The text of a name: `inf`, `infinity`, `nan`, `nan(…)`. -/
def NameText (e : Enc) (s : List Nat) (body : FloatBody) : Prop :=
  body.text = [] ∧ ((body.kind = .infShort ∨ body.kind = .nanSimple) ∧ Dropped e s (s.drop 3) ∨ body.kind = .infLong ∧ Dropped e s (s.drop 8) ∨
    body.kind = .nanPayload ∧ Dropped e s (s.drop (5 + body.payload.length)))

theorem regular_text {e : Enc} {loc : FloatLoc} (hsep : loc.sep ≠ 0 → Single e loc.sep) (hp : Single e loc.point) {o : FloatOpts} {s : List Nat}
    {body : FloatBody} (h : (readRegularFloat loc o s).map (fun r => ({ kind := r.1, text := r.2 } : FloatBody)) = .ok body) :
    NumeralText e loc s body := by
  cases hr : readRegularFloat loc o s with
  | ub => rw [hr] at h; cases h
  | err x => rw [hr] at h; cases h
  | ok r =>
    rw [hr] at h
    cases h
    obtain ⟨⟨h1, h2⟩, h3⟩ := readRegularFloat_single hsep hp hr
    refine ⟨?_, h1, Or.inl h2⟩
    rcases h3 with h3 | h3 <;> simp [h3]

theorem floatRegular_text {e : Enc} {k : Src} {loc : FloatLoc} (hsep : loc.sep ≠ 0 → Single e loc.sep) (hp : Single e loc.point) {o : FloatOpts}
    {s : List Nat} {body : FloatBody} (h : floatRegular k loc o s = .ok body) : NumeralText e loc s body := by
  unfold floatRegular at h
  split at h
  · rename_i hc
    simp only [Bool.and_eq_true, beq_iff_eq] at hc
    split at h
    · cases h
    · cases h
      exact ⟨by simp, List.prefix_refl _, Or.inr ⟨hc.1.2, hc.2⟩⟩
  · exact regular_text hsep hp h

theorem floatHex_text {e : Enc} {k : Src} {loc : FloatLoc} (hsep : loc.sep ≠ 0 → Single e loc.sep) (hp : Single e loc.point) {kind : FloatKind}
    (hk : kind = .hexWith ∨ kind = .hexWithout) {pre s : List Nat} (hpre : ∀ u ∈ pre, Single e u)
    {body : FloatBody} (h : floatHex k loc kind pre s = .ok body) : NumeralText e loc (pre ++ s) body := by
  unfold floatHex at h
  split at h
  · rename_i hc
    simp only [Bool.and_eq_true, beq_iff_eq] at hc
    split at h
    · cases h
    · cases h
      refine ⟨?_, List.prefix_refl _, Or.inr ⟨hc.1.2, hc.2⟩⟩
      rcases hk with rfl | rfl <;> simp
  · cases hr : readHexfloat loc s with
    | ub => rw [hr] at h; cases h
    | err x => rw [hr] at h; cases h
    | ok t =>
      rw [hr] at h
      cases h
      obtain ⟨h1, h2⟩ := readHexfloat_single hsep hp hr
      refine ⟨?_, (List.prefix_append_right_inj pre).2 h1, Or.inl fun u hu => ?_⟩
      · rcases hk with rfl | rfl <;> simp
      · rcases List.mem_append.1 hu with h | h
        · exact hpre u h
        · exact h2 u h

theorem payload_ascii {c : Nat} (h : isPayloadChar c = true) : c < 128 := by
  unfold isPayloadChar at h
  simp at h
  omega

theorem dropped_take {e : Enc} {s : List Nat} {n : Nat} (h : Dropped e s (s.drop n)) (hn : n ≤ s.length) : ∀ u ∈ s.take n, Single e u := by
  obtain ⟨a, ha, hb⟩ := h
  have : a = s.take n := by
    have h2 := congrArg List.length ha
    simp only [List.length_append, List.length_drop] at h2
    have h3 : a.length = n := by omega
    rw [ha, ← h3, List.take_left]
  rw [← this]
  exact hb

theorem floatBody_text {e : Enc} {k : Src} {loc : FloatLoc} (hsep : loc.sep ≠ 0 → Single e loc.sep) (hp : Single e loc.point) {o : FloatOpts}
    {s : List Nat} {body : FloatBody} (h : floatBody k loc o s = .ok body) : NumeralText e loc s body ∨ NameText e s body := by
  have hexw : ∀ r, hexPrefix k s = some r → floatHex k loc .hexWith (s.take 2) r = .ok body → NumeralText e loc s body := by
    intro r hr hb
    obtain ⟨h1, h2⟩ := nocase_drop hr
    have hd := nocase_dropped (e := e) (by decide) hr
    simp only [List.length_cons, List.length_nil] at h1 h2
    rw [h1] at hd
    have := floatHex_text hsep hp (Or.inl rfl) (dropped_take hd h2) hb
    rw [h1, List.take_append_drop] at this
    exact this
  unfold floatBody at h
  split at h
  · rename_i kind hi
    cases h
    refine Or.inr ⟨rfl, ?_⟩
    unfold readInf at hi
    simp only [Option.map_eq_some_iff] at hi
    obtain ⟨r, hr, rfl⟩ := hi
    have hd := nocase_dropped (e := e) (by decide) hr
    have h1 := (nocase_drop hr).1
    simp only [List.length_cons, List.length_nil] at h1
    by_cases hl : (readMatchingNocase k r [105, 110, 105, 116, 121]).isSome
    · rw [if_pos hl]
      refine Or.inr (Or.inl ⟨rfl, ?_⟩)
      obtain ⟨q, hq⟩ := Option.isSome_iff_exists.1 hl
      have hd2 := nocase_dropped (e := e) (by decide) hq
      have h2 := (nocase_drop hq).1
      simp only [List.length_cons, List.length_nil] at h2
      have : q = s.drop 8 := by rw [h2, h1, List.drop_drop]
      rw [← this]
      exact hd.trans hd2
    · rw [if_neg hl]
      refine Or.inl ⟨Or.inl rfl, ?_⟩
      rw [← h1]
      exact hd
  · split at h
    · rename_i res hn
      unfold readNan at hn
      simp only [Option.map_eq_some_iff] at hn
      obtain ⟨r, hr, rfl⟩ := hn
      have hd := nocase_dropped (e := e) (by decide) hr
      have h1 := (nocase_drop hr).1
      simp only [List.length_cons, List.length_nil] at h1
      have hsimple : NameText e s { kind := .nanSimple } := ⟨rfl, Or.inl ⟨Or.inr rfl, by rw [← h1]; exact hd⟩⟩
      cases r with
      | nil => cases h; exact Or.inr hsimple
      | cons c r =>
        by_cases hc : c = 40
        · simp only [if_pos hc] at h
          split at h
          · rename_i hq
            cases h
            refine Or.inr ⟨rfl, Or.inr (Or.inr ⟨rfl, ?_⟩)⟩
            dsimp only
            have hall : ∀ u ∈ r.takeWhile isPayloadChar, Single e u := fun u hu => single_ascii e (payload_ascii (mem_takeWhile_true hu))
            rename_i tail
            have hrest : tail = s.drop (5 + (r.takeWhile isPayloadChar).length) := by
              have h3 : s.drop 4 = r := by rw [show (4 : Nat) = 3 + 1 from rfl, ← List.drop_drop, ← h1]; rfl
              have h4 : s.drop (4 + (r.takeWhile isPayloadChar).length) = 41 :: tail := by rw [← List.drop_drop, h3]; exact hq
              rw [show 5 + (r.takeWhile isPayloadChar).length = 4 + (r.takeWhile isPayloadChar).length + 1 by omega, ← List.drop_drop, h4]
              rfl
            rw [← hrest]
            refine (hd.trans (Dropped.cons (single_ascii e (by omega)))).trans (Dropped.trans (r := 41 :: tail) ?_ (Dropped.cons (single_ascii e (by omega))))
            rw [← hq]
            obtain ⟨w, hw⟩ := List.takeWhile_prefix (l := r) isPayloadChar
            exact ⟨r.takeWhile isPayloadChar, by
              conv => lhs; rw [← hw]
              congr 1
              conv => rhs; rhs; rw [← hw]
              rw [List.drop_left], hall⟩
          · cases h
        · simp only [if_neg hc] at h
          cases h
          exact Or.inr hsimple
    · refine Or.inl ?_
      split at h
      · split at h
        · rename_i r hr
          exact hexw r hr h
        · simpa using floatHex_text hsep hp (Or.inr rfl) (pre := []) (by simp) h
      · split at h
        · exact regular_text hsep hp h
        · split at h
          · rename_i r hr
            exact hexw r hr h
          · exact floatRegular_text hsep hp h

theorem readFloat_dropped {cv : FloatConv V} (hcv : ReadsNumerals cv) {e : Enc} {k : Src} {seg : Bool} {loc : FloatLoc}
    (hsep : loc.sep ≠ 0 → Single e loc.sep) (hp : Single e loc.point) {o : FloatOpts} {src r : List Nat} {v : V} (hbytes : UnitsOk e src)
    (h : readFloat cv e k seg loc o src = .ok (v, r)) : Dropped e src r := by
  unfold readFloat at h
  split at h
  · cases h
  · rename_i s sign hs
    cases hb : floatBody k loc o s with
    | ub => rw [hb] at h; cases h
    | err x => rw [hb] at h; cases h
    | ok body =>
      rw [hb] at h
      simp only [Res.bind] at h
      split at h
      · cases h
      · cases h
      · rename_i n hd
        cases h
        rw [show n + (if sign.isSome then 1 else 0) + (handleSeparators loc (!k.contiguous && seg) body.text).seps =
          (if sign.isSome then 1 else 0) + (n + (handleSeparators loc (!k.contiguous && seg) body.text).seps) by omega, ← List.drop_drop, ← signLength hs]
        refine (sign_dropped hs).trans ?_
        rcases floatBody_text (e := e) hsep hp hb with ⟨hk, ht, hu⟩ | ⟨ht, hk⟩
        · obtain ⟨h1, h2⟩ := floatDispatch_reads hcv (fun he u hu => hbytes he u ((sign_suffix hs).subset (ht.subset hu))) hk hd
          obtain ⟨q, hq⟩ := ht
          rcases hu with hu | hu
          · exact dropped_run hq.symm hu h1
          · have h0 : (handleSeparators loc (!k.contiguous && seg) body.text).seps = 0 := by
              unfold handleSeparators
              rw [if_pos hu]
            rw [h0] at h1 ⊢
            refine dropped_drop _ fun u hm => single_ascii e (h2 hu.1 hu.2 u ?_)
            rw [← hq, Nat.add_zero, List.take_append_of_le_length (by omega)] at hm
            exact hm
        · have h0 : (handleSeparators loc (!k.contiguous && seg) body.text).seps = 0 := by
            have := separators_cases loc (!k.contiguous && seg) body.text
            dsimp only at this
            rcases this with ⟨_, _, h, _⟩ | ⟨_, str, _, _, h, _⟩
            · exact h
            · rw [ht] at h ⊢
              simp only [List.length_nil] at h
              omega
          rw [h0, Nat.add_zero]
          unfold floatDispatch at hd
          rcases hk with ⟨hk | hk, hr⟩ | ⟨hk, hr⟩ | ⟨hk, hr⟩ <;> (rw [hk] at hd; cases hd; exact hr)

theorem readFloatAs_keeps {cv : FloatConv V} (hcv : ReadsNumerals cv) {e : Enc} {k : Layout → Src} {seg : Bool} {loc : FloatLoc}
    (hsep : loc.sep ≠ 0 → Single e loc.sep) (hp : Single e loc.point) (ty : Pres) : Keeps e (fun l s => readFloatAs cv e (k l) seg loc ty s) :=
  fun _ _ hs _ _ h => by
    dsimp only at h
    unfold readFloatAs at h
    split at h
    · cases h
    · exact Dropped.between hs (readFloat_dropped hcv hsep hp (encodes_unitsOk e hs) h)

end Scn
