import Verif.Lemmas.Readers
import Verif.Props.Float
/-
Scanning a printed record with the same format string.
-/
namespace Scn
open Spec

theorem encodes_asciis (e : Enc) (t : List Nat) (h : ∀ c ∈ t, c < 128) : encodes e t = t := by
  induction t with
  | nil => rfl
  | cons c t ih => rw [encodes_cons, encode_ascii e c (h c (by simp)), ih (fun c hc => h c (by simp [hc]))]; rfl

theorem noDigitFirst_encodes (e : Enc) (b : Nat) (t : List Nat) (hs : ∀ c ∈ t, IsScalar c) (h : NoDigitFirst b t) :
    NoDigitFirst b (encodes e t) := by
  cases t with
  | nil => intro c hc; cases hc
  | cons c t =>
    rcases encodes_cases e c t (hs c (by simp)) with ⟨_, hE⟩ | ⟨_, u, us, hu, hE⟩
    · rw [hE]; intro x hx; exact h x (by simpa using hx)
    · rw [hE]; intro x hx
      simp only [List.head?_cons, Option.some.injEq] at hx
      subst hx
      exact not_digit_big b u hu

theorem ascii_scalar {c : Nat} (h : c < 128) : IsScalar c := ⟨by omega, by omega⟩

theorem digit_not_space {b c : Nat} (h : IsDigit b c) : isSpace c = false := by
  obtain ⟨d, h1, _⟩ := h
  unfold digit? at h1
  rw [← isSpace_eq]
  unfold isCpSpace
  split at h1
  · simp; omega
  · split at h1
    · simp; omega
    · split at h1
      · simp; omega
      · cases h1

/-- The units of a floating-point number that begins with a digit, or is an infinity. -/
theorem float_plain {cv : FloatConv Nat} {round : List Nat → Rounded Nat} {p : Pres} {t : List Nat} {r : Rounded Nat}
    (ht : (∃ c cs, t = c :: cs ∧ IsDigit 10 c) ∨ InfText t) (hv : FloatMeans cv round p t r) : t ≠ [] ∧ ∀ c ∈ t, PlainUnit c := by
  have hinf : ∀ {w : List Nat}, t.map lower = w → (∀ x ∈ w, 97 ≤ x ∧ x ≤ 122) → ∀ c ∈ t, PlainUnit c := by
    rintro w rfl hw c hc
    have := hw (lower c) (List.mem_map_of_mem hc)
    have h2 : 65 ≤ c ∧ c ≤ 122 := by
      unfold lower at this
      split at this <;> omega
    refine ⟨by omega, ?_⟩
    unfold isCpSpace
    simp
    omega
  have hi : InfText t → t ≠ [] ∧ ∀ c ∈ t, PlainUnit c := by
    rintro (h | h)
    · exact ⟨(fun hn => by rw [hn] at h; cases h), hinf h (by decide)⟩
    · exact ⟨(fun hn => by rw [hn] at h; cases h), hinf h (by decide)⟩
  rcases hv with ⟨h, -⟩ | ⟨h, -⟩ | ⟨h, -⟩
  · exact hi h
  · rcases ht with ⟨c, cs, rfl, hc⟩ | h'
    · obtain ⟨x, xs, hx, hy⟩ := nan_head h
      cases hx
      exfalso
      rcases hy with rfl | rfl
      · exact absurd hc (by decide)
      · exact absurd hc (by decide)
    · exact hi h'
  · have hs : ∀ {t}, StrtodText t → t ≠ [] ∧ ∀ c ∈ t, PlainUnit c := fun h => ⟨strtod_ne_nil h, plain_strtod h⟩
    unfold NumberText at h
    split at h
    · rcases h with h | h
      · exact hs (Or.inr h)
      · refine ⟨?_, plain_hex h⟩
        rintro rfl
        rcases ht with ⟨c, cs, hn, _⟩ | h'
        · cases hn
        · exact (hi h').1 rfl
    · exact ⟨dec_ne_nil h, plain_dec h⟩
    · exact ⟨dec_ne_nil h, plain_dec h⟩
    · exact ⟨dec_ne_nil h, plain_dec h⟩
    · exact hs h
    · exact absurd h id

theorem plain_scalar {c : Nat} (h : PlainUnit c) : IsScalar c ∧ isSpace c = false := ⟨ascii_scalar h.1, by rw [← isSpace_eq]; exact h.2⟩

theorem sign_plain {sg : List Nat} (h : SignText sg) : ∀ c ∈ sg, PlainUnit c := by
  rcases h with rfl | rfl | rfl
  · simp
  · intro c hc; simp at hc; subst hc; exact ⟨by decide, by decide⟩
  · intro c hc; simp at hc; subst hc; exact ⟨by decide, by decide⟩

/-- Before whitespace, or another unit that is in no number, a number ends. -/
theorem longest_break {t rest : List Nat} (ht : NumberText .none t) (hd : ∃ c cs, t = c :: cs ∧ IsDigit 10 c)
    (hr : ∀ c cs, rest = c :: cs → ¬ PlainUnit c) : Longest (FloatText .none) (t ++ rest) t := by
  refine ⟨Or.inr (Or.inr ht), List.prefix_append _ _, fun q hq hp => ?_⟩
  obtain ⟨c, cs, rfl, hc⟩ := hd
  by_cases hl : q.length ≤ (c :: cs).length
  · exact hl
  · exfalso
    obtain ⟨z, hz⟩ := hp
    have hqn : ∃ ds, q = c :: ds := by
      cases q with
      | nil => simp at hl
      | cons x q => exact ⟨q, by rw [(List.cons.inj hz).1]⟩
    have hq' : NumberText .none q := by
      obtain ⟨ds, rfl⟩ := hqn
      rcases hq with h | h | h
      · obtain ⟨x, xs, hx, hy⟩ := inf_head h
        cases hx; rcases hy with rfl | rfl <;> exact absurd hc (by decide)
      · obtain ⟨x, xs, hx, hy⟩ := nan_head h
        cases hx; rcases hy with rfl | rfl <;> exact absurd hc (by decide)
      · exact h
    have hpl := plain_strtod hq'
    have htq : (c :: cs) <+: q := List.prefix_of_prefix_length_le (List.prefix_append _ rest) ⟨z, hz⟩ (by omega)
    obtain ⟨y, rfl⟩ := htq
    rw [List.append_assoc] at hz
    have hz' := List.append_cancel_left hz
    cases y with
    | nil => simp at hl
    | cons x y => exact hr x (y ++ z) hz'.symm (hpl x (by simp))

/-- The floating-point reader reads a shown number, from every source. -/
theorem float_shown {cv : FloatConv Nat} {round : List Nat → Rounded Nat} (hcv : ConvOk cv round) (e : Enc) (k : Src) (seg : Bool) {p : Pres} (hp : FloatPres p) {sg t : List Nat} {v : Nat}
    (hsg : SignText sg) (ht : (∃ c cs, t = c :: cs ∧ IsDigit 10 c) ∨ InfText t) (hv : FloatMeans cv round p t (.finite v)) (rest : List Nat)
    (hr : ∀ c ∈ rest, IsScalar c) (hf : Longest (FloatText p) (t ++ encodes e rest) t ∧ ¬ BarePrefix (t ++ encodes e rest)) :
    readFloatAs cv e k seg .classic p (encodes e (sg ++ t ++ rest)) = .ok (cv.copysign (decide (sg = [45])) v, encodes e rest) := by
  rw [encodes_append, encodes_asciis e (sg ++ t) (fun c hc => by
    rcases List.mem_append.1 hc with h | h
    · exact (sign_plain hsg c h).1
    · exact ((float_plain ht hv).2 c h).1)]
  exact C39_roundtrip_partial hcv e k seg p hp sg t (encodes e rest) hsg (fun he u hu => by subst he; exact utf8s_bytes rest hr u hu) hf.1
    (.finite v) hv (ht.imp_right Or.inl) (Or.inr (Or.inr hf.2))

/-- What `Shows` says about the text itself. -/
theorem shows_text {e : Enc} {d : Dest} {v : Val} {text : List Nat} {follow : List Nat → Prop} (h : Shows e d v text follow) :
    (∀ c ∈ text, IsScalar c) ∧ ∃ c t, text = c :: t ∧ isSpace c = false := by
  cases h with
  | int T ty x hT hx =>
    have hd := numeral_digits 10 x.natAbs (by decide) (by decide)
    have hne := numeral_ne_nil 10 x.natAbs
    unfold intText
    refine ⟨?_, ?_⟩
    · intro c hc
      rcases List.mem_append.1 hc with h | h
      · split at h
        · simp at h; subst h; exact ascii_scalar (by decide)
        · cases h
      · exact ascii_scalar (hd c h).2
    · split
      · exact ⟨45, _, rfl, by decide⟩
      · cases hn : numeral 10 x.natAbs with
        | nil => exact absurd hn hne
        | cons c t => exact ⟨c, t, rfl, digit_not_space (hd c (by rw [hn]; simp)).1⟩
  | bool b =>
    cases b
    · exact ⟨by intro c hc; simp [falseWord] at hc; exact ascii_scalar (by omega), 102, _, rfl, by decide⟩
    · exact ⟨by intro c hc; simp [trueWord] at hc; exact ascii_scalar (by omega), 116, _, rfl, by decide⟩
  | string t ht hne =>
    refine ⟨fun c hc => (ht c hc).1, ?_⟩
    cases text with
    | nil => exact absurd rfl hne
    | cons c t => exact ⟨c, t, rfl, (ht c (by simp)).2⟩
  | char c hc hs => exact ⟨by intro x hx; simp at hx; subst hx; exact ascii_scalar hc, c, [], rfl, hs⟩
  | codePoint c hc hs => exact ⟨by intro x hx; simp at hx; subst hx; exact hc, c, [], rfl, hs⟩
  | pointer a ha =>
    have hd := numeral_digits 16 a (by decide) (by decide)
    refine ⟨?_, 48, 120 :: numeral 16 a, rfl, by decide⟩
    intro c hc
    rcases List.mem_append.1 hc with h | h
    · simp at h; exact ascii_scalar (by omega)
    · exact ascii_scalar (hd c h).2
  | view t ht hne =>
    refine ⟨fun c hc => (ht c hc).1, ?_⟩
    cases text with
    | nil => exact absurd rfl hne
    | cons c t => exact ⟨c, t, rfl, (ht c (by simp)).2⟩
  | float ty cv seg round hcv sg t v hsg ht hv =>
    have hp : ∀ c ∈ sg ++ t, PlainUnit c := fun c hc => (List.mem_append.1 hc).elim (sign_plain hsg c) ((float_plain ht hv).2 c)
    refine ⟨fun c hc => (plain_scalar (hp c hc)).1, ?_⟩
    obtain ⟨c, cs, hc⟩ := List.exists_cons_of_ne_nil (l := sg ++ t) (by simp [(float_plain ht hv).1])
    exact ⟨c, cs, hc, (plain_scalar (hp c (by rw [hc]; simp))).2⟩

theorem skipSpace_at (e : Enc) (t : List Nat) (hs : ∀ c ∈ t, IsScalar c) (hh : ∃ c r, t = c :: r ∧ isSpace c = false) :
    skipSpace e .contiguous false (encodes e t) = .ok (encodes e t) := by
  obtain ⟨c, r, rfl, hc⟩ := hh
  rw [skipSpace_encodes e _ _ hs (by cases e <;> trivial), if_neg]
  · rw [List.dropWhile_cons, if_neg (by simp [hc])]
  · rintro ⟨_, h⟩
    rw [List.takeWhile_cons, if_neg (by simp [hc])] at h
    cases h

theorem utf8_units {e : Enc} {l : Layout} (h : (srcOf e l).narrow = true) : e = .utf8 := by simpa [srcOf] using h

theorem defaultRead_skip {V : Type} (e : Enc) (rd : Reader V) (hsk : rd.skipWs = true) (t : List Nat) (hs : ∀ c ∈ t, IsScalar c)
    (hh : ∃ c r, t = c :: r ∧ isSpace c = false) :
    defaultRead e rd (fun _ => .contiguous) (encodes e t) = rd.read .contiguous (encodes e t) := by
  unfold defaultRead
  rw [if_neg, if_pos hsk, skipSpace_at e t hs hh]; rfl
  obtain ⟨c, r, rfl, _⟩ := hh
  rw [encodes_eq_nil]; simp

/-- A word into a string view. -/
theorem viewWord_shown (e : Enc) (l : Layout) (t rest : List Nat) (ht : ∀ c ∈ t, IsScalar c ∧ isSpace c = false) (hr : ∀ c ∈ rest, IsScalar c)
    (hf : Breaks rest) (hl : GoodLayout e l (t ++ rest)) :
    ((viewReader e e false {} .word).mapVal Val.string).read l (encodes e (t ++ rest)) = .ok (.string (encodes e t), encodes e rest) := by
  have hall : ∀ c ∈ t ++ rest, IsScalar c := fun c hc => (List.mem_append.1 hc).elim (fun h => (ht c h).1) (hr c)
  show (Res.bind (stringEnd e {} .word l _) (readStringView e e false _)).map _ = _
  unfold stringEnd
  dsimp only
  rw [readUntilSpace_encodes e _ _ hall hl, dropWhile_stop _ _ _ (fun c h => by rw [(ht c h).2]; rfl)]
  · have hv : validateUnicode e (between (encodes e (t ++ rest)) (encodes e rest)) = some true := by
      rw [encodes_append, between_append]
      exact validate_encodes e t fun c hc => (ht c hc).1
    simp only [Res.bind_ok]
    unfold readStringView
    rw [if_neg (by decide), if_neg (by simp), hv]
    dsimp only
    rw [encodes_append, between_append]
    rfl
  · rcases hf with rfl | ⟨c, t, rfl, h⟩
    · exact Or.inl rfl
    · exact Or.inr ⟨c, t, rfl, by rw [h]; rfl⟩

/-- The reader of addresses reads a shown address, from every source. -/
theorem pointer_shown (e : Enc) (l : Layout) (a : Nat) (ha : a < 2 ^ 64) (rest : List Nat) (hr : ∀ c ∈ rest, IsScalar c) (hf : NoDigitFirst 16 rest) :
    ((pointerReader e).mapVal Val.pointer).read l (encodes e ([48, 120] ++ numeral 16 a ++ rest)) = .ok (.pointer a, encodes e rest) := by
  have hd := numeral_digits 16 a (by decide) (by decide)
  have hnum := numeral_isNumeral 16 a (by decide) (by decide)
  obtain ⟨c, cs, hc⟩ : ∃ c cs, numeral 16 a = c :: cs := by
    cases h : numeral 16 a with
    | nil => exact absurd h hnum.1
    | cons c cs => exact ⟨c, cs, rfl⟩
  rw [encodes_append, encodes_asciis e ([48, 120] ++ numeral 16 a) (by
    intro c hc
    rcases List.mem_append.1 hc with h | h
    · simp at h; omega
    · exact (hd c h).2)]
  show (readInt (srcOf e l) ⟨64, false⟩ ⟨16, false, none⟩ _).map _ = _
  rw [pointer_scan]
  · show (scanInt ⟨64, false⟩ 16 false (48 :: 120 :: (numeral 16 a ++ encodes e rest))).map _ = _
    have hp : HasPrefix 120 88 16 (48 :: 120 :: (numeral 16 a ++ encodes e rest)) := by
      rw [hc]; exact ⟨rfl, Or.inl rfl, (hd c (by rw [hc]; simp)).1⟩
    have hcb : chooseBase 16 (48 :: 120 :: (numeral 16 a ++ encodes e rest)) = (16, numeral 16 a ++ encodes e rest) := by
      unfold chooseBase; rw [if_pos rfl, if_pos hp]; rfl
    have hrun := digitRun_numeral 16 (numeral 16 a) (encodes e rest) hnum.2 (noDigitFirst_encodes e 16 rest hr hf)
    unfold scanInt
    dsimp only
    rw [if_neg (by decide), if_neg (by decide), hcb]
    unfold scanDigits
    dsimp only
    rw [hrun.1, hrun.2, if_neg hnum.1, numeral_value 16 _ (by decide) (by decide), if_pos]
    · rfl
    · unfold InRange signed
      simp
      omega
  · intro _ _
    simp [afterSign]
  · intro hn
    cases utf8_units hn
    intro y hy
    rcases List.mem_append.1 hy with hy | hy
    · rcases List.mem_append.1 hy with hy | hy
      · simp at hy; omega
      · have := (hd y hy).2; omega
    · exact utf8s_bytes rest hr y hy

/-- A default field reads a shown value. -/
theorem shows_read (e wide : Enc) {d : Dest} {v : Val} {text : List Nat} {follow : List Nat → Prop}
    (h : Shows e d v text follow) (rest : List Nat) (hr : ∀ c ∈ rest, IsScalar c) (hf : follow rest) :
    defaultRead e (d.defaultReader e wide) (fun _ => .contiguous) (encodes e (text ++ rest)) = .ok (v, encodes e rest) := by
  obtain ⟨hsc, c0, t0, hc0, hsp0⟩ := shows_text h
  have hall : ∀ c ∈ text ++ rest, IsScalar c := by
    intro c hc
    rcases List.mem_append.1 hc with h | h
    · exact hsc c h
    · exact hr c h
  have hhead : ∃ c r, text ++ rest = c :: r ∧ isSpace c = false := ⟨c0, t0 ++ rest, by rw [hc0]; rfl, hsp0⟩
  cases h with
  | int T ty x hT hx =>
    rw [defaultRead_skip e ((Dest.int T ty).defaultReader e wide) rfl _ hall hhead]
    have hascii : ∀ c ∈ intText 10 x, c < 128 := by
      intro c hc
      unfold intText at hc
      rcases List.mem_append.1 hc with h | h
      · split at h
        · simp at h; omega
        · cases h
      · exact (numeral_digits 10 x.natAbs (by decide) (by decide) c h).2
    have := C03_roundtrip (srcOf e .contiguous) T hT 10 (by decide) (by decide) x hx (encodes e rest)
      (noDigitFirst_encodes e 10 rest hr hf)
      (fun hn => by cases utf8_units hn; exact utf8s_bytes rest hr) (by intro _ h; omega)
    rw [encodes_append, encodes_asciis e _ hascii]
    show (readIntDefault (srcOf e .contiguous) T _).map _ = _
    unfold readIntDefault
    rw [this]; rfl
  | bool b =>
    rw [defaultRead_skip e (Dest.bool.defaultReader e wide) rfl _ hall hhead]
    rw [encodes_append, encodes_asciis e _ (by intro c hc; cases b <;> simp [trueWord, falseWord] at hc <;> omega)]
    show (readBool true true readBoolText _).map _ = _
    have h1 := readBool_spec true true ((if b = true then trueWord else falseWord) ++ encodes e rest)
    have h2 : ReadsWord (offered true true) ((if b = true then trueWord else falseWord) ++ encodes e rest) (.ok (b, encodes e rest)) :=
      Or.inl ⟨_, b, _, by cases b <;> decide, rfl, rfl⟩
    rw [readsWord_det (by
      have : ∀ p ∈ offered true true, ∀ q ∈ offered true true, p.1 <+: q.1 → p.1 = q.1 ∧ p.2 = q.2 := by decide
      exact fun w b w' b' hp hq => this (w, b) hp (w', b') hq) h1 h2]
    rfl
  | string t ht hne => exact defaultRead_word e wide [] text rest (by simp) ht hne hr hf
  | char c hc hs he =>
    subst he
    unfold defaultRead
    rw [if_neg (by rw [encodes_eq_nil]; simp), if_neg (by simp [Dest.defaultReader, Reader.mapVal])]
    rw [encodes_append, encodes_asciis _ [c] (by simpa using hc)]
    rfl
  | codePoint c hc hs =>
    unfold defaultRead
    rw [if_neg (by rw [encodes_eq_nil]; simp), if_neg (by simp [Dest.defaultReader, codePointReader, Reader.mapVal])]
    show (readCodePoint e _).map _ = _
    rw [encodes_append, show encodes e [c] = encode e c by rw [encodes_cons, encodes_nil, List.append_nil],
      readCodePoint_encode e c hc]
    rfl
  | pointer a ha =>
    rw [defaultRead_skip e (Dest.pointer.defaultReader e wide) rfl _ hall hhead]
    exact pointer_shown e .contiguous a ha rest hr hf
  | view t ht hne =>
    rw [defaultRead_skip e ((Dest.view e false).defaultReader e wide) rfl _ hall hhead]
    exact viewWord_shown e .contiguous text rest ht hr hf (by cases e <;> trivial)
  | float ty cv seg round hcv sg t v hsg ht hv =>
    rw [defaultRead_skip e ((Dest.float ty cv seg).defaultReader e wide) rfl _ hall hhead]
    show (readFloatAs cv e (srcOf e .contiguous) seg .classic .none _).map _ = _
    rw [float_shown hcv e _ seg (Or.inl rfl) hsg ht hv rest hr hf]
    rfl

theorem dropWhile_idem (l : List Nat) : (l.dropWhile isSpace).dropWhile isSpace = l.dropWhile isSpace := by
  induction l with
  | nil => rfl
  | cons a l ih =>
    rw [List.dropWhile_cons]
    split
    · exact ih
    · rename_i h; rw [List.dropWhile_cons, if_neg h]

theorem matchText_self_aux (s t : List Nat) (h : EndsInText t ∨ ∃ c r, s = c :: r ∧ isSpace c = false) :
    matchText t (t ++ s) = some s ∧
      ((t ≠ [] ∨ ∃ c r, s = c :: r ∧ isSpace c = false) → matchText t ((t ++ s).dropWhile isSpace) = some s) := by
  induction t with
  | nil =>
    refine ⟨by simp [matchText], ?_⟩
    rintro (h | ⟨c, r, rfl, hc⟩)
    · exact absurd rfl h
    · simp [matchText, hc]
  | cons c t ih =>
    have hih := ih (h.imp_left EndsInText.tail)
    by_cases hc : isSpace c = true
    · have hne : t ≠ [] ∨ ∃ c r, s = c :: r ∧ isSpace c = false := by
        rcases h with h | h
        · left
          rintro rfl
          have := h c rfl
          rw [hc] at this; cases this
        · exact Or.inr h
      have hd : (c :: t ++ s).dropWhile isSpace = (t ++ s).dropWhile isSpace := by
        rw [List.cons_append, List.dropWhile_cons, if_pos hc]
      have hstep : ∀ x, matchText (c :: t) x = matchText t (x.dropWhile isSpace) := by
        intro x; cases x <;> simp [matchText, hc]
      refine ⟨by rw [hstep, hd]; exact hih.2 hne, fun _ => by rw [hstep, dropWhile_idem, hd]; exact hih.2 hne⟩
    · have hd : (c :: t ++ s).dropWhile isSpace = c :: t ++ s := by
        rw [List.cons_append, List.dropWhile_cons, if_neg hc]
      have hA : matchText (c :: t) (c :: t ++ s) = some s := by
        rw [List.cons_append]
        simp only [matchText, hc]
        simpa using hih.1
      exact ⟨hA, fun _ => by rw [hd]; exact hA⟩

theorem matchText_self (t s : List Nat) (h : EndsInText t ∨ ∃ c r, s = c :: r ∧ isSpace c = false) :
    matchText t (t ++ s) = some s := (matchText_self_aux s t h).1

theorem litStep_self (e wide : Enc) (cfg : RegexCfg) (loc : LocaleData) (old : Nat) (ds : List Dest)
    (t s : List Nat) (ht : ∀ c ∈ t, Simple e c) (hs : ∀ c ∈ s, IsScalar c)
    (h : EndsInText t ∨ ∃ c r, s = c :: r ∧ isSpace c = false) :
    litStep (stdEnv e wide cfg loc old ds) (encodes e t) (encodes e (t ++ s)) = .ok (encodes e s) := by
  obtain ⟨r, f, h1, _, _, h3, h4⟩ := litLoop_spec (stdEnv e wide cfg loc old ds) (stdEnv_skips e wide cfg loc old ds)
    (encodes e t).length t (t ++ s) ht (by
      intro c hc
      rcases List.mem_append.1 hc with h | h
      · exact (ht c h).1
      · exact hs c h) (Nat.le_refl _)
  have hm := matchText_self t s h
  have hf := h4 _ hm (by
    rcases h with h | ⟨c, r, rfl, _⟩
    · exact Or.inr h
    · exact Or.inl (by simp))
  have := h3 hf
  rw [hm] at this
  simp only [Option.some.injEq] at this
  subst hf
  unfold litStep
  have h1' : litLoop (stdEnv e wide cfg loc old ds) (encodes e t).length (encodes e (t ++ s)) (encodes e t) = some (encodes e r, none) := h1
  rw [h1', ← this]

theorem printed_cons (x : Entry) (es : List Entry) (tail : List Nat) :
    printed (x :: es) tail = x.gap ++ (x.text ++ printed es tail) := by simp [printed]

theorem printed_scalar (e : Enc) (es : List Entry) (tail : List Nat) (hsh : ∀ x ∈ es, Shows e x.dest x.val x.text x.follow)
    (hg : ∀ x ∈ es, ∀ c ∈ x.gap, Simple e c) (ht : ∀ c ∈ tail, IsScalar c) : ∀ c ∈ printed es tail, IsScalar c := by
  intro c hc
  rcases List.mem_append.1 hc with h | h
  · obtain ⟨x, hx, h⟩ := List.mem_flatMap.1 h
    rcases List.mem_append.1 h with h | h
    · exact (hg x hx c h).1
    · exact (shows_text (hsh x hx)).1 c h
  · exact ht c h

theorem record_run (e wide : Enc) (cfg : RegexCfg) (loc : LocaleData) (old : Nat) (ds : List Dest) (last rest : List Nat)
    (hlast : ∀ c ∈ last, Simple e c) (hrest : ∀ c ∈ rest, IsScalar c) (hend : EndsInText last) (es : List Entry) :
    ∀ i, (∀ j x, es[j]? = some x → ds[i + j]? = some x.dest) → (∀ x ∈ es, Shows e x.dest x.val x.text x.follow) →
      (∀ x ∈ es, ∀ c ∈ x.gap, Simple e c) → WellSeparated es (last ++ rest) →
      leftToRight (litStep (stdEnv e wide cfg loc old ds)) (stdEnv e wide cfg loc old ds).readDefault i
        (es.map fun x => encodes e x.gap) (encodes e last) (encodes e (printed es (last ++ rest))) =
      .ok (es.map fun x => x.val, encodes e rest) := by
  have hlr : ∀ c ∈ last ++ rest, IsScalar c := by
    intro c hc
    rcases List.mem_append.1 hc with h | h
    · exact (hlast c h).1
    · exact hrest c h
  induction es with
  | nil =>
    intro i _ _ _ _
    simp only [List.map_nil, leftToRight, printed, List.flatMap_nil, List.nil_append]
    rw [litStep_self e wide cfg loc old ds last rest hlast hrest (Or.inl hend)]
    rfl
  | cons x es ih =>
    intro i hds hsh hg hsep
    have hx := hsh x (by simp)
    obtain ⟨hsc, c0, t0, hc0, hsp0⟩ := shows_text hx
    have hpr := printed_scalar e es (last ++ rest) (fun y hy => hsh y (by simp [hy])) (fun y hy => hg y (by simp [hy])) hlr
    rw [printed_cons]
    simp only [List.map_cons, leftToRight]
    rw [litStep_self e wide cfg loc old ds x.gap _ (hg x (by simp)) (by
        intro c hc
        rcases List.mem_append.1 hc with h | h
        · exact hsc c h
        · exact hpr c h) (Or.inr ⟨c0, t0 ++ printed es (last ++ rest), by rw [hc0]; rfl, hsp0⟩), Res.bind_ok]
    have hrd : (stdEnv e wide cfg loc old ds).readDefault i (encodes e (x.text ++ printed es (last ++ rest))) =
        .ok (x.val, encodes e (printed es (last ++ rest))) := by
      have hget : ds[i]? = some x.dest := by simpa using hds 0 x rfl
      show (match ds[i]? with | none => _ | some d => _) = _
      rw [hget]
      exact shows_read e wide hx _ hpr hsep.1
    rw [hrd, Res.bind_ok]
    dsimp only
    rw [ih (i + 1) (fun j y hy => by have := hds (j + 1) y (by simpa using hy); rw [← this]; congr 1; omega)
      (fun y hy => hsh y (by simp [hy])) (fun y hy => hg y (by simp [hy])) hsep.2]
    rfl

end Scn
