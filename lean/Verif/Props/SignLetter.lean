import Verif.Props.SignField
/-
C116 and C117 for fields with one of the letters of integers, in any call.
-/
namespace Scn
open Spec

theorem digit_plain {b d : Nat} (hd : IsDigit b d) : d < 128 ∧ isSpace d = false ∧ d ≠ 16 ∧ d ≠ 43 ∧ d ≠ 45 := by
  have hlt : d < 123 := by
    obtain ⟨v, hv, _⟩ := hd
    unfold digit? at hv
    (repeat' split at hv) <;> first | omega | cases hv
  have hsome : (digit? d).isSome = true := by
    obtain ⟨v, hv, _⟩ := hd
    rw [hv]; rfl
  have : ∀ y, y < 123 → (digit? y).isSome = true → isSpace y = false := by decide
  exact ⟨by omega, this d hlt hsome, (digit_not_sign hd).2.2, (digit_not_sign hd).1, (digit_not_sign hd).2.1⟩

/-- What a field with a letter does behind whitespace, by the reader of integers. -/
theorem letter_reads {e : Enc} {T : IntTy} (hT : T.Std) {b : Nat} (hb : b = 0 ∨ (2 ≤ b ∧ b ≤ 36)) {uo : Bool} {read : List Nat → Res (Val × List Nat)}
    (h2 : ∀ cps, (∀ x ∈ cps, IsScalar x) → (e = .utf8 → (afterSign (encodes e (cps.dropWhile isSpace))).head? ≠ some 16) →
      read (encodes e cps) = afterSpaces e (fun s => (scanIntW T b uo s).map fun r => (.int r.1, r.2)) cps)
    {sp sg ys : List Nat} {y : Nat} (hsp : ∀ x ∈ sp, IsScalar x ∧ isSpace x = true) (hsg : SignText sg) (hy : y < 128 ∧ isSpace y = false ∧ y ≠ 16 ∧ y ≠ 43 ∧ y ≠ 45)
    (hys : ∀ x ∈ ys, IsScalar x) :
    read (encodes e (sp ++ (sg ++ y :: ys))) = (readInt ⟨false, false⟩ T ⟨b, uo, none⟩ (sg ++ y :: encodes e ys)).map fun r => (.int r.1, r.2) := by
  have hsgm : ∀ x ∈ sg, x < 128 ∧ isSpace x = false := by
    rcases hsg with rfl | rfl | rfl <;> decide
  have hd : (sp ++ (sg ++ y :: ys)).dropWhile isSpace = sg ++ y :: ys := by
    induction sp with
    | nil =>
      rcases hsg with rfl | rfl | rfl
      · simp [hy.2.1]
      · rfl
      · rfl
    | cons a sp ih =>
      rw [List.cons_append, List.dropWhile_cons, if_pos (hsp a (by simp)).2]
      exact ih fun x hx => hsp x (List.mem_cons_of_mem _ hx)
  have henc : encodes e (sg ++ y :: ys) = sg ++ y :: encodes e ys := by
    rw [encodes_append, encodes_asciis e sg fun x hx => (hsgm x hx).1, encodes_sign hy.1]
  have hs : ∀ x ∈ sp ++ (sg ++ y :: ys), IsScalar x := fun x hx => by
    rcases List.mem_append.1 hx with hx | hx
    · exact (hsp x hx).1
    · rcases List.mem_append.1 hx with hx | hx
      · have := (hsgm x hx).1
        exact ⟨by omega, by omega⟩
      · rcases List.mem_cons.1 hx with rfl | hx
        · have := hy.1
          exact ⟨by omega, by omega⟩
        · exact hys x hx
  have h16 : (afterSign (sg ++ y :: encodes e ys)).head? ≠ some 16 := by
    rcases hsg with rfl | rfl | rfl
    · simp [afterSign, hy]
    · simp [afterSign, hy]
    · simp [afterSign, hy]
  rw [h2 _ hs (by rw [hd, henc]; exact fun _ => h16)]
  unfold afterSpaces
  rw [hd, if_neg (by simp), henc, readInt_W ⟨false, false⟩ T hT b uo _ hb (fun h => nomatch h) fun h => nomatch h]

theorem unprefixed_encodes {e : Enc} {b d : Nat} {r : List Nat} (hd : d < 128) (hr : ∀ x ∈ r, IsScalar x) (h : Unprefixed b (d :: r)) :
    Unprefixed b (d :: encodes e r) := by
  intro p x t hp hx heq
  have hs : ∀ c ∈ d :: r, IsScalar c := fun c hc => (List.mem_cons.1 hc).elim (fun h => ⟨by omega, by omega⟩) (hr c)
  have hpa : ∀ u ∈ p ++ [x], u < 128 := by
    intro u hu
    rcases List.mem_append.1 hu with hu | hu
    · unfold PrefixOf at hp
      split at hp
      · rcases hp with rfl | rfl <;> simp at hu <;> omega
      · rcases hp with rfl | rfl <;> simp at hu <;> omega
      · rcases hp with rfl | rfl <;> simp at hu <;> omega
      · exact hp.elim
    · rw [List.mem_singleton.1 hu]; exact (digit_plain hx).1
  obtain ⟨cps', h1, _⟩ := encodes_ascii_prefix (e := e) (a := p ++ [x]) (t := t) hs (by rw [encodes_sign hd, heq]; simp) hpa
  exact h p x cps' hp hx (by rw [h1]; simp)

/-- C116 and C117 for a field with one of the letters `b B o x X d u i`, whatever call it is in, in every encoding, behind any whitespace, in front of a
    digit and whatever follows it: a plus sign makes no difference; a prefix of the base and leading zeros make none, with any sign or none; and where the
    letter is not `u` and the type is signed, a minus sign negates the number. -/
theorem C116_letter_field {e wide : Enc} {cfg : RegexCfg} {loc : LocaleData} {old : Nat} {ds : List Dest} {id : Nat} {T : IntTy} {ty : ArgTy}
    (hd : ds[id]? = some (.int T ty)) (hT : T.Std) (hty : ty.category = some .integer ∨ ty.category = some .unsignedInteger)
    {c b : Nat} {uo : Bool} (hc : intLetter c = some (b, uo)) :
    ∃ read, (∀ gap, FieldMeans (stdEnv e wide cfg loc old ds) ⟨gap, id, some [c], read⟩) ∧
      ∀ sp d r, (∀ x ∈ sp, IsScalar x ∧ isSpace x = true) → (∀ x ∈ r, IsScalar x) →
        (IsDigit 36 d → read (encodes e (sp ++ 43 :: d :: r)) = read (encodes e (sp ++ d :: r))) ∧
        (∀ sg n, SignText sg → b ≠ 0 → IsDigit b d → Unprefixed b (d :: r) →
          read (encodes e (sp ++ (sg ++ List.replicate n 48 ++ d :: r))) = read (encodes e (sp ++ (sg ++ d :: r)))) ∧
        (∀ sg p, SignText sg → PrefixOf b p → IsDigit b d → Unprefixed b (d :: r) →
          read (encodes e (sp ++ (sg ++ p ++ d :: r))) = read (encodes e (sp ++ (sg ++ d :: r)))) ∧
        (∀ x rest, IsDigit 36 d → T.signed = true → uo = false → read (encodes e (sp ++ d :: r)) = .ok (.int x, rest) →
          read (encodes e (sp ++ 45 :: d :: r)) = .ok (.int (-x), rest)) := by
  obtain ⟨read, h1, h2⟩ := C82_integer_letters_partial (e := e) (wide := wide) (cfg := cfg) (loc := loc) (old := old) hd hT hty hc
  obtain ⟨_, _, _, _, _, _, hb, _⟩ := intLetter_facts hc
  refine ⟨read, h1, fun sp d r hsp hr => ⟨fun hdd => ?_, fun sg n hsg hb0 hdd hun => ?_, fun sg p hsg hp hdd hun => ?_, fun x rest hdd hsn huo h => ?_⟩⟩
  · have ha := letter_reads hT hb h2 hsp (sg := [43]) (Or.inr (Or.inl rfl)) (digit_plain hdd) hr
    have hb' := letter_reads hT hb h2 hsp (sg := []) (Or.inl rfl) (digit_plain hdd) hr
    have hp := digit_plain hdd
    simp only [List.cons_append, List.nil_append] at ha hb'
    rw [ha, hb', C116_plus _ T _ ⟨hp.2.2.2.1, hp.2.2.2.2⟩]
  · cases n with
    | zero => rw [List.replicate_zero, List.append_nil]
    | succ n =>
      have hdp := digit_plain hdd
      have hys : ∀ x ∈ List.replicate n 48 ++ d :: r, IsScalar x := fun x hx => by
        rcases List.mem_append.1 hx with hx | hx
        · rw [List.eq_of_mem_replicate hx]; decide
        · rcases List.mem_cons.1 hx with rfl | hx
          · have := hdp.1
            exact ⟨by omega, by omega⟩
          · exact hr x hx
      have ha := letter_reads hT hb h2 hsp hsg (y := 48) (by decide) hys
      have henc : encodes e (List.replicate n 48 ++ d :: r) = List.replicate n 48 ++ d :: encodes e r := by
        rw [encodes_append, encodes_asciis e _ fun x hx => by rw [List.eq_of_mem_replicate hx]; decide, encodes_sign hdp.1]
      have hz := C116_leading_zeros ⟨false, false⟩ hT (b := b) (by omega) uo hsg (n + 1) hdd (unprefixed_encodes (e := e) hdp.1 hr hun) (fun h => nomatch h)
      rw [letter_reads hT hb h2 hsp hsg hdp hr, ← hz]
      rw [henc] at ha
      simpa [List.replicate_succ] using ha
  · have hdp := digit_plain hdd
    obtain ⟨l, rfl, hl⟩ : ∃ l, p = [48, l] ∧ l < 128 := by
      unfold PrefixOf at hp
      split at hp
      · rcases hp with rfl | rfl <;> exact ⟨_, rfl, by decide⟩
      · rcases hp with rfl | rfl <;> exact ⟨_, rfl, by decide⟩
      · rcases hp with rfl | rfl <;> exact ⟨_, rfl, by decide⟩
      · exact hp.elim
    have hys : ∀ x ∈ l :: d :: r, IsScalar x := fun x hx => by
      rcases List.mem_cons.1 hx with rfl | hx
      · exact ⟨by omega, by omega⟩
      · rcases List.mem_cons.1 hx with rfl | hx
        · have := hdp.1
          exact ⟨by omega, by omega⟩
        · exact hr x hx
    have ha := letter_reads hT hb h2 hsp hsg (y := 48) (by decide) hys
    have hz := (C116_prefix ⟨false, false⟩ hT uo hsg hp hdd (unprefixed_encodes (e := e) hdp.1 hr hun) (fun h => nomatch h)).1
    rw [letter_reads hT hb h2 hsp hsg hdp hr, ← hz]
    rw [encodes_sign hl, encodes_sign hdp.1] at ha
    simpa using ha
  · have hdp := digit_plain hdd
    have ha := letter_reads hT hb h2 hsp (sg := [45]) (Or.inr (Or.inr rfl)) hdp hr
    have hb' := letter_reads hT hb h2 hsp (sg := []) (Or.inl rfl) hdp hr
    simp only [List.cons_append, List.nil_append] at ha hb'
    have ho := C117_opposite ⟨false, false⟩ hT hsn (sp := ⟨b, uo, none⟩) huo (c := d) (cs := encodes e r) ⟨hdp.2.2.2.1, hdp.2.2.2.2⟩ (fun h => nomatch h)
    rw [hb'] at h
    rw [ha]
    cases hp : readInt ⟨false, false⟩ T ⟨b, uo, none⟩ (d :: encodes e r) with
    | ok q =>
      rw [hp] at h ho
      have ho : readInt ⟨false, false⟩ T ⟨b, uo, none⟩ (45 :: d :: encodes e r) = Res.ok (-q.1, q.2) := ho
      rw [ho]
      cases h
      rfl
    | err y => rw [hp] at h; cases h
    | ub => rw [hp] at h; cases h

/-- `{:x}` into an `int`, from " -0x005€" and " -5€". -/
example : intLetter 120 = some (16, false) ∧ IntTy.Std ⟨32, true⟩ ∧ ArgTy.int.category = some .integer ∧ [Dest.int ⟨32, true⟩ .int][0]? = some (.int ⟨32, true⟩ .int) ∧
    SignText [45] ∧ PrefixOf 16 [48, 120] ∧ IsDigit 16 53 ∧ Unprefixed 16 [53, 0x20AC] ∧ (∀ x ∈ [0x20AC], IsScalar x) ∧
    (Dest.int ⟨32, true⟩ .int).readSpecs .utf16 .utf16 ⟨44, 46, [], [], fun _ _ _ _ => .none⟩ 0 { type := .intHex } (fun _ => .contiguous)
      [32, 45, 48, 120, 48, 48, 53, 0x20AC] = .ok (.int (-5), [0x20AC]) := by
  refine ⟨rfl, by decide, rfl, rfl, Or.inr (Or.inr rfl), Or.inl rfl, by decide, ?_, by unfold IsScalar; decide, by decide +kernel⟩
  rintro p d r (rfl | rfl) _ h <;> cases (List.cons.inj h).1

end Scn
