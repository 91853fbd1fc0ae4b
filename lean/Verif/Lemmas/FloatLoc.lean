import Verif.Lemmas.Boundary4
import Verif.Lemmas.FloatText
/-
A localized floating-point number is read from a text as from its characters.
-/
namespace Scn
open Spec
variable {V : Type}

theorem encodes_singles {e : Enc} : ∀ {a : List Nat}, (∀ u ∈ a, Single e u) → ∀ cps, encodes e (a ++ cps) = a ++ encodes e cps
  | [], _, _ => rfl
  | u :: a, h, cps => by
    rw [List.cons_append, encodes_cons, (h u (by simp)).2, encodes_singles (fun v hv => h v (by simp [hv]))]
    rfl

theorem SinglePrefix.drop {e : Enc} {cps t : List Nat} (h : SinglePrefix e cps t) : (encodes e cps).drop t.length = encodes e (cps.drop t.length) := by
  obtain ⟨⟨q, rfl⟩, h⟩ := h
  rw [encodes_singles h, List.drop_left, List.drop_left]

theorem takeWhile_encodes {e : Enc} {p : Nat → Bool} (hp : ∀ c, p c = true → Single e c) : ∀ {cps : List Nat}, (∀ c ∈ cps, IsScalar c) →
    (encodes e cps).takeWhile p = cps.takeWhile p
  | [], _ => rfl
  | c :: cs, h => by
    by_cases hc : p c = true
    · have hE : encodes e (c :: cs) = c :: encodes e cs := by rw [encodes_cons, (hp c hc).2]; rfl
      rw [hE, List.takeWhile_cons_of_pos hc, List.takeWhile_cons_of_pos hc, takeWhile_encodes hp (fun x hx => h x (by simp [hx]))]
    · cases hE : encodes e (c :: cs) with
      | nil => rw [List.takeWhile_cons_of_neg hc]; rfl
      | cons u us =>
        have : ¬ p u = true := by
          intro hu
          obtain ⟨cps', h1, _⟩ := encodes_single_head h hE (hp u hu)
          cases h1
          exact hc hu
        rw [List.takeWhile_cons_of_neg hc, List.takeWhile_cons_of_neg this]

theorem readPoint_encodes {e : Enc} {loc : FloatLoc} (hp : Single e loc.point) {cps : List Nat} (h : ∀ c ∈ cps, IsScalar c) :
    readPoint loc (encodes e cps) = readPoint loc cps := by
  cases cps with
  | nil => rfl
  | cons c cs =>
    by_cases hc : c = loc.point
    · have hE : encodes e (c :: cs) = c :: encodes e cs := by rw [encodes_cons, hc, hp.2]; rfl
      rw [hE]; rfl
    · cases hE : encodes e (c :: cs) with
      | nil =>
        obtain ⟨d, ds, hd⟩ := encode_cons e c
        rw [encodes_cons, hd] at hE
        cases hE
      | cons u us =>
        unfold readPoint
        dsimp only
        rw [if_neg hc, if_neg]
        rintro rfl
        obtain ⟨cps', h1, _⟩ := encodes_single_head h hE hp
        cases h1
        exact hc rfl

theorem scalar_drop {cps : List Nat} (h : ∀ c ∈ cps, IsScalar c) (n : Nat) : ∀ c ∈ cps.drop n, IsScalar c := fun c hc => h c (List.mem_of_mem_drop hc)

theorem readSignificand_encodes {e : Enc} {loc : FloatLoc} (hsep : loc.sep ≠ 0 → Single e loc.sep) (hp : Single e loc.point) {b : Nat} (hb : b ≤ 36)
    {cps : List Nat} (h : ∀ c ∈ cps, IsScalar c) : readSignificand loc b (encodes e cps) = readSignificand loc b cps := by
  have hs : ∀ th c, floatDigit loc b th c = true → Single e c := fun th c hc => floatDigit_single hsep hb hc
  have hi := singlePrefix_run (e := e) cps (hs true)
  unfold readSignificand
  rw [takeWhile_encodes (hs true) h]
  generalize cps.takeWhile (floatDigit loc b true) = i at hi
  cases i with
  | nil => rfl
  | cons d ds =>
    dsimp only
    rw [hi.drop, readPoint_encodes hp (scalar_drop h _)]
    have ht : SinglePrefix e cps (d :: ds ++ readPoint loc (cps.drop (d :: ds).length)) := by
      refine hi.append ?_
      generalize cps.drop _ = r
      unfold readPoint
      split
      · exact SinglePrefix.nil _ _
      · split
        · rename_i c cs hc
          subst hc
          exact ⟨⟨cs, rfl⟩, fun u hu => by rw [List.mem_singleton.1 hu]; exact hp⟩
        · exact SinglePrefix.nil _ _
    rw [ht.drop, takeWhile_encodes (hs false) (scalar_drop h _)]

theorem readExponent_encodes {e : Enc} {letters : List Nat} (hl : ∀ c ∈ letters, c < 128) {cps : List Nat} (h : ∀ c ∈ cps, IsScalar c) :
    readExponent letters (encodes e cps) = readExponent letters cps := by
  cases cps with
  | nil => rfl
  | cons c cs =>
    have hcs : ∀ x ∈ cs, IsScalar x := fun x hx => h x (by simp [hx])
    rcases encodes_cases e c cs (h c (by simp)) with ⟨hc, hE⟩ | ⟨hc, u, us, hu, hE⟩
    · rw [hE]
      unfold readExponent
      dsimp only
      split
      · have hsg : (match parseNumericSign (encodes e cs) with
            | some (_, some _) => (encodes e cs).take 1
            | _ => []) = (match parseNumericSign cs with
            | some (_, some _) => cs.take 1
            | _ => []) ∧ SinglePrefix e cs (match parseNumericSign cs with
            | some (_, some _) => cs.take 1
            | _ => []) := by
          cases cs with
          | nil => exact ⟨rfl, SinglePrefix.nil _ _⟩
          | cons d ds =>
            have hno : ∀ v vs, v ≠ 45 → v ≠ 43 → parseNumericSign (v :: vs) = some (v :: vs, none) := by
              intro v vs h1 h2
              unfold parseNumericSign
              dsimp only
              rw [if_neg h1, if_neg h2]
            rcases encodes_cases e d ds (hcs d (by simp)) with ⟨hd, hE'⟩ | ⟨hd, v, vs, hv, hE'⟩
            · rw [hE']
              by_cases h45 : d = 45
              · subst h45
                exact ⟨rfl, ⟨ds, rfl⟩, fun u hu => by rw [List.mem_singleton.1 hu]; exact single_ascii e (by decide)⟩
              · by_cases h43 : d = 43
                · subst h43
                  exact ⟨rfl, ⟨ds, rfl⟩, fun u hu => by rw [List.mem_singleton.1 hu]; exact single_ascii e (by decide)⟩
                · rw [hno d _ h45 h43, hno d _ h45 h43]
                  exact ⟨rfl, SinglePrefix.nil _ _⟩
            · rw [hE', hno v _ (by omega) (by omega), hno d _ (by omega) (by omega)]
              exact ⟨rfl, SinglePrefix.nil _ _⟩
        have key : ∀ sg sg' : List Nat, sg' = sg → SinglePrefix e cs sg →
            (if (((encodes e cs).drop sg'.length).takeWhile fun d => charToInt d < 10) = [] then []
              else c :: (sg' ++ ((encodes e cs).drop sg'.length).takeWhile fun d => charToInt d < 10)) =
            (if ((cs.drop sg.length).takeWhile fun d => charToInt d < 10) = [] then []
              else c :: (sg ++ (cs.drop sg.length).takeWhile fun d => charToInt d < 10)) := by
          rintro sg _ rfl h
          rw [h.drop, takeWhile_encodes (fun d hd => single_ascii e (digitValue_ascii (b := 10) (by omega) (by simpa using hd))) (scalar_drop hcs _)]
        exact key _ _ hsg.1 hsg.2
      · rfl
    · rw [hE]
      unfold readExponent
      dsimp only
      rw [if_neg (fun h => by have := hl u h; omega), if_neg (fun h => by have := hl c h; omega)]

theorem readHexfloat_encodes {e : Enc} {loc : FloatLoc} (hsep : loc.sep ≠ 0 → Single e loc.sep) (hp : Single e loc.point)
    {cps : List Nat} (h : ∀ c ∈ cps, IsScalar c) : readHexfloat loc (encodes e cps) = readHexfloat loc cps := by
  unfold readHexfloat
  rw [readSignificand_encodes hsep hp (by omega) h]
  cases ht : readSignificand loc 16 cps with
  | none => rfl
  | some t =>
    dsimp only
    rw [(readSignificand_single hsep hp (by omega) ht).drop, readExponent_encodes (by decide) (scalar_drop h _)]

theorem readRegularFloat_encodes {e : Enc} {loc : FloatLoc} (hsep : loc.sep ≠ 0 → Single e loc.sep) (hp : Single e loc.point) (o : FloatOpts)
    {cps : List Nat} (h : ∀ c ∈ cps, IsScalar c) : readRegularFloat loc o (encodes e cps) = readRegularFloat loc o cps := by
  unfold readRegularFloat
  rw [readSignificand_encodes hsep hp (by omega) h]
  cases ht : readSignificand loc 10 cps with
  | none => rfl
  | some t =>
    dsimp only
    rw [(readSignificand_single hsep hp (by omega) ht).drop, readExponent_encodes (by decide) (scalar_drop h _)]

theorem hexPrefix_encodes {e : Enc} (k : Src) {cps : List Nat} (h : ∀ c ∈ cps, IsScalar c) :
    hexPrefix k (encodes e cps) = (hexPrefix k cps).map (encodes e) ∧
      ∀ r, hexPrefix k cps = some r → (encodes e cps).take 2 = cps.take 2 ∧ r <:+ cps := by
  unfold hexPrefix
  rw [readMatch2 k _ 120 (by decide), readMatch2 k _ 120 (by decide)]
  rcases cps with _ | ⟨a, _ | ⟨b, t⟩⟩
  · exact ⟨rfl, fun r h => by cases h⟩
  · refine ⟨?_, fun r h => by cases h⟩
    rcases encodes_cases e a [] (h a (by simp)) with ⟨_, hE⟩ | ⟨_, u, us, hu, hE⟩
    · rw [hE]; rfl
    · rw [hE]
      cases us with
      | nil => rfl
      | cons v vs =>
        dsimp only
        rw [if_neg (by omega)]
        rfl
  · have hb := h b (by simp)
    rcases encodes_cases e a (b :: t) (h a (by simp)) with ⟨_, hE⟩ | ⟨ha, u, us, hu, hE⟩
    · rcases encodes_cases e b t hb with ⟨_, hE'⟩ | ⟨hb, v, vs, hv, hE'⟩
      · rw [hE, hE']
        refine ⟨?_, fun r _ => ⟨rfl, ?_⟩⟩
        · dsimp only
          split <;> rfl
        · rename_i hr
          dsimp only at hr
          split at hr
          · cases hr
            exact (List.suffix_cons _ _).trans (List.suffix_cons _ _)
          · cases hr
      · rw [hE, hE']
        dsimp only
        rw [if_neg (by omega), if_neg (by omega)]
        exact ⟨rfl, fun r h => by cases h⟩
    · rw [hE]
      have hno : (if (a = 48 ∨ (k.contiguous = true ∧ k.narrow = true ∧ a = 16)) ∧ (b = 120 ∨ b = 120 - 32) then some t else none) = none := by
        rw [if_neg (by omega)]
      dsimp only
      rw [hno]
      refine ⟨?_, fun r h => by cases h⟩
      cases us with
      | nil => rfl
      | cons v vs => dsimp only; rw [if_neg (by omega)]; rfl

/-- The text of a localized number is the same in all encodings. -/
theorem floatBody_encodes {e : Enc} {k : Src} {loc : FloatLoc} (hn : ¬ (loc.sep = 0 ∧ loc.point = 46)) (hsep : loc.sep ≠ 0 → Single e loc.sep)
    (hp : Single e loc.point) (o : FloatOpts) {cps : List Nat} (h : ∀ c ∈ cps, IsScalar c) : floatBody k loc o (encodes e cps) = floatBody k loc o cps := by
  have hcl : (k.contiguous && loc.sep == 0 && loc.point == 46) = false := by
    rw [Bool.and_eq_false_iff, Bool.and_eq_false_iff]
    by_cases h1 : loc.sep = 0
    · right
      rw [beq_eq_false_iff_ne]
      exact fun h2 => hn ⟨h1, h2⟩
    · left; right
      rw [beq_eq_false_iff_ne]
      exact h1
  have hreg : floatRegular k loc o (encodes e cps) = floatRegular k loc o cps := by
    unfold floatRegular
    rw [hcl]
    simp only [Bool.false_eq_true, if_false]
    rw [readRegularFloat_encodes hsep hp o h]
  have hhex : ∀ kind pre cs, (∀ c ∈ cs, IsScalar c) → floatHex k loc kind pre (encodes e cs) = floatHex k loc kind pre cs := by
    intro kind pre cs hcs
    unfold floatHex
    rw [hcl]
    simp only [Bool.false_eq_true, if_false]
    rw [readHexfloat_encodes hsep hp hcs]
  unfold floatBody
  rw [readInf_same k k (SameAscii.encodes e h), readNan_same k k (SameAscii.encodes e h), readRegularFloat_encodes hsep hp o h, hreg, hhex _ _ _ h]
  obtain ⟨h1, h2⟩ := hexPrefix_encodes (e := e) k h
  rw [h1]
  cases hx : hexPrefix k cps with
  | none => rfl
  | some r =>
    obtain ⟨h3, h4⟩ := h2 r hx
    simp only [Option.map_some]
    rw [h3, hhex _ _ r (fun c hc => h c (h4.subset hc))]

/-- With a stored text, the conversions are given the same. -/
theorem floatDispatch_stored (cv : FloatConv V) (e e' : Enc) (o : FloatOpts) (kind : FloatKind) {b : FloatBuffer} {t : List Nat} (hb : b.stored = some t) (payload : List Nat) :
    floatDispatch cv e o kind b payload = floatDispatch cv e' o kind b payload := by
  have : strtodImpl cv e kind b = strtodImpl cv e' kind b := by
    unfold strtodImpl strtodInput
    rw [hb]
  unfold floatDispatch
  rw [this]

theorem sign_encodes (e : Enc) {cps : List Nat} (h : ∀ c ∈ cps, IsScalar c) :
    parseNumericSign (encodes e cps) = (parseNumericSign cps).map fun r => (encodes e r.1, r.2) := by
  cases cps with
  | nil => rfl
  | cons c cs =>
    rcases encodes_cases e c cs (h c (by simp)) with ⟨hc, hE⟩ | ⟨hc, u, us, hu, hE⟩
    · rw [hE]
      unfold parseNumericSign
      dsimp only
      split
      · rfl
      · split
        · rfl
        · rw [← hE]; rfl
    · rw [hE]
      unfold parseNumericSign
      dsimp only
      rw [if_neg (by omega), if_neg (by omega), if_neg (by omega), if_neg (by omega), ← hE]
      rfl

/-- What is left behind characters of one unit. -/
theorem dropped_encodes {e : Enc} : ∀ {a cps r : List Nat}, (∀ c ∈ cps, IsScalar c) → encodes e cps = a ++ r → (∀ u ∈ a, Single e u) →
    ∃ q, cps = a ++ q ∧ r = encodes e q
  | [], cps, _, _, h, _ => ⟨cps, rfl, h.symm⟩
  | u :: a, cps, r, hs, h, ha => by
    obtain ⟨cps', rfl, h'⟩ := encodes_single_head hs h (ha u (by simp))
    obtain ⟨q, rfl, hq⟩ := dropped_encodes (fun c hc => hs c (by simp [hc])) h'.symm (fun v hv => ha v (by simp [hv]))
    exact ⟨q, rfl, hq⟩

/-- A localized floating-point number is read from a text as from its characters, if the separator and the point are characters of one unit. -/
theorem readFloatAs_encodes_loc {cv : FloatConv V} (hcv : ReadsNumerals cv) (e : Enc) (k : Src) (seg : Bool) {loc : FloatLoc}
    (hn : ¬ (loc.sep = 0 ∧ loc.point = 46)) (hsep : loc.sep ≠ 0 → Single e loc.sep) (hp : Single e loc.point) (ty : Pres) {cps : List Nat}
    (h : ∀ c ∈ cps, IsScalar c) :
    readFloatAs cv e k seg loc ty (encodes e cps) = (readFloatAs cv .utf32 k seg loc ty cps).map fun r => (r.1, encodes e r.2) := by
  unfold readFloatAs
  cases ho : floatOptions ty with
  | none => rfl
  | some o =>
    dsimp only
    have hdrop : ∀ v r, readFloat cv e k seg loc o (encodes e cps) = .ok (v, r) → Dropped e (encodes e cps) r :=
      fun v r hr => readFloat_dropped hcv hsep hp (encodes_unitsOk e h) hr
    unfold readFloat at hdrop ⊢
    rw [sign_encodes e h] at hdrop ⊢
    cases hs : parseNumericSign cps with
    | none => rfl
    | some x =>
      obtain ⟨s, sign⟩ := x
      have hss : ∀ c ∈ s, IsScalar c := fun c hc => h c ((sign_suffix hs).subset hc)
      rw [hs] at hdrop
      simp only [Option.map_some] at hdrop ⊢
      rw [floatBody_encodes hn hsep hp o hss] at hdrop ⊢
      cases hb : floatBody k loc o s with
      | ub => rfl
      | err x => rfl
      | ok body =>
        rw [hb] at hdrop
        simp only [Res.bind] at hdrop ⊢
        obtain ⟨t, ht⟩ : ∃ t, (handleSeparators loc (!k.contiguous && seg) body.text).stored = some t := by
          rcases separators_cases loc (!k.contiguous && seg) body.text with ⟨_, _, _, h1⟩ | ⟨_, str, _, h1, _⟩
          · exact absurd h1 hn
          · exact ⟨str, h1⟩
        rw [floatDispatch_stored cv e .utf32 o body.kind ht] at hdrop ⊢
        cases hd : floatDispatch cv .utf32 o body.kind (handleSeparators loc (!k.contiguous && seg) body.text) body.payload with
        | ub => rfl
        | err x => rfl
        | ok r =>
          obtain ⟨v, n⟩ := r
          rw [hd] at hdrop
          simp only [Res.map]
          obtain ⟨a, ha, hsing⟩ := hdrop _ _ rfl
          congr 2
          generalize n + (if sign.isSome = true then 1 else 0) + (handleSeparators loc (!k.contiguous && seg) body.text).seps = m at ha
          obtain ⟨q, rfl, hq⟩ := dropped_encodes h ha hsing
          rw [hq]
          congr 1
          rw [encodes_singles hsing] at ha
          have hlen := congrArg List.length ha
          rw [List.length_append, List.length_append, List.length_drop, List.length_append] at hlen
          by_cases hm : m ≤ a.length
          · have : m = a.length := by omega
            rw [this, List.drop_left]
          · have hz : (encodes e q).length = 0 := by omega
            have hq0 : q = [] := by
              cases q with
              | nil => rfl
              | cons d ds =>
                obtain ⟨y, ys, hy⟩ := encode_cons e d
                rw [encodes_cons, hy] at hz
                simp at hz
            rw [hq0, List.append_nil, List.drop_eq_nil_of_le (by omega)]

end Scn
