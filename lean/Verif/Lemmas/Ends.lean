import Verif.Lemmas.Defined
import Verif.Lemmas.Float4
import Verif.Lemmas.Regex
/-
String views, regular expressions and floating-point numbers are well-defined to read.
-/
namespace Scn
open Spec

/-! ### String views and regular expressions -/

theorem readStringView_sound (src dst : Enc) (stored : Bool) {s rest : List Nat} (h : rest <:+ s) :
    Sound (readStringView src dst stored s rest) s := by
  unfold readStringView
  split
  · exact Sound.err _ _
  · split
    · exact Sound.err _ _
    · obtain ⟨b, hb⟩ := validate_total_aux src _ (between s rest) (Nat.le_refl _)
      have hb' : validateUnicode src (between s rest) = some b := hb
      rw [hb']
      cases b with
      | false => exact Sound.err _ _
      | true => exact Sound.ok _ h

/-- The end of a text is defined, and inside the source. -/
def EndOk (r : Res (List Nat)) (s : List Nat) : Prop := r ≠ .ub ∧ ∀ it, r = .ok it → it <:+ s

theorem EndOk.err (x : Err) (s : List Nat) : EndOk (.err x) s := ⟨by simp, by simp⟩

theorem EndOk.ok {it s : List Nat} (h : it <:+ s) : EndOk (.ok it) s := ⟨by simp, fun _ hx => by cases hx; exact h⟩

theorem EndOk.bind {V : Type} {r : Res (List Nat)} {s : List Nat} (h : EndOk r s) {f : List Nat → Res (V × List Nat)}
    (hf : ∀ it, it <:+ s → Sound (f it) s) : Sound (r.bind f) s := by
  cases r with
  | ub => exact absurd rfl h.1
  | err x => exact Sound.err _ _
  | ok it => exact hf it (h.2 it rfl)

theorem charsetSource_end {src : Enc} {sp : Specs} (hset : handleNonascii src sp ≠ .ub) (s : List Nat) :
    EndOk (charsetSource src sp s) s := by
  unfold charsetSource
  cases hr : handleNonascii src sp with
  | ub => exact absurd hr hset
  | err x => exact EndOk.err _ _
  | ok ranges =>
    simp only [Res.bind_ok]
    have key : ∀ it, it <:+ s → EndOk (checkNonempty it s) s := by
      intro it hit
      rcases checkNonempty_cases it s with ⟨x, hx⟩ | hx <;> rw [hx]
      · exact EndOk.err _ _
      · exact EndOk.ok hit
    cases sp.nonascii with
    | true =>
      simp only [if_true]
      obtain ⟨p, h1, h2⟩ : ∃ p, (if sp.inverted then readUntilCp src (onExtraRanges sp ranges) s
             else readWhileCp src (onExtraRanges sp ranges) s) = some p ∧ p <:+ s := by
        split
        · exact readUntilCp_total _ _ _
        · exact readUntilCp_total _ _ _
      rw [h1]
      exact key p h2
    | false =>
      simp only [Bool.false_eq_true, if_false]
      apply key
      split <;> exact List.dropWhile_suffix _

theorem stringEnd_ok {e : Enc} {sp : Specs} (hset : handleNonascii e sp ≠ .ub) (k : StrKind) (l : Layout) (s : List Nat) (hu : UnitsOk e s) :
    EndOk (stringEnd e sp k l s) s := by
  unfold stringEnd
  cases k with
  | word =>
    obtain ⟨p, h1, h2⟩ := readUntilSpace_any e l s hu
    dsimp only
    rw [h1]
    exact EndOk.ok h2
  | customWord =>
    dsimp only
    split
    · exact EndOk.ok (List.dropWhile_suffix _)
    · exact EndOk.ok (readUntilUnits_suffix _ _)
  | character =>
    dsimp only
    split
    · exact EndOk.ok List.nil_suffix
    · exact EndOk.err _ _
  | characterSet => exact charsetSource_end hset s

theorem regexStringEnd_ok (e : Enc) (loc : LocaleData) {sp : Specs} (ht : strKind sp = none) (l : Layout) (s : List Nat) :
    EndOk (regexStringEnd e loc sp l s) s := by
  obtain ⟨p, hp⟩ : ∃ p, regexPattern sp = some p := by
    unfold strKind at ht
    unfold regexPattern
    cases hty : sp.type <;> rw [hty] at ht <;> first
      | exact ⟨_, rfl⟩
      | exact ⟨_, unescapePattern_spec _⟩
      | cases ht
      | (dsimp only at ht; split at ht <;> cases ht)
  unfold regexStringEnd
  split
  · exact EndOk.err _ _
  · rw [hp]
    dsimp only
    split
    · exact EndOk.err _ _
    · exact EndOk.err _ _
    · exact EndOk.ok (List.drop_suffix _ _)

/-! ### Floating-point numbers -/

/-- The text of a number, where its kind needs one, is there, and made of units of the source. -/
def BodyOk (s : List Nat) (b : FloatBody) : Prop :=
  (b.kind = .infShort ∨ b.kind = .infLong ∨ b.kind = .nanSimple ∨ b.kind = .nanPayload) ∨ (b.text ≠ [] ∧ ∀ c ∈ b.text, c ∈ s)

theorem mem_of_drop {s : List Nat} {n c : Nat} (h : c ∈ s.drop n) : c ∈ s := (List.drop_suffix n s).subset h

theorem readPoint_sub (loc : FloatLoc) (s : List Nat) : ∀ c ∈ readPoint loc s, c ∈ s := by
  intro c hc
  cases s with
  | nil => cases hc
  | cons d ds =>
    simp only [readPoint] at hc
    split at hc
    · simp only [List.mem_singleton] at hc; rw [hc]; exact List.mem_cons_self
    · cases hc

theorem readExponent_sub (letters s : List Nat) : ∀ c ∈ readExponent letters s, c ∈ s := by
  intro c hc
  cases s with
  | nil => cases hc
  | cons d ds =>
    have key : ∀ sg : List Nat, (∀ c ∈ sg, c ∈ ds) →
        c ∈ (if (ds.drop sg.length).takeWhile (fun d => decide (charToInt d < 10)) = [] then []
          else d :: (sg ++ (ds.drop sg.length).takeWhile fun d => decide (charToInt d < 10))) → c ∈ d :: ds := by
      intro sg hsg hc
      split at hc
      · cases hc
      · rcases List.mem_cons.1 hc with rfl | hc
        · exact List.mem_cons_self
        · apply List.mem_cons_of_mem
          rcases List.mem_append.1 hc with hc | hc
          · exact hsg c hc
          · exact mem_of_drop ((List.takeWhile_prefix _).subset hc)
    unfold readExponent at hc
    dsimp only at hc
    split at hc
    · split at hc
      · exact key _ (fun c hc => List.mem_of_mem_take hc) hc
      · exact key [] (fun c hc => absurd hc List.not_mem_nil) hc
    · cases hc

theorem readSignificand_sub {loc : FloatLoc} {base : Nat} {s t : List Nat} (h : readSignificand loc base s = some t) :
    t ≠ [] ∧ ∀ c ∈ t, c ∈ s := by
  unfold readSignificand at h
  split at h
  · cases h
  · rename_i hne
    cases h
    refine ⟨fun h => ?_, fun c hc => ?_⟩
    · simp only [List.append_eq_nil_iff] at h
      exact hne h.1.1
    · rcases List.mem_append.1 hc with hc | hc
      · rcases List.mem_append.1 hc with hc | hc
        · exact (List.takeWhile_prefix _).subset hc
        · exact mem_of_drop (readPoint_sub _ _ c hc)
      · exact mem_of_drop ((List.takeWhile_prefix _).subset hc)

theorem readRegular_ok {loc : FloatLoc} {o : FloatOpts} {s : List Nat} {b : FloatBody}
    (h : (readRegularFloat loc o s).map (fun r => ({ kind := r.1, text := r.2 } : FloatBody)) = .ok b) : BodyOk s b := by
  unfold readRegularFloat at h
  split at h
  · cases h
  · rename_i t ht
    obtain ⟨h1, h2⟩ := readSignificand_sub ht
    dsimp only at h
    have hx : ∀ c ∈ (if o.sci then readExponent [101, 69] (s.drop t.length) else []), c ∈ s := by
      intro c hc
      split at hc
      · exact mem_of_drop (readExponent_sub _ _ c hc)
      · cases hc
    generalize (if o.sci then readExponent [101, 69] (s.drop t.length) else []) = x at hx h
    by_cases hy : (o.sci && !o.fixed && x.isEmpty) = true
    · rw [if_pos hy] at h; cases h
    · rw [if_neg hy] at h
      cases h
      refine Or.inr ⟨by simp [h1], fun c hc => ?_⟩
      rcases List.mem_append.1 hc with hc | hc
      · exact h2 c hc
      · exact hx c hc

theorem floatHex_ok {k : Src} {loc : FloatLoc} {kd : FloatKind} {pre r s : List Nat} (hpre : ∀ c ∈ pre, c ∈ s) (hr : ∀ c ∈ r, c ∈ s)
    {b : FloatBody} (h : floatHex k loc kd pre r = .ok b) : BodyOk s b := by
  unfold floatHex at h
  split at h
  · split at h
    · cases h
    · rename_i hne
      cases h
      exact Or.inr ⟨hne, fun c hc => (List.mem_append.1 hc).elim (hpre c) (hr c)⟩
  · unfold readHexfloat at h
    split at h
    · cases h
    · rename_i t ht
      obtain ⟨h1, h2⟩ := readSignificand_sub ht
      cases h
      refine Or.inr ⟨by simp [h1], fun c hc => ?_⟩
      rcases List.mem_append.1 hc with hc | hc
      · exact hpre c hc
      · rcases List.mem_append.1 hc with hc | hc
        · exact hr c (h2 c hc)
        · exact hr c (mem_of_drop (readExponent_sub _ _ c hc))

theorem floatHex_ub {k : Src} {loc : FloatLoc} {kd : FloatKind} {pre r : List Nat} : floatHex k loc kd pre r ≠ .ub := by
  intro h
  unfold floatHex at h
  split at h
  · split at h <;> cases h
  · unfold readHexfloat at h
    split at h <;> cases h

theorem readRegular_ub {loc : FloatLoc} {o : FloatOpts} {s : List Nat} :
    (readRegularFloat loc o s).map (fun r => ({ kind := r.1, text := r.2 } : FloatBody)) ≠ .ub := by
  intro h
  unfold readRegularFloat at h
  split at h
  · cases h
  · dsimp only at h
    generalize (if o.sci then readExponent [101, 69] _ else []) = x at h
    by_cases hy : (o.sci && !o.fixed && x.isEmpty) = true
    · rw [if_pos hy] at h; cases h
    · rw [if_neg hy] at h; cases h

theorem hexPrefix_sub {k : Src} {s r : List Nat} (h : hexPrefix k s = some r) : ∀ c ∈ r, c ∈ s := by
  unfold hexPrefix at h
  rw [readMatch2 k _ 120 (by decide)] at h
  intro c hc
  cases s with
  | nil => cases h
  | cons x s =>
    cases s with
    | nil => cases h
    | cons y s =>
      dsimp only at h
      split at h
      · cases h; exact List.mem_cons_of_mem _ (List.mem_cons_of_mem _ hc)
      · cases h

theorem floatBody_ok {k : Src} {loc : FloatLoc} {o : FloatOpts} {s : List Nat} :
    floatBody k loc o s ≠ .ub ∧ ∀ b, floatBody k loc o s = .ok b → BodyOk s b := by
  have key : ∀ r, floatBody k loc o s = r → r ≠ .ub ∧ ∀ b, r = .ok b → BodyOk s b := by
    intro r h
    unfold floatBody at h
    split at h
    · rename_i kd hkd
      subst h
      refine ⟨by simp, fun b hb => ?_⟩
      cases hb
      unfold readInf at hkd
      cases hm : readMatchingNocase k s [105, 110, 102] with
      | none => rw [hm] at hkd; cases hkd
      | some r =>
        rw [hm] at hkd
        simp only [Option.map_some, Option.some.injEq] at hkd
        left
        rw [← hkd]
        split <;> simp
    · split at h
      · rename_i r hr
        rcases readNan_cases hr with ⟨pl, rfl⟩ | rfl
        · subst h
          refine ⟨by simp [Res.map], fun b hb => ?_⟩
          cases pl <;> cases hb <;> simp [BodyOk]
        · subst h
          exact ⟨by simp [Res.map], fun b hb => by cases hb⟩
      · have hx : ∀ kd, floatHex k loc kd [] s ≠ .ub ∧ ∀ b, floatHex k loc kd [] s = .ok b → BodyOk s b :=
          fun kd => ⟨floatHex_ub, fun b hb => floatHex_ok (fun _ h => absurd h List.not_mem_nil) (fun _ h => h) hb⟩
        have hy : ∀ kd r, hexPrefix k s = some r → floatHex k loc kd (s.take 2) r ≠ .ub ∧ ∀ b, floatHex k loc kd (s.take 2) r = .ok b → BodyOk s b :=
          fun kd r hr => ⟨floatHex_ub, fun b hb => floatHex_ok (fun _ h => List.mem_of_mem_take h) (hexPrefix_sub hr) hb⟩
        split at h
        · split at h
          · rename_i hr; subst h; exact hy _ _ hr
          · subst h; exact hx _
        · split at h
          · subst h; exact ⟨readRegular_ub, fun b hb => readRegular_ok hb⟩
          · split at h
            · rename_i hr; subst h; exact hy _ _ hr
            · unfold floatRegular at h
              split at h
              · split at h
                · subst h; exact ⟨by simp, fun b hb => by cases hb⟩
                · rename_i hne; subst h; exact ⟨by simp, fun b hb => by cases hb; exact Or.inr ⟨hne, fun _ h => h⟩⟩
              · subst h; exact ⟨readRegular_ub, fun b hb => readRegular_ok hb⟩
  exact key _ rfl

/-- What is left for the conversion is not empty, and a view that is not stored is the text itself. -/
theorem handleSeparators_ok (loc : FloatLoc) (st : Bool) {t : List Nat} (ht : t ≠ []) :
    (handleSeparators loc st t).view ≠ [] ∧ ((handleSeparators loc st t).stored = none → (handleSeparators loc st t).view = t) := by
  unfold handleSeparators
  split
  · exact ⟨ht, fun _ => rfl⟩
  · have hstr : (if loc.point ≠ 46 then t.map (fun c => if c = loc.point then 46 else c) else t) ≠ [] := by
      split <;> simp [ht]
    dsimp only
    generalize (if loc.point ≠ 46 then t.map (fun c => if c = loc.point then 46 else c) else t) = str at hstr
    split
    · exact ⟨hstr, fun h => by cases h⟩
    · exact ⟨by simp, fun h => by cases h⟩

theorem strtodImpl_ub {V : Type} (cv : FloatConv V) (e : Enc) (kd : FloatKind) (b : FloatBuffer) (h : b.stored = none → UnitsOk e b.view) :
    strtodImpl cv e kd b ≠ .ub := by
  obtain ⟨t, ht⟩ : ∃ t, strtodInput e b = some t := by
    unfold strtodInput
    cases hs : b.stored with
    | some s => exact ⟨_, rfl⟩
    | none =>
      obtain ⟨p, hp, -⟩ := readUntilSpace_any e .contiguous b.view (h hs)
      rw [hp]
      exact ⟨_, rfl⟩
  unfold strtodImpl
  rw [ht]
  dsimp only
  repeat' split
  all_goals simp

theorem floatDispatch_ub {V : Type} (cv : FloatConv V) (e : Enc) (o : FloatOpts) (kd : FloatKind) (b : FloatBuffer) (p : List Nat)
    (hk : (kd = .infShort ∨ kd = .infLong ∨ kd = .nanSimple ∨ kd = .nanPayload) ∨ (b.view ≠ [] ∧ (b.stored = none → UnitsOk e b.view))) :
    floatDispatch cv e o kd b p ≠ .ub := by
  rcases hk with h | ⟨hv, hu⟩
  · rcases h with rfl | rfl | rfl | rfl <;> simp [floatDispatch]
  · have hstr := strtodImpl_ub cv e kd b hu
    obtain ⟨c, cs, hc⟩ := List.exists_cons_of_ne_nil hv
    unfold floatDispatch
    rw [hc]
    split <;> try simp
    repeat' split
    all_goals first | exact hstr | simp

/-- Floating-point numbers of any source, with any locale. -/
theorem readFloatAs_sound {V : Type} (cv : FloatConv V) (e : Enc) (k : Src) (seg : Bool) (loc : FloatLoc) {ty : Pres} (hty : floatOptions ty ≠ none)
    (s : List Nat) (hu : UnitsOk e s) : Sound (readFloatAs cv e k seg loc ty s) s := by
  unfold readFloatAs
  split
  · rename_i h; exact absurd h hty
  · rename_i o _
    unfold readFloat
    split
    · exact Sound.err _ _
    · rename_i s1 sign hs
      have hsub : ∀ c ∈ s1, c ∈ s := by
        obtain ⟨sg, h1, -⟩ := sign_split hs
        exact fun c hc => by rw [h1]; exact List.mem_append_right _ hc
      cases hb : floatBody k loc o s1 with
      | ub => exact absurd hb floatBody_ok.1
      | err x => exact Sound.err _ _
      | ok body =>
        simp only [Res.bind_ok]
        have hbody := floatBody_ok.2 body hb
        have hd : floatDispatch cv e o body.kind (handleSeparators loc (!k.contiguous && seg) body.text) body.payload ≠ .ub := by
          apply floatDispatch_ub
          rcases hbody with h | ⟨h1, h2⟩
          · exact Or.inl h
          · obtain ⟨h3, h4⟩ := handleSeparators_ok loc (!k.contiguous && seg) h1
            exact Or.inr ⟨h3, fun h => by rw [h4 h]; exact hu.sub fun c hc => hsub c (h2 c hc)⟩
        split
        · rename_i h; exact absurd h hd
        · exact Sound.err _ _
        · exact Sound.ok _ (List.drop_suffix _ _)

end Scn
